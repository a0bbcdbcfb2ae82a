import Verif.C.Threads
import Verif.Props.Aead
import Verif.Props.Esp32
import Verif.Props.Neon
import Verif.Props.Masked
import Verif.Proof.RefHash
/-!
# Concurrent calls, interrupted calls (C62, C63)

The library keeps no state between calls, so calls may run concurrently (threads, interrupt handlers), and a call may be
cut off at any point (reset, power loss, cancelled thread) and made again.
-/

namespace Ascon.Props

open Ascon.C Ascon.Spec Ascon.Impl

attribute [local irreducible] perm

/-- A call of a function of the API: the implementation, the address of the automatic arrays, the arguments, and the byte
strings its input pointers point to. -/
inductive ApiCall where
  /-- `crypto_aead_encrypt(c, clen, m, |P|, ad, |A|, nsec, npub, k)` -/
  | encrypt (i : Aead) (sp c clen m ad nsec npub k : Nat) (K N A P : List Byte)
  /-- `crypto_aead_decrypt(m, mlen, nsec, c, |C|, ad, |A|, npub, k)`, `|C| ≥ 16` -/
  | decrypt (i : Aead) (sp m mlen nsec c ad npub k : Nat) (K N A C : List Byte)
  /-- `crypto_aead_decrypt(m, mlen, nsec, c, clen, ad, adlen, npub, k)`, `clen < 16`; the pointers may be anything -/
  | decryptShort (i : Aead) (sp m mlen nsec c clen ad adlen npub k : Nat)
  /-- `crypto_hash(out, in, |M|)` of Ascon-Hash256 -/
  | hash (i : Hash) (sp out inp : Nat) (M : List Byte)
  /-- `crypto_hash(out, in, |M|)` of Ascon-XOF128 with 64 bytes of output -/
  | hashX (i : HashX) (sp out inp : Nat) (M : List Byte)
  /-- `ascon_xof(out, n, in, |M|)` -/
  | xof (i : Xof) (sp out n inp : Nat) (M : List Byte)
  /-- `crypto_cxof(out, n, in, |M|, cs, |Z|)` -/
  | cxof (sp out n inp cs : Nat) (M Z : List Byte)
  /-- `crypto_auth(out, in, |M|, k)` of Ascon-Mac, Ascon-Prf, Ascon-PrfShort -/
  | mac (i : Auth) (sp out inp k : Nat) (K M : List Byte)
  | prfAuth (i : Auth) (sp out inp k : Nat) (K M : List Byte)
  | prfsAuth (i : Auth) (sp out inp k : Nat) (K M : List Byte)
  /-- `crypto_auth_verify(h, in, |M|, k)` -/
  | macVerify (i : Auth) (sp h inp k : Nat) (K M T : List Byte)
  | prfVerify (i : Auth) (sp h inp k : Nat) (K M T : List Byte)
  | prfsVerify (i : Auth) (sp h inp k : Nat) (K M T : List Byte)
  /-- `crypto_prf(out, n, in, |M|, k)` of Ascon-Mac, Ascon-Prf, Ascon-PrfShort -/
  | macPrf (i : Auth) (sp out n inp k : Nat) (K M : List Byte)
  | prf (i : Auth) (sp out n inp k : Nat) (K M : List Byte)
  | prfs (i : Auth) (sp out n inp k : Nat) (K M : List Byte)
  /-- the functions of src/esp32; `lw` is the width of `unsigned long` -/
  | esp32Encrypt (lw sp c clen m ad nsec npub k : Nat) (K N A P : List Byte)
  | esp32Decrypt (lw sp m mlen nsec c ad npub k : Nat) (K N A C : List Byte)
  | esp32DecryptShort (lw sp m mlen nsec c clen ad adlen npub k : Nat)
  | esp32Hash (lw sp out inp : Nat) (M : List Byte)
  | esp32Xof (lw sp out inp : Nat) (M : List Byte)
  /-- AEAD of neon; `regs` is what the vector registers contained, `fuel` bounds the jumps inside the assembly blocks -/
  | neonEncrypt (regs : Nat → Word) (fuel sp c clen m ad npub k : Nat) (K N A P : List Byte)
  | neonDecrypt (regs : Nat → Word) (fuel sp m mlen c ad npub k : Nat) (K N A C : List Byte)
  | neonDecryptShort (regs : Nat → Word) (fuel m mlen c clen ad adlen npub k : Nat)
  /-- the masked implementation protected_bi32_armv6_leveled; `ρ` is what `randombytes` delivers to this call, `h` the
  addresses `malloc` returns to it -/
  | maskedEncrypt (ρ : Nat → Word) (h : Masked.Heap) (c clen m ad npub k : Nat) (K N A P : List Byte)
  | maskedDecrypt (ρ : Nat → Word) (h : Masked.Heap) (m mlen c ad npub k : Nat) (K N A C : List Byte)
  | maskedDecryptShort (ρ : Nat → Word) (h : Masked.Heap) (m mlen c clen ad adlen npub k : Nat)

namespace ApiCall

/-- The code that runs. -/
def prog (e : Endian) : ApiCall → Prog Int
  | encrypt i sp c clen m ad nsec npub k _ _ A P => i.encrypt e sp c clen m P.length ad A.length nsec npub k
  | decrypt i sp m mlen nsec c ad npub k _ _ A C => i.decrypt e sp m mlen nsec c C.length ad A.length npub k
  | decryptShort i sp m mlen nsec c clen ad adlen npub k => i.decrypt e sp m mlen nsec c clen ad adlen npub k
  | hash i sp out inp M => i.hash256 e sp out inp M.length
  | hashX i sp out inp M => i.xof128 e sp out inp M.length
  | xof i sp out n inp M => i.xof128 e sp out n inp M.length
  | cxof sp out n inp cs M Z => Ref.crypto_cxof e sp out n inp M.length cs Z.length
  | mac i sp out inp k _ M => i.macAuth e sp out inp M.length k
  | prfAuth i sp out inp k _ M => i.prfAuth e sp out inp M.length k
  | prfsAuth i sp out inp k _ M => i.prfsAuth e sp out inp M.length k
  | macVerify i sp h inp k _ M _ => i.macVerify e sp h inp M.length k
  | prfVerify i sp h inp k _ M _ => i.prfVerify e sp h inp M.length k
  | prfsVerify i sp h inp k _ M _ => i.prfsVerify e sp h inp M.length k
  | macPrf i sp out n inp k _ M => i.macPrf e sp out n inp M.length k
  | prf i sp out n inp k _ M => i.prf e sp out n inp M.length k
  | prfs i sp out n inp k _ M => i.prfs e sp out n inp M.length k
  | esp32Encrypt lw sp c clen m ad nsec npub k _ _ A P =>
    Esp32.crypto_aead_encrypt 1 lw e sp c clen m P.length ad A.length nsec npub k
  | esp32Decrypt lw sp m mlen nsec c ad npub k _ _ A C =>
    Esp32.crypto_aead_decrypt 1 lw e sp m mlen nsec c C.length ad A.length npub k
  | esp32DecryptShort lw sp m mlen nsec c clen ad adlen npub k =>
    Esp32.crypto_aead_decrypt 1 lw e sp m mlen nsec c clen ad adlen npub k
  | esp32Hash lw sp out inp M => Esp32.hash256 1 lw e sp out inp M.length
  | esp32Xof lw sp out inp M => Esp32.xof128 1 lw e sp out inp M.length
  | neonEncrypt regs fuel _ c clen m ad npub k _ _ A P =>
    Neon.crypto_aead_encrypt fuel e regs c clen m P.length ad A.length npub k
  | neonDecrypt regs fuel _ m mlen c ad npub k _ _ A C =>
    Neon.crypto_aead_decrypt fuel e regs m mlen c C.length ad A.length npub k
  | neonDecryptShort regs fuel m mlen c clen ad adlen npub k =>
    Neon.crypto_aead_decrypt fuel e regs m mlen c clen ad adlen npub k
  | maskedEncrypt ρ h c clen m ad npub k _ _ A P =>
    Masked.crypto_aead_encrypt ρ h e c clen m P.length ad A.length npub k
  | maskedDecrypt ρ h m mlen c ad npub k _ _ A C =>
    Masked.crypto_aead_decrypt ρ h e m mlen c C.length ad A.length npub k
  | maskedDecryptShort ρ h m mlen c clen ad adlen npub k =>
    Masked.crypto_aead_decrypt ρ h e m mlen c clen ad adlen npub k

/-- The implementation supports the byte order of the target. -/
def runsOn (e : Endian) : ApiCall → Prop
  | encrypt i .. => i.runsOn e
  | decrypt i .. => i.runsOn e
  | decryptShort .. => True
  | hash i .. => i.runsOn e
  | hashX i .. => i.runsOn e
  | xof i .. => i.runsOn e
  | cxof .. => True
  | mac i .. => i.runsOn e
  | prfAuth i .. => i.runsOn e
  | prfsAuth i .. => i.runsOn e
  | macVerify i .. => i.runsOn e
  | prfVerify i .. => i.runsOn e
  | prfsVerify i .. => i.runsOn e
  | macPrf i .. => i.runsOn e
  | prf i .. => i.runsOn e
  | prfs i .. => i.runsOn e
  | esp32Encrypt .. => True
  | esp32Decrypt .. => True
  | esp32DecryptShort .. => True
  | esp32Hash .. => True
  | esp32Xof .. => True
  | neonEncrypt .. => e = .little
  | neonDecrypt .. => e = .little
  | neonDecryptShort .. => True
  | maskedEncrypt .. => e = .little
  | maskedDecrypt .. => e = .little
  | maskedDecryptShort .. => True

/-- What the caller provides: address and contents of every input. -/
def inputs : ApiCall → List (Nat × List Byte)
  | encrypt _ _ _ _ m ad _ npub k K N A P => [(k, K), (npub, N), (ad, A), (m, P)]
  | decrypt _ _ _ _ _ c ad npub k K N A C => [(k, K), (npub, N), (ad, A), (c, C)]
  | decryptShort .. => []
  | hash _ _ _ inp M => [(inp, M)]
  | hashX _ _ _ inp M => [(inp, M)]
  | xof _ _ _ _ inp M => [(inp, M)]
  | cxof _ _ _ inp cs M Z => [(inp, M), (cs, Z)]
  | mac _ _ _ inp k K M => [(k, K), (inp, M)]
  | prfAuth _ _ _ inp k K M => [(k, K), (inp, M)]
  | prfsAuth _ _ _ inp k K M => [(k, K), (inp, M)]
  | macVerify _ _ h inp k K M T => [(k, K), (inp, M), (h, T)]
  | prfVerify _ _ h inp k K M T => [(k, K), (inp, M), (h, T)]
  | prfsVerify _ _ h inp k K M T => [(k, K), (inp, M), (h, T)]
  | macPrf _ _ _ _ inp k K M => [(k, K), (inp, M)]
  | prf _ _ _ _ inp k K M => [(k, K), (inp, M)]
  | prfs _ _ _ _ inp k K M => [(k, K), (inp, M)]
  | esp32Encrypt _ _ _ _ m ad _ npub k K N A P => [(k, K), (npub, N), (ad, A), (m, P)]
  | esp32Decrypt _ _ _ _ _ c ad npub k K N A C => [(k, K), (npub, N), (ad, A), (c, C)]
  | esp32DecryptShort .. => []
  | esp32Hash _ _ _ inp M => [(inp, M)]
  | esp32Xof _ _ _ inp M => [(inp, M)]
  | neonEncrypt _ _ _ _ _ m ad npub k K N A P => [(k, K), (npub, N), (ad, A), (m, P)]
  | neonDecrypt _ _ _ _ _ c ad npub k K N A C => [(k, K), (npub, N), (ad, A), (c, C)]
  | neonDecryptShort .. => []
  | maskedEncrypt _ _ _ _ m ad npub k K N A P => [(k, K), (npub, N), (ad, A), (m, P)]
  | maskedDecrypt _ _ _ _ c ad npub k K N A C => [(k, K), (npub, N), (ad, A), (c, C)]
  | maskedDecryptShort .. => []

/-- What the standard says must come out: address and contents of every output.  (Decryption of a forgery leaves the
unverified candidate in the output buffer: C32.) -/
def outputs (e : Endian) : ApiCall → List (Nat × List Byte)
  | encrypt _ _ c clen _ _ _ _ _ K N A P =>
    [(clen, repr64 e (BitVec.ofNat 64 (P.length + 16))), (c, aeadEncrypt K N A P)]
  | decrypt _ _ m mlen _ _ _ _ _ K N A C =>
    [(mlen, repr64 e (BitVec.ofNat 64 (C.length - 16))),
     (m, (aeadDecrypt K N A C).getD (aeadCandidate K N A (ctBody C)))]
  | decryptShort .. => []
  | hash _ _ out _ M => [(out, hash256 M)]
  | hashX _ _ out _ M => [(out, xof128 M 64)]
  | xof _ _ out n _ M => [(out, xof128 M n)]
  | cxof _ out n _ _ M Z => [(out, cxof128 Z M n)]
  | mac _ _ out _ _ K M => [(out, Spec.mac K M)]
  | prfAuth _ _ out _ _ K M => [(out, Spec.prf K M 64)]
  | prfsAuth _ _ out _ _ K M => [(out, prfShort K M 16)]
  | macVerify .. => []
  | prfVerify .. => []
  | prfsVerify .. => []
  | macPrf _ _ out n _ _ K M => [(out, prfWith ivMac K M n)]
  | prf _ _ out n _ _ K M => [(out, Spec.prf K M n)]
  | prfs _ _ out n _ _ K M => [(out, prfShort K M n)]
  | esp32Encrypt _ _ c clen _ _ _ _ _ K N A P =>
    [(clen, repr64 e (BitVec.ofNat 64 (P.length + 16))), (c, aeadEncrypt K N A P)]
  | esp32Decrypt _ _ m mlen _ _ _ _ _ K N A C =>
    [(mlen, repr64 e (BitVec.ofNat 64 (C.length - 16))),
     (m, (aeadDecrypt K N A C).getD (aeadCandidate K N A (ctBody C)))]
  | esp32DecryptShort _ _ _ mlen .. => [(mlen, repr64 e 0)]
  | esp32Hash _ _ out _ M => [(out, hash256 M)]
  | esp32Xof _ _ out _ M => [(out, xof128 M 64)]
  | neonEncrypt _ _ _ c clen _ _ _ _ K N A P =>
    [(clen, repr64 e (BitVec.ofNat 64 (P.length + 16))), (c, aeadEncrypt K N A P)]
  | neonDecrypt _ _ _ m mlen _ _ _ _ K N A C =>
    [(mlen, repr64 e (BitVec.ofNat 64 (C.length - 16))),
     (m, (aeadDecrypt K N A C).getD (aeadCandidate K N A (ctBody C)))]
  | neonDecryptShort .. => []
  | maskedEncrypt _ _ c clen _ _ _ _ K N A P =>
    [(clen, repr64 e (BitVec.ofNat 64 (P.length + 16))), (c, aeadEncrypt K N A P)]
  | maskedDecrypt _ _ m mlen _ _ _ _ K N A C =>
    [(mlen, repr64 e (BitVec.ofNat 64 (C.length - 16))),
     (m, (aeadDecrypt K N A C).getD (aeadCandidate K N A (ctBody C)))]
  | maskedDecryptShort .. => []

/-- The value the function must return.  (The masked implementation compares 32-bit digests of the tags: C34.) -/
def result : ApiCall → Int
  | decrypt _ _ _ _ _ _ _ _ _ K N A C => if aeadDecrypt K N A C = none then -1 else 0
  | decryptShort .. => -1
  | macVerify _ _ _ _ _ K M T => if T = Spec.mac K M then 0 else -1
  | prfVerify _ _ _ _ _ K M T => if T = Spec.prf K M 64 then 0 else -1
  | prfsVerify _ _ _ _ _ K M T => if T = prfShort K M 16 then 0 else -1
  | esp32Decrypt _ _ _ _ _ _ _ _ _ K N A C => if aeadDecrypt K N A C = none then -1 else 0
  | esp32DecryptShort .. => -1
  | neonDecrypt _ _ _ _ _ _ _ _ _ K N A C => if aeadDecrypt K N A C = none then -1 else 0
  | neonDecryptShort .. => -1
  | maskedDecrypt _ _ _ _ _ _ _ _ K N A C =>
    if tagsMatch32 (ctTag C) (aeadDecTag K N A (ctBody C)) then 0 else -1
  | maskedDecryptShort .. => -1
  | _ => 0

/-- Address and size of the automatic arrays of the callee, and of the blocks it gets from `malloc`. -/
def stack : ApiCall → List (Nat × Nat)
  | encrypt _ sp .. => [(sp, 64)]
  | decrypt _ sp .. => [(sp, 64)]
  | hash _ sp .. => [(sp, 64)]
  | hashX _ sp .. => [(sp, 64)]
  | xof _ sp .. => [(sp, 64)]
  | cxof sp .. => [(sp, 64)]
  | macVerify _ sp .. => [(sp, 128)]
  | prfVerify _ sp .. => [(sp, 128)]
  | prfsVerify _ sp .. => [(sp, 128)]
  | esp32Encrypt _ sp .. => [(sp, 64)]
  | esp32Decrypt _ sp .. => [(sp, 64)]
  | neonEncrypt _ _ sp .. => [(sp, 64)]
  | neonDecrypt _ _ sp .. => [(sp, 64)]
  | maskedEncrypt _ h _ _ _ _ _ _ _ _ A P =>
    [(h.ks, 32), (h.ns, 16), (h.as, Masked.roundUp8 A.length), (h.ms, Masked.roundUp8 P.length),
     (h.cs, Masked.roundUp8 P.length + 16)]
  | maskedDecrypt _ h _ _ _ _ _ _ _ _ A C =>
    [(h.ks, 32), (h.ns, 16), (h.as, Masked.roundUp8 A.length), (h.ms, Masked.roundUp8 (C.length - 16)),
     (h.cs, Masked.roundUp8 (C.length - 16) + 16)]
  | _ => []

/-- Conditions on the arguments that do not depend on memory: lengths, and how the buffers of one call may overlap. -/
def side : ApiCall → Prop
  | encrypt _ _ c clen m ad _ npub k K N A P =>
    K.length = 16 ∧ N.length = 16 ∧ A.length < 2 ^ 64 ∧ P.length < 2 ^ 64 ∧ Disjoint clen 8 k 16 ∧
    Disjoint clen 8 npub 16 ∧ Disjoint clen 8 ad A.length ∧ Disjoint clen 8 m P.length ∧
    Disjoint clen 8 c (P.length + 16) ∧ (c ≤ m ∨ m + P.length ≤ c)
  | decrypt _ _ m mlen _ c ad npub k K N A C =>
    K.length = 16 ∧ N.length = 16 ∧ A.length < 2 ^ 64 ∧ 16 ≤ C.length ∧ C.length < 2 ^ 64 ∧ Disjoint mlen 8 k 16 ∧
    Disjoint mlen 8 npub 16 ∧ Disjoint mlen 8 ad A.length ∧ Disjoint mlen 8 c C.length ∧
    Disjoint mlen 8 m (C.length - 16) ∧ (m ≤ c ∨ c + C.length ≤ m)
  | decryptShort _ _ _ _ _ _ clen .. => clen < 16
  | hash _ _ _ _ M => M.length < 2 ^ 64
  | hashX _ _ _ _ M => M.length < 2 ^ 64
  | xof _ _ _ n _ M => M.length < 2 ^ 64 ∧ n < 2 ^ 64
  | cxof _ _ n _ _ M Z => M.length < 2 ^ 64 ∧ Z.length < 2 ^ 64 ∧ n < 2 ^ 64
  | mac _ _ _ _ _ K M => K.length = 16 ∧ M.length < 2 ^ 64
  | prfAuth _ _ _ _ _ K M => K.length = 16 ∧ M.length < 2 ^ 64
  | prfsAuth _ _ _ _ _ K M => K.length = 16 ∧ M.length ≤ 16
  | macVerify _ _ _ _ _ K M T => K.length = 16 ∧ M.length < 2 ^ 64 ∧ T.length = 16
  | prfVerify _ _ _ _ _ K M T => K.length = 16 ∧ M.length < 2 ^ 64 ∧ T.length = 64
  | prfsVerify _ _ _ _ _ K M T => K.length = 16 ∧ M.length ≤ 16 ∧ T.length = 16
  | macPrf _ _ _ n _ _ K M => K.length = 16 ∧ M.length < 2 ^ 64 ∧ n ≤ 16
  | prf _ _ _ n _ _ K M => K.length = 16 ∧ M.length < 2 ^ 64 ∧ n ≤ 64
  | prfs _ _ _ n _ _ K M => K.length = 16 ∧ M.length ≤ 16 ∧ n ≤ 16
  | esp32Encrypt lw _ c clen m ad _ npub k K N A P =>
    (K.length = 16 ∧ N.length = 16 ∧ A.length < 2 ^ 64 ∧ P.length < 2 ^ 64 ∧ Disjoint clen 8 k 16 ∧
    Disjoint clen 8 npub 16 ∧ Disjoint clen 8 ad A.length ∧ Disjoint clen 8 m P.length ∧
    Disjoint clen 8 c (P.length + 16) ∧ (c ≤ m ∨ m + P.length ≤ c)) ∧ A.length < 2 ^ lw ∧ P.length < 2 ^ lw
  | esp32Decrypt lw _ m mlen _ c ad npub k K N A C =>
    (K.length = 16 ∧ N.length = 16 ∧ A.length < 2 ^ 64 ∧ 16 ≤ C.length ∧ C.length < 2 ^ 64 ∧ Disjoint mlen 8 k 16 ∧
    Disjoint mlen 8 npub 16 ∧ Disjoint mlen 8 ad A.length ∧ Disjoint mlen 8 c C.length ∧
    Disjoint mlen 8 m (C.length - 16) ∧ (m ≤ c ∨ c + C.length ≤ m)) ∧ A.length < 2 ^ lw ∧ C.length - 16 < 2 ^ lw ∧
    Disjoint m ((C.length - 16) % 16) c ((C.length - 16) % 16)
  | esp32DecryptShort _ _ _ _ _ _ clen .. => clen < 16
  | esp32Hash lw _ _ _ M => M.length < 2 ^ lw
  | esp32Xof lw _ _ _ M => M.length < 2 ^ lw
  | neonEncrypt _ fuel _ c clen m ad npub k K N A P =>
    (K.length = 16 ∧ N.length = 16 ∧ A.length < 2 ^ 64 ∧ P.length < 2 ^ 64 ∧ Disjoint clen 8 k 16 ∧
    Disjoint clen 8 npub 16 ∧ Disjoint clen 8 ad A.length ∧ Disjoint clen 8 m P.length ∧
    Disjoint clen 8 c (P.length + 16) ∧ (c ≤ m ∨ m + P.length ≤ c)) ∧ A.length < 2 ^ 32 ∧ P.length < 2 ^ 32 ∧
    (16 ≤ A.length → ad % 4 = 0) ∧ (16 ≤ P.length → m % 4 = 0 ∧ c % 4 = 0) ∧ A.length < fuel ∧ P.length < fuel
  | neonDecrypt _ fuel _ m mlen c ad npub k K N A C =>
    (K.length = 16 ∧ N.length = 16 ∧ A.length < 2 ^ 64 ∧ 16 ≤ C.length ∧ C.length < 2 ^ 64 ∧ Disjoint mlen 8 k 16 ∧
    Disjoint mlen 8 npub 16 ∧ Disjoint mlen 8 ad A.length ∧ Disjoint mlen 8 c C.length ∧
    Disjoint mlen 8 m (C.length - 16) ∧ (m ≤ c ∨ c + C.length ≤ m)) ∧ A.length < 2 ^ 32 ∧ C.length - 16 < 2 ^ 32 ∧
    (16 ≤ A.length → ad % 4 = 0) ∧ (32 ≤ C.length → c % 4 = 0 ∧ m % 4 = 0) ∧ A.length < fuel ∧ C.length < fuel
  | neonDecryptShort _ _ _ _ _ clen .. => clen < 16
  | maskedEncrypt ρ h c clen m ad npub k K N A P =>
    (K.length = 16 ∧ N.length = 16 ∧ A.length + 7 < 2 ^ 64 ∧ P.length + 16 + 7 < 2 ^ 64 ∧
    Disjoint clen 8 c (P.length + 16)) ∧
    (stack (.maskedEncrypt ρ h c clen m ad npub k K N A P)).Pairwise fun x y => Disjoint x.1 x.2 y.1 y.2
  | maskedDecrypt ρ h m mlen c ad npub k K N A C =>
    (K.length = 16 ∧ N.length = 16 ∧ A.length + 7 < 2 ^ 64 ∧ 16 ≤ C.length ∧ C.length + 7 < 2 ^ 64 ∧
    Disjoint mlen 8 m (C.length - 16)) ∧
    (stack (.maskedDecrypt ρ h m mlen c ad npub k K N A C)).Pairwise fun x y => Disjoint x.1 x.2 y.1 y.2
  | maskedDecryptShort _ _ _ _ _ clen .. => clen < 16

/-- The caller keeps the contract: inputs in place (possibly in read-only memory), outputs allocated, stack available. -/
structure Pre (e : Endian) (call : ApiCall) (mem : Mem) : Prop where
  on : call.runsOn e
  side : call.side
  inp : ∀ x ∈ call.inputs, mem.Holds x.1 x.2
  out : ∀ x ∈ call.outputs e, mem.Writable x.1 x.2.length
  stack : ∀ b ∈ call.stack, mem.Free b.1 b.2

/-- Bytes of an input. -/
def reads (call : ApiCall) (a : Nat) : Prop := ∃ x ∈ call.inputs, InRange x.1 x.2.length a

/-- Bytes of an output, of the automatic arrays or of the allocated blocks. -/
def writes (e : Endian) (call : ApiCall) (a : Nat) : Prop :=
  (∃ x ∈ call.outputs e, InRange x.1 x.2.length a) ∨ ∃ b ∈ call.stack, InRange b.1 b.2 a

/-- The memory with the outputs in place. -/
def post (e : Endian) (call : ApiCall) (mem : Mem) : Mem := (call.outputs e).foldl (fun mem x => mem.writes x.1 x.2) mem

end ApiCall

/-! ## Every call is correct when it runs alone -/

namespace ApiCall

theorem cand_eq {K N A C : List Byte} (h : 16 ≤ C.length) :
    (aeadDecrypt K N A C).getD (aeadCandidate K N A (ctBody C)) = aeadCandidate K N A (ctBody C) := by
  rw [aeadDecrypt_eq h]
  split <;> rfl

theorem verdict_eq {K N A C : List Byte} (h : 16 ≤ C.length) :
    (if aeadDecrypt K N A C = none then (-1 : Int) else 0) = if ctTag C = aeadDecTag K N A (ctBody C) then 0 else -1 := by
  rw [aeadDecrypt_eq h]
  by_cases hh : ctTag C = aeadDecTag K N A (ctBody C) <;> simp [hh]

theorem run_alone {e : Endian} {call : ApiCall} {mem : Mem} (h : call.Pre e mem) :
    run (call.prog e) mem = some (call.result, call.post e mem) := by
  obtain ⟨on, side, inp, out, stk'⟩ := h
  have stk : ∀ p n, (p, n) ∈ call.stack → mem.Free p n := fun p n h => stk' (p, n) h
  cases call
  case encrypt i sp c clen m ad nsec npub k K N A P =>
    simp only [inputs, outputs, List.forall_mem_cons, length_aeadEncrypt, Ref.length_repr64] at inp out
    obtain ⟨s1, s2, s3, s4, s5, s6, s7, s8, s9, s10⟩ := side
    exact i.encrypt_correct e on mem sp c clen m ad nsec npub k K N A P
      ⟨inp.1, s1, inp.2.1, s2, inp.2.2.1, s3, inp.2.2.2.1, s4, out.2.1, out.1, s5, s6, s7, s8, s9, s10, stk _ _ (List.mem_singleton.mpr rfl)⟩
  case decrypt i sp m mlen nsec c ad npub k K N A C =>
    obtain ⟨s1, s2, s3, s3', s4, s5, s6, s7, s8, s9, s10⟩ := side
    have ho : (aeadDecrypt K N A C).getD (aeadCandidate K N A (ctBody C)) = aeadCandidate K N A (ctBody C) := by
      rw [aeadDecrypt_eq s3']
      split <;> rfl
    have hr : (if aeadDecrypt K N A C = none then (-1 : Int) else 0) =
        if ctTag C = aeadDecTag K N A (ctBody C) then 0 else -1 := by
      rw [aeadDecrypt_eq s3']
      by_cases hh : ctTag C = aeadDecTag K N A (ctBody C) <;> simp [hh]
    simp only [inputs, outputs, List.forall_mem_cons, ho, length_candidate, length_ctBody s3', Ref.length_repr64] at inp out
    have := i.decrypt_correct e on mem sp m mlen nsec c ad npub k K N A C
      ⟨inp.1, s1, inp.2.1, s2, inp.2.2.1, s3, inp.2.2.2.1, s3', s4, out.2.1, out.1, s5, s6, s7, s8, s9, s10, stk _ _ (List.mem_singleton.mpr rfl)⟩
    simp only [prog, result, post, outputs, ho, hr, List.foldl_cons, List.foldl_nil]
    exact this
  case decryptShort i sp m mlen nsec c clen ad adlen npub k =>
    exact (i.decrypt_short e mem sp m mlen nsec c clen ad adlen npub k side).1
  case hash i sp o inp' M =>
    have hl : (hash256 M).length = 32 := length_squeeze 8 _ 32 (by omega) (by omega)
    simp only [inputs, outputs, List.forall_mem_cons, hl] at inp out
    exact i.hash256_correct e on mem sp o inp' M inp.1 side out.1 (stk _ _ (List.mem_singleton.mpr rfl))
  case hashX i sp o inp' M =>
    have hl : (xof128 M 64).length = 64 := length_squeeze 8 _ 64 (by omega) (by omega)
    simp only [inputs, outputs, List.forall_mem_cons, hl] at inp out
    exact i.xof128_correct e on mem sp o inp' M inp.1 side out.1 (stk _ _ (List.mem_singleton.mpr rfl))
  case xof i sp o n inp' M =>
    have hl : (xof128 M n).length = n := length_squeeze 8 _ n (by omega) (by omega)
    simp only [inputs, outputs, List.forall_mem_cons, hl] at inp out
    exact i.xof128_correct e on mem sp o n inp' M inp.1 side.1 side.2 out.1 (stk _ _ (List.mem_singleton.mpr rfl))
  case cxof sp o n inp' cs M Z =>
    have hl : (cxof128 Z M n).length = n := length_squeeze 8 _ n (by omega) (by omega)
    simp only [inputs, outputs, List.forall_mem_cons, hl] at inp out
    exact Ref.cxof_correct e mem sp o n inp' cs Z M inp.1 side.1 inp.2.1 side.2.1 side.2.2 out.1 (stk _ _ (List.mem_singleton.mpr rfl))
  case mac i sp o inp' k K M =>
    have hl : (Spec.mac K M).length = 16 := Ref.length_prfWith ..
    simp only [inputs, outputs, List.forall_mem_cons, hl] at inp out
    exact i.macAuth_correct e on mem sp o inp' k K M inp.1 side.1 inp.2.1 side.2 out.1 trivial
  case prfAuth i sp o inp' k K M =>
    have hl : (Spec.prf K M 64).length = 64 := Ref.length_prfWith ..
    simp only [inputs, outputs, List.forall_mem_cons, hl] at inp out
    exact i.prfAuth_correct e on mem sp o inp' k K M inp.1 side.1 inp.2.1 side.2 out.1 trivial
  case prfsAuth i sp o inp' k K M =>
    have hl : (prfShort K M 16).length = 16 := Ref.length_prfShort _ _ _ (by omega)
    simp only [inputs, outputs, List.forall_mem_cons, hl] at inp out
    have h2 := side.2
    exact i.prfsAuth_correct e on mem sp o inp' k K M inp.1 side.1 inp.2.1 (by omega) out.1 side.2
  case macVerify i sp h inp' k K M T =>
    simp only [inputs, List.forall_mem_cons] at inp
    exact i.macVerify_correct e on mem sp h inp' k K M T inp.1 side.1 inp.2.1 side.2.1 inp.2.2.1 side.2.2 trivial (stk _ _ (List.mem_singleton.mpr rfl))
  case prfVerify i sp h inp' k K M T =>
    simp only [inputs, List.forall_mem_cons] at inp
    exact i.prfVerify_correct e on mem sp h inp' k K M T inp.1 side.1 inp.2.1 side.2.1 inp.2.2.1 side.2.2 trivial (stk _ _ (List.mem_singleton.mpr rfl))
  case prfsVerify i sp h inp' k K M T =>
    simp only [inputs, List.forall_mem_cons] at inp
    have h2 := side.2.1
    exact i.prfsVerify_correct e on mem sp h inp' k K M T inp.1 side.1 inp.2.1 (by omega) inp.2.2.1 side.2.2 h2 (stk _ _ (List.mem_singleton.mpr rfl))
  case macPrf i sp o n inp' k K M =>
    have hl : (prfWith ivMac K M n).length = n := Ref.length_prfWith ..
    simp only [inputs, outputs, List.forall_mem_cons, hl] at inp out
    exact (i.macPrf_correct e on).1 mem sp o n inp' k K M inp.1 side.1 inp.2.1 side.2.1 out.1 side.2.2
  case prf i sp o n inp' k K M =>
    have hl : (Spec.prf K M n).length = n := Ref.length_prfWith ..
    simp only [inputs, outputs, List.forall_mem_cons, hl] at inp out
    exact (i.prf_correct e on).1 mem sp o n inp' k K M inp.1 side.1 inp.2.1 side.2.1 out.1 side.2.2
  case prfs i sp o n inp' k K M =>
    have h2 := side.2
    have hl : (prfShort K M n).length = n := Ref.length_prfShort _ _ _ h2.2
    simp only [inputs, outputs, List.forall_mem_cons, hl] at inp out
    exact (i.prfs_correct e on).1 mem sp o n inp' k K M inp.1 side.1 inp.2.1 (by omega) out.1 side.2
  case esp32Encrypt lw sp c clen m ad nsec npub k K N A P =>
    simp only [inputs, outputs, List.forall_mem_cons, length_aeadEncrypt, Ref.length_repr64] at inp out
    obtain ⟨⟨s1, s2, s3, s4, s5, s6, s7, s8, s9, s10⟩, sA, sP⟩ := side
    exact Esp32.C36_esp32_encrypt lw e mem sp c clen m ad nsec npub k K N A P
      ⟨inp.1, s1, inp.2.1, s2, inp.2.2.1, s3, inp.2.2.2.1, s4, out.2.1, out.1, s5, s6, s7, s8, s9, s10,
        stk _ _ (List.mem_singleton.mpr rfl)⟩ sA sP
  case esp32Decrypt lw sp m mlen nsec c ad npub k K N A C =>
    obtain ⟨⟨s1, s2, s3, s3', s4, s5, s6, s7, s8, s9, s10⟩, sA, sC, sd⟩ := side
    simp only [inputs, outputs, List.forall_mem_cons, cand_eq s3', length_candidate, length_ctBody s3',
      Ref.length_repr64] at inp out
    have := Esp32.C36_esp32_decrypt lw e mem sp m mlen nsec c ad npub k K N A C
      ⟨inp.1, s1, inp.2.1, s2, inp.2.2.1, s3, inp.2.2.2.1, s3', s4, out.2.1, out.1, s5, s6, s7, s8, s9, s10,
        stk _ _ (List.mem_singleton.mpr rfl)⟩ sA sC sd
    simp only [prog, result, post, outputs, cand_eq s3', verdict_eq s3', List.foldl_cons, List.foldl_nil]
    exact this
  case esp32DecryptShort lw sp m mlen nsec c clen ad adlen npub k =>
    simp only [outputs, List.forall_mem_cons, Ref.length_repr64] at out
    exact Esp32.C36_esp32_short lw e mem sp m mlen nsec c clen ad adlen npub k side out.1
  case esp32Hash lw sp o inp' M =>
    have hl : (hash256 M).length = 32 := length_squeeze 8 _ 32 (by omega) (by omega)
    simp only [inputs, outputs, List.forall_mem_cons, hl] at inp out
    exact Esp32.C36_esp32_hash256 lw e mem sp o inp' M inp.1 side out.1
  case esp32Xof lw sp o inp' M =>
    have hl : (xof128 M 64).length = 64 := length_squeeze 8 _ 64 (by omega) (by omega)
    simp only [inputs, outputs, List.forall_mem_cons, hl] at inp out
    exact Esp32.C36_esp32_xof128 lw e mem sp o inp' M inp.1 side out.1
  case neonEncrypt regs fuel sp c clen m ad npub k K N A P =>
    simp only [inputs, outputs, List.forall_mem_cons, length_aeadEncrypt, Ref.length_repr64] at inp out
    obtain ⟨⟨s1, s2, s3, s4, s5, s6, s7, s8, s9, s10⟩, sA, sP, sa, sp', sf⟩ := side
    have on' : e = .little := on
    subst on'
    exact Neon.C44_neon_encrypt regs fuel mem sp c clen m ad npub k K N A P
      ⟨inp.1, s1, inp.2.1, s2, inp.2.2.1, s3, inp.2.2.2.1, s4, out.2.1, out.1, s5, s6, s7, s8, s9, s10,
        stk _ _ (List.mem_singleton.mpr rfl)⟩ sA sP sa sp' sf
  case neonDecrypt regs fuel sp m mlen c ad npub k K N A C =>
    obtain ⟨⟨s1, s2, s3, s3', s4, s5, s6, s7, s8, s9, s10⟩, sA, sC, sa, sc, sf⟩ := side
    have on' : e = .little := on
    subst on'
    simp only [inputs, outputs, List.forall_mem_cons, cand_eq s3', length_candidate, length_ctBody s3',
      Ref.length_repr64] at inp out
    have := Neon.C44_neon_decrypt regs fuel mem sp m mlen c ad npub k K N A C
      ⟨inp.1, s1, inp.2.1, s2, inp.2.2.1, s3, inp.2.2.2.1, s3', s4, out.2.1, out.1, s5, s6, s7, s8, s9, s10,
        stk _ _ (List.mem_singleton.mpr rfl)⟩ sA sC sa sc sf
    simp only [prog, result, post, outputs, cand_eq s3', verdict_eq s3', List.foldl_cons, List.foldl_nil]
    exact this
  case neonDecryptShort regs fuel m mlen c clen ad adlen npub k =>
    exact Neon.C44_neon_short regs fuel e mem m mlen c clen ad adlen npub k side
  case maskedEncrypt ρ h c clen m ad npub k K N A P =>
    simp only [inputs, outputs, List.forall_mem_cons, length_aeadEncrypt, Ref.length_repr64] at inp out
    obtain ⟨⟨s1, s2, s3, s4, s5⟩, sh⟩ := side
    have on' : e = .little := on
    subst on'
    exact Masked.C33_encrypt_masked_correct ρ h mem c clen m ad npub k K N A P
      ⟨inp.1, s1, inp.2.1, s2, inp.2.2.1, s3, inp.2.2.2.1, s4, out.2.1, out.1, stk', sh⟩
  case maskedDecrypt ρ h m mlen c ad npub k K N A C =>
    obtain ⟨⟨s1, s2, s3, s3', s4, s5⟩, sh⟩ := side
    have on' : e = .little := on
    subst on'
    simp only [inputs, outputs, List.forall_mem_cons, cand_eq s3', length_candidate, length_ctBody s3',
      Ref.length_repr64] at inp out
    have := Masked.C33_decrypt_masked_output ρ h mem m mlen c ad npub k K N A C
      ⟨inp.1, s1, inp.2.1, s2, inp.2.2.1, s3, inp.2.2.2.1, s3', s4, out.2.1, out.1, stk', sh⟩
    simp only [prog, result, post, outputs, cand_eq s3', List.foldl_cons, List.foldl_nil]
    exact this
  case maskedDecryptShort ρ h m mlen c clen ad adlen npub k =>
    exact Masked.C33_decrypt_masked_short ρ h e mem m mlen c clen ad adlen npub k side

theorem foldl_out (l : List (Nat × List Byte)) (mem : Mem) (a : Nat) (h : ∀ x ∈ l, ¬ InRange x.1 x.2.length a) :
    l.foldl (fun mem x => mem.writes x.1 x.2) mem a = mem a := by
  induction l generalizing mem with
  | nil => rfl
  | cons x l ih =>
    rw [List.forall_mem_cons] at h
    have h1 := h.1
    unfold InRange at h1
    rw [List.foldl_cons, ih _ h.2, writes_out (by omega)]

theorem post_out {e : Endian} {call : ApiCall} {mem : Mem} {a : Nat} (h : ∀ x ∈ call.outputs e, ¬ InRange x.1 x.2.length a) :
    call.post e mem a = mem a := foldl_out _ _ _ h

/-- The outputs of one call do not overlap each other. -/
theorem out_sep {e : Endian} {call : ApiCall} (h : call.side) :
    (call.outputs e).Pairwise fun x y => Disjoint x.1 x.2.length y.1 y.2.length := by
  cases call
  case encrypt i sp c clen m ad nsec npub k K N A P =>
    simp only [outputs, List.pairwise_cons, List.mem_singleton, forall_eq, List.not_mem_nil, false_imp_iff, implies_true,
      List.Pairwise.nil, and_true, length_aeadEncrypt, Ref.length_repr64]
    exact h.2.2.2.2.2.2.2.2.1
  case decrypt i sp m mlen nsec c ad npub k K N A C =>
    have s3' : 16 ≤ C.length := h.2.2.2.1
    have ho : (aeadDecrypt K N A C).getD (aeadCandidate K N A (ctBody C)) = aeadCandidate K N A (ctBody C) := by
      rw [aeadDecrypt_eq s3']
      split <;> rfl
    simp only [outputs, List.pairwise_cons, List.mem_singleton, forall_eq, List.not_mem_nil, false_imp_iff, implies_true,
      List.Pairwise.nil, and_true, ho, length_candidate, length_ctBody s3', Ref.length_repr64]
    exact h.2.2.2.2.2.2.2.2.2.1
  case esp32Encrypt lw sp c clen m ad nsec npub k K N A P =>
    simp only [outputs, List.pairwise_cons, List.mem_singleton, forall_eq, List.not_mem_nil, false_imp_iff, implies_true,
      List.Pairwise.nil, and_true, length_aeadEncrypt, Ref.length_repr64]
    exact h.1.2.2.2.2.2.2.2.2.1
  case neonEncrypt regs fuel sp c clen m ad npub k K N A P =>
    simp only [outputs, List.pairwise_cons, List.mem_singleton, forall_eq, List.not_mem_nil, false_imp_iff, implies_true,
      List.Pairwise.nil, and_true, length_aeadEncrypt, Ref.length_repr64]
    exact h.1.2.2.2.2.2.2.2.2.1
  case maskedEncrypt ρ hp c clen m ad npub k K N A P =>
    simp only [outputs, List.pairwise_cons, List.mem_singleton, forall_eq, List.not_mem_nil, false_imp_iff, implies_true,
      List.Pairwise.nil, and_true, length_aeadEncrypt, Ref.length_repr64]
    exact h.1.2.2.2.2
  case esp32Decrypt lw sp m mlen nsec c ad npub k K N A C =>
    have s3' : 16 ≤ C.length := h.1.2.2.2.1
    simp only [outputs, List.pairwise_cons, List.mem_singleton, forall_eq, List.not_mem_nil, false_imp_iff, implies_true,
      List.Pairwise.nil, and_true, cand_eq s3', length_candidate, length_ctBody s3', Ref.length_repr64]
    exact h.1.2.2.2.2.2.2.2.2.2.1
  case neonDecrypt regs fuel sp m mlen c ad npub k K N A C =>
    have s3' : 16 ≤ C.length := h.1.2.2.2.1
    simp only [outputs, List.pairwise_cons, List.mem_singleton, forall_eq, List.not_mem_nil, false_imp_iff, implies_true,
      List.Pairwise.nil, and_true, cand_eq s3', length_candidate, length_ctBody s3', Ref.length_repr64]
    exact h.1.2.2.2.2.2.2.2.2.2.1
  case maskedDecrypt ρ hp m mlen c ad npub k K N A C =>
    have s3' : 16 ≤ C.length := h.1.2.2.2.1
    simp only [outputs, List.pairwise_cons, List.mem_singleton, forall_eq, List.not_mem_nil, false_imp_iff, implies_true,
      List.Pairwise.nil, and_true, cand_eq s3', length_candidate, length_ctBody s3', Ref.length_repr64]
    exact h.1.2.2.2.2.2
  all_goals simp [outputs]

theorem foldl_holds (l : List (Nat × List Byte)) (mem : Mem)
    (h : l.Pairwise fun x y => Disjoint x.1 x.2.length y.1 y.2.length) :
    ∀ x ∈ l, (l.foldl (fun mem x => mem.writes x.1 x.2) mem).Holds x.1 x.2 := by
  induction l generalizing mem with
  | nil => intro x hx; cases hx
  | cons y l ih =>
    rw [List.pairwise_cons] at h
    rw [List.forall_mem_cons]
    refine ⟨?_, fun x hx => ih _ h.2 x hx⟩
    rw [List.foldl_cons]
    intro i hi
    rw [foldl_out]
    · exact holds_writes_self _ _ _ i hi
    · intro x hx
      have := h.1 x hx
      unfold Disjoint at this
      unfold InRange
      omega

theorem Pre.any {e : Endian} {call : ApiCall} {mem : Mem} (h : call.Pre e mem) {a : Nat} (hr : ¬ call.reads a)
    (hw : ¬ call.writes e a) (c : Cell) : call.Pre e (mem.upd a c) :=
  ⟨h.on, h.side, fun x hx => (h.inp x hx).upd fun ha => hr ⟨x, hx, ha⟩,
    fun x hx => (h.out x hx).upd fun ha => hw (.inl ⟨x, hx, ha⟩),
    fun b hb => (h.stack b hb).upd fun ha => hw (.inr ⟨b, hb, ha⟩)⟩

theorem Pre.const {e : Endian} {call : ApiCall} {mem : Mem} (h : call.Pre e mem) {a : Nat} (hr : call.reads a)
    (hw : ¬ call.writes e a) : ∃ b, (mem a).byte = some b ∧ call.Pre e (mem.upd a (.const b)) := by
  obtain ⟨x, hx, h1, h2⟩ := hr
  have hb := h.inp x hx (a - x.1) (by omega)
  rw [show x.1 + (a - x.1) = a by omega] at hb
  refine ⟨_, hb, h.on, h.side, fun y hy i hi => ?_, fun x hx => (h.out x hx).upd fun ha => hw (.inl ⟨x, hx, ha⟩),
    fun b hb => (h.stack b hb).upd fun ha => hw (.inr ⟨b, hb, ha⟩)⟩
  by_cases hia : y.1 + i = a
  · have := h.inp y hy i hi
    rw [hia] at this ⊢
    rw [upd_self, ← this, hb]; rfl
  · rw [upd_ne hia]; exact h.inp y hy i hi

/-- A call reads its inputs and what it has written itself, and writes its outputs and its automatic arrays. -/
theorem access {e : Endian} {call : ApiCall} {mem : Mem} (h : call.Pre e mem) :
    Access (fun a => call.reads a ∨ call.writes e a) (call.writes e) (call.prog e) mem := by
  refine access_of (R := call.reads) (W := call.writes e) _ mem (fun a hr hw c => ?_) (fun a hr hw => ?_)
  · refine ⟨_, _, run_alone (h.any hr hw c), ?_⟩
    rw [post_out fun x hx ha => hw (.inl ⟨x, hx, ha⟩), upd_self]
  · obtain ⟨b, hb, hp⟩ := h.const hr hw
    refine ⟨b, _, _, hb, run_alone hp, ?_⟩
    rw [post_out fun x hx ha => hw (.inl ⟨x, hx, ha⟩), upd_self]

theorem going {e : Endian} {call : ApiCall} {mem : Mem} (h : call.Pre e mem) :
    Going (fun a => call.reads a ∨ call.writes e a) (call.writes e) mem call.result (call.post e mem)
      (steps (call.prog e) mem) (call.prog e) mem :=
  ⟨mem, run_alone h, access h, rfl, fun _ _ => rfl, fun _ _ => rfl⟩

/-- The automatic arrays are not part of an output. -/
theorem stack_sep {e : Endian} {call : ApiCall} {mem : Mem} (h : call.Pre e mem) {a : Nat} {b : Nat × Nat}
    (hb : b ∈ call.stack) (ha : InRange b.1 b.2 a) : ∀ x ∈ call.outputs e, ¬ InRange x.1 x.2.length a := by
  intro x hx hr
  unfold InRange at ha hr
  have h1 := h.out x hx (a - x.1) (by omega)
  have h2 := h.stack b hb (a - b.1) (by omega)
  rw [show x.1 + (a - x.1) = a by omega] at h1
  rw [show b.1 + (a - b.1) = a by omega] at h2
  rw [h2] at h1
  simp at h1

end ApiCall

/-! ## C62: any number of calls, any schedule -/

/-- **C62** Any number of calls, of the same or of different functions and implementations, run concurrently on one memory,
interleaved in any way at the level of single byte accesses.  They may share inputs (the same key, the same message), but
what one call writes (its outputs, its own stack) belongs to no other call.  Then, whatever the schedule: no call runs
into undefined behaviour; nothing but outputs and stacks ever changes; and every call that has been given enough steps
(how many does not depend on the other calls or on the schedule) has returned the value, and left the outputs, that the
standard prescribes for its own inputs, and has released its stack. -/
theorem C62_concurrent_calls {ι : Type} [DecidableEq ι] (e : Endian) (mem : Mem) (calls : ι → ApiCall)
    (hpre : ∀ i, (calls i).Pre e mem)
    (hsep : ∀ i j, i ≠ j → ∀ a, (calls i).writes e a → ¬ (calls j).reads a ∧ ¬ (calls j).writes e a) (σ : List ι) :
    ∃ ps mem', exec σ (fun i => (calls i).prog e) mem = some (ps, mem') ∧
      (∀ a, (∀ i, ¬ (calls i).writes e a) → mem' a = mem a) ∧
      ∀ i, steps ((calls i).prog e) mem ≤ σ.count i →
        ps i = .ret (calls i).result ∧ (∀ x ∈ (calls i).outputs e, mem'.Holds x.1 x.2) ∧
        ∀ b ∈ (calls i).stack, mem'.Free b.1 b.2 := by
  obtain ⟨ps, mem', hx, hm, hg⟩ := exec_noninterfering (mem0 := mem) (r := fun i => (calls i).result)
    (fin := fun i => (calls i).post e mem) (R := fun i a => (calls i).reads a ∨ (calls i).writes e a)
    (W := fun i => (calls i).writes e)
    (fun i j hij a ha => ⟨fun h => h.elim (hsep i j hij a ha).1 (hsep i j hij a ha).2, (hsep i j hij a ha).2⟩)
    σ _ _ mem (fun i => ApiCall.going (hpre i)) (fun _ _ => rfl)
  refine ⟨ps, mem', hx, hm, fun i hi => ?_⟩
  have h := hg i
  rw [Nat.sub_eq_zero_of_le hi] at h
  obtain ⟨h1, h2⟩ := h.done
  refine ⟨h1, fun x hx j hj => ?_, fun b hb j hj => ?_⟩
  · rw [h2 _ (.inl ⟨x, hx, by unfold InRange; omega⟩)]
    exact ApiCall.foldl_holds _ mem (ApiCall.out_sep (hpre i).side) x hx j hj
  · have hs : InRange b.1 b.2 (b.1 + j) := by unfold InRange; omega
    rw [h2 _ (.inr ⟨b, hb, hs⟩), ApiCall.post_out (ApiCall.stack_sep (hpre i) hb hs)]
    exact (hpre i).stack b hb j hj

/-! ## C63: a call that is cut off -/

/-- **C63** Let a call be interrupted after any number `t` of byte accesses.  At that moment nothing outside of its outputs
and its own stack differs from the memory before the call: no input is modified even temporarily (so it may be in ROM, or
in use by somebody else), and no other object either. -/
theorem C63_interrupted_call (e : Endian) (mem : Mem) (call : ApiCall) (hpre : call.Pre e mem) (t : Nat) :
    ∃ ps mem', exec (List.replicate t ()) (fun _ => call.prog e) mem = some (ps, mem') ∧
      (∀ a, ¬ call.writes e a → mem' a = mem a) ∧
      (steps (call.prog e) mem ≤ t → ps () = .ret call.result ∧ (∀ x ∈ call.outputs e, mem'.Holds x.1 x.2)) := by
  obtain ⟨ps, mem', hx, hm, hd⟩ := C62_concurrent_calls (ι := Unit) e mem (fun _ => call) (fun _ => hpre)
    (fun i j h => absurd rfl h) (List.replicate t ())
  refine ⟨ps, mem', hx, fun a ha => hm a fun _ => ha, fun h => ?_⟩
  have := hd () (by rw [List.count_replicate_self]; exact h)
  exact ⟨this.1, this.2.1⟩

/-- **C63** After a crash at any point the call can be made again, provided its outputs did not overlap its inputs: let
the memory `mem2` at the second attempt be what the crash left, except that the output buffers may hold anything and the
stack is free again.  The second attempt returns what the first would have returned, with the same outputs. -/
theorem C63_retry_after_crash (e : Endian) (mem : Mem) (call : ApiCall) (hpre : call.Pre e mem)
    (hdisj : ∀ a, call.writes e a → ¬ call.reads a) (t : Nat) :
    ∃ ps mem1, exec (List.replicate t ()) (fun _ => call.prog e) mem = some (ps, mem1) ∧
      ∀ mem2 : Mem, (∀ a, ¬ call.writes e a → mem2 a = mem1 a) →
        (∀ x ∈ call.outputs e, mem2.Writable x.1 x.2.length) → (∀ b ∈ call.stack, mem2.Free b.1 b.2) →
        ∃ mem3, run (call.prog e) mem2 = some (call.result, mem3) ∧ (∀ x ∈ call.outputs e, mem3.Holds x.1 x.2) ∧
          ∀ a, ¬ call.writes e a → mem3 a = mem a := by
  obtain ⟨ps, mem1, hx, hm, -⟩ := C63_interrupted_call e mem call hpre t
  refine ⟨ps, mem1, hx, fun mem2 h1 h2 h3 => ?_⟩
  have hp : call.Pre e mem2 := by
    refine ⟨hpre.on, hpre.side, fun x hx i hi => ?_, h2, h3⟩
    have hr : call.reads (x.1 + i) := ⟨x, hx, by unfold InRange; omega⟩
    have hw : ¬ call.writes e (x.1 + i) := fun h => hdisj _ h hr
    rw [h1 _ hw, hm _ hw]
    exact hpre.inp x hx i hi
  refine ⟨_, ApiCall.run_alone hp, ApiCall.foldl_holds _ mem2 (ApiCall.out_sep hpre.side), fun a ha => ?_⟩
  rw [ApiCall.post_out fun x hx h => ha (.inl ⟨x, hx, h⟩), h1 a ha, hm a ha]

/-! ## A concrete case

Five threads: the reference implementation encrypts the 20 bytes at 100 with the key at 0, `opt64` hashes the same 20
bytes, the reference Ascon-Mac authenticates them with the same key, which is in read-only memory, and the masked and the
neon implementation encrypt them as well. -/

namespace Demo3

open Demo

def mem3 : Mem := fun a =>
  if a < 16 then .const (K.getD a 0)
  else ((((Demo.mem.fill 400 32 .uninit).fill 500 16 .uninit).fill 600 60 .uninit).fill 700 60 .uninit) a

def heap : Masked.Heap := ⟨4000, 4100, 4200, 4300, 4400⟩

def calls (i : Fin 5) : ApiCall :=
  match i with
  | 0 => .encrypt .ref 1000 200 300 100 32 0 16 0 K N A P
  | 1 => .hash .opt64 2000 400 100 P
  | 2 => .mac .ref 3000 500 100 0 K P
  | 3 => .maskedEncrypt (fun n => BitVec.ofNat 64 (77 * n)) heap 600 640 100 32 16 0 K N A P
  | 4 => .neonEncrypt (fun _ => 7) 100 5000 700 740 100 32 16 0 K N A P

theorem len_hash : (hash256 P).length = 32 := length_squeeze 8 _ 32 (by omega) (by omega)
theorem len_mac : (Spec.mac K P).length = 16 := Ref.length_prfWith ..
theorem len_enc : (aeadEncrypt K N A P).length = 36 := length_aeadEncrypt ..

theorem all5 {p : Fin 5 → Prop} (h0 : p 0) (h1 : p 1) (h2 : p 2) (h3 : p 3) (h4 : p 4) : ∀ i, p i := by
  intro i
  match i with
  | 0 => exact h0
  | 1 => exact h1
  | 2 => exact h2
  | 3 => exact h3
  | 4 => exact h4

theorem inputsK : ∀ x ∈ [(0, K), (16, N), (32, A), (100, P)], mem3.Holds x.1 x.2 := by
  simp only [List.forall_mem_cons, List.not_mem_nil, false_imp_iff, implies_true, and_true]
  unfold Mem.Holds; decide +kernel

theorem pre : ∀ i, (calls i).Pre .little mem3 := by
  refine all5 ?_ ?_ ?_ ?_ ?_
  · refine ⟨trivial, ?_, inputsK, ?_, ?_⟩
    · simp only [calls, ApiCall.side, Disjoint]; decide +kernel
    · simp only [calls, ApiCall.outputs, List.forall_mem_cons, List.not_mem_nil, false_imp_iff, implies_true,
        and_true, len_enc, Ref.length_repr64]
      unfold Mem.Writable; decide +kernel
    · show ∀ b ∈ [(1000, 64)], mem3.Free b.1 b.2
      unfold Mem.Free; decide +kernel
  · refine ⟨trivial, ?_, ?_, ?_, ?_⟩
    · show P.length < 2 ^ 64; decide +kernel
    · show ∀ x ∈ [(100, P)], mem3.Holds x.1 x.2
      simp only [List.forall_mem_cons, List.not_mem_nil, false_imp_iff, implies_true, and_true]
      unfold Mem.Holds; decide +kernel
    · show ∀ x ∈ [(400, hash256 P)], mem3.Writable x.1 x.2.length
      simp only [List.forall_mem_cons, List.not_mem_nil, false_imp_iff, implies_true, and_true, len_hash]
      unfold Mem.Writable; decide +kernel
    · show ∀ b ∈ [(2000, 64)], mem3.Free b.1 b.2
      unfold Mem.Free; decide +kernel
  · refine ⟨trivial, ?_, ?_, ?_, ?_⟩
    · show K.length = 16 ∧ P.length < 2 ^ 64; decide +kernel
    · show ∀ x ∈ [(0, K), (100, P)], mem3.Holds x.1 x.2
      simp only [List.forall_mem_cons, List.not_mem_nil, false_imp_iff, implies_true, and_true]
      unfold Mem.Holds; decide +kernel
    · show ∀ x ∈ [(500, Spec.mac K P)], mem3.Writable x.1 x.2.length
      simp only [List.forall_mem_cons, List.not_mem_nil, false_imp_iff, implies_true, and_true, len_mac]
      unfold Mem.Writable; decide +kernel
    · show ∀ b ∈ ([] : List (Nat × Nat)), mem3.Free b.1 b.2
      intro b hb; cases hb
  · refine ⟨rfl, ?_, inputsK, ?_, ?_⟩
    · simp only [calls, ApiCall.side, ApiCall.stack, Disjoint]; decide +kernel
    · simp only [calls, ApiCall.outputs, List.forall_mem_cons, List.not_mem_nil, false_imp_iff, implies_true,
        and_true, len_enc, Ref.length_repr64]
      unfold Mem.Writable; decide +kernel
    · show ∀ b ∈ [(4000, 32), (4100, 16), (4200, 8), (4300, 24), (4400, 40)], mem3.Free b.1 b.2
      unfold Mem.Free; decide +kernel
  · refine ⟨rfl, ?_, inputsK, ?_, ?_⟩
    · simp only [calls, ApiCall.side, Disjoint]; decide +kernel
    · simp only [calls, ApiCall.outputs, List.forall_mem_cons, List.not_mem_nil, false_imp_iff, implies_true,
        and_true, len_enc, Ref.length_repr64]
      unfold Mem.Writable; decide +kernel
    · show ∀ b ∈ [(5000, 64)], mem3.Free b.1 b.2
      unfold Mem.Free; decide +kernel

theorem writes0 (a : Nat) : (calls 0).writes .little a ↔ (InRange 300 8 a ∨ InRange 200 36 a) ∨ InRange 1000 64 a := by
  show ((∃ x ∈ [(300, repr64 .little _), (200, aeadEncrypt K N A P)], InRange x.1 x.2.length a) ∨
    ∃ b ∈ [(1000, 64)], InRange b.1 b.2 a) ↔ _
  simp only [List.mem_cons, List.not_mem_nil, or_false, exists_eq_or_imp, exists_eq_left, len_enc, Ref.length_repr64]
theorem writes1 (a : Nat) : (calls 1).writes .little a ↔ InRange 400 32 a ∨ InRange 2000 64 a := by
  show ((∃ x ∈ [(400, hash256 P)], InRange x.1 x.2.length a) ∨ ∃ b ∈ [(2000, 64)], InRange b.1 b.2 a) ↔ _
  simp only [List.mem_cons, List.not_mem_nil, or_false, exists_eq_left, len_hash]
theorem writes2 (a : Nat) : (calls 2).writes .little a ↔ InRange 500 16 a := by
  show ((∃ x ∈ [(500, Spec.mac K P)], InRange x.1 x.2.length a) ∨ ∃ b ∈ ([] : List (Nat × Nat)), InRange b.1 b.2 a) ↔ _
  simp only [List.mem_cons, List.not_mem_nil, or_false, exists_eq_left, len_mac, false_and, exists_false]
theorem writes3 (a : Nat) : (calls 3).writes .little a ↔ (InRange 640 8 a ∨ InRange 600 36 a) ∨ InRange 4000 32 a ∨
    InRange 4100 16 a ∨ InRange 4200 8 a ∨ InRange 4300 24 a ∨ InRange 4400 40 a := by
  show ((∃ x ∈ [(640, repr64 .little _), (600, aeadEncrypt K N A P)], InRange x.1 x.2.length a) ∨
    ∃ b ∈ [(4000, 32), (4100, 16), (4200, 8), (4300, 24), (4400, 40)], InRange b.1 b.2 a) ↔ _
  simp only [List.mem_cons, List.not_mem_nil, or_false, exists_eq_or_imp, exists_eq_left, len_enc, Ref.length_repr64]
theorem writes4 (a : Nat) : (calls 4).writes .little a ↔ (InRange 740 8 a ∨ InRange 700 36 a) ∨ InRange 5000 64 a := by
  show ((∃ x ∈ [(740, repr64 .little _), (700, aeadEncrypt K N A P)], InRange x.1 x.2.length a) ∨
    ∃ b ∈ [(5000, 64)], InRange b.1 b.2 a) ↔ _
  simp only [List.mem_cons, List.not_mem_nil, or_false, exists_eq_or_imp, exists_eq_left, len_enc, Ref.length_repr64]

def readsK (a : Nat) : Prop := InRange 0 16 a ∨ InRange 16 16 a ∨ InRange 32 5 a ∨ InRange 100 20 a

theorem readsK_iff (a : Nat) : (∃ x ∈ [(0, K), (16, N), (32, A), (100, P)], InRange x.1 x.2.length a) ↔ readsK a := by
  simp only [List.mem_cons, List.not_mem_nil, or_false, exists_eq_or_imp, exists_eq_left]; rfl
theorem reads0 (a : Nat) : (calls 0).reads a ↔ readsK a := readsK_iff a
theorem reads3 (a : Nat) : (calls 3).reads a ↔ readsK a := readsK_iff a
theorem reads4 (a : Nat) : (calls 4).reads a ↔ readsK a := readsK_iff a
theorem reads1 (a : Nat) : (calls 1).reads a ↔ InRange 100 20 a := by
  show (∃ x ∈ [(100, P)], InRange x.1 x.2.length a) ↔ _
  simp only [List.mem_cons, List.not_mem_nil, or_false, exists_eq_left]; rfl
theorem reads2 (a : Nat) : (calls 2).reads a ↔ InRange 0 16 a ∨ InRange 100 20 a := by
  show (∃ x ∈ [(0, K), (100, P)], InRange x.1 x.2.length a) ↔ _
  simp only [List.mem_cons, List.not_mem_nil, or_false, exists_eq_or_imp, exists_eq_left]; rfl

theorem sep : ∀ i j, i ≠ j → ∀ a, (calls i).writes .little a → ¬ (calls j).reads a ∧ ¬ (calls j).writes .little a := by
  refine all5 (all5 ?_ ?_ ?_ ?_ ?_) (all5 ?_ ?_ ?_ ?_ ?_) (all5 ?_ ?_ ?_ ?_ ?_) (all5 ?_ ?_ ?_ ?_ ?_)
    (all5 ?_ ?_ ?_ ?_ ?_) <;> intro h a <;>
    first | exact absurd rfl h
          | (simp only [writes0, writes1, writes2, writes3, writes4, reads0, reads1, reads2, reads3, reads4, readsK, InRange]
             omega)

end Demo3

/-- The five calls meet the hypotheses of C62; and under every schedule in which the third has had its steps, the memory
at 500 holds the right tag. -/
example (σ : List (Fin 5)) (h : steps ((Demo3.calls 2).prog .little) Demo3.mem3 ≤ σ.count 2) :
    ∃ ps mem', exec σ (fun i => (Demo3.calls i).prog .little) Demo3.mem3 = some (ps, mem') ∧ ps 2 = .ret 0 ∧
      mem'.Holds 500 (Spec.mac Demo.K Demo.P) := by
  obtain ⟨ps, mem', h1, -, h2⟩ := C62_concurrent_calls .little Demo3.mem3 Demo3.calls Demo3.pre Demo3.sep σ
  exact ⟨ps, mem', h1, (h2 2 h).1, (h2 2 h).2.1 (500, Spec.mac Demo.K Demo.P) (List.mem_singleton.mpr rfl)⟩

/-- The encryption among them meets the hypotheses of the C63 theorems. -/
example (t : Nat) : ∃ ps mem', exec (List.replicate t ()) (fun _ => (Demo3.calls 0).prog .little) Demo3.mem3 =
    some (ps, mem') ∧ mem'.Holds 0 Demo.K := by
  obtain ⟨ps, mem', h1, h2, -⟩ := C63_interrupted_call .little Demo3.mem3 (Demo3.calls 0) (Demo3.pre 0) t
  refine ⟨ps, mem', h1, fun i hi => ?_⟩
  have hi' : i < 16 := hi
  rw [h2 _ (by rw [Demo3.writes0]; simp only [InRange]; omega)]
  exact (Demo3.pre 0).inp (0, Demo.K) (List.mem_cons_self ..) i hi

example : ∀ a, (Demo3.calls 0).writes .little a → ¬ (Demo3.calls 0).reads a := by
  intro a; simp only [Demo3.writes0, Demo3.reads0, Demo3.readsK, InRange]; omega

end Ascon.Props
