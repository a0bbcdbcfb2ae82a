import Verif.C.Prog
import Verif.Spec.Modes
/-!
# Calling contracts of the public C functions

What a caller must provide, and what it gets.  These predicates mention only the C
memory model and the specification; they are shared by all implementations.
-/

namespace Ascon.C

open Ascon.Spec

/-- Signature of `crypto_aead_encrypt(c, clen, m, mlen, ad, adlen, nsec, npub, k)`, preceded by
the byte order of the target and the address of the callee's automatic arrays. -/
abbrev AeadEncrypt := Endian → (sp c clen m mlen ad adlen nsec npub k : Nat) → Prog Int

/-- Signature of `crypto_aead_decrypt(m, mlen, nsec, c, clen, ad, adlen, npub, k)`. -/
abbrev AeadDecrypt := Endian → (sp m mlen nsec c clen ad adlen npub k : Nat) → Prog Int

/-- Precondition of `crypto_aead_encrypt`: the inputs are where the pointers say, the outputs are
allocated, the length variable is a separate object, and the ciphertext buffer does not overlap the
plaintext *ahead* of the read position (disjoint, identical, or starting below it). -/
structure EncPre (mem : Mem) (sp c clen m ad npub k : Nat) (K N A P : List Byte) : Prop where
  key : mem.Holds k K
  keyLen : K.length = 16
  nonce : mem.Holds npub N
  nonceLen : N.length = 16
  adata : mem.Holds ad A
  adLen : A.length < 2 ^ 64
  msg : mem.Holds m P
  msgLen : P.length < 2 ^ 64
  out : mem.Writable c (P.length + 16)
  outLen : mem.Writable clen 8
  sepKey : Disjoint clen 8 k 16
  sepNonce : Disjoint clen 8 npub 16
  sepAd : Disjoint clen 8 ad A.length
  sepMsg : Disjoint clen 8 m P.length
  sepOut : Disjoint clen 8 c (P.length + 16)
  overlap : c ≤ m ∨ m + P.length ≤ c
  stack : mem.Free sp 64

/-- Final memory of `crypto_aead_encrypt`: `*clen` and `c[0 .. mlen+16)` are set, nothing else changes. -/
def encPost (e : Endian) (mem : Mem) (c clen : Nat) (K N A P : List Byte) : Mem :=
  (mem.writes clen (repr64 e (BitVec.ofNat 64 (P.length + 16)))).writes c (aeadEncrypt K N A P)

/-- `crypto_aead_encrypt` is correct: from any memory satisfying the contract it terminates without
undefined behaviour, returns 0 and produces exactly the specified memory. -/
def EncCorrectAt (e : Endian) (enc : AeadEncrypt) : Prop :=
  ∀ (mem : Mem) (sp c clen m ad nsec npub k : Nat) (K N A P : List Byte),
    EncPre mem sp c clen m ad npub k K N A P →
    run (enc e sp c clen m P.length ad A.length nsec npub k) mem =
      some (0, encPost e mem c clen K N A P)

/-- … on targets of either byte order. -/
def EncCorrect (enc : AeadEncrypt) : Prop := ∀ e : Endian, EncCorrectAt e enc

/-- Precondition of `crypto_aead_decrypt` on a ciphertext-with-tag `C` of at least 16 bytes. -/
structure DecPre (mem : Mem) (sp m mlen c ad npub k : Nat) (K N A C : List Byte) : Prop where
  key : mem.Holds k K
  keyLen : K.length = 16
  nonce : mem.Holds npub N
  nonceLen : N.length = 16
  adata : mem.Holds ad A
  adLen : A.length < 2 ^ 64
  ct : mem.Holds c C
  ctMin : 16 ≤ C.length
  ctLen : C.length < 2 ^ 64
  out : mem.Writable m (C.length - 16)
  outLen : mem.Writable mlen 8
  sepKey : Disjoint mlen 8 k 16
  sepNonce : Disjoint mlen 8 npub 16
  sepAd : Disjoint mlen 8 ad A.length
  sepCt : Disjoint mlen 8 c C.length
  sepOut : Disjoint mlen 8 m (C.length - 16)
  overlap : m ≤ c ∨ c + C.length ≤ m
  stack : mem.Free sp 64

/-- The part of a received string before the tag, and the tag. -/
def ctBody (C : List Byte) : List Byte := C.take (C.length - 16)
def ctTag (C : List Byte) : List Byte := C.drop (C.length - 16)

/-- Final memory of `crypto_aead_decrypt` (whether or not the tag is right!): `*mlen` and the candidate
plaintext `m[0 .. clen-16)` are written, nothing else changes. -/
def decPost (e : Endian) (mem : Mem) (m mlen : Nat) (K N A C : List Byte) : Mem :=
  (mem.writes mlen (repr64 e (BitVec.ofNat 64 (C.length - 16)))).writes m
    (aeadCandidate K N A (ctBody C))

/-- `crypto_aead_decrypt` is correct. -/
def DecCorrectAt (e : Endian) (dec : AeadDecrypt) : Prop :=
  ∀ (mem : Mem) (sp m mlen nsec c ad npub k : Nat) (K N A C : List Byte),
    DecPre mem sp m mlen c ad npub k K N A C →
    run (dec e sp m mlen nsec c C.length ad A.length npub k) mem =
      some (if ctTag C = aeadDecTag K N A (ctBody C) then 0 else -1, decPost e mem m mlen K N A C)

/-- … on targets of either byte order. -/
def DecCorrect (dec : AeadDecrypt) : Prop := ∀ e : Endian, DecCorrectAt e dec

/-- Inputs shorter than a tag are refused before anything is touched, in every memory. -/
def DecShort (dec : AeadDecrypt) : Prop :=
  ∀ (e : Endian) (mem : Mem) (sp m mlen nsec c clen ad adlen npub k : Nat), clen < 16 →
    run (dec e sp m mlen nsec c clen ad adlen npub k) mem = some (-1, mem) ∧
    trace (dec e sp m mlen nsec c clen ad adlen npub k) mem = [.branch true]

/-! ## Hash functions -/

/-- Signature of `crypto_hash(out, in, inlen)`. -/
abbrev CryptoHash := Endian → (sp out inp len : Nat) → Prog Int

/-- `crypto_hash` with `n` bytes of output computes `H`.  `out` and `in` may overlap in any way. -/
def HashCorrectAt (e : Endian) (H : List Byte → List Byte) (n : Nat) (f : CryptoHash) : Prop :=
  ∀ (mem : Mem) (sp out inp : Nat) (M : List Byte),
    mem.Holds inp M → M.length < 2 ^ 64 → mem.Writable out n → mem.Free sp 64 →
    run (f e sp out inp M.length) mem = some (0, mem.writes out (H M))

/-- … on targets of either byte order. -/
def HashCorrect (H : List Byte → List Byte) (n : Nat) (f : CryptoHash) : Prop :=
  ∀ e : Endian, HashCorrectAt e H n f

/-- Signature of `ascon_xof(out, outlen, in, inlen)`. -/
abbrev AsconXof := Endian → (sp out outlen inp inlen : Nat) → Prog Int

/-- A function with variable output length computes `H M n`. -/
def XofCorrectAt (e : Endian) (H : List Byte → Nat → List Byte) (f : AsconXof) : Prop :=
  ∀ (mem : Mem) (sp out n inp : Nat) (M : List Byte),
    mem.Holds inp M → M.length < 2 ^ 64 → n < 2 ^ 64 → mem.Writable out n → mem.Free sp 64 →
    run (f e sp out n inp M.length) mem = some (0, mem.writes out (H M n))

/-- … on targets of either byte order. -/
def XofCorrect (H : List Byte → Nat → List Byte) (f : AsconXof) : Prop :=
  ∀ e : Endian, XofCorrectAt e H f

/-- Signature of `crypto_cxof(out, outlen, in, inlen, cs, cslen)`. -/
abbrev CryptoCxof := Endian → (sp out outlen inp inlen cs cslen : Nat) → Prog Int

/-- `crypto_cxof` computes `H Z M n` (customization string `Z`). -/
def CxofCorrect (H : List Byte → List Byte → Nat → List Byte) (f : CryptoCxof) : Prop :=
  ∀ (e : Endian) (mem : Mem) (sp out n inp cs : Nat) (Z M : List Byte),
    mem.Holds inp M → M.length < 2 ^ 64 → mem.Holds cs Z → Z.length < 2 ^ 64 → n < 2 ^ 64 →
    mem.Writable out n → mem.Free sp 64 →
    run (f e sp out n inp M.length cs Z.length) mem = some (0, mem.writes out (H Z M n))

/-! ## Message authentication -/

/-- Signature of `crypto_prf(out, outlen, in, inlen, k)`. -/
abbrev CryptoPrf := Endian → (sp out outlen inp inlen k : Nat) → Prog Int

/-- `crypto_prf` computes `F K M n` for the admissible lengths (`ok inlen outlen`) and refuses all others
without touching memory. -/
def PrfCorrectAt (e : Endian) (F : List Byte → List Byte → Nat → List Byte) (ok : Nat → Nat → Prop)
    (f : CryptoPrf) : Prop :=
  (∀ (mem : Mem) (sp out n inp k : Nat) (K M : List Byte),
    mem.Holds k K → K.length = 16 → mem.Holds inp M → M.length < 2 ^ 64 → mem.Writable out n →
    ok M.length n →
    run (f e sp out n inp M.length k) mem = some (0, mem.writes out (F K M n))) ∧
  (∀ (mem : Mem) (sp out n inp inlen k : Nat), ¬ ok inlen n →
    run (f e sp out n inp inlen k) mem = some (-1, mem) ∧
    trace (f e sp out n inp inlen k) mem = [.branch true])

/-- … on targets of either byte order. -/
def PrfCorrect (F : List Byte → List Byte → Nat → List Byte) (ok : Nat → Nat → Prop) (f : CryptoPrf) : Prop :=
  ∀ e : Endian, PrfCorrectAt e F ok f

/-- Signature of `crypto_auth(out, in, inlen, k)`. -/
abbrev CryptoAuth := Endian → (sp out inp len k : Nat) → Prog Int

/-- `crypto_auth` writes the `n`-byte tag `F K M`, for messages with `ok |M|`. -/
def AuthCorrectAt (e : Endian) (F : List Byte → List Byte → List Byte) (n : Nat) (ok : Nat → Prop)
    (f : CryptoAuth) : Prop :=
  ∀ (mem : Mem) (sp out inp k : Nat) (K M : List Byte),
    mem.Holds k K → K.length = 16 → mem.Holds inp M → M.length < 2 ^ 64 → mem.Writable out n →
    ok M.length →
    run (f e sp out inp M.length k) mem = some (0, mem.writes out (F K M))

/-- … on targets of either byte order. -/
def AuthCorrect (F : List Byte → List Byte → List Byte) (n : Nat) (ok : Nat → Prop) (f : CryptoAuth) : Prop :=
  ∀ e : Endian, AuthCorrectAt e F n ok f

/-- Signature of `crypto_auth_verify(h, in, inlen, k)`. -/
abbrev CryptoVerify := Endian → (sp h inp len k : Nat) → Prog Int

/-- `crypto_auth_verify` returns 0 exactly for the right tag, otherwise -1, and changes no memory. -/
def VerifyCorrectAt (e : Endian) (F : List Byte → List Byte → List Byte) (n : Nat) (ok : Nat → Prop)
    (f : CryptoVerify) : Prop :=
  ∀ (mem : Mem) (sp h inp k : Nat) (K M T : List Byte),
    mem.Holds k K → K.length = 16 → mem.Holds inp M → M.length < 2 ^ 64 → mem.Holds h T → T.length = n →
    ok M.length → mem.Free sp 128 →
    run (f e sp h inp M.length k) mem = some (if T = F K M then 0 else -1, mem)

/-- … on targets of either byte order. -/
def VerifyCorrect (F : List Byte → List Byte → List Byte) (n : Nat) (ok : Nat → Prop) (f : CryptoVerify) :
    Prop := ∀ e : Endian, VerifyCorrectAt e F n ok f

end Ascon.C
