import Verif.C.Contracts
import Verif.Spec.Variants
/-!
# Calling contracts of `crypto_aead_encrypt` / `crypto_aead_decrypt` for the whole Ascon family

The contracts of C/Contracts.lean with the parameter set `V` in place of Ascon-AEAD128; the key has `V.keyLen` bytes.
-/

namespace Ascon.C

open Ascon.Spec

/-- Precondition of `crypto_aead_encrypt`. -/
structure VEncPre (V : Variant) (mem : Mem) (c clen m ad npub k : Nat) (K N A P : List Byte) : Prop where
  key : mem.Holds k K
  keyLen : K.length = V.keyLen
  nonce : mem.Holds npub N
  nonceLen : N.length = 16
  adata : mem.Holds ad A
  adLen : A.length < 2 ^ 64
  msg : mem.Holds m P
  msgLen : P.length < 2 ^ 64
  out : mem.Writable c (P.length + 16)
  outLen : mem.Writable clen 8
  sepKey : Disjoint clen 8 k V.keyLen
  sepNonce : Disjoint clen 8 npub 16
  sepAd : Disjoint clen 8 ad A.length
  sepMsg : Disjoint clen 8 m P.length
  sepOut : Disjoint clen 8 c (P.length + 16)
  overlap : c ≤ m ∨ m + P.length ≤ c

/-- `crypto_aead_encrypt` terminates without undefined behaviour, returns 0, sets `*clen` and `c[0 .. mlen+16)` to the
encryption, and changes nothing else. -/
def VEncCorrectAt (V : Variant) (e : Endian) (enc : AeadEncrypt) : Prop :=
  ∀ (mem : Mem) (sp c clen m ad nsec npub k : Nat) (K N A P : List Byte),
    VEncPre V mem c clen m ad npub k K N A P →
    run (enc e sp c clen m P.length ad A.length nsec npub k) mem =
      some (0, (mem.writes clen (repr64 e (BitVec.ofNat 64 (P.length + 16)))).writes c (V.encrypt K N A P))

/-- Precondition of `crypto_aead_decrypt` on at least 16 bytes. -/
structure VDecPre (V : Variant) (mem : Mem) (m mlen c ad npub k : Nat) (K N A C : List Byte) : Prop where
  key : mem.Holds k K
  keyLen : K.length = V.keyLen
  nonce : mem.Holds npub N
  nonceLen : N.length = 16
  adata : mem.Holds ad A
  adLen : A.length < 2 ^ 64
  ct : mem.Holds c C
  ctMin : 16 ≤ C.length
  ctLen : C.length < 2 ^ 64
  out : mem.Writable m (C.length - 16)
  outLen : mem.Writable mlen 8
  sepKey : Disjoint mlen 8 k V.keyLen
  sepNonce : Disjoint mlen 8 npub 16
  sepAd : Disjoint mlen 8 ad A.length
  sepCt : Disjoint mlen 8 c C.length
  sepOut : Disjoint mlen 8 m (C.length - 16)
  overlap : m ≤ c ∨ c + C.length ≤ m

/-- `crypto_aead_decrypt` returns 0 exactly for the right tag; it sets `*mlen` and `m[0 .. clen-16)` to the plaintext
candidate in both cases, and changes nothing else. -/
def VDecCorrectAt (V : Variant) (e : Endian) (dec : AeadDecrypt) : Prop :=
  ∀ (mem : Mem) (sp m mlen nsec c ad npub k : Nat) (K N A C : List Byte),
    VDecPre V mem m mlen c ad npub k K N A C →
    run (dec e sp m mlen nsec c C.length ad A.length npub k) mem =
      some (if ctTag C = V.decTag K N A (ctBody C) then 0 else -1,
        (mem.writes mlen (repr64 e (BitVec.ofNat 64 (C.length - 16)))).writes m (V.candidate K N A (ctBody C)))

end Ascon.C
