import Verif.C.Contracts
import Verif.Spec.MaskedTag
import Verif.Model.Masked
/-!
# Calling contracts of the masked implementation (protected_bi32_armv6_leveled)
-/

namespace Ascon.Masked

open Ascon.Spec Ascon.C

/-- The blocks (address, size) are unused memory and do not overlap. -/
def FreshBlocks (mem : Mem) (bs : List (Nat × Nat)) : Prop :=
  (∀ b ∈ bs, mem.Free b.1 b.2) ∧ bs.Pairwise fun x y => Disjoint x.1 x.2 y.1 y.2

/-- The smallest multiple of eight that is not below `n`. -/
def roundUp8 (n : Nat) : Nat := 8 * ((n + 7) / 8)

/-- Precondition of `crypto_aead_encrypt`.  The caller's buffers may overlap each other in any way. -/
structure EncPre (mem : Mem) (h : Heap) (c clen m ad npub k : Nat) (K N A P : List Byte) : Prop where
  key : mem.Holds k K
  keyLen : K.length = 16
  nonce : mem.Holds npub N
  nonceLen : N.length = 16
  adata : mem.Holds ad A
  adLen : A.length + 7 < 2 ^ 64
  msg : mem.Holds m P
  msgLen : P.length + 16 + 7 < 2 ^ 64
  out : mem.Writable c (P.length + 16)
  outLen : mem.Writable clen 8
  heap : FreshBlocks mem [(h.ks, 32), (h.ns, 16), (h.as, roundUp8 A.length), (h.ms, roundUp8 P.length),
    (h.cs, roundUp8 P.length + 16)]

/-- `crypto_aead_encrypt` is correct: whatever `randombytes` and `malloc` deliver, it returns 0, writes the length and
the Ascon-AEAD128 ciphertext, and nothing else changes (all allocated memory has been freed). -/
def EncCorrectAt (e : Endian) (enc : (Nat → Word) → Heap → Endian → (c clen m mlen a alen npub k : Nat) → Prog Int) :
    Prop :=
  ∀ (ρ : Nat → Word) (h : Heap) (mem : Mem) (c clen m ad npub k : Nat) (K N A P : List Byte),
    EncPre mem h c clen m ad npub k K N A P →
    run (enc ρ h e c clen m P.length ad A.length npub k) mem =
      some (0, (mem.writes clen (repr64 e (BitVec.ofNat 64 (P.length + 16)))).writes c (aeadEncrypt K N A P))

/-- Precondition of `crypto_aead_decrypt` on a ciphertext-with-tag `C` of at least 16 bytes. -/
structure DecPre (mem : Mem) (h : Heap) (m mlen c ad npub k : Nat) (K N A C : List Byte) : Prop where
  key : mem.Holds k K
  keyLen : K.length = 16
  nonce : mem.Holds npub N
  nonceLen : N.length = 16
  adata : mem.Holds ad A
  adLen : A.length + 7 < 2 ^ 64
  ct : mem.Holds c C
  ctMin : 16 ≤ C.length
  ctLen : C.length + 7 < 2 ^ 64
  out : mem.Writable m (C.length - 16)
  outLen : mem.Writable mlen 8
  heap : FreshBlocks mem [(h.ks, 32), (h.ns, 16), (h.as, roundUp8 A.length), (h.ms, roundUp8 (C.length - 16)),
    (h.cs, roundUp8 (C.length - 16) + 16)]

/-- `crypto_aead_decrypt` writes the candidate plaintext and accepts if the *32-bit digests* of the tags match. -/
def DecBehavesAt (e : Endian) (dec : (Nat → Word) → Heap → Endian → (m mlen c clen a alen npub k : Nat) → Prog Int) :
    Prop :=
  ∀ (ρ : Nat → Word) (h : Heap) (mem : Mem) (m mlen c ad npub k : Nat) (K N A C : List Byte),
    DecPre mem h m mlen c ad npub k K N A C →
    run (dec ρ h e m mlen c C.length ad A.length npub k) mem =
      some (if tagsMatch32 (ctTag C) (aeadDecTag K N A (ctBody C)) then 0 else -1,
        (mem.writes mlen (repr64 e (BitVec.ofNat 64 (C.length - 16)))).writes m (aeadCandidate K N A (ctBody C)))

end Ascon.Masked
