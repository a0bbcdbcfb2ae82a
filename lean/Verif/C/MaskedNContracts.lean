import Verif.C.MaskedContracts
import Verif.Model.MaskedN
/-!
# Calling contracts of the masked implementation for an arbitrary choice of the numbers of shares
-/

namespace Ascon.MaskedN

open Ascon.Spec Ascon.C
open Ascon.Masked (Heap FreshBlocks roundUp8)

/-- Precondition of `crypto_aead_encrypt` compiled with the configuration `g`.  The caller's buffers may overlap each other in any
way; a buffer with `n` shares takes `n` times the (rounded up) size of its data. -/
structure EncPre (g : Cfg) (mem : Mem) (h : Heap) (c clen m ad npub k : Nat) (K N A P : List Byte) : Prop where
  key : mem.Holds k K
  keyLen : K.length = 16
  nonce : mem.Holds npub N
  nonceLen : N.length = 16
  adata : mem.Holds ad A
  adLen : g.AD * roundUp8 A.length < 2 ^ 64
  msg : mem.Holds m P
  msgLen : g.M * roundUp8 P.length + 16 * g.M < 2 ^ 64
  out : mem.Writable c (P.length + 16)
  outLen : mem.Writable clen 8
  heap : FreshBlocks mem [(h.ks, g.KEY * 16), (h.ns, g.NPUB * 16), (h.as, g.AD * roundUp8 A.length),
    (h.ms, g.M * roundUp8 P.length), (h.cs, g.C * (roundUp8 P.length + 16))]

/-- `crypto_aead_encrypt` is correct: whatever `randombytes` and `malloc` deliver, it returns 0, writes the length and
the Ascon-AEAD128 ciphertext, and nothing else changes (all allocated memory has been freed). -/
def EncCorrectAt (g : Cfg) (e : Endian)
    (enc : Cfg → (Nat → Nat → Word) → (Nat → Nat → Word) → Heap → Endian → (c clen m mlen a alen npub k : Nat) → Prog Int) : Prop :=
  ∀ (σ ρ : Nat → Nat → Word) (h : Heap) (mem : Mem) (c clen m ad npub k : Nat) (K N A P : List Byte),
    EncPre g mem h c clen m ad npub k K N A P →
    run (enc g σ ρ h e c clen m P.length ad A.length npub k) mem =
      some (0, (mem.writes clen (repr64 e (BitVec.ofNat 64 (P.length + 16)))).writes c (aeadEncrypt K N A P))

/-- Precondition of `crypto_aead_decrypt` on a ciphertext-with-tag `D` of at least 16 bytes. -/
structure DecPre (g : Cfg) (mem : Mem) (h : Heap) (m mlen c ad npub k : Nat) (K N A D : List Byte) : Prop where
  key : mem.Holds k K
  keyLen : K.length = 16
  nonce : mem.Holds npub N
  nonceLen : N.length = 16
  adata : mem.Holds ad A
  adLen : g.AD * roundUp8 A.length < 2 ^ 64
  ct : mem.Holds c D
  ctMin : 16 ≤ D.length
  ctLen : g.M * roundUp8 D.length < 2 ^ 64
  out : mem.Writable m (D.length - 16)
  outLen : mem.Writable mlen 8
  heap : FreshBlocks mem [(h.ks, g.KEY * 16), (h.ns, g.NPUB * 16), (h.as, g.AD * roundUp8 A.length),
    (h.ms, g.M * roundUp8 (D.length - 16)), (h.cs, g.C * (roundUp8 (D.length - 16) + 16))]

/-- `crypto_aead_decrypt` writes the candidate plaintext and accepts if the *32-bit digests* of the tags match. -/
def DecBehavesAt (g : Cfg) (e : Endian)
    (dec : Cfg → (Nat → Nat → Word) → (Nat → Nat → Word) → Heap → Endian → (m mlen c clen a alen npub k : Nat) → Prog Int) : Prop :=
  ∀ (σ ρ : Nat → Nat → Word) (h : Heap) (mem : Mem) (m mlen c ad npub k : Nat) (K N A D : List Byte),
    DecPre g mem h m mlen c ad npub k K N A D →
    run (dec g σ ρ h e m mlen c D.length ad A.length npub k) mem =
      some (if tagsMatch32 (ctTag D) (aeadDecTag K N A (ctBody D)) then 0 else -1,
        (mem.writes mlen (repr64 e (BitVec.ofNat 64 (D.length - 16)))).writes m (aeadCandidate K N A (ctBody D)))

end Ascon.MaskedN
