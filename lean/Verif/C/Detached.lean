import Verif.C.Contracts
/-!
# Contracts of the interface with a separate tag (`ascon_aead_encrypt`, `ascon_aead_decrypt` of src/ascon.h:39-44)
-/

namespace Ascon.C

open Ascon.Spec

/-- What a caller of `ascon_aead_encrypt(t, c, m, mlen, ad, adlen, npub, k)` must provide.  `t` may be anywhere, even in
the input. -/
structure DetEncPre (mem : Mem) (t c m ad npub k : Nat) (K N A P : List Byte) : Prop where
  key : mem.Holds k K
  keyLen : K.length = 16
  nonce : mem.Holds npub N
  nonceLen : N.length = 16
  adata : mem.Holds ad A
  adLen : A.length < 2 ^ 64
  msg : mem.Holds m P
  msgLen : P.length < 2 ^ 64
  out : mem.Writable c P.length
  tag : mem.Writable t 16
  overlap : c ≤ m ∨ m + P.length ≤ c

/-- The memory afterwards: ciphertext without tag at `c`, then the tag at `t`. -/
def detEncPost (mem : Mem) (t c : Nat) (K N A P : List Byte) : Mem :=
  (mem.writes c (ctBody (aeadEncrypt K N A P))).writes t (ctTag (aeadEncrypt K N A P))

/-- What a caller of `ascon_aead_decrypt(m, t, c, clen, ad, adlen, npub, k)` must provide; `clen` does not include the
tag. -/
structure DetDecPre (mem : Mem) (m t c ad npub k : Nat) (K N A B T : List Byte) : Prop where
  key : mem.Holds k K
  keyLen : K.length = 16
  nonce : mem.Holds npub N
  nonceLen : N.length = 16
  adata : mem.Holds ad A
  adLen : A.length < 2 ^ 64
  ct : mem.Holds c B
  ctLen : B.length < 2 ^ 64
  tag : mem.Holds t T
  tagLen : T.length = 16
  out : mem.Writable m B.length
  overlap : m ≤ c ∨ c + B.length ≤ m
  sepTag : Disjoint m B.length t 16

end Ascon.C
