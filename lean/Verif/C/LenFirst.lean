import Verif.C.Contracts
/-!
# Calls whose length variable lies inside another argument

`EncPre` and `DecPre` (C/Contracts) require `*clen`, `*mlen` to be a separate object.  Here it may lie anywhere: inside the key, the nonce,
the associated data, the input or the output.
-/

namespace Ascon.C

open Ascon.Spec

/-- The memory after the length has been stored. -/
def lenStored (e : Endian) (mem : Mem) (p n : Nat) : Mem := mem.writes p (repr64 e (BitVec.ofNat 64 n))

/-- As `EncPre`, but the length variable may overlap everything; `K`, `N`, `A`, `P` are what the pointers point to once the length is
stored. -/
structure EncLenPre (e : Endian) (mem : Mem) (sp c clen m ad npub k : Nat) (K N A P : List Byte) : Prop where
  key : (lenStored e mem clen (P.length + 16)).Holds k K
  keyLen : K.length = 16
  nonce : (lenStored e mem clen (P.length + 16)).Holds npub N
  nonceLen : N.length = 16
  adata : (lenStored e mem clen (P.length + 16)).Holds ad A
  adLen : A.length < 2 ^ 64
  msg : (lenStored e mem clen (P.length + 16)).Holds m P
  msgLen : P.length < 2 ^ 64
  out : mem.Writable c (P.length + 16)
  outLen : mem.Writable clen 8
  overlap : c ≤ m ∨ m + P.length ≤ c
  stack : mem.Free sp 64

/-- `crypto_aead_encrypt` encrypts what the inputs have become, and stores the ciphertext last. -/
def EncLenAt (e : Endian) (enc : AeadEncrypt) : Prop :=
  ∀ (mem : Mem) (sp c clen m ad nsec npub k : Nat) (K N A P : List Byte), EncLenPre e mem sp c clen m ad npub k K N A P →
    run (enc e sp c clen m P.length ad A.length nsec npub k) mem = some (0, encPost e mem c clen K N A P)

/-- As `DecPre`, but the length variable may overlap everything. -/
structure DecLenPre (e : Endian) (mem : Mem) (sp m mlen c ad npub k : Nat) (K N A C : List Byte) : Prop where
  key : (lenStored e mem mlen (C.length - 16)).Holds k K
  keyLen : K.length = 16
  nonce : (lenStored e mem mlen (C.length - 16)).Holds npub N
  nonceLen : N.length = 16
  adata : (lenStored e mem mlen (C.length - 16)).Holds ad A
  adLen : A.length < 2 ^ 64
  ct : (lenStored e mem mlen (C.length - 16)).Holds c C
  ctMin : 16 ≤ C.length
  ctLen : C.length < 2 ^ 64
  out : mem.Writable m (C.length - 16)
  outLen : mem.Writable mlen 8
  overlap : m ≤ c ∨ c + C.length ≤ m
  stack : mem.Free sp 64

/-- `crypto_aead_decrypt` decrypts and verifies what the inputs have become, and stores the plaintext last. -/
def DecLenAt (e : Endian) (dec : AeadDecrypt) : Prop :=
  ∀ (mem : Mem) (sp m mlen nsec c ad npub k : Nat) (K N A C : List Byte), DecLenPre e mem sp m mlen c ad npub k K N A C →
    run (dec e sp m mlen nsec c C.length ad A.length npub k) mem =
      some (if ctTag C = aeadDecTag K N A (ctBody C) then 0 else -1, decPost e mem m mlen K N A C)

end Ascon.C
