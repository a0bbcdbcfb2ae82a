import Verif.C.Contracts
/-!
# Calls whose output buffer starts inside the input, ahead of the read position

The calls that `EncPre` and `DecPre` (C/Contracts) exclude.
-/

namespace Ascon.C

open Ascon.Spec

/-- `P'` is `P` up to position `d`; from there on it is `C`, shifted by `d`. -/
def Fed (d : Nat) (P C P' : List Byte) : Prop :=
  P'.length = P.length ∧ ∀ x, x < P.length → P'.getD x 0 = if x < d then P.getD x 0 else C.getD (x - d) 0

/-- As `EncPre`, for a ciphertext buffer that starts `d ≥ 16` bytes after the start of the message. -/
structure EncAheadPre (mem : Mem) (sp clen m d ad npub k : Nat) (K N A P : List Byte) : Prop where
  key : mem.Holds k K
  keyLen : K.length = 16
  nonce : mem.Holds npub N
  nonceLen : N.length = 16
  adata : mem.Holds ad A
  adLen : A.length < 2 ^ 64
  msg : mem.Holds m P
  msgLen : P.length < 2 ^ 64
  out : mem.Writable (m + d) (P.length + 16)
  outLen : mem.Writable clen 8
  sepKey : Disjoint clen 8 k 16
  sepNonce : Disjoint clen 8 npub 16
  sepAd : Disjoint clen 8 ad A.length
  sepMsg : Disjoint clen 8 m P.length
  sepOut : Disjoint clen 8 (m + d) (P.length + 16)
  ahead : 16 ≤ d
  stack : mem.Free sp 64

/-- What `crypto_aead_encrypt` does then: it encrypts, instead of the message, `P'`, the message with everything from position `d` on
replaced by the ciphertext being produced. -/
def EncAheadAt (e : Endian) (enc : AeadEncrypt) : Prop :=
  ∀ (mem : Mem) (sp clen m d ad nsec npub k : Nat) (K N A P : List Byte), EncAheadPre mem sp clen m d ad npub k K N A P →
    ∃ P', Fed d P (aeadEncrypt K N A P') P' ∧
      run (enc e sp (m + d) clen m P.length ad A.length nsec npub k) mem = some (0, encPost e mem (m + d) clen K N A P')

/-- As `DecPre`, for a plaintext buffer that starts `d ≥ 16` bytes after the start of the ciphertext. -/
structure DecAheadPre (mem : Mem) (sp mlen c d ad npub k : Nat) (K N A C : List Byte) : Prop where
  key : mem.Holds k K
  keyLen : K.length = 16
  nonce : mem.Holds npub N
  nonceLen : N.length = 16
  adata : mem.Holds ad A
  adLen : A.length < 2 ^ 64
  ct : mem.Holds c C
  ctMin : 16 ≤ C.length
  ctLen : C.length < 2 ^ 64
  out : mem.Writable (c + d) (C.length - 16)
  outLen : mem.Writable mlen 8
  sepKey : Disjoint mlen 8 k 16
  sepNonce : Disjoint mlen 8 npub 16
  sepAd : Disjoint mlen 8 ad A.length
  sepCt : Disjoint mlen 8 c C.length
  sepOut : Disjoint mlen 8 (c + d) (C.length - 16)
  ahead : 16 ≤ d
  stack : mem.Free sp 64

/-- What `crypto_aead_decrypt` does then: it decrypts, and verifies the tag of, `C'`: the ciphertext with everything from position `d` on,
the tag included, replaced by the plaintext being produced. -/
def DecAheadAt (e : Endian) (dec : AeadDecrypt) : Prop :=
  ∀ (mem : Mem) (sp mlen nsec c d ad npub k : Nat) (K N A C : List Byte), DecAheadPre mem sp mlen c d ad npub k K N A C →
    ∃ C', Fed d C (aeadCandidate K N A (ctBody C')) C' ∧
      run (dec e sp (c + d) mlen nsec c C.length ad A.length npub k) mem =
        some (if ctTag C' = aeadDecTag K N A (ctBody C') then 0 else -1, decPost e mem (c + d) mlen K N A C')

end Ascon.C
