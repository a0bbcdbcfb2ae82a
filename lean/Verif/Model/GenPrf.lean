import Verif.Model.GenCore
import Verif.Model.RefPrf
/-!
# Model of src/prf.c and src/prfs.c over an arbitrary word backend

The copies crypto_auth/{asconmacv13,asconprfv13}/<impl>/prf.c and crypto_auth/asconprfsv13/<impl>/prfs.c are
these files.  ASCON_PRF_ROUNDS = 12; asconmacv13: ASCON_PRF_BYTES = CRYPTO_BYTES = 16; asconprfv13:
ASCON_PRF_BYTES = 0, CRYPTO_BYTES = 64.  (The statement of prf.c:29-31 is compiled only for other sizes.)
`getX`, `xorX` (array access `s.x[i]`) and `tagDiff` (comparison loop) are the same code as in the
reference implementation and are reused.
-/

namespace Ascon.Gen

open Ascon.C
open Ascon.C.Prog (require ifc loop forUp loadB storeB loadN storeN store64 load64)
open Ascon.Ref (getX xorX tagDiff)

/-- src/prf.c:43-48: body of the absorbing loop (state, i, in, inlen). -/
def prfAbsorbStep (B : Backend) (e : Endian) : State × Nat × Nat × Nat → Prog (State × Nat × Nat × Nat) :=
  fun (s, i, inp, inlen) => do
    let w ← LOAD B e inp 8
    let s ← xorX s i w
    let i := i + 1
    let i ← ifc (decide (i = 4)) (pure 0) (pure i)
    let s ← ifc (decide (i = 0)) (B.P12 e s) (pure s)
    pure (s, i, inp + 8, inlen - 8)

/-- src/prf.c:40-55. -/
def prfAbsorb (B : Backend) (e : Endian) (s : State) (inp inlen : Nat) : Prog State := do
  let (s, i, inp, inlen) ←
    loop (inlen + 1) (fun (_, _, _, inlen) => decide (inlen ≥ 8)) (prfAbsorbStep B e) (s, 0, inp, inlen)
  let s ← ifc (decide (inlen ≠ 0))
    (do
      let w ← LOADBYTES B e inp inlen
      xorX s i w)
    (pure s)
  let p ← B.PAD inlen
  let s ← xorX s i p
  pure { s with x4 := s.x4 ^^^ B.DSEP }

/-- src/prf.c:63-68: body of the squeezing loop. -/
def prfSqueezeStep (B : Backend) (e : Endian) : State × Nat × Nat × Nat → Prog (State × Nat × Nat × Nat) :=
  fun (s, i, out, outlen) => do
    let w ← getX s i
    STORE B e out w 8
    let i := i + 1
    let i ← ifc (decide (i = 2)) (pure 0) (pure i)
    let s ← ifc (decide (i = 0)) (B.P12 e s) (pure s)
    pure (s, i, out + 8, outlen - 8)

/-- src/prf.c:57-71. -/
def prfSqueeze (B : Backend) (e : Endian) (s : State) (out outlen : Nat) : Prog Unit := do
  let s ← B.P12 e s
  let (s, i, out, outlen) ←
    loop (outlen + 1) (fun (_, _, _, outlen) => decide (outlen > 8)) (prfSqueezeStep B e) (s, 0, out, outlen)
  let w ← getX s i
  STOREBYTES B e out w outlen

/-- src/prf.c:10-76 with the IV (lines 25-28) and CRYPTO_BYTES as parameters. -/
def crypto_prf_with (B : Backend) (iv : Word) (CRYPTO_BYTES : Nat) (e : Endian)
    (_sp out outlen inp inlen k : Nat) : Prog Int :=
  ifc (decide (CRYPTO_BYTES ≠ 0 ∧ outlen > CRYPTO_BYTES)) (pure (-1)) (do
    let K0 ← LOAD B e k 8
    let K1 ← LOAD B e (k + 8) 8
    let s : State := { x0 := iv, x1 := K0, x2 := K1, x3 := 0, x4 := 0 }
    let s ← B.P12 e s
    let s ← prfAbsorb B e s inp inlen
    prfSqueeze B e s out outlen
    pure 0)

/-- src/prf.c:78-81 -/
def crypto_auth_with (B : Backend) (iv : Word) (CRYPTO_BYTES : Nat) (e : Endian) (sp out inp len k : Nat) :
    Prog Int :=
  crypto_prf_with B iv CRYPTO_BYTES e sp out CRYPTO_BYTES inp len k

/-- src/prf.c:83-91; `sp` is the address of `tag[CRYPTO_BYTES]`. -/
def crypto_auth_verify_with (B : Backend) (iv : Word) (CRYPTO_BYTES : Nat) (e : Endian)
    (sp h inp len k : Nat) : Prog Int := do
  .alloc sp CRYPTO_BYTES (.ret ())
  let _ ← crypto_prf_with B iv CRYPTO_BYTES e (sp + CRYPTO_BYTES) sp CRYPTO_BYTES inp len k
  let r ← tagDiff CRYPTO_BYTES h sp
  .free sp CRYPTO_BYTES (.ret ())
  pure r

/-- crypto_auth/asconmacv13: src/prf.c with CRYPTO_BYTES = 16. -/
def mac_crypto_prf (B : Backend) := crypto_prf_with B B.ASCON_MAC_IV 16
def mac_crypto_auth (B : Backend) := crypto_auth_with B B.ASCON_MAC_IV 16
def mac_crypto_auth_verify (B : Backend) := crypto_auth_verify_with B B.ASCON_MAC_IV 16

/-- crypto_auth/asconprfv13: src/prf.c with CRYPTO_BYTES = 64. -/
def prf_crypto_prf (B : Backend) := crypto_prf_with B B.ASCON_PRF_IV 64
def prf_crypto_auth (B : Backend) := crypto_auth_with B B.ASCON_PRF_IV 64
def prf_crypto_auth_verify (B : Backend) := crypto_auth_verify_with B B.ASCON_PRF_IV 64

/-- src/prfs.c:10-51, CRYPTO_BYTES = 16. -/
def prfs_crypto_prf (B : Backend) (e : Endian) (_sp out outlen inp inlen k : Nat) : Prog Int :=
  ifc (decide (inlen > 16 ∨ outlen > 16 ∨ outlen > 16)) (pure (-1)) (do
    let K0 ← LOAD B e k 8
    let K1 ← LOAD B e (k + 8) 8
    let s : State :=
      { x0 := B.ASCON_PRFS_IV ^^^ B.PRFS_MLEN (BitVec.ofNat 64 inlen), x1 := K0, x2 := K1, x3 := 0, x4 := 0 }
    let s ← ifc (decide (inlen > 8))
      (do
        let w ← LOAD B e inp 8
        let s := { s with x3 := w }
        let w ← LOADBYTES B e (inp + 8) (inlen - 8)
        let s := { s with x4 := w }
        pure s)
      (ifc (decide (inlen ≠ 0))
        (do
          let w ← LOADBYTES B e inp inlen
          let s := { s with x3 := w }
          pure s)
        (pure s))
    let s ← B.P12 e s
    let s := { s with x3 := s.x3 ^^^ K0 }
    let s := { s with x4 := s.x4 ^^^ K1 }
    ifc (decide (outlen > 8))
      (do
        STORE B e out s.x3 8
        STOREBYTES B e (out + 8) s.x4 (outlen - 8))
      (ifc (decide (outlen ≠ 0)) (STOREBYTES B e out s.x3 outlen) (pure ()))
    pure 0)

/-- src/prfs.c:53-56 -/
def prfs_crypto_auth (B : Backend) (e : Endian) (sp out inp len k : Nat) : Prog Int :=
  prfs_crypto_prf B e sp out 16 inp len k

/-- src/prfs.c:58-67; `sp` is the address of `tag[CRYPTO_BYTES]`. -/
def prfs_crypto_auth_verify (B : Backend) (e : Endian) (sp h inp len k : Nat) : Prog Int :=
  ifc (decide (len > 16)) (pure (-1)) (do
    .alloc sp 16 (.ret ())
    let _ ← prfs_crypto_prf B e (sp + 16) sp 16 inp len k
    let r ← tagDiff 16 h sp
    .free sp 16 (.ret ())
    pure r)

end Ascon.Gen
