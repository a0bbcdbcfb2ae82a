import Verif.Model.RefCore
/-!
# Model of the reference MAC, PRF and short-input PRF

Sources: /repo/crypto_auth/asconmacv13/ref/prf.c and /repo/crypto_auth/asconprfv13/ref/prf.c (identical
up to the IV in line 20 and CRYPTO_BYTES), /repo/crypto_auth/asconprfsv13/ref/prfs.c.
-/

namespace Ascon.Ref

open Ascon.C
open Ascon.C.Prog (require ifc loop forUp loadB storeB loadN storeN store64 load64)

/-- `((uint64_t*)(&s.x[0]))[i]` as a value; undefined for `i ≥ 5`. -/
def getX (s : State) (i : Nat) : Prog Word :=
  match i with
  | 0 => pure s.x0
  | 1 => pure s.x1
  | 2 => pure s.x2
  | 3 => pure s.x3
  | 4 => pure s.x4
  | _ => .ub

/-- `((uint64_t*)(&s.x[0]))[i] ^= w`; undefined for `i ≥ 5`. -/
def xorX (s : State) (i : Nat) (w : Word) : Prog State :=
  match i with
  | 0 => pure { s with x0 := s.x0 ^^^ w }
  | 1 => pure { s with x1 := s.x1 ^^^ w }
  | 2 => pure { s with x2 := s.x2 ^^^ w }
  | 3 => pure { s with x3 := s.x3 ^^^ w }
  | 4 => pure { s with x4 := s.x4 ^^^ w }
  | _ => .ub

/-- crypto_auth/asconmacv13/ref/prf.c:32-37: body of the absorbing loop (state, i, in, inlen). -/
def prfAbsorbStep : State × Nat × Nat × Nat → Prog (State × Nat × Nat × Nat) :=
  fun (s, i, inp, inlen) => do
    let w ← LOADBYTES inp 8
    let s ← xorX s i w
    let i := i + 1
    let i ← ifc (decide (i = 4)) (pure 0) (pure i)
    let s ← ifc (decide (i = 0)) (pure (P12 s)) (pure s)
    pure (s, i, inp + 8, inlen - 8)

/-- crypto_auth/asconmacv13/ref/prf.c:29-45. -/
def prfAbsorb (s : State) (inp inlen : Nat) : Prog State := do
  let (s, i, inp, inlen) ←
    loop (inlen + 1) (fun (_, _, _, inlen) => decide (inlen ≥ 8)) prfAbsorbStep (s, 0, inp, inlen)
  let w ← LOADBYTES inp inlen
  let s ← xorX s i w
  let p ← PAD inlen
  let s ← xorX s i p
  let d ← DSEP
  let s := { s with x4 := s.x4 ^^^ d }
  pure s

/-- crypto_auth/asconmacv13/ref/prf.c:52-57: body of the squeezing loop. -/
def prfSqueezeStep : State × Nat × Nat × Nat → Prog (State × Nat × Nat × Nat) :=
  fun (s, i, out, outlen) => do
    let w ← getX s i
    STOREBYTES out w 8
    let i := i + 1
    let i ← ifc (decide (i = 2)) (pure 0) (pure i)
    let s ← ifc (decide (i = 0)) (pure (P12 s)) (pure s)
    pure (s, i, out + 8, outlen - 8)

/-- crypto_auth/asconmacv13/ref/prf.c:47-60. -/
def prfSqueeze (s : State) (out outlen : Nat) : Prog Unit := do
  let s := P12 s
  let (s, i, out, outlen) ←
    loop (outlen + 1) (fun (_, _, _, outlen) => decide (outlen > 8)) prfSqueezeStep (s, 0, out, outlen)
  let w ← getX s i
  STOREBYTES out w outlen

/-- crypto_auth/asconmacv13/ref/prf.c:8-65 with the IV and CRYPTO_BYTES as parameters. -/
def crypto_prf_with (iv : Word) (CRYPTO_BYTES : Nat) (_e : Endian) (_sp out outlen inp inlen k : Nat) :
    Prog Int :=
  ifc (decide (CRYPTO_BYTES ≠ 0 ∧ outlen > CRYPTO_BYTES)) (pure (-1)) (do
    let K0 ← LOADBYTES k 8
    let K1 ← LOADBYTES (k + 8) 8
    let s : State := { x0 := iv, x1 := K0, x2 := K1, x3 := 0, x4 := 0 }
    let s := P12 s
    let s ← prfAbsorb s inp inlen
    prfSqueeze s out outlen
    pure 0)

/-- crypto_auth/asconmacv13/ref/prf.c:67-70 -/
def crypto_auth_with (iv : Word) (CRYPTO_BYTES : Nat) (e : Endian) (sp out inp len k : Nat) : Prog Int :=
  crypto_prf_with iv CRYPTO_BYTES e sp out CRYPTO_BYTES inp len k

/-- crypto_auth/asconmacv13/ref/prf.c:78-79 and crypto_auth/asconprfsv13/ref/prfs.c:63-64: `diff` is a
`uint8_t`, `diff - 1` is an `int` (32 bits, arithmetic right shift). -/
def tagDiff (n h tag : Nat) : Prog Int := do
  let diff ← forUp (fun i (diff : Byte) => do
    let a ← loadB (h + i)
    let b ← loadB (tag + i)
    pure (diff ||| (a ^^^ b))) n 0 0
  pure (((1 &&& ((diff.setWidth 32 - 1 : BitVec 32).sshiftRight 8)) - 1 : BitVec 32).toInt)

/-- crypto_auth/asconmacv13/ref/prf.c:72-80; `sp` is the address of `tag[CRYPTO_BYTES]`. -/
def crypto_auth_verify_with (iv : Word) (CRYPTO_BYTES : Nat) (e : Endian) (sp h inp len k : Nat) :
    Prog Int := do
  .alloc sp CRYPTO_BYTES (.ret ())
  let _ ← crypto_prf_with iv CRYPTO_BYTES e (sp + CRYPTO_BYTES) sp CRYPTO_BYTES inp len k
  let r ← tagDiff CRYPTO_BYTES h sp
  .free sp CRYPTO_BYTES (.ret ())
  pure r

/-- crypto_auth/asconmacv13/ref/prf.c with CRYPTO_BYTES = 16 (api.h:3). -/
def mac_crypto_prf := crypto_prf_with ASCON_MAC_IV 16
def mac_crypto_auth := crypto_auth_with ASCON_MAC_IV 16
def mac_crypto_auth_verify := crypto_auth_verify_with ASCON_MAC_IV 16

/-- crypto_auth/asconprfv13/ref/prf.c with CRYPTO_BYTES = 64 (api.h:3). -/
def prf_crypto_prf := crypto_prf_with ASCON_PRF_IV 64
def prf_crypto_auth := crypto_auth_with ASCON_PRF_IV 64
def prf_crypto_auth_verify := crypto_auth_verify_with ASCON_PRF_IV 64

/-- crypto_auth/asconprfsv13/ref/prfs.c:8-49, CRYPTO_BYTES = 16. -/
def prfs_crypto_prf (_e : Endian) (_sp out outlen inp inlen k : Nat) : Prog Int :=
  ifc (decide (inlen > 16 ∨ outlen > 16 ∨ outlen > 16)) (pure (-1)) (do
    let K0 ← LOADBYTES k 8
    let K1 ← LOADBYTES (k + 8) 8
    let s : State :=
      { x0 := ASCON_PRFS_IV ||| ((BitVec.ofNat 64 inlen * 8) <<< 48), x1 := K0, x2 := K1, x3 := 0, x4 := 0 }
    let s ← ifc (decide (inlen > 8))
      (do
        let w ← LOADBYTES inp 8
        let s := { s with x3 := w }
        let w ← LOADBYTES (inp + 8) (inlen - 8)
        let s := { s with x4 := w }
        pure s)
      (ifc (decide (inlen ≠ 0))
        (do
          let w ← LOADBYTES inp inlen
          let s := { s with x3 := w }
          pure s)
        (pure s))
    let s := P12 s
    let s := { s with x3 := s.x3 ^^^ K0 }
    let s := { s with x4 := s.x4 ^^^ K1 }
    ifc (decide (outlen > 8))
      (do
        STOREBYTES out s.x3 8
        STOREBYTES (out + 8) s.x4 (outlen - 8))
      (ifc (decide (outlen ≠ 0)) (STOREBYTES out s.x3 outlen) (pure ()))
    pure 0)

/-- crypto_auth/asconprfsv13/ref/prfs.c:51-54 -/
def prfs_crypto_auth (e : Endian) (sp out inp len k : Nat) : Prog Int :=
  prfs_crypto_prf e sp out 16 inp len k

/-- crypto_auth/asconprfsv13/ref/prfs.c:56-65; `sp` is the address of `tag[CRYPTO_BYTES]`. -/
def prfs_crypto_auth_verify (e : Endian) (sp h inp len k : Nat) : Prog Int :=
  ifc (decide (len > 16)) (pure (-1)) (do
    .alloc sp 16 (.ret ())
    let _ ← prfs_crypto_prf e (sp + 16) sp 16 inp len k
    let r ← tagDiff 16 h sp
    .free sp 16 (.ret ())
    pure r)

end Ascon.Ref
