import Verif.Model.GenVar
/-!
# src/hash.c with ASCON_HASH_ROUNDS = 8 and src/prf.c with ASCON_PRF_ROUNDS = 8

The same files as in Model/GenHash.lean and Model/GenPrf.lean, compiled with the other round number: `P(s, ASCON_HASH_ROUNDS)` and
`P(&s, nr)` are then `P(s, 8)`, `ir` is `ASCON_PRFA_IN_RATE` = 40, and the initial values are those of the "a" variants.
-/

namespace Ascon.Gen

open Ascon.C
open Ascon.C.Prog (require ifc loop forUp loadB storeB loadN storeN store64 load64)
open Ascon.Ref (getX xorX tagDiff)

/-- src/hash.c:39-45 -/
def a_hashAbsorbStep (B : Backend) (e : Endian) : State × Nat × Nat → Prog (State × Nat × Nat) :=
  fun (s, inp, inlen) => do
    let w ← LOAD B e inp 8
    let s := { s with x0 := s.x0 ^^^ w }
    let s ← B.P8 e s
    pure (s, inp + 8, inlen - 8)

/-- src/hash.c:36-50 -/
def a_absorb (B : Backend) (e : Endian) (s : State) (inp inlen : Nat) : Prog State := do
  let (s, inp, inlen) ←
    loop (inlen + 1) (fun (_, _, inlen) => decide (inlen ≥ 8)) (a_hashAbsorbStep B e) (s, inp, inlen)
  let w ← LOADBYTES B e inp inlen
  let s := { s with x0 := s.x0 ^^^ w }
  let p ← B.PAD inlen
  let s := { s with x0 := s.x0 ^^^ p }
  pure s

/-- src/hash.c:56-62 -/
def a_hashSqueezeStep (B : Backend) (e : Endian) : State × Nat × Nat → Prog (State × Nat × Nat) :=
  fun (s, out, outlen) => do
    STORE B e out s.x0 8
    let s ← B.P8 e s
    pure (s, out + 8, outlen - 8)

/-- src/hash.c:52-66 -/
def a_squeeze (B : Backend) (e : Endian) (s : State) (out outlen : Nat) : Prog Unit := do
  let s ← B.P12 e s
  let (s, out, outlen) ←
    loop (outlen + 1) (fun (_, _, outlen) => decide (outlen > 8)) (a_hashSqueezeStep B e) (s, out, outlen)
  STOREBYTES B e out s.x0 outlen

/-- src/hash.c:68-77; `ivs` are the five precomputed words of src/hash.c:14-34. -/
def a_xof (B : Backend) (ivs : State) (e : Endian) (_sp out outlen inp inlen : Nat) : Prog Int := do
  let s := ivs
  let s ← a_absorb B e s inp inlen
  a_squeeze B e s out outlen
  pure 0

/-- src/hash.c:79-82 (CRYPTO_BYTES = 32) -/
def a_crypto_hash (B : Backend) (ivs : State) (e : Endian) (sp out inp inlen : Nat) : Prog Int :=
  a_xof B ivs e sp out 32 inp inlen

/-- src/prf.c:43-48 -/
def a_prfAbsorbStep (B : Backend) (e : Endian) : State × Nat × Nat × Nat → Prog (State × Nat × Nat × Nat) :=
  fun (s, i, inp, inlen) => do
    let w ← LOAD B e inp 8
    let s ← xorX s i w
    let i := i + 1
    let i ← ifc (decide (i = 5)) (pure 0) (pure i)
    let s ← ifc (decide (i = 0)) (B.P8 e s) (pure s)
    pure (s, i, inp + 8, inlen - 8)

/-- src/prf.c:40-55 -/
def a_prfAbsorb (B : Backend) (e : Endian) (s : State) (inp inlen : Nat) : Prog State := do
  let (s, i, inp, inlen) ←
    loop (inlen + 1) (fun (_, _, _, inlen) => decide (inlen ≥ 8)) (a_prfAbsorbStep B e) (s, 0, inp, inlen)
  let s ← ifc (decide (inlen ≠ 0))
    (do
      let w ← LOADBYTES B e inp inlen
      xorX s i w)
    (pure s)
  let p ← B.PAD inlen
  let s ← xorX s i p
  pure { s with x4 := s.x4 ^^^ B.DSEP }

/-- src/prf.c:63-68 -/
def a_prfSqueezeStep (B : Backend) (e : Endian) : State × Nat × Nat × Nat → Prog (State × Nat × Nat × Nat) :=
  fun (s, i, out, outlen) => do
    let w ← getX s i
    STORE B e out w 8
    let i := i + 1
    let i ← ifc (decide (i = 2)) (pure 0) (pure i)
    let s ← ifc (decide (i = 0)) (B.P8 e s) (pure s)
    pure (s, i, out + 8, outlen - 8)

/-- src/prf.c:57-71 -/
def a_prfSqueeze (B : Backend) (e : Endian) (s : State) (out outlen : Nat) : Prog Unit := do
  let s ← B.P12 e s
  let (s, i, out, outlen) ←
    loop (outlen + 1) (fun (_, _, _, outlen) => decide (outlen > 8)) (a_prfSqueezeStep B e) (s, 0, out, outlen)
  let w ← getX s i
  STOREBYTES B e out w outlen

/-- src/prf.c:10-76 with the IV (lines 25-28) and CRYPTO_BYTES as parameters. -/
def a_crypto_prf (B : Backend) (iv : Word) (CRYPTO_BYTES : Nat) (e : Endian)
    (_sp out outlen inp inlen k : Nat) : Prog Int :=
  ifc (decide (CRYPTO_BYTES ≠ 0 ∧ outlen > CRYPTO_BYTES)) (pure (-1)) (do
    let K0 ← LOAD B e k 8
    let K1 ← LOAD B e (k + 8) 8
    let s : State := { x0 := iv, x1 := K0, x2 := K1, x3 := 0, x4 := 0 }
    let s ← B.P12 e s
    let s ← a_prfAbsorb B e s inp inlen
    a_prfSqueeze B e s out outlen
    pure 0)

/-- src/prf.c:78-81 -/
def a_crypto_auth (B : Backend) (iv : Word) (CRYPTO_BYTES : Nat) (e : Endian) (sp out inp len k : Nat) :
    Prog Int :=
  a_crypto_prf B iv CRYPTO_BYTES e sp out CRYPTO_BYTES inp len k

/-- src/prf.c:83-91; `sp` is the address of `tag[CRYPTO_BYTES]`. -/
def a_crypto_auth_verify (B : Backend) (iv : Word) (CRYPTO_BYTES : Nat) (e : Endian)
    (sp h inp len k : Nat) : Prog Int := do
  .alloc sp CRYPTO_BYTES (.ret ())
  let _ ← a_crypto_prf B iv CRYPTO_BYTES e (sp + CRYPTO_BYTES) sp CRYPTO_BYTES inp len k
  let r ← tagDiff CRYPTO_BYTES h sp
  .free sp CRYPTO_BYTES (.ret ())
  pure r

end Ascon.Gen

namespace Ascon.Impl

open Ascon.C Ascon.Gen

/-- The initial values of the "a" variants in one constants.h. -/
structure AIvs where
  HASHA : State
  XOFA : State
  PRFA : Word
  MACA : Word

/-- src/constants.h, src/bi32/constants.h, src/bi8/constants.h: `ASCON_HASHA_IV0`…`4`, `ASCON_XOFA_IV0`…`4`,
`ASCON_PRFA_IV`, `ASCON_MACA_IV` -/
def Family.aivs : Family → AIvs
  | .opt =>
    { HASHA := ⟨0xe2ffb4d17ffcadc5, 0xdd364b655fa88ceb, 0xdcaabe85a70319d2, 0xd98f049404be3214, 0xca8c9d516e8a2221⟩
      XOFA := ⟨0xf3040e5017d92943, 0xc474f6e3ae01892e, 0xbf5cb3ca954805e0, 0xd9c28702ccf962ef, 0x5923fa01f4b0e72f⟩
      PRFA := 0x00102800008c0006
      MACA := 0x00102800808c0005 }
  | .bi32 =>
    { HASHA := ⟨0xdfc87ee88f6dfe3b, 0xa5343eaff69bf029, 0xaff8d129e063315c, 0xab080f50d3262646, 0xbaa07b54827da001⟩
      XOFA := ⟨0xd0301a61d22c7d19, 0x84ddf0a7aee92112, 0xf2db820c7e587838, 0xa991ae5fd830ad8b, 0x25f0ccd7d1c1e4b3⟩
      PRFA := 0x00600a0104000202
      MACA := 0x00608a0004000203 }
  | .bi8 =>
    { HASHA := ⟨0xf7ddee7c4e6fc85b, 0x87b955c8afda69b9, 0xf98168a3e2b86d1e, 0xd4800697c47d46c0, 0xe4980b30ec688e31⟩
      XOFA := ⟨0x8495829c2668a98f, 0xbaf079600be93916, 0xb955a1e8d4cab0aa, 0xedcf07848d2973a5, 0x2eaa6faca10b63d3⟩
      PRFA := 0x0400204024050100
      MACA := 0x0c00204024050001 }

/-- Ascon-Hasha: hash.c with ASCON_HASH_BYTES = 32, ASCON_HASH_ROUNDS = 8. -/
def Core.hasha (c : Core) : CryptoHash := a_crypto_hash c.backend c.family.aivs.HASHA
/-- Ascon-Xofa: hash.c with ASCON_HASH_BYTES = 0, ASCON_HASH_ROUNDS = 8. -/
def Core.xofa (c : Core) : AsconXof := a_xof c.backend c.family.aivs.XOFA
/-- Ascon-Prfa: prf.c with ASCON_PRF_BYTES = 0, ASCON_PRF_ROUNDS = 8, CRYPTO_BYTES = 64. -/
def Core.prfa (c : Core) : CryptoPrf := a_crypto_prf c.backend c.family.aivs.PRFA 64
/-- Ascon-Maca: prf.c with ASCON_PRF_BYTES = CRYPTO_BYTES = 16, ASCON_PRF_ROUNDS = 8. -/
def Core.maca (c : Core) : CryptoAuth := a_crypto_auth c.backend c.family.aivs.MACA 16
def Core.macaVerify (c : Core) : CryptoVerify := a_crypto_auth_verify c.backend c.family.aivs.MACA 16

end Ascon.Impl
