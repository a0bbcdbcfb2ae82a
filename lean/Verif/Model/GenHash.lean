import Verif.Model.GenCore
/-!
# Model of src/hash.c over an arbitrary word backend

The copies crypto_hash/{asconhash256,asconxof128}/<impl>/hash.c are this file with
`ASCON_HASH_BYTES` 32 / 0 (and `ASCON_HASH_ROUNDS` 12).
-/

namespace Ascon.Gen

open Ascon.C
open Ascon.C.Prog (require ifc loop forUp loadB storeB loadN storeN store64 load64)

/-- src/hash.c:39-45: body of the absorbing loop. -/
def hashAbsorbStep (B : Backend) (e : Endian) : State × Nat × Nat → Prog (State × Nat × Nat) :=
  fun (s, inp, inlen) => do
    let w ← LOAD B e inp 8
    let s := { s with x0 := s.x0 ^^^ w }
    let s ← B.P12 e s
    pure (s, inp + 8, inlen - 8)

/-- src/hash.c:36-50 -/
def ascon_absorb (B : Backend) (e : Endian) (s : State) (inp inlen : Nat) : Prog State := do
  let (s, inp, inlen) ←
    loop (inlen + 1) (fun (_, _, inlen) => decide (inlen ≥ 8)) (hashAbsorbStep B e) (s, inp, inlen)
  let w ← LOADBYTES B e inp inlen
  let s := { s with x0 := s.x0 ^^^ w }
  let p ← B.PAD inlen
  let s := { s with x0 := s.x0 ^^^ p }
  pure s

/-- src/hash.c:56-62: body of the squeezing loop. -/
def hashSqueezeStep (B : Backend) (e : Endian) : State × Nat × Nat → Prog (State × Nat × Nat) :=
  fun (s, out, outlen) => do
    STORE B e out s.x0 8
    let s ← B.P12 e s
    pure (s, out + 8, outlen - 8)

/-- src/hash.c:52-66 -/
def ascon_squeeze (B : Backend) (e : Endian) (s : State) (out outlen : Nat) : Prog Unit := do
  let s ← B.P12 e s
  let (s, out, outlen) ←
    loop (outlen + 1) (fun (_, _, outlen) => decide (outlen > 8)) (hashSqueezeStep B e) (s, out, outlen)
  STOREBYTES B e out s.x0 outlen

/-- src/hash.c:68-77; `ivs` are the five precomputed words `IV(0)`…`IV(4)` of src/hash.c:14-34. -/
def ascon_xof (B : Backend) (ivs : State) (e : Endian) (_sp out outlen inp inlen : Nat) : Prog Int := do
  let s := ivs
  let s ← ascon_absorb B e s inp inlen
  ascon_squeeze B e s out outlen
  pure 0

/-- src/hash.c:68-77 as compiled in crypto_hash/asconhash256. -/
def ascon_xof_hash256 (B : Backend) := ascon_xof B B.ASCON_HASH_IVS

/-- src/hash.c:68-77 as compiled in crypto_hash/asconxof128. -/
def ascon_xof_xof128 (B : Backend) := ascon_xof B B.ASCON_XOF_IVS

/-- src/hash.c:79-82 as compiled in crypto_hash/asconhash256 (CRYPTO_BYTES = 32). -/
def crypto_hash_hash256 (B : Backend) (e : Endian) (sp out inp inlen : Nat) : Prog Int :=
  ascon_xof_hash256 B e sp out 32 inp inlen

/-- src/hash.c:79-82 as compiled in crypto_hash/asconxof128 (CRYPTO_BYTES = 64). -/
def crypto_hash_xof128 (B : Backend) (e : Endian) (sp out inp inlen : Nat) : Prog Int :=
  ascon_xof_xof128 B e sp out 64 inp inlen

end Ascon.Gen
