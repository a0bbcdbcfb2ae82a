import Verif.Model.RefCore
/-!
# Model of the reference hash, XOF and CXOF

Sources: /repo/crypto_hash/asconhash256/ref/hash.c, /repo/crypto_hash/asconxof128/ref/hash.c
(identical up to the IV in line 13 and CRYPTO_BYTES), /repo/crypto_cxof/asconcxof128/ref/hash.c.
-/

namespace Ascon.Ref

open Ascon.C
open Ascon.C.Prog (require ifc loop forUp loadB storeB loadN storeN store64 load64)

/-- crypto_hash/asconhash256/ref/hash.c:12-18 (and crypto_cxof/asconcxof128/ref/hash.c:14-20):
the state before the first permutation. -/
def ivState (iv : Word) : State := { x0 := iv, x1 := 0, x2 := 0, x3 := 0, x4 := 0 }

/-- crypto_hash/asconhash256/ref/hash.c:25-29: body of the absorbing loop. -/
def hashAbsorbStep : State × Nat × Nat → Prog (State × Nat × Nat) := fun (s, inp, len) => do
  let w ← LOADBYTES inp 8
  let s := { s with x0 := s.x0 ^^^ w }
  let s := P12 s
  pure (s, inp + 8, len - 8)

/-- crypto_hash/asconhash256/ref/hash.c:23-35; the same statements appear as
crypto_cxof/asconcxof128/ref/hash.c:30-42 (customization) and 44-56 (message). -/
def hashAbsorb (s : State) (inp len : Nat) : Prog State := do
  let (s, inp, len) ← loop (len + 1) (fun (_, _, len) => decide (len ≥ 8)) hashAbsorbStep (s, inp, len)
  let w ← LOADBYTES inp len
  let s := { s with x0 := s.x0 ^^^ w }
  let p ← PAD len
  let s := { s with x0 := s.x0 ^^^ p }
  let s := P12 s
  pure s

/-- crypto_hash/asconhash256/ref/hash.c:40-44: body of the squeezing loop. -/
def hashSqueezeStep : State × Nat × Nat → Prog (State × Nat × Nat) := fun (s, out, len) => do
  STOREBYTES out s.x0 8
  let s := P12 s
  pure (s, out + 8, len - 8)

/-- crypto_hash/asconhash256/ref/hash.c:37-47 and crypto_cxof/asconcxof128/ref/hash.c:58-67. -/
def hashSqueeze (s : State) (out len : Nat) : Prog Unit := do
  let (s, out, len) ← loop (len + 1) (fun (_, _, len) => decide (len > 8)) hashSqueezeStep (s, out, len)
  STOREBYTES out s.x0 len

/-- crypto_hash/asconhash256/ref/hash.c:8-51 with the IV and CRYPTO_BYTES as parameters. -/
def crypto_hash_with (iv : Word) (CRYPTO_BYTES : Nat) (_e : Endian) (_sp out inp len : Nat) : Prog Int := do
  let s := ivState iv
  let s := P12 s
  let s ← hashAbsorb s inp len
  hashSqueeze s out CRYPTO_BYTES
  pure 0

/-- crypto_hash/asconhash256/ref/hash.c:8-51, CRYPTO_BYTES from crypto_hash/asconhash256/ref/api.h:2. -/
def crypto_hash_hash256 := crypto_hash_with ASCON_HASH_IV 32

/-- crypto_hash/asconxof128/ref/hash.c:8-51, CRYPTO_BYTES from crypto_hash/asconxof128/ref/api.h:2. -/
def crypto_hash_xof128 := crypto_hash_with ASCON_XOF_IV 64

/-- crypto_cxof/asconcxof128/ref/hash.c:8-71; `cslen * 8` is computed modulo 2^64. -/
def crypto_cxof (_e : Endian) (_sp out outlen inp inlen cs cslen : Nat) : Prog Int := do
  let s := ivState ASCON_CXOF_IV
  let s := P12 s
  let s := { s with x0 := s.x0 ^^^ (BitVec.ofNat 64 cslen * 8) }
  let s := P12 s
  let s ← hashAbsorb s cs cslen
  let s ← hashAbsorb s inp inlen
  hashSqueeze s out outlen
  pure 0

/-- crypto_cxof/asconcxof128/ref/hash.c:73-76, CRYPTO_BYTES = 64; `(void*)0` is address 0. -/
def crypto_hash_cxof128 (e : Endian) (sp out inp len : Nat) : Prog Int :=
  crypto_cxof e sp out 64 inp len 0 0

end Ascon.Ref
