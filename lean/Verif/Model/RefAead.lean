import Verif.Model.RefCore
/-!
# Model of crypto_aead/asconaead128/ref/aead.c

Common conventions of all models:
* `e : Endian` is the byte order of the target (it matters for `*clen`/`*mlen`);
* `sp` is the address of the automatic arrays of the function;
* lengths (`unsigned long long`) are natural numbers; the theorems assume them below
  `2^64`; subtractions are guarded by the loop tests, the additions that can wrap are
  computed modulo `2^64`;
* `print*` calls are empty macros unless ASCON_PRINT_STATE is defined and are omitted.
-/

namespace Ascon.Ref

open Ascon.C
open Ascon.C.Prog (require ifc loop forUp loadB storeB loadN storeN store64 load64)

/-- ref/aead.c:47-52 and 161-166: body of the associated-data loop. -/
def adStep : State × Nat × Nat → Prog (State × Nat × Nat) := fun (s, ad, adlen) => do
  let w ← LOADBYTES ad 8
  let s := { s with x0 := s.x0 ^^^ w }
  let w ← LOADBYTES (ad + 8) 8
  let s := { s with x1 := s.x1 ^^^ w }
  let s := P8 s
  pure (s, ad + 16, adlen - 16)

/-- ref/aead.c:46-53 and 160-167: `while (adlen >= ASCON_128A_RATE) …` -/
def adLoop (s : State) (ad adlen : Nat) : Prog (State × Nat × Nat) :=
  loop (adlen + 1) (fun (_, _, adlen) => decide (adlen ≥ 16)) adStep (s, ad, adlen)

/-- ref/aead.c:44-65 and 158-179: `if (adlen) { … }` -/
def absorbAd (s : State) (ad adlen : Nat) : Prog State :=
  ifc (decide (adlen ≠ 0))
    (do
      let (s, ad, adlen) ← adLoop s ad adlen
      let s ← ifc (decide (adlen ≥ 8))
        (do
          let w ← LOADBYTES ad 8
          let s := { s with x0 := s.x0 ^^^ w }
          let w ← LOADBYTES (ad + 8) (adlen - 8)
          let s := { s with x1 := s.x1 ^^^ w }
          let p ← PAD (adlen - 8)
          let s := { s with x1 := s.x1 ^^^ p }
          pure s)
        (do
          let w ← LOADBYTES ad adlen
          let s := { s with x0 := s.x0 ^^^ w }
          let p ← PAD adlen
          let s := { s with x0 := s.x0 ^^^ p }
          pure s)
      let s := P8 s
      pure s)
    (pure s)

/-- ref/aead.c:26-42 and 140-156: load key and nonce, initialize. -/
def initAead (npub k : Nat) : Prog (Word × Word × State) := do
  let K0 ← LOADBYTES k 8
  let K1 ← LOADBYTES (k + 8) 8
  let N0 ← LOADBYTES npub 8
  let N1 ← LOADBYTES (npub + 8) 8
  let s : State := { x0 := ASCON_128A_IV, x1 := K0, x2 := K1, x3 := N0, x4 := N1 }
  let s := P12 s
  let s := { s with x3 := s.x3 ^^^ K0 }
  let s := { s with x4 := s.x4 ^^^ K1 }
  pure (K0, K1, s)

/-- ref/aead.c:72-80: body of the plaintext loop. -/
def encStep : State × Nat × Nat × Nat → Prog (State × Nat × Nat × Nat) := fun (s, c, m, mlen) => do
  let w ← LOADBYTES m 8
  let s := { s with x0 := s.x0 ^^^ w }
  let w ← LOADBYTES (m + 8) 8
  let s := { s with x1 := s.x1 ^^^ w }
  STOREBYTES c s.x0 8
  STOREBYTES (c + 8) s.x1 8
  let s := P8 s
  pure (s, c + 16, m + 16, mlen - 16)

/-- ref/aead.c:71-81: full plaintext blocks. -/
def encLoop (s : State) (c m mlen : Nat) : Prog (State × Nat × Nat × Nat) :=
  loop (mlen + 1) (fun (_, _, _, mlen) => decide (mlen ≥ 16)) encStep (s, c, m, mlen)

/-- ref/aead.c:82-95: final plaintext block (returns the state and the advanced `c`). -/
def encFinal (s : State) (c m mlen : Nat) : Prog (State × Nat) := do
  let s ← ifc (decide (mlen ≥ 8))
    (do
      let w ← LOADBYTES m 8
      let s := { s with x0 := s.x0 ^^^ w }
      let w ← LOADBYTES (m + 8) (mlen - 8)
      let s := { s with x1 := s.x1 ^^^ w }
      STOREBYTES c s.x0 8
      STOREBYTES (c + 8) s.x1 (mlen - 8)
      let p ← PAD (mlen - 8)
      let s := { s with x1 := s.x1 ^^^ p }
      pure s)
    (do
      let w ← LOADBYTES m mlen
      let s := { s with x0 := s.x0 ^^^ w }
      STOREBYTES c s.x0 mlen
      let p ← PAD mlen
      let s := { s with x0 := s.x0 ^^^ p }
      pure s)
  pure (s, c + mlen)

/-- ref/aead.c:98-105 and 220-227: finalize. -/
def finalize (K0 K1 : Word) (s : State) : State :=
  let s := { s with x2 := s.x2 ^^^ K0 }
  let s := { s with x3 := s.x3 ^^^ K1 }
  let s := P12 s
  let s := { s with x3 := s.x3 ^^^ K0 }
  let s := { s with x4 := s.x4 ^^^ K1 }
  s

/-- ref/aead.c:8-117 `crypto_aead_encrypt` -/
def crypto_aead_encrypt (e : Endian) (_sp c clen m mlen ad adlen _nsec npub k : Nat) : Prog Int := do
  store64 e clen (BitVec.ofNat 64 (mlen + 16))
  let (K0, K1, s) ← initAead npub k
  let s ← absorbAd s ad adlen
  let d ← DSEP
  let s := { s with x4 := s.x4 ^^^ d }
  let (s, c, m, mlen) ← encLoop s c m mlen
  let (s, c) ← encFinal s c m mlen
  let s := finalize K0 K1 s
  STOREBYTES c s.x3 8
  STOREBYTES (c + 8) s.x4 8
  pure 0

/-- ref/aead.c:187-197: body of the ciphertext loop. -/
def decStep : State × Nat × Nat × Nat → Prog (State × Nat × Nat × Nat) := fun (s, m, c, clen) => do
  let c0 ← LOADBYTES c 8
  let c1 ← LOADBYTES (c + 8) 8
  STOREBYTES m (s.x0 ^^^ c0) 8
  STOREBYTES (m + 8) (s.x1 ^^^ c1) 8
  let s := { s with x0 := c0 }
  let s := { s with x1 := c1 }
  let s := P8 s
  pure (s, m + 16, c + 16, clen - 16)

/-- ref/aead.c:186-198: full ciphertext blocks. -/
def decLoop (s : State) (m c clen : Nat) : Prog (State × Nat × Nat × Nat) :=
  loop (clen + 1) (fun (_, _, _, clen) => decide (clen ≥ 16)) decStep (s, m, c, clen)

/-- ref/aead.c:199-217: final ciphertext block (returns the state and the advanced `c`). -/
def decFinal (s : State) (m c clen : Nat) : Prog (State × Nat) := do
  let s ← ifc (decide (clen ≥ 8))
    (do
      let c0 ← LOADBYTES c 8
      let c1 ← LOADBYTES (c + 8) (clen - 8)
      STOREBYTES m (s.x0 ^^^ c0) 8
      STOREBYTES (m + 8) (s.x1 ^^^ c1) (clen - 8)
      let s := { s with x0 := c0 }
      let y ← CLEARBYTES s.x1 (clen - 8)
      let s := { s with x1 := y }
      let s := { s with x1 := s.x1 ||| c1 }
      let p ← PAD (clen - 8)
      let s := { s with x1 := s.x1 ^^^ p }
      pure s)
    (do
      let c0 ← LOADBYTES c clen
      STOREBYTES m (s.x0 ^^^ c0) clen
      let y ← CLEARBYTES s.x0 clen
      let s := { s with x0 := y }
      let s := { s with x0 := s.x0 ||| c0 }
      let p ← PAD clen
      let s := { s with x0 := s.x0 ^^^ p }
      pure s)
  pure (s, c + clen)

/-- ref/aead.c:235-238: `result |= c[i] ^ t[i]` over 16 bytes, then
`result = (((result - 1) >> 8) & 1) - 1` on 32-bit `int` (arithmetic right shift). -/
def verifyTag (c t : Nat) : Prog Int := do
  let result ← forUp (fun i (result : BitVec 32) => do
    let a ← loadB (c + i)
    let b ← loadB (t + i)
    pure (result ||| (a ^^^ b).setWidth 32)) 16 0 0
  let result := ((((result - 1).sshiftRight 8) &&& 1) - 1)
  pure result.toInt

/-- ref/aead.c:119-245 `crypto_aead_decrypt`; `sp` is the address of `uint8_t t[16]`. -/
def crypto_aead_decrypt (e : Endian) (sp m mlen _nsec c clen ad adlen npub k : Nat) : Prog Int :=
  ifc (decide (clen < 16)) (pure (-1)) (do
    store64 e mlen (BitVec.ofNat 64 (clen - 16))
    let (K0, K1, s) ← initAead npub k
    let s ← absorbAd s ad adlen
    let d ← DSEP
    let s := { s with x4 := s.x4 ^^^ d }
    let clen := clen - 16
    let (s, m, c, clen) ← decLoop s m c clen
    let (s, c) ← decFinal s m c clen
    let s := finalize K0 K1 s
    .alloc sp 16 (.ret ())
    STOREBYTES sp s.x3 8
    STOREBYTES (sp + 8) s.x4 8
    let result ← verifyTag c sp
    .free sp 16 (.ret ())
    pure result)

end Ascon.Ref
