import Verif.C.Asm
import Verif.Model.Backends
import Verif.Model.GenAead
/-!
# Model of the implementation neon (src/neon/*)

The copies in crypto_aead/asconaead128/neon, crypto_aead_hash/asconaeadxof128/neon and
crypto_hash/{asconhash256,asconxof128}/neon are identical.  word.h, constants.h and hash.c are the generic ones
(src/word.h, src/constants.h, src/hash.c); round.h, permutations.h and aead.c are inline NEON assembly around C.

* Register `i < 32` of the machine is `d<i>`; `q<i>` is the pair `d<2i>`, `d<2i+1>`.
* `vldm`/`vstm` on the caller's buffers access the byte memory: two 64-bit words in the byte order of the machine, and
  the address must be a multiple of 4 – these instructions raise an alignment fault otherwise, whatever the setting
  of SCTLR.A.  A fault is `ub`.
* The carry and the zero flag are modelled, as the loops depend on them.
* `vldm %[s]`, `vstm %[s]` move the state between memory and `d0`-`d4`; the state lives in a Lean variable.
-/

namespace Ascon.Neon

open Ascon.C Ascon.Asm
open Ascon.C.Prog (require ifc loop loadN storeN store64)
open Ascon.Gen (Backend)

/-! ## round.h -/

/-- A `veor q, q, q` -/
def veorq (d a b : Nat) : List (Instr 64) :=
  [.bit .xor (2 * d) (.reg (2 * a)) (.reg (2 * b)), .bit .xor (2 * d + 1) (.reg (2 * a + 1)) (.reg (2 * b + 1))]

def veor (d a b : Nat) : Instr 64 := .bit .xor d (.reg a) (.reg b)
/-- `vbic d, a, b`: `a & ~b` -/
def vbic (d a b : Nat) : Instr 64 := .bit .andn d (.reg a) (.reg b)
def vmvn (d a : Nat) : Instr 64 := .mvn d (.reg a)
def vsri (d a k : Nat) : Instr 64 := .sri d a k
def vsli (d a k : Nat) : Instr 64 := .sli d a k

/-- round.h:12-52: `ROUND` without the first instruction (the load of the constant into `d31`) -/
def roundBody : List (Instr 64) :=
  [veor 0 0 4, veor 4 4 3, veor 2 2 31, vbic 13 0 4, vbic 12 4 3, veor 2 2 1, vbic 14 1 0, vbic 11 3 2, vbic 10 2 1] ++
  veorq 0 0 5 ++ veorq 1 1 6 ++
  [veor 4 4 14, veor 1 1 0, veor 3 3 2, veor 0 0 4,
   vsri 14 4 7, vsri 24 4 41, vsri 11 1 39, vsri 21 1 61, vsri 10 0 19, vsri 20 0 28, vsri 12 2 1, vsri 22 2 6,
   vsri 13 3 10, vsri 23 3 17,
   vsli 10 0 45, vsli 20 0 36, vsli 11 1 25, vsli 21 1 3, vsli 12 2 63, vsli 22 2 58, vsli 13 3 54, vsli 23 3 47,
   vsli 14 4 57, vsli 24 4 23] ++
  veorq 5 5 0 ++ veorq 6 6 1 ++ [veor 14 14 4] ++ veorq 0 5 10 ++ [veor 4 14 24] ++ veorq 1 6 11

/-- permutations.h:13-18 `const uint64_t C[12]` -/
def Ctab : List Word :=
  [0xffffffffffffff0f, 0xffffffffffffff1e, 0xffffffffffffff2d,
   0xffffffffffffff3c, 0xffffffffffffff4b, 0xffffffffffffff5a,
   0xffffffffffffff69, 0xffffffffffffff78, 0xffffffffffffff87,
   0xffffffffffffff96, 0xffffffffffffffa5, 0xffffffffffffffb4]

/-- round.h:10-52 `ROUND(OFFSET)`: `vldr d31, [C, #OFFSET]`, then `roundBody`; the load from the constant table is
resolved here. -/
def ROUND (off : Nat) : List (Instr 64) := .mov 31 (.imm (Ctab.getD (off / 8) 0)) :: roundBody

/-! ## permutations.h -/

/-- permutations.h:20-32 -/
def P12ROUNDS : List (Instr 64) :=
  ROUND 0 ++ ROUND 8 ++ ROUND 16 ++ ROUND 24 ++ ROUND 32 ++ ROUND 40 ++ ROUND 48 ++ ROUND 56 ++ ROUND 64 ++ ROUND 72 ++
    ROUND 80 ++ ROUND 88

/-- permutations.h:34-42 -/
def P8ROUNDS : List (Instr 64) :=
  ROUND 32 ++ ROUND 40 ++ ROUND 48 ++ ROUND 56 ++ ROUND 64 ++ ROUND 72 ++ ROUND 80 ++ ROUND 88

/-- permutations.h:44-50 -/
def P6ROUNDS : List (Instr 64) :=
  ROUND 48 ++ ROUND 56 ++ ROUND 64 ++ ROUND 72 ++ ROUND 80 ++ ROUND 88

/-- `vmvn d2, d2`, the rounds, `vmvn d2, d2` -/
def inverted (rounds : List (Instr 64)) : List (Instr 64) := [vmvn 2 2] ++ rounds ++ [vmvn 2 2]

/-- `vldm %[s], {d0-d4}`; `regs` is what the other registers contain. -/
def loadD (regs : Nat → Word) (s : State) : M 64 where
  r := fun
    | 0 => s.x0
    | 1 => s.x1
    | 2 => s.x2
    | 3 => s.x3
    | 4 => s.x4
    | i => regs i
  stk := []
  z := false

/-- `vstm %[s], {d0-d4}` -/
def storeD (m : M 64) : State := ⟨m.r 0, m.r 1, m.r 2, m.r 3, m.r 4⟩

/-- permutations.h:52-65, 67-80, 82-95: `P12`, `P8`, `P6` -/
def perm (rounds : List (Instr 64)) (regs : Nat → Word) (s : State) : Prog State :=
  match exec (fun _ => none) (inverted rounds) (loadD regs s) with
  | none => .ub
  | some m => .ret (storeD m)

/-- permutations.h:97-101 `P(s, nr)` for `nr` = 12, 8, 6.  The temporaries start at 0; no theorem depends on that. -/
def P12 (_ : Endian) (s : State) : Prog State := perm P12ROUNDS (fun _ => 0) s
def P8 (_ : Endian) (s : State) : Prog State := perm P8ROUNDS (fun _ => 0) s
def P6 (_ : Endian) (s : State) : Prog State := perm P6ROUNDS (fun _ => 0) s

/-- word.h, constants.h and permutations.h of the directory. -/
def backend : Backend := Gen.optBackend P12 P8

/-! ## aead.c -/

/-- `vldm %[p]!, {d, d}` from a caller's buffer -/
def vldm (e : Endian) (p : Nat) : Prog (Word × Word) := do
  require (p % 4 == 0)
  let a ← loadN p 8
  let b ← loadN (p + 8) 8
  pure (value64 e a, value64 e b)

/-- `vstm %[p]!, {d, d}` to a caller's buffer -/
def vstm (e : Endian) (p : Nat) (a b : Word) : Prog Unit := do
  require (p % 4 == 0)
  storeN p (repr64 e a)
  storeN (p + 8) (repr64 e b)

/-- A straight-line part of the assembly. -/
def block (code : List (Instr 64)) (m : M 64) : Prog (M 64) :=
  match exec (fun _ => none) code m with
  | none => .ub
  | some m => .ret m

/-- The length in two registers and the flags: carry, zero. -/
structure Len where
  hi : BitVec 32
  lo : BitVec 32
  c : Bool
  z : Bool

/-- aead.c:13-14, 25-26 (and 46-47, 59-60, 80-81, 94-95): `cmp hi, #0; cmpeq lo, #15`.
`cmp a, b` sets carry to `a ≥ b` (unsigned) and zero to `a = b`. -/
def cmpLen (hi lo : BitVec 32) : Len :=
  if hi == 0 then ⟨hi, lo, decide (15 ≤ lo.toNat), lo == 15⟩ else ⟨hi, lo, true, false⟩

/-- aead.c:9-10 (and 42-43, 76-77): the parts of the 64-bit length; then the comparison. -/
def Len.start (n : Nat) : Len := cmpLen (BitVec.ofNat 32 (n / 2 ^ 32)) (BitVec.ofNat 32 n)

/-- aead.c:23-26 (and 57-60, 92-95): `sub lo, lo, #16` (which does *not* set the flags), `sbc hi, hi, #0` (which
subtracts 1 more if the carry flag is clear), and the comparison. -/
def Len.next (l : Len) : Len := cmpLen (l.hi - (if l.c then 0 else 1)) (l.lo - 16)

/-- Condition of `bhi`, negation of `bls`: carry set and zero clear. -/
def Len.bhi (l : Len) : Bool := l.c && !l.z

/-- aead.c:37 (and 71, 106) -/
def Len.value (l : Len) : Nat := (l.hi.setWidth 64 <<< 32 ||| l.lo.setWidth 64 : Word).toNat

/-- aead.c:18-26: one iteration of the associated data loop, `AD(8, 16, "q0", "q8")` -/
def adStep (e : Endian) : M 64 × Nat × Len → Prog (M 64 × Nat × Len) := fun (m, ad, len) => do
  let (a, b) ← vldm e ad
  let m := (m.set 16 a).set 17 b
  let m ← block (veorq 0 0 8 ++ inverted P8ROUNDS) m
  pure (m, ad + 16, len.next)

/-- aead.c:7-38 `AD`.  The test at the entry (`bls .LAD1`) and the one at the end of the loop (`bhi .LAD0`) are the same
test of the flags, so the loop is written as a `while`; if it is not entered the loads and stores of the
state are skipped, which makes no difference. -/
def AD (fuel : Nat) (e : Endian) (regs : Nat → Word) (s : State) (ad adlen : Nat) : Prog (State × Nat × Nat) := do
  let (m, ad, len) ← loop fuel (fun (_, _, len) => len.bhi) (adStep e) (loadD regs s, ad, Len.start adlen)
  pure (storeD m, ad, len.value)

/-- aead.c:51-60: one iteration of the plaintext loop, `PT(8, 16, "q0", "q8", "q13")` -/
def ptStep (e : Endian) : M 64 × Nat × Nat × Len → Prog (M 64 × Nat × Nat × Len) := fun (mm, c, m, len) => do
  let (a, b) ← vldm e m
  let mm := (mm.set 16 a).set 17 b
  let mm ← block (veorq 0 0 8) mm
  vstm e c (mm.r 0) (mm.r 1)
  let mm ← block (inverted P8ROUNDS) mm
  pure (mm, c + 16, m + 16, len.next)

/-- aead.c:40-72 `PT` -/
def PT (fuel : Nat) (e : Endian) (regs : Nat → Word) (s : State) (c m mlen : Nat) : Prog (State × Nat × Nat × Nat) := do
  let (mm, c, m, len) ← loop fuel (fun (_, _, _, len) => len.bhi) (ptStep e) (loadD regs s, c, m, Len.start mlen)
  pure (storeD mm, c, m, len.value)

/-- aead.c:85-95: one iteration of the ciphertext loop, `CT(8, 16, "q0", "q8", "q13")` -/
def ctStep (e : Endian) : M 64 × Nat × Nat × Len → Prog (M 64 × Nat × Nat × Len) := fun (mm, m, c, len) => do
  let (a, b) ← vldm e c
  let mm := (mm.set 26 a).set 27 b
  let mm ← block (veorq 8 0 13) mm
  vstm e m (mm.r 16) (mm.r 17)
  let mm ← block ([.mov 0 (.reg 26), .mov 1 (.reg 27)] ++ inverted P8ROUNDS) mm
  pure (mm, m + 16, c + 16, len.next)

/-- aead.c:74-107 `CT` -/
def CT (fuel : Nat) (e : Endian) (regs : Nat → Word) (s : State) (m c clen : Nat) : Prog (State × Nat × Nat × Nat) := do
  let (mm, m, c, len) ← loop fuel (fun (_, _, _, len) => len.bhi) (ctStep e) (loadD regs s, m, c, Len.start clen)
  pure (storeD mm, m, c, len.value)

/-- aead.c:154-180 `ascon_adata`; the final block (164-174) is that of src/aead.c. -/
def ascon_adata (fuel : Nat) (e : Endian) (regs : Nat → Word) (s : State) (ad adlen : Nat) : Prog State := do
  let s ← ifc (decide (adlen ≠ 0))
    (do
      let (s, ad, adlen) ← AD fuel e regs s ad adlen
      let s ← Gen.adFinal backend e s ad adlen
      backend.P8 e s)
    (pure s)
  pure { s with x4 := s.x4 ^^^ backend.DSEP }

/-- aead.c:182-206 `ascon_encrypt`; the final block (190-204) is that of src/aead.c. -/
def ascon_encrypt (fuel : Nat) (e : Endian) (regs : Nat → Word) (s : State) (c m mlen : Nat) : Prog State := do
  let (s, c, m, mlen) ← PT fuel e regs s c m mlen
  Gen.encFinal backend e s c m mlen

/-- aead.c:208-237 `ascon_decrypt`; the final block (216-235) is that of src/aead.c. -/
def ascon_decrypt (fuel : Nat) (e : Endian) (regs : Nat → Word) (s : State) (m c clen : Nat) : Prog State := do
  let (s, m, c, clen) ← CT fuel e regs s m c clen
  Gen.decFinal backend e s m c clen

/-- aead.c:277-289; `ascon_loadkey`, `ascon_initaead`, `ascon_final`, `ascon_gettag`, `ascon_verify`
(aead.c:116-152, 239-275) are those of src/aead.c. -/
def ascon_aead_encrypt (fuel : Nat) (e : Endian) (regs : Nat → Word) (t c m mlen ad adlen npub k : Nat) : Prog Int := do
  let key ← Gen.ascon_loadkey backend e k
  let s ← Gen.ascon_initaead backend e key npub
  let s ← ascon_adata fuel e regs s ad adlen
  let s ← ascon_encrypt fuel e regs s c m mlen
  let s ← Gen.ascon_final backend e s key
  Gen.ascon_gettag backend e s t
  pure 0

/-- aead.c:291-302 -/
def ascon_aead_decrypt (fuel : Nat) (e : Endian) (regs : Nat → Word) (m t c clen ad adlen npub k : Nat) : Prog Int := do
  let key ← Gen.ascon_loadkey backend e k
  let s ← Gen.ascon_initaead backend e key npub
  let s ← ascon_adata fuel e regs s ad adlen
  let s ← ascon_decrypt fuel e regs s m c clen
  let s ← Gen.ascon_final backend e s key
  Gen.ascon_verify backend e s t

/-- aead.c:304-324.  `fuel` bounds the number of iterations of each assembly loop (exceeding it is `ub`), `regs` are the
initial contents of the vector registers. -/
def crypto_aead_encrypt (fuel : Nat) (e : Endian) (regs : Nat → Word) (c clen m mlen ad adlen npub k : Nat) : Prog Int := do
  store64 e clen (BitVec.ofNat 64 (mlen + 16))
  let t := c + mlen
  ascon_aead_encrypt fuel e regs t c m mlen ad adlen npub k

/-- aead.c:326-347.  As in src/aead.c the value of `*mlen` is not read back. -/
def crypto_aead_decrypt (fuel : Nat) (e : Endian) (regs : Nat → Word) (m mlen c clen ad adlen npub k : Nat) : Prog Int :=
  ifc (decide (clen < 16)) (pure (-1)) (do
    store64 e mlen (BitVec.ofNat 64 (clen - 16))
    let t := c + (clen - 16)
    ascon_aead_decrypt fuel e regs m t c (clen - 16) ad adlen npub k)

end Ascon.Neon
