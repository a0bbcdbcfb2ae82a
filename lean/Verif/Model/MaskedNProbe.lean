import Verif.Model.MaskedN
import Verif.Model.MaskedProbe
/-!
# The masked permutation with two, three or four shares, with every intermediate value made visible

The code of `MXORBIC` … `P` of Model/MaskedN, operation by operation, for `ns = n`; each operation also reports the values a
probe on the data path would see: the result, and for the inline assembly of asm.h the rotated operand and the intermediate
register `tmp` as well.  Props/MaskedNProbe shows that the states are those of Model/MaskedN.  (Model/MaskedProbe has the
same for two shares only.)
-/

namespace Ascon.MaskedN.Probe

open Ascon.Masked (U32 ROR32 ROT constants)
open Ascon.Masked.Probe (Val linParams)

/-- `ascon_state_t`: share `s[d]`, word `x[k]`, half `w[i]` (ascon.h:9-11, word.h:13-19).  The code accesses only shares
below `ns`. -/
abbrev St := Nat → Val

/-- `s.x[k].s[d].w[i] = v` -/
def put (s : St) (d : Nat) (k : Fin 6) (i : Fin 2) (v : U32) : St :=
  fun d' k' i' => if d' = d ∧ k' = k ∧ i' = i then v else s d' k' i'

/-- A piece of code: the new state, and the values that appeared. -/
abbrev Op := St → St × List U32

/-- One after the other. -/
def Op.then (f g : Op) : Op := fun s =>
  let (s, l) := f s
  let (s, l') := g s
  (s, l ++ l')

def seq : List Op → Op
  | [] => fun s => (s, [])
  | f :: fs => Op.then f (seq fs)

/-- `s.x[k].s[d].w[i] ^= s.x[k'].s[d].w[i]` -/
def xorInto (d : Nat) (k k' : Fin 6) (i : Fin 2) : Op := fun s =>
  let v := s d k i ^^^ s d k' i
  (put s d k i v, [v])

/-- `s.x[k].s[0].w[i] ^= C` -/
def xorConst (k : Fin 6) (i : Fin 2) (C : U32) : Op := fun s =>
  let v := s 0 k i ^^^ C
  (put s 0 k i v, [v])

/-- `s.x[k].s[0].w[i] = ~s.x[k].s[0].w[i]` -/
def notInto (k : Fin 6) (i : Fin 2) : Op := fun s =>
  let v := ~~~(s 0 k i)
  (put s 0 k i v, [v])

/-- asm.h:28-53: the three macros `EOR_xxx_ROR(ce, ae, be, imm, tmp)`: `xxx tmp, ae, be, ror #r; eor ce, tmp, ce` on half
`i` of share `dc` of `c`, share `dx` of `x`, share `dy` of `y`. -/
def eorRor (g : U32 → U32 → U32) (dc : Nat) (c : Fin 6) (dx : Nat) (x : Fin 6) (dy : Nat) (y : Fin 6) (i : Fin 2) (imm : Int) :
    Op := fun s =>
  let sh := ROR32 (s dy y i) (ROT imm)
  let tmp := g (s dx x i) sh
  let ce := tmp ^^^ s dc c i
  (put s dc c i ce, [sh, tmp, ce])

/-- asm.h:37-44 `EOR_BIC_ROR` -/
abbrev eorBicRor := eorRor fun x y => x &&& ~~~y
/-- asm.h:28-35 `EOR_AND_ROR` -/
abbrev eorAndRor := eorRor fun x y => x &&& y
/-- asm.h:46-53 `EOR_ORR_ROR` -/
abbrev eorOrrRor := eorRor fun x y => x ||| y

/-- word.h:57-64 `s.x[c] = MXORBIC(s.x[c], s.x[a], s.x[b], i, 2)` -/
def mxorbic2 (c a b : Fin 6) (i : Fin 2) : Op :=
  seq [eorBicRor 0 c 0 a 0 b i 0, eorBicRor 1 c 1 a 0 b i (0 - 1), eorAndRor 1 c 1 a 1 b i 0,
    eorAndRor 0 c 0 a 1 b i (1 - 0)]

/-- word.h:65-75, three shares -/
def mxorbic3 (c a b : Fin 6) (i : Fin 2) : Op :=
  seq [eorAndRor 0 c 0 b 1 a i (1 - 0), eorBicRor 0 c 0 a 0 b i 0, eorAndRor 0 c 0 b 2 a i (2 - 0),
    eorAndRor 1 c 1 b 2 a i (2 - 1), eorBicRor 1 c 1 a 1 b i 0, eorAndRor 1 c 1 b 0 a i (0 - 1),
    eorBicRor 2 c 2 b 0 a i (0 - 2), eorOrrRor 2 c 2 a 2 b i 0, eorAndRor 2 c 2 b 1 a i (1 - 2)]

/-- word.h:76-93, four shares -/
def mxorbic4 (c a b : Fin 6) (i : Fin 2) : Op :=
  seq [eorBicRor 0 c 0 a 0 b i 0, eorBicRor 1 c 1 a 0 b i (0 - 1), eorBicRor 2 c 2 a 0 b i (0 - 2),
    eorBicRor 3 c 3 a 0 b i (0 - 3), eorAndRor 1 c 1 a 1 b i 0, eorAndRor 2 c 2 a 1 b i (1 - 2),
    eorAndRor 3 c 3 a 1 b i (1 - 3), eorAndRor 0 c 0 a 1 b i (1 - 0), eorAndRor 2 c 2 a 2 b i 0,
    eorAndRor 3 c 3 a 2 b i (2 - 3), eorAndRor 0 c 0 a 2 b i (2 - 0), eorAndRor 1 c 1 a 2 b i (2 - 1),
    eorAndRor 3 c 3 a 3 b i 0, eorAndRor 0 c 0 a 3 b i (3 - 0), eorAndRor 1 c 1 a 3 b i (3 - 1),
    eorAndRor 2 c 2 a 3 b i (3 - 2)]

/-- word.h:52-97 for `ns = n` in {2, 3, 4} -/
def mxorbic (n : Nat) (c a b : Fin 6) (i : Fin 2) : Op :=
  if n = 2 then mxorbic2 c a b i else if n = 3 then mxorbic3 c a b i else mxorbic4 c a b i

/-- round.h:8-13 -/
def affine1 (i : Fin 2) (d : Nat) : Op := seq [xorInto d 2 1 i, xorInto d 0 4 i, xorInto d 4 3 i]

/-- round.h:15-21 -/
def affine2 (i : Fin 2) (d : Nat) : Op := seq [xorInto d 2 5 i, xorInto d 1 0 i, xorInto d 0 4 i, xorInto d 3 2 i]

/-- `if (ns >= lo) …` -/
def when (c : Prop) [Decidable c] (f : Op) : Op := if c then f else seq []

/-- round.h:23-43 -/
def sbox (n : Nat) (i : Fin 2) : Op :=
  seq [when (n ≥ 1) (affine1 i 0), when (n ≥ 2) (affine1 i 1), when (n ≥ 3) (affine1 i 2), when (n ≥ 4) (affine1 i 3),
    mxorbic n 5 4 3 i, mxorbic n 4 1 0 i, mxorbic n 1 3 2 i, mxorbic n 3 0 4 i, mxorbic n 0 2 1 i,
    when (n ≥ 1) (affine2 i 0), notInto 2 i, when (n ≥ 2) (affine2 i 1), when (n ≥ 3) (affine2 i 2),
    when (n ≥ 4) (affine2 i 3)]

/-- `s.x[k].s[0].w[i] = v` -/
def setConst (k : Fin 6) (i : Fin 2) (v : U32) : Op := fun s => (put s 0 k i v, [v])

/-- `s.x[k].s[d].w[i] = ROR32(s.x[k].s[d].w[i], r)` -/
def rorInto (d : Nat) (k : Fin 6) (i : Fin 2) (r : Nat) : Op := fun s =>
  let v := ROR32 (s d k i) r
  (put s d k i v, [v])

/-- `s.x[k].s[0].w[i] ^= ROR32(s.x[k].s[d].w[i], ROT(imm))` -/
def addRor (d : Nat) (k : Fin 6) (i : Fin 2) (imm : Int) : Op := fun s =>
  let z := ROR32 (s d k i) (ROT imm)
  let v := s 0 k i ^^^ z
  (put s 0 k i v, [z, v])

/-- word.h:142-148 `s.x[k] = MREUSE(s.x[k], 0, n)` (with `MMIX`, `MREMASK`: word.h:114-132) -/
def reuse (n : Nat) (k : Fin 6) : Op :=
  seq [setConst k 0 0, setConst k 1 0,
    when (n ≥ 2) (rorInto 1 k 0 7), when (n ≥ 2) (rorInto 1 k 1 7), when (n ≥ 3) (rorInto 2 k 0 13),
    when (n ≥ 3) (rorInto 2 k 1 13), when (n ≥ 4) (rorInto 3 k 0 29), when (n ≥ 4) (rorInto 3 k 1 29),
    when (n ≥ 2) (addRor 1 k 0 1), when (n ≥ 2) (addRor 1 k 1 1), when (n ≥ 3) (addRor 2 k 0 2),
    when (n ≥ 3) (addRor 2 k 1 2), when (n ≥ 4) (addRor 3 k 0 3), when (n ≥ 4) (addRor 3 k 1 3)]

/-- `w[p]` of share `d` of `x[k]`, for `p = 0` or `p = 1`. -/
def half (s : St) (d : Nat) (k : Fin 6) (p : Nat) : U32 := if p = 0 then s d k 0 else s d k 1

/-- round.h:45-69, the lines for `x[k]`. -/
def linearWord (d : Nat) (k : Fin 6) : Op := fun s =>
  let (p, a0, a1, q, b0, b1) := linParams k
  let r0 := ROR32 (half s d k p) a0
  let r1 := ROR32 (half s d k (1 - p)) a1
  let t0 := s d k 0 ^^^ r0
  let t1 := s d k 1 ^^^ r1
  let u0 := ROR32 (if q = 0 then t0 else t1) b0
  let u1 := ROR32 (if 1 - q = 0 then t0 else t1) b1
  let w0 := s d k 0 ^^^ u0
  let w1 := s d k 1 ^^^ u1
  (put (put s d k 0 w0) d k 1 w1, [r0, r1, t0, t1, u0, u1, w0, w1])

/-- round.h:45-69.  The five words do not interact; the C code first computes all `t`, then updates. -/
def linear (d : Nat) : Op := seq [linearWord d 0, linearWord d 1, linearWord d 2, linearWord d 3, linearWord d 4]

/-- round.h:71-86 -/
def round (n : Nat) (C_o C_e : Byte) : Op :=
  seq [xorConst 2 0 (C_e.setWidth 32), sbox n 0, xorConst 2 1 (C_o.setWidth 32), sbox n 1, reuse n 5,
    when (n ≥ 4) (linear 3), when (n ≥ 3) (linear 2), when (n ≥ 2) (linear 1), when (n ≥ 1) (linear 0)]

/-- round.h:92-98: the rounds with the constants number `i`, `i + 1`, …, `i + nr - 1`. -/
def rounds (n i nr : Nat) : Op :=
  seq ((List.range nr).map fun j => round n (constants.getD (2 * (i + j) + 1) 0) (constants.getD (2 * (i + j)) 0))

/-- permutations.h:11-16 `P(s, nr, n)`: the last `nr` of the twelve rounds. -/
def perm (n nr : Nat) : Op := rounds n (12 - nr) nr

end Ascon.MaskedN.Probe
