import Verif.Model.Masked
/-!
# The masked permutation of protected_bi32_armv6_leveled, with every intermediate value made visible

The same code as `AFFINE1` … `P` of Model/Masked (two shares), operation by operation; each operation also reports the values
a probe on the data path would see: the result, and for the inline assembly of asm.h the rotated operand and the
intermediate register `tmp` as well.  Props/MaskedProbe shows that the states are those of Model/Masked.
-/

namespace Ascon.Masked.Probe

open Ascon.Masked

/-- One share of `ascon_state_t`: word `x[k]`, half `w[i]`. -/
abbrev Val := Fin 6 → Fin 2 → U32

/-- `ascon_state_t` with two shares: share `s[d]`, word `x[k]`, half `w[i]` (ascon.h:9-11, word.h:13-19). -/
abbrev St := Fin 2 → Val

/-- `s.x[k].s[d].w[i] = v` -/
def put (s : St) (d : Fin 2) (k : Fin 6) (i : Fin 2) (v : U32) : St :=
  fun d' k' i' => if d' = d ∧ k' = k ∧ i' = i then v else s d' k' i'

/-- A piece of code: the new state, and the values that appeared. -/
abbrev Op := St → St × List U32

/-- One after the other. -/
def Op.then (f g : Op) : Op := fun s =>
  let (s, l) := f s
  let (s, l') := g s
  (s, l ++ l')

def seq : List Op → Op
  | [] => fun s => (s, [])
  | f :: fs => Op.then f (seq fs)

/-- `s.x[k].s[d].w[i] ^= s.x[k'].s[d].w[i]` -/
def xorInto (d : Fin 2) (k k' : Fin 6) (i : Fin 2) : Op := fun s =>
  let v := s d k i ^^^ s d k' i
  (put s d k i v, [v])

/-- `s.x[k].s[0].w[i] ^= C` -/
def xorConst (k : Fin 6) (i : Fin 2) (C : U32) : Op := fun s =>
  let v := s 0 k i ^^^ C
  (put s 0 k i v, [v])

/-- `s.x[k].s[0].w[i] = ~s.x[k].s[0].w[i]` -/
def notInto (k : Fin 6) (i : Fin 2) : Op := fun s =>
  let v := ~~~(s 0 k i)
  (put s 0 k i v, [v])

/-- asm.h:37-44 `EOR_BIC_ROR` on half `i` of share `dc` of `c`, share `da` of `a`, share `db` of `b`:
`bic tmp, ae, be, ror #r; eor ce, tmp, ce`. -/
def eorBicRor (dc : Fin 2) (c : Fin 6) (da : Fin 2) (a : Fin 6) (db : Fin 2) (b : Fin 6) (i : Fin 2) (r : Nat) : Op :=
  fun s =>
    let sh := ROR32 (s db b i) r
    let tmp := s da a i &&& ~~~sh
    let ce := tmp ^^^ s dc c i
    (put s dc c i ce, [sh, tmp, ce])

/-- asm.h:28-35 `EOR_AND_ROR`: `and tmp, ae, be, ror #r; eor ce, tmp, ce`. -/
def eorAndRor (dc : Fin 2) (c : Fin 6) (da : Fin 2) (a : Fin 6) (db : Fin 2) (b : Fin 6) (i : Fin 2) (r : Nat) : Op :=
  fun s =>
    let sh := ROR32 (s db b i) r
    let tmp := s da a i &&& sh
    let ce := tmp ^^^ s dc c i
    (put s dc c i ce, [sh, tmp, ce])

/-- word.h:60-66 `s.x[c] = MXORBIC(s.x[c], s.x[a], s.x[b], i, 2)` -/
def mxorbic (c a b : Fin 6) (i : Fin 2) : Op :=
  seq [eorBicRor 0 c 0 a 0 b i (ROT 0), eorBicRor 1 c 1 a 0 b i (ROT (0 - 1)), eorAndRor 1 c 1 a 1 b i (ROT 0),
    eorAndRor 0 c 0 a 1 b i (ROT (1 - 0))]

/-- round.h:8-13 -/
def affine1 (i d : Fin 2) : Op := seq [xorInto d 2 1 i, xorInto d 0 4 i, xorInto d 4 3 i]

/-- round.h:15-21 -/
def affine2 (i d : Fin 2) : Op := seq [xorInto d 2 5 i, xorInto d 1 0 i, xorInto d 0 4 i, xorInto d 3 2 i]

/-- round.h:23-43 for `ns = 2` -/
def sbox (i : Fin 2) : Op :=
  seq [affine1 i 0, affine1 i 1,
    mxorbic 5 4 3 i, mxorbic 4 1 0 i, mxorbic 1 3 2 i, mxorbic 3 0 4 i, mxorbic 0 2 1 i,
    affine2 i 0, notInto 2 i, affine2 i 1]

/-- word.h:142-148 `s.x[k] = MREUSE(s.x[k], 0, 2)` (with `MMIX`, `MREMASK`: word.h:114-132) -/
def reuse (k : Fin 6) : Op := fun s =>
  let r0 := ROR32 (s 1 k 0) 7
  let r1 := ROR32 (s 1 k 1) 7
  let z0 := ROR32 r0 (ROT 1)
  let z1 := ROR32 r1 (ROT 1)
  let v0 := (0 : U32) ^^^ z0
  let v1 := (0 : U32) ^^^ z1
  (put (put (put (put s 1 k 0 r0) 1 k 1 r1) 0 k 0 v0) 0 k 1 v1, [0, 0, r0, r1, z0, v0, z1, v1])

/-- The parameters of `linWord` in `LINEAR` for word `x[k]` (round.h:45-69); `x[5]` is not changed. -/
def linParams : Fin 6 → Nat × Nat × Nat × Nat × Nat × Nat
  | 0 => (1, 4, 5, 1, 9, 10)
  | 1 => (0, 11, 11, 1, 19, 20)
  | 2 => (1, 2, 3, 1, 0, 1)
  | 3 => (1, 3, 4, 0, 5, 5)
  | 4 => (0, 17, 17, 1, 3, 4)
  | 5 => (0, 0, 0, 0, 0, 0)

/-- `w[p]` of share `d` of `x[k]`, for `p = 0` or `p = 1`. -/
def half (s : St) (d : Fin 2) (k : Fin 6) (p : Nat) : U32 := if p = 0 then s d k 0 else s d k 1

/-- round.h:45-69, the lines for `x[k]`. -/
def linearWord (d : Fin 2) (k : Fin 6) : Op := fun s =>
  let (p, a0, a1, q, b0, b1) := linParams k
  let r0 := ROR32 (half s d k p) a0
  let r1 := ROR32 (half s d k (1 - p)) a1
  let t0 := s d k 0 ^^^ r0
  let t1 := s d k 1 ^^^ r1
  let u0 := ROR32 (if q = 0 then t0 else t1) b0
  let u1 := ROR32 (if 1 - q = 0 then t0 else t1) b1
  let w0 := s d k 0 ^^^ u0
  let w1 := s d k 1 ^^^ u1
  (put (put s d k 0 w0) d k 1 w1, [r0, r1, t0, t1, u0, u1, w0, w1])

/-- round.h:45-69.  The five words do not interact; the C code first computes all `t`, then updates. -/
def linear (d : Fin 2) : Op := seq [linearWord d 0, linearWord d 1, linearWord d 2, linearWord d 3, linearWord d 4]

/-- round.h:71-86 for `ns = 2` -/
def round (C_o C_e : Byte) : Op :=
  seq [xorConst 2 0 (C_e.setWidth 32), sbox 0, xorConst 2 1 (C_o.setWidth 32), sbox 1, reuse 5, linear 1, linear 0]

/-- round.h:92-98: the rounds with the constants number `i`, `i + 1`, …, `i + n - 1`. -/
def rounds (i n : Nat) : Op :=
  seq ((List.range n).map fun j => round (constants.getD (2 * (i + j) + 1) 0) (constants.getD (2 * (i + j)) 0))

/-- permutations.h:11-16 `P(s, nr, 2)`: the last `nr` of the twelve rounds. -/
def perm (nr : Nat) : Op := rounds (12 - nr) nr

/-- `s.x[k].s[d].w[i] ^= v`, where `v` is a share of something else -/
def xorShare (d : Fin 2) (k : Fin 6) (i : Fin 2) (v : U32) : Op := fun s =>
  let w := s d k i ^^^ v
  (put s d k i w, [w])

/-- word.h:40-50 `s.x[k] = MXOR(s.x[k], w, 2)`; `w` given as share, half. -/
def mxor (k : Fin 6) (w : Fin 2 → Fin 2 → U32) : Op :=
  seq [xorShare 0 k 0 (w 0 0), xorShare 0 k 1 (w 0 1), xorShare 1 k 0 (w 1 0), xorShare 1 k 1 (w 1 1)]

/-- aead.c:173-198 `ascon_final` after the two key words have been loaded. -/
def final (K1 K2 : Fin 2 → Fin 2 → U32) : Op := seq [mxor 2 K1, mxor 3 K2, perm 12, mxor 3 K1, mxor 4 K2]

/-- aead.c:223-241 `ascon_xortag`, with the tag words `t0`, `t1` (given by halves; the tag is public, one share only). -/
def xortag (t0 t1 : Fin 2 → U32) : Op :=
  seq [reuse 0, reuse 1, reuse 2, xorConst 3 0 (t0 0), xorConst 3 1 (t0 1), xorConst 4 0 (t1 0), xorConst 4 1 (t1 1),
    perm 8, xorConst 3 0 0xc7c72006, xorConst 3 1 0xc3bfab9c, xorConst 4 0 0x18213f82, xorConst 4 1 0x0653ed71]

end Ascon.Masked.Probe
