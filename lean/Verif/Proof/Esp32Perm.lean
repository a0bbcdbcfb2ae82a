import Verif.Model.Esp32
import Verif.Proof.MaskedRound
import Verif.Proof.Backends
import Verif.Proof.Loops
/-!
# The permutation of the esp32 implementation
-/

namespace Ascon.Esp32

open Ascon.Spec Ascon.C Ascon.Gen
open Ascon.C.Prog (require ifc loop forUp loadB storeB loadN storeN store64 load64)
open Ascon.Masked (U32 pk getLsbD_pk pk_xor pk_and pk_not pk_unpk share_t)

/-- The word with the given halves. -/
def jn (h l : U32) : Word := pk ⟨l, h⟩

theorem getLsbD_jn (h l : U32) (i : Nat) (hi : i < 64) :
    (jn h l).getLsbD i = if i < 32 then l.getLsbD i else h.getLsbD (i - 32) := getLsbD_pk _ i hi

theorem jn_xor (h l h' l' : U32) : jn (h ^^^ h') (l ^^^ l') = jn h l ^^^ jn h' l' := pk_xor ⟨l, h⟩ ⟨l', h'⟩
theorem jn_and (h l h' l' : U32) : jn (h &&& h') (l &&& l') = jn h l &&& jn h' l' := pk_and ⟨l, h⟩ ⟨l', h'⟩
theorem jn_or (h l h' l' : U32) : jn (h ||| h') (l ||| l') = jn h l ||| jn h' l' := by
  apply BitVec.eq_of_getLsbD_eq; intro i hi
  rw [BitVec.getLsbD_or, getLsbD_jn _ _ _ hi, getLsbD_jn _ _ _ hi, getLsbD_jn _ _ _ hi]
  split <;> simp only [BitVec.getLsbD_or]
theorem jn_ones : jn (-1) (-1) = (-1 : Word) := by decide

theorem getLsbD_SRC (h l : U32) (r i : Nat) (hr : r < 32) (hi : i < 32) :
    (SRC h l r).getLsbD i = if r + i < 32 then l.getLsbD (r + i) else h.getLsbD (r + i - 32) := by
  unfold SRC
  rw [BitVec.getLsbD_setWidth, BitVec.getLsbD_ushiftRight]
  have := getLsbD_pk ⟨l, h⟩ (r + i) (by omega)
  unfold pk at this
  simp only [this, hi, decide_true, Bool.true_and]

theorem getLsbD_rot (x : Word) (r i : Nat) (hr : r < 64) (hi : i < 64) :
    (x.rotateRight r).getLsbD i = x.getLsbD ((r + i) % 64) := by
  rw [BitVec.getLsbD_rotateRight, Nat.mod_eq_of_lt hr]
  by_cases h : i < 64 - r
  · simp only [h, decide_true, cond_true]; congr 1; omega
  · simp only [h, hi, decide_false, decide_true, cond_false, Bool.true_and]; congr 1; omega

theorem jn_SRC (h l : U32) (r : Nat) (hr : r < 32) : jn (SRC l h r) (SRC h l r) = (jn h l).rotateRight r := by
  apply BitVec.eq_of_getLsbD_eq; intro i hi
  rw [getLsbD_jn _ _ _ hi, getLsbD_rot _ _ _ (by omega) hi, getLsbD_jn _ _ _ (by omega)]
  by_cases h1 : i < 32
  · rw [if_pos h1, getLsbD_SRC _ _ _ _ hr h1, Nat.mod_eq_of_lt (by omega)]
  · rw [if_neg h1, getLsbD_SRC _ _ _ _ hr (by omega)]
    by_cases h2 : r + (i - 32) < 32
    · rw [if_pos h2, if_neg (by omega)]
      congr 1; omega
    · rw [if_neg h2, if_pos (by omega)]
      congr 1; omega

theorem jn_swap (h l : U32) : jn l h = (jn h l).rotateRight 32 := by
  apply BitVec.eq_of_getLsbD_eq; intro i hi
  rw [getLsbD_jn _ _ _ hi, getLsbD_rot _ _ _ (by omega) hi, getLsbD_jn _ _ _ (by omega)]
  by_cases h1 : i < 32
  · rw [if_pos h1, if_neg (by omega)]
    congr 1; omega
  · rw [if_neg h1, if_pos (by omega)]
    congr 1; omega

/-- Rotation by more than 32: the halves are exchanged. -/
theorem jn_SRC' (h l : U32) (r : Nat) (hr : r < 32) : jn (SRC h l r) (SRC l h r) = (jn h l).rotateRight (32 + r) := by
  rw [jn_SRC l h r hr, jn_swap, rotateRight_rotateRight]

/-- The S-box layer of permutations.c on 64-bit words. -/
def SBOXW (x0 x1 x2 x3 x4 : Word) : Word × Word × Word × Word × Word :=
  ((x0 ||| (x3 ^^^ x4)) ^^^ (x1 ^^^ x2),
   (x1 &&& ((x0 ^^^ x4) ^^^ -1)) ^^^ (x3 ^^^ x4),
   ((x2 ^^^ (x0 ^^^ x4)) ||| x1) ^^^ (x3 ^^^ x4),
   ((x3 ^^^ x1) ||| (x1 ^^^ x2)) ^^^ (x0 ^^^ x4),
   ((x4 ^^^ -1) ||| x3) ^^^ (x1 ^^^ x2))

theorem SBOXW_eq (s : State) : (let r := SBOXW s.x0 s.x1 s.x2 s.x3 s.x4
    (⟨r.2.2.1, r.2.2.2.1, r.2.2.2.2, r.1, r.2.1⟩ : State)) = subst s := by
  rw [Ref.subst_eq]
  simp only [SBOXW, Ref.sboxWords]
  ext1 <;> simp only <;> apply BitVec.eq_of_getLsbD_eq <;> intro i hi <;>
  simp only [BitVec.getLsbD_xor, BitVec.getLsbD_and, BitVec.getLsbD_or, BitVec.getLsbD_not, hi, decide_true,
    Bool.true_and, show (-1 : Word) = BitVec.allOnes 64 by decide, BitVec.getLsbD_allOnes] <;>
  cases s.x0.getLsbD i <;> cases s.x1.getLsbD i <;> cases s.x2.getLsbD i <;> cases s.x3.getLsbD i <;>
    cases s.x4.getLsbD i <;> rfl

theorem jn_SBOX (x0h x1h x2h x3h x4h x0l x1l x2l x3l x4l : U32) :
    (let a := SBOX x0h x1h x2h x3h x4h
     let b := SBOX x0l x1l x2l x3l x4l
     (jn a.1 b.1, jn a.2.1 b.2.1, jn a.2.2.1 b.2.2.1, jn a.2.2.2.1 b.2.2.2.1, jn a.2.2.2.2 b.2.2.2.2)) =
      SBOXW (jn x0h x0l) (jn x1h x1l) (jn x2h x2l) (jn x3h x3l) (jn x4h x4l) := by
  simp only [SBOX, SBOXW, jn_xor, jn_or, jn_and, jn_ones]

theorem jn_LINEAR (sl sh sl0 sh0 sl1 sh1 : U32) (r0 r1 : Nat) :
    jn (LINEAR sl sh sl0 sh0 r0 sl1 sh1 r1).2 (LINEAR sl sh sl0 sh0 r0 sl1 sh1 r1).1 =
      jn (SRC sl0 sh0 r0) (SRC sh0 sl0 r0) ^^^ jn sh sl ^^^ jn (SRC sl1 sh1 r1) (SRC sh1 sl1 r1) := by
  simp only [LINEAR, jn_xor]

/-- The state held in the ten variables. -/
def Regs.state (r : Regs) : State :=
  ⟨jn r.x0h r.x0l, jn r.x1h r.x1l, jn r.x2h r.x2l, jn r.x3h r.x3l, jn r.x4h r.x4l⟩

theorem storeRegs_eq (e : Endian) (r : Regs) : storeRegs e r = r.state := by cases e <;> rfl

theorem jn_unjn (x : Word) : jn ((x >>> 32).setWidth 32) (x.setWidth 32) = x := pk_unpk x

theorem loadRegs_state (e : Endian) (s : State) : (loadRegs e s).state = s := by
  cases e <;> (cases s; simp only [Regs.state, loadRegs, hiPart, loPart, hPart, lPart, jn_unjn])

theorem jn_const (h l c : U32) : jn h (l ^^^ c) = jn h l ^^^ c.setWidth 64 := by
  apply BitVec.eq_of_getLsbD_eq; intro i hi
  rw [BitVec.getLsbD_xor, getLsbD_jn _ _ _ hi, getLsbD_jn _ _ _ hi, BitVec.getLsbD_setWidth]
  by_cases h1 : i < 32
  · simp [h1, hi]
  · simp [h1, BitVec.getLsbD_of_ge c i (by omega)]

/-- The second half of the round. -/
def linRegs (b a : U32 × U32 × U32 × U32 × U32) : Regs :=
  let x0 := LINEAR b.2.2.1 a.2.2.1 b.2.2.1 a.2.2.1 19 b.2.2.1 a.2.2.1 28
  let x2 := LINEAR b.2.2.2.2 a.2.2.2.2 b.2.2.2.2 a.2.2.2.2 1 b.2.2.2.2 a.2.2.2.2 6
  let x4 := LINEAR b.2.1 a.2.1 b.2.1 a.2.1 7 a.2.1 b.2.1 9
  let x1 := LINEAR b.2.2.2.1 a.2.2.2.1 a.2.2.2.1 b.2.2.2.1 29 a.2.2.2.1 b.2.2.2.1 7
  let x3 := LINEAR b.1 a.1 b.1 a.1 10 b.1 a.1 17
  ⟨x0.2, x0.1, x1.2, x1.1, x2.2, x2.1, x3.2, x3.1, x4.2, x4.1⟩

theorem roundBody_eq (r : Regs) (c : U32) : roundBody r c =
    linRegs (SBOX r.x0l r.x1l (r.x2l ^^^ c) r.x3l r.x4l) (SBOX r.x0h r.x1h r.x2h r.x3h r.x4h) := by
  unfold roundBody linRegs
  rfl

theorem lin_comm (x a b : Word) : a ^^^ x ^^^ b = x ^^^ a ^^^ b := by rw [BitVec.xor_comm a x]

theorem linRegs_state (b a : U32 × U32 × U32 × U32 × U32) : (linRegs b a).state =
    diffuse ⟨jn a.2.2.1 b.2.2.1, jn a.2.2.2.1 b.2.2.2.1, jn a.2.2.2.2 b.2.2.2.2, jn a.1 b.1, jn a.2.1 b.2.1⟩ := by
  unfold linRegs Regs.state diffuse
  simp only
  rw [jn_LINEAR, jn_LINEAR, jn_LINEAR, jn_LINEAR, jn_LINEAR]
  rw [jn_SRC _ _ 19 (by decide), jn_SRC _ _ 28 (by decide), jn_SRC _ _ 1 (by decide), jn_SRC _ _ 6 (by decide),
    jn_SRC a.2.1 b.2.1 7 (by decide), jn_SRC' _ _ 9 (by decide), jn_SRC' _ _ 29 (by decide), jn_SRC' a.2.2.2.1 b.2.2.2.1 7 (by decide),
    jn_SRC _ _ 10 (by decide), jn_SRC _ _ 17 (by decide)]
  rw [lin_comm, lin_comm (jn a.2.2.2.1 b.2.2.2.1), lin_comm (jn a.2.2.2.2 b.2.2.2.2), lin_comm (jn a.1 b.1),
    lin_comm (jn a.2.1 b.2.1)]

theorem roundBody_state (r : Regs) (c : U32) : (roundBody r c).state = round (c.setWidth 64) r.state := by
  rw [roundBody_eq, linRegs_state]
  unfold Spec.round
  congr 1
  have hs := jn_SBOX r.x0h r.x1h r.x2h r.x3h r.x4h r.x0l r.x1l (r.x2l ^^^ c) r.x3l r.x4l
  have hw := SBOXW_eq ⟨jn r.x0h r.x0l, jn r.x1h r.x1l, jn r.x2h (r.x2l ^^^ c), jn r.x3h r.x3l, jn r.x4h r.x4l⟩
  simp only at hs hw
  rw [← hs] at hw
  rw [jn_const] at hw
  exact hw

/-! ### The loop -/

theorem run_ifc_pos {α : Type} {c : Bool} {p q : Prog α} {mem : Mem} (h : c = true) : run (ifc c p q) mem = run p mem := by
  subst h; rfl

theorem run_ifc_neg {α : Type} {c : Bool} {p q : Prog α} {mem : Mem} (h : c = false) : run (ifc c p q) mem = run q mem := by
  subst h; rfl

/-- One execution of the loop body. -/
theorem run_loop_step {fuel : Nat} {r : Regs} {c : U32} {mem : Mem} (h : 0x4b ≤ c.toNat) :
    run (loop (fuel + 1) (fun q : Regs × U32 => decide (0x4b ≤ q.2.toNat))
      (fun q => pure (roundBody q.1 q.2, q.2 - 15)) (r, c)) mem =
    run (loop fuel (fun q : Regs × U32 => decide (0x4b ≤ q.2.toNat))
      (fun q => pure (roundBody q.1 q.2, q.2 - 15)) (roundBody r c, c - 15)) mem := by
  rw [loop, run_ifc_pos (decide_eq_true h)]
  rfl

theorem run_loop_done {fuel : Nat} {r : Regs} {c : U32} {mem : Mem} (h : ¬ 0x4b ≤ c.toNat) :
    run (loop (fuel + 1) (fun q : Regs × U32 => decide (0x4b ≤ q.2.toNat))
      (fun q => pure (roundBody q.1 q.2, q.2 - 15)) (r, c)) mem = some ((r, c), mem) := by
  rw [loop, run_ifc_neg (decide_eq_false h)]
  rfl

/-- The round constants that are visited. -/
def constsFrom : Nat → U32 → List U32
  | 0, _ => []
  | n + 1, c => if 0x4b ≤ c.toNat then c :: constsFrom n (c - 15) else []

theorem run_loop (n : Nat) (r : Regs) (c : U32) (mem : Mem) (hn : (constsFrom n c).length < n) :
    ∃ c', run (loop n (fun q : Regs × U32 => decide (0x4b ≤ q.2.toNat))
      (fun q => pure (roundBody q.1 q.2, q.2 - 15)) (r, c)) mem =
        some (((constsFrom n c).foldl roundBody r, c'), mem) := by
  induction n generalizing r c with
  | zero => simp at hn
  | succ n ih =>
    unfold constsFrom at hn ⊢
    by_cases h : 0x4b ≤ c.toNat
    · rw [if_pos h] at hn ⊢
      rw [run_loop_step h]
      exact ih _ _ (by simpa using hn)
    · rw [if_neg h]
      exact ⟨c, run_loop_done h⟩

theorem foldl_state (cs : List U32) (r : Regs) :
    (cs.foldl roundBody r).state = (cs.map fun c => c.setWidth 64).foldl (fun s c => round c s) r.state := by
  induction cs generalizing r with
  | nil => rfl
  | cons c cs ih => simp only [List.foldl_cons, List.map_cons, ih, roundBody_state]

theorem run_P (e : Endian) (s : State) (c : Byte) (mem : Mem) (n : Nat)
    (hc : (constsFrom 20 (c.setWidth 32)).map (fun c => c.setWidth 64) = roundConsts.drop (16 - n))
    (hl : (constsFrom 20 (c.setWidth 32)).length < 20) :
    run (P e s c) mem = some (perm n s, mem) := by
  unfold P
  obtain ⟨c', h⟩ := run_loop 20 (loadRegs e s) (c.setWidth 32) mem hl
  rw [run_bind_of h]
  show some (storeRegs e _, mem) = _
  rw [storeRegs_eq, foldl_state, loadRegs_state, hc]
  rfl

theorem run_PA (e : Endian) (s : State) (mem : Mem) : run (P e s PA_START_ROUND) mem = some (perm 12 s, mem) :=
  run_P e s _ mem 12 (by decide) (by decide)

theorem run_PB (e : Endian) (s : State) (mem : Mem) : run (P e s PB_START_ROUND) mem = some (perm 8 s, mem) :=
  run_P e s _ mem 8 (by decide) (by decide)

end Ascon.Esp32
