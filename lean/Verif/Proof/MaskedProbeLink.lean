import Verif.Proof.MaskedProbeFinal
/-!
# The instrumented code computes the states of the masked code
-/

namespace Ascon.Masked.Probe

open Ascon.Masked Ascon.Spec Ascon.C Ascon.Gen
open Ascon.C.Prog (require ifc loop)

/-- `s.x[k]` -/
def word (s : MState) : Fin 6 → word_t
  | 0 => s.x0 | 1 => s.x1 | 2 => s.x2 | 3 => s.x3 | 4 => s.x4 | 5 => s.x5

/-- The state of Model/Masked, by share, word, half. -/
def toSt (s : MState) : St := fun d k i => (word s k).get d.val i.val

theorem get_set (w : word_t) (d d' i i' : Fin 2) (v : U32) :
    (w.set d.val i.val v).get d'.val i'.val = if d' = d ∧ i' = i then v else w.get d'.val i'.val := by
  revert d d' i i'
  refine two (two (two (two ?_ ?_) (two ?_ ?_)) (two (two ?_ ?_) (two ?_ ?_)))
    (two (two (two ?_ ?_) (two ?_ ?_)) (two (two ?_ ?_) (two ?_ ?_))) <;>
  simp [word_t.set, word_t.get, share_t.set, share_t.get]

theorem six {p : Fin 6 → Prop} (h0 : p 0) (h1 : p 1) (h2 : p 2) (h3 : p 3) (h4 : p 4) (h5 : p 5) : ∀ d, p d := by
  intro d
  match d with
  | 0 => exact h0
  | 1 => exact h1
  | 2 => exact h2
  | 3 => exact h3
  | 4 => exact h4
  | 5 => exact h5

theorem put0 (s : MState) (d i : Fin 2) (v : U32) : put (toSt s) d 0 i v = toSt { s with x0 := s.x0.set d.val i.val v } := by
  funext d' k i'
  revert k
  refine six ?_ ?_ ?_ ?_ ?_ ?_ <;> simp [put, toSt, word, get_set]
theorem put1 (s : MState) (d i : Fin 2) (v : U32) : put (toSt s) d 1 i v = toSt { s with x1 := s.x1.set d.val i.val v } := by
  funext d' k i'
  revert k
  refine six ?_ ?_ ?_ ?_ ?_ ?_ <;> simp [put, toSt, word, get_set]
theorem put2 (s : MState) (d i : Fin 2) (v : U32) : put (toSt s) d 2 i v = toSt { s with x2 := s.x2.set d.val i.val v } := by
  funext d' k i'
  revert k
  refine six ?_ ?_ ?_ ?_ ?_ ?_ <;> simp [put, toSt, word, get_set]
theorem put3 (s : MState) (d i : Fin 2) (v : U32) : put (toSt s) d 3 i v = toSt { s with x3 := s.x3.set d.val i.val v } := by
  funext d' k i'
  revert k
  refine six ?_ ?_ ?_ ?_ ?_ ?_ <;> simp [put, toSt, word, get_set]
theorem put4 (s : MState) (d i : Fin 2) (v : U32) : put (toSt s) d 4 i v = toSt { s with x4 := s.x4.set d.val i.val v } := by
  funext d' k i'
  revert k
  refine six ?_ ?_ ?_ ?_ ?_ ?_ <;> simp [put, toSt, word, get_set]
theorem put5 (s : MState) (d i : Fin 2) (v : U32) : put (toSt s) d 5 i v = toSt { s with x5 := s.x5.set d.val i.val v } := by
  funext d' k i'
  revert k
  refine six ?_ ?_ ?_ ?_ ?_ ?_ <;> simp [put, toSt, word, get_set]

theorem seq_cons (f : Op) (l : List Op) (s : St) : (seq (f :: l) s).1 = (seq l (f s).1).1 := by
  cases l <;> rfl
theorem seq_nil (s : St) : (seq [] s).1 = s := by
  rw [seq]

theorem link_affine1 (s : MState) (i d : Fin 2) : (affine1 i d (toSt s)).1 = toSt (AFFINE1 s i.val d.val) := by
  unfold affine1
  simp only [seq_cons, seq_nil, xorInto, put0, put2, put4]
  rfl

theorem link_affine2 (s : MState) (i d : Fin 2) : (affine2 i d (toSt s)).1 = toSt (AFFINE2 s i.val d.val) := by
  unfold affine2
  simp only [seq_cons, seq_nil, xorInto, put0, put1, put2, put3]
  rfl

theorem link_gate5 (s : MState) (i : Fin 2) :
    (mxorbic 5 4 3 i (toSt s)).1 = toSt { s with x5 := MXORBIC s.x5 s.x4 s.x3 i.val 2 } := by
  unfold mxorbic
  simp only [seq_cons, seq_nil, eorBicRor, eorAndRor, put5]
  rfl
theorem link_gate4 (s : MState) (i : Fin 2) :
    (mxorbic 4 1 0 i (toSt s)).1 = toSt { s with x4 := MXORBIC s.x4 s.x1 s.x0 i.val 2 } := by
  unfold mxorbic
  simp only [seq_cons, seq_nil, eorBicRor, eorAndRor, put4]
  rfl
theorem link_gate1 (s : MState) (i : Fin 2) :
    (mxorbic 1 3 2 i (toSt s)).1 = toSt { s with x1 := MXORBIC s.x1 s.x3 s.x2 i.val 2 } := by
  unfold mxorbic
  simp only [seq_cons, seq_nil, eorBicRor, eorAndRor, put1]
  rfl
theorem link_gate3 (s : MState) (i : Fin 2) :
    (mxorbic 3 0 4 i (toSt s)).1 = toSt { s with x3 := MXORBIC s.x3 s.x0 s.x4 i.val 2 } := by
  unfold mxorbic
  simp only [seq_cons, seq_nil, eorBicRor, eorAndRor, put3]
  rfl
theorem link_gate0 (s : MState) (i : Fin 2) :
    (mxorbic 0 2 1 i (toSt s)).1 = toSt { s with x0 := MXORBIC s.x0 s.x2 s.x1 i.val 2 } := by
  unfold mxorbic
  simp only [seq_cons, seq_nil, eorBicRor, eorAndRor, put0]
  rfl

theorem link_not (s : MState) (i : Fin 2) :
    (notInto 2 i (toSt s)).1 = toSt { s with x2 := s.x2.set 0 i.val (~~~(s.x2.get 0 i.val)) } := by
  unfold notInto
  simp only [put2]
  rfl

theorem link_const (s : MState) (i : Fin 2) (C : U32) :
    (xorConst 2 i C (toSt s)).1 = toSt { s with x2 := s.x2.set 0 i.val (s.x2.get 0 i.val ^^^ C) } := by
  unfold xorConst
  simp only [put2]
  rfl

theorem link_sbox (s : MState) (i : Fin 2) : (sbox i (toSt s)).1 = toSt (SBOX s i.val 2) := by
  unfold sbox SBOX
  simp only [seq_cons, seq_nil, link_affine1, link_gate5, link_gate4, link_gate1, link_gate3, link_gate0, link_affine2,
    link_not]
  rfl

theorem link_reuse5 (s : MState) : (reuse 5 (toSt s)).1 = toSt { s with x5 := MREUSE s.x5 0 2 } := by
  unfold reuse
  simp only [put5]
  rfl

theorem link_linear (s : MState) (d : Fin 2) : (linear d (toSt s)).1 = toSt (LINEAR s d.val) := by
  unfold linear
  simp only [seq_cons, seq_nil, linearWord, linParams, put0, put1, put2, put3, put4]
  revert d
  exact two rfl rfl

theorem link_round (s : MState) (Co Ce : Byte) : (round Co Ce (toSt s)).1 = toSt (ROUND_ s Co Ce 2) := by
  unfold round ROUND_
  simp only [seq_cons, seq_nil, link_const, link_sbox, link_reuse5, link_linear]
  rfl

theorem then_fst (f g : Op) (s : St) : (f.then g s).1 = (g (f s).1).1 := rfl

theorem rounds_cons (i n : Nat) : rounds i (n + 1) =
    (round (constants.getD (2 * i + 1) 0) (constants.getD (2 * i) 0)).then (rounds (i + 1) n) := by
  unfold rounds
  have e : (List.range (n + 1)).map (fun j => round (constants.getD (2 * (i + j) + 1) 0) (constants.getD (2 * (i + j)) 0)) =
      round (constants.getD (2 * i + 1) 0) (constants.getD (2 * i) 0) ::
        (List.range n).map (fun j => round (constants.getD (2 * (i + 1 + j) + 1) 0) (constants.getD (2 * (i + 1 + j)) 0)) := by
    rw [List.range_succ_eq_map, List.map_cons, List.map_map, Nat.add_zero]
    refine congrArg (List.cons _) (List.map_congr_left fun j _ => ?_)
    rw [Function.comp, show i + j.succ = i + 1 + j by omega]
  rw [e, seq]

theorem rounds_succ (i n : Nat) (s : St) : (rounds i (n + 1) s).1 =
    (rounds (i + 1) n (round (constants.getD (2 * i + 1) 0) (constants.getD (2 * i) 0) s).1).1 := by
  rw [rounds_cons, then_fst]

theorem rounds_zero (i : Nat) (s : St) : (rounds i 0 s).1 = s := rfl

theorem link_roundStep (s : MState) {i : Nat} (hi : i < 12) (mem : Mem) :
    run (roundStep 2 (i, s)) mem =
      some ((i + 1, ROUND_ s (constants.getD (2 * i + 1) 0) (constants.getD (2 * i) 0) 2), mem) := by
  unfold roundStep
  rw [require_bind_of (decide_eq_true (show 2 * i + 1 < 24 by omega))]
  rfl

theorem link_rounds (k : Nat) (hk : k < 12) (f : Nat) (hf : k < f) (s : MState) (mem : Mem) :
    ∃ s', toSt s' = (rounds (11 - k) (k + 1) (toSt s)).1 ∧
      run (roundStep 2 (11 - k, s) >>= loop f (fun q : Nat × MState => decide (q.1 ≠ 12)) (roundStep 2)) mem =
        some ((12, s'), mem) := by
  induction k generalizing f s with
  | zero =>
    obtain ⟨f, rfl⟩ : ∃ g, f = g + 1 := ⟨f - 1, by omega⟩
    refine ⟨ROUND_ s (constants.getD (2 * 11 + 1) 0) (constants.getD (2 * 11) 0) 2, ?_, ?_⟩
    · rw [rounds_succ, rounds_zero, link_round]
    · rw [run_bind_of (link_roundStep s (i := 11) (by omega) mem), run_loop_done (by simp)]
  | succ k ih =>
    obtain ⟨f, rfl⟩ : ∃ g, f = g + 1 := ⟨f - 1, by omega⟩
    obtain ⟨s'', hs'', hr'⟩ := ih (by omega) f (by omega) (ROUND_ s (constants.getD (2 * (11 - (k + 1)) + 1) 0)
      (constants.getD (2 * (11 - (k + 1))) 0) 2)
    refine ⟨s'', ?_, ?_⟩
    · rw [rounds_succ, link_round, show 11 - (k + 1) + 1 = 11 - k by omega]
      exact hs''
    · rw [run_bind_of (link_roundStep s (i := 11 - (k + 1)) (by omega) mem)]
      have hc : decide ((11 - (k + 1) + 1 : Nat) ≠ 12) = true := decide_eq_true (by omega)
      simp only [loop, ifc, hc, if_true, run]
      rw [show 11 - (k + 1) + 1 = 11 - k by omega]
      exact hr'

/-- permutations.h `P(s, nr, 2)` -/
theorem link_P {nr : Nat} (h0 : 0 < nr) (h12 : nr ≤ 12) (s : MState) (mem : Mem) :
    ∃ s', toSt s' = (perm nr (toSt s)).1 ∧ run (P s nr 2) mem = some (s', mem) := by
  obtain ⟨s', hs', hr⟩ := link_rounds (nr - 1) (by omega) 16 (by omega) s mem
  refine ⟨s', ?_, ?_⟩
  · unfold perm
    rw [show 12 - nr = 11 - (nr - 1) by omega, hs', show nr - 1 + 1 = nr by omega]
  · unfold P
    rw [show 12 - nr = 11 - (nr - 1) by omega, ← bind_assoc', run_bind_of hr]; rfl

/-! ## aead.c -/

/-- A `word_t`, by share and half. -/
def ofWord (w : word_t) : Fin 2 → Fin 2 → U32 := fun d i => w.get d.val i.val

theorem link_mxor2 (s : MState) (w : word_t) : (mxor 2 (ofWord w) (toSt s)).1 = toSt { s with x2 := MXOR s.x2 w 2 } := by
  unfold mxor
  simp only [seq_cons, seq_nil, xorShare, put2]
  rfl
theorem link_mxor3 (s : MState) (w : word_t) : (mxor 3 (ofWord w) (toSt s)).1 = toSt { s with x3 := MXOR s.x3 w 2 } := by
  unfold mxor
  simp only [seq_cons, seq_nil, xorShare, put3]
  rfl
theorem link_mxor4 (s : MState) (w : word_t) : (mxor 4 (ofWord w) (toSt s)).1 = toSt { s with x4 := MXOR s.x4 w 2 } := by
  unfold mxor
  simp only [seq_cons, seq_nil, xorShare, put4]
  rfl

attribute [local irreducible] perm

/-- aead.c:173-198 -/
theorem link_final {e : Endian} {k : Nat} {K1 K2 : word_t} {mem : Mem} (h1 : run (MLOAD e k 2) mem = some (K1, mem))
    (h2 : run (MLOAD e (k + 16) 2) mem = some (K2, mem)) (s : MState) :
    ∃ s', toSt s' = (final (ofWord K1) (ofWord K2) (toSt s)).1 ∧ run (ascon_final e s k) mem = some (s', mem) := by
  obtain ⟨s1, e1, r1⟩ := link_P (nr := 12) (by decide) (by decide)
    { s with x2 := MXOR s.x2 K1 2, x3 := MXOR s.x3 K2 2 } mem
  refine ⟨{ s1 with x3 := MXOR s1.x3 K1 2, x4 := MXOR s1.x4 K2 2 }, ?_, ?_⟩
  · unfold final
    simp only [seq_cons, seq_nil, link_mxor2, link_mxor3]
    rw [← e1, link_mxor3, link_mxor4]
  · unfold ascon_final
    rw [run_bind_of h1, run_bind_of h2, run_bind_of r1]
    rfl

theorem link_reuse0 (s : MState) : (reuse 0 (toSt s)).1 = toSt { s with x0 := MREUSE s.x0 0 2 } := by
  unfold reuse
  simp only [put0]
  rfl
theorem link_reuse1 (s : MState) : (reuse 1 (toSt s)).1 = toSt { s with x1 := MREUSE s.x1 0 2 } := by
  unfold reuse
  simp only [put1]
  rfl
theorem link_reuse2 (s : MState) : (reuse 2 (toSt s)).1 = toSt { s with x2 := MREUSE s.x2 0 2 } := by
  unfold reuse
  simp only [put2]
  rfl

theorem link_const3 (s : MState) (i : Fin 2) (C : U32) :
    (xorConst 3 i C (toSt s)).1 = toSt { s with x3 := s.x3.set 0 i.val (s.x3.get 0 i.val ^^^ C) } := by
  unfold xorConst
  simp only [put3]
  rfl
theorem link_const4 (s : MState) (i : Fin 2) (C : U32) :
    (xorConst 4 i C (toSt s)).1 = toSt { s with x4 := s.x4.set 0 i.val (s.x4.get 0 i.val ^^^ C) } := by
  unfold xorConst
  simp only [put4]
  rfl

/-- The halves of the first share of a word. -/
def half0 (w : word_t) : Fin 2 → U32 := fun i => w.get 0 i.val

/-- aead.c:223-241 -/
theorem link_xortag {e : Endian} {t : Nat} {t0 t1 : word_t} {mem : Mem} (h1 : run (MLOAD e t 1) mem = some (t0, mem))
    (h2 : run (MLOAD e (t + 8) 1) mem = some (t1, mem)) (s : MState) :
    ∃ s', toSt s' = (xortag (half0 t0) (half0 t1) (toSt s)).1 ∧ run (ascon_xortag e s t) mem = some (s', mem) := by
  obtain ⟨s1, e1, r1⟩ := link_P (nr := 8) (by decide) (by decide)
    ⟨MREUSE s.x0 0 2, MREUSE s.x1 0 2, MREUSE s.x2 0 2, MXOR s.x3 t0 1, MXOR s.x4 t1 1, s.x5⟩ mem
  refine ⟨{ s1 with
      x3 := ⟨⟨s1.x3.s0.w0 ^^^ 0xc7c72006, s1.x3.s0.w1 ^^^ 0xc3bfab9c⟩, s1.x3.s1⟩
      x4 := ⟨⟨s1.x4.s0.w0 ^^^ 0x18213f82, s1.x4.s0.w1 ^^^ 0x0653ed71⟩, s1.x4.s1⟩ }, ?_, ?_⟩
  · unfold xortag
    simp only [seq_cons, seq_nil, link_reuse0, link_reuse1, link_reuse2, link_const3, link_const4]
    have e3 : ∀ w w' : word_t, (w.set 0 (0 : Fin 2).val (w.get 0 (0 : Fin 2).val ^^^ half0 w' 0)).set 0 (1 : Fin 2).val
        ((w.set 0 (0 : Fin 2).val (w.get 0 (0 : Fin 2).val ^^^ half0 w' 0)).get 0 (1 : Fin 2).val ^^^ half0 w' 1) =
        MXOR w w' 1 := fun _ _ => rfl
    rw [e3, e3, ← e1]
    simp only [link_const3, link_const4]
    rfl
  · unfold ascon_xortag
    rw [run_bind_of h1, run_bind_of h2, run_bind_of r1]
    rfl

end Ascon.Masked.Probe
