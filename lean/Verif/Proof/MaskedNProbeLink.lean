import Verif.Proof.MaskedNProbeGate
/-!
# The instrumented code computes the states of Model/MaskedN
-/

namespace Ascon.MaskedN.Probe

open Ascon.C Ascon.Spec
open Ascon.C.Prog (require loop)
open Ascon.Masked (U32 ROR32 ROT constants share_t linWord)
open Ascon.Masked.Probe (Val linParams two six)

/-- `s.x[k]` -/
def word (s : MState) : Fin 6 → word_t
  | 0 => s.x0 | 1 => s.x1 | 2 => s.x2 | 3 => s.x3 | 4 => s.x4 | 5 => s.x5

/-- The state of Model/MaskedN, by share, word, half. -/
def toSt (s : MState) : St := fun d k i => (word s k).get d i.val

theorem wd_toSt (s : MState) (k : Fin 6) : wd (toSt s) k = word s k := by
  funext d; rfl

theorem put0 (s : MState) (d : Nat) (i : Fin 2) (v : U32) : put (toSt s) d 0 i v = toSt { s with x0 := s.x0.set d i.val v } := by
  funext d' k i'
  revert k
  refine six ?_ ?_ ?_ ?_ ?_ ?_ <;> simp [put, toSt, word, get_set]
theorem put1 (s : MState) (d : Nat) (i : Fin 2) (v : U32) : put (toSt s) d 1 i v = toSt { s with x1 := s.x1.set d i.val v } := by
  funext d' k i'
  revert k
  refine six ?_ ?_ ?_ ?_ ?_ ?_ <;> simp [put, toSt, word, get_set]
theorem put2 (s : MState) (d : Nat) (i : Fin 2) (v : U32) : put (toSt s) d 2 i v = toSt { s with x2 := s.x2.set d i.val v } := by
  funext d' k i'
  revert k
  refine six ?_ ?_ ?_ ?_ ?_ ?_ <;> simp [put, toSt, word, get_set]
theorem put3 (s : MState) (d : Nat) (i : Fin 2) (v : U32) : put (toSt s) d 3 i v = toSt { s with x3 := s.x3.set d i.val v } := by
  funext d' k i'
  revert k
  refine six ?_ ?_ ?_ ?_ ?_ ?_ <;> simp [put, toSt, word, get_set]
theorem put4 (s : MState) (d : Nat) (i : Fin 2) (v : U32) : put (toSt s) d 4 i v = toSt { s with x4 := s.x4.set d i.val v } := by
  funext d' k i'
  revert k
  refine six ?_ ?_ ?_ ?_ ?_ ?_ <;> simp [put, toSt, word, get_set]

theorem putw_toSt (s : MState) (w : word_t) :
    putw (toSt s) 0 w = toSt { s with x0 := w } ∧ putw (toSt s) 1 w = toSt { s with x1 := w } ∧
    putw (toSt s) 3 w = toSt { s with x3 := w } ∧ putw (toSt s) 4 w = toSt { s with x4 := w } ∧
    putw (toSt s) 5 w = toSt { s with x5 := w } := by
  refine ⟨?_, ?_, ?_, ?_, ?_⟩ <;>
  · funext d k i
    revert k
    refine six ?_ ?_ ?_ ?_ ?_ ?_ <;> simp [putw, toSt, word]

theorem link_affine1 (s : MState) (i : Fin 2) (d : Nat) : (affine1 i d (toSt s)).1 = toSt (AFFINE1 s i.val d) := by
  unfold affine1
  simp only [seq_cons, seq_nil, xorInto, put0, put2, put4]
  rfl

theorem link_affine2 (s : MState) (i : Fin 2) (d : Nat) : (affine2 i d (toSt s)).1 = toSt (AFFINE2 s i.val d) := by
  unfold affine2
  simp only [seq_cons, seq_nil, xorInto, put0, put1, put2, put3]
  rfl

theorem when_fst (c : Prop) [Decidable c] (f : Op) (s : St) : (when c f s).1 = if c then (f s).1 else s := by
  unfold MaskedN.Probe.when
  split <;> rfl

theorem ite_toSt (c : Prop) [Decidable c] (s s' : MState) : (if c then toSt s else toSt s') = toSt (if c then s else s') := by
  split <;> rfl

theorem link_not (s : MState) (i : Fin 2) :
    (notInto 2 i (toSt s)).1 = toSt { s with x2 := s.x2.set 0 i.val (~~~(s.x2.get 0 i.val)) } := by
  unfold notInto
  simp only [put2]
  rfl

theorem link_const (s : MState) (i : Fin 2) (C : U32) :
    (xorConst 2 i C (toSt s)).1 = toSt { s with x2 := s.x2.xor 0 i.val C } := by
  unfold xorConst
  simp only [put2]
  rfl

theorem link_gates {n : Nat} (h2 : 2 ≤ n) (h4 : n ≤ 4) (i : Fin 2) (s : MState) :
    (mxorbic n 5 4 3 i (toSt s)).1 = toSt { s with x5 := MXORBIC s.x5 s.x4 s.x3 i.val n } ∧
    (mxorbic n 4 1 0 i (toSt s)).1 = toSt { s with x4 := MXORBIC s.x4 s.x1 s.x0 i.val n } ∧
    (mxorbic n 1 3 2 i (toSt s)).1 = toSt { s with x1 := MXORBIC s.x1 s.x3 s.x2 i.val n } ∧
    (mxorbic n 3 0 4 i (toSt s)).1 = toSt { s with x3 := MXORBIC s.x3 s.x0 s.x4 i.val n } ∧
    (mxorbic n 0 2 1 i (toSt s)).1 = toSt { s with x0 := MXORBIC s.x0 s.x2 s.x1 i.val n } := by
  have g := fun {c a b : Fin 6} (ha : a ≠ c) (hb : b ≠ c) => link_gate h2 h4 ha hb i (toSt s)
  have p := fun w => putw_toSt s w
  refine ⟨?_, ?_, ?_, ?_, ?_⟩
  · rw [g (by decide) (by decide), (p _).2.2.2.2]; rfl
  · rw [g (by decide) (by decide), (p _).2.2.2.1]; rfl
  · rw [g (by decide) (by decide), (p _).2.1]; rfl
  · rw [g (by decide) (by decide), (p _).2.2.1]; rfl
  · rw [g (by decide) (by decide), (p _).1]; rfl

theorem link_sbox {n : Nat} (h2 : 2 ≤ n) (h4 : n ≤ 4) (s : MState) (i : Fin 2) : (sbox n i (toSt s)).1 = toSt (SBOX s i.val n) := by
  have g := link_gates h2 h4 i
  unfold sbox SBOX MaskedN.affine1 MaskedN.affine2
  simp only [seq_cons, seq_nil, when_fst, link_affine1, ite_toSt, (g _).1, (g _).2.1, (g _).2.2.1, (g _).2.2.2.1,
    (g _).2.2.2.2, link_affine2, link_not]

theorem link_reuse5 (n : Nat) (s : MState) : (reuse n 5 (toSt s)).1 = toSt { s with x5 := MREUSE s.x5 0 n } := by
  rw [reuse_word, (putw_toSt s _).2.2.2.2]
  rfl

theorem get_onShare (w : word_t) (d d' : Nat) (f : share_t → share_t) (i : Nat) :
    (w.onShare d f).get d' i = if d' = d then (f (w d)).get i else w.get d' i := by
  unfold word_t.onShare word_t.setShare word_t.get
  simp only []
  split <;> rfl

theorem link_linear (s : MState) (d : Nat) : (linear d (toSt s)).1 = toSt (LINEAR s d) := by
  have h := (sw_linear (n := d + 1) (d := d) (by omega)).eq (toSt s)
  rw [h]
  funext d' k i
  unfold MaskedN.Probe.on
  by_cases hd : d' = d
  · subst hd
    rw [if_pos ⟨rfl, by omega⟩]
    revert k
    refine six ?_ ?_ ?_ ?_ ?_ ?_ <;> revert i <;> refine two ?_ ?_ <;>
      simp [LL, Masked.Probe.lv, toSt, word, LINEAR, linParams, share_t.get, word_t.get, word_t.onShare, word_t.setShare]
  · rw [if_neg fun h => hd h.1]
    revert k
    refine six ?_ ?_ ?_ ?_ ?_ ?_ <;> simp [toSt, word, LINEAR, get_onShare, hd]

theorem link_round {n : Nat} (h2 : 2 ≤ n) (h4 : n ≤ 4) (s : MState) (Co Ce : Byte) :
    (round n Co Ce (toSt s)).1 = toSt (ROUND_ s Co Ce n) := by
  unfold round ROUND_ MaskedN.linear
  simp only [seq_cons, seq_nil, link_const, link_sbox h2 h4, link_reuse5, when_fst, link_linear, ite_toSt]
  rfl

theorem rounds_cons (n i nr : Nat) : rounds n i (nr + 1) =
    (round n (constants.getD (2 * i + 1) 0) (constants.getD (2 * i) 0)).then (rounds n (i + 1) nr) := by
  unfold rounds
  have e : (List.range (nr + 1)).map (fun j => round n (constants.getD (2 * (i + j) + 1) 0) (constants.getD (2 * (i + j)) 0)) =
      round n (constants.getD (2 * i + 1) 0) (constants.getD (2 * i) 0) ::
        (List.range nr).map (fun j => round n (constants.getD (2 * (i + 1 + j) + 1) 0) (constants.getD (2 * (i + 1 + j)) 0)) := by
    rw [List.range_succ_eq_map, List.map_cons, List.map_map, Nat.add_zero]
    refine congrArg (List.cons _) (List.map_congr_left fun j _ => ?_)
    rw [Function.comp, show i + j.succ = i + 1 + j by omega]
  rw [e, seq]

theorem link_roundStep {n : Nat} (s : MState) {i : Nat} (hi : i < 12) (mem : Mem) :
    run (roundStep n (i, s)) mem =
      some ((i + 1, ROUND_ s (constants.getD (2 * i + 1) 0) (constants.getD (2 * i) 0) n), mem) := by
  unfold roundStep
  rw [require_bind_of (decide_eq_true (show 2 * i + 1 < 24 by omega))]
  rfl

theorem rounds_succ (n i nr : Nat) (s : St) : (rounds n i (nr + 1) s).1 =
    (rounds n (i + 1) nr (round n (constants.getD (2 * i + 1) 0) (constants.getD (2 * i) 0) s).1).1 := by
  rw [rounds_cons, then_fst]

theorem rounds_zero (n i : Nat) (s : St) : (rounds n i 0 s).1 = s := rfl

theorem link_rounds {n : Nat} (h2 : 2 ≤ n) (h4 : n ≤ 4) (k : Nat) (hk : k < 12) (f : Nat) (hf : k < f) (s : MState) (mem : Mem) :
    ∃ s', toSt s' = (rounds n (11 - k) (k + 1) (toSt s)).1 ∧
      run (roundStep n (11 - k, s) >>= loop f (fun q : Nat × MState => decide (q.1 ≠ 12)) (roundStep n)) mem =
        some ((12, s'), mem) := by
  induction k generalizing f s with
  | zero =>
    obtain ⟨f, rfl⟩ : ∃ g, f = g + 1 := ⟨f - 1, by omega⟩
    refine ⟨ROUND_ s (constants.getD (2 * 11 + 1) 0) (constants.getD (2 * 11) 0) n, ?_, ?_⟩
    · rw [rounds_succ, rounds_zero, link_round h2 h4]
    · rw [run_bind_of (link_roundStep s (i := 11) (by omega) mem), run_loop_done (by simp)]
  | succ k ih =>
    obtain ⟨f, rfl⟩ : ∃ g, f = g + 1 := ⟨f - 1, by omega⟩
    obtain ⟨s'', hs'', hr'⟩ := ih (by omega) f (by omega) (ROUND_ s (constants.getD (2 * (11 - (k + 1)) + 1) 0)
      (constants.getD (2 * (11 - (k + 1))) 0) n)
    refine ⟨s'', ?_, ?_⟩
    · rw [rounds_succ, link_round h2 h4, show 11 - (k + 1) + 1 = 11 - k by omega]
      exact hs''
    · rw [run_bind_of (link_roundStep s (i := 11 - (k + 1)) (by omega) mem)]
      have hc : decide ((11 - (k + 1) + 1 : Nat) ≠ 12) = true := decide_eq_true (by omega)
      simp only [loop, Prog.ifc, hc, if_true, run]
      rw [show 11 - (k + 1) + 1 = 11 - k by omega]
      exact hr'

/-- permutations.h `P(s, nr, n)` -/
theorem link_P {n : Nat} (h2 : 2 ≤ n) (h4 : n ≤ 4) {nr : Nat} (h0 : 0 < nr) (h12 : nr ≤ 12) (s : MState) (mem : Mem) :
    ∃ s', toSt s' = (perm n nr (toSt s)).1 ∧ run (P s nr n) mem = some (s', mem) := by
  obtain ⟨s', hs', hr⟩ := link_rounds h2 h4 (nr - 1) (by omega) 16 (by omega) s mem
  refine ⟨s', ?_, ?_⟩
  · unfold perm
    rw [show 12 - nr = 11 - (nr - 1) by omega, hs', show nr - 1 + 1 = nr by omega]
  · unfold P
    rw [if_pos (by omega), show 12 - nr = 11 - (nr - 1) by omega, ← bind_assoc', run_bind_of hr]; rfl

end Ascon.MaskedN.Probe
