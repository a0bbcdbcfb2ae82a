import Verif.Model.Neon
import Verif.Proof.AsmRound
import Verif.Proof.Backends
/-!
# The NEON rounds compute the permutation
-/

namespace Ascon.Neon

open Ascon.C Ascon.Asm Ascon.Spec Ascon.Gen

/-- Variables for the round constant. -/
def cs64 : Sym := (List.range 64).map (fun j => pvar (320 + j))

theorem rel_cs64 (s : State) (c : Word) : Rel (assign s c) cs64 c := by
  constructor
  · decide
  · intro j hj
    simp only [cs64, List.getElem_map, List.getElem_range]
    rw [eval_pvar, testBit_assign_c]

/-- `d5`, …, `d30` are unknown, `d31` holds the complement of the constant. -/
def extraN : List Sym := List.replicate 26 [] ++ [snot cs64]

theorem check_round : checkBlock (w := 64) 1 (fun i => i) cs64 extraN (fun _ => none) (inverted roundBody) [0, 1, 2, 3, 4]
    (fun _ => true) = true := by decide +kernel

theorem bitPerm_id : BitPerm (fun w => w) (fun i => i) where
  bit := fun _ _ _ => rfl
  lt := fun _ h => h

/-- `d0`–`d4` hold the state, `d2` complemented. -/
def Inv (s : State) (m : M 64) : Prop :=
  m.r 0 = s.x0 ∧ m.r 1 = s.x1 ∧ m.r 2 = ~~~s.x2 ∧ m.r 3 = s.x3 ∧ m.r 4 = s.x4 ∧ m.stk = []

theorem exec_cons_of {w : Nat} {rom : Nat → Option Byte} {i : Instr w} {is : List (Instr w)} {m m1 : M w}
    (h : step rom m i = some m1) : exec rom (i :: is) m = exec rom is m1 := by
  show (step rom m i).bind (exec rom is) = _
  rw [h]; rfl

theorem chunk64 (x : Word) : chunk 64 0 x = x := by
  unfold chunk; simp

theorem inv_round {s : State} {m : M 64} (h : Inv s m) (c : Word) :
    ∃ m', exec (fun _ => none) (.mov 31 (.imm (~~~c)) :: roundBody) m = some m' ∧ Inv (round c s) m' := by
  obtain ⟨h0, h1, h2, h3, h4, h5⟩ := h
  let m0 : M 64 := (m.set 31 (~~~c)).set 2 s.x2
  have hl : Loaded 1 (fun w => w) s m0 := by
    intro k h hk hh
    have hh : h = 0 := by omega
    subst hh
    rw [chunk64]
    have hk' : k = 0 ∨ k = 1 ∨ k = 2 ∨ k = 3 ∨ k = 4 := by omega
    rcases hk' with rfl | rfl | rfl | rfl | rfl <;> simp [m0, M.set, word, h0, h1, h3, h4]
  have hx : ∀ i, Rel (assign s c) (extraN.getD i []) (m0.r (5 * 1 + i)) := by
    intro i
    by_cases hi : i = 26
    · subst hi
      have : m0.r (5 * 1 + 26) = ~~~c := by simp [m0, M.set]
      rw [this]
      exact (rel_cs64 s c).not
    · have : extraN.getD i [] = [] := by
        unfold extraN
        rw [List.getD_eq_getElem?_getD, List.getElem?_append]
        by_cases h26 : i < 26
        · rw [if_pos (by rw [List.length_replicate]; exact h26), List.getElem?_replicate, if_pos h26]; rfl
        · simp only [List.length_replicate, h26, if_false]
          rw [List.getElem?_eq_none (by simp; omega)]; rfl
      rw [this]; exact Rel.nil _ _
  obtain ⟨m', he, hL, hs, _⟩ := checkBlock_sound bitPerm_id (by decide) check_round (rel_cs64 s c) (by decide) hl
    (by simp [m0, M.set, h5]) hx
  have hcomm : exec (fun _ => none) (inverted roundBody) m0 =
      exec (fun _ => none) (roundBody ++ [vmvn 2 2]) (m.set 31 (~~~c)) := by
    unfold inverted
    rw [List.append_assoc, List.singleton_append, exec_cons_of (m1 := m0.set 2 (~~~(m0.r 2))) rfl]
    apply congrArg
    have : (m0.set 2 (~~~(m0.r 2))).r = (m.set 31 (~~~c)).r := by
      funext i
      by_cases hi : i = 2
      · subst hi; simp [m0, M.set, h2]
      · simp [m0, M.set, hi]
    exact congrArg (fun r => ({ r := r, stk := m.stk, z := m.z } : M 64)) this
  rw [hcomm, exec_append] at he
  cases hb : exec (fun _ => none) roundBody (m.set 31 (~~~c)) with
  | none => rw [hb] at he; exact absurd he (by simp)
  | some m1 =>
    rw [hb] at he
    refine ⟨m1, by rw [exec_cons_of (m1 := m.set 31 (~~~c)) rfl, hb], ?_⟩
    rw [Option.bind_some, exec_cons_of (m1 := m1.set 2 (~~~(m1.r 2))) rfl] at he
    have he : m1.set 2 (~~~(m1.r 2)) = m' := by
      injection he
    have hL' : ∀ k, k < 5 → m'.r ([0, 1, 2, 3, 4].getD k 0) = word (round c s) k := by
      intro k hk
      have := hL k 0 hk (by omega)
      rw [chunk64] at this
      simpa using this
    have g0 := hL' 0 (by omega)
    have g1 := hL' 1 (by omega)
    have g2 := hL' 2 (by omega)
    have g3 := hL' 3 (by omega)
    have g4 := hL' 4 (by omega)
    rw [← he] at g0 g1 g2 g3 g4 hs
    simp [M.set, word] at g0 g1 g2 g3 g4 hs
    exact ⟨g0, g1, by rw [← g2]; simp, g3, g4, hs⟩

attribute [local irreducible] roundBody

/-- The rounds at the table offsets `offs`. -/
def rounds (offs : List Nat) : List (Instr 64) := (offs.map ROUND).flatten

theorem inv_rounds (offs : List Nat) {s : State} {m : M 64} (h : Inv s m) :
    ∃ m', exec (fun _ => none) (rounds offs) m = some m' ∧
      Inv ((offs.map fun o => ~~~(Ctab.getD (o / 8) 0)).foldl (fun s c => round c s) s) m' := by
  induction offs generalizing s m with
  | nil => exact ⟨m, rfl, h⟩
  | cons o offs ih =>
    obtain ⟨m1, e1, i1⟩ := inv_round h (~~~(Ctab.getD (o / 8) 0))
    obtain ⟨m2, e2, i2⟩ := ih i1
    refine ⟨m2, ?_, i2⟩
    have : rounds (o :: offs) = ROUND o ++ rounds offs := rfl
    rw [this, exec_append]
    have e1' : exec (fun _ => none) (ROUND o) m = some m1 := by
      rw [BitVec.not_not] at e1; exact e1
    rw [e1']
    exact e2

theorem exec_inverted (offs : List Nat) {m : M 64} (h : m.stk = []) :
    ∃ m', exec (fun _ => none) (inverted (rounds offs)) m = some m' ∧ m'.stk = [] ∧
      storeD m' = (offs.map fun o => ~~~(Ctab.getD (o / 8) 0)).foldl (fun s c => round c s) (storeD m) := by
  have hI : Inv (storeD m) (m.set 2 (~~~(m.r 2))) := by
    refine ⟨?_, ?_, ?_, ?_, ?_, ?_⟩ <;> simp [M.set, storeD, h]
  obtain ⟨m1, e1, g0, g1, g2, g3, g4, g5⟩ := inv_rounds offs hI
  refine ⟨m1.set 2 (~~~(m1.r 2)), ?_, g5, ?_⟩
  · unfold inverted
    rw [List.append_assoc, List.singleton_append, exec_cons_of (m1 := m.set 2 (~~~(m.r 2))) rfl]
    show exec _ (rounds offs ++ [vmvn 2 2]) _ = _
    rw [exec_append, e1, Option.bind_some, exec_cons_of (m1 := m1.set 2 (~~~(m1.r 2))) rfl]
    rfl
  · generalize List.foldl _ _ _ = t at *
    simp [storeD, M.set, g0, g1, g2, g3, g4]

theorem rounds12 : P12ROUNDS = rounds [0, 8, 16, 24, 32, 40, 48, 56, 64, 72, 80, 88] := by
  simp [P12ROUNDS, rounds]
theorem rounds8 : P8ROUNDS = rounds [32, 40, 48, 56, 64, 72, 80, 88] := by simp [P8ROUNDS, rounds]
theorem rounds6 : P6ROUNDS = rounds [48, 56, 64, 72, 80, 88] := by simp [P6ROUNDS, rounds]

theorem exec_P12 {m : M 64} (h : m.stk = []) : ∃ m', exec (fun _ => none) (inverted P12ROUNDS) m = some m' ∧
    m'.stk = [] ∧ storeD m' = Spec.perm 12 (storeD m) := by
  obtain ⟨m', a, b, c⟩ := exec_inverted [0, 8, 16, 24, 32, 40, 48, 56, 64, 72, 80, 88] h
  exact ⟨m', by rw [rounds12]; exact a, b, c⟩

theorem exec_P8 {m : M 64} (h : m.stk = []) : ∃ m', exec (fun _ => none) (inverted P8ROUNDS) m = some m' ∧
    m'.stk = [] ∧ storeD m' = Spec.perm 8 (storeD m) := by
  obtain ⟨m', a, b, c⟩ := exec_inverted [32, 40, 48, 56, 64, 72, 80, 88] h
  exact ⟨m', by rw [rounds8]; exact a, b, c⟩

theorem exec_P6 {m : M 64} (h : m.stk = []) : ∃ m', exec (fun _ => none) (inverted P6ROUNDS) m = some m' ∧
    m'.stk = [] ∧ storeD m' = Spec.perm 6 (storeD m) := by
  obtain ⟨m', a, b, c⟩ := exec_inverted [48, 56, 64, 72, 80, 88] h
  exact ⟨m', by rw [rounds6]; exact a, b, c⟩

theorem storeD_loadD (regs : Nat → Word) (s : State) : storeD (loadD regs s) = s := rfl

theorem perm_eq {rounds : List (Instr 64)} {n : Nat} (h : ∀ {m : M 64}, m.stk = [] →
    ∃ m', exec (fun _ => none) (inverted rounds) m = some m' ∧ m'.stk = [] ∧ storeD m' = Spec.perm n (storeD m))
    (regs : Nat → Word) (s : State) : perm rounds regs s = .ret (Spec.perm n s) := by
  obtain ⟨m', a, _, c⟩ := h (m := loadD regs s) rfl
  unfold perm
  rw [a]
  exact congrArg Prog.ret c

theorem P12_eq (e : Endian) (s : State) : P12 e s = .ret (Spec.perm 12 s) := perm_eq exec_P12 _ s
theorem P8_eq (e : Endian) (s : State) : P8 e s = .ret (Spec.perm 8 s) := perm_eq exec_P8 _ s
theorem P6_eq (e : Endian) (s : State) : P6 e s = .ret (Spec.perm 6 s) := perm_eq exec_P6 _ s

theorem backend_ok (e : Endian) : backend.Ok e (fun w => w) :=
  optBackend_ok (fun s mem => by rw [show P12 e _ = _ from P12_eq e _]; rfl)
    (fun s mem => by rw [show P8 e _ = _ from P8_eq e _]; rfl)

theorem backend_ct (e : Endian) : backend.CT e :=
  optBackend_ct (fun s t => by rw [P12_eq, P12_eq]; exact Sim.ret trivial)
    (fun s t => by rw [P8_eq, P8_eq]; exact Sim.ret trivial)

end Ascon.Neon
