import Verif.Proof.ArmPerm
/-!
# src/armv6m_lowsize/permutations.S computes the permutation and obeys the calling convention
-/

namespace Ascon.Asm

open Ascon.C

variable {w : Nat}

/-- The machine with more words below on the stack. -/
def M.under (m : M w) (base : List (BitVec w)) : M w := { m with stk := m.stk ++ base }

theorem step_under {rom : Nat → Option Byte} {i : Instr w} {m m' : M w} (base : List (BitVec w))
    (h : step rom m i = some m') : step rom (m.under base) i = some (m'.under base) := by
  cases i <;> simp only [step, Option.some.injEq, Option.map_eq_some_iff] at h ⊢
  case pop r =>
    cases hs : m.stk with
    | nil => rw [hs] at h; exact absurd h (by simp)
    | cons v t =>
      rw [hs] at h
      simp only [Option.some.injEq] at h
      subst h
      simp only [M.under, hs, List.cons_append]
      rfl
  case ldrb d a off => obtain ⟨b, hb, rfl⟩ := h; exact ⟨b, hb, rfl⟩
  case ldrbPost d a off => obtain ⟨b, hb, rfl⟩ := h; exact ⟨b, hb, rfl⟩
  all_goals
    subst h
    first | rfl | (rename_i a b; cases a <;> cases b <;> rfl) | (rename_i a; cases a <;> rfl)

theorem exec_under {rom : Nat → Option Byte} {code : List (Instr w)} {m m' : M w} (base : List (BitVec w))
    (h : exec rom code m = some m') : exec rom code (m.under base) = some (m'.under base) := by
  induction code generalizing m with
  | nil => simp only [exec, Option.some.injEq] at h ⊢; rw [h]
  | cons i is ih =>
    simp only [exec] at h ⊢
    cases hs : step rom m i with
    | none => rw [hs] at h; exact absurd h (by simp)
    | some m1 =>
      rw [hs] at h
      rw [step_under base hs]
      exact ih h

theorem doWhile_under {rom : Nat → Option Byte} {body : List (Instr w)} {f n : Nat} {m m' : M w} (base : List (BitVec w))
    (h : doWhile rom body f m = jumps n m') : doWhile rom body f (m.under base) = jumps n (m'.under base) := by
  induction f generalizing m n with
  | zero => cases n <;> exact absurd h (by simp [doWhile, jumps])
  | succ f ih =>
    unfold doWhile at h ⊢
    cases he : exec rom body m with
    | none => rw [he] at h; cases n <;> exact absurd h (by simp [jumps])
    | some m1 =>
      rw [he] at h
      rw [exec_under base he]
      simp only at h ⊢
      cases hz : m1.z
      · rw [hz] at h
        cases n with
        | zero => exact absurd h (by simp [jumps])
        | succ n =>
          simp only [jumps, Bool.not_false, Prog.branch.injEq, true_and, Bool.false_eq_true, if_false] at h
          show Prog.branch (!m1.z) (if m1.z = true then _ else _) = _
          rw [hz]
          simp only [jumps, Bool.not_false, Bool.false_eq_true, if_false, ih h]
      · rw [hz] at h
        cases n with
        | succ n => exact absurd h (by simp [jumps])
        | zero =>
          simp only [jumps, Bool.not_true, Prog.branch.injEq, true_and, if_true, Prog.ret.injEq] at h
          show Prog.branch (!m1.z) (if m1.z = true then _ else _) = _
          rw [hz, h]
          rfl

end Ascon.Asm

namespace Ascon.Arm.Low6m

open Ascon.C Ascon.Spec Ascon.Asm Ascon.Gen

theorem bind_jumps' {α β : Type} (n : Nat) (a : α) {f : α → Prog β} {b : β} (h : f a = .ret b) :
    (jumps n a >>= f) = jumps n b := by
  induction n with
  | zero => exact congrArg (Prog.branch false) h
  | succ n ih => exact congrArg (Prog.branch true) ih

theorem check_body : checkBlock 2 (fun i => i) csOpt (extraLoop r1) (fun _ => none) body.dropLast.dropLast idσ
    (fun t => symEq (t.r.getD r1 []) cReg) = true := by decide +kernel

theorem prologue_run (m : M 32) (hs : m.stk = []) : ∃ m1, exec (fun _ => none) prologue m = some m1 ∧
    m1.stk = [m.r r8, m.r r9, m.r r10, m.r fp, m.r r4, m.r r5, m.r r6, m.r r7, m.r lr] ∧
    m1.r 0 = m.r 20 ∧ m1.r 1 = m.r 21 ∧ m1.r 2 = m.r 22 ∧ m1.r 3 = m.r 23 ∧ m1.r 4 = m.r 24 ∧
    m1.r 5 = m.r 25 ∧ m1.r 6 = m.r 26 ∧ m1.r 7 = m.r 27 ∧ m1.r 8 = m.r 28 ∧ m1.r 9 = m.r 29 ∧
    m1.r r1 = ((m.r r1 + 3) <<< 4) ||| (12 - m.r r1) := by
  obtain ⟨r, stk, z⟩ := m
  simp only at hs
  subst hs
  exact ⟨_, rfl, rfl, rfl, rfl, rfl, rfl, rfl, rfl, rfl, rfl, rfl, rfl, rfl⟩

theorem epilogue_run (m : M 32) (v8 v9 v10 v11 v4 v5 v6 v7 vlr : BitVec 32)
    (hs : m.stk = [v8, v9, v10, v11, v4, v5, v6, v7, vlr]) : ∃ m1, exec (fun _ => none) epilogue m = some m1 ∧
    m1.stk = [] ∧
    (m1.r r4 = v4 ∧ m1.r r5 = v5 ∧ m1.r r6 = v6 ∧ m1.r r7 = v7 ∧ m1.r r8 = v8 ∧ m1.r r9 = v9 ∧ m1.r r10 = v10 ∧ m1.r fp = v11 ∧
      m1.r lr = vlr) ∧
    ∀ i, i < 10 → m1.r (20 + i) = m.r i := by
  obtain ⟨r, stk, z⟩ := m
  simp only at hs
  subst hs
  refine ⟨_, rfl, rfl, ⟨rfl, rfl, rfl, rfl, rfl, rfl, rfl, rfl, rfl⟩, ?_⟩
  intro i hi
  have : i = 0 ∨ i = 1 ∨ i = 2 ∨ i = 3 ∨ i = 4 ∨ i = 5 ∨ i = 6 ∨ i = 7 ∨ i = 8 ∨ i = 9 := by omega
  rcases this with rfl | rfl | rfl | rfl | rfl | rfl | rfl | rfl | rfl | rfl <;> rfl

/-- The registers a function must preserve (r4 … r11) and the return address. -/
def calleeSaved : List Nat := [r4, r5, r6, r7, r8, r9, r10, fp, lr]

theorem call_eq (e : Endian) (nr : Nat) (h0 : 0 < nr) (hn : nr ≤ 12) (regs : Nat → BitVec 32) (s : State) :
    ∃ m, call e nr regs s = jumps (nr - 1) (cells e m, m) ∧
      LoadedAt 2 [0, 1, 2, 3, 4] (fun w => w) (perm nr (swapE e s)) (⟨fun i => m.r (20 + i), [], false⟩ : M 32) ∧
      m.stk = [] ∧ ∀ i ∈ calleeSaved, m.r i = regs i := by
  obtain ⟨m1, p1, p2, q0, q1, q2, q3, q4, q5, q6, q7, q8, q9, qc⟩ := prologue_run (entry e nr regs s) rfl
  have hcell : ∀ i, i < 10 → (entry e nr regs s).r (20 + i) = (loadRegs .little (swapE e s) fun _ => 0).r i := fun i hi => by
    show (if 20 ≤ 20 + i ∧ 20 + i < 30 then _ else _) = _
    rw [if_pos (by omega), loadRegs_swapE, show 20 + i - 20 = i by omega]
  have hreg : ∀ i, i < 10 → m1.r i = (loadRegs .little (swapE e s) fun _ => 0).r i := by
    intro i hi
    rw [← hcell i hi]
    have : i = 0 ∨ i = 1 ∨ i = 2 ∨ i = 3 ∨ i = 4 ∨ i = 5 ∨ i = 6 ∨ i = 7 ∨ i = 8 ∨ i = 9 := by omega
    rcases this with rfl | rfl | rfl | rfl | rfl | rfl | rfl | rfl | rfl | rfl <;> assumption
  have hc : m1.r r1 = BitVec.ofNat 32 (60 + 15 * nr) := by
    rw [qc]
    have : ∀ n : Fin 13, ((BitVec.ofNat 32 n.val + 3) <<< 4) ||| (12 - BitVec.ofNat 32 n.val) =
      BitVec.ofNat 32 (60 + 15 * n.val) := by decide
    exact this ⟨nr, by omega⟩
  obtain ⟨n, rfl⟩ : ∃ k, nr = k + 1 := ⟨nr - 1, by omega⟩
  have hI : InvOpt r1 (n + 1) (swapE e s) ⟨m1.r, [], m1.z⟩ := by
    refine ⟨?_, rfl, hc⟩
    intro k h hk hh
    have := loaded_loadRegs (fun w => w) (swapE e s) (fun _ => 0) k h hk hh
    rw [← this]
    exact hreg _ (by omega)
  obtain ⟨m2, d1, d2⟩ := doWhile_rounds (optLoop_step (by decide) check_body) n (by omega) (swapE e s) _ hI 16 (by omega)
  have d1' := doWhile_under m1.stk d1
  have hm1 : M.under ⟨m1.r, [], m1.z⟩ m1.stk = m1 := by cases m1; rfl
  rw [hm1] at d1'
  have hstk : (m2.under m1.stk).stk = m1.stk := by simp [M.under, d2.stk]
  obtain ⟨m3, e1, e2, ⟨f4, f5, f6, f7, f8, f9, f10, f11, flr⟩, e3⟩ := epilogue_run (m2.under m1.stk) _ _ _ _ _ _ _ _ _
    (hstk.trans p2)
  refine ⟨m3, ?_, ?_, e2, ?_⟩
  · unfold call
    rw [p1]
    simp only
    have hbody : body = body.dropLast.dropLast ++ [.sub r1 (.reg r1) (.imm 15), .cmp (.reg r1) (.imm 60)] := by rfl
    rw [hbody, d1', Nat.add_sub_cancel]
    refine bind_jumps' _ _ ?_
    rw [e1]; rfl
  · intro k h hk hh
    have := at_of_loaded d2.loaded k h hk hh
    rw [← this]
    exact e3 _ (by
      have hk' : k = 0 ∨ k = 1 ∨ k = 2 ∨ k = 3 ∨ k = 4 := by omega
      rcases hk' with rfl | rfl | rfl | rfl | rfl <;> simp <;> omega)
  · intro i hi
    simp only [calleeSaved, List.mem_cons, List.not_mem_nil, or_false] at hi
    rcases hi with rfl | rfl | rfl | rfl | rfl | rfl | rfl | rfl | rfl <;> assumption

theorem P_eq (e : Endian) (nr : Nat) (h0 : 0 < nr) (hn : nr ≤ 12) (s : State) :
    ∃ t, armv6m_lowsize_P nr e s = jumps (nr - 1) t := by
  obtain ⟨m, h1, -⟩ := call_eq e nr h0 hn (fun _ => 0) s
  exact ⟨cells e m, by unfold armv6m_lowsize_P; rw [h1]; exact bind_jumps' _ _ rfl⟩

theorem P_ok (nr : Nat) (h0 : 0 < nr) (hn : nr ≤ 12) : PermOk (fun w => w) nr (armv6m_lowsize_P nr .little) := by
  intro s mem
  obtain ⟨m, h1, h2, -⟩ := call_eq .little nr h0 hn (fun _ => 0) s
  unfold armv6m_lowsize_P
  have : (call .little nr (fun _ => 0) (encS (fun w => w) s) >>= fun q => pure q.1) = jumps (nr - 1) (cells .little m) := by
    rw [encS_id, h1]; exact bind_jumps' _ _ rfl
  rw [this, run_jumps]
  unfold cells
  rw [storeRegs_id h2]
  rfl

theorem P_ct (e : Endian) (nr : Nat) (h0 : 0 < nr) (hn : nr ≤ 12) : PermCT (armv6m_lowsize_P nr e) := by
  intro s t
  obtain ⟨a, ha⟩ := P_eq e nr h0 hn s
  obtain ⟨b, hb⟩ := P_eq e nr h0 hn t
  rw [ha, hb]
  exact sim_jumps _ _ _

end Ascon.Arm.Low6m

namespace Ascon.Arm
open Ascon.C Ascon.Spec Ascon.Asm Ascon.Gen

theorem armv6m_lowsize_ok : armv6m_lowsize.Ok .little (fun w => w) :=
  optBackend_ok (Low6m.P_ok 12 (by omega) (by omega)) (Low6m.P_ok 8 (by omega) (by omega))
theorem armv6m_lowsize_ct (e : Endian) : armv6m_lowsize.CT e :=
  optBackend_ct (Low6m.P_ct e 12 (by omega) (by omega)) (Low6m.P_ct e 8 (by omega) (by omega))

end Ascon.Arm
