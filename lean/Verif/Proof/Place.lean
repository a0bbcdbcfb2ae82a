import Verif.C.Place
/-!
# Code over operand names and the same code on the chosen registers

`check` follows the code and keeps track of the operands that have a known value (input, or written before), of whether
the flag was set, and of the number of words pushed; it refuses code that reads an operand before it has a value, writes
something that is not an output operand, or pops more than it pushed.  For code it accepts, the
run on the machine is determined by the run over the names (`exec_place`).
-/

namespace Ascon.Asm

open Ascon.C

variable {w : Nat}

structure Known where
  regs : List Nat
  z : Bool
  depth : Nat

def Opnd.known (o : Operands) (D : List Nat) : Opnd w → Bool
  | .imm _ => true
  | .reg r => D.contains r || o.imm.contains r
  | .lsl r _ | .lsr r _ | .ror r _ => D.contains r

def Operands.canWrite (o : Operands) (d : Nat) : Bool := (o.inout ++ o.out).contains d && !o.imm.contains d

def Instr.check (o : Operands) (q : Known) : Instr w → Option Known
  | .bit _ d a b | .add d a b | .sub d a b =>
    if a.known o q.regs && b.known o q.regs && o.canWrite d then some ⟨d :: q.regs, q.z, q.depth⟩ else none
  | .mov d a | .mvn d a =>
    if a.known o q.regs && o.canWrite d then some ⟨d :: q.regs, q.z, q.depth⟩ else none
  | .rorReg d a m =>
    if q.regs.contains a && q.regs.contains m && o.canWrite d then some ⟨d :: q.regs, q.z, q.depth⟩ else none
  | .cmp a b =>
    if a.known o q.regs && b.known o q.regs then some ⟨q.regs, true, q.depth⟩ else none
  | .push r => if q.regs.contains r then some ⟨q.regs, q.z, q.depth + 1⟩ else none
  | .pop r => if o.canWrite r && q.depth != 0 then some ⟨r :: q.regs, q.z, q.depth - 1⟩ else none
  | .ldrb d a _ => if q.regs.contains a && o.canWrite d then some ⟨d :: q.regs, q.z, q.depth⟩ else none
  | .ldrbPost d a _ =>
    if q.regs.contains a && o.canWrite d && o.canWrite a then some ⟨a :: d :: q.regs, q.z, q.depth⟩ else none
  | .sri d a _ | .sli d a _ =>
    if q.regs.contains a && q.regs.contains d && o.canWrite d then some ⟨d :: q.regs, q.z, q.depth⟩ else none
  | .fsr d a b _ =>
    if q.regs.contains a && q.regs.contains b && o.canWrite d then some ⟨d :: q.regs, q.z, q.depth⟩ else none

def check (o : Operands) : Known → List (Instr w) → Option Known
  | q, [] => some q
  | q, i :: is => (i.check o q).bind fun q => check o q is

structure Sim (o : Operands) (ρ : Alloc) (val : Nat → BitVec w) (m0 : M w) (q : Known) (m m' : M w) : Prop where
  sub : ∀ i ∈ q.regs, i ∈ o.inout ++ o.out
  eq : ∀ i ∈ q.regs, m'.r (ρ i) = m.r i
  imm : ∀ i ∈ o.imm, m.r i = val i
  z : q.z = true → m'.z = m.z
  stk : m'.stk = m.stk ++ m0.stk
  depth : m.stk.length = q.depth
  other : ∀ j, (∀ i ∈ o.inout ++ o.out, ρ i ≠ j) → m'.r j = m0.r j

variable {o : Operands} {ρ : Alloc} {val : Nat → BitVec w} {m0 m m' : M w} {q : Known}

theorem Sim.get (h : Sim o ρ val m0 q m m') {a : Opnd w} (ha : a.known o q.regs = true) :
    (a.place o ρ val).get m' = a.get m := by
  cases a with
  | imm v => rfl
  | reg r =>
    show Opnd.get m' (if r ∈ o.imm then .imm (val r) else .reg (ρ r)) = m.r r
    by_cases hr : r ∈ o.imm
    · rw [if_pos hr, h.imm r hr]; rfl
    · rw [if_neg hr]
      have : r ∈ q.regs := by simpa [Opnd.known, hr] using ha
      exact h.eq r this
  | lsl r k => show m'.r (ρ r) <<< k = m.r r <<< k; rw [h.eq r (by simpa [Opnd.known] using ha)]
  | lsr r k => show m'.r (ρ r) >>> k = m.r r >>> k; rw [h.eq r (by simpa [Opnd.known] using ha)]
  | ror r k => show (m'.r (ρ r)).rotateRight k = (m.r r).rotateRight k; rw [h.eq r (by simpa [Opnd.known] using ha)]

theorem Sim.set (hv : o.Valid ρ) (h : Sim o ρ val m0 q m m') {d : Nat} (hd : o.canWrite d = true) (v : BitVec w) :
    Sim o ρ val m0 ⟨d :: q.regs, q.z, q.depth⟩ (m.set d v) (m'.set (ρ d) v) := by
  have hd : d ∈ o.inout ++ o.out ∧ d ∉ o.imm := by
    simpa [Operands.canWrite, -List.mem_append, List.contains_iff_mem] using hd
  refine ⟨?_, ?_, ?_, h.z, h.stk, h.depth, ?_⟩
  · intro i hi
    rcases List.mem_cons.mp hi with rfl | hi
    · exact hd.1
    · exact h.sub i hi
  · intro i hi
    show (if ρ i = ρ d then v else m'.r (ρ i)) = if i = d then v else m.r i
    by_cases e : i = d
    · rw [if_pos e, if_pos (by rw [e])]
    · have hi : i ∈ q.regs := (List.mem_cons.mp hi).resolve_left e
      rw [if_neg e, if_neg (fun e' => e (hv i (h.sub i hi) d hd.1 e')), h.eq i hi]
  · intro i hi
    show (if i = d then v else m.r i) = val i
    rw [if_neg (fun e : i = d => hd.2 (e ▸ hi)), h.imm i hi]
  · intro j hj
    show (if j = ρ d then v else m'.r j) = m0.r j
    rw [if_neg (fun e => hj d hd.1 e.symm), h.other j hj]

/-- Two runs both fault or end in related machines. -/
def Both (P : M w → M w → Prop) : Option (M w) → Option (M w) → Prop
  | some a, some b => P a b
  | none, none => True
  | _, _ => False

theorem step_place (hv : o.Valid ρ) (rom : Nat → Option Byte) (h : Sim o ρ val m0 q m m') (i : Instr w) {q' : Known}
    (hc : i.check o q = some q') :
    Both (Sim o ρ val m0 q') (step rom m i) (step rom m' (i.place o ρ val)) := by
  cases i with
  | bit op d a b =>
    simp only [Instr.check, Option.ite_none_right_eq_some, Bool.and_eq_true, Option.some.injEq] at hc
    obtain ⟨⟨⟨ha, hb⟩, hd⟩, rfl⟩ := hc
    simp only [Instr.place, step, h.get ha, h.get hb]
    exact h.set hv hd _
  | add d a b =>
    simp only [Instr.check, Option.ite_none_right_eq_some, Bool.and_eq_true, Option.some.injEq] at hc
    obtain ⟨⟨⟨ha, hb⟩, hd⟩, rfl⟩ := hc
    simp only [Instr.place, step, h.get ha, h.get hb]
    exact h.set hv hd _
  | sub d a b =>
    simp only [Instr.check, Option.ite_none_right_eq_some, Bool.and_eq_true, Option.some.injEq] at hc
    obtain ⟨⟨⟨ha, hb⟩, hd⟩, rfl⟩ := hc
    simp only [Instr.place, step, h.get ha, h.get hb]
    exact h.set hv hd _
  | mov d a =>
    simp only [Instr.check, Option.ite_none_right_eq_some, Bool.and_eq_true, Option.some.injEq] at hc
    obtain ⟨⟨ha, hd⟩, rfl⟩ := hc
    simp only [Instr.place, step, h.get ha]
    exact h.set hv hd _
  | mvn d a =>
    simp only [Instr.check, Option.ite_none_right_eq_some, Bool.and_eq_true, Option.some.injEq] at hc
    obtain ⟨⟨ha, hd⟩, rfl⟩ := hc
    simp only [Instr.place, step, h.get ha]
    exact h.set hv hd _
  | rorReg d a k =>
    simp only [Instr.check, Option.ite_none_right_eq_some, Bool.and_eq_true, Option.some.injEq, List.contains_iff_mem] at hc
    obtain ⟨⟨⟨ha, hb⟩, hd⟩, rfl⟩ := hc
    simp only [Instr.place, step, h.eq a ha, h.eq k hb]
    exact h.set hv hd _
  | cmp a b =>
    simp only [Instr.check, Option.ite_none_right_eq_some, Bool.and_eq_true, Option.some.injEq] at hc
    obtain ⟨⟨ha, hb⟩, rfl⟩ := hc
    simp only [Instr.place, step, h.get ha, h.get hb]
    exact ⟨h.sub, h.eq, h.imm, fun _ => rfl, h.stk, h.depth, h.other⟩
  | push r =>
    simp only [Instr.check, Option.ite_none_right_eq_some, Option.some.injEq, List.contains_iff_mem] at hc
    obtain ⟨ha, rfl⟩ := hc
    simp only [Instr.place, step, h.eq r ha]
    refine ⟨h.sub, h.eq, h.imm, h.z, ?_, ?_, h.other⟩
    · show m.r r :: m'.stk = m.r r :: m.stk ++ m0.stk
      rw [h.stk]; rfl
    · show m.stk.length + 1 = q.depth + 1
      rw [h.depth]
  | pop r =>
    simp only [Instr.check, Option.ite_none_right_eq_some, Bool.and_eq_true, Option.some.injEq, bne_iff_ne, ne_eq] at hc
    obtain ⟨⟨hr, hdep⟩, rfl⟩ := hc
    have h1 := h.depth
    have h2 := h.stk
    simp only [Instr.place, step]
    cases hs : m.stk with
    | nil => rw [hs] at h1; exact absurd h1.symm hdep
    | cons v t =>
      rw [hs] at h1 h2
      simp only [h2, List.cons_append]
      have : Sim o ρ val m0 ⟨q.regs, q.z, q.depth - 1⟩ { m with stk := t } { m' with stk := t ++ m0.stk } :=
        ⟨h.sub, h.eq, h.imm, h.z, rfl, by simp only [List.length_cons] at h1; show t.length = q.depth - 1; omega, h.other⟩
      exact this.set hv hr v
  | ldrb d a off =>
    simp only [Instr.check, Option.ite_none_right_eq_some, Bool.and_eq_true, Option.some.injEq, List.contains_iff_mem] at hc
    obtain ⟨⟨ha, hd⟩, rfl⟩ := hc
    simp only [Instr.place, step, h.eq a ha]
    cases rom ((m.r a).toNat + off) with
    | none => trivial
    | some b => exact h.set hv hd _
  | ldrbPost d a inc =>
    simp only [Instr.check, Option.ite_none_right_eq_some, Bool.and_eq_true, Option.some.injEq, List.contains_iff_mem] at hc
    obtain ⟨⟨⟨ha, hd⟩, hwa⟩, rfl⟩ := hc
    simp only [Instr.place, step, h.eq a ha]
    cases rom (m.r a).toNat with
    | none => trivial
    | some b => exact (h.set hv hd _).set hv hwa _
  | sri d a k =>
    simp only [Instr.check, Option.ite_none_right_eq_some, Bool.and_eq_true, Option.some.injEq, List.contains_iff_mem] at hc
    obtain ⟨⟨⟨ha, hb⟩, hd⟩, rfl⟩ := hc
    simp only [Instr.place, step, h.eq a ha, h.eq d hb]
    exact h.set hv hd _
  | sli d a k =>
    simp only [Instr.check, Option.ite_none_right_eq_some, Bool.and_eq_true, Option.some.injEq, List.contains_iff_mem] at hc
    obtain ⟨⟨⟨ha, hb⟩, hd⟩, rfl⟩ := hc
    simp only [Instr.place, step, h.eq a ha, h.eq d hb]
    exact h.set hv hd _
  | fsr d a b k =>
    simp only [Instr.check, Option.ite_none_right_eq_some, Bool.and_eq_true, Option.some.injEq, List.contains_iff_mem] at hc
    obtain ⟨⟨⟨ha, hb⟩, hd⟩, rfl⟩ := hc
    simp only [Instr.place, step, h.eq a ha, h.eq b hb]
    exact h.set hv hd _

theorem exec_place (hv : o.Valid ρ) (rom : Nat → Option Byte) (code : List (Instr w)) :
    ∀ {q q' : Known} {m m' : M w}, Sim o ρ val m0 q m m' → check o q code = some q' →
      Both (Sim o ρ val m0 q') (exec rom code m) (exec rom (code.map (Instr.place o ρ val)) m') := by
  induction code with
  | nil =>
    intro q q' m m' h hc
    simp only [check, Option.some.injEq] at hc
    exact hc ▸ h
  | cons i is ih =>
    intro q q' m m' h hc
    simp only [check, Option.bind_eq_some_iff] at hc
    obtain ⟨q1, h1, h2⟩ := hc
    have hs := step_place hv rom h i h1
    simp only [List.map_cons, exec]
    cases ha : step rom m i <;> cases hb : step rom m' (i.place o ρ val) <;> rw [ha, hb] at hs
    · trivial
    · exact hs.elim
    · exact hs.elim
    · exact ih hs h2

theorem mem_check {d : Nat} (code : List (Instr w)) : ∀ {q q' : Known}, check o q code = some q' →
    d ∈ q.regs → d ∈ q'.regs := by
  induction code with
  | nil => intro q q' hc h; simp only [check, Option.some.injEq] at hc; exact hc ▸ h
  | cons i is ih =>
    intro q q' hc h
    simp only [check, Option.bind_eq_some_iff] at hc
    obtain ⟨q1, h1, h2⟩ := hc
    refine ih h2 ?_
    cases i <;> simp only [Instr.check, Option.ite_none_right_eq_some, Option.some.injEq] at h1 <;>
      obtain ⟨_, rfl⟩ := h1 <;> simp [h]

end Ascon.Asm
