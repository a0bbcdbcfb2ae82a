import Verif.Proof.AvrSym
import Verif.Proof.ArmPerm

/-!
# The AVR permutation is the permutation of the standard
-/

namespace Ascon.Avr

open Ascon.C Ascon.Spec
open Ascon.Asm (Poly Sym eval pvar inSym outSym roundSym symEq symEq_eq assign testBit_assign testBit_assign_c chunk
  word rel_inSym rel_outSym rel_roundSym rel_full_eq length_roundSym constLeft perm_succ)
open Ascon.Arm (idPerm constLeft_eq)

/-! ## The round, symbolically -/

/-- The constant: 8 variables, the other bits are 0. -/
def cs8 : Sym := (List.range 8).map (fun j => pvar (320 + j)) ++ List.replicate 56 []
def cReg8 : Sym := (List.range 8).map (fun j => pvar (320 + j))

def initR (i : Nat) : Sym :=
  if i = 1 then List.replicate 8 []
  else if 18 ≤ i ∧ i < 26 then inSym 8 (fun i => i) 2 (i - 18)
  else if i = 27 then cReg8
  else []

def initCell (i : Nat) : Sym :=
  if 16 ≤ i ∧ i < 24 then [] else inSym 8 (fun i => i) (i / 8) (i % 8)

def init : SM where
  r := (List.range 32).map initR
  c := none
  t := none
  cell := (List.range 40).map initCell
  off := 0

def checkCells (x : Sym) (t : SM) (k : Nat) : Bool :=
  (List.range 8).all fun h => symEq (t.cell.getD (8 * k + h) []) (outSym 8 (fun i => i) x h)

def checkRegs (x : Sym) (t : SM) : Bool :=
  (List.range 8).all fun h => symEq (t.r.getD (18 + h) []) (outSym 8 (fun i => i) x h)

/-- The symbolic machines at the tests of the S-box loop and at the end of the round. -/
def run1 : Option (SM × SM × SM × SM × SM × SM) := do
  let s0 ← symExec (ADDRCON ++ [.ldi sstop 8, .add sstop 30]) init
  let s1 ← symExec sliceCode s0
  let s2 ← symExec sliceCode s1
  let s3 ← symExec sliceCode s2
  let s4 ← symExec sliceCode s3
  let s5 ← symExec (.sbiwZ 8 :: LINLAYER) s4
  pure (s0, s1, s2, s3, s4, s5)

def check : Bool :=
  match run1 with
  | none => false
  | some (s0, s1, s2, s3, s4, s5) =>
    (Nat.beq s0.off 0 && Nat.beq s1.off 2 && Nat.beq s2.off 4 && Nat.beq s3.off 6 && Nat.beq s4.off 8 && Nat.beq s5.off 0) &&
    (checkCells (roundSym cs8 0) s5 0 && checkCells (roundSym cs8 1) s5 1 && checkRegs (roundSym cs8 2) s5 &&
     checkCells (roundSym cs8 3) s5 3 && checkCells (roundSym cs8 4) s5 4)

theorem check_true : check = true := by decide +kernel

theorem rel_cs8 (s : State) (c : Word) (hc : c.toNat < 2 ^ 8) : Asm.Rel (assign s c) cs8 c := by
  constructor
  · decide
  · intro j hj
    have hj' : j < 64 := hj
    by_cases h : j < 8
    · simp only [cs8]
      rw [List.getElem_append_left (by simpa using h)]
      simp only [List.getElem_map, List.getElem_range]
      rw [Asm.eval_pvar, testBit_assign_c]
    · simp only [cs8]
      rw [List.getElem_append_right (by simpa using h)]
      simp only [List.getElem_replicate, eval]
      exact (Nat.testBit_lt_two_pow (Nat.lt_of_lt_of_le hc (Nat.pow_le_pow_right (by omega) (by omega)))).symm

theorem rel_cReg8 (s : State) (c : Word) : Asm.Rel (assign s c) cReg8 (c.setWidth 8 : Byte) := by
  constructor
  · decide
  · intro j hj
    have hj' : j < 8 := hj
    simp only [cReg8, List.getElem_map, List.getElem_range]
    rw [Asm.eval_pvar, testBit_assign_c]
    simp [hj']

/-! ## Registers that are not written -/

/-- The registers an instruction writes. -/
def writes : Instr → List Nat
  | .movw d _ => [d, d + 1]
  | .mov d _ | .ldi d _ | .clr d | .and d _ | .or d _ | .eor d _ | .com d | .lsl d | .rol d | .ror d | .adc d _
  | .add d _ | .sub d _ | .subi d _ | .swap d | .bld d _ | .ldd d _ | .pop d => [d]
  | .bst _ _ | .std _ _ | .push _ => []
  | .stzi _ | .sbiwZ _ => [30, 31]

/-- The code does not write register `i`. -/
def keeps (i : Nat) (code : List Instr) : Bool := code.all fun c => !(writes c).contains i

theorem M.set_r (m : M) (d : Nat) (v : Byte) (i : Nat) : (m.set d v).r i = if i = d then v else m.r i := rfl

theorem step_keeps {base : BitVec 16} {m m' : M} {i : Nat} (c : Instr) (hk : (writes c).contains i = false)
    (h : step base m c = some m') : m'.r i = m.r i := by
  cases c
  case ldd d q =>
    simp only [step, Option.map_eq_some_iff] at h
    obtain ⟨p, -, rfl⟩ := h
    simp only [writes, List.contains_cons, List.contains_nil, Bool.or_false, beq_eq_false_iff_ne] at hk
    exact if_neg hk
  case std q a =>
    simp only [step, Option.map_eq_some_iff] at h
    obtain ⟨p, -, rfl⟩ := h
    rfl
  case stzi a =>
    simp only [step, Option.map_eq_some_iff] at h
    obtain ⟨p, -, rfl⟩ := h
    simp only [writes, List.contains_cons, List.contains_nil, Bool.or_false, Bool.or_eq_false_iff,
      beq_eq_false_iff_ne] at hk
    exact (if_neg hk.2).trans (if_neg hk.1)
  case pop d =>
    simp only [step] at h
    split at h
    · exact absurd h (by simp)
    · injection h with h; subst h
      simp only [writes, List.contains_cons, List.contains_nil, Bool.or_false, beq_eq_false_iff_ne] at hk
      exact if_neg hk
  all_goals
    simp only [step, Option.some.injEq] at h
    subst h
    simp only [writes, List.contains_cons, List.contains_nil, Bool.or_false, Bool.or_eq_false_iff,
      beq_eq_false_iff_ne] at hk
    first
      | rfl
      | exact if_neg hk
      | exact (if_neg hk.2).trans (if_neg hk.1)

theorem exec_keeps {base : BitVec 16} {i : Nat} {code : List Instr} {m m' : M} (hk : keeps i code = true)
    (h : exec base code m = some m') : m'.r i = m.r i := by
  induction code generalizing m with
  | nil => simp only [exec, Option.some.injEq] at h; rw [h]
  | cons c cs ih =>
    simp only [keeps, List.all_cons, Bool.and_eq_true, Bool.not_eq_true'] at hk
    simp only [exec, Option.bind_eq_some_iff] at h
    obtain ⟨m1, h1, h2⟩ := h
    rw [ih hk.2 h2, step_keeps c hk.1 h1]

theorem exec_append (base : BitVec 16) (a b : List Instr) (m : M) :
    exec base (a ++ b) m = (exec base a m).bind (exec base b) := by
  induction a generalizing m with
  | nil => rfl
  | cons i a ih =>
    simp only [List.cons_append, exec]
    cases step base m i with
    | none => rfl
    | some m' => exact ih m'

theorem exec_tail {base : BitVec 16} {i : Instr} {is : List Instr} {m m1 m2 : M} (h : step base m i = some m1)
    (h2 : exec base (i :: is) m = some m2) : exec base is m1 = some m2 := by
  rw [exec, h] at h2; exact h2

theorem exec_snoc {base : BitVec 16} {i : Instr} {is : List Instr} {m m1 m2 : M} (h : exec base is m = some m1)
    (h2 : step base m1 i = some m2) : exec base (is ++ [i]) m = some m2 := by
  rw [exec_append, h]
  show exec base [i] m1 = some m2
  rw [exec, h2]; rfl

/-! ## Recorded tests -/

/-- A program that only records the outcomes `l` of tests. -/
def tests {α : Type} : List Bool → α → Prog α
  | [], a => .ret a
  | b :: l, a => .branch b (tests l a)

theorem bind_tests {α β : Type} (l l' : List Bool) (a : α) {f : α → Prog β} {b : β} (h : f a = tests l' b) :
    (tests l a >>= f) = tests (l ++ l') b := by
  induction l with
  | nil => exact h
  | cons c l ih => exact congrArg (Prog.branch c) ih

theorem run_tests {α : Type} (l : List Bool) (a : α) (mem : Mem) : run (tests l a) mem = some (a, mem) := by
  induction l with
  | nil => rfl
  | cons c l ih => exact ih

theorem sim_tests {α : Type} (l : List Bool) (a b : α) : Sim Any (tests l a) (tests l b) := by
  induction l with
  | nil => exact .ret trivial
  | cons c l ih => exact .branch ih

/-! ## One round -/

/-- `i` rounds are left. -/
structure Inv (base : BitVec 16) (stk : List Byte) (v28 v29 : Byte) (i : Nat) (s : State) (m : M) : Prop where
  cell : ∀ k h, k < 5 → k ≠ 2 → h < 8 → m.cell (8 * k + h) = chunk 8 h (word s k)
  x2 : ∀ h, h < 8 → m.r (18 + h) = chunk 8 h s.x2
  r1 : m.r 1 = 0
  r0 : m.r 0 = 0x3c
  con : m.r 27 = BitVec.ofNat 8 (60 + 15 * i)
  z : m.z = base
  stk : m.stk = stk
  r28 : m.r 28 = v28
  r29 : m.r 29 = v29

theorem init_rel {base : BitVec 16} {stk : List Byte} {v28 v29 : Byte} {i : Nat} {s : State} {m : M} (hi : i < 12)
    (h : Inv base stk v28 v29 (i + 1) s m) : SM.Rel (assign s (constLeft (i + 1))) base init m where
  r j := by
    by_cases hj : j < 32
    · rw [show init.r.getD j [] = initR j by simp [init, List.getD_eq_getElem?_getD, hj]]
      unfold initR
      split
      · rename_i h1
        subst h1
        rw [h.r1]
        exact Asm.Rel.sbits _ (0 : Byte)
      · split
        · rename_i h1
          have := rel_inSym (w := 8) (q := 8) idPerm rfl (testBit_assign s (constLeft (i + 1))) (k := 2) (h := j - 18) (by omega) (by omega)
          have e := h.x2 (j - 18) (by omega)
          rw [show 18 + (j - 18) = j by omega] at e
          rw [e]
          exact this
        · split
          · rename_i h1
            subst h1
            have := rel_cReg8 s (constLeft (i + 1))
            rwa [constLeft_eq i hi, BitVec.setWidth_ofNat_of_le (by omega), ← h.con, ← constLeft_eq i hi] at this
          · exact Asm.Rel.nil _ _
    · rw [List.getD_eq_getElem?_getD, List.getElem?_eq_none (by simp [init]; omega)]
      exact Asm.Rel.nil _ _
  c := by simp [init]
  t := by simp [init]
  cell j := by
    by_cases hj : j < 40
    · rw [show init.cell.getD j [] = initCell j by simp [init, List.getD_eq_getElem?_getD, hj]]
      unfold initCell
      split
      · exact Asm.Rel.nil _ _
      · rename_i h1
        have := rel_inSym (w := 8) (q := 8) idPerm rfl (testBit_assign s (constLeft (i + 1))) (k := j / 8) (h := j % 8) (by omega) (by omega)
        have e := h.cell (j / 8) (j % 8) (by omega) (by omega) (by omega)
        rw [Nat.div_add_mod] at e
        rw [e]
        exact this
    · rw [List.getD_eq_getElem?_getD, List.getElem?_eq_none (by simp [init]; omega)]
      exact Asm.Rel.nil _ _
  z := by
    rw [h.z]
    simp [init]

theorem block_some {base : BitVec 16} {code : List Instr} {m m' : M} (h : exec base code m = some m') :
    block base code m = tests [] m' := by
  unfold block; rw [h]; rfl

/-- The low byte of `Z`. -/
theorem r30_of_z {m : M} {base : BitVec 16} {n : Nat} (h : m.z = base + BitVec.ofNat 16 n) :
    m.r 30 = base.setWidth 8 + BitVec.ofNat 8 n := by
  have h1 : m.r 30 = m.z.setWidth 8 := by
    apply BitVec.eq_of_getLsbD_eq
    intro i hi
    simp only [M.z]
    rw [BitVec.getLsbD_setWidth, BitVec.getLsbD_append, if_pos hi]
    simp [hi]
  rw [h1, h]
  apply BitVec.eq_of_toNat_eq
  simp [BitVec.toNat_add]

theorem untilEq_more {body : M → Prog M} {a b f : Nat} {m m' : M} {l : List Bool} (h : body m = tests l m')
    (hne : m'.r a ≠ m'.r b) {l' : List Bool} {m2 : M} (h2 : untilEq body a b f m' = tests l' m2) :
    untilEq body a b (f + 1) m = tests (l ++ true :: l') m2 := by
  unfold untilEq
  rw [h]
  refine bind_tests l (true :: l') m' ?_
  have : (m'.r a != m'.r b) = true := by simpa using hne
  rw [this, if_neg hne, h2]
  rfl

theorem untilEq_last {body : M → Prog M} {a b f : Nat} {m m' : M} {l : List Bool} (h : body m = tests l m')
    (he : m'.r a = m'.r b) : untilEq body a b (f + 1) m = tests (l ++ [false]) m' := by
  unfold untilEq
  rw [h]
  refine bind_tests l [false] m' ?_
  have : (m'.r a != m'.r b) = false := by simpa using he
  rw [this, if_pos he]
  rfl

theorem checkCells_sound {x : Sym} {t : SM} {k h : Nat} (hc : checkCells x t k = true) (hh : h < 8) :
    t.cell.getD (8 * k + h) [] = outSym 8 (fun i => i) x h := by
  unfold checkCells at hc
  rw [List.all_eq_true] at hc
  exact symEq_eq (hc h (List.mem_range.mpr hh))

theorem checkRegs_sound {x : Sym} {t : SM} {h : Nat} (hc : checkRegs x t = true) (hh : h < 8) :
    t.r.getD (18 + h) [] = outSym 8 (fun i => i) x h := by
  unfold checkRegs at hc
  rw [List.all_eq_true] at hc
  exact symEq_eq (hc h (List.mem_range.mpr hh))

theorem round_step {base : BitVec 16} {stk : List Byte} {v28 v29 : Byte} (i : Nat) (s : State) (m : M) (hi : i < 12)
    (h : Inv base stk v28 v29 (i + 1) s m) :
    ∃ m', roundBody base m = tests [true, true, true, false] m' ∧
      Inv base stk v28 v29 i (round (constLeft (i + 1)) s) m' := by
  have hc := check_true
  unfold check at hc
  cases hr : run1 with
  | none => rw [hr] at hc; exact absurd hc (by simp)
  | some p =>
    obtain ⟨s0, s1, s2, s3, s4, s5⟩ := p
    rw [hr] at hc
    simp only [Bool.and_eq_true] at hc
    obtain ⟨⟨⟨⟨⟨⟨o0, o1⟩, o2⟩, o3⟩, o4⟩, o5⟩, ⟨⟨⟨w0, w1⟩, w2⟩, w3⟩, w4⟩ := hc
    unfold run1 at hr
    simp only [Option.bind_eq_bind, Option.bind_eq_some_iff, Option.pure_def, Option.some.injEq, Prod.mk.injEq] at hr
    obtain ⟨a0, e0, a1, e1, a2, e2, a3, e3, a4, e4, a5, e5, rfl, rfl, rfl, rfl, rfl, rfl⟩ := hr
    obtain ⟨m0, x0, r0, k0⟩ := symExec_sound _ (init_rel hi h) e0
    obtain ⟨m1, x1, r1, k1⟩ := symExec_sound _ r0 e1
    obtain ⟨m2, x2, r2, k2⟩ := symExec_sound _ r1 e2
    obtain ⟨m3, x3, r3, k3⟩ := symExec_sound _ r2 e3
    obtain ⟨m4, x4, r4, k4⟩ := symExec_sound _ r3 e4
    obtain ⟨m5, x5, r5, k5⟩ := symExec_sound _ r4 e5
    have z0 := r0.z; have z1 := r1.z; have z2 := r2.z; have z3 := r3.z; have z4 := r4.z; have z5 := r5.z
    rw [Nat.eq_of_beq_eq_true o0] at z0
    rw [Nat.eq_of_beq_eq_true o1] at z1
    rw [Nat.eq_of_beq_eq_true o2] at z2
    rw [Nat.eq_of_beq_eq_true o3] at z3
    rw [Nat.eq_of_beq_eq_true o4] at z4
    rw [Nat.eq_of_beq_eq_true o5] at z5
    -- the address of the end of the S-box loop
    rw [exec_append, Option.bind_eq_some_iff] at x0
    obtain ⟨ma, xa, xb⟩ := x0
    have ka : ma.r 30 = base.setWidth 8 := by
      rw [exec_keeps (i := 30) (by decide) xa]
      have := r30_of_z (n := 0) (m := m) (base := base) (by rw [h.z]; simp)
      rw [this]; simp
    have t0 : m0.r 26 = base.setWidth 8 + 8 := by
      have : m0.r 26 = 8 + ma.r 30 := by
        simp only [exec, step, Option.bind_some, Option.some.injEq] at xb
        rw [← xb]; rfl
      rw [this, ka, BitVec.add_comm]
    have t1 : m1.r 26 = base.setWidth 8 + 8 := by rw [exec_keeps (by decide +kernel) x1, t0]
    have t2 : m2.r 26 = base.setWidth 8 + 8 := by rw [exec_keeps (by decide +kernel) x2, t1]
    have t3 : m3.r 26 = base.setWidth 8 + 8 := by rw [exec_keeps (by decide +kernel) x3, t2]
    have t4 : m4.r 26 = base.setWidth 8 + 8 := by rw [exec_keeps (by decide +kernel) x4, t3]
    have ne : ∀ n : Nat, n < 8 → (base.setWidth 8 : Byte) + BitVec.ofNat 8 n ≠ base.setWidth 8 + 8 := by
      intro n hn he
      have := congrArg BitVec.toNat he
      simp [BitVec.toNat_add] at this
      omega
    have sb : SBOXLAYER base ma = tests [true, true, true, false] (m4.setZ (m4.z - 8) |> fun x => { x with c := decide (m4.z.toNat < 8) }) := by
      unfold SBOXLAYER
      rw [block_some xb]
      refine bind_tests [] _ m0 ?_
      have u : untilEq (block base sliceCode) 30 sstop 256 m0 = tests [true, true, true, false] m4 := by
        refine untilEq_more (l := []) (block_some x1) ?_ (untilEq_more (l := []) (block_some x2) ?_
          (untilEq_more (l := []) (block_some x3) ?_ (untilEq_last (l := []) (block_some x4) ?_)))
        · rw [r30_of_z z1, show sstop = 26 from rfl, t1]; exact ne 2 (by omega)
        · rw [r30_of_z z2, show sstop = 26 from rfl, t2]; exact ne 4 (by omega)
        · rw [r30_of_z z3, show sstop = 26 from rfl, t3]; exact ne 6 (by omega)
        · rw [r30_of_z z4, show sstop = 26 from rfl, t4]; rfl
      rw [u]
      exact bind_tests [true, true, true, false] [] m4 rfl
    have kp : ∀ i, keeps i ADDRCON = true → keeps i [.ldi sstop 8, .add sstop 30] = true → keeps i sliceCode = true →
        keeps i (.sbiwZ 8 :: LINLAYER) = true → m5.r i = m.r i := by
      intro i h1 h2 h3 h4
      rw [exec_keeps h4 x5, exec_keeps h3 x4, exec_keeps h3 x3, exec_keeps h3 x2, exec_keeps h3 x1, exec_keeps h2 xb,
        exec_keeps h1 xa]
    have hV := testBit_assign s (constLeft (i + 1))
    have hcl := constLeft_eq i hi
    have hlt : (constLeft (i + 1)).toNat < 2 ^ 8 := by
      rw [hcl, BitVec.toNat_ofNat, Nat.mod_eq_of_lt (by omega)]; omega
    have hcs := rel_cs8 s _ hlt
    have out : ∀ k h, k < 5 → h < 8 → Asm.Rel (assign s (constLeft (i + 1))) (outSym 8 (fun i => i) (roundSym cs8 k) h)
        (chunk 8 h (word (round (constLeft (i + 1)) s) k)) := fun k h hk hh =>
      rel_outSym (q := 8) idPerm rfl (rel_roundSym hk hV hcs (by decide)) (length_roundSym cs8 k) hh
    have cellOut : ∀ k h, k < 5 → h < 8 → checkCells (roundSym cs8 k) a5 k = true →
        m5.cell (8 * k + h) = chunk 8 h (word (round (constLeft (i + 1)) s) k) := by
      intro k h hk hh hcc
      have := r5.cell (8 * k + h)
      rw [checkCells_sound hcc hh] at this
      exact rel_full_eq this (out k h hk hh) (by simp [outSym])
    have lin : exec base (LINLAYER ++ [.subi rcon 15]) (m4.setZ (m4.z - 8) |> fun x => { x with c := decide (m4.z.toNat < 8) })
        = some { m5.set 27 (m5.r 27 - 15) with c := decide ((m5.r 27).toNat < (15 : Byte).toNat) } :=
      exec_snoc (exec_tail rfl x5) rfl
    refine ⟨{ m5.set 27 (m5.r 27 - 15) with c := decide ((m5.r 27).toNat < (15 : Byte).toNat) }, ?_, ?_⟩
    · unfold roundBody
      rw [block_some xa]
      refine bind_tests [] _ ma ?_
      rw [sb]
      refine bind_tests [true, true, true, false] [] _ ?_
      exact block_some lin
    · have stk5 : m5.stk = m.stk := by rw [k5, k4, k3, k2, k1, k0]
      refine ⟨?_, ?_, ?_, ?_, ?_, ?_, ?_, ?_, ?_⟩
      · intro k h hk hk2 hh
        show m5.cell (8 * k + h) = _
        have hk' : k = 0 ∨ k = 1 ∨ k = 3 ∨ k = 4 := by omega
        refine cellOut k h hk hh ?_
        rcases hk' with rfl | rfl | rfl | rfl
        · exact w0
        · exact w1
        · exact w3
        · exact w4
      · intro h hh
        show (if 18 + h = 27 then _ else m5.r (18 + h)) = _
        rw [if_neg (by omega)]
        have := r5.r (18 + h)
        rw [checkRegs_sound w2 hh] at this
        exact rel_full_eq this (out 2 h (by omega) hh) (by simp [outSym])
      · exact (kp 1 (by decide +kernel) (by decide +kernel) (by decide +kernel) (by decide +kernel)).trans h.r1
      · exact (kp 0 (by decide +kernel) (by decide +kernel) (by decide +kernel) (by decide +kernel)).trans h.r0
      · show m5.r 27 - 15 = _
        rw [kp 27 (by decide +kernel) (by decide +kernel) (by decide +kernel) (by decide +kernel), h.con]
        apply BitVec.eq_of_toNat_eq
        rw [BitVec.toNat_sub]; simp; omega
      · show m5.z = base
        rw [z5]; simp
      · exact stk5.trans h.stk
      · exact (kp 28 (by decide +kernel) (by decide +kernel) (by decide +kernel) (by decide +kernel)).trans h.r28
      · exact (kp 29 (by decide +kernel) (by decide +kernel) (by decide +kernel) (by decide +kernel)).trans h.r29

/-- The tests of `n + 1` rounds. -/
def roundTests : Nat → List Bool
  | 0 => [true, true, true, false, false]
  | n + 1 => [true, true, true, false, true] ++ roundTests n

theorem rounds {base : BitVec 16} {stk : List Byte} {v28 v29 : Byte} (n : Nat) (hn : n < 12) (s : State) (m : M)
    (h : Inv base stk v28 v29 (n + 1) s m) (f : Nat) (hf : n < f) :
    ∃ m', untilEq (roundBody base) rcon rstop f m = tests (roundTests n) m' ∧
      Inv base stk v28 v29 0 (perm (n + 1) s) m' := by
  induction n generalizing s m f with
  | zero =>
    obtain ⟨f, rfl⟩ : ∃ g, f = g + 1 := ⟨f - 1, by omega⟩
    obtain ⟨m', h1, h2⟩ := round_step 0 s m hn h
    refine ⟨m', ?_, ?_⟩
    · refine untilEq_last (l := [true, true, true, false]) h1 ?_
      exact h2.con.trans h2.r0.symm
    · rw [perm_succ 0 (by omega)]; exact h2
  | succ n ih =>
    obtain ⟨f, rfl⟩ : ∃ g, f = g + 1 := ⟨f - 1, by omega⟩
    obtain ⟨m1, h1, h2⟩ := round_step (n + 1) s m hn h
    obtain ⟨m', h3, h4⟩ := ih (by omega) _ m1 h2 f (by omega)
    refine ⟨m', ?_, ?_⟩
    · refine untilEq_more (l := [true, true, true, false]) h1 ?_ h3
      rw [show m1.r rcon = _ from h2.con, show m1.r rstop = _ from h2.r0]
      intro he
      have := congrArg BitVec.toNat he
      simp at this
      omega
    · rw [perm_succ (n + 1) (by omega)]; exact h4

end Ascon.Avr
