import Verif.Proof.AvrRound
import Verif.Proof.Opt8Perm
import Verif.Proof.Opt8CT
/-!
# The AVR function `P`: result, calling convention, recorded tests
-/

namespace Ascon.Avr

open Ascon.C Ascon.Spec
open Ascon.Asm (Poly Sym eval pvar inSym outSym roundSym symEq symEq_eq assign testBit_assign testBit_assign_c chunk
  word rel_inSym rel_outSym rel_roundSym rel_full_eq length_roundSym constLeft perm_succ)
open Ascon.Arm (idPerm constLeft_eq)

attribute [local irreducible] perm

/-! ## Entry and exit -/

theorem prologue_run (base : BitVec 16) (m : M) (hs : m.stk = []) : ∃ m1, exec base (PROLOGUE ++ INITVARS) m = some m1 ∧
    m1.stk = [m.r 17, m.r 16, m.r 15, m.r 14, m.r 13, m.r 12, m.r 11, m.r 10, m.r 9, m.r 8, m.r 7, m.r 6, m.r 5, m.r 4,
      m.r 3, m.r 2, m.r 0] ∧
    m1.r 0 = 0x3c ∧ m1.r 1 = 0 ∧ m1.r 27 = (m.r 22 <<< 4 ||| m.r 22 >>> 4) - m.r 22 + 0x3c ∧ m1.z = m.r 25 ++ m.r 24 ∧
    m1.r 28 = m.r 28 ∧ m1.r 29 = m.r 29 ∧ m1.cell = m.cell := by
  obtain ⟨r, c, t, cell, stk⟩ := m
  simp only at hs
  subst hs
  exact ⟨_, rfl, rfl, rfl, rfl, rfl, rfl, rfl, rfl, rfl⟩

theorem epilogue_run (base : BitVec 16) (m : M) (v0 v2 v3 v4 v5 v6 v7 v8 v9 v10 v11 v12 v13 v14 v15 v16 v17 : Byte)
    (hs : m.stk = [v17, v16, v15, v14, v13, v12, v11, v10, v9, v8, v7, v6, v5, v4, v3, v2, v0]) :
    ∃ m1, exec base EPILOGUE m = some m1 ∧ m1.stk = [] ∧ m1.cell = m.cell ∧
      (m1.r 0 = v0 ∧ m1.r 2 = v2 ∧ m1.r 3 = v3 ∧ m1.r 4 = v4 ∧ m1.r 5 = v5 ∧ m1.r 6 = v6 ∧ m1.r 7 = v7 ∧ m1.r 8 = v8 ∧
       m1.r 9 = v9 ∧ m1.r 10 = v10 ∧ m1.r 11 = v11 ∧ m1.r 12 = v12 ∧ m1.r 13 = v13 ∧ m1.r 14 = v14 ∧ m1.r 15 = v15 ∧
       m1.r 16 = v16 ∧ m1.r 17 = v17) ∧
      m1.r 1 = m.r 1 ∧ m1.r 28 = m.r 28 ∧ m1.r 29 = m.r 29 := by
  obtain ⟨r, c, t, cell, stk⟩ := m
  simp only at hs
  subst hs
  exact ⟨_, rfl, rfl, rfl, ⟨rfl, rfl, rfl, rfl, rfl, rfl, rfl, rfl, rfl, rfl, rfl, rfl, rfl, rfl, rfl, rfl, rfl⟩,
    rfl, rfl, rfl⟩

theorem exec_seq {base : BitVec 16} {a b : List Instr} {m m1 m2 : M} (h : exec base a m = some m1)
    (h2 : exec base b m1 = some m2) : exec base (a ++ b) m = some m2 := by
  rw [exec_append, h]; exact h2

/-- All cells known. -/
def initLd : SM where
  r := []
  c := none
  t := none
  cell := (List.range 40).map fun i => inSym 8 (fun i => i) (i / 8) (i % 8)
  off := 0

/-- Word 2 in registers, the other words in cells. -/
def initSt : SM where
  r := (List.range 26).map fun i => if 18 ≤ i then inSym 8 (fun i => i) 2 (i - 18) else []
  c := none
  t := none
  cell := (List.range 40).map initCell
  off := 0

def checkLd : Bool :=
  match symExec (OLDZO (OR 2) (OF 16)) initLd with
  | none => false
  | some t => Nat.beq t.off 0 &&
    (List.range 8).all (fun h => symEq (t.r.getD (18 + h) []) (inSym 8 (fun i => i) 2 h)) &&
    (List.range 40).all (fun h => symEq (t.cell.getD h []) (inSym 8 (fun i => i) (h / 8) (h % 8)))

theorem checkLd_true : checkLd = true := by decide +kernel

def checkSt : Bool :=
  match symExec (OSTZO (OR 2) (OF 16)) initSt with
  | none => false
  | some t => (List.range 40).all (fun h => symEq (t.cell.getD h []) (inSym 8 (fun i => i) (h / 8) (h % 8)))

theorem checkSt_true : checkSt = true := by decide +kernel

theorem load_run {base : BitVec 16} {m : M} (s : State) (hz : m.z = base)
    (hc : ∀ k h, k < 5 → h < 8 → m.cell (8 * k + h) = chunk 8 h (word s k)) :
    ∃ m', exec base (OLDZO (OR 2) (OF 16)) m = some m' ∧ m'.z = base ∧ m'.stk = m.stk ∧
      (∀ k h, k < 5 → h < 8 → m'.cell (8 * k + h) = chunk 8 h (word s k)) ∧
      (∀ h, h < 8 → m'.r (18 + h) = chunk 8 h s.x2) := by
  have hk := checkLd_true
  unfold checkLd at hk
  cases he : symExec (OLDZO (OR 2) (OF 16)) initLd with
  | none => rw [he] at hk; exact absurd hk (by simp)
  | some t =>
    rw [he] at hk
    simp only [Bool.and_eq_true, List.all_eq_true] at hk
    obtain ⟨⟨h0, h1⟩, h2⟩ := hk
    have hV := testBit_assign s 0
    have inr : ∀ k h, k < 5 → h < 8 → Asm.Rel (assign s 0) (inSym 8 (fun i => i) k h) (chunk 8 h (word s k)) :=
      fun k h hk hh => rel_inSym (q := 8) idPerm rfl hV hk hh
    have hr : SM.Rel (assign s 0) base initLd m := by
      refine ⟨fun i => Asm.Rel.nil _ _, by simp [initLd], by simp [initLd], ?_, by rw [hz]; simp [initLd]⟩
      intro j
      by_cases hj : j < 40
      · have e : initLd.cell.getD j [] = inSym 8 (fun i => i) (j / 8) (j % 8) := by
          simp [initLd, List.getD_eq_getElem?_getD, hj]
        have e2 := hc (j / 8) (j % 8) (by omega) (by omega)
        rw [Nat.div_add_mod] at e2
        rw [e, e2]
        exact inr _ _ (by omega) (by omega)
      · rw [List.getD_eq_getElem?_getD, List.getElem?_eq_none (by simp [initLd]; omega)]
        exact Asm.Rel.nil _ _
    obtain ⟨m', x, r, k⟩ := symExec_sound _ hr he
    refine ⟨m', x, ?_, k, ?_, ?_⟩
    · rw [r.z, Nat.eq_of_beq_eq_true h0]; simp
    · intro k h hk hh
      have := r.cell (8 * k + h)
      rw [symEq_eq (h2 (8 * k + h) (List.mem_range.mpr (by omega))), show (8 * k + h) / 8 = k by omega,
        show (8 * k + h) % 8 = h by omega] at this
      exact rel_full_eq this (inr k h hk hh) (by simp [inSym])
    · intro h hh
      have := r.r (18 + h)
      rw [symEq_eq (h1 h (List.mem_range.mpr hh))] at this
      exact rel_full_eq this (inr 2 h (by omega) hh) (by simp [inSym])

theorem store_run {base : BitVec 16} {m : M} (s : State) (hz : m.z = base)
    (hc : ∀ k h, k < 5 → k ≠ 2 → h < 8 → m.cell (8 * k + h) = chunk 8 h (word s k))
    (hx : ∀ h, h < 8 → m.r (18 + h) = chunk 8 h s.x2) :
    ∃ m', exec base (OSTZO (OR 2) (OF 16)) m = some m' ∧ m'.stk = m.stk ∧
      (∀ k h, k < 5 → h < 8 → m'.cell (8 * k + h) = chunk 8 h (word s k)) := by
  have hk := checkSt_true
  unfold checkSt at hk
  cases he : symExec (OSTZO (OR 2) (OF 16)) initSt with
  | none => rw [he] at hk; exact absurd hk (by simp)
  | some t =>
    rw [he] at hk
    simp only [List.all_eq_true] at hk
    have hV := testBit_assign s 0
    have inr : ∀ k h, k < 5 → h < 8 → Asm.Rel (assign s 0) (inSym 8 (fun i => i) k h) (chunk 8 h (word s k)) :=
      fun k h hk hh => rel_inSym (q := 8) idPerm rfl hV hk hh
    have hr : SM.Rel (assign s 0) base initSt m := by
      refine ⟨?_, by simp [initSt], by simp [initSt], ?_, by rw [hz]; simp [initSt]⟩
      · intro j
        by_cases hj : j < 26
        · have e : initSt.r.getD j [] = if 18 ≤ j then inSym 8 (fun i => i) 2 (j - 18) else [] := by
            simp [initSt, List.getD_eq_getElem?_getD, hj]
          rw [e]
          split
          · have e2 := hx (j - 18) (by omega)
            rw [show 18 + (j - 18) = j by omega] at e2
            rw [e2]
            exact inr 2 _ (by omega) (by omega)
          · exact Asm.Rel.nil _ _
        · rw [List.getD_eq_getElem?_getD, List.getElem?_eq_none (by simp [initSt]; omega)]
          exact Asm.Rel.nil _ _
      · intro j
        by_cases hj : j < 40
        · have e : initSt.cell.getD j [] = initCell j := by
            simp [initSt, List.getD_eq_getElem?_getD, hj]
          rw [e]
          unfold initCell
          split
          · exact Asm.Rel.nil _ _
          · have e2 := hc (j / 8) (j % 8) (by omega) (by omega) (by omega)
            rw [Nat.div_add_mod] at e2
            rw [e2]
            exact inr _ _ (by omega) (by omega)
        · rw [List.getD_eq_getElem?_getD, List.getElem?_eq_none (by simp [initSt]; omega)]
          exact Asm.Rel.nil _ _
    obtain ⟨m', x, r, k⟩ := symExec_sound _ hr he
    refine ⟨m', x, k, ?_⟩
    intro k h hk' hh
    have := r.cell (8 * k + h)
    rw [symEq_eq (hk (8 * k + h) (List.mem_range.mpr (by omega))), show (8 * k + h) / 8 = k by omega,
      show (8 * k + h) % 8 = h by omega] at this
    exact rel_full_eq this (inr k h hk' hh) (by simp [inSym])

/-- The state whose words have the same bytes on a little-endian machine. -/
def lit (e : Endian) (s : State) : State :=
  ⟨value64 .little (repr64 e s.x0), value64 .little (repr64 e s.x1), value64 .little (repr64 e s.x2),
   value64 .little (repr64 e s.x3), value64 .little (repr64 e s.x4)⟩

theorem lit_little (s : State) : lit .little s = s := by
  simp [lit, value64, repr64, le64_bytes64]

theorem chunk_lit (e : Endian) (w : Word) (h : Nat) (hh : h < 8) :
    chunk 8 h (value64 .little (repr64 e w)) = Opt8.byteOf e w h := by
  have : repr64 .little (value64 .little (repr64 e w)) = repr64 e w := by
    exact bytes64_le64 _ (by cases e <;> simp [repr64, length_bytes64])
  have e2 := Opt8.byteOf_little (value64 .little (repr64 e w)) h hh
  rw [Opt8.byteOf, this] at e2
  exact e2.symm

/-- The registers a function must preserve. -/
def calleeSaved : List Nat := [2, 3, 4, 5, 6, 7, 8, 9, 10, 11, 12, 13, 14, 15, 16, 17, 28, 29]

theorem call_eq (e : Endian) (base : BitVec 16) (nr : Nat) (h0 : 0 < nr) (hn : nr ≤ 12) (regs : Nat → Byte) (c t : Bool)
    (s : State) :
    ∃ m, call e base nr regs c t s = tests (roundTests (nr - 1)) (cells e m, m) ∧
      (∀ k h, k < 5 → h < 8 → m.cell (8 * k + h) = chunk 8 h (word (perm nr (lit e s)) k)) ∧
      m.stk = [] ∧ m.r 1 = 0 ∧ ∀ i ∈ calleeSaved, m.r i = regs i := by
  obtain ⟨m1, x1, stk1, r0, r1, con, z1, r28, r29, cell1⟩ := prologue_run base (entry e base nr regs c t s) rfl
  have hz : m1.z = base := by
    rw [z1]
    show ((base >>> 8).setWidth 8 : Byte) ++ (base.setWidth 8 : Byte) = base
    apply BitVec.eq_of_getLsbD_eq
    intro i hi
    rw [BitVec.getLsbD_append]
    by_cases h : i < 8
    · simp [h]
    · simp only [h, if_false, BitVec.getLsbD_setWidth, BitVec.getLsbD_ushiftRight]
      rw [show 8 + (i - 8) = i by omega, decide_eq_true (by omega : i - 8 < 8), Bool.true_and]
  have hcell : ∀ k h, k < 5 → h < 8 → m1.cell (8 * k + h) = chunk 8 h (word (lit e s) k) := by
    intro k h hk hh
    rw [cell1]
    show Opt8.byteOf e (Opt8.wordOf s ((8 * k + h) / 8)) ((8 * k + h) % 8) = _
    rw [show (8 * k + h) / 8 = k by omega, show (8 * k + h) % 8 = h by omega]
    have hk' : k = 0 ∨ k = 1 ∨ k = 2 ∨ k = 3 ∨ k = 4 := by omega
    rcases hk' with rfl | rfl | rfl | rfl | rfl <;> exact (chunk_lit e _ h hh).symm
  obtain ⟨m2, x2, z2, stk2, cell2, x22⟩ := load_run (lit e s) hz hcell
  obtain ⟨n, rfl⟩ : ∃ k, nr = k + 1 := ⟨nr - 1, by omega⟩
  have con' : m1.r 27 = BitVec.ofNat 8 (60 + 15 * (n + 1)) := by
    rw [con]
    show ((BitVec.ofNat 8 (n + 1)) <<< 4 ||| (BitVec.ofNat 8 (n + 1)) >>> 4) - BitVec.ofNat 8 (n + 1) + 0x3c = _
    have : ∀ n : Fin 12, ((BitVec.ofNat 8 (n.val + 1)) <<< 4 ||| (BitVec.ofNat 8 (n.val + 1)) >>> 4) -
      BitVec.ofNat 8 (n.val + 1) + 0x3c = BitVec.ofNat 8 (60 + 15 * (n.val + 1)) := by decide
    exact this ⟨n, by omega⟩
  have kp : ∀ i, keeps i (OLDZO (OR 2) (OF 16)) = true → m2.r i = m1.r i := fun i hi => exec_keeps hi x2
  have hI : Inv base m1.stk (regs 28) (regs 29) (n + 1) (lit e s) m2 :=
    ⟨fun k h hk _ hh => cell2 k h hk hh, x22, (kp 1 (by decide)).trans r1, (kp 0 (by decide)).trans r0,
      (kp 27 (by decide)).trans con', z2, stk2, (kp 28 (by decide)).trans r28, (kp 29 (by decide)).trans r29⟩
  obtain ⟨m3, u3, i3⟩ := rounds n (by omega) (lit e s) m2 hI 256 (by omega)
  obtain ⟨m4, x4, stk4, cell4⟩ := store_run _ i3.z i3.cell i3.x2
  obtain ⟨m5, x5, stk5, cell5, rs, s1, s28, s29⟩ := epilogue_run base m4 _ _ _ _ _ _ _ _ _ _ _ _ _ _ _ _ _
    ((stk4.trans i3.stk).trans stk1)
  have kq : ∀ i, keeps i (OSTZO (OR 2) (OF 16)) = true → m4.r i = m3.r i := fun i hi => exec_keeps hi x4
  refine ⟨m5, ?_, ?_, stk5, ?_, ?_⟩
  · unfold call P
    have b1 : block base (PROLOGUE ++ INITVARS ++ OLDZO (OR 2) (OF 16)) (entry e base (n + 1) regs c t s) = tests [] m2 := by
      exact block_some (exec_seq x1 x2)
    have b3 : block base (OSTZO (OR 2) (OF 16) ++ EPILOGUE) m3 = tests [] m5 := by
      exact block_some (exec_seq x4 x5)
    rw [b1]
    have : (do
        let m ← tests [] m2
        let m ← untilEq (roundBody base) rcon rstop 256 m
        block base (OSTZO (OR 2) (OF 16) ++ EPILOGUE) m) = tests (roundTests n ++ []) m5 := by
      refine bind_tests [] _ m2 ?_
      rw [u3]
      exact bind_tests _ _ m3 b3
    rw [this, Nat.add_sub_cancel, List.append_nil]
    have b := bind_tests (roundTests n) [] m5 (f := fun m => (pure (cells e m, m) : Prog (State × M))) rfl
    rw [List.append_nil] at b
    exact b
  · intro k h hk hh
    rw [cell5]; exact cell4 k h hk hh
  · rw [s1, kq 1 (by decide), i3.r1]
  · obtain ⟨-, e2, e3, e4, e5, e6, e7, e8, e9, e10, e11, e12, e13, e14, e15, e16, e17⟩ := rs
    intro i hi
    simp only [calleeSaved, List.mem_cons, List.not_mem_nil, or_false] at hi
    rcases hi with rfl | rfl | rfl | rfl | rfl | rfl | rfl | rfl | rfl | rfl | rfl | rfl | rfl | rfl | rfl | rfl | rfl | rfl
    · exact e2
    · exact e3
    · exact e4
    · exact e5
    · exact e6
    · exact e7
    · exact e8
    · exact e9
    · exact e10
    · exact e11
    · exact e12
    · exact e13
    · exact e14
    · exact e15
    · exact e16
    · exact e17
    · rw [s28, kq 28 (by decide), i3.r28]
    · rw [s29, kq 29 (by decide), i3.r29]

theorem cells_little {m : M} {s : State} (h : ∀ k h, k < 5 → h < 8 → m.cell (8 * k + h) = chunk 8 h (word s k)) :
    cells .little m = s := by
  have w : ∀ k, k < 5 → value64 .little ((List.range 8).map fun j => m.cell (8 * k + j)) = word s k := by
    intro k hk
    have : ((List.range 8).map fun j => m.cell (8 * k + j)) = bytes64 (word s k) := by
      rw [bytes64]
      refine List.map_congr_left fun j hj => ?_
      exact h k j hk (List.mem_range.mp hj)
    rw [this]
    exact le64_bytes64 _
  unfold cells
  simp only
  rw [w 0 (by omega), w 1 (by omega), w 2 (by omega), w 3 (by omega), w 4 (by omega)]
  rfl

theorem run_P (nr : Nat) (h0 : 0 < nr) (hn : nr ≤ 12) (s : State) (mem : Mem) :
    run (avr_P nr .little s) mem = some (perm nr s, mem) := by
  obtain ⟨m, h1, h2, -⟩ := call_eq .little 0x100 nr h0 hn (fun _ => 0) false false s
  unfold avr_P
  rw [h1]
  rw [lit_little] at h2
  rw [cells_little h2]
  have := bind_tests (roundTests (nr - 1)) [] (perm nr s, m) (f := fun q => (pure q.1 : Prog State)) rfl
  rw [this, run_tests]

theorem sim_P (e : Endian) (nr : Nat) (h0 : 0 < nr) (hn : nr ≤ 12) (s s' : State) :
    Sim Any (avr_P nr e s) (avr_P nr e s') := by
  obtain ⟨m, h1, -⟩ := call_eq e 0x100 nr h0 hn (fun _ => 0) false false s
  obtain ⟨m', h1', -⟩ := call_eq e 0x100 nr h0 hn (fun _ => 0) false false s'
  unfold avr_P
  rw [h1, h1', bind_tests (roundTests (nr - 1)) [] (cells e m, m) (f := fun q => (pure q.1 : Prog State)) rfl,
    bind_tests (roundTests (nr - 1)) [] (cells e m', m') (f := fun q => (pure q.1 : Prog State)) rfl]
  exact sim_tests _ _ _

theorem perms_ok : perms.Ok := ⟨run_P 12 (by omega) (by omega), run_P 8 (by omega) (by omega)⟩

theorem perms_ct (e : Endian) : perms.CT e := ⟨sim_P e 12 (by omega) (by omega), sim_P e 8 (by omega) (by omega)⟩

end Ascon.Avr
