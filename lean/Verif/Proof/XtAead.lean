import Verif.Proof.XtFrame
import Verif.Proof.RvOld
/-!
# asm_esp32, AEAD: subroutines and `ascon_duplex`
-/

namespace Ascon.Xt

open Ascon.C Ascon.Spec Ascon.Asm
open Ascon.Masked (U32 repr32 le32 le32_repr)
open Ascon.Rv
open Ascon.Rv.Impl (set_ne set_eq ofNat_add ofNat_sub16)
open Ascon.Arm (csOpt cReg idσ)
open Ascon.Spec.V12 (be64 beBytes)
open Ascon.Rv.Rv32i (block writes_over writes_zero16 eq_zero ge_zero)
open Ascon.Xt (sp ra a2 a3 x0l x0h x1l x1h x2l x2h x3l x3h x4l x4h t0l t0h lc)

attribute [local irreducible] perm

namespace A

variable {base : U32} {S : Nat}

theorem len : xaead_code.length = 348 := by decide +kernel

theorem size : 4 * xaead_code.length < 2 ^ 32 := by rw [len]; decide

theorem len32 (v : U32) : (repr32 .little v).length = 4 := rfl

theorem loopAt : LoopAt xaead_code 6 xaead_ascon_permute_noloadBody where
  init := rfl
  blk := by
    intro i hi
    have : xaead_code = (xaead_ascon_permute ++ xaead_ascon_permute_noload) ++ (xaead_ascon_permute_noloadBody.map .alu ++
        (xaead_ascon_permute_noloadEnd ++ xaead_ascon_rev8 ++ xaead_ascon_memcpy ++ xaead_ascon_duplex ++ xaead_ascon_core)) := by
      simp only [xaead_code, List.append_assoc]
    have h3 : (xaead_ascon_permute ++ xaead_ascon_permute_noload).length = 7 := rfl
    rw [this, List.getElem?_append_right (by rw [h3]; omega), h3,
      List.getElem?_append_left (by rw [List.length_map]; omega)]
    simp [show 6 + 1 + i - 7 = i by omega, hi]
  next := rfl
  dec := rfl
  back := rfl

theorem permTame : tame xaead_ascon_permute_noloadBody = true := by decide +kernel

theorem permCheck : checkBlock 2 (fun i => i) csOpt [cReg] (fun _ => none) xaead_ascon_permute_noloadBody idσ (fun _ => true) = true := by
  decide +kernel

theorem copyAt : CopyAt xaead_code 111 where
  i0 := rfl
  i1 := rfl
  i2 := rfl
  i3 := rfl
  i4 := rfl
  i5 := rfl
  i6 := rfl
  i7 := rfl
  i8 := rfl
  size := size

/-- Six half words of the state in the frame. -/
structure Low (s : State) (S : Nat) (mem : Mem) : Prop where
  m5 : mem.Holds (S + 16) (repr32 .little (chunk 32 1 s.x2))
  m4 : mem.Holds (S + 20) (repr32 .little (chunk 32 0 s.x2))
  m7 : mem.Holds (S + 24) (repr32 .little (chunk 32 1 s.x3))
  m6 : mem.Holds (S + 28) (repr32 .little (chunk 32 0 s.x3))
  m9 : mem.Holds (S + 32) (repr32 .little (chunk 32 1 s.x4))
  m8 : mem.Holds (S + 36) (repr32 .little (chunk 32 0 s.x4))

/-- The stack frame. -/
structure Env (S : Nat) (m : Regs) (mem : Mem) : Prop where
  stk : m.stk = []
  sp : m.r sp = BitVec.ofNat 32 S
  wr : mem.Writable S 96
  lim : S + 120 ≤ 2 ^ 32

/-- Where the state is: two words in registers, three in the frame. -/
structure St (s : State) (S : Nat) (m : Regs) (mem : Mem) : Prop where
  r0 : m.r x0l = chunk 32 0 s.x0
  r1 : m.r x0h = chunk 32 1 s.x0
  r2 : m.r x1l = chunk 32 0 s.x1
  r3 : m.r x1h = chunk 32 1 s.x1
  low : Low s S mem
  env : Env S m mem

/-- The slots of the state. -/
def P (S a : Nat) : Prop := S + 16 ≤ a ∧ a < S + 40
/-- What `ascon_duplex` changes in the frame: buffer, state, pointers, length. -/
def D (S a : Nat) : Prop := (S ≤ a ∧ a < S + 40) ∨ (S + 60 ≤ a ∧ a < S + 72)

/-- Registers of the state. -/
abbrev sregs : List Nat := [x0l, x0h, x1l, x1h, sp]

theorem Low.frame {s : State} {mem mem' : Mem} (h : Low s S mem) (hm : ∀ a, P S a → mem' a = mem a) : Low s S mem' := by
  constructor
  all_goals
    intro i hi
    rw [hm _ ⟨by omega, by rw [len32] at hi; omega⟩]
  · exact h.m5 i hi
  · exact h.m4 i hi
  · exact h.m7 i hi
  · exact h.m6 i hi
  · exact h.m9 i hi
  · exact h.m8 i hi

theorem Env.frame {m m' : Regs} {mem mem' : Mem} (h : Env S m mem) (hr : m'.r Xt.sp = m.r Xt.sp) (hs : m'.stk = m.stk)
    (hw : ∀ a, (mem a).rw = true → (mem' a).rw = true) : Env S m' mem' :=
  ⟨hs.trans h.stk, hr.trans h.sp, fun i hi => hw _ (h.wr i hi), h.lim⟩

theorem St.frame {s : State} {m m' : Regs} {mem mem' : Mem} (h : St s S m mem) (hr : Same sregs m m') (hs : m'.stk = m.stk)
    (hm : ∀ a, P S a → mem' a = mem a) (hw : ∀ a, (mem a).rw = true → (mem' a).rw = true) : St s S m' mem' where
  r0 := (hr _ (by decide)).trans h.r0
  r1 := (hr _ (by decide)).trans h.r1
  r2 := (hr _ (by decide)).trans h.r2
  r3 := (hr _ (by decide)).trans h.r3
  low := h.low.frame hm
  env := h.env.frame (hr _ (by decide)) hs hw

theorem St.keep {s : State} {m m' : Regs} {mem : Mem} (h : St s S m mem) (hr : Same sregs m m') (hs : m'.stk = m.stk) :
    St s S m' mem := h.frame hr hs (fun _ _ => rfl) (fun _ h => h)

/-- Events of a call of `ascon_permute_noload`. -/
def noloadT (n S : Nat) : List Event :=
  roundsT n ++ writesE (S + 16) 4 ++ writesE (S + 20) 4 ++ writesE (S + 24) 4 ++ writesE (S + 28) 4 ++ writesE (S + 32) 4 ++ writesE (S + 36) 4

/-- Events of loading the six half words. -/
def lowT (S : Nat) : List Event :=
  reads (S + 16) 4 ++ reads (S + 20) 4 ++ reads (S + 24) 4 ++ reads (S + 28) 4 ++ reads (S + 32) 4 ++ reads (S + 36) 4

/-- Events of a call of `ascon_permute`. -/
def permT (n S : Nat) : List Event := lowT S ++ noloadT n S

/-- Six consecutive stores of the half words. -/
theorem low_writes {mem : Mem} (v5 v4 v7 v6 v9 v8 : U32) {s : State} (h5 : v5 = chunk 32 1 s.x2) (h4 : v4 = chunk 32 0 s.x2)
    (h7 : v7 = chunk 32 1 s.x3) (h6 : v6 = chunk 32 0 s.x3) (h9 : v9 = chunk 32 1 s.x4) (h8 : v8 = chunk 32 0 s.x4) :
    Low s S ((((((mem.writes (S + 16) (repr32 .little v5)).writes (S + 20) (repr32 .little v4)).writes (S + 24) (repr32 .little v7)).writes
      (S + 28) (repr32 .little v6)).writes (S + 32) (repr32 .little v9)).writes (S + 36) (repr32 .little v8)) ∧
    Fr (P S) mem ((((((mem.writes (S + 16) (repr32 .little v5)).writes (S + 20) (repr32 .little v4)).writes (S + 24) (repr32 .little v7)).writes
      (S + 28) (repr32 .little v6)).writes (S + 32) (repr32 .little v9)).writes (S + 36) (repr32 .little v8)) := by
  subst h5 h4 h7 h6 h9 h8
  refine ⟨⟨?_, ?_, ?_, ?_, ?_, ?_⟩, ?_⟩
  · refine ((((((holds_writes_self _ _ _).writes_disjoint ?_).writes_disjoint ?_).writes_disjoint ?_).writes_disjoint ?_).writes_disjoint ?_)
    all_goals right; right; right; rw [len32]; omega
  · refine (((((holds_writes_self _ _ _).writes_disjoint ?_).writes_disjoint ?_).writes_disjoint ?_).writes_disjoint ?_)
    all_goals right; right; right; rw [len32]; omega
  · refine ((((holds_writes_self _ _ _).writes_disjoint ?_).writes_disjoint ?_).writes_disjoint ?_)
    all_goals right; right; right; rw [len32]; omega
  · refine (((holds_writes_self _ _ _).writes_disjoint ?_).writes_disjoint ?_)
    all_goals right; right; right; rw [len32]; omega
  · refine (holds_writes_self _ _ _).writes_disjoint ?_
    right; right; right; rw [len32]; omega
  · exact holds_writes_self _ _ _
  · refine ((((((Fr.refl _ _).writes _ _ ?_).writes _ _ ?_).writes _ _ ?_).writes _ _ ?_).writes _ _ ?_).writes _ _ ?_
    all_goals intro a h h'; rw [len32] at h'; unfold P; omega

/-- `ascon_permute_noload` after the call. -/
theorem noload {r n : Nat} {m : Regs} {mem : Mem} {s : State} (h0n : 0 < n) (hn : n ≤ 12)
    (hra : m.r ra = at_ base r) (hr : r < 348) (hl : Loaded 2 (fun w => w) s m) (he : Env S m mem)
    (h2 : m.r a2 = BitVec.ofNat 32 (60 + 15 * n)) (h3 : m.r a3 = BitVec.ofNat 32 n) :
    Goes xaead_code base 6 m mem fun t pc' m' mem' => t = noloadT n S ∧ pc' = r ∧
      Loaded 2 (fun w => w) (perm n s) m' ∧ St (perm n s) S m' mem' ∧ Fr (P S) mem mem' := by
  have hlim := he.lim
  refine (loop_goes loopAt permTame permCheck n h0n hn s m mem hl he.stk h2 h3).cut ?_
  rintro t pc' m1 mem1 ⟨rfl, rfl, hl1, hs1, hk1, rfl⟩
  obtain ⟨e0, e1, e2, e3, e4, e5, e6, e7, e8, e9⟩ := loaded_iff.mp hl1
  have hsp : m1.r sp = BitVec.ofNat 32 S := (hk1 _ (by decide) (by decide)).trans he.sp
  have hra' : m1.r ra = at_ base r := (hk1 _ (by decide) (by decide)).trans hra
  have hb : 6 + 1 + xaead_ascon_permute_noloadBody.length + 3 = 87 := by decide +kernel
  rw [hb]
  have hw := he.wr
  refine s32At (p := S) _ rfl hsp e5 (by omega) (hw.mono (by omega) (by omega)) ?_
  refine s32At (p := S) _ rfl hsp e4 (by omega) (hw.writes.mono (by omega) (by omega)) ?_
  refine s32At (p := S) _ rfl hsp e7 (by omega) (hw.writes.writes.mono (by omega) (by omega)) ?_
  refine s32At (p := S) _ rfl hsp e6 (by omega) (hw.writes.writes.writes.mono (by omega) (by omega)) ?_
  refine s32At (p := S) _ rfl hsp e9 (by omega) (hw.writes.writes.writes.writes.mono (by omega) (by omega)) ?_
  refine s32At (p := S) _ rfl hsp e8 (by omega) (hw.writes.writes.writes.writes.writes.mono (by omega) (by omega)) ?_
  obtain ⟨hlow, hfr⟩ := low_writes (S := S) (mem := mem1) (s := perm n s) _ _ _ _ _ _ rfl rfl rfl rfl rfl rfl
  refine .jalr rfl hra' (by rw [len]; exact hr) size (.done ⟨?_, rfl, hl1, ⟨e0, e1, e2, e3, hlow, hs1, hsp, fun i hi => hfr.live _ (hw i hi), hlim⟩, hfr⟩)
  simp only [noloadT, List.append_assoc, List.append_nil]

theorem call_noload {pc n : Nat} {rel : Int} {m : Regs} {mem : Mem} {s : State} (h0n : 0 < n) (hn : n ≤ 12)
    (hf : xaead_code[pc]? = some (.jal (some ra) rel)) (hd : dest pc rel = 6) (hpc : pc + 1 < 348)
    (hl : Loaded 2 (fun w => w) s m) (he : Env S m mem)
    (h2 : m.r a2 = BitVec.ofNat 32 (60 + 15 * n)) (h3 : m.r a3 = BitVec.ofNat 32 n) :
    Goes xaead_code base pc m mem fun t pc' m' mem' => t = noloadT n S ∧ pc' = pc + 1 ∧
      Loaded 2 (fun w => w) (perm n s) m' ∧ St (perm n s) S m' mem' ∧ Fr (P S) mem mem' := by
  refine .jal hf hd (noload h0n hn set_eq hpc ?_ (he.frame (m' := m.set ra _) (by rw [set_ne (by decide)]) rfl (fun _ h => h)) (by rw [set_ne (by decide)]; exact h2)
    (by rw [set_ne (by decide)]; exact h3))
  intro a b ha hb
  rw [set_ne (by show 2 * a + b ≠ 14; omega)]
  exact hl a b ha hb

/-- Loading the six half words. -/
theorem load_low {pc : Nat} {m : Regs} {mem : Mem} {s : State} (f0 : xaead_code[pc]? = some (.l32 x2h sp 16))
    (f1 : xaead_code[pc + 1]? = some (.l32 x2l sp 20)) (f2 : xaead_code[pc + 2]? = some (.l32 x3h sp 24))
    (f3 : xaead_code[pc + 3]? = some (.l32 x3l sp 28)) (f4 : xaead_code[pc + 4]? = some (.l32 x4h sp 32))
    (f5 : xaead_code[pc + 5]? = some (.l32 x4l sp 36)) (hst : St s S m mem) :
    Goes xaead_code base pc m mem fun t pc' m' mem' => t = lowT S ∧ pc' = pc + 6 ∧
      Loaded 2 (fun w => w) s m' ∧ (∀ r, r ∉ [x2h, x2l, x3h, x3l, x4h, x4l] → m'.r r = m.r r) ∧ m'.stk = m.stk ∧ mem' = mem := by
  have hl := hst.env.lim
  have hsp := hst.env.sp
  refine l32At (p := S) f0 hsp (by omega) hst.low.m5 ?_
  refine l32At (p := S) f1 (by rg) (by omega) hst.low.m4 ?_
  refine l32At (p := S) f2 (by rg) (by omega) hst.low.m7 ?_
  refine l32At (p := S) f3 (by rg) (by omega) hst.low.m6 ?_
  refine l32At (p := S) f4 (by rg) (by omega) hst.low.m9 ?_
  refine l32At (p := S) f5 (by rg) (by omega) hst.low.m8 ?_
  refine .done ⟨?_, rfl, loaded_iff.mpr ?_, ?_, rfl, rfl⟩
  · simp only [lowT, List.append_assoc, List.append_nil]
  · simp (disch := decide) only [set_eq, set_ne, hst.r0, hst.r1, hst.r2, hst.r3, and_self]
  · intro r hr
    simp only [List.mem_cons, List.not_mem_nil, or_false, not_or] at hr
    obtain ⟨h1, h2, h3, h4, h5, h6⟩ := hr
    rw [set_ne h6, set_ne h5, set_ne h4, set_ne h3, set_ne h2, set_ne h1]

theorem call_perm {pc n : Nat} {rel : Int} {m : Regs} {mem : Mem} {s : State} (h0n : 0 < n) (hn : n ≤ 12)
    (hf : xaead_code[pc]? = some (.jal (some ra) rel)) (hd : dest pc rel = 0) (hpc : pc + 1 < 348) (hst : St s S m mem)
    (h2 : m.r a2 = BitVec.ofNat 32 (60 + 15 * n)) (h3 : m.r a3 = BitVec.ofNat 32 n) :
    Goes xaead_code base pc m mem fun t pc' m' mem' => t = permT n S ∧ pc' = pc + 1 ∧
      Loaded 2 (fun w => w) (perm n s) m' ∧ St (perm n s) S m' mem' ∧ Fr (P S) mem mem' := by
  refine .jal hf hd ((load_low (pc := 0) rfl rfl rfl rfl rfl rfl (hst.keep (m' := m.set ra _) (fun r hr => ?_) rfl)).cut ?_)
  · rw [set_ne (by rintro rfl; revert hr; decide)]
  rintro t pc' m1 mem1 ⟨rfl, rfl, hl1, hk1, hs1, rfl⟩
  refine (noload h0n hn (r := pc + 1) ?_ hpc hl1 (hst.env.frame ?_ hs1 (fun _ h => h)) ?_ ?_).mono ?_
  · rw [hk1 _ (by decide), set_eq]
  · rw [hk1 _ (by decide), set_ne (by decide)]
  · rw [hk1 _ (by decide), set_ne (by decide), h2]
  · rw [hk1 _ (by decide), set_ne (by decide), h3]
  · rintro t pc' m' mem' ⟨rfl, rfl, h⟩
    exact ⟨rfl, rfl, h⟩

theorem call_rev8 {pc : Nat} {rel : Int} {m : Regs} {mem : Mem} {x y z w : U32} (hf : xaead_code[pc]? = some (.jal (some ra) rel))
    (hd : dest pc rel = 94) (hpc : pc + 1 < 348) (h0 : m.r t0h = x) (h1 : m.r t0l = y) (h2 : m.r x4h = z) (h3 : m.r x4l = w) :
    Goes xaead_code base pc m mem fun t pc' m' mem' => t = [] ∧ pc' = pc + 1 ∧ m'.r t0h = rev8 x ∧ m'.r t0l = rev8 y ∧
      m'.r x4h = rev8 z ∧ m'.r x4l = rev8 w ∧
      (∀ r, r ∉ [a2, x4l, x4h, t0l, t0h, ra] → m'.r r = m.r r) ∧ m'.stk = m.stk ∧ mem' = mem := by
  refine .jal hf hd ?_
  refine .alu rfl rfl (.alu rfl rfl (.alu rfl rfl (.alu rfl rfl ?_)))
  simp (disch := decide) only [Opnd.get, set_eq, set_ne, h2]
  refine .alu rfl rfl (.alu rfl rfl (.alu rfl rfl (.alu rfl rfl ?_)))
  simp (disch := decide) only [Opnd.get, set_eq, set_ne, h3]
  refine .alu rfl rfl (.alu rfl rfl (.alu rfl rfl (.alu rfl rfl ?_)))
  simp (disch := decide) only [Opnd.get, set_eq, set_ne, h0]
  refine .alu rfl rfl (.alu rfl rfl (.alu rfl rfl (.alu rfl rfl ?_)))
  simp (disch := decide) only [Opnd.get, set_eq, set_ne, h1]
  refine .jalr rfl (r := pc + 1) ?_ (by rw [len]; exact hpc) size (.done ⟨rfl, rfl, ?_, ?_, ?_, ?_, ?_, rfl, rfl⟩)
  · simp (disch := decide) only [set_eq, set_ne]
  · simp (disch := decide) only [set_eq, set_ne]
    rw [← swap_eq]; rfl
  · simp (disch := decide) only [set_eq, set_ne]
    rw [← swap_eq]; rfl
  · simp (disch := decide) only [set_eq, set_ne]
    rw [← swap_eq]; rfl
  · simp (disch := decide) only [set_eq, set_ne]
    rw [← swap_eq]; rfl
  · intro r hr
    simp only [List.mem_cons, List.not_mem_nil, or_false, not_or] at hr
    obtain ⟨g1, g2, g3, g4, g5, g6⟩ := hr
    simp only [set_ne g1, set_ne g2, set_ne g3, set_ne g4, set_ne g5, set_ne g6]

/-- Two words in the temporary registers. -/
structure InT (x y : Word) (m : Regs) : Prop where
  h0 : m.r t0h = chunk 32 1 x
  l0 : m.r t0l = chunk 32 0 x
  h1 : m.r x4h = chunk 32 1 y
  l1 : m.r x4l = chunk 32 0 y

/-- Loading a block and reversing it. -/
theorem load {pc a p : Nat} {rel : Int} {m : Regs} {mem : Mem} {b : List Byte}
    (f0 : xaead_code[pc]? = some (.l32 t0h a 0)) (f1 : xaead_code[pc + 1]? = some (.l32 t0l a 4))
    (f2 : xaead_code[pc + 2]? = some (.l32 x4h a 8)) (f3 : xaead_code[pc + 3]? = some (.l32 x4l a 12))
    (f4 : xaead_code[pc + 4]? = some (.jal (some ra) rel)) (hd : dest (pc + 4) rel = 94) (hpc : pc + 5 < 348)
    (ha : a ≠ t0h ∧ a ≠ t0l ∧ a ≠ x4h) (hp : m.r a = BitVec.ofNat 32 p) (hp8 : p + 16 ≤ 2 ^ 32) (hb : mem.Holds p b)
    (hbl : b.length = 16) :
    Goes xaead_code base pc m mem fun t pc' m' mem' => t = block p ∧ pc' = pc + 5 ∧ InT (be64 (b.take 8)) (be64 (b.drop 8)) m' ∧
      (∀ r, r ∉ [a2, x4l, x4h, t0l, t0h, ra] → m'.r r = m.r r) ∧ m'.stk = m.stk ∧ mem' = mem := by
  obtain ⟨b0, b1, b2, b3⟩ := holds_block hb hbl
  obtain ⟨g1, g2, g3⟩ := ha
  refine l32At (p := p) f0 hp (by omega) b0 (l32At (p := p) f1 (by rw [set_ne g1]; exact hp) (by omega) b1 ?_)
  refine l32At (p := p) f2 (by rw [set_ne g2, set_ne g1]; exact hp) (by omega) b2 (l32At (p := p) f3 (by rw [set_ne g3, set_ne g2, set_ne g1]; exact hp) (by omega) b3 ?_)
  refine (call_rev8 f4 hd hpc (by rw [set_ne (by decide), set_ne (by decide), set_ne (by decide), set_eq])
    (by rw [set_ne (by decide), set_ne (by decide), set_eq]) (by rw [set_ne (by decide), set_eq]) set_eq).mono ?_
  rintro t pc' m1 mem1 ⟨rfl, rfl, q0, q1, q2, q3, hk, hs, rfl⟩
  have l1 : (b.take 8).length = 8 := by rw [List.length_take, hbl]; rfl
  have l2 : (b.drop 8).length = 8 := by rw [List.length_drop, hbl]
  rw [rev8_0, rv_le64 _ l1] at q0
  rw [rev8_1, rv_le64 _ l1] at q1
  rw [rev8_0, rv_le64 _ l2] at q2
  rw [rev8_1, rv_le64 _ l2] at q3
  refine ⟨?_, rfl, ⟨q0, q1, q2, q3⟩, ?_, hs, rfl⟩
  · simp only [block, List.append_assoc, Nat.add_zero, List.append_nil]
  · intro r hr
    rw [hk r hr]
    simp only [List.mem_cons, List.not_mem_nil, or_false, not_or] at hr
    rw [set_ne hr.2.1, set_ne hr.2.2.1, set_ne hr.2.2.2.1, set_ne hr.2.2.2.2.1]

/-- Adding the block in the temporary registers to the state. -/
theorem xorIn_goes {pc : Nat} {m : Regs} {mem : Mem} {s : State} {b : List Byte}
    (f0 : xaead_code[pc]? = some (.alu (.bit .xor x0h (.reg x0h) (.reg t0h)))) (f1 : xaead_code[pc + 1]? = some (.alu (.bit .xor x0l (.reg x0l) (.reg t0l))))
    (f2 : xaead_code[pc + 2]? = some (.alu (.bit .xor x1h (.reg x1h) (.reg x4h)))) (f3 : xaead_code[pc + 3]? = some (.alu (.bit .xor x1l (.reg x1l) (.reg x4l))))
    (hst : St s S m mem) (ht : InT (be64 (b.take 8)) (be64 (b.drop 8)) m) :
    Goes xaead_code base pc m mem fun t pc' m' mem' => t = [] ∧ pc' = pc + 4 ∧ St (Variant.v12.xorIn s b) S m' mem' ∧
      (∀ r, r ∉ [x0h, x0l, x1h, x1l] → m'.r r = m.r r) ∧ mem' = mem := by
  refine .alu f0 rfl (.alu f1 rfl (.alu f2 rfl (.alu f3 rfl (.done ⟨rfl, rfl, ?_, ?_, rfl⟩))))
  · have hlow : Low (Variant.v12.xorIn s b) S mem := ⟨hst.low.m5, hst.low.m4, hst.low.m7, hst.low.m6, hst.low.m9, hst.low.m8⟩
    have c0 : ∀ h, chunk 32 h (Variant.v12.xorIn s b).x0 = chunk 32 h s.x0 ^^^ chunk 32 h (be64 (b.take 8)) := fun h => chunk_xor h _ _
    have c1 : ∀ h, chunk 32 h (Variant.v12.xorIn s b).x1 = chunk 32 h s.x1 ^^^ chunk 32 h (be64 (b.drop 8)) := fun h => chunk_xor h _ _
    refine ⟨?_, ?_, ?_, ?_, hlow, hst.env.frame ?_ rfl (fun _ h => h)⟩
    all_goals simp (disch := decide) only [Opnd.get, BitOp.fn, set_eq, set_ne, c0, c1, hst.r0, hst.r1, hst.r2, hst.r3, ht.h0, ht.l0, ht.h1, ht.l1]
  · intro r hr
    simp only [List.mem_cons, List.not_mem_nil, or_false, not_or] at hr
    rw [set_ne hr.2.2.2, set_ne hr.2.2.1, set_ne hr.2.1, set_ne hr.1]

/-- Replacing the rate by the block in the temporary registers. -/
theorem setIn_goes {pc : Nat} {m : Regs} {mem : Mem} {s : State} {b : List Byte}
    (f0 : xaead_code[pc]? = some (.alu (.mov x0h (.reg t0h)))) (f1 : xaead_code[pc + 1]? = some (.alu (.mov x0l (.reg t0l))))
    (f2 : xaead_code[pc + 2]? = some (.alu (.mov x1h (.reg x4h)))) (f3 : xaead_code[pc + 3]? = some (.alu (.mov x1l (.reg x4l))))
    (hst : St s S m mem) (ht : InT (be64 (b.take 8)) (be64 (b.drop 8)) m) :
    Goes xaead_code base pc m mem fun t pc' m' mem' => t = [] ∧ pc' = pc + 4 ∧ St (Variant.v12.setIn s b) S m' mem' ∧
      (∀ r, r ∉ [x0h, x0l, x1h, x1l] → m'.r r = m.r r) ∧ mem' = mem := by
  refine .alu f0 rfl (.alu f1 rfl (.alu f2 rfl (.alu f3 rfl (.done ⟨rfl, rfl, ?_, ?_, rfl⟩))))
  · have hlow : Low (Variant.v12.setIn s b) S mem := ⟨hst.low.m5, hst.low.m4, hst.low.m7, hst.low.m6, hst.low.m9, hst.low.m8⟩
    have c0 : ∀ h, chunk 32 h (Variant.v12.setIn s b).x0 = chunk 32 h (be64 (b.take 8)) := fun h => rfl
    have c1 : ∀ h, chunk 32 h (Variant.v12.setIn s b).x1 = chunk 32 h (be64 (b.drop 8)) := fun h => rfl
    refine ⟨?_, ?_, ?_, ?_, hlow, hst.env.frame ?_ rfl (fun _ h => h)⟩
    all_goals simp (disch := decide) only [Opnd.get, set_eq, set_ne, c0, c1, ht.h0, ht.l0, ht.h1, ht.l1]
  · intro r hr
    simp only [List.mem_cons, List.not_mem_nil, or_false, not_or] at hr
    rw [set_ne hr.2.2.2, set_ne hr.2.2.1, set_ne hr.2.1, set_ne hr.1]

/-- Events at the end of a block. -/
def tailT (S : Nat) : List Event :=
  writesE (S + 60) 4 ++ writesE (S + 64) 4 ++ writesE (S + 68) 4 ++ permT 8 S ++ reads (S + 60) 4 ++ reads (S + 64) 4 ++ reads (S + 68) 4 ++
    reads (S + 72) 4

/-- Writing a block. -/
def wblock (p : Nat) : List Event := writesE p 4 ++ writesE (p + 4) 4 ++ writesE (p + 8) 4 ++ writesE (p + 12) 4

/-- Events of a complete block. -/
def stepT (md : Mode) (ip op S : Nat) : List Event :=
  block ip ++ [.branch (decide (md = .ad))] ++ (if md = .ad then [] else wblock op) ++ [.branch (decide (md ≠ .dec))] ++ tailT S

/-- The end of a block: permutation, pointers and length. -/
theorem step_tail {p n : Nat} {m : Regs} {mem : Mem} {s : State} {md : Mode} (hst : St s S m mem)
    (hp : m.r x2l = BitVec.ofNat 32 p) (hn : m.r x3h = BitVec.ofNat 32 n) (h16 : 16 ≤ n)
    (hmd : mem.Holds (S + 72) (repr32 .little md.val)) :
    Goes xaead_code base 157 m mem fun t pc' m' mem' => t = tailT S ∧ pc' = 170 ∧ St (perm 8 s) S m' mem' ∧
      m'.r x2h = m.r x2h + 16 ∧ m'.r x2l = BitVec.ofNat 32 (p + 16) ∧ m'.r x3h = BitVec.ofNat 32 (n - 16) ∧ m'.r x3l = md.val ∧
      Fr (D S) mem mem' := by
  have hl := hst.env.lim
  have hsp := hst.env.sp
  have hw := hst.env.wr
  refine s32At (p := S) (m.r x2h) rfl hsp rfl (by omega) (hw.mono (by omega) (by omega)) ?_
  refine s32At (p := S) (BitVec.ofNat 32 p) rfl hsp hp (by omega) (hw.writes.mono (by omega) (by omega)) ?_
  refine s32At (p := S) (BitVec.ofNat 32 n) rfl hsp hn (by omega) (hw.writes.writes.mono (by omega) (by omega)) ?_
  refine .alu rfl rfl (.alu rfl rfl ?_)
  generalize hm1 : ((mem.writes (S + 60) _).writes (S + 64) _).writes (S + 68) _ = mem1
  have hfr1 : Fr (D S) mem mem1 := by
    rw [← hm1]
    refine (((Fr.refl _ _).writes _ _ ?_).writes _ _ ?_).writes _ _ ?_
    all_goals intro a h h'; rw [len32] at h'; unfold D; omega
  have hh0 : mem1.Holds (S + 60) (repr32 .little (m.r x2h)) := by
    rw [← hm1]
    refine ((holds_writes_self _ _ _).writes_disjoint ?_).writes_disjoint ?_
    all_goals right; right; right; rw [len32]; omega
  have hh1 : mem1.Holds (S + 64) (repr32 .little (BitVec.ofNat 32 p)) := by
    rw [← hm1]
    refine (holds_writes_self _ _ _).writes_disjoint ?_
    right; right; right; rw [len32]; omega
  have hh2 : mem1.Holds (S + 68) (repr32 .little (BitVec.ofNat 32 n)) := by
    rw [← hm1]; exact holds_writes_self _ _ _
  have hh3 : mem1.Holds (S + 72) (repr32 .little md.val) :=
    hfr1.holds (fun a h h' => by rw [len32] at h'; unfold D; omega) hmd
  have hst1 : St s S m mem1 := hst.frame (.refl _ _) rfl (fun a ha => by
    unfold P at ha
    rw [← hm1, writes_out (by rw [len32]; omega), writes_out (by rw [len32]; omega), writes_out (by rw [len32]; omega)]) hfr1.live
  refine (call_perm (n := 8) (by decide) (by decide) (pc := 162) rfl rfl (by decide)
    (hst1.keep (m' := (m.set a2 _).set a3 _) (fun r hr => ?_) rfl) (by rw [set_ne (by decide), set_eq]; rfl) (by rw [set_eq]; rfl)).cut ?_
  · rw [set_ne (by rintro rfl; revert hr; decide), set_ne (by rintro rfl; revert hr; decide)]
  rintro t pc' m2 mem2 ⟨rfl, rfl, -, hst2, hfr2⟩
  have hsp2 := hst2.env.sp
  have hk : ∀ {v : U32} {o : Nat}, 60 ≤ o → mem1.Holds (S + o) (repr32 .little v) → mem2.Holds (S + o) (repr32 .little v) :=
    fun ho hh => hfr2.holds (fun a h h' => by rw [len32] at h'; unfold P; omega) hh
  refine l32At (p := S) rfl hsp2 (by omega) (hk (by omega) hh0) ?_
  refine l32At (p := S) rfl (by rg) (by omega) (hk (by omega) hh1) ?_
  refine l32At (p := S) rfl (by rg) (by omega) (hk (by omega) hh2) ?_
  refine l32At (p := S) rfl (by rg) (by omega) (hk (by omega) hh3) ?_
  refine .alu rfl rfl (.alu rfl rfl (.alu rfl rfl (.done ⟨?_, rfl, hst2.keep ?_ rfl, ?_, ?_, ?_, ?_, ?_⟩)))
  · simp only [tailT, List.append_assoc, List.append_nil]
  · intro r hr
    rw [set_ne (by rintro rfl; revert hr; decide), set_ne (by rintro rfl; revert hr; decide),
      set_ne (by rintro rfl; revert hr; decide), set_ne (by rintro rfl; revert hr; decide),
      set_ne (by rintro rfl; revert hr; decide), set_ne (by rintro rfl; revert hr; decide), set_ne (by rintro rfl; revert hr; decide)]
  · simp (disch := decide) only [Opnd.get, set_eq, set_ne]
  · simp (disch := decide) only [Opnd.get, set_eq, set_ne]
    exact ofNat_add p 16
  · simp (disch := decide) only [Opnd.get, set_eq, set_ne]
    obtain ⟨k, rfl⟩ : ∃ k, n = k + 16 := ⟨n - 16, by omega⟩
    rw [Nat.add_sub_cancel, ← ofNat_add k 16, BitVec.add_assoc]
    show _ + 0#32 = _
    rw [BitVec.add_zero]
  · simp (disch := decide) only [Opnd.get, set_eq, set_ne]
  · exact hfr1.trans (hfr2.mono fun a h => by unfold P at h; unfold D; omega)

/-- `.LDreset` -/
theorem step_reset {p n : Nat} {m : Regs} {mem : Mem} {s s0 : State} {md : Mode} {b : List Byte} (hst : St s S m mem)
    (hs : s = Variant.v12.xorIn s0 b) (ht : InT (be64 (b.take 8)) (be64 (b.drop 8)) m)
    (hp : m.r x2l = BitVec.ofNat 32 p) (hn : m.r x3h = BitVec.ofNat 32 n) (h16 : 16 ≤ n)
    (hmr : m.r x3l = md.val) (hmd : mem.Holds (S + 72) (repr32 .little md.val)) :
    Goes xaead_code base 152 m mem fun t pc' m' mem' => t = [.branch (decide (md ≠ .dec))] ++ tailT S ∧ pc' = 170 ∧
      St (perm 8 (Variant.v12.stepS md s0 b)) S m' mem' ∧
      m'.r x2h = m.r x2h + 16 ∧ m'.r x2l = BitVec.ofNat 32 (p + 16) ∧ m'.r x3h = BitVec.ofNat 32 (n - 16) ∧ m'.r x3l = md.val ∧
      Fr (D S) mem mem' := by
  refine .br (decide (md ≠ .dec)) rfl (by simp only [Opnd.get, Cmp.eval, hmr]; exact ge_zero md) rfl ?_
  by_cases hdc : md = .dec
  · rw [decide_eq_false (by simp [hdc]), if_neg (by decide)]
    refine (setIn_goes (pc := 153) rfl rfl rfl rfl hst ht).cut ?_
    rintro t pc' m1 mem1 ⟨rfl, rfl, hst1, hk, rfl⟩
    refine (step_tail hst1 ((hk _ (by decide)).trans hp) ((hk _ (by decide)).trans hn) h16 hmd).mono ?_
    rintro t pc' m' mem' ⟨rfl, rfl, h1, h2, h3, h4, h5, h6⟩
    refine ⟨rfl, rfl, ?_, by rw [h2, hk _ (by decide)], h3, h4, h5, h6⟩
    have e : Variant.v12.stepS md s0 b = Variant.v12.setIn s b := by rw [hs]; exact if_pos hdc
    rw [e]; exact h1
  · rw [decide_eq_true hdc, if_pos rfl]
    refine (step_tail hst hp hn h16 hmd).mono ?_
    rintro t pc' m' mem' ⟨rfl, rfl, h1, h2, h3, h4, h5, h6⟩
    refine ⟨rfl, rfl, ?_, h2, h3, h4, h5, h6⟩
    have e : Variant.v12.stepS md s0 b = s := by rw [hs]; exact if_neg hdc
    rw [e]; exact h1

/-- The state without the stack below the output buffer. -/
theorem notD_of {op n : Nat} (h : Disjoint S 96 op n) : ∀ a, op ≤ a → a < op + n → ¬ D S a := by
  intro a h1 h2
  unfold Disjoint at h; unfold D; omega

/-- Output of a complete block. -/
theorem squeeze {op : Nat} {m : Regs} {mem : Mem} {s : State} (hst : St s S m mem) (ho : m.r x2h = BitVec.ofNat 32 op)
    (hop : op + 16 ≤ 2 ^ 32) (hw : mem.Writable op 16) (hd : Disjoint S 96 op 16) :
    Goes xaead_code base 132 m mem fun t pc' m' mem' => t = wblock op ∧ pc' = 152 ∧ St s S m' mem' ∧
      (∀ r, r ≠ a2 → m'.r r = m.r r) ∧ mem' = mem.writes op (Variant.v12.rate s) := by
  refine .alu rfl rfl (.alu rfl rfl (.alu rfl rfl (.alu rfl rfl ?_)))
  simp (disch := decide) only [Opnd.get, set_eq, set_ne, hst.r1]
  refine s32At (p := op) (chunk 32 0 (rv s.x0)) rfl (by rg) (by rw [← rev8_1, ← swap_eq]; exact set_eq) (by omega) (hw.mono (by omega) (by omega)) ?_
  refine .alu rfl rfl (.alu rfl rfl (.alu rfl rfl (.alu rfl rfl ?_)))
  simp (disch := decide) only [Opnd.get, set_eq, set_ne, hst.r0]
  refine s32At (p := op) (chunk 32 1 (rv s.x0)) rfl (by rg) (by rw [← rev8_0, ← swap_eq]; exact set_eq) (by omega) (hw.writes.mono (by omega) (by omega)) ?_
  refine .alu rfl rfl (.alu rfl rfl (.alu rfl rfl (.alu rfl rfl ?_)))
  simp (disch := decide) only [Opnd.get, set_eq, set_ne, hst.r3]
  refine s32At (p := op) (chunk 32 0 (rv s.x1)) rfl (by rg) (by rw [← rev8_1, ← swap_eq]; exact set_eq) (by omega) (hw.writes.writes.mono (by omega) (by omega)) ?_
  refine .alu rfl rfl (.alu rfl rfl (.alu rfl rfl (.alu rfl rfl ?_)))
  simp (disch := decide) only [Opnd.get, set_eq, set_ne, hst.r2]
  refine s32At (p := op) (chunk 32 1 (rv s.x1)) rfl (by rg) (by rw [← rev8_0, ← swap_eq]; exact set_eq) (by omega) (hw.writes.writes.writes.mono (by omega) (by omega)) ?_
  rw [← writes_block, ← v12_rate]
  have hrl : (Variant.v12.rate s).length = 16 := Variant.length_rate Variant.v12_ok _
  have hk : ∀ (m1 : Regs) (r : Nat), r ≠ a2 → ∀ v, (m1.set a2 v).r r = m1.r r := fun m1 r h v => set_ne h
  refine .done ⟨?_, rfl, hst.frame ?_ rfl (fun a ha => ?_) (live_writes _ _ _), ?_, rfl⟩
  · simp only [wblock, List.append_assoc, List.append_nil, Nat.add_zero]
  · intro r hr
    have hr' : r ≠ a2 := by rintro rfl; revert hr; decide
    simp only [hk _ _ hr']
  · rw [writes_out (by rw [hrl]; unfold Disjoint at hd; unfold P at ha; omega)]
  · intro r hr
    simp only [hk _ _ hr]

/-- A complete block. -/
theorem step {ip op n : Nat} {m : Regs} {mem : Mem} {s : State} {md : Mode} {b : List Byte} (hst : St s S m mem)
    (hip : m.r x2l = BitVec.ofNat 32 ip) (hipE : ip + 16 ≤ 2 ^ 32) (hb : mem.Holds ip b) (hbl : b.length = 16)
    (hn : m.r x3h = BitVec.ofNat 32 n) (h16 : 16 ≤ n)
    (hmr : m.r x3l = md.val) (hmd : mem.Holds (S + 72) (repr32 .little md.val))
    (hout : md ≠ .ad → m.r x2h = BitVec.ofNat 32 op ∧ op + 16 ≤ 2 ^ 32 ∧ mem.Writable op 16 ∧ Disjoint S 96 op 16) :
    Goes xaead_code base 122 m mem fun t pc' m' mem' => t = stepT md ip op S ∧ pc' = 170 ∧
      St (perm 8 (Variant.v12.stepS md s b)) S m' mem' ∧
      m'.r x2h = m.r x2h + 16 ∧ m'.r x2l = BitVec.ofNat 32 (ip + 16) ∧ m'.r x3h = BitVec.ofNat 32 (n - 16) ∧ m'.r x3l = md.val ∧
      Fr (D S) (if md = .ad then mem else mem.writes op (Variant.v12.rate (Variant.v12.xorIn s b))) mem' := by
  refine (load (pc := 122) rfl rfl rfl rfl rfl rfl (by decide) (by decide) hip hipE hb hbl).cut ?_
  rintro t pc' m1 mem1 ⟨rfl, rfl, ht, hk, hs, rfl⟩
  refine (xorIn_goes (pc := 127) rfl rfl rfl rfl (hst.keep (m' := m1) (fun r hr => hk r (by revert hr; revert r; decide)) hs) ht).cut ?_
  rintro t pc' m2 mem2 ⟨rfl, rfl, hst2, hk2, rfl⟩
  have ht2 : InT (be64 (b.take 8)) (be64 (b.drop 8)) m2 :=
    ⟨(hk2 _ (by decide)).trans ht.h0, (hk2 _ (by decide)).trans ht.l0, (hk2 _ (by decide)).trans ht.h1, (hk2 _ (by decide)).trans ht.l1⟩
  have hk3 : ∀ r, r ∈ [x2h, x2l, x3h, x3l] → m2.r r = m.r r := fun r hr =>
    (hk2 r (by revert hr; revert r; decide)).trans (hk r (by revert hr; revert r; decide))
  have hmr2 := (hk3 x3l (by decide)).trans hmr
  refine .br (decide (md = .ad)) rfl (by simp only [Opnd.get, Cmp.eval, hmr2]; exact eq_zero md) rfl ?_
  by_cases had : md = .ad
  · rw [decide_eq_true had, if_pos rfl]
    simp only [if_pos had]
    refine (step_reset (s0 := s) (b := b) hst2 rfl ht2 ((hk3 _ (by decide)).trans hip) ((hk3 _ (by decide)).trans hn) h16 hmr2 hmd).mono ?_
    rintro t pc' m' mem' ⟨rfl, rfl, h1, h2, h3, h4, h5, h6⟩
    refine ⟨?_, rfl, h1, by rw [h2, hk3 _ (by decide)], h3, h4, h5, h6⟩
    simp only [stepT, if_pos had, decide_eq_true had, List.append_assoc, List.nil_append, List.append_nil, List.cons_append]
  · rw [decide_eq_false had, if_neg (by decide)]
    simp only [if_neg had]
    obtain ⟨o1, o2, o3, o4⟩ := hout had
    refine (squeeze hst2 ((hk3 _ (by decide)).trans o1) o2 o3 o4).cut ?_
    rintro t pc' m3 mem3 ⟨rfl, rfl, hst3, hk4, rfl⟩
    have ht3 : InT (be64 (b.take 8)) (be64 (b.drop 8)) m3 :=
      ⟨(hk4 _ (by decide)).trans ht2.h0, (hk4 _ (by decide)).trans ht2.l0, (hk4 _ (by decide)).trans ht2.h1, (hk4 _ (by decide)).trans ht2.l1⟩
    have hrl : (Variant.v12.rate (Variant.v12.xorIn s b)).length = 16 := Variant.length_rate Variant.v12_ok _
    have hmd3 := hmd.writes_disjoint (q := op) (cs := Variant.v12.rate (Variant.v12.xorIn s b)) (by
      rw [hrl, len32]; unfold Disjoint at o4 ⊢; omega)
    refine (step_reset (s0 := s) (b := b) hst3 rfl ht3 ((hk4 _ (by decide)).trans ((hk3 _ (by decide)).trans hip))
      ((hk4 _ (by decide)).trans ((hk3 _ (by decide)).trans hn)) h16 ((hk4 _ (by decide)).trans hmr2) hmd3).mono ?_
    rintro t pc' m' mem' ⟨rfl, rfl, h1, h2, h3, h4, h5, h6⟩
    refine ⟨?_, rfl, h1, by rw [h2, hk4 _ (by decide), hk3 _ (by decide)], h3, h4, h5, h6⟩
    simp only [stepT, if_neg had, decide_eq_false had, List.append_assoc, List.nil_append, List.append_nil, List.cons_append]

/-- Events of the last block. -/
def finT (md : Mode) (ip op S n : Nat) : List Event :=
  wblock S ++ copyT ip S n ++ [.read (S + n), .write (S + n)] ++ block S ++ [.branch (decide (md = .ad))] ++
    (if md = .ad then [] else wblock S ++ copyT S op n) ++ [.branch (decide (md ≠ .dec))] ++
    (if md = .dec then copyT ip S n ++ block S else []) ++ reads (S + 88) 4

theorem notin_c {r : Nat} (h : r < 8 ∨ (15 ≤ r)) : r ∉ [a2, a3, t0l, t0h, ra] := by
  show r ∉ [10, 11, 12, 13, 14]
  simp only [List.mem_cons, List.not_mem_nil, or_false]; omega

theorem notin_r {r : Nat} (h : r < 8 ∨ (15 ≤ r)) : r ∉ [a2, x4l, x4h, t0l, t0h, ra] := by
  show r ∉ [10, 8, 9, 12, 13, 14]
  simp only [List.mem_cons, List.not_mem_nil, or_false]; omega

theorem sregs_lt : ∀ r ∈ sregs, r < 8 ∨ 15 ≤ r := by decide

/-- The end of `ascon_duplex`. -/
theorem fin_ret {r : Nat} {m : Regs} {mem : Mem} {s : State} (hst : St s S m mem)
    (hra : mem.Holds (S + 88) (repr32 .little (at_ base r))) (hr : r < 348) :
    Goes xaead_code base 219 m mem fun t pc' m' mem' => t = reads (S + 88) 4 ∧ pc' = r ∧ St s S m' mem' ∧
      m'.r x2h = m.r x2h + m.r x3h ∧ m'.r x2l = m.r x2l + m.r x3h ∧ mem' = mem := by
  have hl := hst.env.lim
  have hsp := hst.env.sp
  refine .alu rfl rfl (.alu rfl rfl (l32At (p := S) rfl ?_ (by omega) hra ?_))
  · rg
  refine .jalr rfl set_eq (by rw [len]; exact hr) size (.done ⟨?_, rfl, hst.keep ?_ rfl, ?_, ?_, rfl⟩)
  · simp only [List.append_nil]
  · intro r hr
    rw [set_ne (by rintro rfl; revert hr; decide), set_ne (by rintro rfl; revert hr; decide), set_ne (by rintro rfl; revert hr; decide)]
  · simp (disch := decide) only [Opnd.get, set_eq, set_ne]
  · simp (disch := decide) only [Opnd.get, set_eq, set_ne]

theorem holds_over {mem : Mem} {p : Nat} {R l : List Byte} (hR : mem.Holds p R) (hl : l.length ≤ R.length) :
    (mem.writes p l).Holds p (l ++ R.drop l.length) :=
  holds_append.mpr ⟨holds_writes_self _ _ _, (hR.drop _ hl).writes_disjoint (by right; right; left; omega)⟩

/-- `.LDendreset` -/
theorem fin_reset {ip n r : Nat} {m : Regs} {mem : Mem} {s s0 : State} {md : Mode} {l l' R : List Byte} (hst : St s S m mem)
    (hs : s = Variant.v12.xorIn s0 (Variant.v12.pad l)) (hR : R = Variant.v12.rate s) (hll : l.length = n)
    (hip : m.r x2l = BitVec.ofNat 32 ip) (hipE : ip + n ≤ 2 ^ 32) (hn : m.r x3h = BitVec.ofNat 32 n) (h16 : n < 16)
    (hd : Disjoint S 96 ip n) (hmr : m.r x3l = md.val)
    (hdec : md = .dec → mem.Holds ip l' ∧ l'.length = n ∧ mem.Holds S R)
    (hra : mem.Holds (S + 88) (repr32 .little (at_ base r))) (hr : r < 348) :
    Goes xaead_code base 206 m mem fun t pc' m' mem' =>
      t = [.branch (decide (md ≠ .dec))] ++ (if md = .dec then copyT ip S n ++ block S else []) ++ reads (S + 88) 4 ∧ pc' = r ∧
      St (Variant.v12.finS md s0 l l') S m' mem' ∧
      m'.r x2h = m.r x2h + m.r x3h ∧ m'.r x2l = m.r x2l + m.r x3h ∧ Fr (D S) mem mem' := by
  refine .br (decide (md ≠ .dec)) rfl (by simp only [Opnd.get, Cmp.eval, hmr]; exact ge_zero md) rfl ?_
  have hl := hst.env.lim
  have hsp := hst.env.sp
  have hw := hst.env.wr
  by_cases hdc : md = .dec
  · rw [decide_eq_false (by simp [hdc]), if_neg (by decide)]
    simp only [if_pos hdc]
    obtain ⟨hl', hn', hbuf⟩ := hdec hdc
    have hRl : R.length = 16 := by rw [hR]; exact Variant.length_rate Variant.v12_ok _
    subst hn'
    refine .alu rfl rfl (.alu rfl rfl ?_)
    refine (call_copy copyAt l' ip S (pc := 209) rfl rfl (by rw [len]; decide) (by rg) (by rg) (by rg) (by omega) hipE (by omega) hl'
      (hw.mono (by omega) (by omega)) (by unfold Disjoint at hd ⊢; omega)).cut ?_
    rintro t pc' m1 mem1 ⟨rfl, rfl, hk1, hs1, rfl⟩
    have hk : ∀ r, (r < 8 ∨ 15 ≤ r) → m1.r r = m.r r := by
      intro r hr
      rw [hk1 r (notin_c hr), set_ne (by show r ≠ 11; omega), set_ne (by show r ≠ 10; omega)]
    have hfr : Fr (D S) mem (mem.writes S l') := (Fr.refl _ _).writes _ _ fun a h h' => by unfold D; omega
    have hst1 : St s S m1 (mem.writes S l') := hst.frame (fun r hr => hk r (sregs_lt r hr)) hs1
      (fun a ha => writes_out (by unfold P at ha; omega)) hfr.live
    have hbl : (l' ++ R.drop l'.length).length = 16 := by simp; omega
    refine (load (pc := 210) rfl rfl rfl rfl rfl rfl (by decide) (by decide) ((hk _ (by decide)).trans hsp) (by omega)
      (holds_over hbuf (by omega)) hbl).cut ?_
    rintro t pc' m2 mem2 ⟨rfl, rfl, ht, hk2, hs2, rfl⟩
    refine (setIn_goes (pc := 215) rfl rfl rfl rfl (hst1.keep (fun r hr => hk2 r (notin_r (sregs_lt r hr))) hs2) ht).cut ?_
    rintro t pc' m3 mem3 ⟨rfl, rfl, hst3, hk3, rfl⟩
    refine (fin_ret hst3 (hfr.holds (fun a h h' => by rw [len32] at h'; unfold D; omega) hra) hr).mono ?_
    rintro t pc' m' mem' ⟨rfl, rfl, h1, h2, h3, rfl⟩
    have hkk : ∀ r, r ∈ [x2h, x2l, x3h] → m3.r r = m.r r := fun r hr => by
      rw [hk3 r (by revert hr; revert r; decide), hk2 r (by revert hr; revert r; decide), hk r (by revert hr; revert r; decide)]
    refine ⟨?_, rfl, ?_, ?_, ?_, hfr⟩
    · simp only [List.append_assoc, List.nil_append, List.cons_append]
    · have e : Variant.v12.finS md s0 l l' = Variant.v12.setIn s (l' ++ R.drop l'.length) := by
        rw [hR, hs, ← hll]; exact if_pos hdc
      rw [e]; exact h1
    · rw [h2, hkk _ (by decide), hkk _ (by decide)]
    · rw [h3, hkk _ (by decide), hkk _ (by decide)]
  · rw [decide_eq_true hdc, if_pos rfl]
    simp only [if_neg hdc]
    refine (fin_ret hst hra hr).mono ?_
    rintro t pc' m' mem' ⟨rfl, rfl, h1, h2, h3, rfl⟩
    refine ⟨rfl, rfl, ?_, h2, h3, .refl _ _⟩
    have e : Variant.v12.finS md s0 l l' = s := by rw [hs]; exact if_neg hdc
    rw [e]; exact h1

/-- The last block. -/
theorem fin {ip op r : Nat} {m : Regs} {mem : Mem} {s : State} {md : Mode} {l l' : List Byte} (hst : St s S m mem)
    (hip : m.r x2l = BitVec.ofNat 32 ip) (hipE : ip + l.length ≤ 2 ^ 32) (hn : m.r x3h = BitVec.ofNat 32 l.length) (h16 : l.length < 16)
    (hH : mem.Holds ip l) (hd : Disjoint S 96 ip l.length) (hmr : m.r x3l = md.val)
    (hout : md ≠ .ad → m.r x2h = BitVec.ofNat 32 op ∧ op + l.length ≤ 2 ^ 32 ∧ mem.Writable op l.length ∧ Disjoint S 96 op l.length)
    (hdec : md = .dec → (mem.writes op (Variant.v12.finO s l)).Holds ip l' ∧ l'.length = l.length)
    (hra : mem.Holds (S + 88) (repr32 .little (at_ base r))) (hr : r < 348) :
    Goes xaead_code base 171 m mem fun t pc' m' mem' => t = finT md ip op S l.length ∧ pc' = r ∧
      St (Variant.v12.finS md s l l') S m' mem' ∧
      m'.r x2h = m.r x2h + m.r x3h ∧ m'.r x2l = m.r x2l + m.r x3h ∧
      Fr (D S) (if md = .ad then mem else mem.writes op (Variant.v12.finO s l)) mem' := by
  have hl := hst.env.lim
  have hsp := hst.env.sp
  have hw := hst.env.wr
  refine .alu rfl rfl ?_
  refine s32At (p := S) 0 rfl (by rg) (by exact set_eq) (by omega) (hw.mono (by omega) (by omega)) ?_
  refine s32At (p := S) 0 rfl (by rg) (by exact set_eq) (by omega) (hw.writes.mono (by omega) (by omega)) ?_
  refine s32At (p := S) 0 rfl (by rg) (by exact set_eq) (by omega) (hw.writes.writes.mono (by omega) (by omega)) ?_
  refine s32At (p := S) 0 rfl (by rg) (by exact set_eq) (by omega) (hw.writes.writes.writes.mono (by omega) (by omega)) ?_
  rw [writes_zero16]
  refine .alu rfl rfl (.alu rfl rfl ?_)
  refine (call_copy copyAt l ip S (pc := 178) rfl rfl (by rw [len]; decide) (by rg) (by rg) (by rg) (by omega) hipE (by omega)
    (hH.writes_disjoint (by rw [List.length_replicate]; unfold Disjoint at hd ⊢; omega)) (hw.writes.mono (by omega) (by omega))
    (by unfold Disjoint at hd ⊢; omega)).cut ?_
  rintro t pc' m1 mem1 ⟨rfl, rfl, hk1, hs1, rfl⟩
  have hk : ∀ r, (r < 8 ∨ 15 ≤ r) → m1.r r = m.r r := by
    intro r hr
    rw [hk1 r (notin_c hr), set_ne (by show r ≠ 11; omega), set_ne (by show r ≠ 10; omega), set_ne (by show r ≠ 10; omega)]
  have hsp1 := (hk sp (by decide)).trans hsp
  have hn1 := (hk x3h (by decide)).trans hn
  have hz : ((mem.writes S (List.replicate 16 0)).writes S l) (S + l.length + 0) = .val 0 := by
    rw [writes_out (by omega), writes_in (by omega) (by rw [List.length_replicate]; omega), List.getElem_replicate]
  refine .alu rfl rfl (.alu rfl rfl ?_)
  simp (disch := decide) only [Opnd.get, set_ne, hsp1, hn1, ofNat_add]
  refine .lbuAt rfl set_eq (by omega) (by rw [hz]; rfl) (.alu rfl rfl ?_)
  refine .sbAt 0x80 rfl (p := S + l.length) (by rg) (by simp (disch := decide) only [Opnd.get, BitOp.fn, set_eq, set_ne]; decide)
    (by omega) (by rw [hz]; simp) ?_
  rw [show S + l.length + 0 = S + l.length from rfl, writes_pad12 _ _ _ h16]
  generalize hm2 : Asm.M.set _ a3 _ = m2
  have hk2 : ∀ r, (r < 8 ∨ 15 ≤ r) → m2.r r = m.r r := by
    intro r hr
    rw [← hm2, set_ne (by show r ≠ 11; omega), set_ne (by show r ≠ 11; omega), set_ne (by show r ≠ 10; omega), set_ne (by show r ≠ 13; omega), hk r hr]
  have hs2 : m2.stk = m.stk := by rw [← hm2]; exact hs1
  clear hm2
  have hbl : (Variant.v12.pad l).length = 16 := Variant.length_pad l h16
  have hfr2 : Fr (D S) mem (mem.writes S (Variant.v12.pad l)) := (Fr.refl _ _).writes _ _ fun a h h' => by unfold D; omega
  have hst2 : St s S m2 (mem.writes S (Variant.v12.pad l)) := hst.frame (fun r hr => hk2 r (sregs_lt r hr)) hs2
    (fun a ha => writes_out (by unfold P at ha; omega)) hfr2.live
  refine (load (pc := 184) rfl rfl rfl rfl rfl rfl (by decide) (by decide) hst2.env.sp (by omega) (holds_writes_self _ _ _) hbl).cut ?_
  rintro t pc' m3 mem3 ⟨rfl, rfl, ht3, hk3, hs3, rfl⟩
  refine (xorIn_goes (pc := 189) rfl rfl rfl rfl (hst2.keep (fun r hr => hk3 r (notin_r (sregs_lt r hr))) hs3) ht3).cut ?_
  rintro t pc' m4 mem4 ⟨rfl, rfl, hst4, hk4, rfl⟩
  have hk4' : ∀ r, r ∈ [x2h, x2l, x3h, x3l] → m4.r r = m.r r := fun r hr => by
    rw [hk4 r (by revert hr; revert r; decide), hk3 r (by revert hr; revert r; decide), hk2 r (by revert hr; revert r; decide)]
  have e2h := hk4' x2h (by decide)
  have e2l := hk4' x2l (by decide)
  have e3h := hk4' x3h (by decide)
  have e3l := hk4' x3l (by decide)
  clear hk4 hk3 hk2 hk hk1 ht3 hz hs2 hs3 hst2 hs1 hsp1 hn1
  have hmr4 := e3l.trans hmr
  have hra2 : (mem.writes S (Variant.v12.pad l)).Holds (S + 88) (repr32 .little (at_ base r)) :=
    hfr2.holds (fun a h h' => by rw [len32] at h'; unfold D; omega) hra
  refine .br (decide (md = .ad)) rfl (by simp only [Opnd.get, Cmp.eval, hmr4]; exact eq_zero md) rfl ?_
  by_cases had : md = .ad
  · rw [decide_eq_true had, if_pos rfl]
    simp only [if_pos had]
    have hnd : md ≠ .dec := by rw [had]; decide
    refine (fin_reset (s0 := s) (l := l) (l' := l') hst4 rfl rfl rfl (e2l.trans hip) hipE (e3h.trans hn) h16 hd hmr4
      (fun h => absurd h hnd) hra2 hr).mono ?_
    rintro t pc' m' mem' ⟨rfl, rfl, h1, h2, h3, h4⟩
    refine ⟨?_, rfl, h1, by rw [h2, e2h, e3h], by rw [h3, e2l, e3h], hfr2.trans h4⟩
    simp only [finT, wblock, block, if_pos had, decide_eq_true had, List.append_assoc, Nat.add_zero, List.cons_append, List.nil_append]
  · rw [decide_eq_false had, if_neg (by decide)]
    simp only [if_neg had]
    obtain ⟨o1, o2, o3, o4⟩ := hout had
    generalize hs' : Variant.v12.xorIn s (Variant.v12.pad l) = s' at *
    refine .alu rfl rfl (.alu rfl rfl (.alu rfl rfl (.alu rfl rfl ?_)))
    simp (disch := decide) only [Opnd.get, set_ne, hst4.r0, hst4.r1, hst4.r2, hst4.r3]
    refine (call_rev8 (pc := 198) rfl rfl (by decide) (by rw [set_ne (by decide), set_ne (by decide), set_ne (by decide), set_eq])
      (by rw [set_ne (by decide), set_ne (by decide), set_eq]) (by rw [set_ne (by decide), set_eq]) set_eq).cut ?_
    rintro t pc' m5 mem5 ⟨rfl, rfl, q0, q1, q2, q3, hk5, hs5, rfl⟩
    rw [rev8_1] at q0 q2
    rw [rev8_0] at q1 q3
    have hk5' : ∀ r, (r < 8 ∨ 15 ≤ r) → m5.r r = m4.r r := by
      intro r hr
      rw [hk5 r (notin_r hr), set_ne (by show r ≠ 8; omega), set_ne (by show r ≠ 9; omega), set_ne (by show r ≠ 12; omega), set_ne (by show r ≠ 13; omega)]
    have hsp5 := (hk5' sp (by decide)).trans hst4.env.sp
    have hw5 := hst4.env.wr
    refine s32At (p := S) _ rfl hsp5 q0 (by omega) (hw5.mono (by omega) (by omega)) ?_
    refine s32At (p := S) _ rfl hsp5 q1 (by omega) (hw5.writes.mono (by omega) (by omega)) ?_
    refine s32At (p := S) _ rfl hsp5 q2 (by omega) (hw5.writes.writes.mono (by omega) (by omega)) ?_
    refine s32At (p := S) _ rfl hsp5 q3 (by omega) (hw5.writes.writes.writes.mono (by omega) (by omega)) ?_
    have hRl : (Variant.v12.rate s').length = 16 := Variant.length_rate Variant.v12_ok _
    have hO : Variant.v12.finO s l = (Variant.v12.rate s').take l.length := by rw [← hs']; rfl
    have hol : (Variant.v12.finO s l).length = l.length := Variant.length_finO Variant.v12_ok s l h16
    rw [← writes_block, ← v12_rate, writes_over _ _ _ _ (by omega), List.drop_of_length_le (by omega), List.append_nil]
    refine .alu rfl rfl (.alu rfl rfl ?_)
    have e2h5 := (hk5' x2h (by decide)).trans (e2h.trans o1)
    have e3h5 := (hk5' x3h (by decide)).trans (e3h.trans hn)
    refine (call_copy copyAt (Variant.v12.finO s l) S op (pc := 205) rfl rfl (by rw [len]; decide)
      (by simp (disch := decide) only [Opnd.get, set_eq, set_ne, e2h5]) (by simp (disch := decide) only [Opnd.get, set_eq, set_ne, hsp5])
      (by simp (disch := decide) only [set_ne, e3h5, hol])
      (by omega) (by omega) (by omega) (by rw [hO]; exact (holds_writes_self mem S _).take _) (by rw [hol]; exact o3.writes)
      (by unfold Disjoint at o4 ⊢; omega)).cut ?_
    rintro t pc' m6 mem6 ⟨rfl, rfl, hk6, hs6, rfl⟩
    have hk6' : ∀ r, (r < 8 ∨ 15 ≤ r) → m6.r r = m4.r r := by
      intro r hr
      rw [hk6 r (notin_c hr), set_ne (by show r ≠ 11; omega), set_ne (by show r ≠ 10; omega), hk5' r hr]
    have hd16 : Disjoint S (Variant.v12.rate s').length op (Variant.v12.finO s l).length := by
      rw [hol, hRl]; unfold Disjoint at o4 ⊢; omega
    rw [writes_comm hd16]
    have hfr6 : Fr (D S) (mem.writes op (Variant.v12.finO s l)) ((mem.writes op (Variant.v12.finO s l)).writes S (Variant.v12.rate s')) :=
      (Fr.refl _ _).writes _ _ fun a h h' => by unfold D; omega
    have hst6 : St s' S m6 ((mem.writes op (Variant.v12.finO s l)).writes S (Variant.v12.rate s')) := by
      refine hst4.frame (fun r hr => hk6' r (sregs_lt r hr)) (hs6.trans hs5) (fun a ha => ?_) (fun a ha => ?_)
      · unfold P at ha
        rw [writes_out (by omega), writes_out (by unfold Disjoint at o4; omega), writes_out (by omega)]
      · refine hfr6.live a (live_writes _ _ _ a ?_)
        by_cases h1 : S ≤ a ∧ a < S + 16
        · have := hw (a - S) (by omega); rwa [show S + (a - S) = a by omega] at this
        · rwa [writes_out (by omega)] at ha
    refine (fin_reset (s0 := s) (l := l) (l' := l') hst6 hs'.symm rfl rfl ((hk6' _ (by decide)).trans (e2l.trans hip)) hipE
      ((hk6' _ (by decide)).trans (e3h.trans hn)) h16 hd ((hk6' _ (by decide)).trans hmr4) ?_ ?_ hr).mono ?_
    · intro h
      obtain ⟨g1, g2⟩ := hdec h
      exact ⟨hfr6.holds (fun a h h' => by rw [g2] at h'; unfold Disjoint at hd; unfold D; omega) g1, g2, holds_writes_self _ _ _⟩
    · refine hfr6.holds (fun a h h' => by rw [len32] at h'; unfold D; omega) (hra.writes_disjoint ?_)
      rw [hol, len32]; unfold Disjoint at o4 ⊢; omega
    rintro t pc' m' mem' ⟨rfl, rfl, h1, h2, h3, h4⟩
    refine ⟨?_, rfl, h1, ?_, ?_, hfr6.trans h4⟩
    · simp only [finT, wblock, block, if_neg had, hol, decide_eq_false had, List.append_assoc, Nat.add_zero, List.cons_append, List.nil_append]
    · rw [h2, hk6' _ (by decide), hk6' _ (by decide), e2h, e3h]
    · rw [h3, hk6' _ (by decide), hk6' _ (by decide), e2l, e3h]

/-- Events of `ascon_duplex` from `.LDcond` on. -/
def condT (md : Mode) (ip op S n : Nat) : List Event :=
  if h : 16 ≤ n then .branch true :: (stepT md ip op S ++ condT md (ip + 16) (op + 16) S (n - 16))
  else .branch false :: finT md ip op S n
termination_by n
decreasing_by omega

/-- `ascon_duplex` from `.LDcond` on. -/
theorem duplex_goes (md : Mode) (M : List Byte) : ∀ (m : Regs) (mem : Mem) (s : State) (l' : List Byte)
    (ip op r : Nat), St s S m mem → m.r x3l = md.val → mem.Holds (S + 72) (repr32 .little md.val) →
    m.r x2l = BitVec.ofNat 32 ip → ip + M.length ≤ 2 ^ 32 → m.r x3h = BitVec.ofNat 32 M.length → M.length < 2 ^ 32 →
    mem.Holds ip M → Disjoint S 96 ip M.length →
    (md ≠ .ad → m.r x2h = BitVec.ofNat 32 op ∧ op + M.length ≤ 2 ^ 32 ∧ mem.Writable op M.length ∧
      Disjoint S 96 op M.length ∧ (op ≤ ip ∨ ip + M.length ≤ op)) →
    (md = .dec → (mem.writes op (Variant.v12.duplex md s M l').2).Holds (ip + M.length / 16 * 16) l' ∧ l'.length = M.length % 16) →
    mem.Holds (S + 88) (repr32 .little (at_ base r)) → r < 348 →
    Goes xaead_code base 170 m mem fun t pc' m' mem' => t = condT md ip op S M.length ∧ pc' = r ∧
      St (Variant.v12.duplex md s M l').1 S m' mem' ∧ m'.r x2h = m.r x2h + BitVec.ofNat 32 M.length ∧
      m'.r x2l = BitVec.ofNat 32 (ip + M.length) ∧
      Fr (D S) (if md = .ad then mem else mem.writes op (Variant.v12.duplex md s M l').2) mem' := by
  induction hn : M.length using Nat.strongRecOn generalizing M with
  | ind n ih =>
    subst hn
    intro m mem s l' ip op r hst hmr hmd hip hipE hln hlt hM hdI hout hdec hra hr
    refine .br (decide (16 ≤ M.length)) (pc1 := if 16 ≤ M.length then 122 else 171) rfl ?_ ?_ ?_
    · simp only [Opnd.get, Cmp.eval, hln]
      exact ule_ofNat 16 M.length (by decide) hlt
    · by_cases h16 : 16 ≤ M.length
      · rw [if_pos h16, if_pos (decide_eq_true h16)]; rfl
      · rw [if_neg h16, if_neg (by simpa using h16)]
    by_cases h16 : 16 ≤ M.length
    · rw [if_pos h16, decide_eq_true h16]
      have hl16 : (M.take 16).length = 16 := by simp; omega
      refine (step (op := op) hst hip (by omega) (hM.take 16) hl16 hln h16 hmr hmd ?_).cut ?_
      · intro hne
        obtain ⟨h1, h2, h3, h4, h5⟩ := hout hne
        exact ⟨h1, by omega, h3.mono (by omega) (by omega), by unfold Disjoint at h4 ⊢; omega⟩
      rintro t pc' m2 mem2 ⟨rfl, rfl, hst2, e2h, e2l, e3h, e3l, hfr2⟩
      have hrl : (Variant.v12.rate (Variant.v12.xorIn s (M.take 16))).length = 16 := Variant.length_rate Variant.v12_ok _
      have hdl : (M.drop 16).length = M.length - 16 := List.length_drop
      have hkeep : ∀ p bs, mem.Holds p bs → (∀ a, p ≤ a → a < p + bs.length → ¬ D S a) → (md ≠ .ad → Disjoint op 16 p bs.length) →
          mem2.Holds p bs := by
        intro p bs hb hD hd
        refine hfr2.holds hD ?_
        split
        · exact hb
        · rename_i h; exact hb.writes_disjoint (by rw [hrl]; exact hd h)
      have hwr : ∀ p k, mem.Writable p k → mem2.Writable p k := by
        intro p k hb
        refine hfr2.writable ?_
        split
        · exact hb
        · exact hb.writes
      have hslot : ∀ o v, o = 72 ∨ o = 88 → mem.Holds (S + o) (repr32 .little v) → mem2.Holds (S + o) (repr32 .little v) := by
        intro o v ho hb
        refine hkeep _ _ hb (fun a h h' => by rw [len32] at h'; unfold D; omega) fun hne => ?_
        obtain ⟨h1, h2, h3, h4, h5⟩ := hout hne
        rw [len32]; unfold Disjoint at h4 ⊢; omega
      refine (ih (M.drop 16).length (by omega) (M.drop 16) rfl m2 mem2 _ l' (ip + 16) (op + 16) r hst2 e3l (hslot 72 _ (Or.inl rfl) hmd)
        e2l (by omega) (by rw [e3h, hdl]) (by omega) (hkeep _ _ (hM.drop 16 h16) ?_ ?_) (by unfold Disjoint at hdI ⊢; omega) ?_ ?_
        (hslot 88 _ (Or.inr rfl) hra) hr).mono ?_
      · intro a h h'
        unfold Disjoint at hdI; unfold D; omega
      · intro hne
        obtain ⟨h1, h2, h3, h4, h5⟩ := hout hne
        unfold Disjoint; omega
      · intro hne
        obtain ⟨h1, h2, h3, h4, h5⟩ := hout hne
        refine ⟨by rw [e2h, h1]; exact ofNat_add op 16, by omega, hwr _ _ (h3.mono (by omega) (by omega)), by unfold Disjoint at h4 ⊢; omega, by omega⟩
      · intro hd
        obtain ⟨h1, h2⟩ := hdec hd
        rw [Variant.duplex_of_ge md s M l' h16] at h1
        simp only at h1
        rw [writes_append, hrl] at h1
        rw [hdl, h2]
        refine ⟨?_, by omega⟩
        rw [show ip + 16 + (M.length - 16) / 16 * 16 = ip + M.length / 16 * 16 by omega]
        have hfr3 := hfr2.congr (op + 16) (Variant.v12.duplex md (perm 8 (Variant.v12.stepS md s (M.take 16))) (M.drop 16) l').2
        rw [if_neg (by rw [hd]; decide)] at hfr3
        refine hfr3.holds (fun a h h' => ?_) h1
        rw [h2] at h'; unfold Disjoint at hdI; unfold D; omega
      · rintro t pc' m3 mem3 ⟨rfl, rfl, hst3, e2h', e2l', hfr3⟩
        rw [Variant.duplex_of_ge md s M l' h16]
        refine ⟨?_, rfl, hst3, ?_, ?_, ?_⟩
        · rw [hdl]
          conv => rhs; rw [condT]
          rw [dif_pos h16]
        · rw [e2h', e2h, BitVec.add_assoc, hdl]
          congr 1
          show BitVec.ofNat 32 16 + _ = _
          rw [ofNat_add]; congr 1; omega
        · rw [e2l', hdl]; congr 1; omega
        · by_cases had : md = .ad
          · simp only [if_pos had] at hfr2 hfr3 ⊢
            exact hfr2.trans hfr3
          · simp only [if_neg had] at hfr2 hfr3 ⊢
            rw [writes_append, hrl]
            exact (hfr2.congr _ _).trans hfr3
    · rw [if_neg h16, decide_eq_false h16]
      have hlt : M.length < 16 := by omega
      refine (fin (op := op) (l := M) (l' := l') hst hip hipE hln hlt hM hdI hmr (fun hne => ?_) (fun hd => ?_) hra hr).mono ?_
      · obtain ⟨h1, h2, h3, h4, h5⟩ := hout hne
        exact ⟨h1, h2, h3, h4⟩
      · obtain ⟨h1, h2⟩ := hdec hd
        rw [Variant.duplex_of_lt md s M l' hlt, Nat.div_eq_of_lt hlt] at h1
        rw [Nat.mod_eq_of_lt hlt] at h2
        exact ⟨h1, h2⟩
      · rintro t pc' m3 mem3 ⟨rfl, rfl, hst3, h1, h2, h3⟩
        rw [Variant.duplex_of_lt md s M l' hlt]
        refine ⟨?_, rfl, hst3, by rw [h1, hln], by rw [h2, hip, hln, ofNat_add], h3⟩
        rw [condT, dif_neg h16]

/-- What a call of `ascon_duplex` changes in the frame. -/
def D' (S a : Nat) : Prop := D S a ∨ (S + 88 ≤ a ∧ a < S + 92)

/-- Events of a call of `ascon_duplex`. -/
def duplexT (md : Mode) (ip op S n : Nat) : List Event := writesE (S + 88) 4 ++ condT md ip op S n

/-- A call of `ascon_duplex`. -/
theorem call_duplex {pc : Nat} {rel : Int} (hf : xaead_code[pc]? = some (.jal (some ra) rel)) (hd : dest pc rel = 120) (hpc : pc + 1 < 348)
    (md : Mode) (M : List Byte) (m : Regs) (mem : Mem) (s : State) (l' : List Byte)
    (ip op : Nat) (hst : St s S m mem) (hmr : m.r x3l = md.val) (hmd : mem.Holds (S + 72) (repr32 .little md.val))
    (hip : m.r x2l = BitVec.ofNat 32 ip) (hipE : ip + M.length ≤ 2 ^ 32) (hln : m.r x3h = BitVec.ofNat 32 M.length) (hlt : M.length < 2 ^ 32)
    (hM : mem.Holds ip M) (hdI : Disjoint S 96 ip M.length)
    (hout : md ≠ .ad → m.r x2h = BitVec.ofNat 32 op ∧ op + M.length ≤ 2 ^ 32 ∧ mem.Writable op M.length ∧
      Disjoint S 96 op M.length ∧ (op ≤ ip ∨ ip + M.length ≤ op))
    (hdec : md = .dec → (mem.writes op (Variant.v12.duplex md s M l').2).Holds (ip + M.length / 16 * 16) l' ∧ l'.length = M.length % 16) :
    Goes xaead_code base pc m mem fun t pc' m' mem' => t = duplexT md ip op S M.length ∧ pc' = pc + 1 ∧
      St (Variant.v12.duplex md s M l').1 S m' mem' ∧ m'.r x2h = m.r x2h + BitVec.ofNat 32 M.length ∧
      m'.r x2l = BitVec.ofNat 32 (ip + M.length) ∧
      Fr (D' S) (if md = .ad then mem else mem.writes op (Variant.v12.duplex md s M l').2) mem' := by
  have hl := hst.env.lim
  have hsp := hst.env.sp
  refine .jal hf hd (s32At (p := S) (at_ base (pc + 1)) rfl (by rg) (by exact set_eq) (by omega) (hst.env.wr.mono (by omega) (by omega)) (.j (pc1 := 170) rfl rfl ?_))
  have hfr : Fr (D' S) mem (mem.writes (S + 88) (repr32 .little (at_ base (pc + 1)))) :=
    (Fr.refl _ _).writes _ _ fun a h h' => by rw [len32] at h'; unfold D'; omega
  have hst1 : St s S (m.set ra (at_ base (pc + 1))) (mem.writes (S + 88) (repr32 .little (at_ base (pc + 1)))) :=
    hst.frame (fun r hr => set_ne (by rintro rfl; revert hr; decide)) rfl (fun a ha => writes_out (by rw [len32]; unfold P at ha; omega)) hfr.live
  have hkeep : ∀ p bs, mem.Holds p bs → (∀ a, p ≤ a → a < p + bs.length → a < S + 88 ∨ S + 92 ≤ a) →
      (mem.writes (S + 88) (repr32 .little (at_ base (pc + 1)))).Holds p bs := by
    intro p bs hb hh i hi
    rw [writes_out (by rw [len32]; have := hh (p + i) (by omega) (by omega); omega)]; exact hb i hi
  refine (duplex_goes md M _ _ s l' ip op (pc + 1) hst1 (by rw [set_ne (by decide)]; exact hmr) (hkeep _ _ hmd ?_)
    (by rw [set_ne (by decide)]; exact hip) hipE (by rw [set_ne (by decide)]; exact hln) hlt (hkeep _ _ hM ?_) hdI ?_ ?_
    (holds_writes_self _ _ _) hpc).mono ?_
  · intro a h h'; rw [len32] at h'; omega
  · intro a h h'; unfold Disjoint at hdI; omega
  · intro hne
    obtain ⟨h1, h2, h3, h4, h5⟩ := hout hne
    exact ⟨by rw [set_ne (by decide)]; exact h1, h2, h3.writes, h4, h5⟩
  · intro hdc
    obtain ⟨h1, h2⟩ := hdec hdc
    refine ⟨(hfr.congr _ _).holds (fun a h h' => ?_) h1, h2⟩
    rw [h2] at h'; unfold Disjoint at hdI; unfold D' D; omega
  · rintro t pc' m' mem' ⟨rfl, rfl, h1, h2, h3, h4⟩
    refine ⟨rfl, rfl, h1, by rw [h2, set_ne (by decide)], h3, ?_⟩
    have h4' : Fr (D' S) _ mem' := h4.mono fun a h => Or.inl h
    by_cases had : md = .ad
    · simp only [if_pos had] at h4' ⊢
      exact hfr.trans h4'
    · simp only [if_neg had] at h4' ⊢
      exact (hfr.congr _ _).trans h4'

end A
end Ascon.Xt
