import Verif.Proof.XtFrame
import Verif.Spec.AsconHash12
/-!
# The two hash files of asm_esp32 compute Ascon-Hash and Ascon-Xof (v1.2)

The files differ in ten constants only; `hcode s` is the code with the constants of the state `s`.
-/

namespace Ascon.Xt

open Ascon.C Ascon.Spec Ascon.Asm
open Ascon.Masked (U32 repr32 le32 le32_repr)
open Ascon.Rv
open Ascon.Rv.Impl (set_ne set_eq ofNat_add)
open Ascon.Arm (csOpt cReg idσ)
open Ascon.Spec.V12 (be64 beBytes absorb8 squeeze8 pad8)
open Ascon.Xt (sp ra a2 a3 x0l x0h x1l x1h x2l x2h x3l x3h x4l x4h t0l t0h lc)

attribute [local irreducible] perm

/-- The code with the constants of `s`. -/
def hcode (s : State) : List Ins :=
  xhash_code.take 113 ++
  [.alu (.mov x0h (.imm (chunk 32 1 s.x0))), .alu (.mov x0l (.imm (chunk 32 0 s.x0))),
   .alu (.mov x1h (.imm (chunk 32 1 s.x1))), .alu (.mov x1l (.imm (chunk 32 0 s.x1))),
   .alu (.mov x2h (.imm (chunk 32 1 s.x2))), .alu (.mov t0h (.imm (chunk 32 0 s.x2))),
   .alu (.mov t0l (.imm (chunk 32 1 s.x3))), .alu (.mov x3l (.imm (chunk 32 0 s.x3))),
   .alu (.mov x4h (.imm (chunk 32 1 s.x4))), .alu (.mov x4l (.imm (chunk 32 0 s.x4)))] ++
  xhash_code.drop 123

/-- Constants of crypto_hash/asconhash256/asm_esp32/ascon.S:209-218 -/
def initHash : State :=
  ⟨0xee9398aadb67f03d, 0x8bb21831c60f1002, 0xb48a92db98d5da62, 0x43189921b8f8e3e8, 0x348fa5c9d525e140⟩
/-- Constants of crypto_hash/asconxof128/asm_esp32/ascon.S:209-218 -/
def initXof : State :=
  ⟨0xb57e273b814cd416, 0x2b51042562ae2420, 0x66a3a7768ddf2218, 0x5aad0a7a8153650c, 0x4f3e0e32539493b6⟩

theorem xhash_eq : xhash_code = hcode initHash := by
  simp only [xhash_code, hcode]
  rfl
theorem xxof_eq : xxof_code = hcode initXof := by
  simp only [xxof_code, hcode]
  rfl

theorem initHash_eq : initHash = spongeInit V12.ivHash12 := by decide +kernel
theorem initXof_eq : initXof = spongeInit V12.ivXof12 := by decide +kernel

namespace H

variable {c : State} {base : U32} {S : Nat}

theorem len (c : State) : (hcode c).length = 192 := by
  unfold hcode
  rw [List.length_append, List.length_append, List.length_take, List.length_drop]
  have : xhash_code.length = 192 := by decide +kernel
  rw [this]; rfl

theorem loopAt (c : State) : LoopAt (hcode c) 2 xhash_ascon_permute_noloadBody where
  init := rfl
  blk := by
    intro i hi
    have hb : xhash_ascon_permute_noloadBody.length = 81 := by decide +kernel
    have : xhash_code = (xhash_ascon_permute ++ xhash_ascon_permute_noload) ++ (xhash_ascon_permute_noloadBody.map .alu ++
        (xhash_ascon_permute_noloadEnd ++ xhash_ascon_rev8_half ++ xhash_ascon_memcpy ++ xhash_ascon_core)) := by
      simp only [xhash_code, List.append_assoc]
    have h3 : (xhash_ascon_permute ++ xhash_ascon_permute_noload).length = 3 := rfl
    unfold hcode
    rw [List.append_assoc, List.getElem?_append_left (by rw [List.length_take, show xhash_code.length = 192 by decide +kernel]; omega),
      List.getElem?_take, if_pos (by omega), this, List.getElem?_append_right (by rw [h3]; omega), h3,
      List.getElem?_append_left (by rw [List.length_map]; omega)]
    simp [show 2 + 1 + i - 3 = i by omega, hi]
  next := rfl
  dec := rfl
  back := rfl

theorem permTame : tame xhash_ascon_permute_noloadBody = true := by decide +kernel

theorem permCheck : checkBlock 2 (fun i => i) csOpt [cReg] (fun _ => none) xhash_ascon_permute_noloadBody idσ (fun _ => true) = true := by
  decide +kernel

theorem copyAt (c : State) : CopyAt (hcode c) 99 where
  i0 := rfl
  i1 := rfl
  i2 := rfl
  i3 := rfl
  i4 := rfl
  i5 := rfl
  i6 := rfl
  i7 := rfl
  i8 := rfl
  size := by rw [len]; decide

/-- Where the state is: three half words in memory (two of them), the others in registers. -/
structure St (s : State) (S : Nat) (m : Regs) (mem : Mem) : Prop where
  r0 : m.r x0l = chunk 32 0 s.x0
  r1 : m.r x0h = chunk 32 1 s.x0
  r2 : m.r x1l = chunk 32 0 s.x1
  r3 : m.r x1h = chunk 32 1 s.x1
  r5 : m.r x2h = chunk 32 1 s.x2
  r6 : m.r x3l = chunk 32 0 s.x3
  r8 : m.r x4l = chunk 32 0 s.x4
  r9 : m.r x4h = chunk 32 1 s.x4
  m2 : mem.Holds (S + 20) (repr32 .little (chunk 32 0 s.x2))
  m3 : mem.Holds (S + 24) (repr32 .little (chunk 32 1 s.x3))
  stk : m.stk = []
  sp : m.r sp = BitVec.ofNat 32 S
  wr : mem.Writable S 48
  lim : S + 48 ≤ 2 ^ 32

/-- The slots of the two half words. -/
def P (S a : Nat) : Prop := S + 20 ≤ a ∧ a < S + 28
/-- The buffer. -/
def B (S a : Nat) : Prop := S ≤ a ∧ a < S + 8
/-- Everything that changes: buffer, pointer, state, length. -/
def D (S a : Nat) : Prop := (S ≤ a ∧ a < S + 8) ∨ (S + 12 ≤ a ∧ a < S + 36)

theorem len32 (v : U32) : (repr32 .little v).length = 4 := rfl

/-- Registers of the state. -/
abbrev sregs : List Nat := [x0l, x0h, x1l, x1h, x2h, x3l, x4l, x4h, sp]

theorem St.frame {s : State} {m m' : Regs} {mem mem' : Mem} (h : St s S m mem) (hr : Same sregs m m') (hs : m'.stk = m.stk)
    (hm : ∀ a, P S a → mem' a = mem a) (hw : ∀ a, (mem a).rw = true → (mem' a).rw = true) : St s S m' mem' where
  r0 := (hr _ (by decide)).trans h.r0
  r1 := (hr _ (by decide)).trans h.r1
  r2 := (hr _ (by decide)).trans h.r2
  r3 := (hr _ (by decide)).trans h.r3
  r5 := (hr _ (by decide)).trans h.r5
  r6 := (hr _ (by decide)).trans h.r6
  r8 := (hr _ (by decide)).trans h.r8
  r9 := (hr _ (by decide)).trans h.r9
  m2 := fun i hi => by rw [hm _ ⟨by omega, by rw [len32] at hi; omega⟩]; exact h.m2 i hi
  m3 := fun i hi => by rw [hm _ ⟨by omega, by rw [len32] at hi; omega⟩]; exact h.m3 i hi
  stk := hs.trans h.stk
  sp := (hr _ (by decide)).trans h.sp
  wr := fun i hi => hw _ (h.wr i hi)
  lim := h.lim

theorem St.keep {s : State} {m m' : Regs} {mem : Mem} (h : St s S m mem) (hr : Same sregs m m') (hs : m'.stk = m.stk) :
    St s S m' mem := h.frame hr hs (fun _ _ => rfl) (fun _ h => h)

/-- Events of a call of the permutation. -/
def permT (S : Nat) : List Event :=
  reads (S + 20) 4 ++ reads (S + 24) 4 ++ roundsT 12 ++ writesE (S + 20) 4 ++ writesE (S + 24) 4

theorem call_perm {pc : Nat} {rel : Int} {m : Regs} {mem : Mem} {s : State} (hf : (hcode c)[pc]? = some (.jal (some ra) rel))
    (hd : dest pc rel = 0) (hpc : pc + 1 < 192) (hst : St s S m mem) (h2 : m.r a2 = 0xf0) (h3 : m.r a3 = 0xc) :
    Goes (hcode c) base pc m mem fun t pc' m' mem' => t = permT S ∧ pc' = pc + 1 ∧ St (perm 12 s) S m' mem' ∧
      Fr (P S) mem mem' := by
  have hl := hst.lim
  refine .jal hf hd (l32At (p := S) (v := chunk 32 0 s.x2) rfl (by rw [set_ne (by decide)]; exact hst.sp) (by omega) hst.m2 ?_)
  refine l32At (p := S) (v := chunk 32 1 s.x3) rfl (by rw [set_ne (by decide), set_ne (by decide)]; exact hst.sp) (by omega) hst.m3 ?_
  refine (loop_goes (loopAt c) permTame permCheck 12 (by decide) (by decide) s _ mem (loaded_iff.mpr ?_) (by exact hst.stk) ?_ ?_).cut ?_
  · simp (disch := decide) only [set_eq, set_ne, hst.r0, hst.r1, hst.r2, hst.r3, hst.r5, hst.r6, hst.r8, hst.r9, and_self]
  · rw [set_ne (by decide), set_ne (by decide), set_ne (by decide), h2]; rfl
  · rw [set_ne (by decide), set_ne (by decide), set_ne (by decide), h3]; rfl
  rintro t pc' m1 mem1 ⟨rfl, rfl, hl1, hs1, hk1, rfl⟩
  obtain ⟨e0, e1, e2, e3, e4, e5, e6, e7, e8, e9⟩ := loaded_iff.mp hl1
  have hsp : m1.r sp = BitVec.ofNat 32 S := by
    rw [hk1 _ (by decide) (by decide), set_ne (by decide), set_ne (by decide), set_ne (by decide)]; exact hst.sp
  have hra : m1.r ra = at_ base (pc + 1) := by
    rw [hk1 _ (by decide) (by decide), set_ne (by decide), set_ne (by decide), set_eq]
  have hb : 2 + 1 + xhash_ascon_permute_noloadBody.length + 3 = 87 := by decide +kernel
  rw [hb]
  refine s32At (p := S) (chunk 32 0 (perm 12 s).x2) rfl hsp e4 (by omega) (hst.wr.mono (by omega) (by omega)) ?_
  refine s32At (p := S) (chunk 32 1 (perm 12 s).x3) rfl hsp e7 (by omega) (hst.wr.writes.mono (by omega) (by omega)) ?_
  refine .jalr rfl hra (by rw [len]; exact hpc) (copyAt c).size (.done ⟨?_, rfl, ?_, ?_⟩)
  · simp only [permT, List.append_assoc, List.append_nil]
  · exact ⟨e0, e1, e2, e3, e5, e6, e8, e9, (holds_writes_self _ _ _).writes_disjoint (by right; right; right; rw [len32]; omega),
      holds_writes_self _ _ _, hs1, hsp, hst.wr.writes.writes, hl⟩
  · exact ((Fr.refl _ _).writes _ _ (fun a h h' => by rw [len32] at h'; unfold P; omega)).writes _ _
      (fun a h h' => by rw [len32] at h'; unfold P; omega)

theorem call_rev8 {pc : Nat} {rel : Int} {m : Regs} {mem : Mem} {x y : U32} (hf : (hcode c)[pc]? = some (.jal (some ra) rel))
    (hd : dest pc rel = 90) (hpc : pc + 1 < 192) (h0 : m.r t0h = x) (h1 : m.r t0l = y) :
    Goes (hcode c) base pc m mem fun t pc' m' mem' => t = [] ∧ pc' = pc + 1 ∧ m'.r t0h = rev8 x ∧ m'.r t0l = rev8 y ∧
      (∀ r, r ∉ [a2, t0l, t0h, ra] → m'.r r = m.r r) ∧ m'.stk = m.stk ∧ mem' = mem := by
  refine .jal hf hd ?_
  refine .alu rfl rfl (.alu rfl rfl (.alu rfl rfl (.alu rfl rfl ?_)))
  refine .alu rfl rfl (.alu rfl rfl (.alu rfl rfl (.alu rfl rfl ?_)))
  refine .jalr rfl (r := pc + 1) ?_ (by rw [len]; exact hpc) (copyAt c).size (.done ⟨rfl, rfl, ?_, ?_, ?_, rfl, rfl⟩)
  · simp (disch := decide) only [set_eq, set_ne]
  · simp (disch := decide) only [Opnd.get, set_eq, set_ne, h0]
    rw [← swap_eq]; rfl
  · simp (disch := decide) only [Opnd.get, set_eq, set_ne, h1]
    rw [← swap_eq]; rfl
  · intro r hr
    simp only [List.mem_cons, List.not_mem_nil, or_false, not_or] at hr
    simp only [set_ne hr.1, set_ne hr.2.1, set_ne hr.2.2.1, set_ne hr.2.2.2]

/-- The word of eight bytes in big-endian order. -/
theorem load_be {b : List Byte} (hb : b.length = 8) :
    rev8 (chunk 32 0 (le64 b)) = chunk 32 1 (be64 b) ∧ rev8 (chunk 32 1 (le64 b)) = chunk 32 0 (be64 b) := by
  rw [rev8_0, rev8_1, rv_le64 b hb]; exact ⟨rfl, rfl⟩

/-- Loading a block, reversing it, and adding it to the state. -/
theorem load_xor {pc a p : Nat} {rel : Int} {m : Regs} {mem : Mem} {s : State} {b : List Byte}
    (f0 : (hcode c)[pc]? = some (.l32 t0h a 0)) (f1 : (hcode c)[pc + 1]? = some (.l32 t0l a 4))
    (f2 : (hcode c)[pc + 2]? = some (.jal (some ra) rel)) (hd : dest (pc + 2) rel = 90) (hpc : pc + 3 < 192)
    (f3 : (hcode c)[pc + 3]? = some (.alu (.bit .xor x0h (.reg x0h) (.reg t0h))))
    (f4 : (hcode c)[pc + 4]? = some (.alu (.bit .xor x0l (.reg x0l) (.reg t0l))))
    (ha : a ≠ t0h) (hst : St s S m mem) (hp : m.r a = BitVec.ofNat 32 p) (hp8 : p + 8 ≤ 2 ^ 32) (hb : mem.Holds p b)
    (hbl : b.length = 8) :
    Goes (hcode c) base pc m mem fun t pc' m' mem' => t = reads p 4 ++ reads (p + 4) 4 ∧ pc' = pc + 5 ∧
      St { s with x0 := s.x0 ^^^ be64 b } S m' mem' ∧ (∀ r, r ∉ [a2, t0l, t0h, ra, x0h, x0l] → m'.r r = m.r r) ∧ mem' = mem := by
  obtain ⟨hb0, hb1⟩ := holds_le64 hb hbl
  refine l32At (p := p) f0 hp (by omega) hb0 (l32At (p := p) f1 (by rw [set_ne ha]; exact hp) (by omega) hb1 ?_)
  refine (call_rev8 f2 hd hpc (by rw [set_ne (by decide), set_eq]) set_eq).cut ?_
  rintro t pc' m1 mem1 ⟨rfl, rfl, g0, g1, hk, hs, rfl⟩
  have hk' : ∀ r, r ∉ [a2, t0l, t0h, ra] → m1.r r = m.r r := by
    intro r hr
    rw [hk r hr]
    simp only [List.mem_cons, List.not_mem_nil, or_false, not_or] at hr
    rw [set_ne hr.2.1, set_ne hr.2.2.1]
  have hst1 : St s S m1 mem1 := hst.keep (fun r hr => hk' r (by revert hr; revert r; decide)) hs
  rw [(load_be hbl).1] at g0
  rw [(load_be hbl).2] at g1
  refine .alu f3 rfl (.alu f4 rfl (.done ⟨?_, rfl, ?_, ?_, rfl⟩))
  · simp only [List.append_nil, Nat.add_zero]
  · refine { hst1 with r0 := ?_, r1 := ?_, r2 := ?_, r3 := ?_, r5 := ?_, r6 := ?_, r8 := ?_, r9 := ?_, sp := ?_ }
    all_goals simp (disch := decide) only [Opnd.get, BitOp.fn, set_eq, set_ne, chunk_xor, hst1.r0, hst1.r1, hst1.r2, hst1.r3,
      hst1.r5, hst1.r6, hst1.r8, hst1.r9, hst1.sp, g0, g1]
  · intro r hr
    simp only [List.mem_cons, List.not_mem_nil, or_false, not_or] at hr
    rw [set_ne hr.2.2.2.2.2, set_ne hr.2.2.2.2.1, hk' r (by simp; omega)]

/-- Events at the end of a block. -/
def tailT (S : Nat) : List Event :=
  writesE (S + 12) 4 ++ writesE (S + 32) 4 ++ permT S ++ reads (S + 12) 4 ++ reads (S + 32) 4

/-- The end of a block: permutation, pointer and length. -/
theorem tail {pc p n : Nat} {rel : Int} {m : Regs} {mem : Mem} {s : State}
    (f0 : (hcode c)[pc]? = some (.s32 (.reg x2l) sp 12)) (f1 : (hcode c)[pc + 1]? = some (.s32 (.reg x3h) sp 32))
    (f2 : (hcode c)[pc + 2]? = some (.alu (.mov a2 (.imm 0xf0)))) (f3 : (hcode c)[pc + 3]? = some (.alu (.mov a3 (.imm 0xc))))
    (f4 : (hcode c)[pc + 4]? = some (.jal (some ra) rel)) (hd : dest (pc + 4) rel = 0) (hpc : pc + 5 < 192)
    (f5 : (hcode c)[pc + 5]? = some (.l32 x2l sp 12)) (f6 : (hcode c)[pc + 6]? = some (.l32 x3h sp 32))
    (f7 : (hcode c)[pc + 7]? = some (.alu (.add x2l (.reg x2l) (.imm 0x8))))
    (f8 : (hcode c)[pc + 8]? = some (.alu (.add x3h (.reg x3h) (.imm 0xfffffff8))))
    (hst : St s S m mem) (hp : m.r x2l = BitVec.ofNat 32 p) (hn : m.r x3h = BitVec.ofNat 32 n) (h8 : 8 ≤ n) :
    Goes (hcode c) base pc m mem fun t pc' m' mem' => t = tailT S ∧ pc' = pc + 9 ∧ St (perm 12 s) S m' mem' ∧
      m'.r x2l = BitVec.ofNat 32 (p + 8) ∧ m'.r x3h = BitVec.ofNat 32 (n - 8) ∧ Fr (D S) mem mem' := by
  have hl := hst.lim
  refine s32At (p := S) (BitVec.ofNat 32 p) f0 hst.sp hp (by omega) (hst.wr.mono (by omega) (by omega)) ?_
  refine s32At (p := S) (BitVec.ofNat 32 n) f1 hst.sp hn (by omega) (hst.wr.writes.mono (by omega) (by omega)) ?_
  refine .alu f2 rfl (.alu f3 rfl ?_)
  generalize hm1 : (mem.writes (S + 12) _).writes (S + 32) _ = mem1
  have hfr1 : Fr (D S) mem mem1 := by
    rw [← hm1]
    exact ((Fr.refl _ _).writes _ _ (fun a h h' => by rw [len32] at h'; unfold D; omega)).writes _ _
      (fun a h h' => by rw [len32] at h'; unfold D; omega)
  have hh1 : mem1.Holds (S + 12) (repr32 .little (BitVec.ofNat 32 p)) := by
    rw [← hm1]
    exact (holds_writes_self _ _ _).writes_disjoint (by right; right; right; rw [len32]; omega)
  have hh2 : mem1.Holds (S + 32) (repr32 .little (BitVec.ofNat 32 n)) := by
    rw [← hm1]; exact holds_writes_self _ _ _
  have hst1 : St s S m mem1 := hst.frame (.refl _ _) rfl (fun a ha => by
    rw [← hm1, writes_out (by rw [len32]; unfold P at ha; omega), writes_out (by rw [len32]; unfold P at ha; omega)]) hfr1.live
  refine (call_perm f4 hd hpc (hst1.keep (m' := (m.set a2 _).set a3 _) (fun r hr => ?_) rfl) (by rw [set_ne (by decide), set_eq]; rfl) (by rw [set_eq]; rfl)).cut ?_
  · rw [set_ne (by rintro rfl; revert hr; decide), set_ne (by rintro rfl; revert hr; decide)]
  rintro t pc' m2 mem2 ⟨rfl, rfl, hst2, hfr2⟩
  refine l32At (p := S) f5 hst2.sp (by omega) (hfr2.holds (fun a h h' => by rw [len32] at h'; unfold P; omega) hh1) ?_
  refine l32At (p := S) f6 (by rw [set_ne (by decide)]; exact hst2.sp) (by omega) (hfr2.holds (fun a h h' => by rw [len32] at h'; unfold P; omega) hh2) ?_
  refine .alu f7 rfl (.alu f8 rfl (.done ⟨?_, rfl, hst2.keep ?_ rfl, ?_, ?_, ?_⟩))
  · simp only [tailT, List.append_assoc, List.append_nil]
  · intro r hr
    rw [set_ne (by rintro rfl; revert hr; decide), set_ne (by rintro rfl; revert hr; decide),
      set_ne (by rintro rfl; revert hr; decide), set_ne (by rintro rfl; revert hr; decide)]
  · simp (disch := decide) only [Opnd.get, set_eq, set_ne]
    exact ofNat_add p 8
  · simp (disch := decide) only [Opnd.get, set_eq, set_ne]
    obtain ⟨k, rfl⟩ : ∃ k, n = k + 8 := ⟨n - 8, by omega⟩
    rw [Nat.add_sub_cancel, ← ofNat_add k 8, BitVec.add_assoc]
    show _ + 0#32 = _
    rw [BitVec.add_zero]
  · exact hfr1.trans (hfr2.mono fun a h => by unfold P at h; unfold D; omega)

theorem tail_absorb {p n : Nat} {m : Regs} {mem : Mem} {s : State}
    (hst : St s S m mem) (hp : m.r x2l = BitVec.ofNat 32 p) (hn : m.r x3h = BitVec.ofNat 32 n) (h8 : 8 ≤ n) :
    Goes (hcode c) base 131 m mem fun t pc' m' mem' => t = tailT S ∧ pc' = 140 ∧ St (perm 12 s) S m' mem' ∧
      m'.r x2l = BitVec.ofNat 32 (p + 8) ∧ m'.r x3h = BitVec.ofNat 32 (n - 8) ∧ Fr (D S) mem mem' :=
  tail (pc := 131) rfl rfl rfl rfl rfl rfl (by decide) rfl rfl rfl rfl hst hp hn h8

theorem tail_squeeze {p n : Nat} {m : Regs} {mem : Mem} {s : State}
    (hst : St s S m mem) (hp : m.r x2l = BitVec.ofNat 32 p) (hn : m.r x3h = BitVec.ofNat 32 n) (h8 : 8 ≤ n) :
    Goes (hcode c) base 168 m mem fun t pc' m' mem' => t = tailT S ∧ pc' = 177 ∧ St (perm 12 s) S m' mem' ∧
      m'.r x2l = BitVec.ofNat 32 (p + 8) ∧ m'.r x3h = BitVec.ofNat 32 (n - 8) ∧ Fr (D S) mem mem' :=
  tail (pc := 168) rfl rfl rfl rfl rfl rfl (by decide) rfl rfl rfl rfl hst hp hn h8

/-- Events of the last block of input. -/
def padT (S ip n : Nat) : List Event :=
  writesE S 4 ++ writesE (S + 4) 4 ++ copyT ip S n ++ [.read (S + n), .write (S + n)] ++ reads S 4 ++ reads (S + 4) 4

theorem zeros8 (mem : Mem) (p : Nat) : (mem.writes (p + 0) (repr32 .little 0)).writes (p + 4) (repr32 .little 0) =
    mem.writes p (List.replicate 8 0) := by
  rw [show List.replicate 8 (0 : Byte) = repr32 .little 0 ++ repr32 .little 0 from by decide, writes_append]
  rfl

/-- The last block of input. -/
theorem last_absorb {ip : Nat} {m : Regs} {mem : Mem} {s : State} {M : List Byte}
    (hst : St s S m mem) (hp : m.r x2l = BitVec.ofNat 32 ip) (hn : m.r x3h = BitVec.ofNat 32 M.length) (h8 : M.length < 8)
    (hip : ip + M.length ≤ 2 ^ 32) (hM : mem.Holds ip M) (hdis : Disjoint S 48 ip M.length) :
    Goes (hcode c) base 141 m mem fun t pc' m' mem' => t = padT S ip M.length ∧ pc' = 157 ∧
      St { s with x0 := s.x0 ^^^ be64 (pad8 M) } S m' mem' ∧ Fr (D S) mem mem' := by
  have hl := hst.lim
  refine .alu rfl rfl ?_
  refine s32At (p := S) 0 rfl (by rw [set_ne (by decide)]; exact hst.sp) (by exact set_eq) (by omega) (hst.wr.mono (by omega) (by omega)) ?_
  refine s32At (p := S) 0 rfl (by rw [set_ne (by decide)]; exact hst.sp) (by exact set_eq) (by omega) (hst.wr.writes.mono (by omega) (by omega)) ?_
  rw [zeros8]
  refine .alu rfl rfl (.alu rfl rfl ?_)
  refine (call_copy (copyAt c) M ip S (pc := 146) rfl rfl (by rw [len]; decide) ?_ ?_ ?_ (by omega) hip (by omega)
    (hM.writes_disjoint ?_) (hst.wr.writes.mono (by omega) (by omega)) ?_).cut ?_
  · simp (disch := decide) only [Opnd.get, set_eq, set_ne, hst.sp]
  · simp (disch := decide) only [Opnd.get, set_eq, set_ne, hp]
  · simp (disch := decide) only [Opnd.get, set_eq, set_ne, hn]
  · unfold Disjoint at hdis ⊢; rw [List.length_replicate]; omega
  · unfold Disjoint at hdis ⊢; omega
  rintro t pc' m1 mem1 ⟨rfl, rfl, hk1, hs1, rfl⟩
  have hk : ∀ r, r ∉ [a2, a3, t0l, t0h, ra] → m1.r r = m.r r := by
    intro r hr
    rw [hk1 r hr]
    simp only [List.mem_cons, List.not_mem_nil, or_false, not_or] at hr
    rw [set_ne hr.2.1, set_ne hr.1, set_ne hr.1]
  have hz : ((mem.writes S (List.replicate 8 0)).writes S M).Holds (S + M.length) ((0 : Byte) :: List.replicate (7 - M.length) 0) := by
    have h0 : (mem.writes S (List.replicate 8 0)).Holds S (List.replicate M.length 0 ++ ((0 : Byte) :: List.replicate (7 - M.length) 0)) := by
      have e : List.replicate M.length 0 ++ ((0 : Byte) :: List.replicate (7 - M.length) 0) = List.replicate 8 0 := by
        rw [← List.replicate_succ, List.replicate_append_replicate]; congr 1; omega
      rw [e]; exact holds_writes_self _ _ _
    have h1 := (holds_append.mp h0).2
    rw [List.length_replicate] at h1
    exact h1.writes_disjoint (by right; right; left; omega)
  refine .alu rfl rfl (.alu rfl rfl ?_)
  refine .lbuAt (p := S + M.length) (b := 0) rfl ?_ (by omega) (holds_cons.mp hz).1 ?_
  · simp (disch := decide) only [Opnd.get, set_eq, set_ne, hk, hst.sp, hn]
    exact ofNat_add _ _
  refine .alu rfl rfl ?_
  refine .sbAt (p := S + M.length) (0x80 : Byte) rfl ?_ ?_ (by omega) ?_ ?_
  · simp (disch := decide) only [Opnd.get, set_eq, set_ne, hk, hst.sp, hn]
    exact ofNat_add _ _
  · simp (disch := decide) only [Opnd.get, BitOp.fn, set_eq, set_ne]
    decide
  · exact (hst.wr.writes.writes) _ (by omega)
  generalize hm2 : ((mem.writes S _).writes S M).writes (S + M.length + 0) _ = mem2
  have hfr : Fr (D S) mem mem2 := by
    rw [← hm2]
    refine (((Fr.refl _ _).writes _ _ fun a h h' => ?_).writes _ _ fun a h h' => ?_).writes _ _ fun a h h' => ?_
    · rw [List.length_replicate] at h'; unfold D; omega
    · unfold D; omega
    · rw [List.length_singleton] at h'; unfold D; omega
  have hpad : pad8 M = M ++ ([(0x80 : Byte)] ++ List.replicate (7 - M.length) 0) := by
    unfold pad8; rw [Nat.mod_eq_of_lt h8]; rfl
  have hh : mem2.Holds S (pad8 M) := by
    rw [hpad, ← hm2]
    refine holds_append.mpr ⟨(holds_writes_self _ _ _).writes_disjoint (by right; right; right; omega), holds_append.mpr ⟨holds_writes_self _ _ _, ?_⟩⟩
    exact (holds_cons.mp hz).2.writes_disjoint (by right; right; left; rw [List.length_singleton]; omega)
  have hlen : (pad8 M).length = 8 := by rw [hpad]; simp; omega
  refine (load_xor (pc := 152) (a := sp) rfl rfl rfl rfl (by decide) rfl rfl (by decide) (hst.frame ?_ ?_ (fun a ha => ?_) hfr.live)
    ?_ (by omega) hh hlen).mono ?_
  · intro r hr
    have hr' : r ∉ [a2, a3, t0l, t0h, ra] := by revert hr; revert r; decide
    have hr2 := hr'
    simp only [List.mem_cons, List.not_mem_nil, or_false, not_or] at hr2
    rw [set_ne hr2.2.1, set_ne hr2.2.1, set_ne hr2.1, set_ne hr2.2.2.2.1, hk r hr']
  · exact hs1
  · unfold P at ha
    rw [← hm2, writes_out (by right; rw [List.length_singleton]; omega), writes_out (by right; omega),
      writes_out (by right; rw [List.length_replicate]; omega)]
  · simp (disch := decide) only [set_eq, set_ne, hk, hst.sp]
  · rintro t pc' m' mem' ⟨rfl, rfl, h1, h2, rfl⟩
    refine ⟨?_, rfl, h1, hfr⟩
    simp only [padT, List.append_assoc, Nat.add_zero, List.cons_append, List.nil_append]

/-- Events of absorbing. -/
def absorbT (S ip n : Nat) : List Event :=
  if h : 8 ≤ n then .branch true :: (reads ip 4 ++ reads (ip + 4) 4 ++ tailT S ++ absorbT S (ip + 8) (n - 8))
  else .branch false :: padT S ip n
termination_by n
decreasing_by omega

theorem branch8 {pc pc1 n : Nat} {rel : Int} {m : Regs} {mem : Mem} {Q : Post} (hf : (hcode c)[pc]? = some (.br .geu (.reg x3h) (.imm 0x8) rel))
    (hn : m.r x3h = BitVec.ofNat 32 n) (hn32 : n < 2 ^ 32) (hd : dest pc rel = pc1)
    (h : Goes (hcode c) base (if 8 ≤ n then pc1 else pc + 1) m mem fun t => Q (.branch (decide (8 ≤ n)) :: t)) :
    Goes (hcode c) base pc m mem Q := by
  refine .br (pc1 := if 8 ≤ n then pc1 else pc + 1) (decide (8 ≤ n)) hf ?_ ?_ h
  · simp only [Opnd.get, Cmp.eval, hn]
    exact ule_ofNat 8 n (by decide) hn32
  · by_cases h8 : 8 ≤ n <;> simp [h8, hd]

/-- The state before the last permutation of the absorbing phase. -/
def absorbS (s : State) (M : List Byte) : State :=
  if h : 8 ≤ M.length then absorbS (absorb8 s (M.take 8)) (M.drop 8) else { s with x0 := s.x0 ^^^ be64 (pad8 M) }
termination_by M.length
decreasing_by simp; omega

theorem absorb_goes (M : List Byte) (ip : Nat) (m : Regs) (mem : Mem) (s : State)
    (hst : St s S m mem) (hp : m.r x2l = BitVec.ofNat 32 ip) (hn : m.r x3h = BitVec.ofNat 32 M.length) (hn32 : M.length < 2 ^ 32)
    (hip : ip + M.length ≤ 2 ^ 32) (hM : mem.Holds ip M) (hdis : Disjoint S 48 ip M.length) :
    Goes (hcode c) base 140 m mem fun t pc' m' mem' => t = absorbT S ip M.length ∧ pc' = 157 ∧
      St (absorbS s M) S m' mem' ∧ Fr (D S) mem mem' := by
  induction hk : M.length using Nat.strongRecOn generalizing M ip m mem s with
  | ind k ih =>
    subst hk
    refine branch8 (n := M.length) (pc1 := 126) rfl hn hn32 rfl ?_
    unfold absorbT absorbS
    by_cases h8 : 8 ≤ M.length
    · rw [dif_pos h8, dif_pos h8, if_pos h8, decide_eq_true h8]
      have hl8 : (M.take 8).length = 8 := by simp; omega
      refine (load_xor (pc := 126) (a := x2l) rfl rfl rfl rfl (by decide) rfl rfl (by decide) hst hp (by omega) (hM.take 8) hl8).cut ?_
      rintro t pc' m1 mem1 ⟨rfl, rfl, hst1, hk1, rfl⟩
      refine (tail_absorb hst1 ((hk1 _ (by decide)).trans hp) ((hk1 _ (by decide)).trans hn) h8).cut ?_
      rintro t pc' m2 mem2 ⟨rfl, rfl, hst2, hp2, hn2, hfr2⟩
      have hdl : (M.drop 8).length = M.length - 8 := by simp
      refine (ih (M.drop 8).length (by omega) (M.drop 8) (ip + 8) m2 mem2 _ hst2 hp2 (by rw [hdl]; exact hn2) (by omega) (by omega)
        (hfr2.holds (fun a h h' => ?_) (hM.drop 8 (by omega))) (by unfold Disjoint at hdis ⊢; omega) rfl).mono ?_
      · rw [hdl] at h'; unfold Disjoint at hdis; unfold D; omega
      rintro t pc' m' mem' ⟨rfl, rfl, h1, h2⟩
      refine ⟨?_, rfl, h1, hfr2.trans h2⟩
      simp only [hdl, List.append_assoc]
    · rw [dif_neg h8, dif_neg h8, if_neg h8, decide_eq_false h8]
      refine (last_absorb hst hp hn (by omega) hip hM hdis).mono ?_
      rintro t pc' m' mem' ⟨rfl, rfl, h1, h2⟩
      exact ⟨rfl, rfl, h1, h2⟩

/-- Moving the rate to the temporary registers and reversing it. -/
theorem unload {pc : Nat} {rel : Int} {m : Regs} {mem : Mem} {s : State}
    (f0 : (hcode c)[pc]? = some (.alu (.mov t0h (.reg x0h)))) (f1 : (hcode c)[pc + 1]? = some (.alu (.mov t0l (.reg x0l))))
    (f2 : (hcode c)[pc + 2]? = some (.jal (some ra) rel)) (hd : dest (pc + 2) rel = 90) (hpc : pc + 3 < 192)
    (hst : St s S m mem) :
    Goes (hcode c) base pc m mem fun t pc' m' mem' => t = [] ∧ pc' = pc + 3 ∧
      m'.r t0h = chunk 32 0 (rv s.x0) ∧ m'.r t0l = chunk 32 1 (rv s.x0) ∧ (∀ r, r ∉ [a2, t0l, t0h, ra] → m'.r r = m.r r) ∧
      St s S m' mem ∧ mem' = mem := by
  refine .alu f0 rfl (.alu f1 rfl ?_)
  refine (call_rev8 (x := chunk 32 1 s.x0) (y := chunk 32 0 s.x0) f2 hd hpc ?_ ?_).mono ?_
  · simp (disch := decide) only [Opnd.get, set_eq, set_ne, hst.r1]
  · simp (disch := decide) only [Opnd.get, set_eq, set_ne, hst.r0]
  rintro t pc' m1 mem1 ⟨rfl, rfl, g0, g1, hk, hs, rfl⟩
  rw [rev8_1] at g0
  rw [rev8_0] at g1
  have hk' : ∀ r, r ∉ [a2, t0l, t0h, ra] → m1.r r = m.r r := by
    intro r hr
    rw [hk r hr]
    simp only [List.mem_cons, List.not_mem_nil, or_false, not_or] at hr
    rw [set_ne hr.2.1, set_ne hr.2.2.1]
  exact ⟨rfl, rfl, g0, g1, hk', hst.keep (fun r hr => hk' r (by revert hr; revert r; decide)) hs, rfl⟩

theorem writes_be (mem : Mem) (p : Nat) (w : Word) :
    (mem.writes (p + 0) (repr32 .little (chunk 32 0 (rv w)))).writes (p + 4) (repr32 .little (chunk 32 1 (rv w))) =
      mem.writes p (beBytes w) := by
  rw [← bytes64_rv, bytes64_chunks, writes_append]; rfl

theorem length_be (w : Word) : (beBytes w).length = 8 := by
  rw [← bytes64_rv, length_bytes64]

/-- Events of the last block of output. -/
def lastT (S op n : Nat) : List Event :=
  writesE S 4 ++ writesE (S + 4) 4 ++ writesE S 4 ++ writesE (S + 4) 4 ++ copyT S op n

/-- The last block of output. -/
theorem last_squeeze {op n : Nat} {m : Regs} {mem : Mem} {s : State}
    (hst : St s S m mem) (hp : m.r x2l = BitVec.ofNat 32 op) (hn : m.r x3h = BitVec.ofNat 32 n) (h8 : n < 8)
    (hop : op + n ≤ 2 ^ 32) (hw : mem.Writable op n) (hdis : Disjoint S 48 op n) :
    Goes (hcode c) base 178 m mem fun t pc' m' mem' => t = lastT S op n ∧ pc' = 189 ∧
      m'.r sp = BitVec.ofNat 32 S ∧ Fr (D S) (mem.writes op ((beBytes s.x0).take n)) mem' := by
  have hl := hst.lim
  refine .alu rfl rfl ?_
  refine s32At (p := S) 0 rfl (by rw [set_ne (by decide)]; exact hst.sp) (by exact set_eq) (by omega) (hst.wr.mono (by omega) (by omega)) ?_
  refine s32At (p := S) 0 rfl (by rw [set_ne (by decide)]; exact hst.sp) (by exact set_eq) (by omega) (hst.wr.writes.mono (by omega) (by omega)) ?_
  rw [zeros8]
  have hfr0 : Fr (D S) mem (mem.writes S (List.replicate 8 0)) :=
    (Fr.refl _ _).writes _ _ fun a h h' => by rw [List.length_replicate] at h'; unfold D; omega
  refine (unload (pc := 181) (s := s) (S := S) rfl rfl rfl rfl (by decide) (hst.frame (m' := m.set a2 _) (fun r hr => ?_) rfl (fun a ha => ?_) hfr0.live)).cut ?_
  · rw [set_ne (by rintro rfl; revert hr; decide)]
  · exact writes_out (by rw [List.length_replicate]; unfold P at ha; omega)
  rintro t pc' m1 mem1 ⟨rfl, rfl, g0, g1, hk, hst1, rfl⟩
  refine s32At (p := S) (chunk 32 0 (rv s.x0)) rfl hst1.sp g0 (by omega) (hst1.wr.mono (by omega) (by omega)) ?_
  refine s32At (p := S) (chunk 32 1 (rv s.x0)) rfl hst1.sp g1 (by omega) (hst1.wr.writes.mono (by omega) (by omega)) ?_
  rw [writes_be]
  have hfr1 : Fr (D S) mem ((mem.writes S (List.replicate 8 0)).writes S (beBytes s.x0)) :=
    hfr0.writes _ _ fun a h h' => by rw [length_be] at h'; unfold D; omega
  refine .alu rfl rfl (.alu rfl rfl ?_)
  have hlt : ((beBytes s.x0).take n).length = n := by rw [List.length_take, length_be]; omega
  refine (call_copy (copyAt c) ((beBytes s.x0).take n) S op (pc := 188) rfl rfl (by rw [len]; decide) ?_ ?_ ?_ (by omega) (by omega) (by omega)
    ((holds_writes_self _ _ _).take n) ?_ ?_).mono ?_
  · simp (disch := decide) only [Opnd.get, set_eq, set_ne, hk, hp]
  · simp (disch := decide) only [Opnd.get, set_eq, set_ne, hst1.sp]
  · simp (disch := decide) only [set_ne, hk, hn, hlt]
  · rw [hlt]; exact hw.writes.writes
  · rw [hlt]; unfold Disjoint at hdis ⊢; omega
  rintro t pc' m2 mem2 ⟨rfl, rfl, hk2, hs2, rfl⟩
  refine ⟨?_, rfl, ?_, hfr1.congr _ _⟩
  · simp only [lastT, hlt, List.append_assoc, List.nil_append, Nat.add_zero]
  · rw [hk2 _ (by decide), set_ne (by decide), set_ne (by decide), hst1.sp]

/-- Events of squeezing. -/
def squeezeT (S op n : Nat) : List Event :=
  if h : 8 ≤ n then .branch true :: (writesE op 4 ++ writesE (op + 4) 4 ++ tailT S ++ squeezeT S (op + 8) (n - 8))
  else .branch false :: lastT S op n
termination_by n
decreasing_by omega

/-- The output. -/
def squeezeS (s : State) (n : Nat) : List Byte :=
  if h : 8 ≤ n then beBytes s.x0 ++ squeezeS (perm 12 s) (n - 8) else (beBytes s.x0).take n
termination_by n
decreasing_by omega

theorem squeeze_goes (n op : Nat) (m : Regs) (mem : Mem) (s : State)
    (hst : St s S m mem) (hp : m.r x2l = BitVec.ofNat 32 op) (hn : m.r x3h = BitVec.ofNat 32 n) (hn32 : n < 2 ^ 32)
    (hop : op + n ≤ 2 ^ 32) (hw : mem.Writable op n) (hdis : Disjoint S 48 op n) :
    Goes (hcode c) base 177 m mem fun t pc' m' mem' => t = squeezeT S op n ∧ pc' = 189 ∧
      m'.r sp = BitVec.ofNat 32 S ∧ Fr (D S) (mem.writes op (squeezeS s n)) mem' := by
  induction n using Nat.strongRecOn generalizing op m mem s with
  | ind n ih =>
    refine branch8 (n := n) (pc1 := 163) rfl hn hn32 rfl ?_
    unfold squeezeT squeezeS
    by_cases h8 : 8 ≤ n
    · rw [dif_pos h8, dif_pos h8, if_pos h8, decide_eq_true h8]
      refine (unload (pc := 163) rfl rfl rfl rfl (by decide) hst).cut ?_
      rintro t pc' m1 mem1 ⟨rfl, rfl, g0, g1, hk, hst1, rfl⟩
      have hp1 := (hk x2l (by decide)).trans hp
      have hn1 := (hk x3h (by decide)).trans hn
      refine s32At (p := op) (chunk 32 0 (rv s.x0)) rfl hp1 g0 (by omega) (hw.mono (by omega) (by omega)) ?_
      refine s32At (p := op) (chunk 32 1 (rv s.x0)) rfl hp1 g1 (by omega) (hw.writes.mono (by omega) (by omega)) ?_
      rw [writes_be]
      have hst2 : St s S m1 (mem1.writes op (beBytes s.x0)) := hst1.frame (.refl _ _) rfl (fun a ha => writes_out (by
        rw [length_be]; unfold P at ha; unfold Disjoint at hdis; omega)) (live_writes _ _ _)
      refine (tail_squeeze hst2 hp1 hn1 h8).cut ?_
      rintro t pc' m2 mem2 ⟨rfl, rfl, hst3, hp3, hn3, hfr3⟩
      refine (ih (n - 8) (by omega) (op + 8) m2 mem2 _ hst3 hp3 hn3 (by omega) (by omega)
        (hfr3.writable (hw.writes.mono (by omega) (by omega))) (by unfold Disjoint at hdis ⊢; omega)).mono ?_
      rintro t pc' m' mem' ⟨rfl, rfl, h1, h2⟩
      refine ⟨?_, rfl, h1, ?_⟩
      · simp only [List.append_assoc, Nat.add_zero, List.nil_append]
      · rw [writes_append, length_be]
        exact (hfr3.congr _ _).trans h2
    · rw [dif_neg h8, dif_neg h8, if_neg h8, decide_eq_false h8]
      refine (last_squeeze hst hp hn (by omega) hop hw hdis).mono ?_
      rintro t pc' m' mem' ⟨rfl, rfl, h1, h2⟩
      exact ⟨rfl, rfl, h1, h2⟩

/-- Events of `ascon_core`. -/
def coreT (S op n ip l : Nat) : List Event :=
  writesE (S + 44) 4 ++ writesE (S + 8) 4 ++ writesE (S + 36) 4 ++ writesE (S + 20) 4 ++ writesE (S + 24) 4 ++ absorbT S ip l ++
  permT S ++ reads (S + 8) 4 ++ reads (S + 36) 4 ++ squeezeT S op n ++ reads (S + 44) 4

/-- The stack frame. -/
def F (S a : Nat) : Prop := S ≤ a ∧ a < S + 48

theorem D_F {a : Nat} (h : D S a) : F S a := by unfold D at h; unfold F; omega
theorem P_F {a : Nat} (h : P S a) : F S a := by unfold P at h; unfold F; omega

theorem length_squeezeS (n : Nat) (s : State) : (squeezeS s n).length = n := by
  induction n using Nat.strongRecOn generalizing s with
  | ind n ih =>
    unfold squeezeS
    by_cases h8 : 8 ≤ n
    · rw [dif_pos h8, List.length_append, ih _ (by omega), length_be]; omega
    · rw [dif_neg h8, List.length_take, length_be]; omega

theorem core_goes (M : List Byte) (op n ip : Nat) (m : Regs) (mem : Mem) (hstk : m.stk = []) (hsp : m.r sp = BitVec.ofNat 32 S)
    (hS : S + 48 ≤ 2 ^ 32) (hSw : mem.Writable S 48) (h2 : m.r a2 = BitVec.ofNat 32 op) (h3 : m.r a3 = BitVec.ofNat 32 n)
    (h4 : m.r t0h = BitVec.ofNat 32 ip) (h5 : m.r t0l = BitVec.ofNat 32 M.length) (hl : M.length < 2 ^ 32)
    (hip : ip + M.length ≤ 2 ^ 32) (hM : mem.Holds ip M) (hdi : Disjoint S 48 ip M.length) (hn : n < 2 ^ 32)
    (hop : op + n ≤ 2 ^ 32) (hw : mem.Writable op n) (hdo : Disjoint S 48 op n) :
    Goes (hcode c) base 108 m mem fun t pc' m' mem' => t = coreT S op n ip M.length ∧ pc' = 191 ∧ m'.r ra = m.r ra ∧
      m'.r a2 = 0 ∧ Fr (F S) (mem.writes op (squeezeS (perm 12 (absorbS c M)) n)) mem' := by
  refine s32At (p := S) (m.r ra) rfl hsp rfl (by omega) (hSw.mono (by omega) (by omega)) ?_
  refine s32At (p := S) (BitVec.ofNat 32 op) rfl hsp h2 (by omega) (hSw.writes.mono (by omega) (by omega)) ?_
  refine s32At (p := S) (BitVec.ofNat 32 n) rfl hsp h3 (by omega) (hSw.writes.writes.mono (by omega) (by omega)) ?_
  refine .alu rfl rfl (.alu rfl rfl ?_)
  refine .alu rfl rfl (.alu rfl rfl (.alu rfl rfl (.alu rfl rfl (.alu rfl rfl ?_))))
  refine .alu rfl rfl (.alu rfl rfl (.alu rfl rfl (.alu rfl rfl (.alu rfl rfl ?_))))
  simp (disch := decide) only [Opnd.get, set_eq, set_ne, h4, h5]
  generalize hm1 : Asm.M.set _ x4l _ = m1
  have hsp1 : m1.r sp = BitVec.ofNat 32 S := by rw [← hm1]; simp (disch := decide) only [set_ne, hsp]
  have ht0 : m1.r t0h = chunk 32 0 c.x2 := by rw [← hm1]; simp (disch := decide) only [set_eq, set_ne]
  have ht1 : m1.r t0l = chunk 32 1 c.x3 := by rw [← hm1]; simp (disch := decide) only [set_eq, set_ne]
  refine s32At (p := S) (chunk 32 0 c.x2) rfl hsp1 ht0 (by omega) (hSw.writes.writes.writes.mono (by omega) (by omega)) ?_
  refine s32At (p := S) (chunk 32 1 c.x3) rfl hsp1 ht1 (by omega) (hSw.writes.writes.writes.writes.mono (by omega) (by omega)) ?_
  refine .j (pc1 := 140) rfl rfl ?_
  have w4 : ∀ {q p : Nat} (v : U32), S ≤ p → p + 4 ≤ S + 48 → ∀ a, p ≤ a → a < p + (repr32 .little v).length → F S a := by
    intro q p v h1 h2 a h h'
    rw [len32] at h'; unfold F; omega
  have dj : ∀ {p q : Nat} (v w : U32), p + 4 ≤ q ∨ q + 4 ≤ p → Disjoint p (repr32 .little v).length q (repr32 .little w).length := by
    intro p q v w h
    rw [len32, len32]; unfold Disjoint; omega
  generalize hmm : ((((mem.writes (S + 44) _).writes (S + 8) _).writes (S + 36) _).writes (S + 20) _).writes (S + 24) _ = mem1
  have hfr1 : Fr (F S) mem mem1 := by
    rw [← hmm]
    refine (((((Fr.refl _ _).writes _ _ (w4 (q := 0) _ ?_ ?_)).writes _ _ (w4 (q := 0) _ ?_ ?_)).writes _ _ (w4 (q := 0) _ ?_ ?_)).writes _ _
      (w4 (q := 0) _ ?_ ?_)).writes _ _ (w4 (q := 0) _ ?_ ?_) <;> omega
  have hra : mem1.Holds (S + 44) (repr32 .little (m.r ra)) := by
    rw [← hmm]
    refine ((((holds_writes_self _ _ _).writes_disjoint (dj _ _ ?_)).writes_disjoint (dj _ _ ?_)).writes_disjoint (dj _ _ ?_)).writes_disjoint
      (dj _ _ ?_) <;> omega
  have hop8 : mem1.Holds (S + 8) (repr32 .little (BitVec.ofNat 32 op)) := by
    rw [← hmm]
    refine (((holds_writes_self _ _ _).writes_disjoint (dj _ _ ?_)).writes_disjoint (dj _ _ ?_)).writes_disjoint (dj _ _ ?_) <;> omega
  have hn36 : mem1.Holds (S + 36) (repr32 .little (BitVec.ofNat 32 n)) := by
    rw [← hmm]
    refine ((holds_writes_self _ _ _).writes_disjoint (dj _ _ ?_)).writes_disjoint (dj _ _ ?_) <;> omega
  have hst1 : St c S m1 mem1 := by
    refine ⟨?_, ?_, ?_, ?_, ?_, ?_, ?_, ?_, ?_, ?_, ?_, hsp1, hfr1.writable hSw, hS⟩
    · rw [← hm1]; simp (disch := decide) only [set_eq, set_ne]
    · rw [← hm1]; simp (disch := decide) only [set_eq, set_ne]
    · rw [← hm1]; simp (disch := decide) only [set_eq, set_ne]
    · rw [← hm1]; simp (disch := decide) only [set_eq, set_ne]
    · rw [← hm1]; simp (disch := decide) only [set_eq, set_ne]
    · rw [← hm1]; simp (disch := decide) only [set_eq, set_ne]
    · rw [← hm1]; simp (disch := decide) only [set_eq, set_ne]
    · rw [← hm1]; simp (disch := decide) only [set_eq, set_ne]
    · rw [← hmm]; exact (holds_writes_self _ _ _).writes_disjoint (dj _ _ (by omega))
    · rw [← hmm]; exact holds_writes_self _ _ _
    · rw [← hm1]; exact hstk
  have hp1 : m1.r x2l = BitVec.ofNat 32 ip := by rw [← hm1]; simp (disch := decide) only [set_eq, set_ne]
  have hn1 : m1.r x3h = BitVec.ofNat 32 M.length := by rw [← hm1]; simp (disch := decide) only [set_eq, set_ne]
  refine (absorb_goes M ip m1 mem1 c hst1 hp1 hn1 hl hip (hfr1.holds (fun a h h' => ?_) hM) hdi).cut ?_
  · unfold Disjoint at hdi; unfold F; omega
  rintro t pc' m2 mem2 ⟨rfl, rfl, hst2, hfr2⟩
  refine .alu rfl rfl (.alu rfl rfl ?_)
  refine (call_perm (pc := 159) rfl rfl (by decide) (hst2.keep (m' := (m2.set a2 _).set a3 _) (fun r hr => ?_) rfl) (by rw [set_ne (by decide), set_eq]; rfl) (by rw [set_eq]; rfl)).cut ?_
  · rw [set_ne (by rintro rfl; revert hr; decide), set_ne (by rintro rfl; revert hr; decide)]
  rintro t pc' m3 mem3 ⟨rfl, rfl, hst3, hfr3⟩
  have slot : ∀ {off : Nat} {v : U32}, (off = 8 ∨ off = 36 ∨ off = 44) → mem1.Holds (S + off) (repr32 .little v) →
      mem3.Holds (S + off) (repr32 .little v) := by
    intro off v ho h
    refine hfr3.holds (fun a h1 h2 => ?_) (hfr2.holds (fun a h1 h2 => ?_) h)
    · rw [len32] at h2; unfold P; omega
    · rw [len32] at h2; unfold D; omega
  refine l32At (p := S) rfl hst3.sp (by omega) (slot (by omega) hop8) ?_
  refine l32At (p := S) rfl (by rw [set_ne (by decide)]; exact hst3.sp) (by omega) (slot (by omega) hn36) ?_
  refine .j (pc1 := 177) rfl rfl ?_
  refine (squeeze_goes n op _ mem3 _ (hst3.keep (m' := (m3.set x2l _).set x3h _) (fun r hr => ?_) rfl) (by rw [set_ne (by decide), set_eq]) set_eq hn hop
    (hfr3.writable (hfr2.writable (hfr1.writable hw))) hdo).cut ?_
  · rw [set_ne (by rintro rfl; revert hr; decide), set_ne (by rintro rfl; revert hr; decide)]
  rintro t pc' m4 mem4 ⟨rfl, rfl, hsp4, hfr4⟩
  refine .alu rfl rfl ?_
  refine l32At (p := S) (v := m.r ra) rfl (by rw [set_ne (by decide)]; exact hsp4) (by omega) (hfr4.holds (fun a h1 h2 => ?_)
    ((slot (by omega) hra).writes_disjoint ?_)) (.done ⟨?_, rfl, set_eq, ?_, ?_⟩)
  · rw [len32] at h2; unfold D; omega
  · rw [length_squeezeS, len32]; unfold Disjoint at hdo ⊢; omega
  · simp only [coreT, List.append_assoc, List.append_nil]
  · rw [set_ne (by decide), set_eq]; rfl
  · exact (((hfr1.trans (hfr2.mono fun a h => D_F h)).trans (hfr3.mono fun a h => P_F h)).congr _ _).trans (hfr4.mono fun a h => D_F h)

/-! ## The specification -/

theorem blocks_ge (M : List Byte) (h : 8 ≤ M.length) : fullBlocks 8 (pad8 M) = M.take 8 :: fullBlocks 8 (pad8 (M.drop 8)) := by
  have e : pad8 M = M.take 8 ++ pad8 (M.drop 8) := by
    unfold pad8
    rw [← List.append_assoc, List.take_append_drop, List.length_drop]
    congr 4; omega
  have hl : (M.take 8).length = 8 := by simp; omega
  rw [fullBlocks_of_ge 8 (pad8 M) (by decide) (by rw [e, List.length_append]; omega), e, List.take_left' hl, List.drop_left' hl]

theorem blocks_lt (M : List Byte) (h : M.length < 8) : fullBlocks 8 (pad8 M) = [pad8 M] := by
  have hl : (pad8 M).length = 8 := by
    unfold pad8
    rw [Nat.mod_eq_of_lt h]; simp; omega
  rw [fullBlocks_of_ge 8 (pad8 M) (by decide) (by omega), List.take_of_length_le (by omega), List.drop_of_length_le (by omega),
    fullBlocks_of_lt 8 [] (by decide)]

theorem absorbS_eq (M : List Byte) (s : State) : perm 12 (absorbS s M) = (fullBlocks 8 (pad8 M)).foldl absorb8 s := by
  induction hk : M.length using Nat.strongRecOn generalizing M s with
  | ind k ih =>
    subst hk
    unfold absorbS
    by_cases h8 : 8 ≤ M.length
    · rw [dif_pos h8, blocks_ge M h8, List.foldl_cons, ih (M.drop 8).length (by simp; omega) (M.drop 8) _ rfl]
    · rw [dif_neg h8, blocks_lt M (by omega)]
      rfl

theorem iterPerm_succ' (i : Nat) (s : State) : iterPerm (i + 1) s = iterPerm i (perm 12 s) := by
  induction i with
  | zero => simp only [iterPerm]
  | succ i ih => rw [iterPerm, ih]; simp only [iterPerm]

theorem squeezeS_eq (n : Nat) (s : State) : squeezeS s n = squeeze8 s n := by
  induction n using Nat.strongRecOn generalizing s with
  | ind n ih =>
    unfold squeezeS squeeze8
    by_cases h8 : 8 ≤ n
    · rw [dif_pos h8, ih (n - 8) (by omega)]
      have e : n / 8 + 1 = (n - 8) / 8 + 1 + 1 := by omega
      rw [e, List.range_succ_eq_map, List.map_cons, List.flatten_cons, List.take_append, length_be,
        List.take_of_length_le (by rw [length_be]; omega), List.map_map]
      unfold squeeze8
      congr 4
      funext i
      rw [← iterPerm_succ']
      rfl
    · rw [dif_neg h8, Nat.div_eq_of_lt (by omega)]
      simp [iterPerm]

end H
end Ascon.Xt
