import Verif.Proof.XtAead
/-!
# asm_esp32, AEAD: `ascon_core`
-/

namespace Ascon.Xt

open Ascon.C Ascon.Spec Ascon.Asm
open Ascon.Masked (U32 repr32 le32 le32_repr)
open Ascon.Rv
open Ascon.Rv.Impl (set_ne set_eq ofNat_add)
open Ascon.Spec.V12 (be64 beBytes)
open Ascon.Rv.Rv32i (block writes_over mode_ext eq_zero ge_zero)
open Ascon.Xt (sp ra a2 a3 x0l x0h x1l x1h x2l x2h x3l x3h x4l x4h t0l t0h lc)

attribute [local irreducible] perm

namespace A

variable {base : U32} {S : Nat}

/-- What the parts of `ascon_core` after the initialisation change in the frame. -/
def F1 (S a : Nat) : Prop := (S ≤ a ∧ a < S + 40) ∨ (S + 56 ≤ a ∧ a < S + 76) ∨ (S + 88 ≤ a ∧ a < S + 92)
/-- The frame. -/
def F (S a : Nat) : Prop := S ≤ a ∧ a < S + 96

/-- Values kept in the frame. -/
structure Slots (K0 K1 : Word) (md : Mode) (v : U32) (op ip n : Nat) (S : Nat) (mem : Mem) : Prop where
  k3 : mem.Holds (S + 40) (repr32 .little (chunk 32 1 K0))
  k2 : mem.Holds (S + 44) (repr32 .little (chunk 32 0 K0))
  k1 : mem.Holds (S + 48) (repr32 .little (chunk 32 1 K1))
  k0 : mem.Holds (S + 52) (repr32 .little (chunk 32 0 K1))
  o : mem.Holds (S + 76) (repr32 .little (BitVec.ofNat 32 op))
  i : mem.Holds (S + 80) (repr32 .little (BitVec.ofNat 32 ip))
  n : mem.Holds (S + 84) (repr32 .little (BitVec.ofNat 32 n))
  ret : mem.Holds (S + 92) (repr32 .little v)
  mode : (mem (S + 116)).byte = some (md.val.setWidth 8)

theorem Slots.frame {K0 K1 : Word} {md : Mode} {v : U32} {op ip n : Nat} {mem mem' : Mem} (h : Slots K0 K1 md v op ip n S mem)
    (hf : Fr (F1 S) mem mem') : Slots K0 K1 md v op ip n S mem' where
  k3 := hf.holds (fun a h h' => by rw [len32] at h'; unfold F1; omega) h.k3
  k2 := hf.holds (fun a h h' => by rw [len32] at h'; unfold F1; omega) h.k2
  k1 := hf.holds (fun a h h' => by rw [len32] at h'; unfold F1; omega) h.k1
  k0 := hf.holds (fun a h h' => by rw [len32] at h'; unfold F1; omega) h.k0
  o := hf.holds (fun a h h' => by rw [len32] at h'; unfold F1; omega) h.o
  i := hf.holds (fun a h h' => by rw [len32] at h'; unfold F1; omega) h.i
  n := hf.holds (fun a h h' => by rw [len32] at h'; unfold F1; omega) h.n
  ret := hf.holds (fun a h h' => by rw [len32] at h'; unfold F1; omega) h.ret
  mode := by rw [hf.same _ (by unfold F1; omega)]; exact h.mode

theorem Slots.writes {K0 K1 : Word} {md : Mode} {v : U32} {op ip n q : Nat} {bs : List Byte} {mem : Mem} (h : Slots K0 K1 md v op ip n S mem)
    (hd : Disjoint S 120 q bs.length) : Slots K0 K1 md v op ip n S (mem.writes q bs) where
  k3 := h.k3.writes_disjoint (by rw [len32]; unfold Disjoint at hd ⊢; omega)
  k2 := h.k2.writes_disjoint (by rw [len32]; unfold Disjoint at hd ⊢; omega)
  k1 := h.k1.writes_disjoint (by rw [len32]; unfold Disjoint at hd ⊢; omega)
  k0 := h.k0.writes_disjoint (by rw [len32]; unfold Disjoint at hd ⊢; omega)
  o := h.o.writes_disjoint (by rw [len32]; unfold Disjoint at hd ⊢; omega)
  i := h.i.writes_disjoint (by rw [len32]; unfold Disjoint at hd ⊢; omega)
  n := h.n.writes_disjoint (by rw [len32]; unfold Disjoint at hd ⊢; omega)
  ret := h.ret.writes_disjoint (by rw [len32]; unfold Disjoint at hd ⊢; omega)
  mode := by
    by_cases hb : bs.length = 0
    · rw [List.eq_nil_of_length_eq_zero hb, writes_nil]; exact h.mode
    · rw [writes_out (by unfold Disjoint at hd; omega)]; exact h.mode

/-- Reading the key, and adding it to two words in registers. -/
theorem add_key {pc d0 d1 d2 d3 : Nat} {m : Regs} {mem : Mem} {K0 K1 : Word} {w0 w1 w2 w3 : U32}
    (f0 : xaead_code[pc]? = some (.l32 t0h sp 40)) (f1 : xaead_code[pc + 1]? = some (.l32 t0l sp 44))
    (f2 : xaead_code[pc + 2]? = some (.alu (.bit .xor d0 (.reg d0) (.reg t0h)))) (f3 : xaead_code[pc + 3]? = some (.alu (.bit .xor d1 (.reg d1) (.reg t0l))))
    (f4 : xaead_code[pc + 4]? = some (.l32 t0h sp 48)) (f5 : xaead_code[pc + 5]? = some (.l32 t0l sp 52))
    (f6 : xaead_code[pc + 6]? = some (.alu (.bit .xor d2 (.reg d2) (.reg t0h)))) (f7 : xaead_code[pc + 7]? = some (.alu (.bit .xor d3 (.reg d3) (.reg t0l))))
    (hne : d1 ≠ d0 ∧ d2 ≠ d0 ∧ d2 ≠ d1 ∧ d3 ≠ d0 ∧ d3 ≠ d1 ∧ d3 ≠ d2) (hd : d0 < 10 ∧ d1 < 10 ∧ d2 < 10 ∧ d3 < 10)
    (hsp : m.r sp = BitVec.ofNat 32 S) (hlim : S + 120 ≤ 2 ^ 32)
    (k3 : mem.Holds (S + 40) (repr32 .little (chunk 32 1 K0))) (k2 : mem.Holds (S + 44) (repr32 .little (chunk 32 0 K0)))
    (k1 : mem.Holds (S + 48) (repr32 .little (chunk 32 1 K1))) (k0 : mem.Holds (S + 52) (repr32 .little (chunk 32 0 K1)))
    (h0 : m.r d0 = w0) (h1 : m.r d1 = w1) (h2 : m.r d2 = w2) (h3 : m.r d3 = w3) :
    Goes xaead_code base pc m mem fun t pc' m' mem' => t = block (S + 40) ∧ pc' = pc + 8 ∧
      m'.r d0 = w0 ^^^ chunk 32 1 K0 ∧ m'.r d1 = w1 ^^^ chunk 32 0 K0 ∧ m'.r d2 = w2 ^^^ chunk 32 1 K1 ∧ m'.r d3 = w3 ^^^ chunk 32 0 K1 ∧
      (∀ r, r ∉ [d0, d1, d2, d3, t0h, t0l] → m'.r r = m.r r) ∧ m'.stk = m.stk ∧ mem' = mem := by
  obtain ⟨n1, n2, n3, n4, n5, n6⟩ := hne
  have e : ∀ {d : Nat}, d < 10 → d ≠ t0h ∧ d ≠ t0l ∧ sp ≠ d ∧ t0h ≠ d ∧ t0l ≠ d := fun {d} h => by
    show d ≠ 13 ∧ d ≠ 12 ∧ 15 ≠ d ∧ 13 ≠ d ∧ 12 ≠ d; omega
  obtain ⟨a0, b0, c0, u0, v0⟩ := e hd.1
  obtain ⟨a1, b1, c1, u1, v1⟩ := e hd.2.1
  obtain ⟨a2', b2, c2, u2, v2⟩ := e hd.2.2.1
  obtain ⟨a3', b3, c3, u3, v3⟩ := e hd.2.2.2
  refine l32At (p := S) f0 hsp (by omega) k3 (l32At (p := S) f1 (by rw [set_ne (by decide)]; exact hsp) (by omega) k2 ?_)
  refine .alu f2 rfl (.alu f3 rfl ?_)
  refine l32At (p := S) f4 ?_ (by omega) k1 (l32At (p := S) f5 ?_ (by omega) k0 ?_)
  · rw [set_ne c1, set_ne c0, set_ne (by decide), set_ne (by decide)]; exact hsp
  · rw [set_ne (by decide), set_ne c1, set_ne c0, set_ne (by decide), set_ne (by decide)]; exact hsp
  refine .alu f6 rfl (.alu f7 rfl (.done ⟨?_, rfl, ?_, ?_, ?_, ?_, ?_, rfl, rfl⟩))
  · simp only [block, List.append_assoc, List.append_nil]
  · simp only [Opnd.get, BitOp.fn]
    rw [set_ne n4.symm, set_ne n2.symm, set_ne b0, set_ne a0, set_ne n1.symm, set_eq, set_ne b0, set_ne a0, set_ne (by decide), set_eq, h0]
  · simp only [Opnd.get, BitOp.fn]
    rw [set_ne n5.symm, set_ne n3.symm, set_ne b1, set_ne a1, set_eq, set_ne n1, set_ne b1, set_ne a1, set_ne v0, set_eq, h1]
  · simp only [Opnd.get, BitOp.fn]
    rw [set_ne n6.symm, set_eq, set_ne b2, set_ne a2', set_ne n3, set_ne n2, set_ne b2, set_ne a2', set_ne (by decide), set_eq, h2]
  · simp only [Opnd.get, BitOp.fn]
    rw [set_eq, set_ne n6, set_ne b3, set_ne a3', set_ne n5, set_ne n4, set_ne b3, set_ne a3', set_ne v2, set_eq, h3]
  · intro r hr
    simp only [List.mem_cons, List.not_mem_nil, or_false, not_or] at hr
    obtain ⟨q0, q1, q2, q3, q4, q5⟩ := hr
    rw [set_ne q3, set_ne q2, set_ne q5, set_ne q4, set_ne q1, set_ne q0, set_ne q5, set_ne q4]

/-- The arguments of `ascon_core` on the machine. -/
structure Args (md : Mode) (m : Regs) (mem : Mem) (op ip : Nat) (M : List Byte) (ap : Nat) (A : List Byte)
    (np : Nat) (N : List Byte) (kp : Nat) (K : List Byte) (S : Nat) : Prop where
  env : Env S m mem
  mode : md ≠ .ad
  modeB : (mem (S + 116)).byte = some (md.val.setWidth 8)
  optr : m.r a2 = BitVec.ofNat 32 op
  opEnd : op + M.length ≤ 2 ^ 32
  opW : mem.Writable op M.length
  iptr : m.r a3 = BitVec.ofNat 32 ip
  ipEnd : ip + M.length ≤ 2 ^ 32
  ipH : mem.Holds ip M
  ilen : m.r t0h = BitVec.ofNat 32 M.length
  ilt : M.length < 2 ^ 32
  over : op ≤ ip ∨ ip + M.length ≤ op
  aptr : m.r t0l = BitVec.ofNat 32 ap
  apEnd : ap + A.length ≤ 2 ^ 32
  apH : mem.Holds ap A
  alen : m.r x0h = BitVec.ofNat 32 A.length
  alt : A.length < 2 ^ 32
  nptr : m.r x0l = BitVec.ofNat 32 np
  npEnd : np + 16 ≤ 2 ^ 32
  npH : mem.Holds np N
  npL : N.length = 16
  kptr : mem.Holds (S + 112) (repr32 .little (BitVec.ofNat 32 kp))
  kpEnd : kp + 16 ≤ 2 ^ 32
  kpH : mem.Holds kp K
  kpL : K.length = 16
  dO : Disjoint S 120 op M.length
  dI : Disjoint S 96 ip M.length
  dA : Disjoint S 96 ap A.length
  dN : Disjoint S 96 np 16
  dK : Disjoint S 96 kp 16

/-- Events of the initialisation. -/
def initT (S np kp : Nat) : List Event :=
  writesE (S + 92) 4 ++ writesE (S + 76) 4 ++ writesE (S + 80) 4 ++ writesE (S + 84) 4 ++ writesE (S + 64) 4 ++ writesE (S + 68) 4 ++
  reads (S + 112) 4 ++ block kp ++ wblock (S + 40) ++ block np ++ noloadT 12 S ++ block (S + 40) ++
  writesE (S + 16) 4 ++ writesE (S + 20) 4 ++ writesE (S + 24) 4 ++ writesE (S + 28) 4 ++ writesE (S + 32) 4 ++ writesE (S + 36) 4

theorem iv_chunks : chunk 32 0 Variant.v12.iv = 0 ∧ chunk 32 1 Variant.v12.iv = 0x80800c08 := by decide
theorem sep_chunks : chunk 32 0 Variant.v12.sep = 1 ∧ chunk 32 1 Variant.v12.sep = 0 := by decide

variable {md : Mode} {m : Regs} {mem : Mem} {op ip : Nat} {M : List Byte} {ap : Nat} {A : List Byte}
    {np : Nat} {N : List Byte} {kp : Nat} {K : List Byte} {l' : List Byte}

/-- Saving the arguments. -/
theorem save (h : Args md m mem op ip M ap A np N kp K S) :
    Goes xaead_code base 223 m mem fun t pc' m' mem' =>
      t = writesE (S + 92) 4 ++ writesE (S + 76) 4 ++ writesE (S + 80) 4 ++ writesE (S + 84) 4 ++ writesE (S + 64) 4 ++ writesE (S + 68) 4 ∧
      pc' = 229 ∧ m' = m ∧ mem'.Holds (S + 76) (repr32 .little (BitVec.ofNat 32 op)) ∧
      mem'.Holds (S + 80) (repr32 .little (BitVec.ofNat 32 ip)) ∧ mem'.Holds (S + 84) (repr32 .little (BitVec.ofNat 32 M.length)) ∧
      mem'.Holds (S + 92) (repr32 .little (m.r ra)) ∧ mem'.Holds (S + 64) (repr32 .little (BitVec.ofNat 32 ap)) ∧
      mem'.Holds (S + 68) (repr32 .little (BitVec.ofNat 32 A.length)) ∧ Fr (F S) mem mem' := by
  have hl := h.env.lim
  have hsp := h.env.sp
  have hw := h.env.wr
  refine s32At (p := S) (m.r ra) rfl hsp rfl (by omega) (hw.mono (by omega) (by omega)) ?_
  refine s32At (p := S) _ rfl hsp h.optr (by omega) (hw.writes.mono (by omega) (by omega)) ?_
  refine s32At (p := S) _ rfl hsp h.iptr (by omega) (hw.writes.writes.mono (by omega) (by omega)) ?_
  refine s32At (p := S) _ rfl hsp h.ilen (by omega) (hw.writes.writes.writes.mono (by omega) (by omega)) ?_
  refine s32At (p := S) _ rfl hsp h.aptr (by omega) (hw.writes.writes.writes.writes.mono (by omega) (by omega)) ?_
  refine s32At (p := S) _ rfl hsp h.alen (by omega) (hw.writes.writes.writes.writes.writes.mono (by omega) (by omega)) ?_
  refine .done ⟨?_, rfl, rfl, ?_, ?_, ?_, ?_, ?_, ?_, ?_⟩
  · simp only [List.append_assoc, List.append_nil]
  · refine (((holds_writes_self _ _ _).writes_disjoint ?_).writes_disjoint ?_).writes_disjoint ?_ |>.writes_disjoint ?_
    all_goals rw [len32, len32]; unfold Disjoint; omega
  · refine ((holds_writes_self _ _ _).writes_disjoint ?_).writes_disjoint ?_ |>.writes_disjoint ?_
    all_goals rw [len32, len32]; unfold Disjoint; omega
  · refine (holds_writes_self _ _ _).writes_disjoint ?_ |>.writes_disjoint ?_
    all_goals rw [len32, len32]; unfold Disjoint; omega
  · refine ((((holds_writes_self _ _ _).writes_disjoint ?_).writes_disjoint ?_).writes_disjoint ?_ |>.writes_disjoint ?_).writes_disjoint ?_
    all_goals rw [len32, len32]; unfold Disjoint; omega
  · refine (holds_writes_self _ _ _).writes_disjoint ?_
    rw [len32, len32]; unfold Disjoint; omega
  · exact holds_writes_self _ _ _
  · refine (((((((Fr.refl _ _).writes _ _ ?_).writes _ _ ?_).writes _ _ ?_).writes _ _ ?_).writes _ _ ?_).writes _ _ ?_)
    all_goals intro a h h'; rw [len32] at h'; unfold F; omega

/-- Initialisation. -/
theorem core_init (h : Args md m mem op ip M ap A np N kp K S) :
    Goes xaead_code base 223 m mem fun t pc' m' mem' => t = initT S np kp ∧ pc' = 270 ∧
      St (Variant.v12.init (be64 (K.take 8)) (be64 (K.drop 8)) (be64 (N.take 8)) (be64 (N.drop 8))) S m' mem' ∧
      m'.r x4l = chunk 32 0 (Variant.v12.init (be64 (K.take 8)) (be64 (K.drop 8)) (be64 (N.take 8)) (be64 (N.drop 8))).x4 ∧
      Slots (be64 (K.take 8)) (be64 (K.drop 8)) md (m.r ra) op ip M.length S mem' ∧
      mem'.Holds (S + 64) (repr32 .little (BitVec.ofNat 32 ap)) ∧ mem'.Holds (S + 68) (repr32 .little (BitVec.ofNat 32 A.length)) ∧
      Fr (F S) mem mem' := by
  have hl := h.env.lim
  refine (save h).cut ?_
  rintro t pc' m0 mem1 ⟨rfl, rfl, rfl, s76, s80, s84, s92, s64, s68, hfr1⟩
  have he : Env S m0 mem1 := h.env.frame rfl rfl hfr1.live
  have hsp := he.sp
  refine l32At (p := S) rfl hsp (by omega) (hfr1.holds (fun a h h' => by rw [len32] at h'; unfold F; omega) h.kptr) ?_
  refine (load (pc := 230) rfl rfl rfl rfl rfl rfl (by decide) (by decide) set_eq h.kpEnd (hfr1.holds (fun a q q' => ?_) h.kpH) h.kpL).cut ?_
  · rw [h.kpL] at q'; have := h.dK; unfold Disjoint at this; unfold F; omega
  rintro t pc' m1 mem1 ⟨rfl, rfl, hk, hk1, hs1, rfl⟩
  generalize be64 (K.take 8) = K0 at *
  generalize be64 (K.drop 8) = K1 at *
  have hsp1 : m1.r sp = BitVec.ofNat 32 S := by rw [hk1 _ (by decide), set_ne (by decide)]; exact hsp
  have hnp1 : m1.r x0l = BitVec.ofNat 32 np := by rw [hk1 _ (by decide), set_ne (by decide)]; exact h.nptr
  have hw := he.wr
  refine s32At (p := S) _ rfl hsp1 hk.h0 (by omega) (hw.mono (by omega) (by omega)) ?_
  refine s32At (p := S) _ rfl hsp1 hk.l0 (by omega) (hw.writes.mono (by omega) (by omega)) ?_
  refine s32At (p := S) _ rfl hsp1 hk.h1 (by omega) (hw.writes.writes.mono (by omega) (by omega)) ?_
  refine s32At (p := S) _ rfl hsp1 hk.l1 (by omega) (hw.writes.writes.writes.mono (by omega) (by omega)) ?_
  generalize hm2 : Mem.writes _ (S + 52) _ = mem2
  have c3 : mem2.Holds (S + 40) (repr32 .little (chunk 32 1 K0)) := by
    rw [← hm2]
    refine (((holds_writes_self _ _ _).writes_disjoint ?_).writes_disjoint ?_).writes_disjoint ?_
    all_goals rw [len32, len32]; unfold Disjoint; omega
  have c2 : mem2.Holds (S + 44) (repr32 .little (chunk 32 0 K0)) := by
    rw [← hm2]
    refine ((holds_writes_self _ _ _).writes_disjoint ?_).writes_disjoint ?_
    all_goals rw [len32, len32]; unfold Disjoint; omega
  have c1 : mem2.Holds (S + 48) (repr32 .little (chunk 32 1 K1)) := by
    rw [← hm2]
    refine (holds_writes_self _ _ _).writes_disjoint ?_
    rw [len32, len32]; unfold Disjoint; omega
  have c0 : mem2.Holds (S + 52) (repr32 .little (chunk 32 0 K1)) := by
    rw [← hm2]; exact holds_writes_self _ _ _
  have hfr2 : Fr (fun a => S + 40 ≤ a ∧ a < S + 56) mem1 mem2 := by
    rw [← hm2]
    refine (((((Fr.refl _ _).writes _ _ ?_).writes _ _ ?_).writes _ _ ?_).writes _ _ ?_)
    all_goals intro a h h'; rw [len32] at h'; omega
  have hfr02 : Fr (F S) mem mem2 := hfr1.trans (hfr2.mono fun a h => by unfold F; omega)
  have hsl : Slots K0 K1 md (m0.r ra) op ip M.length S mem2 := by
    refine ⟨c3, c2, c1, c0, ?_, ?_, ?_, ?_, ?_⟩
    · exact hfr2.holds (fun a h h' => by rw [len32] at h'; omega) s76
    · exact hfr2.holds (fun a h h' => by rw [len32] at h'; omega) s80
    · exact hfr2.holds (fun a h h' => by rw [len32] at h'; omega) s84
    · exact hfr2.holds (fun a h h' => by rw [len32] at h'; omega) s92
    · rw [hfr02.same _ (by unfold F; omega)]; exact h.modeB
  have t64 := hfr2.holds (fun a h h' => by rw [len32] at h'; omega) s64
  have t68 := hfr2.holds (fun a h h' => by rw [len32] at h'; omega) s68
  clear hm2
  refine .alu rfl rfl (.alu rfl rfl (.alu rfl rfl (.alu rfl rfl (.alu rfl rfl ?_))))
  simp (disch := decide) only [Opnd.get, set_ne, hk.h0, hk.l0, hk.h1, hk.l1, hnp1]
  refine (load (pc := 244) rfl rfl rfl rfl rfl rfl (by decide) (by decide) set_eq h.npEnd (hfr02.holds (fun a q q' => ?_) h.npH) h.npL).cut ?_
  · rw [h.npL] at q'; have := h.dN; unfold Disjoint at this; unfold F; omega
  rintro t pc' m2 mem3 ⟨rfl, rfl, hn, hk2, hs2, rfl⟩
  generalize be64 (N.take 8) = N0 at *
  generalize be64 (N.drop 8) = N1 at *
  refine .alu rfl rfl (.alu rfl rfl (.alu rfl rfl (.alu rfl rfl (.alu rfl rfl (.alu rfl rfl ?_)))))
  simp (disch := decide) only [Opnd.get, set_ne, hn.h0, hn.l0]
  generalize hm3 : Asm.M.set _ a3 _ = m3
  have hld : Loaded 2 (fun w => w) (⟨Variant.v12.iv, K0, K1, N0, N1⟩ : State) m3 := by
    refine loaded_iff.mpr ?_
    rw [← hm3]
    simp (disch := decide) only [set_eq, set_ne, hk2, hn.h1, hn.l1, iv_chunks]
    refine ⟨?_, ?_, ?_, ?_, ?_, ?_, ?_, ?_, ?_, ?_⟩ <;> first | trivial | rfl
  have he3 : Env S m3 mem3 := by
    refine he.frame ?_ ?_ hfr2.live
    · rw [← hm3]
      simp (disch := decide) only [set_ne, hk2, hk1]
    · rw [← hm3]; exact hs2.trans hs1
  refine (call_noload (n := 12) (by decide) (by decide) (pc := 255) rfl rfl (by decide) hld he3 (by rw [← hm3, set_ne (by decide), set_eq]; rfl)
    (by rw [← hm3, set_eq]; rfl)).cut ?_
  rintro t pc' m4 mem4 ⟨rfl, rfl, hl4, hst4, hfr4⟩
  clear hm3
  have hF1 : Fr (F1 S) mem3 mem4 := hfr4.mono fun a h => by unfold P at h; unfold F1; omega
  have hsl4 := hsl.frame hF1
  obtain ⟨e0, e1, e2, e3, e4, e5, e6, e7, e8, e9⟩ := loaded_iff.mp hl4
  refine (add_key (pc := 256) rfl rfl rfl rfl rfl rfl rfl rfl (by decide) (by decide) hst4.env.sp hl hsl4.k3 hsl4.k2 hsl4.k1 hsl4.k0 e7 e6 e9 e8).cut ?_
  rintro t pc' m5 mem5 ⟨rfl, rfl, g7, g6, g9, g8, hk5, hs5, rfl⟩
  have hsp5 := (hk5 sp (by decide)).trans hst4.env.sp
  have hw5 := hst4.env.wr
  have g5 := (hk5 x2h (by decide)).trans e5
  have g4 := (hk5 x2l (by decide)).trans e4
  rw [← chunk_xor] at g6 g7 g8 g9
  refine s32At (p := S) _ rfl hsp5 g5 (by omega) (hw5.mono (by omega) (by omega)) ?_
  refine s32At (p := S) _ rfl hsp5 g4 (by omega) (hw5.writes.mono (by omega) (by omega)) ?_
  refine s32At (p := S) _ rfl hsp5 g7 (by omega) (hw5.writes.writes.mono (by omega) (by omega)) ?_
  refine s32At (p := S) _ rfl hsp5 g6 (by omega) (hw5.writes.writes.writes.mono (by omega) (by omega)) ?_
  refine s32At (p := S) _ rfl hsp5 g9 (by omega) (hw5.writes.writes.writes.writes.mono (by omega) (by omega)) ?_
  refine s32At (p := S) _ rfl hsp5 g8 (by omega) (hw5.writes.writes.writes.writes.writes.mono (by omega) (by omega)) ?_
  have hI : Variant.v12.init K0 K1 N0 N1 = { perm 12 (⟨Variant.v12.iv, K0, K1, N0, N1⟩ : State) with
      x3 := (perm 12 (⟨Variant.v12.iv, K0, K1, N0, N1⟩ : State)).x3 ^^^ K0, x4 := (perm 12 (⟨Variant.v12.iv, K0, K1, N0, N1⟩ : State)).x4 ^^^ K1 } := by
    simp only [Variant.init]
  rw [hI]
  generalize perm 12 (⟨Variant.v12.iv, K0, K1, N0, N1⟩ : State) = q at *
  obtain ⟨hlow, hfr5⟩ := low_writes (S := S) (mem := mem5) (s := { q with x3 := q.x3 ^^^ K0, x4 := q.x4 ^^^ K1 }) _ _ _ _ _ _ rfl rfl rfl rfl rfl rfl
  have hF5 : Fr (F1 S) mem5 _ := hfr5.mono fun a h => by unfold P at h; unfold F1; omega
  refine .done ⟨?_, rfl, ?_, ?_, hsl4.frame hF5, ?_, ?_, ?_⟩
  · simp only [initT, block, wblock, List.append_assoc, List.append_nil, Nat.add_assoc, Nat.reduceAdd]
  · exact ⟨(hk5 x0l (by decide)).trans e0, (hk5 x0h (by decide)).trans e1, (hk5 x1l (by decide)).trans e2, (hk5 x1h (by decide)).trans e3, hlow,
      hs5.trans hst4.env.stk, hsp5, fun i hi => hfr5.live _ (hw5 i hi), hl⟩
  · exact g8
  · refine hfr5.holds (fun a h h' => by rw [len32] at h'; unfold P; omega) (hfr4.holds (fun a h h' => by rw [len32] at h'; unfold P; omega) t64)
  · refine hfr5.holds (fun a h h' => by rw [len32] at h'; unfold P; omega) (hfr4.holds (fun a h h' => by rw [len32] at h'; unfold P; omega) t68)
  · exact hfr02.trans ((hfr4.mono fun a h => by unfold P at h; unfold F; omega).trans (hfr5.mono fun a h => by unfold P at h; unfold F; omega))

/-- Events of the associated data. -/
def adT (S ap n : Nat) : List Event :=
  reads (S + 68) 4 ++ [.branch (decide (n = 0))] ++
    (if n = 0 then [] else reads (S + 64) 4 ++ writesE (S + 72) 4 ++ duplexT .ad ap 0 S n ++ permT 8 S)

/-- Associated data. -/
theorem core_ad {s : State} {K0 K1 : Word} {v : U32} {n : Nat} (hst : St s S m mem) (h4 : m.r x4l = chunk 32 0 s.x4)
    (hsl : Slots K0 K1 md v op ip n S mem) (h64 : mem.Holds (S + 64) (repr32 .little (BitVec.ofNat 32 ap)))
    (h68 : mem.Holds (S + 68) (repr32 .little (BitVec.ofNat 32 A.length))) (hE : ap + A.length ≤ 2 ^ 32)
    (hlt : A.length < 2 ^ 32) (hA : mem.Holds ap A) (hdA : Disjoint S 96 ap A.length) :
    Goes xaead_code base 270 m mem fun t pc' m' mem' => t = adT S ap A.length ∧ pc' = 279 ∧
      St (if A = [] then s else perm 8 (Variant.v12.duplex .ad s A (lastBlock 16 A)).1) S m' mem' ∧
      m'.r x4l = chunk 32 0 (if A = [] then s else perm 8 (Variant.v12.duplex .ad s A (lastBlock 16 A)).1).x4 ∧
      Slots K0 K1 md v op ip n S mem' ∧ Fr (F1 S) mem mem' := by
  have hl := hst.env.lim
  have hsp := hst.env.sp
  have hst1 : ∀ w, St s S (m.set x3h w) mem := fun w =>
    hst.keep (fun r hr => set_ne (by rintro rfl; revert hr; decide)) rfl
  refine l32At (p := S) rfl hsp (by omega) h68 ?_
  by_cases h0 : A.length = 0
  · have hA' : A = [] := List.eq_nil_of_length_eq_zero h0
    subst hA'
    refine .br true rfl (by simp only [Opnd.get, set_eq, Cmp.eval]; rfl) rfl ?_
    refine .done ⟨?_, rfl, ?_, ?_, hsl, Fr.refl _ _⟩
    · simp [adT]
    · rw [if_pos rfl]; exact hst1 _
    · rw [if_pos rfl, set_ne (by decide)]; exact h4
  · have hA' : A ≠ [] := fun e => h0 (by rw [e]; rfl)
    simp only [if_neg hA']
    refine .br false rfl ?_ rfl ?_
    · simp only [Opnd.get, set_eq, Cmp.eval]
      refine beq_eq_false_iff_ne.mpr fun e => h0 ?_
      have := congrArg BitVec.toNat e
      simpa [Nat.mod_eq_of_lt hlt] using this
    refine l32At (p := S) rfl (by rw [set_ne (by decide)]; exact hsp) (by omega) h64 (.alu rfl rfl ?_)
    refine s32At (p := S) (Mode.val .ad) rfl ?_ (by exact set_eq) (by omega) (hst.env.wr.mono (by omega) (by omega)) ?_
    · rw [set_ne (by decide), set_ne (by decide), set_ne (by decide)]; exact hsp
    have hfr : Fr (F1 S) mem (mem.writes (S + 72) (repr32 .little (Mode.val .ad))) :=
      (Fr.refl _ _).writes _ _ fun a h h' => by rw [len32] at h'; unfold F1; omega
    simp only [Opnd.get]
    generalize hm1 : Asm.M.set _ x3l _ = m1
    have hk : ∀ r, r ∉ [x3h, x2l, x3l] → m1.r r = m.r r := by
      intro r hr
      simp only [List.mem_cons, List.not_mem_nil, or_false, not_or] at hr
      rw [← hm1, set_ne hr.2.2, set_ne hr.2.1, set_ne hr.1]
    have hs1 : m1.stk = m.stk := by rw [← hm1]; rfl
    refine (call_duplex (pc := 275) rfl rfl (by decide) .ad A m1 _ s (lastBlock 16 A) ap 0
      (hst.frame (fun r hr => hk r ?_) hs1 (fun a ha => writes_out ?_) hfr.live) ?_ (holds_writes_self _ _ _) ?_ hE ?_ hlt
      (hfr.holds (fun a h h' => ?_) hA) hdA (fun e => absurd rfl e) (fun e => by cases e)).cut ?_
    · revert r; decide
    · rw [len32]; unfold P at ha; omega
    · rw [← hm1]; exact set_eq
    · rw [← hm1, set_ne (by decide), set_eq]
    · rw [← hm1, set_ne (by decide), set_ne (by decide), set_eq]
    · unfold Disjoint at hdA; unfold F1; omega
    rintro t pc' m2 mem2 ⟨rfl, rfl, hst2, -, -, hfr2⟩
    rw [if_pos rfl] at hfr2
    refine .alu rfl rfl (.alu rfl rfl ?_)
    simp only [Opnd.get]
    generalize (Variant.v12.duplex Mode.ad s A (lastBlock 16 A)).1 = q at *
    refine (call_perm (n := 8) (by decide) (by decide) (pc := 278) rfl rfl (by decide)
      (hst2.keep (m' := (m2.set a2 _).set a3 _) (fun r hr => ?_) rfl) (by rw [set_ne (by decide), set_eq]; rfl) (by rw [set_eq]; rfl)).mono ?_
    · rw [set_ne (by rintro rfl; revert hr; decide), set_ne (by rintro rfl; revert hr; decide)]
    rintro t pc' m3 mem3 ⟨rfl, rfl, hl3, hst3, hfr3⟩
    have hF : Fr (F1 S) mem mem3 := hfr.trans ((hfr2.mono fun a h => by unfold D' D at h; unfold F1; omega).trans
      (hfr3.mono fun a h => by unfold P at h; unfold F1; omega))
    refine ⟨?_, rfl, hst3, (loaded_iff.mp hl3).2.2.2.2.2.2.2.2.1, hsl.frame hF, hF⟩
    simp only [adT, h0, decide_false, if_false, List.append_assoc, List.cons_append, List.nil_append]

/-- Events of the message. -/
def msgT (md : Mode) (op ip n S : Nat) : List Event :=
  writesE (S + 36) 4 ++ reads (S + 76) 4 ++ reads (S + 80) 4 ++ reads (S + 84) 4 ++ [.read (S + 116)] ++ writesE (S + 72) 4 ++
  duplexT md ip op S n

/-- Domain separation and the message. -/
theorem core_msg {s : State} {K0 K1 : Word} {v : U32} (hst : St s S m mem) (h4 : m.r x4l = chunk 32 0 s.x4)
    (hsl : Slots K0 K1 md v op ip M.length S mem) (hmd : md ≠ .ad) (hoE : op + M.length ≤ 2 ^ 32) (hoW : mem.Writable op M.length)
    (hiE : ip + M.length ≤ 2 ^ 32) (hiH : mem.Holds ip M) (hlt : M.length < 2 ^ 32) (hov : op ≤ ip ∨ ip + M.length ≤ op)
    (hdO : Disjoint S 120 op M.length) (hdI : Disjoint S 96 ip M.length)
    (hdec : md = .dec → (mem.writes op (Variant.v12.duplex md { s with x4 := s.x4 ^^^ Variant.v12.sep } M l').2).Holds
      (ip + M.length / 16 * 16) l' ∧ l'.length = M.length % 16) :
    Goes xaead_code base 279 m mem fun t pc' m' mem' => t = msgT md op ip M.length S ∧ pc' = 290 ∧
      St (Variant.v12.duplex md { s with x4 := s.x4 ^^^ Variant.v12.sep } M l').1 S m' mem' ∧
      m'.r x2h = BitVec.ofNat 32 (op + M.length) ∧ m'.r x2l = BitVec.ofNat 32 (ip + M.length) ∧
      Slots K0 K1 md v op ip M.length S mem' ∧ mem'.Holds (S + 72) (repr32 .little md.val) ∧
      Fr (F1 S) (mem.writes op (Variant.v12.duplex md { s with x4 := s.x4 ^^^ Variant.v12.sep } M l').2) mem' := by
  have hl := hst.env.lim
  have hsp := hst.env.sp
  have hw := hst.env.wr
  obtain ⟨s', hs'⟩ : ∃ s' : State, s' = { s with x4 := s.x4 ^^^ Variant.v12.sep } := ⟨_, rfl⟩
  rw [← hs'] at hdec ⊢
  have hc8 : chunk 32 0 s'.x4 = chunk 32 0 s.x4 ^^^ 1 := by rw [hs']; simp only [chunk_xor, sep_chunks]
  have hc9 : chunk 32 1 s'.x4 = chunk 32 1 s.x4 := by rw [hs']; simp only [chunk_xor, sep_chunks]; exact BitVec.xor_zero
  refine .alu rfl rfl (.alu rfl rfl ?_)
  simp (disch := decide) only [Opnd.get, BitOp.fn, set_eq, set_ne, h4]
  refine s32At (p := S) (chunk 32 0 s'.x4) rfl (by rw [set_ne (by decide), set_ne (by decide)]; exact hsp) (by rw [hc8]; exact set_eq) (by omega)
    (hw.mono (by omega) (by omega)) ?_
  have hfr1 : Fr (F1 S) mem (mem.writes (S + 36) (repr32 .little (chunk 32 0 s'.x4))) :=
    (Fr.refl _ _).writes _ _ fun a h h' => by rw [len32] at h'; unfold F1; omega
  have hlow1 : Low s' S (mem.writes (S + 36) (repr32 .little (chunk 32 0 s'.x4))) := by
    have hd : ∀ k, k + 4 ≤ 36 → ∀ w, Disjoint (S + 36) (repr32 .little (chunk 32 0 s'.x4)).length (S + k) (repr32 .little w).length := by
      intro k hk w; rw [len32, len32]; unfold Disjoint; omega
    have q := hst.low
    refine ⟨?_, ?_, ?_, ?_, ?_, holds_writes_self _ _ _⟩
    · rw [show s'.x2 = s.x2 by rw [hs']]; exact q.m5.writes_disjoint (hd _ (by omega) _)
    · rw [show s'.x2 = s.x2 by rw [hs']]; exact q.m4.writes_disjoint (hd _ (by omega) _)
    · rw [show s'.x3 = s.x3 by rw [hs']]; exact q.m7.writes_disjoint (hd _ (by omega) _)
    · rw [show s'.x3 = s.x3 by rw [hs']]; exact q.m6.writes_disjoint (hd _ (by omega) _)
    · rw [hc9]; exact q.m9.writes_disjoint (hd _ (by omega) _)
  have hst1 : St s' S m (mem.writes (S + 36) (repr32 .little (chunk 32 0 s'.x4))) := by
    refine ⟨?_, ?_, ?_, ?_, hlow1, hst.env.frame rfl rfl hfr1.live⟩
    · rw [hs']; exact hst.r0
    · rw [hs']; exact hst.r1
    · rw [hs']; exact hst.r2
    · rw [hs']; exact hst.r3
  have hsl1 := hsl.frame hfr1
  clear hlow1 hc8 hc9 hs'
  generalize hm1 : Asm.M.set _ x4l _ = m1
  have hk1 : ∀ r, r ∉ [a2, x4l] → m1.r r = m.r r := by
    intro r hr
    simp only [List.mem_cons, List.not_mem_nil, or_false, not_or] at hr
    rw [← hm1, set_ne hr.2, set_ne hr.1]
  have hs1 : m1.stk = m.stk := by rw [← hm1]; rfl
  clear hm1
  have hsp1 := (hk1 sp (by decide)).trans hsp
  refine l32At (p := S) rfl hsp1 (by omega) hsl1.o (l32At (p := S) rfl (by rw [set_ne (by decide)]; exact hsp1) (by omega) hsl1.i
    (l32At (p := S) rfl (by rw [set_ne (by decide), set_ne (by decide)]; exact hsp1) (by omega) hsl1.n
    (.lbuAt (p := S) rfl (by rw [set_ne (by decide), set_ne (by decide), set_ne (by decide)]; exact hsp1) (by omega) hsl1.mode (.alu rfl rfl (.op2 rfl ?_)))))
  simp (disch := decide) only [Opnd.get, set_eq]
  have hext : Op2.sra.fn (((md.val.setWidth 8 : Byte).setWidth 32 : U32) <<< 24) 0x18 = md.val :=
    mode_ext _ md (by rw [BitVec.setWidth_setWidth_of_le _ (by decide)]; simp)
  rw [hext]
  refine s32At (p := S) md.val rfl ?_ (by exact set_eq) (by omega) (hw.writes.mono (by omega) (by omega)) ?_
  · simp (disch := decide) only [set_ne]; exact hsp1
  generalize hm2 : Asm.M.set _ x3l _ = m2
  have hk2 : ∀ r, r ∉ [x2h, x2l, x3h, x3l, a2, x4l] → m2.r r = m.r r := by
    intro r hr
    simp only [List.mem_cons, List.not_mem_nil, or_false, not_or] at hr
    obtain ⟨q1, q2, q3, q4, q5, q6⟩ := hr
    rw [← hm2, set_ne q4, set_ne q4, set_ne q4, set_ne q3, set_ne q2, set_ne q1, hk1 r (by simp [q5, q6])]
  have hs2 : m2.stk = m.stk := by rw [← hm2]; exact hs1
  have g0 : m2.r x3l = md.val := by rw [← hm2]; exact set_eq
  have g1 : m2.r x2h = BitVec.ofNat 32 op := by rw [← hm2]; simp (disch := decide) only [set_ne, set_eq]
  have g2 : m2.r x2l = BitVec.ofNat 32 ip := by rw [← hm2]; simp (disch := decide) only [set_ne, set_eq]
  have g3 : m2.r x3h = BitVec.ofNat 32 M.length := by rw [← hm2]; simp (disch := decide) only [set_ne, set_eq]
  clear hm2
  have hfr2 : Fr (F1 S) mem ((mem.writes (S + 36) (repr32 .little (chunk 32 0 s'.x4))).writes (S + 72) (repr32 .little md.val)) :=
    hfr1.writes _ _ fun a h h' => by rw [len32] at h'; unfold F1; omega
  have hol : (Variant.v12.duplex md s' M l').2.length = M.length := Variant.length_duplex Variant.v12_ok md _ M l'
  refine (call_duplex (pc := 289) rfl rfl (by decide) md M m2 _ s' l' ip op
      (hst1.frame (fun r hr => hk2 r ?_) hs2 (fun a ha => writes_out ?_) (live_writes _ _ _)) g0 (holds_writes_self _ _ _) g2 hiE g3 hlt
      (hfr2.holds (fun a h h' => ?_) hiH) hdI (fun _ => ⟨g1, hoE, hoW.writes.writes, by unfold Disjoint at hdO ⊢; omega, hov⟩) ?_).mono ?_
  · revert r; decide
  · rw [len32]; unfold P at ha; omega
  · unfold Disjoint at hdI; unfold F1; omega
  · intro hd
    obtain ⟨q1, q2⟩ := hdec hd
    refine ⟨(hfr2.congr _ _).holds (fun a h h' => ?_) q1, q2⟩
    rw [q2] at h'; unfold Disjoint at hdI; unfold F1; omega
  rintro t pc' m3 mem3 ⟨rfl, rfl, hst3, f1, f2, hfr3⟩
  rw [if_neg hmd] at hfr3
  have hF3 := hfr3.mono (D' := F1 S) fun a h => by unfold D' D at h; unfold F1; omega
  refine ⟨?_, rfl, hst3, ?_, f2, ?_, ?_, (hfr2.congr _ _).trans hF3⟩
  · simp only [msgT, List.append_assoc, List.cons_append, List.nil_append]
  · rw [f1, g1, ofNat_add]
  · exact ((hsl.frame hfr2).writes (by rw [hol]; exact hdO)).frame hF3
  · refine hfr3.holds (fun a h h' => by rw [len32] at h'; unfold D' D; omega) ((holds_writes_self _ _ _).writes_disjoint ?_)
    rw [len32, hol]; unfold Disjoint at hdO ⊢; omega

/-- Events of the finalisation. -/
def finalT (S : Nat) : List Event :=
  writesE (S + 60) 4 ++ writesE (S + 64) 4 ++ lowT S ++ block (S + 40) ++ noloadT 12 S ++ block (S + 40)

/-- Finalisation. -/
theorem core_final {s : State} {K0 K1 : Word} {v : U32} {oe ie n : Nat} (hst : St s S m mem) (hsl : Slots K0 K1 md v op ip n S mem)
    (h72 : mem.Holds (S + 72) (repr32 .little md.val)) (ho : m.r x2h = BitVec.ofNat 32 oe) (hi : m.r x2l = BitVec.ofNat 32 ie) :
    Goes xaead_code base 290 m mem fun t pc' m' mem' => t = finalT S ∧ pc' = 317 ∧
      m'.r x3h = chunk 32 1 (Variant.final K0 K1 s).x3 ∧ m'.r x3l = chunk 32 0 (Variant.final K0 K1 s).x3 ∧
      m'.r x4h = chunk 32 1 (Variant.final K0 K1 s).x4 ∧ m'.r x4l = chunk 32 0 (Variant.final K0 K1 s).x4 ∧
      Env S m' mem' ∧ mem'.Holds (S + 60) (repr32 .little (BitVec.ofNat 32 oe)) ∧ mem'.Holds (S + 64) (repr32 .little (BitVec.ofNat 32 ie)) ∧
      mem'.Holds (S + 72) (repr32 .little md.val) ∧ mem'.Holds (S + 92) (repr32 .little v) ∧ Fr (F1 S) mem mem' := by
  have hl := hst.env.lim
  have hsp := hst.env.sp
  have hw := hst.env.wr
  refine s32At (p := S) _ rfl hsp ho (by omega) (hw.mono (by omega) (by omega)) ?_
  refine s32At (p := S) _ rfl hsp hi (by omega) (hw.writes.mono (by omega) (by omega)) ?_
  generalize hm1 : Mem.writes _ (S + 64) _ = mem1
  have hfr1 : Fr (fun a => S + 60 ≤ a ∧ a < S + 68) mem mem1 := by
    rw [← hm1]
    refine (((Fr.refl _ _).writes _ _ ?_).writes _ _ ?_)
    all_goals intro a h h'; rw [len32] at h'; omega
  have s60 : mem1.Holds (S + 60) (repr32 .little (BitVec.ofNat 32 oe)) := by
    rw [← hm1]; exact (holds_writes_self _ _ _).writes_disjoint (by rw [len32, len32]; unfold Disjoint; omega)
  have s64 : mem1.Holds (S + 64) (repr32 .little (BitVec.ofNat 32 ie)) := by
    rw [← hm1]; exact holds_writes_self _ _ _
  have s72 := hfr1.holds (fun a h h' => by rw [len32] at h'; omega) h72
  have hsl1 := hsl.frame (hfr1.mono fun a h => by unfold F1; omega)
  have hst1 : St s S m mem1 := hst.frame (fun _ _ => rfl) rfl (fun a ha => hfr1.same a (by unfold P at ha; omega)) hfr1.live
  clear hm1
  refine (load_low (pc := 292) rfl rfl rfl rfl rfl rfl hst1).cut ?_
  rintro t pc' m2 mem1 ⟨rfl, rfl, hl2, hk2, hs2, rfl⟩
  obtain ⟨e0, e1, e2, e3, e4, e5, e6, e7, e8, e9⟩ := loaded_iff.mp hl2
  refine (add_key (pc := 298) rfl rfl rfl rfl rfl rfl rfl rfl (by decide) (by decide) ((hk2 sp (by decide)).trans hsp) hl
    hsl1.k3 hsl1.k2 hsl1.k1 hsl1.k0 e5 e4 e7 e6).cut ?_
  rintro t pc' m3 mem1 ⟨rfl, rfl, g5, g4, g7, g6, hk3, hs3, rfl⟩
  rw [← chunk_xor] at g4 g5 g6 g7
  refine .alu rfl rfl (.alu rfl rfl ?_)
  simp only [Opnd.get]
  generalize hm4 : Asm.M.set _ a3 _ = m4
  have hk4 : ∀ r, r ≠ a2 → r ≠ a3 → m4.r r = m3.r r := fun r h h' => by rw [← hm4, set_ne h', set_ne h]
  have hld : Loaded 2 (fun w => w) { s with x2 := s.x2 ^^^ K0, x3 := s.x3 ^^^ K1 } m4 := by
    refine loaded_iff.mpr ⟨?_, ?_, ?_, ?_, ?_, ?_, ?_, ?_, ?_, ?_⟩
    · rw [hk4 _ (by decide) (by decide), hk3 _ (by decide)]; exact e0
    · rw [hk4 _ (by decide) (by decide), hk3 _ (by decide)]; exact e1
    · rw [hk4 _ (by decide) (by decide), hk3 _ (by decide)]; exact e2
    · rw [hk4 _ (by decide) (by decide), hk3 _ (by decide)]; exact e3
    · rw [hk4 _ (by decide) (by decide)]; exact g4
    · rw [hk4 _ (by decide) (by decide)]; exact g5
    · rw [hk4 _ (by decide) (by decide)]; exact g6
    · rw [hk4 _ (by decide) (by decide)]; exact g7
    · rw [hk4 _ (by decide) (by decide), hk3 _ (by decide)]; exact e8
    · rw [hk4 _ (by decide) (by decide), hk3 _ (by decide)]; exact e9
  have he4 : Env S m4 mem1 := by
    refine hst1.env.frame ?_ ?_ (fun _ h => h)
    · rw [hk4 _ (by decide) (by decide), hk3 _ (by decide), hk2 _ (by decide)]
    · rw [← hm4]; exact hs3.trans hs2
  refine (call_noload (n := 12) (by decide) (by decide) (pc := 308) rfl rfl (by decide) hld he4 (by rw [← hm4, set_ne (by decide), set_eq]; rfl)
    (by rw [← hm4, set_eq]; rfl)).cut ?_
  rintro t pc' m5 mem5 ⟨rfl, rfl, hl5, hst5, hfr5⟩
  have hsl5 := hsl1.frame (hfr5.mono fun a h => by unfold P at h; unfold F1; omega)
  obtain ⟨-, -, -, -, -, -, e6, e7, e8, e9⟩ := loaded_iff.mp hl5
  refine (add_key (pc := 309) rfl rfl rfl rfl rfl rfl rfl rfl (by decide) (by decide) hst5.env.sp hl
    hsl5.k3 hsl5.k2 hsl5.k1 hsl5.k0 e7 e6 e9 e8).mono ?_
  rintro t pc' m6 mem5 ⟨rfl, rfl, g7, g6, g9, g8, hk6, hs6, rfl⟩
  rw [← chunk_xor] at g6 g7 g8 g9
  have hI : Variant.final K0 K1 s = { perm 12 ({ s with x2 := s.x2 ^^^ K0, x3 := s.x3 ^^^ K1 } : State) with
      x3 := (perm 12 ({ s with x2 := s.x2 ^^^ K0, x3 := s.x3 ^^^ K1 } : State)).x3 ^^^ K0,
      x4 := (perm 12 ({ s with x2 := s.x2 ^^^ K0, x3 := s.x3 ^^^ K1 } : State)).x4 ^^^ K1 } := by
    simp only [Variant.final]
  rw [hI]
  generalize perm 12 ({ s with x2 := s.x2 ^^^ K0, x3 := s.x3 ^^^ K1 } : State) = q at *
  refine ⟨?_, rfl, g7, g6, g9, g8, hst5.env.frame (hk6 _ (by decide)) hs6 (fun _ h => h), ?_, ?_, ?_, hsl5.ret, ?_⟩
  · simp only [finalT, List.append_assoc]
  · exact hfr5.holds (fun a h h' => by rw [len32] at h'; unfold P; omega) s60
  · exact hfr5.holds (fun a h h' => by rw [len32] at h'; unfold P; omega) s64
  · exact hfr5.holds (fun a h h' => by rw [len32] at h'; unfold P; omega) s72
  · exact (hfr1.mono fun a h => by unfold F1; omega).trans (hfr5.mono fun a h => by unfold P at h; unfold F1; omega)

/-- Events before the tag. -/
def coreT (md : Mode) (op ip n ap an np kp S : Nat) : List Event :=
  initT S np kp ++ adT S ap an ++ msgT md op ip n S ++ finalT S

/-- Everything before the tag. -/
theorem core_body {q : State} (h : Args md m mem op ip M ap A np N kp K S)
    (hq : q = Variant.final (be64 (K.take 8)) (be64 (K.drop 8)) (Variant.v12.duplex md (Variant.v12.start K N A) M l').1)
    (hdec : md = .dec → (mem.writes op (Variant.v12.duplex md (Variant.v12.start K N A) M l').2).Holds (ip + M.length / 16 * 16) l' ∧
      l'.length = M.length % 16) :
    Goes xaead_code base 223 m mem fun t pc' m' mem' =>
      t = coreT md op ip M.length ap A.length np kp S ∧ pc' = 317 ∧
      m'.r x3h = chunk 32 1 q.x3 ∧ m'.r x3l = chunk 32 0 q.x3 ∧ m'.r x4h = chunk 32 1 q.x4 ∧ m'.r x4l = chunk 32 0 q.x4 ∧
      Env S m' mem' ∧ mem'.Holds (S + 60) (repr32 .little (BitVec.ofNat 32 (op + M.length))) ∧
      mem'.Holds (S + 64) (repr32 .little (BitVec.ofNat 32 (ip + M.length))) ∧
      mem'.Holds (S + 72) (repr32 .little md.val) ∧ mem'.Holds (S + 92) (repr32 .little (m.r ra)) ∧
      Fr (F S) (mem.writes op (Variant.v12.duplex md (Variant.v12.start K N A) M l').2) mem' := by
  refine (core_init h).cut ?_
  rintro t pc' m1 mem1 ⟨rfl, rfl, hst1, h41, hsl1, h64, h68, hfr1⟩
  have hstart : ∀ q : State, q = (if A = [] then
        Variant.v12.init (be64 (K.take 8)) (be64 (K.drop 8)) (be64 (N.take 8)) (be64 (N.drop 8)) else
        perm 8 (Variant.v12.duplex .ad (Variant.v12.init (be64 (K.take 8)) (be64 (K.drop 8)) (be64 (N.take 8)) (be64 (N.drop 8))) A
          (lastBlock 16 A)).1) →
      Variant.v12.start K N A = { q with x4 := q.x4 ^^^ Variant.v12.sep } := by
    intro q hq; subst hq; rfl
  refine (core_ad hst1 h41 hsl1 h64 h68 h.apEnd h.alt (hfr1.holds (fun a q q' => ?_) h.apH) h.dA).cut ?_
  · have := h.dA; unfold Disjoint at this; unfold F; omega
  rintro t pc' m2 mem2 ⟨rfl, rfl, hst2, h42, hsl2, hfr2⟩
  have hF : Fr (F S) mem mem2 := hfr1.trans (hfr2.mono fun a h => by unfold F1 at h; unfold F; omega)
  have hst := hstart _ rfl
  generalize (if A = [] then _ else _ : State) = s2 at *
  rw [hst] at hq hdec ⊢
  clear hstart
  subst hq
  have hdI := h.dI
  refine (core_msg (l' := l') hst2 h42 hsl2 h.mode h.opEnd (hF.writable h.opW) h.ipEnd (hF.holds (fun a q q' => ?_) h.ipH) h.ilt h.over h.dO h.dI ?_).cut ?_
  · unfold Disjoint at hdI; unfold F; omega
  · intro hd
    obtain ⟨q1, q2⟩ := hdec hd
    refine ⟨(hF.congr _ _).holds (fun a h h' => ?_) q1, q2⟩
    rw [q2] at h'; unfold Disjoint at hdI; unfold F; omega
  rintro t pc' m3 mem3 ⟨rfl, rfl, hst3, ho, hi, hsl3, h72, hfr3⟩
  refine (core_final hst3 hsl3 h72 ho hi).mono ?_
  rintro t pc' m4 mem4 ⟨rfl, rfl, g7, g6, g9, g8, he4, a60, a64, a72, a92, hfr4⟩
  refine ⟨?_, rfl, g7, g6, g9, g8, he4, a60, a64, a72, a92, ?_⟩
  · simp only [coreT, List.append_assoc]
  · exact (hF.congr _ _).trans ((hfr3.trans hfr4).mono fun a h => by unfold F1 at h; unfold F; omega)

attribute [local irreducible] coreT

/-- What the function compares with zero. -/
def diff (a b : Word) : U32 := chunk 32 1 a ^^^ chunk 32 0 a ^^^ chunk 32 1 b ^^^ chunk 32 0 b

/-- `ascon_core` for encryption, up to its return. -/
theorem core_enc (h : Args .enc m mem op ip M ap A np N kp K S) (hend : op + M.length + 16 ≤ 2 ^ 32)
    (hw : mem.Writable op (M.length + 16)) (hd : Disjoint S 120 op (M.length + 16)) :
    Goes xaead_code base 223 m mem fun t pc' m' mem' =>
      t = coreT .enc op ip M.length ap A.length np kp S ++ reads (S + 72) 4 ++ [.branch true] ++ reads (S + 60) 4 ++
        wblock (op + M.length) ++ reads (S + 92) 4 ∧ pc' = 347 ∧
      m'.r a2 = 0 ∧ m'.r ra = m.r ra ∧ m'.stk = [] ∧ m'.r sp = m.r sp ∧ Fr (F S) (mem.writes op (Variant.v12.encrypt K N A M)) mem' := by
  obtain ⟨q, hq⟩ : ∃ q, q = Variant.final (be64 (K.take 8)) (be64 (K.drop 8)) (Variant.v12.duplex .enc (Variant.v12.start K N A) M (lastBlock 16 M)).1 := ⟨_, rfl⟩
  refine (core_body h hq (fun e => absurd e (by decide))).cut ?_
  rintro t pc' m1 mem1 ⟨rfl, rfl, g7, g6, g9, g8, he, h60, h64, h72, h92, hfr⟩
  have hol : (Variant.v12.duplex .enc (Variant.v12.start K N A) M (lastBlock 16 M)).2.length = M.length := Variant.length_duplex Variant.v12_ok _ _ M _
  have hout : Variant.v12.encrypt K N A M = (Variant.v12.duplex .enc (Variant.v12.start K N A) M (lastBlock 16 M)).2 ++ (beBytes q.x3 ++ beBytes q.x4) := by
    rw [hq]; rfl
  rw [hout, writes_append, hol, ← bytes64_rv, ← bytes64_rv]
  clear hout hq
  generalize (Variant.v12.duplex .enc (Variant.v12.start K N A) M (lastBlock 16 M)).2 = o at *
  have hl := he.lim
  have hsp := he.sp
  refine l32At (p := S) rfl hsp (by omega) h72 (.br true rfl (by simp only [Opnd.get, set_eq]; rfl) rfl ?_)
  refine .alu rfl rfl (.alu rfl rfl ?_)
  simp (disch := decide) only [Opnd.get, set_ne, g7, g6]
  refine (call_rev8 (pc := 339) rfl rfl (by decide) (by rw [set_ne (by decide), set_eq]) set_eq
    (by simp (disch := decide) only [set_ne]; exact g9) (by simp (disch := decide) only [set_ne]; exact g8)).cut ?_
  rintro t pc' m2 mem1 ⟨rfl, rfl, e0, e1, e2, e3, hk2, hs2, rfl⟩
  rw [rev8_1] at e0 e2
  rw [rev8_0] at e1 e3
  have hsp2 : m2.r sp = BitVec.ofNat 32 S := by
    rw [hk2 _ (by decide)]; simp (disch := decide) only [set_ne]; exact hsp
  have hw1 : mem1.Writable (op + M.length) 16 := hfr.writable (hw.writes.mono (by omega) (by omega))
  refine l32At (p := S) rfl hsp2 (by omega) h60 ?_
  refine s32At (p := op + M.length) _ rfl set_eq (by simp (disch := decide) only [Opnd.get, set_ne]; exact e0) (by omega) (hw1.mono (by omega) (by omega)) ?_
  refine s32At (p := op + M.length) _ rfl set_eq (by simp (disch := decide) only [Opnd.get, set_ne]; exact e1) (by omega) (hw1.writes.mono (by omega) (by omega)) ?_
  refine s32At (p := op + M.length) _ rfl set_eq (by simp (disch := decide) only [Opnd.get, set_ne]; exact e2) (by omega) (hw1.writes.writes.mono (by omega) (by omega)) ?_
  refine s32At (p := op + M.length) _ rfl set_eq (by simp (disch := decide) only [Opnd.get, set_ne]; exact e3) (by omega) (hw1.writes.writes.writes.mono (by omega) (by omega)) ?_
  rw [← writes_block]
  have htl : (bytes64 (rv q.x3) ++ bytes64 (rv q.x4)).length = 16 := by rw [List.length_append, length_bytes64, length_bytes64]
  refine .alu rfl rfl ?_
  refine l32At (p := S) rfl (by simp (disch := decide) only [set_ne]; exact hsp2) (by omega) (h92.writes_disjoint ?_) ?_
  · rw [htl, len32]; unfold Disjoint at hd ⊢; omega
  refine .done ⟨?_, rfl, ?_, set_eq, ?_, ?_, hfr.congr _ _⟩
  · simp only [wblock, List.append_assoc, List.append_nil, List.cons_append, List.nil_append, Nat.add_zero]
  · rw [set_ne (by decide)]; exact set_eq
  · exact hs2.trans he.stk
  · simp (disch := decide) only [set_ne]; rw [hsp2, h.env.sp]

/-- `ascon_core` for decryption, up to its return. -/
theorem core_dec {q : State} (h : Args .dec m mem op ip M ap A np N kp K S) {T : List Byte} (hT : T.length = 16)
    (hq : q = Variant.final (be64 (K.take 8)) (be64 (K.drop 8)) (Variant.v12.duplex .dec (Variant.v12.start K N A) M l').1)
    (hend : ip + M.length + 16 ≤ 2 ^ 32)
    (hl' : (mem.writes op (Variant.v12.duplex .dec (Variant.v12.start K N A) M l').2).Holds (ip + M.length / 16 * 16) l' ∧
      l'.length = M.length % 16)
    (hTm : (mem.writes op (Variant.v12.duplex .dec (Variant.v12.start K N A) M l').2).Holds (ip + M.length) T)
    (hd : Disjoint S 96 ip (M.length + 16)) :
    Goes xaead_code base 223 m mem fun t pc' m' mem' =>
      t = coreT .dec op ip M.length ap A.length np kp S ++ reads (S + 72) 4 ++ [.branch false] ++ reads (S + 64) 4 ++
        block (ip + M.length) ++ [.branch (decide (diff (q.x3 ^^^ be64 (T.take 8)) (q.x4 ^^^ be64 (T.drop 8)) = 0))] ++ reads (S + 92) 4 ∧ pc' = 347 ∧
      m'.r a2 = (if diff (q.x3 ^^^ be64 (T.take 8)) (q.x4 ^^^ be64 (T.drop 8)) = 0 then 0 else -1) ∧ m'.r ra = m.r ra ∧ m'.stk = [] ∧ m'.r sp = m.r sp ∧ Fr (F S) (mem.writes op (Variant.v12.duplex .dec (Variant.v12.start K N A) M l').2) mem' := by
  refine (core_body h hq (fun _ => hl')).cut ?_
  rintro t pc' m1 mem1 ⟨rfl, rfl, g7, g6, g9, g8, he, h60, h64, h72, h92, hfr⟩
  clear hq
  generalize (Variant.v12.duplex .dec (Variant.v12.start K N A) M l').2 = o at *
  have hl := he.lim
  have hsp := he.sp
  refine l32At (p := S) rfl hsp (by omega) h72 (.br false rfl (by simp only [Opnd.get, set_eq]; rfl) rfl ?_)
  refine .alu rfl rfl (.alu rfl rfl ?_)
  simp (disch := decide) only [Opnd.get, set_ne, g9, g8]
  refine l32At (p := S) rfl (by simp (disch := decide) only [set_ne]; exact hsp) (by omega) h64 ?_
  refine (load (pc := 322) rfl rfl rfl rfl rfl rfl (by decide) (by decide) set_eq hend (hfr.holds (fun a q q' => ?_) hTm) hT).cut ?_
  · rw [hT] at q'; unfold Disjoint at hd; unfold F; omega
  rintro t pc' m2 mem1 ⟨rfl, rfl, hin, hk2, hs2, rfl⟩
  have f7 : m2.r x3h = chunk 32 1 q.x3 := by
    rw [hk2 _ (by decide)]; simp (disch := decide) only [set_ne]; exact g7
  have f6 : m2.r x3l = chunk 32 0 q.x3 := by
    rw [hk2 _ (by decide)]; simp (disch := decide) only [set_ne]; exact g6
  have f1 : m2.r x0h = chunk 32 1 q.x4 := by
    rw [hk2 _ (by decide)]; simp (disch := decide) only [set_ne, set_eq]
  have f0 : m2.r x0l = chunk 32 0 q.x4 := by
    rw [hk2 _ (by decide)]; simp (disch := decide) only [set_ne, set_eq]
  have hsp2 : m2.r sp = BitVec.ofNat 32 S := by
    rw [hk2 _ (by decide)]; simp (disch := decide) only [set_ne]; exact hsp
  generalize be64 (T.take 8) = u at *
  generalize be64 (T.drop 8) = v at *
  refine .alu rfl rfl (.alu rfl rfl (.alu rfl rfl (.alu rfl rfl (.alu rfl rfl (.alu rfl rfl (.alu rfl rfl ?_))))))
  simp (disch := decide) only [Opnd.get, BitOp.fn, set_eq, set_ne, f7, f6, f1, f0, hin.h0, hin.l0, hin.h1, hin.l1, ← chunk_xor]
  obtain ⟨d, hd'⟩ : ∃ d, d = diff (q.x3 ^^^ u) (q.x4 ^^^ v) := ⟨_, rfl⟩
  have hd2 : chunk 32 1 (q.x3 ^^^ u) ^^^ chunk 32 0 (q.x3 ^^^ u) ^^^ chunk 32 1 (q.x4 ^^^ v) ^^^ chunk 32 0 (q.x4 ^^^ v) = d := hd'.symm
  rw [hd2, ← hd']
  generalize hm3 : Asm.M.set _ a2 _ = m3
  have h3 : m3.r a2 = d := by rw [← hm3]; exact set_eq
  have hsp3 : m3.r sp = BitVec.ofNat 32 S := by
    rw [← hm3]; simp (disch := decide) only [set_ne]; exact hsp2
  have hs3 : m3.stk = [] := by rw [← hm3]; exact hs2.trans he.stk
  clear hm3
  refine .br (decide (d = 0)) rfl (by simp only [Opnd.get, Cmp.eval, h3]; rfl) rfl ?_
  by_cases h0 : d = 0
  · rw [decide_eq_true h0, if_pos rfl, if_pos h0]
    refine .alu rfl rfl (l32At (p := S) rfl (by rw [set_ne (by decide)]; exact hsp3) (by omega) h92 (.done ⟨?_, rfl, ?_, set_eq, hs3, ?_, hfr⟩))
    · simp only [List.append_assoc, List.append_nil, List.cons_append, List.nil_append]
    · rw [set_ne (by decide)]; exact set_eq
    · rw [set_ne (by decide), set_ne (by decide), hsp3, h.env.sp]
  · rw [decide_eq_false h0, if_neg (by decide), if_neg h0]
    refine .alu rfl rfl (.j (pc1 := 346) rfl rfl (l32At (p := S) rfl (by rw [set_ne (by decide)]; exact hsp3) (by omega) h92 (.done ⟨?_, rfl, ?_, set_eq, hs3, ?_, hfr⟩)))
    · simp only [List.append_assoc, List.append_nil, List.cons_append, List.nil_append]
    · rw [set_ne (by decide)]; exact set_eq
    · rw [set_ne (by decide), set_ne (by decide), hsp3, h.env.sp]

end A
end Ascon.Xt
