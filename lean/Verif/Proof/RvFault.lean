import Verif.Proof.Rv32i
import Verif.Proof.RvStd
/-!
# Executions of the rv32i implementation that go wrong: misaligned pointers, lengths of 2^31 and more

`Ends code base pc m mem P`: if the machine, started at `pc`, stops without a fault, then `P` holds of the target of the last
jump, the registers and the memory.  (`P = False`: every execution ends with a fault.)
-/

namespace Ascon.Rv

open Ascon.C Ascon.Spec Ascon.Asm
open Ascon.C.Prog (require loadB storeB loadN storeN)
open Ascon.Masked (U32 repr32 le32 load32 store32 run_store32)
open Impl (set_ne set_eq ofNat_add)

attribute [local irreducible] perm

def Ends (code : List Ins) (base : U32) (pc : Nat) (m : Regs) (mem : Mem) (P : U32 × Regs → Mem → Prop) : Prop :=
  ∀ f v mem', run (go code base f pc m) mem = some (v, mem') → P v mem'

variable {code : List Ins} {base : U32} {pc : Nat} {m : Regs} {mem : Mem} {P : U32 × Regs → Mem → Prop}

/-- More fuel does not change a result. -/
theorem go_mono {v : U32 × Regs} {mem' : Mem} (f : Nat) : ∀ {pc : Nat} {m : Regs} {mem : Mem},
    run (go code base f pc m) mem = some (v, mem') → run (go code base (f + 1) pc m) mem = some (v, mem') := by
  induction f with
  | zero => intro pc m mem h; exact absurd h (by simp [go, run])
  | succ f ih =>
    intro pc m mem h
    cases hf : code[pc]? with
    | none => rw [go, hf] at h; exact absurd h (by simp [run])
    | some i =>
      rw [go_succ hf, run_bind] at h ⊢
      cases hs : run (step (base + BitVec.ofNat 32 (4 * (pc + 1))) m i) mem with
      | none => rw [hs] at h; exact absurd h (by simp)
      | some r =>
        obtain ⟨⟨nx, m1⟩, mem1⟩ := r
        rw [hs, Option.bind_some] at h
        rw [Option.bind_some]
        simp only at h ⊢
        cases hn : nextPc code base pc nx with
        | none => rw [hn] at h; exact h
        | some q => rw [hn] at h; exact ih h

theorem go_mono' {v : U32 × Regs} {mem' : Mem} (n f : Nat) (h : run (go code base f pc m) mem = some (v, mem')) :
    run (go code base (n + f) pc m) mem = some (v, mem') := by
  induction n with
  | zero => rw [Nat.zero_add]; exact h
  | succ n ih => rw [show n + 1 + f = n + f + 1 by omega]; exact go_mono _ ih

theorem Ends.goes {Q : Post} (h : Goes code base pc m mem Q)
    (hk : ∀ t pc' m' mem', Q t pc' m' mem' → Ends code base pc' m' mem' P) : Ends code base pc m mem P := by
  obtain ⟨n, t, pc', m', mem', h1, h2⟩ := h
  intro f v mem2 hr
  have := go_mono' n f hr
  rw [(h1 f).1] at this
  exact hk _ _ _ _ h2 f v mem2 this

/-- One instruction that does not jump. -/
theorem Ends.step {i : Ins} (hf : code[pc]? = some i)
    (hs : ∀ nx m1 mem1, run (Rv.step (base + BitVec.ofNat 32 (4 * (pc + 1))) m i) mem = some ((nx, m1), mem1) →
      nx = .seq ∧ Ends code base (pc + 1) m1 mem1 P) : Ends code base pc m mem P := by
  intro f v mem' hr
  cases f with
  | zero => exact absurd hr (by simp [go, run])
  | succ f =>
    rw [go_succ hf, run_bind] at hr
    cases h : run (Rv.step (base + BitVec.ofNat 32 (4 * (pc + 1))) m i) mem with
    | none => rw [h] at hr; exact absurd hr (by simp)
    | some r =>
      obtain ⟨⟨nx, m1⟩, mem1⟩ := r
      rw [h, Option.bind_some] at hr
      obtain ⟨rfl, h2⟩ := hs nx m1 mem1 h
      exact h2 f v mem' hr

theorem Ends.alu {i : Asm.Instr 32} {m1 : Regs} (hf : code[pc]? = some (.alu i))
    (hs : Asm.step (fun _ => none) m i = some m1) (h : Ends code base (pc + 1) m1 mem P) : Ends code base pc m mem P := by
  refine .step hf fun nx m' mem' hr => ?_
  simp only [Rv.step, hs, run] at hr
  cases hr
  exact ⟨rfl, h⟩

theorem Ends.op2 {op : Op2} {d : Nat} {a b : Asm.Opnd 32} (hf : code[pc]? = some (.op2 op d a b))
    (h : Ends code base (pc + 1) (m.set d (op.fn (a.get m) (b.get m))) mem P) : Ends code base pc m mem P := by
  refine .step hf fun nx m' mem' hr => ?_
  simp only [Rv.step, run] at hr
  cases hr
  exact ⟨rfl, h⟩

theorem Ends.sw {s : Asm.Opnd 32} {a off : Nat} (hf : code[pc]? = some (.sw s a off))
    (h : ∀ mem', Ends code base (pc + 1) m mem' P) : Ends code base pc m mem P := by
  refine .step hf fun nx m' mem' hr => ?_
  simp only [Rv.step] at hr
  rw [run_bind] at hr
  cases h1 : run (require (addr m a off % 4 == 0)) mem with
  | none => rw [h1] at hr; exact absurd hr (by simp)
  | some r1 =>
    rw [h1, Option.bind_some, run_bind] at hr
    cases h2 : run (store32 .little (addr m a off) (s.get m)) r1.2 with
    | none => rw [h2] at hr; exact absurd hr (by simp)
    | some r2 =>
      rw [h2, Option.bind_some] at hr
      simp only [run] at hr
      cases hr
      exact ⟨rfl, h _⟩

theorem Ends.lw {d a off : Nat} (hf : code[pc]? = some (.lw d a off))
    (h : ∀ v mem', Ends code base (pc + 1) (m.set d v) mem' P) : Ends code base pc m mem P := by
  refine .step hf fun nx m' mem' hr => ?_
  simp only [Rv.step] at hr
  rw [run_bind] at hr
  cases h1 : run (require (addr m a off % 4 == 0)) mem with
  | none => rw [h1] at hr; exact absurd hr (by simp)
  | some r1 =>
    rw [h1, Option.bind_some, run_bind] at hr
    cases h2 : run (load32 .little (addr m a off)) r1.2 with
    | none => rw [h2] at hr; exact absurd hr (by simp)
    | some r2 =>
      rw [h2, Option.bind_some] at hr
      simp only [run] at hr
      cases hr
      exact ⟨rfl, h _ _⟩

theorem require_bad {n : Nat} (h : n % 4 ≠ 0) : require (n % 4 == 0) = .ub := by
  unfold require; rw [beq_false_of_ne h]; rfl

/-- A misaligned access. -/
theorem Ends.lwBad {d a off p : Nat} (hf : code[pc]? = some (.lw d a off)) (ha : m.r a = BitVec.ofNat 32 p)
    (hp : (p + off) % 4 ≠ 0) : Ends code base pc m mem P := by
  have hbad : addr m a off % 4 ≠ 0 := by
    unfold addr; rw [ha, ofNat_add, BitVec.toNat_ofNat]; omega
  refine .step hf fun nx m' mem' hr => ?_
  simp only [Rv.step] at hr
  rw [run_bind, require_bad hbad] at hr
  exact absurd hr (by simp [run])

theorem Ends.swBad {s : Asm.Opnd 32} {a off p : Nat} (hf : code[pc]? = some (.sw s a off)) (ha : m.r a = BitVec.ofNat 32 p)
    (hp : (p + off) % 4 ≠ 0) : Ends code base pc m mem P := by
  have hbad : addr m a off % 4 ≠ 0 := by
    unfold addr; rw [ha, ofNat_add, BitVec.toNat_ofNat]; omega
  refine .step hf fun nx m' mem' hr => ?_
  simp only [Rv.step] at hr
  rw [run_bind, require_bad hbad] at hr
  exact absurd hr (by simp [run])

/-- A byte that cannot be read. -/
theorem Ends.lbu {d a off : Nat} (hf : code[pc]? = some (.lbu d a off))
    (h : ∀ b, (mem (addr m a off)).byte = some b → Ends code base (pc + 1) (m.set d (b.setWidth 32)) mem P) :
    Ends code base pc m mem P := by
  refine .step hf fun nx m' mem' hr => ?_
  simp only [Rv.step] at hr
  rw [run_bind] at hr
  unfold loadB at hr
  cases hb : (mem (addr m a off)).byte with
  | some b =>
    simp only [run, hb, Option.bind_some] at hr
    cases hr
    exact ⟨rfl, h b hb⟩
  | none => simp only [run, hb] at hr; exact absurd hr (by simp)

/-- No result. -/
abbrev no : U32 × Regs → Mem → Prop := fun _ _ => False

namespace Rv32i

theorem to_nonce (m : Regs) (mem : Mem)
    (h : ∀ m' mem', m'.r a5 = m.r a5 → m'.r a6 = m.r a6 → Ends rv32i_code base 216 m' mem' P) : Ends rv32i_code base 200 m mem P := by
  refine .alu rfl rfl ?_
  iterate 13 refine .sw rfl fun _ => ?_
  refine .alu rfl rfl (.op2 rfl (h _ _ ?_ ?_))
  · rw [set_ne (by decide), set_ne (by decide), set_ne (by decide)]
  · rw [set_ne (by decide), set_ne (by decide), set_ne (by decide)]

theorem bad_nonce (m : Regs) (mem : Mem) (np : Nat) (h5 : m.r a5 = BitVec.ofNat 32 np) (hn : np % 4 ≠ 0) :
    Ends rv32i_code base 200 m mem no :=
  to_nonce m mem fun m' mem' h _ => .lwBad rfl (h.trans h5) hn

theorem bad_key (m : Regs) (mem : Mem) (kp : Nat) (h6 : m.r a6 = BitVec.ofNat 32 kp) (hn : kp % 4 ≠ 0) :
    Ends rv32i_code base 200 m mem no := by
  refine to_nonce m mem fun m' mem' _ h => ?_
  iterate 4 refine .lw rfl fun _ _ => ?_
  iterate 4 refine .alu rfl rfl ?_
  refine .lwBad rfl (p := kp) ?_ hn
  repeat rw [set_ne (by decide)]
  exact h.trans h6

/-- Up to the first block of the associated data. -/
theorem bad_ad (m : Regs) (mem : Mem) (md : Mode) (S np kp ap n : Nat) (K N : List Byte) (hstk : m.stk = [])
    (hsp : m.r sp = BitVec.ofNat 32 (S + 80)) (hS : S % 4 = 0) (hS80 : S + 80 < 2 ^ 32) (hw : mem.Writable S 80)
    (h5 : m.r a5 = BitVec.ofNat 32 np) (hnal : np % 4 = 0) (hnp : np + 16 ≤ 2 ^ 32)
    (hN : mem.Holds np N) (hNl : N.length = 16) (hdN : Disjoint S 80 np 16) (h6 : m.r a6 = BitVec.ofNat 32 kp)
    (hkal : kp % 4 = 0) (hkp : kp + 16 ≤ 2 ^ 32) (hK : mem.Holds kp K) (hKl : K.length = 16) (hdK : Disjoint S 80 kp 16)
    (h7 : (m.r a7).setWidth 8 = (md.val.setWidth 8 : Byte)) (h3 : m.r a3 = BitVec.ofNat 32 ap) (hap : ap % 4 ≠ 0)
    (h4 : m.r a4 = BitVec.ofNat 32 n) (h16 : 16 ≤ n) (hn : n < 2 ^ 31) : Ends rv32i_code base 200 m mem no := by
  refine .goes (pro m mem md S np kp K N hstk hsp hS hS80 hw h5 hnal hnp hN hNl hdN h6 hkal hkp hK hKl hdK h7) ?_
  rintro t pc' m1 mem1 ⟨rfl, rfl, hst, hkey, hsp1, ha7, hsame, hout, hsav, hw1⟩
  have h31 := (hsame a3 (by decide)).trans h3
  have h41 := (hsame a4 (by decide)).trans h4
  refine .goes (ad1 m1 mem1 S ?_ hsp1 hS hS80 hw1) ?_
  · rw [h41]
    intro e
    have := congrArg BitVec.toNat e
    rw [BitVec.toNat_ofNat, Nat.mod_eq_of_lt (by omega)] at this
    exact absurd this (by show n ≠ 0; omega)
  rintro t pc' m2 mem2 ⟨rfl, rfl, rfl, rfl⟩
  refine .goes (rv32i_ok.entry base _ _ _ (cond _ _ n (by rw [set_ne (by decide), set_ne (by decide)]; exact h41) hn)) ?_
  rintro t pc' m2 mem2 ⟨rfl, rfl, rfl, rfl⟩
  rw [if_pos h16]
  refine .lwBad rfl (p := ap) ?_ hap
  rw [set_ne (by decide), set_ne (by decide), set_ne (by decide)]; exact h31

variable {md : Mode} {ap : Nat} {A : List Byte} {np : Nat} {N : List Byte} {kp : Nat} {K : List Byte} {S : Nat}

/-- Input. -/
theorem bad_in (h : rv32i.Start md m mem ap A np N kp K S) (ip n : Nat) (h1 : m.r a1 = BitVec.ofNat 32 ip)
    (hip : ip % 4 ≠ 0) (h2 : m.r a2 = BitVec.ofNat 32 n) (h16 : 16 ≤ n) (hn : n < 2 ^ 31) : Ends rv32i_code base 200 m mem no := by
  refine .goes (Impl.core_start0 rv32i_ok h 0) ?_
  rintro t pc' m1 mem1 ⟨rfl, rfl, hst, hkey, hsp, ha7, ha0, ha3, ha4, hra, hout, hsav, hw⟩
  refine .goes (rv32i_ok.entry base _ _ _ (cond _ _ n (ha4.trans h2) hn)) ?_
  rintro t pc' m2 mem2 ⟨rfl, rfl, rfl, rfl⟩
  rw [if_pos h16]
  refine .lwBad rfl (p := ip) ?_ hip
  rw [set_ne (by decide)]; exact ha3.trans h1

/-- Output. -/
theorem bad_out (h : rv32i.Start md m mem ap A np N kp K S) (hmd : md ≠ .ad) (op n : Nat) (h0 : m.r a0 = BitVec.ofNat 32 op)
    (hop : op % 4 ≠ 0) (h2 : m.r a2 = BitVec.ofNat 32 n) (h16 : 16 ≤ n) (hn : n < 2 ^ 31) : Ends rv32i_code base 200 m mem no := by
  refine .goes (Impl.core_start0 rv32i_ok h 0) ?_
  rintro t pc' m1 mem1 ⟨rfl, rfl, hst, hkey, hsp, ha7, ha0, ha3, ha4, hra, hout, hsav, hw⟩
  refine .goes (rv32i_ok.entry base _ _ _ (cond _ _ n (ha4.trans h2) hn)) ?_
  rintro t pc' m2 mem2 ⟨rfl, rfl, rfl, rfl⟩
  rw [if_pos h16]
  iterate 4 refine .lw rfl fun _ _ => ?_
  iterate 4 refine .alu rfl rfl ?_
  refine .goes (Goes.br (Q := fun _ pc' m' _ => pc' = 138 ∧ m'.r a0 = BitVec.ofNat 32 op) false rfl ?_ rfl (.done ⟨rfl, ?_⟩)) ?_
  · simp (disch := decide) only [Opnd.get, Cmp.eval, set_ne]
    rw [ha7]; cases md
    · exact absurd rfl hmd
    · rfl
    · rfl
  · simp (disch := decide) only [set_ne]
    exact ha0.trans h0
  rintro t pc' m2 mem2 ⟨rfl, e⟩
  exact .swBad rfl e hop

/-! ### Lengths of 2^31 and more -/

theorem toInt_neg {n : Nat} (h1 : 2 ^ 31 ≤ n) (h2 : n < 2 ^ 32) : (BitVec.ofNat 32 n : U32).toInt < 0 := by
  rw [BitVec.toInt_eq_toNat_cond, BitVec.toNat_ofNat, Nat.mod_eq_of_lt h2]
  split <;> omega

/-- `ascon_memcpy` copies nothing. -/
theorem no_copy {n : Nat} (h1 : 2 ^ 31 ≤ n) (h2 : n < 2 ^ 32) {pc : Nat} {rel : Int} (hf : rv32i_code[pc]? = some (.jal (some t0) rel))
    (hd : dest pc rel = 119) (hpc : pc + 1 < 349) (m : Regs) (mem : Mem) (h4 : m.r a4 = BitVec.ofNat 32 n) :
    Goes rv32i_code base pc m mem fun _ pc' m' mem' => pc' = pc + 1 ∧ m' = (m.set t0 (at_ base (pc + 1))).set t3 0 ∧ mem' = mem := by
  refine .jal hf hd (.alu rfl rfl (.j rfl rfl (.br false rfl ?_ rfl (.jalr rfl ?_ (by rw [len]; exact hpc) (by rw [len]; decide) (.done ⟨rfl, rfl, rfl⟩)))))
  · simp (disch := decide) only [Opnd.get, Cmp.eval, set_eq, set_ne]
    rw [h4]
    have := toInt_neg h1 h2
    simp only [BitVec.slt, decide_eq_false_iff_not]
    have e : (0 : U32).toInt = 0 := rfl
    rw [e]; omega
  · rw [set_ne (by decide), set_eq]

theorem zero_chunk (a : U32) : a ^^^ (0 : U32) = a := BitVec.xor_zero

theorem over16 (S q : Nat) (v0 v1 v2 v3 : U32) (b : Byte) (mem mem2 : Mem)
    (hm : mem2 = (mem.writes S (List.replicate 16 0)).writes q [b]) (hq : q < S ∨ S + 80 ≤ q) :
    (mem.writes q [b]).writes S ((repr32 .little v0 ++ repr32 .little v1) ++ (repr32 .little v2 ++ repr32 .little v3)) =
      (((mem2.writes (S + 0) (repr32 .little v0)).writes (S + 4) (repr32 .little v1)).writes (S + 8) (repr32 .little v2)).writes
        (S + 12) (repr32 .little v3) := by
  have e : (((mem2.writes (S + 0) (repr32 .little v0)).writes (S + 4) (repr32 .little v1)).writes (S + 8) (repr32 .little v2)).writes
        (S + 12) (repr32 .little v3) =
      mem2.writes S ((repr32 .little v0 ++ repr32 .little v1) ++ (repr32 .little v2 ++ repr32 .little v3)) := by
    rw [writes_append, writes_append, writes_append]; rfl
  rw [e, hm]
  have hl : ((repr32 .little v0 ++ repr32 .little v1) ++ (repr32 .little v2 ++ repr32 .little v3)).length = 16 := rfl
  funext a
  by_cases h : S ≤ a ∧ a < S + 16
  · rw [writes_in h.1 (by omega), writes_in h.1 (by omega)]
  · have h1 : ∀ mem : Mem, mem.writes S ((repr32 .little v0 ++ repr32 .little v1) ++ (repr32 .little v2 ++ repr32 .little v3)) a = mem a :=
      fun mem => writes_out (by omega)
    rw [h1, h1]
    by_cases ha : a = q
    · subst ha
      rw [writes_in (Nat.le_refl _) (by simp), writes_in (Nat.le_refl _) (by simp)]
    · have h2 : ∀ mem : Mem, mem.writes q [b] a = mem a := fun mem => writes_out (by simp; omega)
      rw [h2, h2, writes_out (by simp; omega)]

/-- The "last block" of a message of 2^31 bytes or more: nothing is absorbed, one byte somewhere below or above the frame
changes. -/
theorem fin_huge {n : Nat} (hn1 : 2 ^ 31 ≤ n) (hn2 : n < 2 ^ 32) (m : Regs) (mem : Mem) (s : State) (S r : Nat)
    (hst : rv32i.St s m) (h7 : m.r a7 = Mode.enc.val) (h4 : m.r a4 = BitVec.ofNat 32 n)
    (hsp : m.r sp = BitVec.ofNat 32 S) (hS : S % 4 = 0) (hS80 : S + 80 < 2 ^ 32) (hSw : mem.Writable S 80)
    (hra : m.r ra = at_ base r) (hr : r < rv32i_code.length) (b : Byte) (hb : mem ((S + n) % 2 ^ 32) = .val b) :
    Goes rv32i_code base 154 m mem fun _ pc' m' mem' => pc' = r ∧ rv32i.St s m' ∧ m'.r a0 = m.r a0 + m.r a4 ∧ Same keepD m m' ∧
      ∃ tmp : List Byte, tmp.length = 16 ∧ mem' = (mem.writes ((S + n) % 2 ^ 32) [b ^^^ 1]).writes S tmp := by
  have first : Goes rv32i_code base 154 m mem fun _ pc' m' mem' => pc' = 160 ∧ m' = (m.set t1 (m.r sp)).set t2 (m.r a3) ∧
      mem' = mem.writes S (List.replicate 16 0) := by
    refine .swAt 0 rfl hsp rfl (by omega) (by omega) (hSw.mono (by omega) (by omega)) (.swAt 0 rfl hsp rfl (by omega) (by omega)
      (hSw.writes.mono (by omega) (by omega)) (.swAt 0 rfl hsp rfl (by omega) (by omega) (hSw.writes.writes.mono (by omega) (by omega))
        (.swAt 0 rfl hsp rfl (by omega) (by omega) (hSw.writes.writes.writes.mono (by omega) (by omega)) ?_)))
    rw [writes_zero16]
    ri; ri
    exact .done ⟨rfl, rfl, rfl⟩
  refine first.cut ?_
  rintro t pc' m1 mem1 ⟨rfl, rfl, rfl⟩
  refine (no_copy hn1 hn2 (pc := 160) rfl rfl (by decide) _ _ (by rg)).cut ?_
  rintro t pc' m1 mem1 ⟨rfl, rfl, rfl⟩
  refine .alu rfl rfl ?_
  simp (disch := decide) only [Opnd.get, set_eq, set_ne]
  have ead : ∀ m' : Regs, m'.r t1 = m.r sp + m.r a4 → addr m' t1 0 = (S + n) % 2 ^ 32 := by
    intro m' h
    unfold addr
    rw [h, hsp, h4, ofNat_add, ofNat_add, BitVec.toNat_ofNat]; rfl
  have hpad : (S + n) % 2 ^ 32 < S ∨ S + 80 ≤ (S + n) % 2 ^ 32 := by omega
  refine .lbu rfl (b := b) (by rw [ead _ set_eq, writes_out (by rw [List.length_replicate]; omega), hb]; rfl) ?_
  refine .alu rfl rfl ?_
  simp (disch := decide) only [Opnd.get, BitOp.fn, set_eq, set_ne]
  refine .sb rfl ?_ ?_
  · rw [ead _ (by simp (disch := decide) only [set_eq, set_ne]), writes_out (by rw [List.length_replicate]; omega), hb]; simp
  rw [ead _ (by simp (disch := decide) only [set_eq, set_ne])]
  have hv : ((b.setWidth 32 ^^^ (0x1 : U32)).setWidth 8 : Byte) = b ^^^ 1 := by
    rw [BitVec.setWidth_xor]
    congr 1
    apply BitVec.eq_of_toNat_eq
    simp
  rw [set_eq, hv]
  have hzero : ((mem.writes S (List.replicate 16 0)).writes ((S + n) % 2 ^ 32) [b ^^^ 1]).Holds S (List.replicate 16 0) :=
    (holds_writes_self _ _ _).writes_disjoint (by rw [List.length_replicate]; unfold Disjoint; simp only [List.length_cons, List.length_nil]; omega)
  obtain ⟨b0, b1, b2, b3⟩ := holds_block hzero rfl
  have hw2 : ((mem.writes S (List.replicate 16 0)).writes ((S + n) % 2 ^ 32) [b ^^^ 1]).Writable S 80 := hSw.writes.writes
  have e0 : chunk 32 0 (le64 ((List.replicate 16 (0 : Byte)).take 8)) = 0 := by decide
  have e1 : chunk 32 1 (le64 ((List.replicate 16 (0 : Byte)).take 8)) = 0 := by decide
  have e2 : chunk 32 0 (le64 ((List.replicate 16 (0 : Byte)).drop 8)) = 0 := by decide
  have e3 : chunk 32 1 (le64 ((List.replicate 16 (0 : Byte)).drop 8)) = 0 := by decide
  rw [e0] at b0; rw [e1] at b1; rw [e2] at b2; rw [e3] at b3
  refine .lwAt rfl (p := S) (by rg) (by omega) (by omega) b0 (.lwAt rfl (p := S) (by rg) (by omega) (by omega) b1
    (.lwAt rfl (p := S) (by rg) (by omega) (by omega) b2 (.lwAt rfl (p := S) (by rg) (by omega) (by omega) b3 ?_)))
  ri; ri; ri; ri
  simp only [zero_chunk]
  refine .br false rfl ?_ rfl ?_
  · simp (disch := decide) only [Opnd.get, Cmp.eval, set_ne]
    rw [h7]; rfl
  ri; ri; ri; ri
  have hw3 := hw2
  generalize hmem2 : (mem.writes S (List.replicate 16 0)).writes ((S + n) % 2 ^ 32) [b ^^^ 1] = mem2 at *
  refine .swAt _ rfl (p := S) (by rg) rfl (by omega) (by omega) (hw2.mono (by omega) (by omega)) ?_
  refine .swAt _ rfl (p := S) (by rg) rfl (by omega) (by omega) (hw2.writes.mono (by omega) (by omega)) ?_
  refine .swAt _ rfl (p := S) (by rg) rfl (by omega) (by omega) (hw2.writes.writes.mono (by omega) (by omega)) ?_
  refine .swAt _ rfl (p := S) (by rg) rfl (by omega) (by omega) (hw2.writes.writes.writes.mono (by omega) (by omega)) ?_
  ri; ri
  refine (no_copy hn1 hn2 (pc := 184) rfl rfl (by decide) _ _ (by rg)).cut ?_
  rintro t pc' m1 mem1 ⟨rfl, rfl, rfl⟩
  refine .br true rfl ?_ rfl ?_
  · simp (disch := decide) only [Opnd.get, Cmp.eval, set_ne]
    rw [h7]; rfl
  ri; ri
  refine .jalr rfl ?_ hr (by rw [len]; decide) (.done ⟨rfl, ?_, ?_, ?_, ?_⟩)
  · simp (disch := decide) only [set_ne]; exact hra
  · obtain ⟨e0, e1, e2, e3, e4, e5, e6, e7, e8, e9⟩ := loaded_iff.mp hst.1
    refine ⟨loaded_iff.mpr ?_, hst.2⟩
    simp (disch := decide) only [set_eq, set_ne, e0, e1, e2, e3, e4, e5, e6, e7, e8, e9, and_self]
  · simp (disch := decide) only [set_eq, set_ne]
  · intro q hq
    revert q
    simp only [keepD, List.forall_mem_cons, List.not_mem_nil, false_imp_iff, implies_true, and_true]
    simp (disch := decide) only [set_eq, set_ne, and_self]
  · refine ⟨_, ?_, (over16 S ((S + n) % 2 ^ 32) _ _ _ _ (b ^^^ 1) mem mem2 hmem2.symm hpad).symm⟩
    rfl

/-- `ascon_core` for the encryption of 2^31 bytes or more. -/
theorem core_huge {n : Nat} (hn1 : 2 ^ 31 ≤ n) (hn2 : n < 2 ^ 32) (h : rv32i.Start .enc m mem ap A np N kp K S) (op : Nat)
    (h0 : m.r a0 = BitVec.ofNat 32 op) (h2 : m.r a2 = BitVec.ofNat 32 n) (hend : op + n + 16 ≤ 2 ^ 32)
    (hw : mem.Writable (op + n) 16) (hd : Disjoint S 80 (op + n) 16)
    (b : Byte) (hb : mem ((S + n) % 2 ^ 32) = .val b) :
    Goes rv32i_code base 200 m mem fun _ pc' m' mem' => pc' = 348 ∧
      Same [ra, sp, s0, s1, s2, s3, s4, s5, s6, s7, s8, s9, s10, s11] m m' ∧ m'.r a0 = 0 ∧ ∀ a, (a < S ∨ S + 80 ≤ a) → mem' a = ((mem.writes ((S + n) % 2 ^ 32) [b ^^^ 1]).writes (op + n)
        (aeadTag K (aeadAd A (aeadInit K N)))) a := by
  refine (Impl.core_start0 rv32i_ok h 0).cut ?_
  rintro t pc' m1 mem1 ⟨rfl, rfl, hst, hkey, hsp, ha7, ha0, ha3, ha4, hra, hout, hsav, hw1⟩
  have hpad : (S + n) % 2 ^ 32 < S ∨ S + 80 ≤ (S + n) % 2 ^ 32 := by have := h.spEnd; omega
  have hb1 : mem1 ((S + n) % 2 ^ 32) = .val b := by rw [hout _ hpad]; exact hb
  refine Goes.cut (Q := fun _ pc' m' mem' => pc' = 154 ∧ m' = m1.set t0 16 ∧ mem' = mem1) (rv32i_ok.entry base _ _ _ ?_) ?_
  · refine .alu rfl rfl (.br false rfl ?_ rfl (.done ⟨rfl, rfl, rfl⟩))
    simp (disch := decide) only [Opnd.get, Cmp.eval, set_eq, set_ne]
    rw [ha4, h2]
    have := toInt_neg hn1 hn2
    simp only [BitVec.sle, decide_eq_false_iff_not]
    have e : (16 : U32).toInt = 16 := rfl
    show ¬ ((16 : U32).toInt ≤ _)
    rw [e]; omega
  rintro t pc' m2 mem2 ⟨rfl, rfl, rfl⟩
  have hS80 := h.spEnd
  refine (fin_huge hn1 hn2 (m1.set t0 16) mem2 (rv32i.V.start K N A) S 258 (hst.setT0)
    (by rw [set_ne (by decide)]; exact ha7) (by rw [set_ne (by decide)]; exact ha4.trans h2) (by rw [set_ne (by decide)]; exact hsp)
    h.spAl h.spEnd hw1 (by rw [set_ne (by decide)]; exact hra) (by rw [len]; decide) b hb1).cut ?_
  rintro t pc' m3 mem3 ⟨rfl, hst3, ha03, hs3, tmp, htl, rfl⟩
  have hs3' : Same keepD m1 m3 := Same.trans (fun r hr => by rw [set_ne]; rintro rfl; revert hr; decide) hs3
  refine (rv32i_ok.final base m3 _ .enc _ _ _ hst3 (hkey.same hs3') (Mem.Holds.nil _ _) ((hs3' a7 (by decide)).trans ha7) (by decide)).cut ?_
  rintro t pc' m4 mem4 ⟨rfl, rfl, hst4, hs4, rfl⟩
  rw [if_pos rfl]
  have ha04 : m4.r a0 = BitVec.ofNat 32 (op + n) := by
    rw [hs4 a0 (by decide), ha03, set_ne (by decide), set_ne (by decide), ha0, h0, ha4, h2, ofNat_add]
  have hsp4 : m4.r sp = BitVec.ofNat 32 S := by
    rw [hs4 sp (by decide), hs3' sp (by decide)]; exact hsp
  have hwt : mem2.Writable (op + n) 16 := hout.writable hw hd
  refine (rv32i_ok.tagEnc base m4 _ _ (op + n) hst4 ha04 hend hwt.writes.writes).cut ?_
  rintro t pc' m5 mem5 ⟨rfl, rfl, h05, hsp5, rfl⟩
  have hsav2 : Saved S m.r ((((mem2.writes ((S + n) % 2 ^ 32) [b ^^^ 1]).writes S tmp)).writes (op + n)
      (rv32i.V.st (Variant.final (rv32i.V.ld (K.take 8)) (rv32i.V.ld (K.drop 8)) (rv32i.V.start K N A)).x3 ++
        rv32i.V.st (Variant.final (rv32i.V.ld (K.take 8)) (rv32i.V.ld (K.drop 8)) (rv32i.V.start K N A)).x4)) := by
    refine Saved.writes (Saved.writes (Saved.writes hsav ?_) ?_) ?_
    · unfold Disjoint; simp only [List.length_cons, List.length_nil]; omega
    · unfold Disjoint; omega
    · rw [List.length_append, rv32i_ok.vok.len, rv32i_ok.vok.len]; unfold Disjoint at hd ⊢; omega
  refine (Impl.core_epi (base := base) rv32i_ok (hsp5.trans hsp4) h.spAl h.spEnd hsav2 h.spR).mono ?_
  rintro t pc' m6 mem6 ⟨-, rfl, h06, hs6, g3⟩
  refine ⟨rfl, hs6, h06.trans h05, fun a ha => ?_⟩
  · have etag : aeadTag K (aeadAd A (aeadInit K N)) = rv32i.V.st (Variant.final (rv32i.V.ld (K.take 8)) (rv32i.V.ld (K.drop 8)) (rv32i.V.start K N A)).x3 ++
        rv32i.V.st (Variant.final (rv32i.V.ld (K.take 8)) (rv32i.V.ld (K.drop 8)) (rv32i.V.start K N A)).x4 := by
      have e : aeadAd A (aeadInit K N) = Variant.std.start K N A := (Variant.std_start K N A).symm
      rw [e, ← Variant.std_tag]; rfl
    rw [g3, etag]
    have h1 : Out S (mem.writes ((S + n) % 2 ^ 32) [b ^^^ 1]) ((mem2.writes ((S + n) % 2 ^ 32) [b ^^^ 1]).writes S tmp) :=
      (Out.writes hout).trans (Out.inside (Nat.le_refl _) (by omega))
    exact (Out.writes h1) a ha

end Rv32i
end Ascon.Rv
