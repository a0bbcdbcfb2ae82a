import Verif.Model.Rv
import Verif.Proof.MaskedCT
import Verif.Proof.AsmRound
/-!
# A program logic for the RISC-V machine

`Goes code base pc m mem Q`: started at position `pc` with registers `m` and memory `mem` the machine reaches, without
fault, a situation `(pc', m', mem')` with `Q t pc' m' mem'`, where `t` are the events on the way (exactly).
-/

namespace Ascon.Rv

open Ascon.C Ascon.Spec
open Ascon.C.Prog (require loadB storeB loadN storeN)
open Ascon.Masked (U32 load32 store32 le32 repr32 run_load32 run_store32)

abbrev Post := List Event → Nat → Regs → Mem → Prop

def Goes (code : List Ins) (base : U32) (pc : Nat) (m : Regs) (mem : Mem) (Q : Post) : Prop :=
  ∃ n t pc' m' mem', (∀ f, run (go code base (n + f) pc m) mem = run (go code base f pc' m') mem' ∧
    trace (go code base (n + f) pc m) mem = t ++ trace (go code base f pc' m') mem') ∧ Q t pc' m' mem'

variable {code : List Ins} {base : U32} {pc : Nat} {m : Regs} {mem : Mem} {Q : Post}

theorem Goes.done (h : Q [] pc m mem) : Goes code base pc m mem Q :=
  ⟨0, [], pc, m, mem, fun f => ⟨by rw [Nat.zero_add], by rw [Nat.zero_add]; rfl⟩, h⟩

theorem Goes.cut {Q R : Post} (h : Goes code base pc m mem Q)
    (hk : ∀ t pc' m' mem', Q t pc' m' mem' → Goes code base pc' m' mem' fun t' => R (t ++ t')) :
    Goes code base pc m mem R := by
  obtain ⟨n, t, pc', m', mem', h1, h2⟩ := h
  obtain ⟨n2, t2, pc2, m2, mem2, h3, h4⟩ := hk t pc' m' mem' h2
  refine ⟨n + n2, t ++ t2, pc2, m2, mem2, fun f => ?_, h4⟩
  rw [Nat.add_assoc, (h1 _).1, (h1 _).2, (h3 _).1, (h3 _).2, List.append_assoc]
  exact ⟨rfl, rfl⟩

theorem Goes.mono {Q R : Post} (h : Goes code base pc m mem Q)
    (hk : ∀ t pc' m' mem', Q t pc' m' mem' → R t pc' m' mem') : Goes code base pc m mem R :=
  h.cut fun t pc' m' mem' hq => .done (by rw [List.append_nil]; exact hk _ _ _ _ hq)

/-- The position after an instruction. -/
def nextPc (code : List Ins) (base : U32) (pc : Nat) : Next → Option Nat
  | .seq => some (pc + 1)
  | .jump rel => some (dest pc rel)
  | .indirect t => if (t - base).toNat % 4 = 0 ∧ (t - base).toNat / 4 < code.length then some ((t - base).toNat / 4) else none

theorem go_succ {i : Ins} (hf : code[pc]? = some i) (f : Nat) :
    go code base (f + 1) pc m = (step (base + BitVec.ofNat 32 (4 * (pc + 1))) m i >>= fun r =>
      match nextPc code base pc r.1 with
      | some q => go code base f q r.2
      | none => match r.1 with | .indirect t => .ret (t, r.2) | _ => .ub) := by
  conv => lhs; unfold go
  rw [hf]
  simp only
  congr 1
  funext r
  obtain ⟨nx, m'⟩ := r
  cases nx with
  | seq => rfl
  | jump rel => rfl
  | indirect t =>
    simp only [nextPc]
    by_cases h : (t - base).toNat % 4 = 0 ∧ (t - base).toNat / 4 < code.length
    · rw [if_pos h, if_pos h]
    · rw [if_neg h, if_neg h]

theorem Goes.step {i : Ins} {nx : Next} {m1 : Regs} {mem1 : Mem} {t1 : List Event} {pc1 : Nat}
    (hf : code[pc]? = some i)
    (hr : run (Rv.step (base + BitVec.ofNat 32 (4 * (pc + 1))) m i) mem = some ((nx, m1), mem1))
    (ht : trace (Rv.step (base + BitVec.ofNat 32 (4 * (pc + 1))) m i) mem = t1)
    (hn : nextPc code base pc nx = some pc1)
    (h : Goes code base pc1 m1 mem1 fun t => Q (t1 ++ t)) : Goes code base pc m mem Q := by
  obtain ⟨n, t, pc', m', mem', h1, h2⟩ := h
  refine ⟨n + 1, t1 ++ t, pc', m', mem', fun f => ?_, h2⟩
  rw [show n + 1 + f = n + f + 1 by omega, go_succ hf, run_bind, trace_bind, hr, ht]
  simp only [Option.bind_some, hn, (h1 f).1, (h1 f).2, List.append_assoc, and_self]

/-- Jump out of the code: the end of the execution. -/
theorem run_exit {a : Nat} (hf : code[pc]? = some (.jalr a))
    (hx : ¬ ((m.r a - base).toNat % 4 = 0 ∧ (m.r a - base).toNat / 4 < code.length)) (f : Nat) :
    run (go code base (f + 1) pc m) mem = some ((m.r a, m), mem) ∧ trace (go code base (f + 1) pc m) mem = [] := by
  rw [go_succ hf]
  simp only [Rv.step, pure_bind'', nextPc]
  rw [if_neg hx]
  exact ⟨rfl, rfl⟩

theorem Goes.exit {a : Nat} {Q : Post} (h : Goes code base pc m mem Q)
    (hq : ∀ t pc' m' mem', Q t pc' m' mem' → code[pc']? = some (.jalr a) ∧
      ¬ ((m'.r a - base).toNat % 4 = 0 ∧ (m'.r a - base).toNat / 4 < code.length)) :
    ∃ N t pc' m' mem', Q t pc' m' mem' ∧ ∀ f, N ≤ f →
      run (go code base f pc m) mem = some ((m'.r a, m'), mem') ∧ trace (go code base f pc m) mem = t := by
  obtain ⟨n, t, pc', m', mem', h1, h2⟩ := h
  obtain ⟨h3, h4⟩ := hq _ _ _ _ h2
  refine ⟨n + 1, t, pc', m', mem', h2, fun f hf => ?_⟩
  obtain ⟨g, rfl⟩ : ∃ g, f = n + (g + 1) := ⟨f - n - 1, by omega⟩
  rw [(h1 _).1, (h1 _).2, (run_exit h3 h4 g).1, (run_exit h3 h4 g).2, List.append_nil]
  exact ⟨rfl, rfl⟩

/-! ## Rules for the instructions -/

theorem Goes.alu {i : Asm.Instr 32} {m1 : Regs} (hf : code[pc]? = some (.alu i))
    (hs : Asm.step (fun _ => none) m i = some m1) (h : Goes code base (pc + 1) m1 mem Q) :
    Goes code base pc m mem Q :=
  .step (nx := .seq) (t1 := []) hf (by simp only [Rv.step, hs]; rfl) (by simp only [Rv.step, hs]; rfl) rfl h

theorem Goes.op1 {op : Op1} {d a : Nat} (hf : code[pc]? = some (.op1 op d a))
    (h : Goes code base (pc + 1) (m.set d (op.fn (m.r a))) mem Q) : Goes code base pc m mem Q :=
  .step (nx := .seq) (t1 := []) hf rfl rfl rfl h

theorem Goes.op2 {op : Op2} {d : Nat} {a b : Asm.Opnd 32} (hf : code[pc]? = some (.op2 op d a b))
    (h : Goes code base (pc + 1) (m.set d (op.fn (a.get m) (b.get m))) mem Q) : Goes code base pc m mem Q :=
  .step (nx := .seq) (t1 := []) hf rfl rfl rfl h

theorem Goes.fsr {d a b : Nat} {k : Asm.Opnd 32} (hf : code[pc]? = some (.fsr d a b k))
    (h : Goes code base (pc + 1) (m.set d (funnel (m.r a) (m.r b) (k.get m))) mem Q) : Goes code base pc m mem Q :=
  .step (nx := .seq) (t1 := []) hf rfl rfl rfl h

/-- Events of reading `n` bytes. -/
def reads (a n : Nat) : List Event := (List.range n).map fun i => .read (a + i)
/-- Events of writing `n` bytes. -/
def writesE (a n : Nat) : List Event := (List.range n).map fun i => .write (a + i)

theorem reads_succ (a n : Nat) : reads a (n + 1) = .read a :: reads (a + 1) n := by
  simp only [reads, List.range_succ_eq_map, List.map_cons, List.map_map, Nat.add_zero]
  congr 1
  apply List.map_congr_left; intro i _; simp only [Function.comp]; congr 1; omega

theorem writesE_succ (a n : Nat) : writesE a (n + 1) = .write a :: writesE (a + 1) n := by
  simp only [writesE, List.range_succ_eq_map, List.map_cons, List.map_map, Nat.add_zero]
  congr 1
  apply List.map_congr_left; intro i _; simp only [Function.comp]; congr 1; omega

theorem trace_loadN {p : Nat} {bs : List Byte} {mem : Mem} (h : mem.Holds p bs) :
    trace (loadN p bs.length) mem = reads p bs.length := by
  induction bs generalizing p with
  | nil => rfl
  | cons b bs ih =>
    obtain ⟨h1, h2⟩ := holds_cons.mp h
    simp only [List.length_cons, loadN, trace, h1]
    rw [trace_bind, run_loadN h2, ih h2, reads_succ]
    simp [trace]

theorem trace_storeN {p : Nat} {bs : List Byte} {mem : Mem} (h : mem.Writable p bs.length) :
    trace (storeN p bs) mem = writesE p bs.length := by
  induction bs generalizing p mem with
  | nil => rfl
  | cons b bs ih =>
    have h0 : (mem p).rw = true := by simpa using h 0 (by simp)
    simp only [storeN, List.length_cons]
    have : trace (Prog.store p b (storeN (p + 1) bs)) mem = .write p :: trace (storeN (p + 1) bs) (mem.writes p [b]) := by
      simp only [trace, if_pos h0]
    rw [this, ih (h.writes.mono (by omega) (by simp; omega)), writesE_succ]

theorem Goes.lw {d a off : Nat} {bs : List Byte} (hf : code[pc]? = some (.lw d a off)) (hal : addr m a off % 4 = 0)
    (hb : mem.Holds (addr m a off) bs) (hl : bs.length = 4)
    (h : Goes code base (pc + 1) (m.set d (le32 bs)) mem fun t => Q (reads (addr m a off) 4 ++ t)) :
    Goes code base pc m mem Q := by
  have hr : require (addr m a off % 4 == 0) = .ret () := by unfold require; rw [hal]; rfl
  refine .step (nx := .seq) hf ?_ ?_ rfl h
  · simp only [Rv.step, hr, pure_bind'', load32]
    rw [run_bind_of (run_bind_of (run_loadN' hb hl.symm))]
    rfl
  · simp only [Rv.step, hr, pure_bind'', load32]
    rw [trace_bind, trace_bind, run_bind_of (run_loadN' hb hl.symm), run_loadN' hb hl.symm, ← hl, trace_loadN hb]
    simp [trace]

theorem Goes.sw {s : Asm.Opnd 32} {a off : Nat} (hf : code[pc]? = some (.sw s a off)) (hal : addr m a off % 4 = 0)
    (hb : mem.Writable (addr m a off) 4)
    (h : Goes code base (pc + 1) m (mem.writes (addr m a off) (repr32 .little (s.get m))) fun t =>
      Q (writesE (addr m a off) 4 ++ t)) :
    Goes code base pc m mem Q := by
  have hr : require (addr m a off % 4 == 0) = .ret () := by unfold require; rw [hal]; rfl
  have hl : (repr32 .little (s.get m)).length = 4 := rfl
  refine .step (nx := .seq) hf ?_ ?_ rfl h
  · simp only [Rv.step, hr, pure_bind'']
    rw [run_bind_of (run_store32 hb)]
    rfl
  · simp only [Rv.step, hr, pure_bind'']
    rw [trace_bind, run_store32 hb]
    unfold store32
    rw [trace_storeN (by rw [hl]; exact hb), hl]
    simp [trace]

theorem Goes.l32 {d a off : Nat} {bs : List Byte} (hf : code[pc]? = some (.l32 d a off))
    (hb : mem.Holds (addr m a off) bs) (hl : bs.length = 4)
    (h : Goes code base (pc + 1) (m.set d (le32 bs)) mem fun t => Q (reads (addr m a off) 4 ++ t)) :
    Goes code base pc m mem Q := by
  refine .step (nx := .seq) hf ?_ ?_ rfl h
  · simp only [Rv.step, load32]
    rw [run_bind_of (run_bind_of (run_loadN' hb hl.symm))]
    rfl
  · simp only [Rv.step, load32]
    rw [trace_bind, trace_bind, run_bind_of (run_loadN' hb hl.symm), run_loadN' hb hl.symm, ← hl, trace_loadN hb]
    simp [trace]

theorem Goes.s32 {s : Asm.Opnd 32} {a off : Nat} (hf : code[pc]? = some (.s32 s a off))
    (hb : mem.Writable (addr m a off) 4)
    (h : Goes code base (pc + 1) m (mem.writes (addr m a off) (repr32 .little (s.get m))) fun t =>
      Q (writesE (addr m a off) 4 ++ t)) :
    Goes code base pc m mem Q := by
  have hl : (repr32 .little (s.get m)).length = 4 := rfl
  refine .step (nx := .seq) hf ?_ ?_ rfl h
  · simp only [Rv.step]
    rw [run_bind_of (run_store32 hb)]
    rfl
  · simp only [Rv.step]
    rw [trace_bind, run_store32 hb]
    unfold store32
    rw [trace_storeN (by rw [hl]; exact hb), hl]
    simp [trace]

theorem Goes.lbu {d a off : Nat} {b : Byte} (hf : code[pc]? = some (.lbu d a off))
    (hb : (mem (addr m a off)).byte = some b)
    (h : Goes code base (pc + 1) (m.set d (b.setWidth 32)) mem fun t => Q (.read (addr m a off) :: t)) :
    Goes code base pc m mem Q :=
  .step (nx := .seq) (t1 := [.read (addr m a off)]) hf
    (by simp only [Rv.step, loadB]; show run (Prog.load _ _) mem = _; simp only [run, hb]; rfl)
    (by simp only [Rv.step, loadB]; show trace (Prog.load _ _) mem = _; simp only [trace, hb]; rfl) rfl h

theorem Goes.sb {s a off : Nat} (hf : code[pc]? = some (.sb s a off))
    (hb : (mem (addr m a off)).rw = true)
    (h : Goes code base (pc + 1) m (mem.writes (addr m a off) [(m.r s).setWidth 8]) fun t =>
      Q (.write (addr m a off) :: t)) :
    Goes code base pc m mem Q := by
  refine .step (nx := .seq) (t1 := [.write (addr m a off)]) hf ?_ ?_ rfl h
  · simp only [Rv.step, storeB]; show run (Prog.store _ _ _) mem = _; simp only [run, if_pos hb]
    rfl
  · simp only [Rv.step, storeB]; show trace (Prog.store _ _ _) mem = _; simp only [trace, if_pos hb]
    rfl

theorem Goes.br {c : Cmp} {a b : Asm.Opnd 32} {rel : Int} (v : Bool) {pc1 : Nat} (hf : code[pc]? = some (.br c a b rel))
    (hv : c.eval (a.get m) (b.get m) = v) (hp : (if v then dest pc rel else pc + 1) = pc1)
    (h : Goes code base pc1 m mem fun t => Q (.branch v :: t)) : Goes code base pc m mem Q := by
  cases v with
  | true =>
    exact .step (nx := .jump rel) (t1 := [.branch true]) hf (by simp only [Rv.step, hv]; rfl)
      (by simp only [Rv.step, hv]; rfl) (by rw [← hp]; rfl) h
  | false =>
    exact .step (nx := .seq) (t1 := [.branch false]) hf (by simp only [Rv.step, hv]; rfl)
      (by simp only [Rv.step, hv]; rfl) (by rw [← hp]; rfl) h

theorem Goes.j {rel : Int} {pc1 : Nat} (hf : code[pc]? = some (.jal none rel)) (hp : dest pc rel = pc1)
    (h : Goes code base pc1 m mem Q) : Goes code base pc m mem Q :=
  .step (nx := .jump rel) (t1 := []) hf rfl rfl (by rw [← hp]; rfl) h

/-- The address of position `i`. -/
def at_ (base : U32) (i : Nat) : U32 := base + BitVec.ofNat 32 (4 * i)

theorem Goes.jal {d : Nat} {rel : Int} {pc1 : Nat} (hf : code[pc]? = some (.jal (some d) rel)) (hp : dest pc rel = pc1)
    (h : Goes code base pc1 (m.set d (at_ base (pc + 1))) mem Q) : Goes code base pc m mem Q :=
  .step (nx := .jump rel) (t1 := []) hf rfl rfl (by rw [← hp]; rfl) h

theorem Goes.jalr {a r : Nat} (hf : code[pc]? = some (.jalr a)) (ha : m.r a = at_ base r) (hr : r < code.length)
    (hc : 4 * code.length < 2 ^ 32) (h : Goes code base r m mem Q) : Goes code base pc m mem Q := by
  refine .step (nx := .indirect (m.r a)) (t1 := []) hf rfl rfl ?_ h
  have e : (m.r a - base).toNat = 4 * r := by
    rw [ha, at_, BitVec.add_comm, BitVec.add_sub_cancel, BitVec.toNat_ofNat, Nat.mod_eq_of_lt (by omega)]
  simp only [nextPc, e]
  rw [if_pos ⟨by omega, by omega⟩, Nat.mul_div_cancel_left r (by omega)]

/-- Straight-line code without memory accesses. -/
theorem Goes.alus {is : List (Asm.Instr 32)} {m1 : Regs} (hf : ∀ i (h : i < is.length), code[pc + i]? = some (.alu is[i]))
    (hs : Asm.exec (fun _ => none) is m = some m1) (h : Goes code base (pc + is.length) m1 mem Q) :
    Goes code base pc m mem Q := by
  induction is generalizing pc m with
  | nil => cases hs; exact h
  | cons i is ih =>
    simp only [Asm.exec] at hs
    cases h1 : Asm.step (fun _ => none) m i with
    | none => rw [h1] at hs; exact absurd hs (by simp)
    | some m2 =>
      rw [h1, Option.bind_some] at hs
      refine .alu (hf 0 (by simp)) h1 (ih (fun j hj => ?_) hs ?_)
      · have := hf (j + 1) (by simp; omega)
        rw [show pc + 1 + j = pc + (j + 1) by omega, this]; rfl
      · rw [show pc + 1 + is.length = pc + (i :: is).length by simp; omega]; exact h

end Ascon.Rv
