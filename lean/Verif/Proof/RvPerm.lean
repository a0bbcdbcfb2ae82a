import Verif.Proof.RvCore
import Verif.Proof.ArmPerm
/-!
# `ascon_permute` and `ascon_memcpy` of the RISC-V files
-/

namespace Ascon.Rv

open Ascon.C Ascon.Spec Ascon.Asm
open Ascon.Masked (U32 repr32)
open Ascon.Arm (idPerm csOpt cReg rel_csOpt rel_cReg idσ constLeft_eq loaded_of_at)
open Impl (set_ne set_eq ofNat_add)

theorem perm_zero (s : State) : perm 0 s = s := rfl

attribute [local irreducible] perm

/-! ## Registers an instruction does not write -/

/-- The register written. -/
def dst {w : Nat} : Instr w → List Nat
  | .bit _ d _ _ => [d]
  | .mov d _ => [d]
  | .mvn d _ => [d]
  | .add d _ _ => [d]
  | .sub d _ _ => [d]
  | .rorReg d _ _ => [d]
  | .cmp _ _ => []
  | .push _ => []
  | .pop d => [d]
  | .ldrb d _ _ => [d]
  | .ldrbPost d a _ => [d, a]
  | .sri d _ _ => [d]
  | .sli d _ _ => [d]
  | .fsr d _ _ _ => [d]

theorem step_keep {w : Nat} {rom : Nat → Option Byte} {m m' : M w} {i : Instr w} {r : Nat}
    (h : Asm.step rom m i = some m') (hr : r ∉ dst i) : m'.r r = m.r r := by
  have key : ∀ (m : M w) d v, r ≠ d → (m.set d v).r r = m.r r := fun m d v hd => by
    show (if r = d then v else m.r r) = _; rw [if_neg hd]
  cases i with
  | bit op d a b | mov d a | mvn d a | add d a b | sub d a b | rorReg d a b | sri d a b | sli d a b | fsr d a b k =>
    simp only [Asm.step, Option.some.injEq] at h
    subst h; exact key _ _ _ (by simpa [dst] using hr)
  | cmp a b | push a =>
    simp only [Asm.step, Option.some.injEq] at h
    subst h; rfl
  | pop d =>
    simp only [Asm.step] at h
    split at h
    · exact absurd h (by simp)
    · simp only [Option.some.injEq] at h
      subst h; exact key _ _ _ (by simpa [dst] using hr)
  | ldrb d a off =>
    simp only [Asm.step, Option.map_eq_some_iff] at h
    obtain ⟨b, -, rfl⟩ := h
    exact key _ _ _ (by simpa [dst] using hr)
  | ldrbPost d a off =>
    simp only [Asm.step, Option.map_eq_some_iff] at h
    obtain ⟨b, -, rfl⟩ := h
    have : r ≠ d ∧ r ≠ a := by simpa [dst] using hr
    rw [key _ _ _ this.2, key _ _ _ this.1]

theorem exec_keep {w : Nat} {rom : Nat → Option Byte} {is : List (Instr w)} {m m' : M w} {r : Nat}
    (h : exec rom is m = some m') (hr : ∀ i ∈ is, r ∉ dst i) : m'.r r = m.r r := by
  induction is generalizing m with
  | nil => cases h; rfl
  | cons i is ih =>
    simp only [exec] at h
    cases h1 : Asm.step rom m i with
    | none => rw [h1] at h; exact absurd h (by simp)
    | some m2 =>
      rw [h1, Option.bind_some] at h
      rw [ih h (fun j hj => hr j (List.mem_cons_of_mem _ hj)), step_keep h1 (hr i List.mem_cons_self)]

/-- The block writes registers below 16 other than `t0`, `t1` only. -/
def tame {w : Nat} (is : List (Instr w)) : Bool :=
  is.all fun i => (dst i).all fun d => d < 16 && d != t0 && d != t1

theorem tame_keep {w : Nat} {rom : Nat → Option Byte} {is : List (Instr w)} {m m' : M w} (ht : tame is = true)
    (h : exec rom is m = some m') {r : Nat} (hr : r = t0 ∨ r = t1 ∨ 16 ≤ r) : m'.r r = m.r r := by
  refine exec_keep h fun i hi hd => ?_
  have := List.all_eq_true.mp (List.all_eq_true.mp ht i hi) r hd
  simp only [Bool.and_eq_true, decide_eq_true_eq, bne_iff_ne, ne_eq] at this
  omega

/-! ## Permutation with the constant in a register -/

/-- Code of `ascon_permute` at position `p`. -/
structure PermAt (code : List Ins) (p : Nat) (body : List (Instr 32)) : Prop where
  init : code[p]? = some (.alu (.mov t6 (.imm 0x4b)))
  blk : ∀ i (h : i < body.length), code[p + 1 + i]? = some (.alu body[i])
  next : code[p + 1 + body.length]? = some (.alu (.add t1 (.reg t1) (.imm 0xfffffff1)))
  back : code[p + 1 + body.length + 1]? = some (.br .ge (.reg t1) (.reg t6) (-(body.length + 1 : Nat) : Int))
  ret : code[p + 1 + body.length + 2]? = some (.jalr t0)
  size : 4 * code.length < 2 ^ 32

/-- Branches of the loop over `n` rounds. -/
def roundsT (n : Nat) : List Event := List.replicate (n - 1) (.branch true) ++ [.branch false]

theorem permLoop_goes {code : List Ins} {base : U32} {p : Nat} {body : List (Instr 32)} (hp : PermAt code p body)
    (ht : tame body = true)
    (hc : checkBlock 2 (fun i => i) csOpt [cReg] (fun _ => none) body idσ (fun _ => true) = true)
    (n : Nat) (hn : n < 12) (s : State) (m : Regs) (mem : Mem) (r : Nat)
    (hl : Loaded 2 (fun w => w) s m) (hst : m.stk = []) (h1 : m.r t1 = BitVec.ofNat 32 (60 + 15 * (n + 1)))
    (h6 : m.r t6 = 75) (h0 : m.r t0 = at_ base r) (hr : r < code.length) :
    Goes code base (p + 1) m mem fun t pc' m' mem' => t = roundsT (n + 1) ∧ pc' = r ∧
      Loaded 2 (fun w => w) (perm (n + 1) s) m' ∧ m'.stk = [] ∧ (∀ r, 17 ≤ r → m'.r r = m.r r) ∧ mem' = mem := by
  induction n generalizing s m with
  | zero =>
    have hcl := constLeft_eq 0 (by omega)
    have hreg : (constLeft (0 + 1)).setWidth 32 = m.r t1 := by rw [h1, hcl, BitVec.setWidth_ofNat_of_le (by omega)]
    obtain ⟨m', e1, e2, e3, -⟩ := checkBlock_sound idPerm (by decide : 32 * 2 = 64) hc
      (rel_csOpt s (constLeft (0 + 1)) (by rw [hcl]; decide)) (by decide) hl hst (fun j => by
        match j with
        | 0 => show Rel _ cReg (m.r 10); rw [show m.r 10 = _ from hreg.symm]; exact rel_cReg s _
        | j + 1 => exact Rel.nil _ _)
    have k := fun r hr => tame_keep (r := r) ht e1 hr
    refine .alus hp.blk e1 (.alu hp.next rfl (.br false hp.back ?_ (by rw [if_neg (by decide)]) (.jalr hp.ret (r := r) ?_ hr hp.size
      (.done ⟨rfl, rfl, ?_, e3, ?_, rfl⟩))))
    · simp only [Opnd.get, set_eq, set_ne (show t6 ≠ t1 by decide), k t1 (by decide), k t6 (by decide), h1, h6]
      decide
    · rw [set_ne (by decide), k t0 (by decide), h0]
    · rw [perm_succ 0 (by omega), perm_zero]
      intro a b ha hb
      rw [set_ne (by show 2 * a + b ≠ 10; omega)]
      exact loaded_of_at e2 a b ha hb
    · intro r hr
      rw [set_ne (by show r ≠ 10; omega), k r (by omega)]
  | succ n ih =>
    have hcl := constLeft_eq (n + 1) (by omega)
    have hlt : (constLeft (n + 1 + 1)).toNat < 2 ^ 32 := by
      rw [hcl, BitVec.toNat_ofNat, Nat.mod_eq_of_lt (by omega)]; omega
    have hreg : (constLeft (n + 1 + 1)).setWidth 32 = m.r t1 := by rw [h1, hcl, BitVec.setWidth_ofNat_of_le (by omega)]
    obtain ⟨m', e1, e2, e3, -⟩ := checkBlock_sound idPerm (by decide : 32 * 2 = 64) hc
      (rel_csOpt s (constLeft (n + 1 + 1)) hlt) (by decide) hl hst (fun j => by
        match j with
        | 0 => show Rel _ cReg (m.r 10); rw [show m.r 10 = _ from hreg.symm]; exact rel_cReg s _
        | j + 1 => exact Rel.nil _ _)
    have k := fun r hr => tame_keep (r := r) ht e1 hr
    have hv : m'.r t1 + 0xfffffff1 = BitVec.ofNat 32 (60 + 15 * (n + 1)) := by
      rw [k t1 (by decide), h1]
      apply BitVec.eq_of_toNat_eq
      rw [BitVec.toNat_add]; simp; omega
    refine .alus hp.blk e1 (.alu hp.next rfl (.br (pc1 := p + 1) true hp.back ?_ ?_ ?_))
    · simp only [Opnd.get, set_eq, set_ne (show t6 ≠ t1 by decide), hv, k t6 (by decide), h6, Cmp.eval]
      rw [BitVec.sle_eq_decide, decide_eq_true_iff]
      rw [BitVec.toInt_eq_toNat_of_lt (x := BitVec.ofNat 32 (60 + 15 * (n + 1))) (by
        rw [BitVec.toNat_ofNat, Nat.mod_eq_of_lt (by omega)]; omega), BitVec.toNat_ofNat, Nat.mod_eq_of_lt (by omega)]
      show (75 : Int) ≤ _
      omega
    · rw [if_pos rfl]; unfold dest; omega
    · refine (ih (by omega) (round (constLeft (n + 1 + 1)) s) _ ?_ (by exact e3) (by rw [set_eq]; exact hv) (by
        rw [set_ne (by decide), k t6 (by decide), h6]) (by rw [set_ne (by decide), k t0 (by decide), h0])).mono ?_
      · intro a b ha hb
        rw [set_ne (by show 2 * a + b ≠ 10; omega)]
        exact loaded_of_at e2 a b ha hb
      · rintro t pc' m2 mem2 ⟨rfl, rfl, h3, h4, h5, rfl⟩
        refine ⟨?_, rfl, ?_, h4, ?_, rfl⟩
        · show _ = List.replicate (n + 1) (Event.branch true) ++ _; rfl
        · rw [perm_succ (n + 1) (by omega)]; exact h3
        · intro r hr
          rw [h5 r hr, set_ne (by show r ≠ 10; omega), k r (by omega)]

theorem perm_goes {code : List Ins} {base : U32} {p : Nat} {body : List (Instr 32)} (hp : PermAt code p body)
    (ht : tame body = true)
    (hc : checkBlock 2 (fun i => i) csOpt [cReg] (fun _ => none) body idσ (fun _ => true) = true)
    (n : Nat) (h0n : 0 < n) (hn : n ≤ 12) (s : State) (m : Regs) (mem : Mem) (r : Nat)
    (hl : Loaded 2 (fun w => w) s m) (hst : m.stk = []) (h1 : m.r t1 = BitVec.ofNat 32 (60 + 15 * n))
    (h0 : m.r t0 = at_ base r) (hr : r < code.length) :
    Goes code base p m mem fun t pc' m' mem' => t = roundsT n ∧ pc' = r ∧
      Loaded 2 (fun w => w) (perm n s) m' ∧ m'.stk = [] ∧ (∀ r, 17 ≤ r → m'.r r = m.r r) ∧ mem' = mem := by
  obtain ⟨n, rfl⟩ : ∃ k, n = k + 1 := ⟨n - 1, by omega⟩
  refine .alu hp.init rfl ?_
  refine (permLoop_goes hp ht hc n (by omega) s _ mem r ?_ (by exact hst) (by rw [set_ne (by decide)]; exact h1) set_eq
    (by rw [set_ne (by decide)]; exact h0) hr).mono ?_
  · intro a b ha hb
    rw [set_ne (by show 2 * a + b ≠ 16; omega)]
    exact hl a b ha hb
  · rintro t pc' m2 mem2 ⟨rfl, rfl, h3, h4, h5, rfl⟩
    exact ⟨rfl, rfl, h3, h4, fun r hr => by rw [h5 r hr, set_ne (by show r ≠ 16; omega)], rfl⟩

/-! ## `ascon_memcpy` -/

/-- Code of `ascon_memcpy` at position `p`. -/
structure CopyAt (code : List Ins) (p : Nat) : Prop where
  i0 : code[p]? = some (.alu (.mov t3 (.imm 0x0)))
  i1 : code[p + 1]? = some (.jal none 6)
  i2 : code[p + 2]? = some (.lbu t4 t2 0)
  i3 : code[p + 3]? = some (.sb t4 t1 0)
  i4 : code[p + 4]? = some (.alu (.add t1 (.reg t1) (.imm 0x1)))
  i5 : code[p + 5]? = some (.alu (.add t2 (.reg t2) (.imm 0x1)))
  i6 : code[p + 6]? = some (.alu (.add t3 (.reg t3) (.imm 0x1)))
  i7 : code[p + 7]? = some (.br .lt (.reg t3) (.reg a4) (-5))
  i8 : code[p + 8]? = some (.jalr t0)
  size : 4 * code.length < 2 ^ 32

/-- Events of copying `n` bytes. -/
def copyT (src dst : Nat) : Nat → List Event
  | 0 => [.branch false]
  | n + 1 => .branch true :: .read src :: .write dst :: copyT (src + 1) (dst + 1) n

theorem addr_of {m : Regs} {a off p : Nat} (h : m.r a = BitVec.ofNat 32 p) (hp : p + off < 2 ^ 32) :
    addr m a off = p + off := by
  unfold addr
  rw [h, ofNat_add, BitVec.toNat_ofNat, Nat.mod_eq_of_lt hp]

theorem slt_ofNat (a b : Nat) (ha : a < 2 ^ 31) (hb : b < 2 ^ 31) :
    (BitVec.ofNat 32 a).slt (BitVec.ofNat 32 b) = decide (a < b) := by
  have e : ∀ x, x < 2 ^ 31 → (BitVec.ofNat 32 x).toInt = x := fun x hx => by
    rw [BitVec.toInt_eq_toNat_of_lt (by rw [BitVec.toNat_ofNat, Nat.mod_eq_of_lt (by omega)]; omega), BitVec.toNat_ofNat,
      Nat.mod_eq_of_lt (by omega)]
  rw [BitVec.slt_eq_decide, e a ha, e b hb]
  simp

theorem sle_ofNat (a b : Nat) (ha : a < 2 ^ 31) (hb : b < 2 ^ 31) :
    (BitVec.ofNat 32 a).sle (BitVec.ofNat 32 b) = decide (a ≤ b) := by
  have e : ∀ x, x < 2 ^ 31 → (BitVec.ofNat 32 x).toInt = x := fun x hx => by
    rw [BitVec.toInt_eq_toNat_of_lt (by rw [BitVec.toNat_ofNat, Nat.mod_eq_of_lt (by omega)]; omega), BitVec.toNat_ofNat,
      Nat.mod_eq_of_lt (by omega)]
  rw [BitVec.sle_eq_decide, e a ha, e b hb]
  simp

theorem copyLoop_goes {code : List Ins} {base : U32} {p : Nat} (hp : CopyAt code p) (bs : List Byte) :
    ∀ (i src dst r : Nat) (m : Regs) (mem : Mem), m.r t1 = BitVec.ofNat 32 dst → m.r t2 = BitVec.ofNat 32 src →
    m.r t3 = BitVec.ofNat 32 i → m.r a4 = BitVec.ofNat 32 (i + bs.length) → i + bs.length < 2 ^ 31 →
    src + bs.length ≤ 2 ^ 32 → dst + bs.length ≤ 2 ^ 32 → mem.Holds src bs → mem.Writable dst bs.length →
    Disjoint dst bs.length src bs.length → m.r t0 = at_ base r → r < code.length →
    Goes code base (p + 7) m mem fun t pc' m' mem' => t = copyT src dst bs.length ∧ pc' = r ∧
      (∀ r, r ∉ [t1, t2, t3, t4] → m'.r r = m.r r) ∧ m'.stk = m.stk ∧ mem' = mem.writes dst bs := by
  induction bs with
  | nil =>
    intro i src dst r m mem h1 h2 h3 h4 hi hs hd hH hW hD h0 hr
    refine .br false hp.i7 ?_ (if_neg (by decide)) (.jalr hp.i8 (r := r) h0 hr hp.size (.done ⟨rfl, rfl, fun _ _ => rfl, rfl, ?_⟩))
    · simp only [Opnd.get, Cmp.eval, h3, h4]
      rw [slt_ofNat _ _ (by simpa using hi) (by simpa using hi)]
      simp
    · rw [writes_nil]
  | cons b bs ih =>
    intro i src dst r m mem h1 h2 h3 h4 hi hs hd hH hW hD h0 hr
    rw [List.length_cons] at *
    obtain ⟨hb, hbs⟩ := holds_cons.mp hH
    have hw0 : (mem dst).rw = true := by simpa using hW 0 (by omega)
    refine .br (pc1 := p + 2) true hp.i7 ?_ ?_ ?_
    · simp only [Opnd.get, Cmp.eval, h3, h4]
      rw [slt_ofNat _ _ (by omega) (by omega)]
      simp
    · rw [if_pos rfl]; unfold dest; omega
    have hA2 : addr m t2 0 = src := by rw [addr_of h2 (by omega)]; rfl
    have hA1 : addr (m.set t4 (b.setWidth 32)) t1 0 = dst := by
      rw [addr_of (p := dst) (by rw [set_ne (by decide)]; exact h1) (by omega)]; rfl
    refine .lbu hp.i2 (by rw [hA2]; exact hb) (.sb hp.i3 (by rw [hA1]; exact hw0) (.alu hp.i4 rfl (.alu hp.i5 rfl (.alu hp.i6 rfl ?_))))
    rw [hA1, hA2, set_eq]
    have hbb : (b.setWidth 32).setWidth 8 = b := by simp
    rw [hbb]
    refine (ih (i + 1) (src + 1) (dst + 1) r _ _ ?_ ?_ ?_ ?_ (by omega) (by omega) (by omega)
      (hbs.writes_disjoint ?_) ((hW.writes).mono (by omega) (by omega)) ?_ ?_ hr).mono ?_
    · simp only [Opnd.get]
      rw [set_ne (by decide), set_ne (by decide), set_eq, set_ne (by decide), h1]; exact ofNat_add _ _
    · simp only [Opnd.get]
      rw [set_ne (by decide), set_eq, set_ne (by decide), set_ne (by decide), h2]; exact ofNat_add _ _
    · simp only [Opnd.get]
      rw [set_eq, set_ne (by decide), set_ne (by decide), set_ne (by decide), h3]; exact ofNat_add _ _
    · rw [set_ne (by decide), set_ne (by decide), set_ne (by decide), set_ne (by decide), h4]; congr 1; omega
    · unfold Disjoint at hD ⊢; simp; omega
    · unfold Disjoint at hD ⊢; omega
    · rw [set_ne (by decide), set_ne (by decide), set_ne (by decide), set_ne (by decide), h0]
    · rintro t pc' m2 mem2 ⟨rfl, rfl, h5, h6, rfl⟩
      refine ⟨rfl, rfl, ?_, h6, ?_⟩
      · intro r hr
        rw [h5 r hr]
        simp only [List.mem_cons, List.not_mem_nil, or_false, not_or] at hr
        rw [set_ne hr.2.2.1, set_ne hr.2.1, set_ne hr.1, set_ne hr.2.2.2]
      · exact (writes_cons mem dst b bs).symm

theorem copy_goes {code : List Ins} {base : U32} {p : Nat} (hp : CopyAt code p) (bs : List Byte)
    (src dst r : Nat) (m : Regs) (mem : Mem) (h1 : m.r t1 = BitVec.ofNat 32 dst) (h2 : m.r t2 = BitVec.ofNat 32 src)
    (h4 : m.r a4 = BitVec.ofNat 32 bs.length) (hi : bs.length < 2 ^ 31)
    (hs : src + bs.length ≤ 2 ^ 32) (hd : dst + bs.length ≤ 2 ^ 32) (hH : mem.Holds src bs)
    (hW : mem.Writable dst bs.length) (hD : Disjoint dst bs.length src bs.length) (h0 : m.r t0 = at_ base r)
    (hr : r < code.length) :
    Goes code base p m mem fun t pc' m' mem' => t = copyT src dst bs.length ∧ pc' = r ∧
      (∀ r, r ∉ [t1, t2, t3, t4] → m'.r r = m.r r) ∧ m'.stk = m.stk ∧ mem' = mem.writes dst bs := by
  refine .alu hp.i0 rfl (.j (pc1 := p + 7) hp.i1 (by unfold dest; omega) ?_)
  refine (copyLoop_goes hp bs 0 src dst r _ mem (by rw [set_ne (by decide)]; exact h1)
    (by rw [set_ne (by decide)]; exact h2) set_eq (by rw [set_ne (by decide), Nat.zero_add]; exact h4) (by omega) hs hd hH
    hW hD (by rw [set_ne (by decide)]; exact h0) hr).mono ?_
  rintro t pc' m2 mem2 ⟨rfl, rfl, h5, h6, rfl⟩
  refine ⟨rfl, rfl, fun r hr => ?_, h6, rfl⟩
  rw [h5 r hr, set_ne]
  rintro rfl; exact hr (by decide)

end Ascon.Rv
