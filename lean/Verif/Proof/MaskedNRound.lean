import Verif.Model.MaskedN
import Verif.Proof.MaskedRound
/-!
# The masked permutation for up to four shares computes the Ascon permutation on the unmasked value

`V ns w i` is the value of half `i` of a word shared with `ns` shares: the exclusive or of the shares, share `d`
rotated by `ROT(d) = 5 * d`.
-/

namespace Ascon.MaskedN

open Ascon.Spec Ascon.C
open Ascon.Gen hiding ROR32 ROR64
open Ascon.C.Prog (require ifc loop)
open Ascon.Masked

/-! ### Rotations of 32-bit words -/

theorem ROR32_add (x : U32) (a b : Nat) (ha : a < 32) (hb : b < 32) :
    ROR32 (ROR32 x a) b = ROR32 x ((a + b) % 32) := by
  apply BitVec.eq_of_getLsbD_eq; intro i hi
  rw [getLsbD_ROR32 _ _ _ hb hi, getLsbD_ROR32 _ _ _ ha (Nat.mod_lt _ (by omega)),
    getLsbD_ROR32 _ _ _ (Nat.mod_lt _ (by omega)) hi]
  congr 1; omega

theorem ROR32_or (x y : U32) (n : Nat) (h : n < 32) : ROR32 (x ||| y) n = ROR32 x n ||| ROR32 y n := by
  apply BitVec.eq_of_getLsbD_eq; intro i hi
  simp only [BitVec.getLsbD_or, getLsbD_ROR32 _ _ _ h hi]

theorem rots : ROT 0 = 0 ∧ ROT 1 = 5 ∧ ROT 2 = 10 ∧ ROT 3 = 15 ∧ ROT (0 - 1) = 27 ∧ ROT (0 - 2) = 22 ∧ ROT (0 - 3) = 17 ∧
    ROT (1 - 0) = 5 ∧ ROT (1 - 2) = 27 ∧ ROT (1 - 3) = 22 ∧ ROT (2 - 0) = 10 ∧ ROT (2 - 1) = 5 ∧ ROT (2 - 3) = 27 ∧
    ROT (3 - 0) = 15 ∧ ROT (3 - 1) = 10 ∧ ROT (3 - 2) = 5 := by decide

/-! ### Values of shared words -/

/-- Share `d` of half `i`, rotated into place. -/
def Rd (w : word_t) (d i : Nat) : U32 := ROR32 (w.get d i) (5 * d)

/-- The value of half `i` of a word with `ns` shares. -/
def V : Nat → word_t → Nat → U32
  | 0, _, _ => 0
  | ns + 1, w, i => V ns w i ^^^ Rd w ns i

theorem get_xor_same (w : word_t) (d i : Nat) (v : U32) : (w.xor d i v).get d i = w.get d i ^^^ v := by
  unfold word_t.xor word_t.get word_t.set share_t.get share_t.set
  by_cases hi : i = 0 <;> simp [hi]

theorem get_set_same (w : word_t) (d i : Nat) (v : U32) : (w.set d i v).get d i = v := by
  unfold word_t.get word_t.set share_t.get share_t.set
  by_cases hi : i = 0 <;> simp [hi]

theorem get_set_share (w : word_t) {d d' : Nat} (hd : d' ≠ d) (i j : Nat) (v : U32) :
    (w.set d i v).get d' j = w.get d' j := by
  unfold word_t.get word_t.set
  simp [hd]

theorem get_set_half (w : word_t) (d d' : Nat) {i j : Nat} (hi : (i = 0) ≠ (j = 0)) (v : U32) :
    (w.set d i v).get d' j = w.get d' j := by
  unfold word_t.get word_t.set share_t.get share_t.set
  by_cases h : d' = d <;> by_cases h1 : i = 0 <;> by_cases h2 : j = 0 <;> simp_all

theorem get_xor_share (w : word_t) {d d' : Nat} (hd : d' ≠ d) (i j : Nat) (v : U32) :
    (w.xor d i v).get d' j = w.get d' j := get_set_share w hd i j _

theorem get_xor_half (w : word_t) (d d' : Nat) {i j : Nat} (hi : (i = 0) ≠ (j = 0)) (v : U32) :
    (w.xor d i v).get d' j = w.get d' j := get_set_half w d d' hi _

theorem V_congr {ns : Nat} {w w' : word_t} {i : Nat} (h : ∀ d, d < ns → w.get d i = w'.get d i) : V ns w i = V ns w' i := by
  induction ns with
  | zero => rfl
  | succ n ih =>
    simp only [V, Rd]
    rw [ih fun d hd => h d (by omega), h n (by omega)]

theorem V_half (ns : Nat) (w : word_t) (d : Nat) {i j : Nat} (hij : (i = 0) ≠ (j = 0)) (v : U32) :
    V ns (w.set d i v) j = V ns w j := V_congr fun _ _ => get_set_half w d _ hij v

theorem V_xor_half (ns : Nat) (w : word_t) (d : Nat) {i j : Nat} (hij : (i = 0) ≠ (j = 0)) (v : U32) :
    V ns (w.xor d i v) j = V ns w j := V_half ns w d hij _

theorem xor_rc (a b c : U32) : a ^^^ b ^^^ c = a ^^^ c ^^^ b := by
  rw [BitVec.xor_assoc, BitVec.xor_comm b c, ← BitVec.xor_assoc]

/-- Adding a value to a share adds the rotated value. -/
theorem V_xor {ns d : Nat} (hd : d < ns) (h4 : ns ≤ 4) (w : word_t) (i : Nat) (v : U32) :
    V ns (w.xor d i v) i = V ns w i ^^^ ROR32 v (5 * d) := by
  induction ns with
  | zero => omega
  | succ n ih =>
    simp only [V, Rd]
    by_cases h : d = n
    · subst h
      rw [get_xor_same, ROR32_xor _ _ _ (by omega), ← BitVec.xor_assoc]
      congr 2
      exact V_congr fun d' hd' => get_xor_share w (by omega) i i v
    · rw [ih (by omega) (by omega), get_xor_share w (by omega), xor_rc]

theorem V_bic {ns d : Nat} (hd : d < ns) (h4 : ns ≤ 4) (w : word_t) (i : Nat) (x y : U32) (imm : Int) :
    V ns (bic w d i x y imm) i = V ns w i ^^^ ROR32 (x &&& ~~~(ROR32 y (ROT imm))) (5 * d) := by
  rw [← V_xor hd h4]; unfold bic word_t.xor EOR_BIC_ROR; rw [BitVec.xor_comm]

theorem V_and {ns d : Nat} (hd : d < ns) (h4 : ns ≤ 4) (w : word_t) (i : Nat) (x y : U32) (imm : Int) :
    V ns (MaskedN.and w d i x y imm) i = V ns w i ^^^ ROR32 (x &&& ROR32 y (ROT imm)) (5 * d) := by
  rw [← V_xor hd h4]; unfold MaskedN.and word_t.xor EOR_AND_ROR; rw [BitVec.xor_comm]

theorem V_orr {ns d : Nat} (hd : d < ns) (h4 : ns ≤ 4) (w : word_t) (i : Nat) (x y : U32) (imm : Int) :
    V ns (orr w d i x y imm) i = V ns w i ^^^ ROR32 (x ||| ROR32 y (ROT imm)) (5 * d) := by
  rw [← V_xor hd h4]; unfold orr word_t.xor EOR_ORR_ROR; rw [BitVec.xor_comm]

theorem V_bic_half (ns d : Nat) (w : word_t) {i j : Nat} (hij : (i = 0) ≠ (j = 0)) (x y : U32) (imm : Int) :
    V ns (bic w d i x y imm) j = V ns w j := V_half ns w d hij _
theorem V_and_half (ns d : Nat) (w : word_t) {i j : Nat} (hij : (i = 0) ≠ (j = 0)) (x y : U32) (imm : Int) :
    V ns (MaskedN.and w d i x y imm) j = V ns w j := V_half ns w d hij _
theorem V_orr_half (ns d : Nat) (w : word_t) {i j : Nat} (hij : (i = 0) ≠ (j = 0)) (x y : U32) (imm : Int) :
    V ns (orr w d i x y imm) j = V ns w j := V_half ns w d hij _

theorem toffoli1 (c a0 b0 : U32) : c ^^^ (a0 &&& ~~~b0) = c ^^^ (a0 &&& ~~~b0) := rfl

theorem toffoli2 (c a0 a1 b0 b1 : U32) :
    c ^^^ (a0 &&& ~~~b0) ^^^ (a1 &&& ~~~b0) ^^^ (a1 &&& b1) ^^^ (a0 &&& b1) =
      c ^^^ ((a0 ^^^ a1) &&& ~~~(b0 ^^^ b1)) := by
  apply BitVec.eq_of_getLsbD_eq; intro i hi
  simp only [BitVec.getLsbD_xor, BitVec.getLsbD_and, BitVec.getLsbD_not, hi, decide_true, Bool.true_and]
  generalize c.getLsbD i = c, a0.getLsbD i = a0, a1.getLsbD i = a1, b0.getLsbD i = b0, b1.getLsbD i = b1
  revert c a0 a1 b0 b1; decide +kernel

theorem toffoli3 (c a0 a1 a2 b0 b1 b2 : U32) :
    c ^^^ (b0 &&& a1) ^^^ (a0 &&& ~~~b0) ^^^ (b0 &&& a2) ^^^ (b1 &&& a2) ^^^ (a1 &&& ~~~b1) ^^^ (b1 &&& a0) ^^^
      (b2 &&& ~~~a0) ^^^ (a2 ||| b2) ^^^ (b2 &&& a1) =
      c ^^^ ((a0 ^^^ a1 ^^^ a2) &&& ~~~(b0 ^^^ b1 ^^^ b2)) := by
  apply BitVec.eq_of_getLsbD_eq; intro i hi
  simp only [BitVec.getLsbD_xor, BitVec.getLsbD_and, BitVec.getLsbD_or, BitVec.getLsbD_not, hi, decide_true, Bool.true_and]
  generalize c.getLsbD i = c, a0.getLsbD i = a0, a1.getLsbD i = a1, a2.getLsbD i = a2, b0.getLsbD i = b0, b1.getLsbD i = b1,
    b2.getLsbD i = b2
  revert c a0 a1 a2 b0 b1 b2; decide +kernel

theorem toffoli4 (c a0 a1 a2 a3 b0 b1 b2 b3 : U32) :
    c ^^^ (a0 &&& ~~~b0) ^^^ (a1 &&& ~~~b0) ^^^ (a2 &&& ~~~b0) ^^^ (a3 &&& ~~~b0) ^^^
      (a1 &&& b1) ^^^ (a2 &&& b1) ^^^ (a3 &&& b1) ^^^ (a0 &&& b1) ^^^
      (a2 &&& b2) ^^^ (a3 &&& b2) ^^^ (a0 &&& b2) ^^^ (a1 &&& b2) ^^^
      (a3 &&& b3) ^^^ (a0 &&& b3) ^^^ (a1 &&& b3) ^^^ (a2 &&& b3) =
      c ^^^ ((a0 ^^^ a1 ^^^ a2 ^^^ a3) &&& ~~~(b0 ^^^ b1 ^^^ b2 ^^^ b3)) := by
  apply BitVec.eq_of_getLsbD_eq; intro i hi
  simp only [BitVec.getLsbD_xor, BitVec.getLsbD_and, BitVec.getLsbD_not, hi, decide_true, Bool.true_and]
  generalize c.getLsbD i = c, a0.getLsbD i = a0, a1.getLsbD i = a1, a2.getLsbD i = a2, a3.getLsbD i = a3,
    b0.getLsbD i = b0, b1.getLsbD i = b1, b2.getLsbD i = b2, b3.getLsbD i = b3
  revert c a0 a1 a2 a3 b0 b1 b2 b3; decide +kernel

/-- The numbers of shares for which there is a permutation. -/
def Ns (ns : Nat) : Prop := 1 ≤ ns ∧ ns ≤ 4

theorem Ns.cases {ns : Nat} (h : Ns ns) : ns = 1 ∨ ns = 2 ∨ ns = 3 ∨ ns = 4 := by
  obtain ⟨h1, h2⟩ := h; omega

/-- The masked Toffoli gate. -/
theorem V_MXORBIC {ns : Nat} (hns : Ns ns) (i : Nat) (c a b : word_t) :
    V ns (MXORBIC c a b i ns) i = V ns c i ^^^ (V ns a i &&& ~~~(V ns b i)) := by
  obtain ⟨r0, r1, r2, r3, q1, q2, q3, q4, q5, q6, q7, q8, q9, q10, q11, q12⟩ := rots
  have z : ∀ x : U32, (0 : U32) ^^^ x = x := fun x => BitVec.zero_xor
  rcases hns.cases with rfl | rfl | rfl | rfl
  · show V 1 (MXORBIC1 c a b i) i = _
    unfold MXORBIC1
    rw [V_bic (by omega) (by omega)]
    simp only [V, Rd, r0, ROR32_by0, Nat.mul_zero, z]
  · show V 2 (MXORBIC2 c a b i) i = _
    unfold MXORBIC2
    simp only []
    rw [V_and (by omega) (by omega), V_and (by omega) (by omega), V_bic (by omega) (by omega), V_bic (by omega) (by omega)]
    simp only [r0, q1, q4, ROR32_and _ _ (5 * 0) (by omega), ROR32_and _ _ (5 * 1) (by omega),
      ROR32_not _ (5 * 0) (by omega), ROR32_not _ (5 * 1) (by omega), ROR32_by0, ROR32_add _ 27 (5 * 1) (by omega) (by omega)]
    simp only [Nat.mul_zero, Nat.reduceMul, Nat.reduceAdd, Nat.reduceMod, ROR32_by0]
    rw [toffoli2]
    simp only [V, Rd, ROR32_by0, Nat.mul_zero, z]
  · show V 3 (MXORBIC3 c a b i) i = _
    unfold MXORBIC3
    simp only []
    rw [V_and (by omega) (by omega), V_orr (by omega) (by omega), V_bic (by omega) (by omega), V_and (by omega) (by omega),
      V_bic (by omega) (by omega), V_and (by omega) (by omega), V_and (by omega) (by omega), V_bic (by omega) (by omega),
      V_and (by omega) (by omega)]
    simp only [r0, q1, q2, q4, q5, q7, q8, Nat.mul_zero, Nat.reduceMul,
      ROR32_and _ _ 5 (by omega), ROR32_and _ _ 10 (by omega), ROR32_or _ _ 10 (by omega),
      ROR32_not _ 5 (by omega), ROR32_not _ 10 (by omega), ROR32_by0, ROR32_add _ 27 5 (by omega) (by omega),
      ROR32_add _ 5 5 (by omega) (by omega), ROR32_add _ 22 10 (by omega) (by omega), ROR32_add _ 27 10 (by omega) (by omega)]
    simp only [Nat.reduceAdd, Nat.reduceMod, ROR32_by0]
    rw [toffoli3]
    simp only [V, Rd, ROR32_by0, Nat.mul_zero, z, Nat.reduceMul]
  · show V 4 (MXORBIC4 c a b i) i = _
    unfold MXORBIC4
    simp only []
    rw [V_and (by omega) (by omega), V_and (by omega) (by omega), V_and (by omega) (by omega), V_and (by omega) (by omega),
      V_and (by omega) (by omega), V_and (by omega) (by omega), V_and (by omega) (by omega), V_and (by omega) (by omega),
      V_and (by omega) (by omega), V_and (by omega) (by omega), V_and (by omega) (by omega), V_and (by omega) (by omega),
      V_bic (by omega) (by omega), V_bic (by omega) (by omega), V_bic (by omega) (by omega), V_bic (by omega) (by omega)]
    simp only [r0, q1, q2, q3, q4, q5, q6, q7, q8, q9, q10, q11, q12, Nat.mul_zero, Nat.reduceMul,
      ROR32_and _ _ 5 (by omega), ROR32_and _ _ 10 (by omega), ROR32_and _ _ 15 (by omega),
      ROR32_not _ 5 (by omega), ROR32_not _ 10 (by omega), ROR32_not _ 15 (by omega),
      ROR32_by0, ROR32_add _ 27 5 (by omega) (by omega), ROR32_add _ 10 5 (by omega) (by omega),
      ROR32_add _ 17 15 (by omega) (by omega), ROR32_add _ 22 15 (by omega) (by omega), ROR32_add _ 27 15 (by omega) (by omega),
      ROR32_add _ 5 5 (by omega) (by omega), ROR32_add _ 5 10 (by omega) (by omega),
      ROR32_add _ 22 10 (by omega) (by omega), ROR32_add _ 27 10 (by omega) (by omega)]
    simp only [Nat.reduceAdd, Nat.reduceMod, ROR32_by0]
    rw [toffoli4]
    simp only [V, Rd, ROR32_by0, Nat.mul_zero, z, Nat.reduceMul]

theorem V_MXORBIC_other (ns : Nat) (n' : Nat) {i j : Nat} (hij : (i = 0) ≠ (j = 0)) (c a b : word_t) :
    V ns (MXORBIC c a b i n') j = V ns c j := by
  unfold MXORBIC MXORBIC1 MXORBIC2 MXORBIC3 MXORBIC4
  split
  · rw [V_bic_half _ _ _ hij]
  split
  · simp only [V_bic_half _ _ _ hij, V_and_half _ _ _ hij]
  split
  · simp only [V_bic_half _ _ _ hij, V_and_half _ _ _ hij, V_orr_half _ _ _ hij]
  split
  · simp only [V_bic_half _ _ _ hij, V_and_half _ _ _ hij]
  · rfl

/-- The values of the halves `i`. -/
def VH (ns : Nat) (s : MState) (i : Nat) : Half :=
  ⟨V ns s.x0 i, V ns s.x1 i, V ns s.x2 i, V ns s.x3 i, V ns s.x4 i, V ns s.x5 i⟩

theorem V_not {ns : Nat} (hns : Ns ns) (w : word_t) (i : Nat) :
    V ns (w.set 0 i (~~~(w.get 0 i))) i = ~~~(V ns w i) := by
  have e : w.set 0 i (~~~(w.get 0 i)) = w.xor 0 i (BitVec.allOnes 32) := by
    unfold word_t.xor; rw [BitVec.xor_allOnes]
  rw [e, V_xor (by have := hns.1; omega) hns.2, show 5 * 0 = 0 from rfl, ROR32_by0, BitVec.xor_allOnes]

/-- The state after affine layer 1 on share `d`, as a change of the values. -/
theorem VH_AFFINE1 {ns d : Nat} (hd : d < ns) (h4 : ns ≤ 4) (s : MState) (i : Nat) :
    VH ns (AFFINE1 s i d) i = { VH ns s i with
      x2 := V ns s.x2 i ^^^ Rd s.x1 d i
      x0 := V ns s.x0 i ^^^ Rd s.x4 d i
      x4 := V ns s.x4 i ^^^ Rd s.x3 d i } := by
  simp only [VH, AFFINE1, V_xor hd h4]; rfl

theorem Rd_xor (w : word_t) {d d' : Nat} (h : d' ≠ d) (i : Nat) (v : U32) : Rd (w.xor d i v) d' i = Rd w d' i := by
  unfold Rd; rw [get_xor_share w h]

theorem Rd_xor_same (w : word_t) (d : Nat) (h : d < 4) (i : Nat) (v : U32) :
    Rd (w.xor d i v) d i = Rd w d i ^^^ ROR32 v (5 * d) := by
  unfold Rd; rw [get_xor_same, ROR32_xor _ _ _ (by omega)]

theorem Rd_set (w : word_t) {d d' : Nat} (h : d' ≠ d) (i : Nat) (v : U32) : Rd (w.set d i v) d' i = Rd w d' i := by
  unfold Rd; rw [get_set_share w h]

theorem VH_aff1 {ns : Nat} (hns : Ns ns) (s : MState) (i : Nat) : VH ns (affine1 s i ns) i = aff1 (VH ns s i) := by
  have z : ∀ x : U32, (0 : U32) ^^^ x = x := fun x => BitVec.zero_xor
  rcases hns.cases with rfl | rfl | rfl | rfl
  all_goals
    simp only [affine1, ge_iff_le, Nat.le_refl, Nat.reduceLeDiff, if_true, if_false]
    simp only [VH, aff1, AFFINE1]
    simp (discharger := decide) only [V_xor, get_xor_share]
    simp only [V, Rd, z]
    try (congr 1 <;> simp only [BitVec.xor_assoc])

theorem VH_AFFINE1_other (ns : Nat) (s : MState) {i j : Nat} (hij : (i = 0) ≠ (j = 0)) (d : Nat) :
    VH ns (AFFINE1 s i d) j = VH ns s j := by
  simp only [VH, AFFINE1, V_xor_half _ _ _ hij]

theorem VH_aff1_other (ns n' : Nat) (s : MState) {i j : Nat} (hij : (i = 0) ≠ (j = 0)) :
    VH ns (affine1 s i n') j = VH ns s j := by
  have e : ∀ (p : Prop) [Decidable p] (t : MState) (d : Nat), VH ns (if p then AFFINE1 t i d else t) j = VH ns t j :=
    fun p _ t d => by
      split
      · exact VH_AFFINE1_other ns t hij d
      · rfl
  unfold affine1
  simp only [e]

theorem set_not (w : word_t) (i : Nat) : w.set 0 i (~~~(w.get 0 i)) = w.xor 0 i (BitVec.allOnes 32) := by
  unfold word_t.xor; rw [BitVec.xor_allOnes]

theorem VH_aff2 {ns : Nat} (hns : Ns ns) (s : MState) (i : Nat) : VH ns (affine2 s i ns) i = aff2 (VH ns s i) := by
  have z : ∀ x : U32, (0 : U32) ^^^ x = x := fun x => BitVec.zero_xor
  have n : ∀ x : U32, ~~~x = x ^^^ BitVec.allOnes 32 := fun x => BitVec.xor_allOnes.symm
  rcases hns.cases with rfl | rfl | rfl | rfl
  all_goals
    simp only [affine2, ge_iff_le, Nat.le_refl, Nat.reduceLeDiff, if_true, if_false]
    simp only [VH, aff2, AFFINE2, set_not]
    simp (discharger := decide) only [V_xor, get_xor_share, get_xor_same]
    simp (discharger := decide) only [V, Rd, z, n, Nat.mul_zero, Nat.reduceMul, ROR32_by0, ROR32_xor]
    try (congr 1 <;> ac_rfl)

theorem VH_AFFINE2_other (ns : Nat) (s : MState) {i j : Nat} (hij : (i = 0) ≠ (j = 0)) (d : Nat) :
    VH ns (AFFINE2 s i d) j = VH ns s j := by
  simp only [VH, AFFINE2, V_xor_half _ _ _ hij]

theorem VH_aff2_other (ns n' : Nat) (s : MState) {i j : Nat} (hij : (i = 0) ≠ (j = 0)) :
    VH ns (affine2 s i n') j = VH ns s j := by
  have e : ∀ (p : Prop) [Decidable p] (t : MState) (d : Nat), VH ns (if p then AFFINE2 t i d else t) j = VH ns t j :=
    fun p _ t d => by
      split
      · exact VH_AFFINE2_other ns t hij d
      · rfl
  have e2 : ∀ t : MState, VH ns { t with x2 := t.x2.set 0 i (~~~(t.x2.get 0 i)) } j = VH ns t j := fun t => by
    simp only [VH, V_half _ _ _ hij]
  unfold affine2
  simp only [e, e2]

theorem VH_SBOX {ns : Nat} (hns : Ns ns) (s : MState) (i : Nat) : VH ns (SBOX s i ns) i = sboxH (VH ns s i) := by
  unfold SBOX sboxH
  rw [VH_aff2 hns]
  simp only []
  rw [← VH_aff1 hns]
  generalize affine1 s i ns = t
  simp only [VH, V_MXORBIC hns]

theorem VH_SBOX_other (ns : Nat) (s : MState) {i j : Nat} (hij : (i = 0) ≠ (j = 0)) :
    VH ns (SBOX s i ns) j = VH ns s j := by
  unfold SBOX
  rw [VH_aff2_other _ _ _ hij, ← VH_aff1_other ns ns s hij]
  generalize affine1 s i ns = t
  simp only [VH, V_MXORBIC_other ns ns hij]

/-! ### The linear layer -/

/-- The value of a word. -/
def SV (ns : Nat) (w : word_t) : share_t := ⟨V ns w 0, V ns w 1⟩

theorem SV_succ (ns : Nat) (w : word_t) :
    SV (ns + 1) w = ⟨(SV ns w).w0 ^^^ ROR32 (w ns).w0 (5 * ns), (SV ns w).w1 ^^^ ROR32 (w ns).w1 (5 * ns)⟩ := rfl

theorem linWord_zero (p a0 a1 q b0 b1 : Nat) : linWord ⟨0, 0⟩ p a0 a1 q b0 b1 = ⟨0, 0⟩ := by
  have z : ∀ j : Nat, (share_t.mk 0 0).get j = 0 := fun j => by unfold share_t.get; split <;> rfl
  have zx : (0 : U32) ^^^ 0 = 0 := by decide
  simp only [linWord, z, ROR32_zero, zx]

theorem SV_lin {ns : Nat} (h4 : ns ≤ 4) {w w' : word_t} (p a0 a1 q b0 b1 : Nat)
    (h : a0 < 32 ∧ a1 < 32 ∧ b0 < 32 ∧ b1 < 32) (hw : ∀ d, d < ns → w' d = linWord (w d) p a0 a1 q b0 b1) :
    SV ns w' = linWord (SV ns w) p a0 a1 q b0 b1 := by
  induction ns with
  | zero =>
    show (⟨0, 0⟩ : share_t) = linWord ⟨0, 0⟩ p a0 a1 q b0 b1
    rw [linWord_zero]
  | succ n ih =>
    rw [SV_succ, SV_succ, linWord_xor (SV n w) ⟨ROR32 (w n).w0 (5 * n), ROR32 (w n).w1 (5 * n)⟩ _ _ _ _ _ _ h,
      linWord_ror (w n) (5 * n) _ _ _ _ _ _ h (by omega), ih (by omega) fun d hd => hw d (by omega), hw n (by omega)]

/-- The packed value of a word. -/
def PV (ns : Nat) (w : word_t) : Word := pk (SV ns w)

/-- The packed value of a state. -/
def E (ns : Nat) (s : MState) : State := ⟨PV ns s.x0, PV ns s.x1, PV ns s.x2, PV ns s.x3, PV ns s.x4⟩

/-! ### The round -/

/-- `x5` is a sharing of zero. -/
def Z5 (ns : Nat) (s : MState) : Prop := V ns s.x5 0 = 0 ∧ V ns s.x5 1 = 0

/-- The linear layer on values. -/
theorem E_LINEAR {ns : Nat} (hns : Ns ns) (s : MState) :
    E ns (linear s ns) =
      let x := E ns s
      ⟨x.x0 ^^^ bi32ROR .little (x.x0 ^^^ bi32ROR .little x.x0 9) 19,
       x.x1 ^^^ bi32ROR .little (x.x1 ^^^ bi32ROR .little x.x1 22) 39,
       x.x2 ^^^ bi32ROR .little (x.x2 ^^^ bi32ROR .little x.x2 5) 1,
       x.x3 ^^^ bi32ROR .little (x.x3 ^^^ bi32ROR .little x.x3 7) 10,
       x.x4 ^^^ bi32ROR .little (x.x4 ^^^ bi32ROR .little x.x4 34) 7⟩ := by
  have c4 : ∀ {n d : Nat}, n ≤ 4 → d < n → d = 0 ∨ d = 1 ∨ d = 2 ∨ d = 3 := by omega
  simp only [E, PV]
  rw [← pk_lin0, ← pk_lin1, ← pk_lin2, ← pk_lin3, ← pk_lin4]
  rw [← SV_lin (w' := (linear s ns).x0) hns.2 1 4 5 1 9 10 (by omega), ← SV_lin (w' := (linear s ns).x1) hns.2 0 11 11 1 19 20 (by omega),
    ← SV_lin (w' := (linear s ns).x2) hns.2 1 2 3 1 0 1 (by omega), ← SV_lin (w' := (linear s ns).x3) hns.2 1 3 4 0 5 5 (by omega),
    ← SV_lin (w' := (linear s ns).x4) hns.2 0 17 17 1 3 4 (by omega)]
  all_goals
    intro d hd
    rcases hns.cases with rfl | rfl | rfl | rfl <;> rcases c4 (by decide) hd with rfl | rfl | rfl | rfl <;>
      first | rfl | (exfalso; omega)

/-- `E` in terms of the two halves. -/
theorem E_eq (ns : Nat) (s : MState) : E ns s =
    ⟨pk ⟨(VH ns s 0).x0, (VH ns s 1).x0⟩, pk ⟨(VH ns s 0).x1, (VH ns s 1).x1⟩, pk ⟨(VH ns s 0).x2, (VH ns s 1).x2⟩,
      pk ⟨(VH ns s 0).x3, (VH ns s 1).x3⟩, pk ⟨(VH ns s 0).x4, (VH ns s 1).x4⟩⟩ := rfl

theorem E_ROUND {ns : Nat} (hns : Ns ns) (s : MState) (hz : Z5 ns s) (Co Ce : Byte) :
    E ns (ROUND_ s Co Ce ns) = roundPk (bi32ROR .little) (E ns s) (pk ⟨Ce.setWidth 32, Co.setWidth 32⟩) := by
  have h0 : 0 < ns := hns.1
  unfold ROUND_
  simp only []
  rw [E_LINEAR hns]
  generalize hs1 : ({ s with x2 := s.x2.xor 0 0 (Ce.setWidth 32) } : MState) = s1
  generalize hs2 : SBOX s1 0 ns = s2
  generalize hs3 : ({ s2 with x2 := s2.x2.xor 0 1 (Co.setWidth 32) } : MState) = s3
  generalize hs4 : SBOX s3 1 ns = s4
  have n01 : ((0 : Nat) = 0) ≠ ((1 : Nat) = 0) := by simp
  have n10 : ((1 : Nat) = 0) ≠ ((0 : Nat) = 0) := by simp
  have h10 : VH ns s1 0 = { VH ns s 0 with x2 := V ns s.x2 0 ^^^ Ce.setWidth 32 } := by
    rw [← hs1]; simp only [VH, V_xor h0 hns.2, Nat.mul_zero, ROR32_by0]
  have h11 : VH ns s1 1 = VH ns s 1 := by
    rw [← hs1]; simp only [VH, V_xor_half _ _ _ n01]
  have h20 : VH ns s2 0 = sboxH (VH ns s1 0) := by rw [← hs2, VH_SBOX hns]
  have h21 : VH ns s2 1 = VH ns s1 1 := by rw [← hs2, VH_SBOX_other _ _ n01]
  have h30 : VH ns s3 0 = VH ns s2 0 := by
    rw [← hs3]; simp only [VH, V_xor_half _ _ _ n10]
  have h31 : VH ns s3 1 = { VH ns s2 1 with x2 := V ns s2.x2 1 ^^^ Co.setWidth 32 } := by
    rw [← hs3]; simp only [VH, V_xor h0 hns.2, Nat.mul_zero, ROR32_by0]
  have h40 : VH ns s4 0 = VH ns s3 0 := by rw [← hs4, VH_SBOX_other _ _ n10]
  have h41 : VH ns s4 1 = sboxH (VH ns s3 1) := by rw [← hs4, VH_SBOX hns]
  have hv2 : V ns s2.x2 1 = (VH ns s 1).x2 := by
    show (VH ns s2 1).x2 = _
    rw [h21, h11]
  have e0 : VH ns s4 0 = sboxH { VH ns s 0 with x2 := V ns s.x2 0 ^^^ Ce.setWidth 32 } := by
    rw [h40, h30, h20, h10]
  have e1 : VH ns s4 1 = sboxH { VH ns s 1 with x2 := V ns s.x2 1 ^^^ Co.setWidth 32 } := by
    rw [h41, h31, h21, h11, hv2]; rfl
  have hE : E ns { s4 with x5 := MREUSE s4.x5 0 ns } = E ns s4 := rfl
  rw [hE, E_eq ns s4, e0, e1]
  have z0 := hz.1
  have z1 := hz.2
  have zx : ∀ x : U32, (0 : U32) ^^^ x = x := fun x => BitVec.zero_xor
  simp only [sboxH, aff1, aff2, VH, z0, z1, zx, pk_xor', pk_and', pk_not', roundPk, E, PV, SV]

/-! ### word.h on values -/

theorem V_MXOR {ns n' : Nat} (h : n' ≤ ns) (h4 : ns ≤ 4) (a b : word_t) (i : Nat) (hi : i = 0 ∨ i = 1) :
    V ns (MXOR a b n') i = V ns a i ^^^ V n' b i := by
  have c : n' = 0 ∨ n' = 1 ∨ n' = 2 ∨ n' = 3 ∨ n' = 4 := by omega
  have n01 : ((0 : Nat) = 0) ≠ ((1 : Nat) = 0) := by simp
  have n10 : ((1 : Nat) = 0) ≠ ((0 : Nat) = 0) := by simp
  have z : ∀ x : U32, x ^^^ (0 : U32) = x := fun x => BitVec.xor_zero
  have z' : ∀ x : U32, (0 : U32) ^^^ x = x := fun x => BitVec.zero_xor
  rcases hi with rfl | rfl <;> rcases c with rfl | rfl | rfl | rfl | rfl
  all_goals
    simp only [MXOR, ge_iff_le, Nat.le_refl, Nat.reduceLeDiff, if_true, if_false]
    try simp (discharger := omega) only [V_xor_half _ _ _ n01, V_xor_half _ _ _ n10, V_xor]
    simp only [V, Rd, z, z', BitVec.xor_assoc]

theorem PV_MXOR {ns n' : Nat} (h : n' ≤ ns) (h4 : ns ≤ 4) (a b : word_t) : PV ns (MXOR a b n') = PV ns a ^^^ PV n' b := by
  unfold PV SV
  rw [V_MXOR h h4 a b 0 (Or.inl rfl), V_MXOR h h4 a b 1 (Or.inr rfl), pk_xor']

/-- What `MREMASK` adds to share 0. -/
def rmk (r : word_t) (nsi nso i : Nat) : U32 :=
  (if nsi ≥ 2 ∧ nso < 2 then Rd r 1 i else 0) ^^^ (if nsi ≥ 3 ∧ nso < 3 then Rd r 2 i else 0) ^^^
    (if nsi ≥ 4 ∧ nso < 4 then Rd r 3 i else 0)

theorem get_MREMASK (w r : word_t) (nsi nso : Nat) (d i : Nat) (hi : i = 0 ∨ i = 1) :
    (MREMASK w r nsi nso).get d i = if d = 0 then w.get 0 i ^^^ rmk r nsi nso i else w.get d i := by
  obtain ⟨r0, r1, r2, r3, q1, q2, q3, q4, q5, q6, q7, q8, q9, q10, q11, q12⟩ := rots
  have n01 : ((0 : Nat) = 0) ≠ ((1 : Nat) = 0) := by simp
  have n10 : ((1 : Nat) = 0) ≠ ((0 : Nat) = 0) := by simp
  have z : ∀ x : U32, x ^^^ (0 : U32) = x := fun x => BitVec.xor_zero
  have z' : ∀ x : U32, (0 : U32) ^^^ x = x := fun x => BitVec.zero_xor
  by_cases hd : d = 0
  · subst hd
    rw [if_pos rfl]
    by_cases h2 : nsi ≥ 2 ∧ nso < 2 <;> by_cases h3 : nsi ≥ 3 ∧ nso < 3 <;> by_cases h4 : nsi ≥ 4 ∧ nso < 4 <;>
      rcases hi with rfl | rfl <;>
      simp only [MREMASK, rmk, h2, h3, h4, and_self, if_true, if_false, get_xor_half _ _ _ n01, get_xor_half _ _ _ n10, get_xor_same,
        r1, r2, r3, Rd, Nat.reduceMul, z, z', BitVec.xor_assoc]
  · rw [if_neg hd]
    have e : ∀ (p : Prop) [Decidable p] (t : word_t) (j : Nat) (v : U32),
        (if p then word_t.xor t 0 j v else t).get d i = t.get d i := fun p _ t j v => by
      split
      · exact get_xor_share t hd j i v
      · rfl
    show word_t.get (MREMASK w r nsi nso) d i = _
    unfold MREMASK
    rw [e, e, e, e, e, e]

theorem V_MREMASK {ns : Nat} (h1 : 1 ≤ ns) (h4 : ns ≤ 4) (w r : word_t) (nsi nso i : Nat) (hi : i = 0 ∨ i = 1) :
    V ns (MREMASK w r nsi nso) i = V ns w i ^^^ rmk r nsi nso i := by
  have : V ns (MREMASK w r nsi nso) i = V ns (w.xor 0 i (rmk r nsi nso i)) i := by
    apply V_congr
    intro d hd
    rw [get_MREMASK w r nsi nso d i hi]
    by_cases h : d = 0
    · subst h; rw [if_pos rfl, get_xor_same]
    · rw [if_neg h, get_xor_share w h]
  rw [this, V_xor (by omega) h4, Nat.mul_zero, ROR32_by0]

theorem rmk_of_le (r : word_t) {nsi nso : Nat} (h : nsi ≤ nso) (i : Nat) : rmk r nsi nso i = 0 := by
  unfold rmk
  rw [if_neg (by omega), if_neg (by omega), if_neg (by omega)]; rfl

/-- Going from `b` to `a` shares, the value of the shares between is what is added. -/
theorem V_rmk {a b : Nat} (ha : 1 ≤ a) (hab : a ≤ b) (hb : b ≤ 4) (w : word_t) (i : Nat) :
    V b w i = V a w i ^^^ rmk w b a i := by
  have ca : a = 1 ∨ a = 2 ∨ a = 3 ∨ a = 4 := by omega
  have cb : b = 1 ∨ b = 2 ∨ b = 3 ∨ b = 4 := by omega
  rcases ca with rfl | rfl | rfl | rfl <;> rcases cb with rfl | rfl | rfl | rfl <;>
    first
    | (exfalso; omega)
    | simp [rmk, V, BitVec.xor_assoc]

theorem PV_MREDUCE {a b : Nat} (ha : 1 ≤ a) (hab : a ≤ b) (hb : b ≤ 4) (w : word_t) : PV a (MREDUCE w b a) = PV b w := by
  unfold PV SV MREDUCE
  rw [V_MREMASK ha (by omega) w w b a 0 (Or.inl rfl), V_MREMASK ha (by omega) w w b a 1 (Or.inr rfl), ← V_rmk ha hab hb, ← V_rmk ha hab hb]

theorem PV_MEXPAND {a b : Nat} (ha : 1 ≤ a) (hab : a ≤ b) (hb : b ≤ 4) (w : word_t) : PV b (MEXPAND w a b) = PV a w := by
  have e : ∀ x y : U32, x ^^^ y ^^^ y = x := fun x y => by rw [BitVec.xor_assoc, BitVec.xor_self, BitVec.xor_zero]
  unfold PV SV MEXPAND
  rw [V_MREMASK (by omega) hb w w b a 0 (Or.inl rfl), V_MREMASK (by omega) hb w w b a 1 (Or.inr rfl), V_rmk ha hab hb w 0, V_rmk ha hab hb w 1,
    e, e]

theorem PV_zero_iff {ns : Nat} {w : word_t} : (V ns w 0 = 0 ∧ V ns w 1 = 0) ↔ PV ns w = 0 := by
  have pk00 : pk ⟨0, 0⟩ = 0 := by decide
  constructor
  · rintro ⟨h0, h1⟩
    unfold PV SV; rw [h0, h1]; exact pk00
  · intro h
    have : SV ns w = ⟨0, 0⟩ := by
      rw [← unpk_pk (SV ns w)]
      show unpk (PV ns w) = _
      rw [h]; decide
    unfold SV at this
    injection this with h0 h1
    exact ⟨h0, h1⟩

/-- A word whose share 0 is zero, remasked by itself, is a sharing of zero. -/
theorem PV_mask0 {ns : Nat} (hns : Ns ns) (w : word_t) (h : w 0 = ⟨0, 0⟩) : PV ns (MREMASK w w ns 1) = 0 := by
  have e : ∀ x y : U32, x ^^^ y ^^^ y = x := fun x y => by rw [BitVec.xor_assoc, BitVec.xor_self, BitVec.xor_zero]
  have h0 : ∀ i, V 1 w i = 0 := fun i => by
    simp only [V, Rd, word_t.get, h, share_t.get, Nat.mul_zero, ROR32_by0]
    split <;> rfl
  apply PV_zero_iff.1
  rw [V_MREMASK hns.1 hns.2 w w ns 1 0 (Or.inl rfl), V_MREMASK hns.1 hns.2 w w ns 1 1 (Or.inr rfl),
    V_rmk (Nat.le_refl 1) hns.1 hns.2 w 0, V_rmk (Nat.le_refl 1) hns.1 hns.2 w 1, e, e]
  exact ⟨h0 0, h0 1⟩

theorem MMIX_s0 (w : word_t) (ns : Nat) : (MMIX w ns) 0 = w 0 := by
  have e : ∀ (p : Prop) [Decidable p] (t : word_t) (d j n : Nat), d ≠ 0 → (if p then rorShare t d j n else t) 0 = t 0 :=
    fun p _ t d j n hd => by
      split
      · unfold rorShare word_t.set; rw [if_neg (fun h => hd h.symm)]
      · rfl
  unfold MMIX
  rw [e _ _ _ _ _ (by decide), e _ _ _ _ _ (by decide), e _ _ _ _ _ (by decide), e _ _ _ _ _ (by decide),
    e _ _ _ _ _ (by decide), e _ _ _ _ _ (by decide)]

theorem PV_MREUSE0 {ns : Nat} (hns : Ns ns) (w : word_t) : PV ns (MREUSE w 0 ns) = 0 := by
  unfold MREUSE
  apply PV_mask0 hns
  rw [MMIX_s0]
  rfl

theorem PV_MZERO {ns : Nat} (hns : Ns ns) (r : Nat → Word) : PV ns (MZERO r ns) = 0 := by
  unfold MZERO
  apply PV_mask0 hns
  rw [MMIX_s0]
  rfl

theorem PV_MREFRESH {ns : Nat} (hns : Ns ns) (w : word_t) (r : Nat → Word) : PV ns (MREFRESH w r ns) = PV ns w := by
  have e : ∀ x y : U32, x ^^^ y ^^^ y = x := fun x y => by rw [BitVec.xor_assoc, BitVec.xor_self, BitVec.xor_zero]
  have h0 : ∀ i, V 1 (MRND r) i = 0 := fun i => by
    simp only [V, Rd, word_t.get, MRND, share_t.get, Nat.mul_zero, ROR32_by0, if_true]
    split <;> rfl
  unfold MREFRESH PV SV
  rw [V_MXOR (Nat.le_refl ns) hns.2 _ _ 0 (Or.inl rfl), V_MXOR (Nat.le_refl ns) hns.2 _ _ 1 (Or.inr rfl),
    V_MREMASK hns.1 hns.2 _ _ ns 1 0 (Or.inl rfl), V_MREMASK hns.1 hns.2 _ _ ns 1 1 (Or.inr rfl),
    V_rmk (Nat.le_refl 1) hns.1 hns.2 (MRND r) 0, V_rmk (Nat.le_refl 1) hns.1 hns.2 (MRND r) 1, h0, h0]
  have z' : ∀ x : U32, (0 : U32) ^^^ x = x := fun x => BitVec.zero_xor
  simp only [z', e]

/-- Adding a constant to the first share. -/
theorem PV_xor00 {ns : Nat} (hns : Ns ns) (w : word_t) (a : U32) : PV ns (w.xor 0 0 a) = PV ns w ^^^ pk ⟨a, 0⟩ := by
  unfold PV SV
  rw [V_xor (by have := hns.1; omega) hns.2, V_xor_half _ _ _ (by simp), ← pk_xor, Nat.mul_zero, ROR32_by0]
  simp

theorem PV_xor01 {ns : Nat} (hns : Ns ns) (w : word_t) (a : U32) : PV ns (w.xor 0 1 a) = PV ns w ^^^ pk ⟨0, a⟩ := by
  unfold PV SV
  rw [V_xor (by have := hns.1; omega) hns.2, V_xor_half _ _ _ (by simp), ← pk_xor, Nat.mul_zero, ROR32_by0]
  simp

/-! ### The permutation -/

theorem linear_x5 (s : MState) (ns : Nat) : (linear s ns).x5 = s.x5 := by
  have e : ∀ (p : Prop) [Decidable p] (t : MState) (d : Nat), (if p then LINEAR t d else t).x5 = t.x5 :=
    fun p _ t d => by split <;> rfl
  unfold linear
  simp only [e]

theorem Z5_ROUND {ns : Nat} (hns : Ns ns) (s : MState) (Co Ce : Byte) : Z5 ns (ROUND_ s Co Ce ns) := by
  unfold Z5 ROUND_
  rw [linear_x5]
  exact PV_zero_iff.2 (PV_MREUSE0 hns _)

/-- `s` represents the state `t` with `ns` shares. -/
def Rel (ns : Nat) (s : MState) (t : State) : Prop :=
  E ns s = encS (deinterleave32 .little) t ∧ Z5 ns s

theorem rel_ROUND {ns : Nat} (hns : Ns ns) {s : MState} {t : State} (h : Rel ns s t) {Co Ce : Byte}
    {c : Word} (hc : pk ⟨Ce.setWidth 32, Co.setWidth 32⟩ = deinterleave32 .little c) :
    Rel ns (ROUND_ s Co Ce ns) (round c t) := by
  refine ⟨?_, Z5_ROUND hns _ _ _⟩
  rw [E_ROUND hns s h.2, h.1, hc, roundPk_enc]

theorem run_roundStep {ns : Nat} (hns : Ns ns) {s : MState} {t : State} (h : Rel ns s t) {i : Nat}
    (hi : i < 12) (mem : Mem) : ∃ s', Rel ns s' (round (roundConsts.getD (4 + i) 0) t) ∧
      run (roundStep ns (i, s)) mem = some ((i + 1, s'), mem) := by
  refine ⟨_, rel_ROUND hns h (consts_ok ⟨i, hi⟩), ?_⟩
  unfold roundStep
  rw [require_bind_of (decide_eq_true (show 2 * i + 1 < 24 by omega))]
  rfl

theorem run_rounds {ns : Nat} (hns : Ns ns) (k : Nat) (hk : k < 12) (f : Nat) (hf : k < f) {s : MState} {t : State}
    (h : Rel ns s t) (mem : Mem) : ∃ s', Rel ns s' ((roundConsts.drop (15 - k)).foldl (fun s c => round c s) t) ∧
      run (roundStep ns (11 - k, s) >>= loop f (fun q : Nat × MState => decide (q.1 ≠ 12)) (roundStep ns)) mem =
        some ((12, s'), mem) := by
  induction k generalizing f s t with
  | zero =>
    obtain ⟨f, rfl⟩ : ∃ g, f = g + 1 := ⟨f - 1, by omega⟩
    obtain ⟨s', hs', hr⟩ := run_roundStep hns h (i := 11) (by omega) mem
    refine ⟨s', hs', ?_⟩
    rw [run_bind_of hr, run_loop_done (by simp)]
  | succ k ih =>
    obtain ⟨f, rfl⟩ : ∃ g, f = g + 1 := ⟨f - 1, by omega⟩
    obtain ⟨s', hs', hr⟩ := run_roundStep hns h (i := 11 - (k + 1)) (by omega) mem
    obtain ⟨s'', hs'', hr'⟩ := ih (by omega) f (by omega) hs'
    refine ⟨s'', ?_, ?_⟩
    · have hl : 15 - (k + 1) < roundConsts.length := by
        show _ < 16; omega
      rw [List.drop_eq_getElem_cons hl, List.foldl_cons, show 15 - (k + 1) + 1 = 15 - k by omega,
        List.getElem_eq_getD (fallback := 0), show 15 - (k + 1) = 4 + (11 - (k + 1)) by omega]
      exact hs''
    · rw [run_bind_of hr]
      have hc : decide ((11 - (k + 1) + 1 : Nat) ≠ 12) = true := decide_eq_true (by omega)
      simp only [loop, ifc, hc, if_true, run]
      rw [show 11 - (k + 1) + 1 = 11 - k by omega]
      exact hr'

/-- permutations.h `P(s, nr, ns)` applies `nr` rounds of the permutation to the represented state. -/
theorem run_P {ns : Nat} (hns : Ns ns) {nr : Nat} (h0 : 0 < nr) (h12 : nr ≤ 12) {s : MState} {t : State}
    (h : Rel ns s t) (mem : Mem) : ∃ s', Rel ns s' (perm nr t) ∧ run (P s nr ns) mem = some (s', mem) := by
  obtain ⟨s', hs', hr⟩ := run_rounds hns (nr - 1) (by omega) 16 (by omega) h mem
  refine ⟨s', ?_, ?_⟩
  · unfold perm
    rw [show 16 - nr = 15 - (nr - 1) by omega]; exact hs'
  · unfold P
    rw [if_pos hns.cases, show 12 - nr = 11 - (nr - 1) by omega, ← bind_assoc', run_bind_of hr]; rfl

end Ascon.MaskedN
