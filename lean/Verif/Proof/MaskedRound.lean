import Verif.Model.Masked
import Verif.Proof.Backends
/-!
# The masked permutation computes the Ascon permutation on the unmasked value

`V ns w i` is the value of half `i` of a word shared with `ns` shares: the exclusive or of the shares, share 1
rotated by `ROT(1) = 5`.
-/

namespace Ascon.Masked

open Ascon.Spec Ascon.C Ascon.Gen
open Ascon.C.Prog (require ifc loop)

/-! ### Rotations of 32-bit words -/

theorem getLsbD_ROR32 (x : U32) (n i : Nat) (h : n < 32) (hi : i < 32) :
    (ROR32 x n).getLsbD i = x.getLsbD ((i + n) % 32) := by
  unfold ROR32
  rw [BitVec.getLsbD_or, BitVec.getLsbD_ushiftRight, BitVec.getLsbD_shiftLeft]
  by_cases h1 : i < 32 - n
  · rw [show (i + n) % 32 = n + i by omega]
    rcases Nat.eq_zero_or_pos n with rfl | h0
    · simp [hi]
    · simp [show i < (32 - n) % 32 by omega]
  · rw [show (i + n) % 32 = i - (32 - n) by omega, BitVec.getLsbD_of_ge x (n + i) (by omega),
      Nat.mod_eq_of_lt (by omega : 32 - n < 32)]
    simp [hi, h1]

theorem ROR32_xor (x y : U32) (n : Nat) (h : n < 32) : ROR32 (x ^^^ y) n = ROR32 x n ^^^ ROR32 y n := by
  apply BitVec.eq_of_getLsbD_eq; intro i hi
  simp only [BitVec.getLsbD_xor, getLsbD_ROR32 _ _ _ h hi]

theorem ROR32_and (x y : U32) (n : Nat) (h : n < 32) : ROR32 (x &&& y) n = ROR32 x n &&& ROR32 y n := by
  apply BitVec.eq_of_getLsbD_eq; intro i hi
  simp only [BitVec.getLsbD_and, getLsbD_ROR32 _ _ _ h hi]

theorem ROR32_not (x : U32) (n : Nat) (h : n < 32) : ROR32 (~~~x) n = ~~~(ROR32 x n) := by
  apply BitVec.eq_of_getLsbD_eq; intro i hi
  simp only [BitVec.getLsbD_not, getLsbD_ROR32 _ _ _ h hi, hi, decide_true, Bool.true_and,
    show (i + n) % 32 < 32 from Nat.mod_lt _ (by omega)]

theorem ROR32_zero (n : Nat) : ROR32 0 n = 0 := by
  unfold ROR32; simp

theorem ROR32_by0 (x : U32) : ROR32 x 0 = x := by
  unfold ROR32; simp

theorem ROR32_comm (x : U32) (a b : Nat) (ha : a < 32) (hb : b < 32) :
    ROR32 (ROR32 x a) b = ROR32 (ROR32 x b) a := by
  apply BitVec.eq_of_getLsbD_eq; intro i hi
  rw [getLsbD_ROR32 _ _ _ hb hi, getLsbD_ROR32 _ _ _ ha (Nat.mod_lt _ (by omega)),
    getLsbD_ROR32 _ _ _ ha hi, getLsbD_ROR32 _ _ _ hb (Nat.mod_lt _ (by omega))]
  congr 1; omega

theorem ROR32_27_5 (x : U32) : ROR32 (ROR32 x 27) 5 = x := by
  apply BitVec.eq_of_getLsbD_eq; intro i hi
  rw [getLsbD_ROR32 _ _ _ (by omega) hi, getLsbD_ROR32 _ _ _ (by omega) (Nat.mod_lt _ (by omega))]
  congr 1; omega

theorem rot0 : ROT 0 = 0 := by decide
theorem rot1 : ROT 1 = 5 := by decide
theorem rotm1 : ROT (0 - 1) = 27 := by decide
theorem rot1' : ROT (1 - 0) = 5 := by decide

/-! ### Values of shared words -/

/-- The value of half `i` of a word with `ns` shares. -/
def V (ns : Nat) (w : word_t) (i : Nat) : U32 :=
  if ns = 1 then w.get 0 i else w.get 0 i ^^^ ROR32 (w.get 1 i) 5

theorem get_set_same (w : word_t) (d i : Nat) (v : U32) : (w.set d i v).get d i = v := by
  unfold word_t.get word_t.set share_t.get share_t.set
  by_cases hd : d = 0 <;> by_cases hi : i = 0 <;> simp [hd, hi]

theorem get_set_share (w : word_t) {d d' : Nat} (hd : (d = 0) ≠ (d' = 0)) (i j : Nat) (v : U32) :
    (w.set d i v).get d' j = w.get d' j := by
  unfold word_t.get word_t.set
  by_cases h : d = 0 <;> by_cases h' : d' = 0 <;> simp_all

theorem get_set_half (w : word_t) (d d' : Nat) {i j : Nat} (hi : (i = 0) ≠ (j = 0)) (v : U32) :
    (w.set d i v).get d' j = w.get d' j := by
  unfold word_t.get word_t.set share_t.get share_t.set
  by_cases h : d = 0 <;> by_cases h' : d' = 0 <;> by_cases h1 : i = 0 <;> by_cases h2 : j = 0 <;> simp_all

@[simp] theorem get01 (w : word_t) (i j : Nat) (v : U32) : (w.set 0 i v).get 1 j = w.get 1 j :=
  get_set_share w (by simp) i j v
@[simp] theorem get10 (w : word_t) (i j : Nat) (v : U32) : (w.set 1 i v).get 0 j = w.get 0 j :=
  get_set_share w (by simp) i j v
@[simp] theorem getss (w : word_t) (d i : Nat) (v : U32) : (w.set d i v).get d i = v := get_set_same w d i v

theorem mask_identity (c0 rc1 a0 ra1 b0 rb1 : U32) :
    (a0 &&& rb1 ^^^ (a0 &&& ~~~b0 ^^^ c0)) ^^^ (ra1 &&& rb1 ^^^ (ra1 &&& ~~~b0 ^^^ rc1)) =
      c0 ^^^ rc1 ^^^ ((a0 ^^^ ra1) &&& ~~~(b0 ^^^ rb1)) := by
  apply BitVec.eq_of_getLsbD_eq; intro i hi
  simp only [BitVec.getLsbD_xor, BitVec.getLsbD_and, BitVec.getLsbD_not, hi, decide_true, Bool.true_and]
  generalize c0.getLsbD i = a, rc1.getLsbD i = b, a0.getLsbD i = c, ra1.getLsbD i = d, b0.getLsbD i = e,
    rb1.getLsbD i = f
  revert a b c d e f; decide

/-- The masked Toffoli gate. -/
theorem V_MXORBIC {ns : Nat} (hns : ns = 1 ∨ ns = 2) (i : Nat) (c a b : word_t) :
    V ns (MXORBIC c a b i ns) i = V ns c i ^^^ (V ns a i &&& ~~~(V ns b i)) := by
  rcases hns with rfl | rfl
  · simp only [V, if_true, MXORBIC, EOR_BIC_ROR, rot0, ROR32_by0, getss, if_neg (show ¬ (1 = 2) by decide)]
    rw [BitVec.xor_comm]
  · simp only [V, if_neg (show ¬ (2 = 1) by decide), if_true, MXORBIC, EOR_BIC_ROR, EOR_AND_ROR, rot0, rotm1, rot1',
      ROR32_by0, getss, get01, get10]
    rw [ROR32_xor _ _ _ (by omega), ROR32_xor _ _ _ (by omega), ROR32_and _ _ _ (by omega),
      ROR32_and _ _ _ (by omega), ROR32_not _ _ (by omega), ROR32_27_5, mask_identity]

theorem V_MXORBIC_other (ns : Nat) {i j : Nat} (hij : (i = 0) ≠ (j = 0)) (c a b : word_t) :
    V ns (MXORBIC c a b i ns) j = V ns c j := by
  unfold V MXORBIC
  by_cases h1 : ns = 1
  · subst h1; simp only [if_true, if_neg (show ¬ (1 = 2) by decide), get_set_half _ _ _ hij]
  · by_cases h2 : ns = 2
    · subst h2; simp only [if_neg (show ¬ (2 = 1) by decide), if_true, get_set_half _ _ _ hij]
    · simp only [if_neg h1, if_neg h2]

/-- One half of the six words: values. -/
structure Half where
  x0 : U32
  x1 : U32
  x2 : U32
  x3 : U32
  x4 : U32
  x5 : U32

/-- The values of the halves `i`. -/
def VH (ns : Nat) (s : MState) (i : Nat) : Half :=
  ⟨V ns s.x0 i, V ns s.x1 i, V ns s.x2 i, V ns s.x3 i, V ns s.x4 i, V ns s.x5 i⟩

theorem V_set0_xor (ns : Nat) (w : word_t) (i : Nat) (v : U32) :
    V ns (w.set 0 i (w.get 0 i ^^^ v)) i = V ns w i ^^^ v := by
  unfold V
  split
  · rw [getss]
  · rw [getss, get01]; simp only [BitVec.xor_assoc]; rw [BitVec.xor_comm v]

theorem V_set_half (ns : Nat) (w : word_t) (d : Nat) {i j : Nat} (hij : (i = 0) ≠ (j = 0)) (v : U32) :
    V ns (w.set d i v) j = V ns w j := by
  unfold V; simp only [get_set_half _ _ _ hij]

theorem V_not (ns : Nat) (w : word_t) (i : Nat) :
    V ns (w.set 0 i (~~~(w.get 0 i))) i = ~~~(V ns w i) := by
  unfold V
  split
  · rw [getss]
  · rw [getss, get01, ← BitVec.not_xor_left]

/-- Affine layer 1 on values. -/
def aff1 (h : Half) : Half := { h with x2 := h.x2 ^^^ h.x1, x0 := h.x0 ^^^ h.x4, x4 := h.x4 ^^^ h.x3 }

theorem xor4 (a b c d : U32) : a ^^^ b ^^^ (c ^^^ d) = a ^^^ c ^^^ (b ^^^ d) := by
  simp only [BitVec.xor_assoc]; rw [← BitVec.xor_assoc b, BitVec.xor_comm b c, BitVec.xor_assoc]

theorem VH_aff1 {ns : Nat} (hns : ns = 1 ∨ ns = 2) (s : MState) (i : Nat) :
    VH ns (let s := if ns ≥ 1 then AFFINE1 s i 0 else s; if ns ≥ 2 then AFFINE1 s i 1 else s) i =
      aff1 (VH ns s i) := by
  rcases hns with rfl | rfl
  · simp only [VH, V, AFFINE1, aff1, ge_iff_le, Nat.le_refl, if_true, if_neg (show ¬ 2 ≤ 1 by decide), getss]
  · simp only [VH, V, AFFINE1, aff1, ge_iff_le, Nat.le_refl, if_true, if_neg (show ¬ 2 = 1 by decide), getss,
      show 1 ≤ 2 by decide, get01, get10]
    simp only [ROR32_xor _ _ 5 (by omega)]
    congr 1 <;> exact xor4 _ _ _ _

theorem VH_AFFINE1_other (ns : Nat) (s : MState) {i j : Nat} (hij : (i = 0) ≠ (j = 0)) (d : Nat) :
    VH ns (AFFINE1 s i d) j = VH ns s j := by
  simp only [VH, AFFINE1, V_set_half _ _ _ hij]

/-- Affine layer 2 with the complement of `x2` on values. -/
def aff2 (h : Half) : Half :=
  let x2 := h.x2 ^^^ h.x5
  { h with x2 := ~~~x2, x1 := h.x1 ^^^ h.x0, x0 := h.x0 ^^^ h.x4, x3 := h.x3 ^^^ x2 }

theorem VH_aff2 {ns : Nat} (hns : ns = 1 ∨ ns = 2) (s : MState) (i : Nat) :
    VH ns (let s := if ns ≥ 1 then AFFINE2 s i 0 else s
           let s := { s with x2 := s.x2.set 0 i (~~~(s.x2.get 0 i)) }
           if ns ≥ 2 then AFFINE2 s i 1 else s) i = aff2 (VH ns s i) := by
  rcases hns with rfl | rfl
  · simp only [VH, V, AFFINE2, aff2, ge_iff_le, Nat.le_refl, if_true, if_neg (show ¬ 2 ≤ 1 by decide), getss]
  · simp only [VH, V, AFFINE2, aff2, ge_iff_le, Nat.le_refl, if_true, if_neg (show ¬ 2 = 1 by decide), getss,
      show 1 ≤ 2 by decide, get01, get10]
    simp only [ROR32_xor _ _ 5 (by omega)]
    congr 1
    · exact xor4 _ _ _ _
    · exact xor4 _ _ _ _
    · rw [← BitVec.not_xor_left, xor4]
    · rw [xor4, xor4 (s.x2.get 0 i)]

theorem VH_AFFINE2_other (ns : Nat) (s : MState) {i j : Nat} (hij : (i = 0) ≠ (j = 0)) (d : Nat) :
    VH ns (AFFINE2 s i d) j = VH ns s j := by
  simp only [VH, AFFINE2, V_set_half _ _ _ hij]

/-- The S-box layer on values. -/
def sboxH (h : Half) : Half :=
  let h := aff1 h
  let h := { h with x5 := h.x5 ^^^ (h.x4 &&& ~~~h.x3) }
  let h := { h with x4 := h.x4 ^^^ (h.x1 &&& ~~~h.x0) }
  let h := { h with x1 := h.x1 ^^^ (h.x3 &&& ~~~h.x2) }
  let h := { h with x3 := h.x3 ^^^ (h.x0 &&& ~~~h.x4) }
  let h := { h with x0 := h.x0 ^^^ (h.x2 &&& ~~~h.x1) }
  aff2 h

theorem VH_SBOX {ns : Nat} (hns : ns = 1 ∨ ns = 2) (s : MState) (i : Nat) :
    VH ns (SBOX s i ns) i = sboxH (VH ns s i) := by
  unfold SBOX sboxH
  rw [VH_aff2 hns]
  simp only []
  rw [← VH_aff1 hns]
  generalize (let s := if ns ≥ 1 then AFFINE1 s i 0 else s; if ns ≥ 2 then AFFINE1 s i 1 else s) = t
  simp only [VH, V_MXORBIC hns]

theorem VH_SBOX_other (ns : Nat) (s : MState) {i j : Nat} (hij : (i = 0) ≠ (j = 0)) :
    VH ns (SBOX s i ns) j = VH ns s j := by
  have e1 : ∀ t : MState, VH ns (if ns ≥ 2 then AFFINE2 t i 1 else t) j = VH ns t j := fun t => by
    split
    · exact VH_AFFINE2_other ns t hij 1
    · rfl
  have e2 : ∀ t : MState, VH ns { t with x2 := t.x2.set 0 i (~~~(t.x2.get 0 i)) } j = VH ns t j := fun t => by
    simp only [VH, V_set_half _ _ _ hij]
  have e3 : ∀ t : MState, VH ns (if ns ≥ 1 then AFFINE2 t i 0 else t) j = VH ns t j := fun t => by
    split
    · exact VH_AFFINE2_other ns t hij 0
    · rfl
  have e4 : ∀ t : MState, VH ns (if ns ≥ 2 then AFFINE1 t i 1 else t) j = VH ns t j := fun t => by
    split
    · exact VH_AFFINE1_other ns t hij 1
    · rfl
  have e5 : ∀ t : MState, VH ns (if ns ≥ 1 then AFFINE1 t i 0 else t) j = VH ns t j := fun t => by
    split
    · exact VH_AFFINE1_other ns t hij 0
    · rfl
  unfold SBOX
  rw [e1, e2, e3]
  rw [← e5 s, ← e4 (if ns ≥ 1 then AFFINE1 s i 0 else s)]
  generalize (if ns ≥ 2 then AFFINE1 (if ns ≥ 1 then AFFINE1 s i 0 else s) i 1 else if ns ≥ 1 then AFFINE1 s i 0 else s) = t
  simp only [VH, V_MXORBIC_other ns hij]

/-! ### The linear layer -/

/-- The value of a word. -/
def SV (ns : Nat) (w : word_t) : share_t := ⟨V ns w 0, V ns w 1⟩

theorem sget_xor (a0 a1 b0 b1 : U32) (j : Nat) :
    (share_t.mk (a0 ^^^ b0) (a1 ^^^ b1)).get j = (share_t.mk a0 a1).get j ^^^ (share_t.mk b0 b1).get j := by
  unfold share_t.get; split <;> rfl

theorem sget_ror (a0 a1 : U32) (r j : Nat) :
    (share_t.mk (ROR32 a0 r) (ROR32 a1 r)).get j = ROR32 ((share_t.mk a0 a1).get j) r := by
  unfold share_t.get; split <;> rfl

theorem linWord_xor (a b : share_t) (p a0 a1 q b0 b1 : Nat) (h : a0 < 32 ∧ a1 < 32 ∧ b0 < 32 ∧ b1 < 32) :
    linWord ⟨a.w0 ^^^ b.w0, a.w1 ^^^ b.w1⟩ p a0 a1 q b0 b1 =
      ⟨(linWord a p a0 a1 q b0 b1).w0 ^^^ (linWord b p a0 a1 q b0 b1).w0,
       (linWord a p a0 a1 q b0 b1).w1 ^^^ (linWord b p a0 a1 q b0 b1).w1⟩ := by
  obtain ⟨h0, h1, h2, h3⟩ := h
  simp only [linWord]
  simp only [sget_xor a.w0 a.w1 b.w0 b.w1, ROR32_xor _ _ _ h0, ROR32_xor _ _ _ h1]
  rw [xor4 a.w0, xor4 a.w1]
  simp only [sget_xor, ROR32_xor _ _ _ h2, ROR32_xor _ _ _ h3]
  rw [xor4 a.w0, xor4 a.w1]

theorem linWord_ror (b : share_t) (r p a0 a1 q b0 b1 : Nat) (h : a0 < 32 ∧ a1 < 32 ∧ b0 < 32 ∧ b1 < 32)
    (hr : r < 32) :
    linWord ⟨ROR32 b.w0 r, ROR32 b.w1 r⟩ p a0 a1 q b0 b1 =
      ⟨ROR32 (linWord b p a0 a1 q b0 b1).w0 r, ROR32 (linWord b p a0 a1 q b0 b1).w1 r⟩ := by
  obtain ⟨h0, h1, h2, h3⟩ := h
  simp only [linWord]
  simp only [sget_ror b.w0 b.w1, ROR32_comm _ r _ hr h0, ROR32_comm _ r _ hr h1, ← ROR32_xor _ _ _ hr]
  simp only [sget_ror, ROR32_comm _ r _ hr h2, ROR32_comm _ r _ hr h3, ← ROR32_xor _ _ _ hr]

theorem SV_lin {ns : Nat} (hns : ns = 1 ∨ ns = 2) (w : word_t) (p a0 a1 q b0 b1 : Nat)
    (h : a0 < 32 ∧ a1 < 32 ∧ b0 < 32 ∧ b1 < 32) :
    SV ns ((if ns ≥ 2 then w.onShare 1 (fun w => linWord w p a0 a1 q b0 b1) else w).onShare 0
        (fun w => linWord w p a0 a1 q b0 b1)) = linWord (SV ns w) p a0 a1 q b0 b1 := by
  rcases hns with rfl | rfl
  · rfl
  · have e1 : SV 2 w = ⟨w.s0.w0 ^^^ ROR32 w.s1.w0 5, w.s0.w1 ^^^ ROR32 w.s1.w1 5⟩ := rfl
    rw [e1, linWord_xor w.s0 ⟨ROR32 w.s1.w0 5, ROR32 w.s1.w1 5⟩ _ _ _ _ _ _ h,
      linWord_ror w.s1 5 _ _ _ _ _ _ h (by omega)]
    rfl

/-! ### Packing the halves into one word -/

/-- The 64-bit word with the given even and odd halves. -/
def pk (s : share_t) : Word := s.w1.setWidth 64 <<< 32 ||| s.w0.setWidth 64

theorem getLsbD_pk (s : share_t) (i : Nat) (hi : i < 64) :
    (pk s).getLsbD i = if i < 32 then s.w0.getLsbD i else s.w1.getLsbD (i - 32) := by
  unfold pk
  simp only [BitVec.getLsbD_or, BitVec.getLsbD_shiftLeft, BitVec.getLsbD_setWidth, hi, decide_true, Bool.true_and]
  by_cases h : i < 32
  · simp [h]
  · simp only [h, decide_false, Bool.not_false, Bool.true_and, if_false]
    rw [decide_eq_true (by omega), Bool.true_and, BitVec.getLsbD_of_ge s.w0 i (by omega), Bool.or_false]

theorem pk_xor (a b : share_t) : pk ⟨a.w0 ^^^ b.w0, a.w1 ^^^ b.w1⟩ = pk a ^^^ pk b := by
  apply BitVec.eq_of_getLsbD_eq; intro i hi
  rw [BitVec.getLsbD_xor, getLsbD_pk _ _ hi, getLsbD_pk _ _ hi, getLsbD_pk _ _ hi]
  split <;> simp only [BitVec.getLsbD_xor]

theorem pk_and (a b : share_t) : pk ⟨a.w0 &&& b.w0, a.w1 &&& b.w1⟩ = pk a &&& pk b := by
  apply BitVec.eq_of_getLsbD_eq; intro i hi
  rw [BitVec.getLsbD_and, getLsbD_pk _ _ hi, getLsbD_pk _ _ hi, getLsbD_pk _ _ hi]
  split <;> simp only [BitVec.getLsbD_and]

theorem pk_not (a : share_t) : pk ⟨~~~a.w0, ~~~a.w1⟩ = ~~~(pk a) := by
  apply BitVec.eq_of_getLsbD_eq; intro i hi
  rw [BitVec.getLsbD_not, getLsbD_pk _ _ hi, getLsbD_pk _ _ hi]
  simp only [hi, decide_true, Bool.true_and]
  split
  · rename_i h; simp [h]
  · simp [show i - 32 < 32 by omega]

theorem unionW0_pk (s : share_t) : unionW0 .little (pk s) = s.w0 := by
  apply BitVec.eq_of_getLsbD_eq; intro i hi
  show (BitVec.setWidth 32 (pk s)).getLsbD i = _
  rw [BitVec.getLsbD_setWidth, getLsbD_pk _ _ (by omega)]
  simp [hi]

theorem unionW1_pk (s : share_t) : unionW1 .little (pk s) = s.w1 := by
  apply BitVec.eq_of_getLsbD_eq; intro i hi
  show (BitVec.setWidth 32 (pk s >>> 32)).getLsbD i = _
  rw [BitVec.getLsbD_setWidth, BitVec.getLsbD_ushiftRight, getLsbD_pk _ _ (by omega)]
  simp [hi]

/-- The share with the given packed value. -/
def unpk (x : Word) : share_t := ⟨x.setWidth 32, (x >>> 32).setWidth 32⟩

theorem pk_unpk (x : Word) : pk (unpk x) = x := by
  apply BitVec.eq_of_getLsbD_eq; intro i hi
  rw [getLsbD_pk _ _ hi]
  unfold unpk
  split
  · rename_i h; simp [h]
  · simp only [BitVec.getLsbD_setWidth, BitVec.getLsbD_ushiftRight]
    rw [decide_eq_true (by omega), Bool.true_and, show 32 + (i - 32) = i by omega]

theorem unpk_pk (s : share_t) : unpk (pk s) = s := by
  have h0 := unionW0_pk s
  have h1 := unionW1_pk s
  unfold unpk
  exact share_t.ext h0 h1

/-- The round on packed values: S-box layer in the order of round.h:23-43, then the linear layer. -/
def roundPk (ror : Word → Nat → Word) (s : State) (C : Word) : State :=
  let x2 := s.x2 ^^^ C
  let x2 := x2 ^^^ s.x1
  let x0 := s.x0 ^^^ s.x4
  let x4 := s.x4 ^^^ s.x3
  let x5 := x4 &&& ~~~s.x3
  let x4 := x4 ^^^ (s.x1 &&& ~~~x0)
  let x1 := s.x1 ^^^ (s.x3 &&& ~~~x2)
  let x3 := s.x3 ^^^ (x0 &&& ~~~x4)
  let x0 := x0 ^^^ (x2 &&& ~~~x1)
  let x2 := x2 ^^^ x5
  let x1 := x1 ^^^ x0
  let x0 := x0 ^^^ x4
  let x3 := x3 ^^^ x2
  let x2 := ~~~x2
  ⟨x0 ^^^ ror (x0 ^^^ ror x0 9) 19, x1 ^^^ ror (x1 ^^^ ror x1 22) 39, x2 ^^^ ror (x2 ^^^ ror x2 5) 1,
    x3 ^^^ ror (x3 ^^^ ror x3 7) 10, x4 ^^^ ror (x4 ^^^ ror x4 34) 7⟩

theorem absorb3 (x0 x1 x4 : Word) : x0 &&& ~~~(x4 ^^^ (x1 &&& ~~~x0)) = x0 &&& ~~~x4 := by
  apply BitVec.eq_of_getLsbD_eq; intro i hi
  simp only [BitVec.getLsbD_xor, BitVec.getLsbD_and, BitVec.getLsbD_not, hi, decide_true, Bool.true_and]
  cases x0.getLsbD i <;> cases x1.getLsbD i <;> cases x4.getLsbD i <;> rfl

theorem roundPk_plain (s : State) (c : Word) : roundPk BitVec.rotateRight s c = round c s := by
  unfold roundPk Spec.round
  rw [Ref.subst_eq]
  simp only [diffuse, Ref.sboxWords, addConst, absorb3, lin2]
  simp only [andn_comm]
  ext1 <;> try rfl
  exact xor_right_comm _ _ _

theorem roundPk_enc (s : State) (c : Word) :
    roundPk (bi32ROR .little) (encS (deinterleave32 .little) s) (deinterleave32 .little c) =
      encS (deinterleave32 .little) (round c s) := by
  rw [← roundPk_plain]
  have h := bi32_perm
  have hr := bi32_ror
  have r1 := fun x => hr x 1 (by decide)
  have r5 := fun x => hr x 5 (by decide)
  have r7 := fun x => hr x 7 (by decide)
  have r9 := fun x => hr x 9 (by decide)
  have r10 := fun x => hr x 10 (by decide)
  have r19 := fun x => hr x 19 (by decide)
  have r22 := fun x => hr x 22 (by decide)
  have r34 := fun x => hr x 34 (by decide)
  have r39 := fun x => hr x 39 (by decide)
  unfold roundPk encS
  simp only [← h.xor, ← h.and, ← h.not, r1, r5, r7, r9, r10, r19, r22, r34, r39]

/-- The packed value of a state. -/
def E (ns : Nat) (s : MState) : State :=
  ⟨pk (SV ns s.x0), pk (SV ns s.x1), pk (SV ns s.x2), pk (SV ns s.x3), pk (SV ns s.x4)⟩

theorem pk_lin0 (s : share_t) : pk (linWord s 1 4 5 1 9 10) =
    pk s ^^^ bi32ROR .little (pk s ^^^ bi32ROR .little (pk s) 9) 19 := by
  have e1 : bi32ROR .little (pk s) 9 = pk ⟨ROR32 s.w1 4, ROR32 s.w0 5⟩ := by
    show unionX .little (ROR32 (unionW1 .little (pk s)) 4) (ROR32 (unionW0 .little (pk s)) 5) = _
    rw [unionW0_pk, unionW1_pk]; rfl
  have e2 : ∀ t, bi32ROR .little (pk t) 19 = pk ⟨ROR32 t.w1 9, ROR32 t.w0 10⟩ := fun t => by
    show unionX .little (ROR32 (unionW1 .little (pk t)) 9) (ROR32 (unionW0 .little (pk t)) 10) = _
    rw [unionW0_pk, unionW1_pk]; rfl
  rw [e1, ← pk_xor, e2, ← pk_xor]; rfl

theorem pk_lin1 (s : share_t) : pk (linWord s 0 11 11 1 19 20) =
    pk s ^^^ bi32ROR .little (pk s ^^^ bi32ROR .little (pk s) 22) 39 := by
  have e1 : bi32ROR .little (pk s) 22 = pk ⟨ROR32 s.w0 11, ROR32 s.w1 11⟩ := by
    show unionX .little (ROR32 (unionW0 .little (pk s)) 11) (ROR32 (unionW1 .little (pk s)) 11) = _
    rw [unionW0_pk, unionW1_pk]; rfl
  have e2 : ∀ t, bi32ROR .little (pk t) 39 = pk ⟨ROR32 t.w1 19, ROR32 t.w0 20⟩ := fun t => by
    show unionX .little (ROR32 (unionW1 .little (pk t)) 19) (ROR32 (unionW0 .little (pk t)) 20) = _
    rw [unionW0_pk, unionW1_pk]; rfl
  rw [e1, ← pk_xor, e2, ← pk_xor]; rfl

theorem pk_lin2 (s : share_t) : pk (linWord s 1 2 3 1 0 1) =
    pk s ^^^ bi32ROR .little (pk s ^^^ bi32ROR .little (pk s) 5) 1 := by
  have e1 : bi32ROR .little (pk s) 5 = pk ⟨ROR32 s.w1 2, ROR32 s.w0 3⟩ := by
    show unionX .little (ROR32 (unionW1 .little (pk s)) 2) (ROR32 (unionW0 .little (pk s)) 3) = _
    rw [unionW0_pk, unionW1_pk]; rfl
  have e2 : ∀ t, bi32ROR .little (pk t) 1 = pk ⟨ROR32 t.w1 0, ROR32 t.w0 1⟩ := fun t => by
    show unionX .little (ROR32 (unionW1 .little (pk t)) 0) (ROR32 (unionW0 .little (pk t)) 1) = _
    rw [unionW0_pk, unionW1_pk]; rfl
  rw [e1, ← pk_xor, e2, ← pk_xor]; rfl

theorem pk_lin3 (s : share_t) : pk (linWord s 1 3 4 0 5 5) =
    pk s ^^^ bi32ROR .little (pk s ^^^ bi32ROR .little (pk s) 7) 10 := by
  have e1 : bi32ROR .little (pk s) 7 = pk ⟨ROR32 s.w1 3, ROR32 s.w0 4⟩ := by
    show unionX .little (ROR32 (unionW1 .little (pk s)) 3) (ROR32 (unionW0 .little (pk s)) 4) = _
    rw [unionW0_pk, unionW1_pk]; rfl
  have e2 : ∀ t, bi32ROR .little (pk t) 10 = pk ⟨ROR32 t.w0 5, ROR32 t.w1 5⟩ := fun t => by
    show unionX .little (ROR32 (unionW0 .little (pk t)) 5) (ROR32 (unionW1 .little (pk t)) 5) = _
    rw [unionW0_pk, unionW1_pk]; rfl
  rw [e1, ← pk_xor, e2, ← pk_xor]; rfl

theorem pk_lin4 (s : share_t) : pk (linWord s 0 17 17 1 3 4) =
    pk s ^^^ bi32ROR .little (pk s ^^^ bi32ROR .little (pk s) 34) 7 := by
  have e1 : bi32ROR .little (pk s) 34 = pk ⟨ROR32 s.w0 17, ROR32 s.w1 17⟩ := by
    show unionX .little (ROR32 (unionW0 .little (pk s)) 17) (ROR32 (unionW1 .little (pk s)) 17) = _
    rw [unionW0_pk, unionW1_pk]; rfl
  have e2 : ∀ t, bi32ROR .little (pk t) 7 = pk ⟨ROR32 t.w1 3, ROR32 t.w0 4⟩ := fun t => by
    show unionX .little (ROR32 (unionW1 .little (pk t)) 3) (ROR32 (unionW0 .little (pk t)) 4) = _
    rw [unionW0_pk, unionW1_pk]; rfl
  rw [e1, ← pk_xor, e2, ← pk_xor]; rfl

/-! ### The round -/

/-- `x5` is a sharing of zero. -/
def Z5 (ns : Nat) (s : MState) : Prop := V ns s.x5 0 = 0 ∧ V ns s.x5 1 = 0

theorem V_MREUSE0 {ns : Nat} (hns : ns = 1 ∨ ns = 2) (w : word_t) (i : Nat) : V ns (MREUSE w 0 ns) i = 0 := by
  rcases hns with rfl | rfl
  · by_cases hi : i = 0
    · subst hi; rfl
    · simp only [V, MREUSE, MMIX, MREMASK, word_t.get, share_t.get, hi, if_true, if_false]; rfl
  · by_cases hi : i = 0
    · subst hi
      show ((0 : Word).setWidth 32 ^^^ ROR32 (ROR32 w.s1.w0 7) (ROT 1)) ^^^ ROR32 (ROR32 w.s1.w0 7) 5 = 0
      rw [rot1]; simp
    · simp only [V, word_t.get, share_t.get, hi, if_false]
      show (((0 : Word) >>> 32).setWidth 32 ^^^ ROR32 (ROR32 w.s1.w1 7) (ROT 1)) ^^^ ROR32 (ROR32 w.s1.w1 7) 5 = 0
      rw [rot1]; simp

theorem Z5_ROUND {ns : Nat} (hns : ns = 1 ∨ ns = 2) (s : MState) (Co Ce : Byte) : Z5 ns (ROUND_ s Co Ce ns) := by
  have h : ∃ w, (ROUND_ s Co Ce ns).x5 = MREUSE w 0 ns := by
    rcases hns with rfl | rfl
    · exact ⟨_, rfl⟩
    · exact ⟨_, rfl⟩
  obtain ⟨w, h⟩ := h
  exact ⟨by rw [h, V_MREUSE0 hns], by rw [h, V_MREUSE0 hns]⟩

/-- The linear layer on values. -/
theorem E_LINEAR {ns : Nat} (hns : ns = 1 ∨ ns = 2) (s : MState) :
    E ns (let s := if ns ≥ 2 then LINEAR s 1 else s; if ns ≥ 1 then LINEAR s 0 else s) =
      let x := E ns s
      ⟨x.x0 ^^^ bi32ROR .little (x.x0 ^^^ bi32ROR .little x.x0 9) 19,
       x.x1 ^^^ bi32ROR .little (x.x1 ^^^ bi32ROR .little x.x1 22) 39,
       x.x2 ^^^ bi32ROR .little (x.x2 ^^^ bi32ROR .little x.x2 5) 1,
       x.x3 ^^^ bi32ROR .little (x.x3 ^^^ bi32ROR .little x.x3 7) 10,
       x.x4 ^^^ bi32ROR .little (x.x4 ^^^ bi32ROR .little x.x4 34) 7⟩ := by
  simp only [E]
  rw [← pk_lin0, ← pk_lin1, ← pk_lin2, ← pk_lin3, ← pk_lin4]
  rw [← SV_lin hns _ 1 4 5 1 9 10 (by omega), ← SV_lin hns _ 0 11 11 1 19 20 (by omega),
    ← SV_lin hns _ 1 2 3 1 0 1 (by omega), ← SV_lin hns _ 1 3 4 0 5 5 (by omega),
    ← SV_lin hns _ 0 17 17 1 3 4 (by omega)]
  rcases hns with rfl | rfl <;> rfl

/-- `E` in terms of the two halves. -/
theorem E_eq (ns : Nat) (s : MState) : E ns s =
    ⟨pk ⟨(VH ns s 0).x0, (VH ns s 1).x0⟩, pk ⟨(VH ns s 0).x1, (VH ns s 1).x1⟩, pk ⟨(VH ns s 0).x2, (VH ns s 1).x2⟩,
      pk ⟨(VH ns s 0).x3, (VH ns s 1).x3⟩, pk ⟨(VH ns s 0).x4, (VH ns s 1).x4⟩⟩ := rfl

theorem pk_xor' (a b c d : U32) : pk ⟨a ^^^ b, c ^^^ d⟩ = pk ⟨a, c⟩ ^^^ pk ⟨b, d⟩ := pk_xor ⟨a, c⟩ ⟨b, d⟩
theorem pk_and' (a b c d : U32) : pk ⟨a &&& b, c &&& d⟩ = pk ⟨a, c⟩ &&& pk ⟨b, d⟩ := pk_and ⟨a, c⟩ ⟨b, d⟩
theorem pk_not' (a b : U32) : pk ⟨~~~a, ~~~b⟩ = ~~~(pk ⟨a, b⟩) := pk_not ⟨a, b⟩

theorem E_ROUND {ns : Nat} (hns : ns = 1 ∨ ns = 2) (s : MState) (hz : Z5 ns s) (Co Ce : Byte) :
    E ns (ROUND_ s Co Ce ns) = roundPk (bi32ROR .little) (E ns s) (pk ⟨Ce.setWidth 32, Co.setWidth 32⟩) := by
  unfold ROUND_
  simp only []
  rw [E_LINEAR hns]
  generalize hs1 : ({ s with x2 := s.x2.set 0 0 (s.x2.get 0 0 ^^^ Ce.setWidth 32) } : MState) = s1
  generalize hs2 : SBOX s1 0 ns = s2
  generalize hs3 : ({ s2 with x2 := s2.x2.set 0 1 (s2.x2.get 0 1 ^^^ Co.setWidth 32) } : MState) = s3
  generalize hs4 : SBOX s3 1 ns = s4
  have n01 : ((0 : Nat) = 0) ≠ ((1 : Nat) = 0) := by simp
  have n10 : ((1 : Nat) = 0) ≠ ((0 : Nat) = 0) := by simp
  have h10 : VH ns s1 0 = { VH ns s 0 with x2 := V ns s.x2 0 ^^^ Ce.setWidth 32 } := by
    rw [← hs1]; simp only [VH, V_set0_xor]
  have h11 : VH ns s1 1 = VH ns s 1 := by
    rw [← hs1]; simp only [VH, V_set_half _ _ _ n01]
  have h20 : VH ns s2 0 = sboxH (VH ns s1 0) := by rw [← hs2, VH_SBOX hns]
  have h21 : VH ns s2 1 = VH ns s1 1 := by rw [← hs2, VH_SBOX_other _ _ n01]
  have h30 : VH ns s3 0 = VH ns s2 0 := by
    rw [← hs3]; simp only [VH, V_set_half _ _ _ n10]
  have h31 : VH ns s3 1 = { VH ns s2 1 with x2 := V ns s2.x2 1 ^^^ Co.setWidth 32 } := by
    rw [← hs3]; simp only [VH, V_set0_xor]
  have h40 : VH ns s4 0 = VH ns s3 0 := by rw [← hs4, VH_SBOX_other _ _ n10]
  have h41 : VH ns s4 1 = sboxH (VH ns s3 1) := by rw [← hs4, VH_SBOX hns]
  have hv2 : V ns s2.x2 1 = (VH ns s 1).x2 := by
    show (VH ns s2 1).x2 = _
    rw [h21, h11]
  have e0 : VH ns s4 0 = sboxH { VH ns s 0 with x2 := V ns s.x2 0 ^^^ Ce.setWidth 32 } := by
    rw [h40, h30, h20, h10]
  have e1 : VH ns s4 1 = sboxH { VH ns s 1 with x2 := V ns s.x2 1 ^^^ Co.setWidth 32 } := by
    rw [h41, h31, h21, h11, hv2]; rfl
  have hE : E ns { s4 with x5 := MREUSE s4.x5 0 ns } = E ns s4 := rfl
  rw [hE, E_eq ns s4, e0, e1]
  have z0 := hz.1
  have z1 := hz.2
  have zx : ∀ x : U32, (0 : U32) ^^^ x = x := fun x => BitVec.zero_xor
  simp only [sboxH, aff1, aff2, VH, z0, z1, zx, pk_xor', pk_and', pk_not', roundPk, E, SV]

/-! ### The permutation -/

/-- `s` represents the state `t` with `ns` shares. -/
def Rel (ns : Nat) (s : MState) (t : State) : Prop :=
  E ns s = encS (deinterleave32 .little) t ∧ Z5 ns s

theorem rel_ROUND {ns : Nat} (hns : ns = 1 ∨ ns = 2) {s : MState} {t : State} (h : Rel ns s t) {Co Ce : Byte}
    {c : Word} (hc : pk ⟨Ce.setWidth 32, Co.setWidth 32⟩ = deinterleave32 .little c) :
    Rel ns (ROUND_ s Co Ce ns) (round c t) := by
  refine ⟨?_, Z5_ROUND hns _ _ _⟩
  rw [E_ROUND hns s h.2, h.1, hc, roundPk_enc]

/-- The table holds the interleaved round constants. -/
theorem consts_ok : ∀ i : Fin 12,
    pk ⟨(constants.getD (2 * i.val) 0).setWidth 32, (constants.getD (2 * i.val + 1) 0).setWidth 32⟩ =
      deinterleave32 .little (roundConsts.getD (4 + i.val) 0) := by decide +kernel

theorem run_roundStep {ns : Nat} (hns : ns = 1 ∨ ns = 2) {s : MState} {t : State} (h : Rel ns s t) {i : Nat}
    (hi : i < 12) (mem : Mem) : ∃ s', Rel ns s' (round (roundConsts.getD (4 + i) 0) t) ∧
      run (roundStep ns (i, s)) mem = some ((i + 1, s'), mem) := by
  refine ⟨_, rel_ROUND hns h (consts_ok ⟨i, hi⟩), ?_⟩
  unfold roundStep
  rw [require_bind_of (decide_eq_true (show 2 * i + 1 < 24 by omega))]
  rfl

theorem run_rounds {ns : Nat} (hns : ns = 1 ∨ ns = 2) (k : Nat) (hk : k < 12) (f : Nat) (hf : k < f) {s : MState} {t : State}
    (h : Rel ns s t) (mem : Mem) : ∃ s', Rel ns s' ((roundConsts.drop (15 - k)).foldl (fun s c => round c s) t) ∧
      run (roundStep ns (11 - k, s) >>= loop f (fun q : Nat × MState => decide (q.1 ≠ 12)) (roundStep ns)) mem =
        some ((12, s'), mem) := by
  induction k generalizing f s t with
  | zero =>
    obtain ⟨f, rfl⟩ : ∃ g, f = g + 1 := ⟨f - 1, by omega⟩
    obtain ⟨s', hs', hr⟩ := run_roundStep hns h (i := 11) (by omega) mem
    refine ⟨s', hs', ?_⟩
    rw [run_bind_of hr, run_loop_done (by simp)]
  | succ k ih =>
    obtain ⟨f, rfl⟩ : ∃ g, f = g + 1 := ⟨f - 1, by omega⟩
    obtain ⟨s', hs', hr⟩ := run_roundStep hns h (i := 11 - (k + 1)) (by omega) mem
    obtain ⟨s'', hs'', hr'⟩ := ih (by omega) f (by omega) hs'
    refine ⟨s'', ?_, ?_⟩
    · have hl : 15 - (k + 1) < roundConsts.length := by
        show _ < 16; omega
      rw [List.drop_eq_getElem_cons hl, List.foldl_cons, show 15 - (k + 1) + 1 = 15 - k by omega,
        List.getElem_eq_getD (fallback := 0), show 15 - (k + 1) = 4 + (11 - (k + 1)) by omega]
      exact hs''
    · rw [run_bind_of hr]
      have hc : decide ((11 - (k + 1) + 1 : Nat) ≠ 12) = true := decide_eq_true (by omega)
      simp only [loop, ifc, hc, if_true, run]
      rw [show 11 - (k + 1) + 1 = 11 - k by omega]
      exact hr'

/-- permutations.h `P(s, nr, ns)` applies `nr` rounds of the permutation to the represented state. -/
theorem run_P {ns : Nat} (hns : ns = 1 ∨ ns = 2) {nr : Nat} (h0 : 0 < nr) (h12 : nr ≤ 12) {s : MState} {t : State}
    (h : Rel ns s t) (mem : Mem) : ∃ s', Rel ns s' (perm nr t) ∧ run (P s nr ns) mem = some (s', mem) := by
  obtain ⟨s', hs', hr⟩ := run_rounds hns (nr - 1) (by omega) 16 (by omega) h mem
  refine ⟨s', ?_, ?_⟩
  · unfold perm
    rw [show 16 - nr = 15 - (nr - 1) by omega]; exact hs'
  · unfold P
    rw [show 12 - nr = 11 - (nr - 1) by omega, ← bind_assoc', run_bind_of hr]; rfl

end Ascon.Masked
