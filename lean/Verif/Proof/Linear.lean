import Verif.Proof.Words
/-!
# XOR-linear maps on bit vectors

Byte swaps, bit interleavings and rotations are XOR-linear; two such maps are equal if they agree on
the words with a single bit set, which the kernel can check.
-/

namespace Ascon

open Ascon.Spec

/-- XOR-linear map. -/
def Lin {n m : Nat} (f : BitVec n → BitVec m) : Prop := ∀ a b, f (a ^^^ b) = f a ^^^ f b

variable {n m k : Nat}

theorem Lin.zero {f : BitVec n → BitVec m} (h : Lin f) : f 0#n = 0#m := by
  have := h 0#n 0#n
  simpa using this

/-- The bits below `j` of a word, as an XOR of single bits. -/
def lowBits (x : BitVec n) : Nat → BitVec n
  | 0 => 0#n
  | j + 1 => lowBits x j ^^^ (if x.getLsbD j then BitVec.twoPow n j else 0#n)

theorem getLsbD_lowBits (x : BitVec n) (j i : Nat) (hj : j ≤ n) :
    (lowBits x j).getLsbD i = (decide (i < j) && x.getLsbD i) := by
  induction j with
  | zero => simp [lowBits]
  | succ j ih =>
    rw [lowBits, BitVec.getLsbD_xor, ih (by omega)]
    by_cases hij : i = j
    · subst hij
      by_cases hx : x.getLsbD i
      · simp [hx, show i < n by omega]
      · simp [hx]
    · by_cases hx : x.getLsbD j
      · have : ¬ j = i := fun h => hij h.symm
        simp [hx, BitVec.getLsbD_twoPow, this, Nat.lt_succ_iff_lt_or_eq, hij]
      · simp [hx, Nat.lt_succ_iff_lt_or_eq, hij]

theorem lowBits_all (x : BitVec n) : lowBits x n = x := by
  apply BitVec.eq_of_getLsbD_eq
  intro i hi
  rw [getLsbD_lowBits x n i (Nat.le_refl _)]
  simp [hi]

/-- Linear maps that agree on single bits are equal. -/
theorem Lin.ext {f g : BitVec n → BitVec m} (hf : Lin f) (hg : Lin g)
    (h : ∀ i : Fin n, f (BitVec.twoPow n i.val) = g (BitVec.twoPow n i.val)) (x : BitVec n) : f x = g x := by
  have key : ∀ j, j ≤ n → f (lowBits x j) = g (lowBits x j) := by
    intro j
    induction j with
    | zero => intro _; rw [lowBits, hf.zero, hg.zero]
    | succ j ih =>
      intro hj
      rw [lowBits, hf, hg, ih (by omega)]
      congr 1
      split
      · exact h ⟨j, by omega⟩
      · rw [hf.zero, hg.zero]
  have := key n (Nat.le_refl _)
  rwa [lowBits_all] at this

theorem Lin.id : Lin (fun x : BitVec n => x) := fun _ _ => rfl

theorem Lin.comp {f : BitVec m → BitVec k} {g : BitVec n → BitVec m} (hf : Lin f) (hg : Lin g) :
    Lin (fun x => f (g x)) := fun a b => by
  show f (g (a ^^^ b)) = _
  rw [hg, hf]

theorem xor4 (a b c d : BitVec n) : a ^^^ b ^^^ (c ^^^ d) = a ^^^ c ^^^ (b ^^^ d) := by
  rw [BitVec.xor_assoc, BitVec.xor_assoc, ← BitVec.xor_assoc b, BitVec.xor_comm b c, BitVec.xor_assoc c]

theorem Lin.xor {f g : BitVec n → BitVec m} (hf : Lin f) (hg : Lin g) : Lin (fun x => f x ^^^ g x) :=
  fun a b => by
    show f (a ^^^ b) ^^^ g (a ^^^ b) = _
    rw [hf, hg, xor4]

theorem Lin.and {f : BitVec n → BitVec m} (hf : Lin f) (c : BitVec m) : Lin (fun x => f x &&& c) :=
  fun a b => by
    show f (a ^^^ b) &&& c = _
    rw [hf]
    apply BitVec.eq_of_getLsbD_eq; intro i hi
    simp only [BitVec.getLsbD_and, BitVec.getLsbD_xor]
    generalize (f a).getLsbD i = p
    generalize (f b).getLsbD i = q
    generalize c.getLsbD i = r
    revert p q r; decide

theorem Lin.and' {f : BitVec n → BitVec m} (hf : Lin f) (c : BitVec m) : Lin (fun x => c &&& f x) :=
  fun a b => by
    show c &&& f (a ^^^ b) = (c &&& f a) ^^^ (c &&& f b)
    rw [BitVec.and_comm c, BitVec.and_comm c, BitVec.and_comm c]
    exact hf.and c a b

theorem Lin.shl {f : BitVec n → BitVec m} (hf : Lin f) (c : Nat) : Lin (fun x => f x <<< c) :=
  fun a b => by
    show f (a ^^^ b) <<< c = _
    rw [hf, BitVec.shiftLeft_xor_distrib]

theorem Lin.shr {f : BitVec n → BitVec m} (hf : Lin f) (c : Nat) : Lin (fun x => f x >>> c) :=
  fun a b => by
    show f (a ^^^ b) >>> c = _
    rw [hf, BitVec.ushiftRight_xor_distrib]

theorem Lin.setWidth {f : BitVec n → BitVec m} (hf : Lin f) (k : Nat) : Lin (fun x => (f x).setWidth k) :=
  fun a b => by
    show (f (a ^^^ b)).setWidth k = _
    rw [hf, BitVec.setWidth_xor]

/-- All bits of `a` are inside the mask `w`. -/
def Within (a w : BitVec n) : Prop := a &&& w = a

theorem Within.bit {a w : BitVec n} (h : Within a w) (i : Nat) (ha : a.getLsbD i = true) :
    w.getLsbD i = true := by
  rw [← h, BitVec.getLsbD_and] at ha
  exact (Bool.and_eq_true_iff.mp ha).2

theorem Within.of_bit {a w : BitVec n} (h : ∀ i, a.getLsbD i = true → w.getLsbD i = true) : Within a w := by
  apply BitVec.eq_of_getLsbD_eq; intro i hi
  rw [BitVec.getLsbD_and]
  cases ha : a.getLsbD i
  · rfl
  · rw [h i ha]; rfl

theorem Within.all (a : BitVec n) : Within a (BitVec.allOnes n) :=
  Within.of_bit fun i h => by
    have := BitVec.lt_of_getLsbD h
    simp [this]

theorem Within.and_left (a w : BitVec n) : Within (w &&& a) w :=
  Within.of_bit fun i h => by rw [BitVec.getLsbD_and] at h; exact (Bool.and_eq_true_iff.mp h).1

theorem Within.and_right (a w : BitVec n) : Within (a &&& w) w :=
  Within.of_bit fun i h => by rw [BitVec.getLsbD_and] at h; exact (Bool.and_eq_true_iff.mp h).2

theorem Within.shl {a w : BitVec n} (h : Within a w) (c : Nat) : Within (a <<< c) (w <<< c) := by
  unfold Within at *
  rw [← BitVec.shiftLeft_and_distrib, h]

theorem Within.shr {a w : BitVec n} (h : Within a w) (c : Nat) : Within (a >>> c) (w >>> c) := by
  unfold Within at *
  rw [← BitVec.ushiftRight_and_distrib, h]

theorem Within.or {a b w v : BitVec n} (ha : Within a w) (hb : Within b v) : Within (a ||| b) (w ||| v) :=
  Within.of_bit fun i h => by
    rw [BitVec.getLsbD_or] at h ⊢
    rcases Bool.or_eq_true_iff.mp h with h | h
    · rw [ha.bit i h]; rfl
    · rw [hb.bit i h]; simp

theorem Within.xor {a b w v : BitVec n} (ha : Within a w) (hb : Within b v) : Within (a ^^^ b) (w ||| v) :=
  Within.of_bit fun i h => by
    rw [BitVec.getLsbD_or]
    rw [BitVec.getLsbD_xor] at h
    cases h1 : a.getLsbD i
    · rw [h1] at h
      rw [hb.bit i (by simpa using h)]; simp
    · rw [ha.bit i h1]; rfl

theorem Within.setWidth {a w : BitVec n} (h : Within a w) (k : Nat) : Within (a.setWidth k) (w.setWidth k) := by
  unfold Within at *
  rw [← BitVec.setWidth_and, h]

/-- Disjoint OR is XOR. -/
theorem or_eq_xor {a b w v : BitVec n} (ha : Within a w) (hb : Within b v) (h : w &&& v = 0#n) :
    a ||| b = a ^^^ b := by
  apply BitVec.eq_of_getLsbD_eq; intro i hi
  rw [BitVec.getLsbD_or, BitVec.getLsbD_xor]
  cases h1 : a.getLsbD i
  · simp
  · cases h2 : b.getLsbD i
    · rfl
    · exfalso
      have := congrArg (fun x => x.getLsbD i) h
      simp [BitVec.getLsbD_and, ha.bit i h1, hb.bit i h2] at this

theorem Lin.bytes_rev : Lin (fun w : Word => le64 (bytes64 w).reverse) := fun a b => by
  show le64 (bytes64 (a ^^^ b)).reverse = _
  rw [bytes64_xor, xorBytes, List.reverse_zipWith (by simp [length_bytes64])]
  exact le64_xorBytes _ _ (by simp [length_bytes64])

end Ascon
