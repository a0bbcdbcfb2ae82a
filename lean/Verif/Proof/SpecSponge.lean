import Verif.Proof.Loops
/-!
# Facts about padding, absorbing and squeezing
-/

namespace Ascon.Spec

open Ascon.C (squeeze_of_le squeeze_of_ge iterPerm_succ iterPerm_zero length_squeeze)

attribute [local irreducible] perm

theorem fullBlocks_append (r : Nat) (a b : List Byte) (hr : 0 < r) (h : a.length % r = 0) :
    fullBlocks r (a ++ b) = fullBlocks r a ++ fullBlocks r b := by
  induction hn : a.length using Nat.strongRecOn generalizing a with
  | ind n ih =>
    by_cases h0 : a.length < r
    · rw [Nat.mod_eq_of_lt h0] at h
      have : a = [] := by simpa using h
      subst this
      rw [fullBlocks_of_lt r [] hr]; rfl
    · have h1 : r ≤ a.length := by omega
      rw [fullBlocks_of_ge r (a ++ b) hr (by simp; omega), fullBlocks_of_ge r a hr h1,
        List.take_append_of_le_length h1, List.drop_append_of_le_length h1,
        ih (a.drop r).length (by simp; omega) _ _ rfl, List.cons_append]
      rw [List.length_drop, ← Nat.mod_eq_sub_mod h1]; exact h

theorem lastBlock_append (r : Nat) (a b : List Byte) (hr : 0 < r) (h : a.length % r = 0) :
    lastBlock r (a ++ b) = lastBlock r b := by
  induction hn : a.length using Nat.strongRecOn generalizing a with
  | ind n ih =>
    by_cases h0 : a.length < r
    · rw [Nat.mod_eq_of_lt h0] at h
      have : a = [] := by simpa using h
      subst this; rfl
    · have h1 : r ≤ a.length := by omega
      rw [lastBlock_of_ge r (a ++ b) hr (by simp; omega), List.drop_append_of_le_length h1,
        ih (a.drop r).length (by simp; omega) _ _ rfl]
      rw [List.length_drop, ← Nat.mod_eq_sub_mod h1]; exact h

theorem pad_append (r : Nat) (a b : List Byte) (h : a.length % r = 0) : pad r (a ++ b) = a ++ pad r b := by
  unfold pad
  rw [List.append_assoc, List.length_append, Nat.add_mod, h, Nat.zero_add, Nat.mod_mod]

/-- Splitting a message at a block boundary splits the padded block sequence. -/
theorem fullBlocks_pad_append (r : Nat) (a b : List Byte) (hr : 0 < r) (h : a.length % r = 0) :
    fullBlocks r (pad r (a ++ b)) = fullBlocks r a ++ fullBlocks r (pad r b) := by
  rw [pad_append r a b h, fullBlocks_append r a _ hr h]

/-- Remove `0…0` and then `1` from the end: the inverse of padding. -/
def unpad (b : List Byte) : List Byte := ((b.reverse.dropWhile (· == 0)).drop 1).reverse

theorem unpad_pad (r : Nat) (m : List Byte) : unpad (pad r m) = m := by
  unfold unpad pad
  rw [List.reverse_append, List.reverse_cons, List.reverse_replicate]
  have : ∀ (k : Nat) (l : List Byte), List.dropWhile (· == 0) (List.replicate k (0 : Byte) ++ [1] ++ l) =
      [1] ++ l := by
    intro k l
    induction k with
    | zero => rfl
    | succ k ih =>
      rw [List.replicate_succ, List.cons_append, List.cons_append, List.dropWhile_cons_of_pos rfl]
      exact ih
  rw [this]
  simp

theorem pad_injective {r : Nat} {m m' : List Byte} (h : pad r m = pad r m') : m = m' := by
  rw [← unpad_pad r m, h, unpad_pad]

theorem flatten_fullBlocks_pad (r : Nat) (m : List Byte) (hr : 0 < r) :
    (fullBlocks r (pad r m)).flatten = pad r m := by
  have h := fullBlocks_flatten_append_lastBlock r (pad r m) hr
  have hl := length_lastBlock r (pad r m)
  rw [pad_length r m hr, Nat.mul_mod_right] at hl
  rw [List.length_eq_zero_iff.mp hl, List.append_nil] at h
  exact h

/-- The absorbed block sequence determines the message. -/
theorem paddedBlocks_injective {r : Nat} {m m' : List Byte} (hr : 0 < r)
    (h : fullBlocks r (pad r m) = fullBlocks r (pad r m')) : m = m' := by
  apply pad_injective (r := r)
  rw [← flatten_fullBlocks_pad r m hr, h, flatten_fullBlocks_pad r m' hr]

theorem length_paddedBlocks (r : Nat) (m : List Byte) (hr : 0 < r) :
    (fullBlocks r (pad r m)).length = m.length / r + 1 := by
  rw [fullBlocks_pad r m hr]; simp [fullBlocks]

/-- The CXOF block sequence determines customization string and message. -/
theorem cxofBlocks_injective {z z' m m' : List Byte} (hz : z.length < 2 ^ 61) (hz' : z'.length < 2 ^ 61)
    (h : cxofBlocks z m = cxofBlocks z' m') : z = z' ∧ m = m' := by
  unfold cxofBlocks at h
  injection h with h1 h2
  have h3 := congrArg BitVec.toNat (bytes64_inj h1)
  rw [BitVec.toNat_ofNat, BitVec.toNat_ofNat, Nat.mod_eq_of_lt (by omega), Nat.mod_eq_of_lt (by omega)] at h3
  have hl : z.length = z'.length := by omega
  have := List.append_inj h2 (by rw [length_paddedBlocks 8 z (by omega), length_paddedBlocks 8 z' (by omega), hl])
  exact ⟨paddedBlocks_injective (by omega) this.1, paddedBlocks_injective (by omega) this.2⟩

/-! ### Squeezing -/

theorem rate_take (r n : Nat) (s : State) : (rate r s).take n = rate (min n r) s := by
  unfold rate; rw [List.take_take]

/-- A shorter output is a prefix of a longer one. -/
theorem squeeze_prefix (r : Nat) (s : State) (n n' : Nat) (h0 : 0 < r) (hr : r ≤ 40) (h : n ≤ n') :
    squeeze r s n = (squeeze r s n').take n := by
  induction n using Nat.strongRecOn generalizing s n' with
  | ind n ih =>
    by_cases hn : r ≤ n
    · rw [squeeze_of_ge r s n h0 hr hn, squeeze_of_ge r s n' h0 hr (by omega), List.take_append,
        length_rate r s hr, List.take_of_length_le (by rw [length_rate r s hr]; exact hn),
        ih (n - r) (by omega) (perm 12 s) (n' - r) (by omega)]
    · rw [squeeze_of_le r s n hr (by omega)]
      by_cases hn' : r ≤ n'
      · rw [squeeze_of_ge r s n' h0 hr hn', List.take_append_of_le_length (by rw [length_rate r s hr]; omega),
          rate_take, Nat.min_eq_left (by omega)]
      · rw [squeeze_of_le r s n' hr (by omega), rate_take, Nat.min_eq_left (by omega)]

/-- Block `i` of the output is read after exactly `i` further permutations. -/
theorem squeeze_block (r : Nat) (s : State) (n i : Nat) (h0 : 0 < r) (hr : r ≤ 40) (hi : r * i ≤ n) :
    ((squeeze r s n).drop (r * i)).take r = rate (min r (n - r * i)) (iterPerm i s) := by
  induction i generalizing s n with
  | zero =>
    rw [Nat.mul_zero, List.drop_zero, iterPerm_zero, Nat.sub_zero]
    by_cases hn : n ≤ r
    · rw [squeeze_of_le r s n hr hn, rate_take]
    · rw [squeeze_of_ge r s n h0 hr (by omega), List.take_append_of_le_length (by rw [length_rate r s hr]; omega),
        rate_take, Nat.min_self, Nat.min_eq_left (by omega)]
  | succ i ih =>
    have e : r * (i + 1) = r + r * i := by rw [Nat.mul_add, Nat.mul_one, Nat.add_comm]
    rw [e] at hi ⊢
    rw [squeeze_of_ge r s n h0 hr (by omega), ← List.drop_drop, List.drop_append_of_le_length (by rw [length_rate r s hr]; omega),
      List.drop_of_length_le (l := rate r s) (by rw [length_rate r s hr]; exact Nat.le_refl _), List.nil_append,
      ih (perm 12 s) (n - r) (by omega), iterPerm_succ, Nat.sub_sub]

end Ascon.Spec
