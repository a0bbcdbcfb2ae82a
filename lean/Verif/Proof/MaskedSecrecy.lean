import Verif.Proof.MaskedTop
/-!
# Any n - 1 of the n shares are uniform (shares.c)
-/

namespace Ascon.Masked

open Ascon.Spec Ascon.C Ascon.Gen

theorem ROT_lt (i : Int) : ROT i < 64 := by unfold ROT; omega

/-- Rotation to the left. -/
def ROL64 (x : Word) (n : Nat) : Word := ROR64 x ((64 - n) % 64)

theorem ROR64_ROL64 (x : Word) (n : Nat) (h : n < 64) : ROR64 (ROL64 x n) n = x := by
  apply BitVec.eq_of_getLsbD_eq; intro i hi
  unfold ROL64
  rw [getLsbD_ROR64 _ _ _ h hi, getLsbD_ROR64 _ _ _ (by omega) (by omega)]
  congr 1; omega

theorem ROR64_inj {x y : Word} {n : Nat} (h : n < 64) (he : ROR64 x n = ROR64 y n) : x = y := by
  apply BitVec.eq_of_getLsbD_eq; intro i hi
  have := congrArg (fun z => z.getLsbD ((i + (64 - n)) % 64)) he
  simp only [getLsbD_ROR64 _ _ _ h (show (i + (64 - n)) % 64 < 64 by omega)] at this
  rwa [show (((i + (64 - n)) % 64) + n) % 64 = i by omega] at this

/-- `maskX` without the share `k0`. -/
def maskEx (ρ : Nat → Word) (n j k0 : Nat) : Nat → Word
  | 0 => 0
  | k + 1 => if k = k0 then maskEx ρ n j k0 k
    else maskEx ρ n j k0 k ^^^ ROR64 (ρ (j * (n - 1) + k)) (ROT (2 * ((k + 1 : Nat) : Int)))

theorem maskX_eq_maskEx (ρ : Nat → Word) (n j k0 m : Nat) (h : m ≤ k0) : maskX ρ n j m = maskEx ρ n j k0 m := by
  induction m with
  | zero => rfl
  | succ k ih =>
    unfold maskX maskEx
    rw [if_neg (by omega), ih (by omega)]

theorem maskX_split (ρ : Nat → Word) (n j k0 m : Nat) (h : k0 < m) :
    maskX ρ n j m = maskEx ρ n j k0 m ^^^ ROR64 (ρ (j * (n - 1) + k0)) (ROT (2 * ((k0 + 1 : Nat) : Int))) := by
  induction m with
  | zero => omega
  | succ k ih =>
    unfold maskX maskEx
    by_cases hk : k = k0
    · subst hk
      rw [if_pos rfl, maskX_eq_maskEx ρ n j k k (Nat.le_refl k)]
    · rw [if_neg hk, ih (by omega), BitVec.xor_assoc, BitVec.xor_assoc]
      congr 1
      exact BitVec.xor_comm _ _

theorem maskEx_congr {ρ ρ' : Nat → Word} {n j k0 : Nat} (m : Nat)
    (h : ∀ k, k < m → k ≠ k0 → ρ (j * (n - 1) + k) = ρ' (j * (n - 1) + k)) :
    maskEx ρ n j k0 m = maskEx ρ' n j k0 m := by
  induction m with
  | zero => rfl
  | succ k ih =>
    have hi := ih (fun i hi hne => h i (by omega) hne)
    unfold maskEx
    by_cases hk : k = k0
    · rw [if_pos hk, if_pos hk]; exact hi
    · rw [if_neg hk, if_neg hk, hi, h k (by omega) hk]

theorem repr32_inj {v w : U32} (h : repr32 .little v = repr32 .little w) : v = w := by
  rw [← le32_repr v, ← le32_repr w, h]

theorem word_ext {x y : Word} (hl : lo x = lo y) (hh : hi x = hi y) : x = y := by
  rw [← hilo x, ← hilo y, hl, hh]

theorem holds_unique {mem : Mem} {p : Nat} {as bs : List Byte} (ha : mem.Holds p as) (hb : mem.Holds p bs)
    (h : as.length = bs.length) : as = bs := by
  apply List.ext_getElem h
  intro i h1 h2
  have e1 := ha i h1
  have e2 := hb i h2
  rw [e1] at e2
  simpa using e2

/-- The random words that make all columns except `c0 j` of the word `j` equal to `S j`. -/
def solveρ (n : Nat) (c0 : Nat → Nat) (W : Nat → Word) (S : Nat → Nat → Word) (i : Nat) : Word :=
  let j := i / (n - 1)
  let k := i % (n - 1)
  if k + 1 = c0 j then
    ROL64 (maskEx (fun i' => S j (i' % (n - 1) + 1)) n j (c0 j - 1) (n - 1) ^^^ (S j 0 ^^^ W j)) (ROT (2 * ((k + 1 : Nat) : Int)))
  else S j (k + 1)

theorem solve_at {n j k : Nat} (hk : k < n - 1) : (j * (n - 1) + k) / (n - 1) = j ∧ (j * (n - 1) + k) % (n - 1) = k := by
  constructor
  · rw [Nat.mul_comm, Nat.mul_add_div (by omega), Nat.div_eq_of_lt hk, Nat.add_zero]
  · rw [Nat.mul_comm, Nat.mul_add_mod, Nat.mod_eq_of_lt hk]

theorem solve_ok {n : Nat} (hn : 2 ≤ n) (c0 : Nat → Nat) (W : Nat → Word) (S : Nat → Nat → Word) (j c : Nat)
    (hc : c < n) (h0 : c0 j < n) (hne : c ≠ c0 j) : shareWord (solveρ n c0 W S) n W j c = S j c := by
  unfold shareWord
  by_cases hz : c = 0
  · subst hz
    rw [if_pos rfl, maskX_split _ n j (c0 j - 1) (n - 1) (by omega)]
    obtain ⟨h1, h2⟩ := solve_at (n := n) (j := j) (k := c0 j - 1) (by omega)
    have hs : solveρ n c0 W S (j * (n - 1) + (c0 j - 1)) =
        ROL64 (maskEx (fun i' => S j (i' % (n - 1) + 1)) n j (c0 j - 1) (n - 1) ^^^ (S j 0 ^^^ W j))
          (ROT (2 * ((c0 j - 1 + 1 : Nat) : Int))) := by
      unfold solveρ
      simp only [h1, h2]
      rw [if_pos (by omega)]
    rw [hs, ROR64_ROL64 _ _ (ROT_lt _)]
    have hm : maskEx (solveρ n c0 W S) n j (c0 j - 1) (n - 1) =
        maskEx (fun i' => S j (i' % (n - 1) + 1)) n j (c0 j - 1) (n - 1) := by
      apply maskEx_congr
      intro k hk hkne
      obtain ⟨h1, h2⟩ := solve_at (n := n) (j := j) (k := k) hk
      unfold solveρ
      simp only [h1, h2]
      rw [if_neg (by omega)]
    rw [hm, ← BitVec.xor_assoc, ← BitVec.xor_assoc, BitVec.xor_self, BitVec.zero_xor, BitVec.xor_assoc, BitVec.xor_self,
      BitVec.xor_zero]
  · rw [if_neg hz]
    obtain ⟨h1, h2⟩ := solve_at (n := n) (j := j) (k := c - 1) (by omega)
    unfold solveρ
    simp only [h1, h2]
    rw [if_neg (by omega), show c - 1 + 1 = c by omega]

theorem solve_unique {n : Nat} (hn : 2 ≤ n) (c0 : Nat → Nat) (W : Nat → Word) {ρ ρ' : Nat → Word} (j : Nat)
    (h0 : c0 j < n) (h : ∀ c, c < n → c ≠ c0 j → shareWord ρ n W j c = shareWord ρ' n W j c) (k : Nat) (hk : k < n - 1) :
    ρ (j * (n - 1) + k) = ρ' (j * (n - 1) + k) := by
  have hcol : ∀ k, k < n - 1 → k + 1 ≠ c0 j → ρ (j * (n - 1) + k) = ρ' (j * (n - 1) + k) := by
    intro k hk hne
    have := h (k + 1) (by omega) hne
    unfold shareWord at this
    simpa using this
  by_cases hne : k + 1 = c0 j
  · have := h 0 (by omega) (by omega)
    unfold shareWord at this
    rw [if_pos rfl, if_pos rfl, maskX_split ρ n j k (n - 1) hk, maskX_split ρ' n j k (n - 1) hk,
      maskEx_congr (ρ := ρ) (ρ' := ρ') (n - 1) (fun k' hk' hne' => hcol k' hk' (by omega))] at this
    have h2 := BitVec.xor_right_inj _ |>.mp (BitVec.xor_left_inj _ |>.mp this)
    exact ROR64_inj (ROT_lt _) h2
  · exact hcol k hk hne

end Ascon.Masked
