import Verif.Proof.RvRules
import Verif.Proof.MaskedSecrecy
/-!
# Reading a block from an unaligned address by aligned loads
-/

namespace Ascon.Rv

open Ascon.C Ascon.Spec Ascon.Asm
open Ascon.Masked (U32 repr32 le32 le32_repr)
open Impl (set_ne set_eq ofNat_add)

theorem and_neg4 (x : Nat) (hx : x < 2 ^ 32) : BitVec.ofNat 32 x &&& (0xfffffffc : U32) = BitVec.ofNat 32 (x / 4 * 4) := by
  have hb : ∀ i : Fin 32, (0xfffffffc : U32).getLsbD i.val = decide (2 ≤ i.val) := by decide
  have e : BitVec.ofNat 32 x &&& (0xfffffffc : U32) = BitVec.ofNat 32 x >>> 2 <<< 2 := by
    apply BitVec.eq_of_getLsbD_eq
    intro i hi
    rw [BitVec.getLsbD_and, hb ⟨i, hi⟩, BitVec.getLsbD_shiftLeft]
    by_cases h2 : 2 ≤ i
    · rw [BitVec.getLsbD_ushiftRight, show 2 + (i - 2) = i by omega]
      simp [hi, h2]
    · simp [h2]
  rw [e]
  apply BitVec.eq_of_toNat_eq
  rw [BitVec.toNat_shiftLeft, BitVec.toNat_ushiftRight, BitVec.toNat_ofNat, BitVec.toNat_ofNat, Nat.mod_eq_of_lt hx,
    Nat.shiftRight_eq_div_pow, Nat.shiftLeft_eq]

theorem and_3 (x : Nat) : BitVec.ofNat 32 x &&& (3 : U32) = BitVec.ofNat 32 (x % 4) := by
  apply BitVec.eq_of_toNat_eq
  rw [BitVec.toNat_and, BitVec.toNat_ofNat, BitVec.toNat_ofNat, show (3 : U32).toNat = 2 ^ 2 - 1 from rfl,
    Nat.and_two_pow_sub_one_eq_mod]
  omega

/-- The word at an unaligned address from the two aligned ones around it. -/
theorem unaligned_word (u v : U32) (k : Nat) (hk : k = 1 ∨ k = 2 ∨ k = 3) :
    repr32 .little (u >>> (8 * k) ||| v <<< (32 - 8 * k)) = ((repr32 .little u ++ repr32 .little v).drop k).take 4 := by
  have key : ∀ a b : Byte, (∀ i, i < 8 → a.getLsbD i = b.getLsbD i) → a = b := fun a b h => BitVec.eq_of_getLsbD_eq (fun i hi => h i hi)
  have hz : ∀ j, 32 ≤ j → u.getLsbD j = false := fun j h => BitVec.getLsbD_of_ge u j h
  rcases hk with rfl | rfl | rfl
  all_goals
    simp only [repr32, List.range, List.range.loop, List.map_cons, List.map_nil, List.cons_append, List.nil_append, List.drop_succ_cons, List.drop_zero, List.take_succ_cons, List.take_zero,
      List.cons.injEq, and_true]
    refine ⟨?_, ?_, ?_, ?_⟩ <;> (refine key _ _ fun i hi => ?_)
    all_goals simp only [BitVec.getLsbD_setWidth, BitVec.getLsbD_ushiftRight, BitVec.getLsbD_or, BitVec.getLsbD_shiftLeft, hi, decide_true, Bool.true_and]
  all_goals (first | rw [decide_eq_true (by omega)] | skip)
  all_goals (first | rw [decide_eq_true (by omega)] | rw [decide_eq_false (by omega)] | skip)
  all_goals simp
  all_goals first
    | (congr 1; omega)
    | (rw [hz _ (by omega)]; intro h; cases h)
    | (rw [hz _ (by omega), Bool.false_or]; congr 1; omega)

/-- Four bytes of five consecutive words. -/
theorem holds_unaligned {mem : Mem} {q k : Nat} (u v : U32) (hk : k = 1 ∨ k = 2 ∨ k = 3)
    (h : mem.Holds q (repr32 .little u)) (h' : mem.Holds (q + 4) (repr32 .little v)) :
    mem.Holds (q + k) (repr32 .little (u >>> (8 * k) ||| v <<< (32 - 8 * k))) := by
  have hl : ∀ w : U32, (repr32 .little w).length = 4 := fun w => rfl
  have hj : mem.Holds q (repr32 .little u ++ repr32 .little v) := holds_append.mpr ⟨h, by rw [hl]; exact h'⟩
  rw [unaligned_word u v k hk]
  exact (hj.drop k (by rw [List.length_append, hl, hl]; omega)).take 4

/-- All bytes present means some word is present. -/
theorem holds_some {mem : Mem} {q : Nat} (h : ∀ a, q ≤ a → a < q + 4 → ∃ b, (mem a).byte = some b) :
    ∃ v : U32, mem.Holds q (repr32 .little v) := by
  obtain ⟨b0, e0⟩ := h q (by omega) (by omega)
  obtain ⟨b1, e1⟩ := h (q + 1) (by omega) (by omega)
  obtain ⟨b2, e2⟩ := h (q + 2) (by omega) (by omega)
  obtain ⟨b3, e3⟩ := h (q + 3) (by omega) (by omega)
  obtain ⟨v, hv⟩ := repr32_surj [b0, b1, b2, b3] rfl
  refine ⟨v, ?_⟩
  rw [hv]
  intro i hi
  match i, hi with
  | 0, _ => exact e0
  | 1, _ => exact e1
  | 2, _ => exact e2
  | 3, _ => exact e3

/-- The word read equals the one that is there. -/
theorem holds_inj {mem : Mem} {q : Nat} {u v : U32} (h : mem.Holds q (repr32 .little u)) (h' : mem.Holds q (repr32 .little v)) :
    u = v := Masked.repr32_inj (h.ext h' rfl)

/-- Shift amounts in the unaligned case. -/
theorem shamt (ip : Nat) (h : ip % 4 ≠ 0) :
    ((BitVec.ofNat 32 ip &&& (3 : U32)) <<< 3).toNat % 32 = 8 * (ip % 4) ∧
    ((0 : U32) - (BitVec.ofNat 32 ip &&& (3 : U32)) <<< 3).toNat % 32 = 32 - 8 * (ip % 4) := by
  rw [and_3]
  have hlt : ip % 4 < 4 := Nat.mod_lt _ (by decide)
  generalize ip % 4 = k at h hlt
  have : k = 1 ∨ k = 2 ∨ k = 3 := by omega
  rcases this with rfl | rfl | rfl <;> decide

end Ascon.Rv
