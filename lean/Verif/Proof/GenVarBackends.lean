import Verif.Proof.GenVar
import Verif.Proof.Registry
import Verif.Props.Perm
/-!
# The headers of all directories provide what the rate-8 configurations need
-/

namespace Ascon.Gen

open Ascon.C Ascon.Spec

attribute [local irreducible] perm

theorem getLsbD_value64_little (bs : List Byte) (i : Nat) (hi : i < 64) :
    (value64 .little bs).getLsbD i = (bs.getD (i / 8) 0).getLsbD (i % 8) := by
  show (le64 bs).getLsbD i = _
  rw [getLsbD_le64]
  simp [hi]

theorem getLsbD_keyrot8 (a b : Byte) (j : Nat) (hj : j < 8) :
    (keyrot8 a b).getLsbD j = if j < 4 then b.getLsbD (j + 4) else a.getLsbD (j - 4) := by
  unfold keyrot8
  simp only [BitVec.getLsbD_setWidth, BitVec.getLsbD_or, BitVec.getLsbD_shiftLeft, BitVec.getLsbD_ushiftRight, hj, decide_true,
    Bool.true_and]
  by_cases h : j < 4
  · have h1 : j < 32 := by omega
    have h2 : j + 4 < 32 := by omega
    simp [h, h1, h2, Nat.add_comm 4 j]
  · have h1 : j < 32 := by omega
    have h2 : j - 4 < 32 := by omega
    have h3 : b.getLsbD (4 + j) = false := BitVec.getLsbD_of_ge _ _ (by omega)
    simp [h, h1, h2, h3]

theorem getLsbD_repr_byte (x : Word) (k j : Nat) (hk : k < 8) (hj : j < 8) :
    ((repr64 .little x).getD k 0).getLsbD j = x.getLsbD (8 * k + j) := by
  show ((bytes64 x).getD k 0).getLsbD j = _
  rw [List.getD_eq_getElem?_getD, List.getElem?_eq_getElem (by rw [length_bytes64]; exact hk)]
  simp only [Option.getD_some, getLsbD_bytes64, hj, decide_true, Bool.true_and]

theorem bi8_rot (a b : Word) : bi8KEYROT .little (interleave8 a) (interleave8 b) = interleave8 (b <<< 32 ||| a >>> 32) := by
  apply BitVec.eq_of_getLsbD_eq
  intro i hi
  have hq : i / 8 < 8 := by omega
  have hm : i % 8 < 8 := by omega
  unfold bi8KEYROT
  rw [getLsbD_value64_little _ _ hi, List.getD_eq_getElem?_getD, List.getElem?_map, List.getElem?_range hq]
  simp only [Option.map_some, Option.getD_some]
  rw [getLsbD_keyrot8 _ _ _ hm, bi8_perm.bit _ _ hi]
  simp only [BitVec.getLsbD_or, BitVec.getLsbD_shiftLeft, BitVec.getLsbD_ushiftRight]
  have hpi : bi8Pos i < 64 := bi8_perm.lt _ hi
  by_cases h : i % 8 < 4
  · rw [if_pos h, getLsbD_repr_byte _ _ _ hq (by omega), bi8_perm.bit _ _ (by omega)]
    have e1 : bi8Pos (8 * (i / 8) + (i % 8 + 4)) = 32 + bi8Pos i := by unfold bi8Pos; omega
    have e2 : bi8Pos i < 32 := by unfold bi8Pos; omega
    rw [e1]
    simp [e2]
  · rw [if_neg h, getLsbD_repr_byte _ _ _ hq (by omega), bi8_perm.bit _ _ (by omega)]
    have e1 : bi8Pos (8 * (i / 8) + (i % 8 - 4)) = bi8Pos i - 32 := by unfold bi8Pos; omega
    have e2 : ¬ bi8Pos i < 32 := by unfold bi8Pos; omega
    have e3 : a.getLsbD (32 + bi8Pos i) = false := BitVec.getLsbD_of_ge _ _ (by omega)
    rw [e1, e3]
    simp [e2, hpi]

theorem bi32_rot (a b : Word) :
    bi32KEYROT .little (deinterleave32 .little a) (deinterleave32 .little b) =
      deinterleave32 .little (b <<< 32 ||| a >>> 32) := by
  apply BitVec.eq_of_getLsbD_eq
  intro i hi
  have hpi : bi32Pos i < 64 := bi32_perm.lt _ hi
  rw [bi32_perm.bit _ _ hi]
  unfold bi32KEYROT
  generalize hx : deinterleave32 .little a = x
  generalize hy : deinterleave32 .little b = y
  have ex : ∀ j, j < 64 → x.getLsbD j = a.getLsbD (bi32Pos j) := fun j hj => by rw [← hx, bi32_perm.bit _ _ hj]
  have ey : ∀ j, j < 64 → y.getLsbD j = b.getLsbD (bi32Pos j) := fun j hj => by rw [← hy, bi32_perm.bit _ _ hj]
  have key : (unionX .little (unionW0 .little y <<< 16 ||| unionW0 .little x >>> 16)
      (unionW1 .little y <<< 16 ||| unionW1 .little x >>> 16)).getLsbD i =
      if i % 32 < 16 then x.getLsbD (i + 16) else y.getLsbD (i - 16) := by
    unfold unionX unionW0 unionW1
    simp only [BitVec.getLsbD_or, BitVec.getLsbD_shiftLeft, BitVec.getLsbD_setWidth, BitVec.getLsbD_ushiftRight, hi,
      decide_true, Bool.true_and]
    by_cases h32 : i < 32
    · have hm : i % 32 = i := Nat.mod_eq_of_lt h32
      rw [hm]
      by_cases h : i < 16
      · have h1 : 16 + i < 32 := by omega
        have h1' : i + 16 < 32 := by omega
        simp [h32, h, h1', Nat.add_comm 16 i]
      · have h1 : ¬ 16 + i < 32 := by omega
        have h2 : i - 16 < 32 := by omega
        simp [h32, h, h1, h2]
    · have hm : i % 32 = i - 32 := by omega
      have h0 : i - 32 < 32 := by omega
      have h0' : i - 32 < 64 := by omega
      rw [hm]
      by_cases h : i - 32 < 16
      · have h1 : 16 + (i - 32) < 32 := by omega
        have e1 : 32 + (16 + (i - 32)) = i + 16 := by omega
        have h3 : ¬ 16 + i < 32 := by omega
        simp [h32, h, h1, h0, h0', e1, h3]
      · have h1 : ¬ 16 + (i - 32) < 32 := by omega
        have h2 : i - 32 - 16 < 32 := by omega
        have e1 : 32 + (i - 32 - 16) = i - 16 := by omega
        have h3 : ¬ 16 + i < 32 := by omega
        simp [h32, h, h1, h2, h0, h0', e1, h3]
  simp only
  rw [key]
  simp only [BitVec.getLsbD_or, BitVec.getLsbD_shiftLeft, BitVec.getLsbD_ushiftRight]
  by_cases h : i % 32 < 16
  · rw [if_pos h, ex _ (by omega)]
    have e1 : bi32Pos (i + 16) = 32 + bi32Pos i := by unfold bi32Pos; split <;> split <;> omega
    have e2 : bi32Pos i < 32 := by unfold bi32Pos; split <;> omega
    rw [e1]
    simp [e2]
  · rw [if_neg h, ey _ (by omega)]
    have e1 : bi32Pos (i - 16) = bi32Pos i - 32 := by unfold bi32Pos; split <;> split <;> omega
    have e2 : ¬ bi32Pos i < 32 := by unfold bi32Pos; split <;> omega
    have e3 : a.getLsbD (32 + bi32Pos i) = false := BitVec.getLsbD_of_ge _ _ (by omega)
    rw [e1, e3]
    simp [e2, hpi]

/-- A bit permutation respects `|`. -/
theorem BitPerm_or {enc : Word → Word} {π : Nat → Nat} (h : BitPerm enc π) (a b : Word) :
    enc (a ||| b) = enc a ||| enc b := by
  apply BitVec.eq_of_getLsbD_eq
  intro i hi
  rw [BitVec.getLsbD_or, h.bit _ _ hi, h.bit _ _ hi, h.bit _ _ hi, BitVec.getLsbD_or]

end Ascon.Gen

namespace Ascon.Impl

open Ascon.C Ascon.Spec Ascon.Gen

attribute [local irreducible] perm

theorem Core.p6_ok (c : Core) (e : Endian) (h : c.runsOn e) (s : State) (mem : Mem) :
    run ((Perm.core c).P6 e (encS c.enc s)) mem = some (encS c.enc (perm 6 s), mem) :=
  (Props.C13_all_permutations_agree (.core c) e h s mem).2.2

theorem Core.vok (c : Core) (e : Endian) (h : c.runsOn e) : c.vbackend.Ok e c.enc := by
  have hb := c.ok e h
  have h6 := c.p6_ok e h
  have opt : c.family = .opt → c.enc = (fun w => w) → c.vbackend.Ok e c.enc := by
    intro hf he
    unfold Core.vbackend
    rw [hf]
    exact ⟨hb, h6, fun a b => by rw [he]; rfl, by rw [he], fun w => by rw [he]⟩
  have bi32 : c.family = .bi32 → c.enc = deinterleave32 .little → e = .little → c.vbackend.Ok e c.enc := by
    intro hf he hl
    subst hl
    unfold Core.vbackend
    rw [hf]
    refine ⟨hb, h6, fun a b => by rw [he]; exact bi32_rot a b, by rw [he]; show (0x0020860000000a01 : Word) = _; decide +kernel, fun w => ?_⟩
    rw [he, BitPerm_or bi32_perm]
    congr 1
  have bi8 : c.family = .bi8 → c.enc = interleave8 → e = .little → c.vbackend.Ok e c.enc := by
    intro hf he hl
    subst hl
    unfold Core.vbackend
    rw [hf]
    refine ⟨hb, h6, fun a b => by rw [he]; exact bi8_rot a b, by rw [he]; show (0x0804040024040001 : Word) = _; decide +kernel, fun w => ?_⟩
    rw [he, BitPerm_or bi8_perm]
    congr 1
  cases c
  case bi8 => exact bi8 rfl rfl h
  case bi32 => exact bi32 rfl rfl h
  case bi32_lowreg => exact bi32 rfl rfl h
  case bi32_armv6 => exact bi32 rfl rfl h
  case bi32_armv6m => exact bi32 rfl rfl h
  case bi32_armv7m => exact bi32 rfl rfl h
  case bi32_armv7m_small => exact bi32 rfl rfl h
  all_goals exact opt rfl rfl

end Ascon.Impl
