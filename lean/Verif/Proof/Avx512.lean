import Verif.Model.Avx512
import Verif.Proof.GenAead
import Verif.Proof.GenHash
import Verif.Proof.Backends
/-!
# src/avx512 meets its contract, whatever the uninitialised lanes hold
-/

namespace Ascon.Avx512

open Ascon.C Ascon.Spec
open Ascon.C.Prog (require ifc loop loadB storeB loadN storeN store64)

attribute [local irreducible] perm

/-! ### The round -/

theorem tern_96 (a b c : Word) : tern a b c 0x96 = a ^^^ b ^^^ c := by
  have : ((List.range 8).filter fun n => (0x96 : BitVec 8).getLsbD n) = [1, 2, 4, 7] := by decide
  unfold tern
  rw [this]
  simp only [List.foldl_cons, List.foldl_nil, minterm, show Nat.testBit 1 2 = false by decide,
    show Nat.testBit 1 1 = false by decide, show Nat.testBit 1 0 = true by decide,
    show Nat.testBit 2 2 = false by decide, show Nat.testBit 2 1 = true by decide, show Nat.testBit 2 0 = false by decide,
    show Nat.testBit 4 2 = true by decide, show Nat.testBit 4 1 = false by decide, show Nat.testBit 4 0 = false by decide,
    show Nat.testBit 7 2 = true by decide, show Nat.testBit 7 1 = true by decide, show Nat.testBit 7 0 = true by decide,
    if_true, Bool.false_eq_true, if_false]
  apply BitVec.eq_of_getLsbD_eq
  intro i hi
  have h0 : (0 : Word).getLsbD i = false := by simp
  simp only [BitVec.getLsbD_xor, BitVec.getLsbD_and, BitVec.getLsbD_or, BitVec.getLsbD_not, hi, decide_true,
    Bool.true_and, h0]
  cases a.getLsbD i <;> cases b.getLsbD i <;> cases c.getLsbD i <;> rfl

theorem tern_d2 (a b c : Word) : tern a b c 0xd2 = a ^^^ (~~~b &&& c) := by
  have : ((List.range 8).filter fun n => (0xd2 : BitVec 8).getLsbD n) = [1, 4, 6, 7] := by decide
  unfold tern
  rw [this]
  simp only [List.foldl_cons, List.foldl_nil, minterm, show Nat.testBit 1 2 = false by decide,
    show Nat.testBit 1 1 = false by decide, show Nat.testBit 1 0 = true by decide,
    show Nat.testBit 6 2 = true by decide, show Nat.testBit 6 1 = true by decide, show Nat.testBit 6 0 = false by decide,
    show Nat.testBit 4 2 = true by decide, show Nat.testBit 4 1 = false by decide, show Nat.testBit 4 0 = false by decide,
    show Nat.testBit 7 2 = true by decide, show Nat.testBit 7 1 = true by decide, show Nat.testBit 7 0 = true by decide,
    if_true, Bool.false_eq_true, if_false]
  apply BitVec.eq_of_getLsbD_eq
  intro i hi
  have h0 : (0 : Word).getLsbD i = false := by simp
  simp only [BitVec.getLsbD_xor, BitVec.getLsbD_and, BitVec.getLsbD_or, BitVec.getLsbD_not, hi, decide_true,
    Bool.true_and, h0]
  cases a.getLsbD i <;> cases b.getLsbD i <;> cases c.getLsbD i <;> rfl

theorem andn_self (b : Word) : ~~~b &&& b = 0 := by
  apply BitVec.eq_of_getLsbD_eq
  intro i hi
  simp [hi]

/-- The state words go through an Ascon round, the three padding lanes keep their values. -/
theorem ROUND_eq (s : State) (y5 y6 y7 : Word) (C : Byte) :
    ROUND ⟨s, y5, y6, y7⟩ C = ⟨round (C.setWidth 64) s, y5, y6, y7⟩ := by
  have hz : ∀ x : Word, x.rotateRight 0 = x := fun x => by
    apply BitVec.eq_of_getLsbD_eq
    intro i hi
    simp [hi]
  have hn : ∀ x : Word, x ^^^ 18446744073709551615#64 = ~~~x := fun x => by
    rw [show 18446744073709551615#64 = BitVec.allOnes 64 by decide, BitVec.xor_allOnes]
  have hc : s.x2 ^^^ C.setWidth 64 ^^^ s.x1 = s.x2 ^^^ s.x1 ^^^ C.setWidth 64 := by
    rw [BitVec.xor_assoc, BitVec.xor_comm (C.setWidth 64), ← BitVec.xor_assoc]
  unfold round
  rw [Ref.subst_eq]
  unfold ROUND
  simp only [Z.of, ternarylogic, rorv, maskz_permutexvar, permutexvar, set_epi64, Z.z, tern_96, tern_d2,
    
    show (0x15 : BitVec 8).getLsbD 0 = true by decide, show (0x15 : BitVec 8).getLsbD 1 = false by decide,
    show (0x15 : BitVec 8).getLsbD 2 = true by decide, show (0x15 : BitVec 8).getLsbD 3 = false by decide,
    show (0x15 : BitVec 8).getLsbD 4 = true by decide, show (0x15 : BitVec 8).getLsbD 5 = false by decide,
    show (0x15 : BitVec 8).getLsbD 6 = false by decide, show (0x15 : BitVec 8).getLsbD 7 = false by decide,
    show (0x0b : BitVec 8).getLsbD 0 = true by decide, show (0x0b : BitVec 8).getLsbD 1 = true by decide,
    show (0x0b : BitVec 8).getLsbD 2 = false by decide, show (0x0b : BitVec 8).getLsbD 3 = true by decide,
    show (0x0b : BitVec 8).getLsbD 4 = false by decide, show (0x0b : BitVec 8).getLsbD 5 = false by decide,
    show (0x0b : BitVec 8).getLsbD 6 = false by decide, show (0x0b : BitVec 8).getLsbD 7 = false by decide,
    if_true, Bool.false_eq_true, if_false, andn_self, diffuse, Ref.sboxWords, addConst]
  simp [BitVec.xor_self, BitVec.xor_zero, BitVec.zero_xor, hz, Ref.sboxWords, addConst, hn, hc]

theorem foldl_ROUND (cs : List Byte) (s : State) (y5 y6 y7 : Word) :
    cs.foldl ROUND ⟨s, y5, y6, y7⟩ = ⟨(cs.map fun C => C.setWidth 64).foldl (fun s c => round c s) s, y5, y6, y7⟩ := by
  induction cs generalizing s with
  | nil => rfl
  | cons C cs ih => rw [List.foldl_cons, ROUND_eq, ih]; rfl

theorem P12_eq (s : State) (y5 y6 y7 : Word) : P12 ⟨s, y5, y6, y7⟩ = ⟨perm 12 s, y5, y6, y7⟩ := by
  unfold P12
  rw [foldl_ROUND, show RCs.map (fun C => C.setWidth 64) = roundConsts.drop (16 - 12) by decide, perm]

theorem P8_eq (s : State) (y5 y6 y7 : Word) : P8 ⟨s, y5, y6, y7⟩ = ⟨perm 8 s, y5, y6, y7⟩ := by
  unfold P8
  rw [foldl_ROUND, show (RCs.drop 4).map (fun C => C.setWidth 64) = roundConsts.drop (16 - 8) by decide, perm]

theorem P6_eq (s : State) (y5 y6 y7 : Word) : P6 ⟨s, y5, y6, y7⟩ = ⟨perm 6 s, y5, y6, y7⟩ := by
  unfold P6
  rw [foldl_ROUND, show (RCs.drop 6).map (fun C => C.setWidth 64) = roundConsts.drop (16 - 6) by decide, perm]

/-! ### Masked loads and stores -/

theorem run_maskzLoad {mem : Mem} (mask : BitVec 64) (p i n : Nat) (bs : List Byte) (h : mem.Holds (p + i) bs)
    (hk : bs.length ≤ n) (h1 : ∀ j, j < bs.length → mask.getLsbD (i + j) = true)
    (h0 : ∀ j, bs.length ≤ j → mask.getLsbD (i + j) = false) :
    run (maskzLoad mask p i n) mem = some (bs ++ List.replicate (n - bs.length) 0, mem) := by
  induction n generalizing i bs with
  | zero =>
    have : bs = [] := List.length_eq_zero_iff.mp (by omega)
    subst this; rfl
  | succ n ih =>
    unfold maskzLoad
    cases bs with
    | nil =>
      rw [if_neg (by rw [show mask.getLsbD i = false from h0 0 (by simp)]; simp)]
      have h2 : ∀ j, ([] : List Byte).length ≤ j → mask.getLsbD (i + 1 + j) = false := fun j _ => by
        rw [Nat.add_assoc, Nat.add_comm 1]; exact h0 (j + 1) (by simp)
      rw [run_bind_of (ih (i + 1) [] (fun j hj => absurd hj (by simp)) (by simp) (fun j hj => absurd hj (by simp)) h2)]
      simp [run, List.replicate_succ]
    | cons b bs =>
      have hb := h
      rw [holds_cons] at h
      have hi : mask.getLsbD i = true := h1 0 (by simp)
      simp only [List.length_cons] at hk h1 h0
      have h2 : ∀ j, j < bs.length → mask.getLsbD (i + 1 + j) = true := fun j hj => by
        rw [Nat.add_assoc, Nat.add_comm 1]; exact h1 (j + 1) (by omega)
      have h3 : ∀ j, bs.length ≤ j → mask.getLsbD (i + 1 + j) = false := fun j hj => by
        rw [Nat.add_assoc, Nat.add_comm 1]; exact h0 (j + 1) (by omega)
      rw [if_pos hi]
      simp only [run, h.1]
      rw [run_bind_of (ih (i + 1) bs h.2 (by omega) h2 h3)]
      simp [run]

theorem run_maskStore {mem : Mem} (mask : BitVec 64) (p i k : Nat) (bs : List Byte) (h : mem.Writable (p + i) k)
    (hk : k ≤ bs.length) (h1 : ∀ j, j < k → mask.getLsbD (i + j) = true)
    (h0 : ∀ j, k ≤ j → mask.getLsbD (i + j) = false) :
    run (maskStore mask p i bs) mem = some ((), mem.writes (p + i) (bs.take k)) := by
  induction bs generalizing i k mem with
  | nil => simp [maskStore, run, writes_nil]
  | cons b bs ih =>
    unfold maskStore
    cases k with
    | zero =>
      rw [if_neg (by rw [show mask.getLsbD i = false from h0 0 (by omega)]; simp)]
      rw [ih (i + 1) 0 (fun j hj => absurd hj (by omega)) (by omega) (fun j hj => absurd hj (by omega))
        (fun j _ => by rw [Nat.add_assoc, Nat.add_comm 1]; exact h0 (j + 1) (by omega))]
      simp [writes_nil]
    | succ k =>
      have hi : mask.getLsbD i = true := h1 0 (by omega)
      rw [if_pos hi, List.take_succ_cons]
      have hw := h 0 (by omega)
      simp only [List.length_cons] at hk
      have hw1 := h.mono (q := p + (i + 1)) (k := k) (by omega) (by omega)
      simp only [run]
      rw [if_pos (by simpa using hw)]
      · rw [writes_cons mem (p + i) b (bs.take k), show p + i + 1 = p + (i + 1) from rfl]
        rw [ih (i + 1) k hw1.writes (by omega)
          (fun j hj => by rw [Nat.add_assoc, Nat.add_comm 1]; exact h1 (j + 1) (by omega))
          (fun j hj => by rw [Nat.add_assoc, Nat.add_comm 1]; exact h0 (j + 1) (by omega))]

theorem mask16_lo (j : Nat) (h : j < 16) : mask16.getLsbD (0 + j) = true := by
  revert j; decide

theorem mask16_hi (j : Nat) (h : 16 ≤ j) : mask16.getLsbD (0 + j) = false := by
  by_cases h64 : j < 64
  · revert h; revert j; decide
  · exact BitVec.getLsbD_of_ge _ _ (by omega)

theorem mask8_lo (j : Nat) (h : j < 8) : (0xff : BitVec 64).getLsbD (0 + j) = true := by
  revert j; decide

theorem mask8_hi (j : Nat) (h : 8 ≤ j) : (0xff : BitVec 64).getLsbD (0 + j) = false := by
  by_cases h64 : j < 64
  · revert h; revert j; decide
  · exact BitVec.getLsbD_of_ge _ _ (by omega)

theorem run_maskz16 {mem : Mem} {p : Nat} {bs : List Byte} (h : mem.Holds p bs) (h16 : bs.length = 16) :
    run (maskz_loadu_epi8 mask16 p) mem = some (ofBytes (bs ++ List.replicate 48 0), mem) := by
  unfold maskz_loadu_epi8
  rw [run_bind_of (run_maskzLoad mask16 p 0 64 bs h (by omega) (fun j hj => mask16_lo j (by omega))
    (fun j hj => mask16_hi j (by omega))), h16]
  rfl

theorem run_maskz8 {mem : Mem} {p : Nat} {bs : List Byte} (h : mem.Holds p bs) (h8 : bs.length = 8) :
    run (maskz_loadu_epi8 0xff p) mem = some (ofBytes (bs ++ List.replicate 56 0), mem) := by
  unfold maskz_loadu_epi8
  rw [run_bind_of (run_maskzLoad 0xff p 0 64 bs h (by omega) (fun j hj => mask8_lo j (by omega))
    (fun j hj => mask8_hi j (by omega))), h8]
  rfl

theorem toBytes_z (s : State) (y5 y6 y7 : Word) :
    toBytes (Z.z ⟨s, y5, y6, y7⟩) = stateBytes s ++ (bytes64 y5 ++ bytes64 y6 ++ bytes64 y7) := by
  simp [toBytes, List.range, List.range.loop, Z.z, stateBytes]

theorem run_store16 {mem : Mem} {p : Nat} {s : State} {y5 y6 y7 : Word} (h : mem.Writable p 16) :
    run (mask_storeu_epi8 p mask16 (Z.z ⟨s, y5, y6, y7⟩)) mem = some ((), mem.writes p (rate 16 s)) := by
  unfold mask_storeu_epi8
  rw [toBytes_z, run_maskStore mask16 p 0 16 _ h (by simp [length_stateBytes]; omega) mask16_lo mask16_hi,
    List.take_append_of_le_length (by rw [length_stateBytes]; omega)]
  rfl

theorem run_store8 {mem : Mem} {p : Nat} {s : State} {y5 y6 y7 : Word} (h : mem.Writable p 8) :
    run (mask_storeu_epi8 p 0xff (Z.z ⟨s, y5, y6, y7⟩)) mem = some ((), mem.writes p (rate 8 s)) := by
  unfold mask_storeu_epi8
  rw [toBytes_z, run_maskStore 0xff p 0 8 _ h (by simp [length_stateBytes]; omega) mask8_lo mask8_hi,
    List.take_append_of_le_length (by rw [length_stateBytes]; omega)]
  rfl

theorem lane_lo (bs : List Byte) (n i : Nat) (h : 8 * i + 8 ≤ bs.length) :
    ofBytes (bs ++ List.replicate n 0) i = le64 ((bs.drop (8 * i)).take 8) := by
  unfold ofBytes
  rw [List.drop_append_of_le_length (by omega), List.take_append_of_le_length (by simp; omega)]

theorem lane_hi (bs : List Byte) (n i : Nat) (h : bs.length ≤ 8 * i) :
    ofBytes (bs ++ List.replicate n 0) i = 0 := by
  unfold ofBytes
  rw [List.drop_append, List.drop_of_length_le h, List.nil_append, List.drop_replicate, List.take_replicate,
    le64_replicate_zero]

theorem xor16 (s : State) (y5 y6 y7 : Word) (bs : List Byte) (h : bs.length = 16) :
    Z.of (xor_epi64 (Z.z ⟨s, y5, y6, y7⟩) (ofBytes (bs ++ List.replicate 48 0))) = ⟨xorIn s bs, y5, y6, y7⟩ := by
  have h0 := lane_lo bs 48 0 (by omega)
  have h1 := lane_lo bs 48 1 (by omega)
  have h2 := fun i (hi : 2 ≤ i) => lane_hi bs 48 i (by omega)
  rw [xorIn_of_le16 _ _ (by omega)]
  simp only [Z.of, xor_epi64, h0, h1, h2 2 (by omega), h2 3 (by omega), h2 4 (by omega), h2 5 (by omega),
    h2 6 (by omega), h2 7 (by omega), Z.z]
  rw [show (bs.drop (8 * 1)).take 8 = bs.drop 8 from List.take_of_length_le (by simp; omega)]
  simp

theorem xor8 (s : State) (y5 y6 y7 : Word) (bs : List Byte) (h : bs.length = 8) :
    Z.of (xor_epi64 (Z.z ⟨s, y5, y6, y7⟩) (ofBytes (bs ++ List.replicate 56 0))) = ⟨xorIn s bs, y5, y6, y7⟩ := by
  have h0 := lane_lo bs 56 0 (by omega)
  have h2 := fun i (hi : 1 ≤ i) => lane_hi bs 56 i (by omega)
  rw [xorIn_of_le8 _ _ (by omega)]
  simp only [Z.of, xor_epi64, h0, h2 1 (by omega), h2 2 (by omega), h2 3 (by omega), h2 4 (by omega), h2 5 (by omega),
    h2 6 (by omega), h2 7 (by omega), Z.z]
  rw [show (bs.drop (8 * 0)).take 8 = bs from List.take_of_length_le (by simp; omega)]
  simp

theorem toBytes_getD (a : V) (i j : Nat) (hi : i < 8) (hj : j < 8) :
    (toBytes a).getD (8 * i + j) 0 = (bytes64 (a i)).getD j 0 := by
  have : ∀ i : Fin 8, ∀ j : Fin 8, (toBytes a).getD (8 * i.val + j.val) 0 = (bytes64 (a i.val)).getD j.val 0 := by
    intro i j
    match i, j with
    | ⟨0, _⟩, j => match j with
      | ⟨0, _⟩ | ⟨1, _⟩ | ⟨2, _⟩ | ⟨3, _⟩ | ⟨4, _⟩ | ⟨5, _⟩ | ⟨6, _⟩ | ⟨7, _⟩ => rfl
    | ⟨1, _⟩, j => match j with
      | ⟨0, _⟩ | ⟨1, _⟩ | ⟨2, _⟩ | ⟨3, _⟩ | ⟨4, _⟩ | ⟨5, _⟩ | ⟨6, _⟩ | ⟨7, _⟩ => rfl
    | ⟨2, _⟩, j => match j with
      | ⟨0, _⟩ | ⟨1, _⟩ | ⟨2, _⟩ | ⟨3, _⟩ | ⟨4, _⟩ | ⟨5, _⟩ | ⟨6, _⟩ | ⟨7, _⟩ => rfl
    | ⟨3, _⟩, j => match j with
      | ⟨0, _⟩ | ⟨1, _⟩ | ⟨2, _⟩ | ⟨3, _⟩ | ⟨4, _⟩ | ⟨5, _⟩ | ⟨6, _⟩ | ⟨7, _⟩ => rfl
    | ⟨4, _⟩, j => match j with
      | ⟨0, _⟩ | ⟨1, _⟩ | ⟨2, _⟩ | ⟨3, _⟩ | ⟨4, _⟩ | ⟨5, _⟩ | ⟨6, _⟩ | ⟨7, _⟩ => rfl
    | ⟨5, _⟩, j => match j with
      | ⟨0, _⟩ | ⟨1, _⟩ | ⟨2, _⟩ | ⟨3, _⟩ | ⟨4, _⟩ | ⟨5, _⟩ | ⟨6, _⟩ | ⟨7, _⟩ => rfl
    | ⟨6, _⟩, j => match j with
      | ⟨0, _⟩ | ⟨1, _⟩ | ⟨2, _⟩ | ⟨3, _⟩ | ⟨4, _⟩ | ⟨5, _⟩ | ⟨6, _⟩ | ⟨7, _⟩ => rfl
    | ⟨7, _⟩, j => match j with
      | ⟨0, _⟩ | ⟨1, _⟩ | ⟨2, _⟩ | ⟨3, _⟩ | ⟨4, _⟩ | ⟨5, _⟩ | ⟨6, _⟩ | ⟨7, _⟩ => rfl
  exact this ⟨i, hi⟩ ⟨j, hj⟩

theorem blend_lane (mask : BitVec 64) (a b : V) (i : Nat) (hi : i < 8) (c : Bool)
    (hm : ∀ j, j < 8 → mask.getLsbD (8 * i + j) = c) : mask_blend_epi8 mask a b i = if c then b i else a i := by
  unfold mask_blend_epi8 ofBytes
  have h1 : ((((List.range 64).map fun i => if mask.getLsbD i then (toBytes b).getD i 0 else (toBytes a).getD i 0).drop
      (8 * i)).take 8) = bytes64 (if c then b i else a i) := by
    apply List.ext_getElem
    · rw [length_bytes64]; simp; omega
    · intro j hj _
      rw [length_bytes64] at *
      have hj8 : j < 8 := by assumption
      rw [List.getElem_take, List.getElem_drop, List.getElem_map, List.getElem_range, hm j hj8,
        toBytes_getD _ _ _ hi hj8, toBytes_getD _ _ _ hi hj8]
      cases c <;> simp [List.getD_eq_getElem?_getD, length_bytes64, hj8]
  rw [h1, le64_bytes64]

theorem blend16 (s : State) (y5 y6 y7 : Word) (bs : List Byte) (h : bs.length = 16) :
    Z.of (mask_blend_epi8 mask16 (Z.z ⟨s, y5, y6, y7⟩) (ofBytes (bs ++ List.replicate 48 0))) =
      ⟨{ s with x0 := le64 (bs.take 8), x1 := le64 (bs.drop 8) }, y5, y6, y7⟩ := by
  have ht := fun (i : Nat) (hi : i < 2) => blend_lane mask16 (Z.z ⟨s, y5, y6, y7⟩) (ofBytes (bs ++ List.replicate 48 0)) i
    (by omega) true (fun j hj => by have := mask16_lo (8 * i + j) (by omega); rwa [Nat.zero_add] at this)
  have hf := fun (i : Nat) (hi : i < 8) (h2 : 2 ≤ i) => blend_lane mask16 (Z.z ⟨s, y5, y6, y7⟩)
    (ofBytes (bs ++ List.replicate 48 0)) i
    (by omega) false (fun j hj => by have := mask16_hi (8 * i + j) (by omega); rwa [Nat.zero_add] at this)
  have h0 := lane_lo bs 48 0 (by omega)
  have h1 := lane_lo bs 48 1 (by omega)
  simp only [Z.of, ht 0 (by omega), ht 1 (by omega), hf 2 (by omega) (by omega), hf 3 (by omega) (by omega),
    hf 4 (by omega) (by omega), hf 5 (by omega) (by omega), hf 6 (by omega) (by omega), hf 7 (by omega) (by omega),
    if_true, Bool.false_eq_true, if_false, h0, h1, Z.z]
  rw [show (bs.drop (8 * 1)).take 8 = bs.drop 8 from List.take_of_length_le (by simp; omega)]
  simp

/-! ### src/avx512/aead.c -/

section
variable {e : Endian} {y5 y6 y7 : Word}

/-- A specification state in the first five lanes of the register. -/
def emb (y5 y6 y7 : Word) (s : State) : Z := ⟨s, y5, y6, y7⟩

theorem encS_id (s : State) : Gen.encS (fun w => w) s = s := rfl

theorem ok (e : Endian) : Gen.opt64.Ok e (fun w => w) := Gen.opt64_ok e

theorem run_loadkey {mem : Mem} {k : Nat} {K : List Byte} (hk : mem.Holds k K) (hK : K.length = 16) :
    run (Gen.ascon_loadkey Gen.opt64 e k) mem = some ((le64 (K.take 8), le64 (K.drop 8)), mem) :=
  Gen.run_loadkey (ok e) hk hK

/-- Lines 46-47 and 180-181: `s->x[3] ^= key[0]; s->x[4] ^= key[1]`. -/
def xorKey (key : Word × Word) (s : Z) : Z :=
  let s := { s with s := { s.s with x3 := s.s.x3 ^^^ key.1 } }
  { s with s := { s.s with x4 := s.s.x4 ^^^ key.2 } }

theorem xorKey_emb (K : List Byte) (s : State) :
    xorKey (le64 (K.take 8), le64 (K.drop 8)) (emb y5 y6 y7 s) = emb y5 y6 y7 (addKeyLast K s) := rfl

theorem P12_emb (s : State) : P12 (emb y5 y6 y7 s) = emb y5 y6 y7 (perm 12 s) := P12_eq s y5 y6 y7

theorem initaead_unfold (e : Endian) (junk : Z) (key : Word × Word) (npub : Nat) : ascon_initaead e junk key npub = (do
    let n0 ← Gen.LOAD Gen.opt64 e npub 8
    let n1 ← Gen.LOAD Gen.opt64 e (npub + 8) 8
    pure (xorKey key (P12 (emb junk.y5 junk.y6 junk.y7 ⟨0x00001000808c0001, key.1, key.2, n0, n1⟩)))) := rfl

theorem aeadInit_unfold (K N : List Byte) : aeadInit K N =
    addKeyLast K (perm 12 ⟨ivAead, le64 (K.take 8), le64 (K.drop 8), le64 (N.take 8), le64 (N.drop 8)⟩) := rfl

theorem run_initaead {mem : Mem} {junk : Z} {npub : Nat} {K N : List Byte} (hn : mem.Holds npub N) (hN : N.length = 16) :
    run (ascon_initaead e junk (le64 (K.take 8), le64 (K.drop 8)) npub) mem =
      some (emb junk.y5 junk.y6 junk.y7 (aeadInit K N), mem) := by
  rw [initaead_unfold, aeadInit_unfold]
  have e2 : (N.drop 8).take 8 = N.drop 8 := List.take_of_length_le (by simp; omega)
  rw [run_bind_of (Gen.run_LOAD (ok e) hn (by omega)), run_bind_of (Gen.run_LOAD' (ok e) hn (by omega)), e2]
  rw [show (0x00001000808c0001 : Word) = ivAead by decide]
  rw [P12_emb]
  generalize perm 12 _ = t
  rw [xorKey_emb, run_pure']

theorem run_adStep {mem : Mem} (s : State) (ad n : Nat) (A : List Byte) (ha : mem.Holds ad A) (h16 : 16 ≤ A.length) :
    run (adStep (emb y5 y6 y7 s, ad, n)) mem =
      some ((emb y5 y6 y7 (perm 8 (xorIn s (A.take 16))), ad + 16, n - 16), mem) := by
  unfold adStep
  have hl : (A.take 16).length = 16 := by simp; omega
  simp only
  rw [run_bind_of (run_maskz16 (ha.take 16) hl)]
  simp only [emb]
  rw [xor16 _ _ _ _ _ hl, P8_eq]
  rfl

theorem run_adata {mem : Mem} {s : State} {ad : Nat} {A : List Byte} (ha : mem.Holds ad A) :
    run (ascon_adata e (emb y5 y6 y7 s) ad A.length) mem = some (emb y5 y6 y7 (aeadAd A s), mem) := by
  unfold ascon_adata aeadAd
  have key : run (ifc (decide (A.length ≠ 0))
      (do
        let (s, ad, adlen) ←
          loop (A.length + 1) (fun (_, _, adlen) => decide (adlen ≥ 16)) adStep (emb y5 y6 y7 s, ad, A.length)
        let x ← Gen.adFinal Gen.opt64 e s.s ad adlen
        let s := { s with s := x }
        pure (P8 s))
      (pure (emb y5 y6 y7 s))) mem =
      some (emb y5 y6 y7 (if A = [] then s else absorb 8 s (fullBlocks 16 (pad 16 A))), mem) := by
    rw [run_ifc]
    by_cases h0 : A = []
    · simp [h0]
    · have : A.length ≠ 0 := by simpa using h0
      rw [if_pos (by simpa using this), if_neg h0]
      have hl := run_absorbLoop (emb y5 y6 y7) 16 8 (by omega)
        (cond := fun (_, _, adlen) => decide (adlen ≥ 16)) (step := adStep) (fun _ _ _ => rfl) (mem := mem)
        (fun s p n M hM h16 => run_adStep s p n M hM h16) (A.length + 1) s ad A ha (by omega)
      rw [run_bind_of hl]
      simp only
      have hb := ha.lastBlock 16
      have hll := length_lastBlock 16 A
      rw [fullBlocks_pad 16 A (by omega), ← hll]
      simp only [absorb, List.foldl_append, List.foldl_cons, List.foldl_nil]
      generalize List.foldl _ s (fullBlocks 16 A) = t
      have hf := Gen.run_adFinal (ok e) t _ _ hb (by omega)
      rw [encS_id, encS_id] at hf
      simp only [emb]
      rw [run_bind_of hf]
      simp only [P8_eq, run_pure']
  rw [run_bind_of key]
  simp only [run_pure', (ok e).dsep, emb]

theorem run_encStep (mem : Mem) (s : State) (c m n : Nat) (P : List Byte)
    (hm : mem.Holds m P) (h16 : 16 ≤ P.length) (hw : mem.Writable c 16) (_ : c ≤ m ∨ m + P.length ≤ c) :
    run (encStep (emb y5 y6 y7 s, c, m, n)) mem =
      some ((emb y5 y6 y7 (perm 8 (xorIn s (P.take 16))), c + 16, m + 16, n - 16),
        mem.writes c (rate 16 (xorIn s (P.take 16)))) := by
  unfold encStep
  have hl : (P.take 16).length = 16 := by simp; omega
  simp only
  rw [run_bind_of (run_maskz16 (hm.take 16) hl)]
  simp only [emb]
  rw [xor16 _ _ _ _ _ hl, run_bind_of (run_store16 hw), P8_eq]
  rfl

theorem run_encrypt {mem : Mem} {s : State} {c m : Nat} {P : List Byte} (hm : mem.Holds m P)
    (hw : mem.Writable c P.length) (ho : c ≤ m ∨ m + P.length ≤ c) :
    run (ascon_encrypt e (emb y5 y6 y7 s) c m P.length) mem =
      some (emb y5 y6 y7 (encBody s P).1, mem.writes c (encBody s P).2) := by
  unfold ascon_encrypt
  have hl := run_encryptLoop (emb y5 y6 y7) (cond := fun (_, _, _, mlen) => decide (mlen ≥ 16)) (step := encStep)
    (fun _ _ _ _ => rfl) (fun mem s c m n P a b d f => run_encStep mem s c m n P a b d f)
    (P.length + 1) s mem c m P hm hw ho (by omega)
  rw [run_bind_of hl]
  simp only
  have hlen := Ref.length_encBlocks s (fullBlocks 16 P)
  rw [Ref.length_fullBlocks] at hlen
  have hb := hm.lastBlock 16
  have hll := length_lastBlock 16 P
  have hdm := Nat.div_add_mod P.length 16
  rw [← hll]
  have hb2 : (mem.writes c (encBlocks s (fullBlocks 16 P)).2).Holds (m + 16 * (P.length / 16)) (lastBlock 16 P) := by
    apply hb.writes_disjoint
    unfold Disjoint; omega
  have hf := Gen.run_encFinal (ok e) (t := (encBlocks s (fullBlocks 16 P)).1) (c := c + 16 * (P.length / 16)) hb2 (by omega)
    (hw.writes.mono (by omega) (by omega)) (by omega)
  rw [encS_id, encS_id] at hf
  simp only [emb]
  rw [run_bind_of hf]
  unfold encBody
  simp only [run_pure']
  rw [writes_append, hlen]

theorem run_decStep (mem : Mem) (s : State) (m c n : Nat) (C : List Byte)
    (hc : mem.Holds c C) (h16 : 16 ≤ C.length) (hw : mem.Writable m 16) (_ : m ≤ c ∨ c + C.length ≤ m) :
    run (decStep (emb y5 y6 y7 s, m, c, n)) mem =
      some ((emb y5 y6 y7 (perm 8 (xorIn s (xorBytes (rate 16 s) (C.take 16)))), m + 16, c + 16, n - 16),
        mem.writes m (xorBytes (rate 16 s) (C.take 16))) := by
  unfold decStep
  have hl : (C.take 16).length = 16 := by simp; omega
  simp only
  rw [run_bind_of (run_maskz16 (hc.take 16) hl)]
  simp only [emb]
  rw [xor16 _ _ _ _ _ hl, run_bind_of (run_store16 hw), blend16 _ _ _ _ _ hl, P8_eq]
  have hx : xorBytes (rate 16 s) (C.take 16) =
      bytes64 (s.x0 ^^^ le64 (C.take 8)) ++ bytes64 (s.x1 ^^^ le64 ((C.drop 8).take 8)) := by
    rw [rate_16, bytes64_xor, bytes64_xor, bytes64_le64 _ (by simp; omega), bytes64_le64 _ (by simp; omega)]
    rw [show C.take 16 = C.take 8 ++ (C.drop 8).take 8 by rw [← List.take_add]]
    simp only [xorBytes]
    rw [List.zipWith_append (by simp [length_bytes64]; omega)]
  have hy : xorIn s (xorBytes (rate 16 s) (C.take 16)) =
      { s with x0 := le64 (C.take 8), x1 := le64 ((C.drop 8).take 8) } := by
    rw [hx, xorIn_of_le16 _ _ (by simp [length_bytes64]), take8_bytes64_append, drop8_bytes64_append,
      le64_bytes64, le64_bytes64]
    simp only [← BitVec.xor_assoc, BitVec.xor_self, BitVec.zero_xor]
  have h16x : xorIn s (C.take 16) =
      { s with x0 := s.x0 ^^^ le64 (C.take 8), x1 := s.x1 ^^^ le64 ((C.drop 8).take 8) } := by
    rw [xorIn_of_le16 _ _ (by omega), List.take_take, List.drop_take]
    rfl
  have hz : rate 16 (xorIn s (C.take 16)) = xorBytes (rate 16 s) (C.take 16) := by
    rw [hx, rate_16, h16x]
  rw [hz, hy, h16x, List.take_take, List.drop_take]
  simp only [run_pure', show min 8 16 = 8 from rfl, Nat.reduceSub]

theorem run_decrypt {mem : Mem} {s : State} {m c : Nat} {C : List Byte} (hc : mem.Holds c C)
    (hw : mem.Writable m C.length) (ho : m ≤ c ∨ c + C.length ≤ m) :
    run (ascon_decrypt e (emb y5 y6 y7 s) m c C.length) mem =
      some (emb y5 y6 y7 (decBody s C).1, mem.writes m (decBody s C).2) := by
  unfold ascon_decrypt
  have hl := run_decryptLoop (emb y5 y6 y7) (cond := fun (_, _, _, clen) => decide (clen ≥ 16)) (step := decStep)
    (fun _ _ _ _ => rfl) (fun mem s m c n C a b d f => run_decStep mem s m c n C a b d f)
    (C.length + 1) s mem m c C hc hw ho (by omega)
  rw [run_bind_of hl]
  simp only
  have hlen := Ref.length_decBlocks s (fullBlocks 16 C) (fun b hb => mem_fullBlocks_length hb)
  rw [Ref.length_fullBlocks] at hlen
  have hb := hc.lastBlock 16
  have hll := length_lastBlock 16 C
  have hdm := Nat.div_add_mod C.length 16
  rw [← hll]
  have hb2 : (mem.writes m (decBlocks s (fullBlocks 16 C)).2).Holds (c + 16 * (C.length / 16)) (lastBlock 16 C) := by
    apply hb.writes_disjoint
    unfold Disjoint; omega
  have hf := Gen.run_decFinal (ok e) (t := (decBlocks s (fullBlocks 16 C)).1) (m := m + 16 * (C.length / 16)) hb2 (by omega)
    (hw.writes.mono (by omega) (by omega)) (by omega)
  rw [encS_id, encS_id] at hf
  simp only [emb]
  rw [run_bind_of hf]
  unfold decBody
  simp only [run_pure']
  rw [writes_append, hlen]

/-- Lines 163-164: `s->x[2] ^= key[0]; s->x[3] ^= key[1]`. -/
def xorMid (key : Word × Word) (s : Z) : Z :=
  let s := { s with s := { s.s with x2 := s.s.x2 ^^^ key.1 } }
  { s with s := { s.s with x3 := s.s.x3 ^^^ key.2 } }

theorem xorMid_emb (K : List Byte) (s : State) :
    xorMid (le64 (K.take 8), le64 (K.drop 8)) (emb y5 y6 y7 s) = emb y5 y6 y7 (addKeyMid K s) := rfl

theorem final_unfold (s : Z) (key : Word × Word) : ascon_final s key = xorKey key (P12 (xorMid key s)) := rfl

theorem final_eq (s : State) (K : List Byte) :
    ascon_final (emb y5 y6 y7 s) (le64 (K.take 8), le64 (K.drop 8)) =
      emb y5 y6 y7 (addKeyLast K (perm 12 (addKeyMid K s))) := by
  rw [final_unfold, xorMid_emb, P12_emb]
  generalize perm 12 _ = t
  rw [xorKey_emb]

theorem enc_correct (junk : Z) : EncCorrectAt e (crypto_aead_encrypt junk) := by
  intro mem sp c clen m ad nsec npub k K N A P h'
  unfold crypto_aead_encrypt encPost
  rw [run_bind_of (Ref.run_store64 h'.outLen)]
  have hsep : ∀ {q : Nat} {bs : List Byte}, mem.Holds q bs → Disjoint clen 8 q bs.length →
      (mem.writes clen (repr64 e (BitVec.ofNat 64 (P.length + 16)))).Holds q bs := fun hq hd =>
    hq.writes_disjoint (by rwa [Ref.length_repr64])
  have hk := hsep h'.key (by rw [h'.keyLen]; exact h'.sepKey)
  have hn := hsep h'.nonce (by rw [h'.nonceLen]; exact h'.sepNonce)
  have ha := hsep h'.adata h'.sepAd
  have hm := hsep h'.msg h'.sepMsg
  have hw : (mem.writes clen (repr64 e (BitVec.ofNat 64 (P.length + 16)))).Writable c (P.length + 16) :=
    h'.out.writes
  have ho := h'.overlap
  generalize mem.writes clen (repr64 e (BitVec.ofNat 64 (P.length + 16))) = mem1 at *
  unfold ascon_aead_encrypt Gen.ascon_gettag
  simp only
  rw [run_bind_of (run_loadkey hk h'.keyLen), run_bind_of (run_initaead hn h'.nonceLen),
    run_bind_of (run_adata ha), run_bind_of (run_encrypt hm (hw.mono (by omega) (by omega)) ho)]
  simp only [final_eq]
  have hlen := Ref.length_encBody (aeadAd A (aeadInit K N)) P
  have e1 : aeadEncrypt K N A P = (encBody (aeadAd A (aeadInit K N)) P).2 ++
      aeadTag K (encBody (aeadAd A (aeadInit K N)) P).1 := rfl
  rw [e1]
  generalize encBody (aeadAd A (aeadInit K N)) P = r at *
  have e2 : aeadTag K r.1 = bytes64 (addKeyLast K (perm 12 (addKeyMid K r.1))).x3 ++
      bytes64 (addKeyLast K (perm 12 (addKeyMid K r.1))).x4 := rfl
  rw [e2]
  generalize addKeyLast K (perm 12 (addKeyMid K r.1)) = t
  simp only [emb]
  have hs3 : ∀ mem : Mem, mem.Writable (c + P.length) 8 →
      run (Gen.STOREBYTES Gen.opt64 e (c + P.length) t.x3 8) mem = some ((), mem.writes (c + P.length) (bytes64 t.x3)) :=
    fun mem hw => Gen.run_STORE (ok e) hw
  have hs4 : ∀ mem : Mem, mem.Writable (c + P.length + 8) 8 →
      run (Gen.STOREBYTES Gen.opt64 e (c + P.length + 8) t.x4 8) mem =
        some ((), mem.writes (c + P.length + 8) (bytes64 t.x4)) := fun mem hw => Gen.run_STORE (ok e) hw
  rw [run_bind_of (by
    rw [run_bind_of (hs3 _ (hw.writes.mono (by omega) (by omega))),
      hs4 _ (hw.writes.writes.mono (by omega) (by omega))])]
  rw [writes_append, writes_append, hlen, length_bytes64]
  rfl

theorem dec_correct (junk : Z) : DecCorrectAt e (crypto_aead_decrypt junk) := by
  intro mem sp m mlen nsec c ad npub k K N A C h'
  unfold crypto_aead_decrypt decPost
  have h16 := h'.ctMin
  rw [run_ifc, if_neg (by simpa using h16), run_bind_of (Ref.run_store64 h'.outLen)]
  have hsep : ∀ {q : Nat} {bs : List Byte}, mem.Holds q bs → Disjoint mlen 8 q bs.length →
      (mem.writes mlen (repr64 e (BitVec.ofNat 64 (C.length - 16)))).Holds q bs := fun hq hd =>
    hq.writes_disjoint (by rwa [Ref.length_repr64])
  have hk := hsep h'.key (by rw [h'.keyLen]; exact h'.sepKey)
  have hn := hsep h'.nonce (by rw [h'.nonceLen]; exact h'.sepNonce)
  have ha := hsep h'.adata h'.sepAd
  have hc := hsep h'.ct h'.sepCt
  have hw : (mem.writes mlen (repr64 e (BitVec.ofNat 64 (C.length - 16)))).Writable m (C.length - 16) :=
    h'.out.writes
  have ho := h'.overlap
  generalize mem.writes mlen (repr64 e (BitVec.ofNat 64 (C.length - 16))) = mem1 at *
  have hbl : (ctBody C).length = C.length - 16 := by simp [ctBody]
  have htl : (ctTag C).length = 16 := by simp [ctTag]; omega
  have hcb : mem1.Holds c (ctBody C) := hc.take _
  have hct : mem1.Holds (c + (C.length - 16)) (ctTag C) := hc.drop _ (by omega)
  unfold ascon_aead_decrypt
  simp only
  rw [← hbl] at hw hct ⊢
  rw [run_bind_of (run_loadkey hk h'.keyLen), run_bind_of (run_initaead hn h'.nonceLen),
    run_bind_of (run_adata ha), run_bind_of (run_decrypt hcb hw (by omega))]
  simp only [final_eq]
  have hlen := Ref.length_decBody (aeadAd A (aeadInit K N)) (ctBody C)
  have e1 : aeadCandidate K N A (ctBody C) = (decBody (aeadAd A (aeadInit K N)) (ctBody C)).2 := rfl
  have e2 : aeadDecTag K N A (ctBody C) = aeadTag K (decBody (aeadAd A (aeadInit K N)) (ctBody C)).1 := rfl
  rw [e1, e2]
  generalize decBody (aeadAd A (aeadInit K N)) (ctBody C) = r at *
  have hct2 : (mem1.writes m r.2).Holds (c + (ctBody C).length) (ctTag C) := by
    apply hct.writes_disjoint
    unfold Disjoint; rw [hlen]; omega
  have hv := Gen.run_verify (ok e) (s := addKeyLast K (perm 12 (addKeyMid K r.1))) hct2 htl
  rw [encS_id] at hv
  simp only [emb]
  rw [hv]
  rfl

theorem dec_short (junk : Z) : DecShort (crypto_aead_decrypt junk) := by
  intro e mem sp m mlen nsec c clen ad adlen npub k h
  constructor
  · unfold crypto_aead_decrypt
    rw [run_ifc, if_pos (by simpa using h)]; rfl
  · simp only [crypto_aead_decrypt, Prog.ifc, decide_eq_true h]
    rfl

/-! ### src/avx512/hash.c -/

theorem run_hashAbsorbStep {mem : Mem} (s : State) (p n : Nat) (M : List Byte)
    (hM : mem.Holds p M) (h8 : 8 ≤ M.length) :
    run (hashAbsorbStep (emb y5 y6 y7 s, p, n)) mem =
      some ((emb y5 y6 y7 (perm 12 (xorIn s (M.take 8))), p + 8, n - 8), mem) := by
  unfold hashAbsorbStep
  have hl : (M.take 8).length = 8 := by simp; omega
  simp only
  rw [run_bind_of (run_maskz8 (hM.take 8) hl)]
  simp only [emb]
  rw [xor8 _ _ _ _ _ hl, P12_eq]
  rfl

theorem run_absorb {mem : Mem} {s : State} {p : Nat} {M : List Byte} (hM : mem.Holds p M) :
    run (ascon_absorb e (emb y5 y6 y7 s) p M.length) mem =
      some (emb y5 y6 y7 (xorIn (absorb 12 s (fullBlocks 8 M)) (pad 8 (lastBlock 8 M))), mem) := by
  unfold ascon_absorb
  have hl := run_absorbLoop (emb y5 y6 y7) 8 12 (by omega)
    (cond := fun (_, _, len) => decide (len ≥ 8)) (step := hashAbsorbStep) (fun _ _ _ => rfl) (mem := mem)
    (fun s p n M hM h8 => run_hashAbsorbStep s p n M hM h8)
    (M.length + 1) s p M hM (by omega)
  rw [run_bind_of hl]
  simp only
  have hb := hM.lastBlock 8
  have hll := length_lastBlock 8 M
  rw [← hll, run_bind_of (Gen.run_LOADBYTES (ok e) hb rfl (by omega)), run_bind_of ((ok e).pad _ (by omega) mem),
    Ref.xorIn_pad8 _ _ (by omega)]
  generalize absorb 12 s (fullBlocks 8 M) = t
  simp only [run_pure', emb]

theorem run_squeeze {mem : Mem} {s : State} {p n : Nat} (hw : mem.Writable p n) :
    run (ascon_squeeze e (emb y5 y6 y7 s) p n) mem = some ((), mem.writes p (squeeze 8 (perm 12 s) n)) := by
  unfold ascon_squeeze
  simp only [emb, P12_eq]
  refine run_squeezeLoop (emb y5 y6 y7) (fun _ _ _ => rfl) ?_ _ _ ?_ (n + 1) (perm 12 s) mem p n hw (by omega)
  · intro mem s p n hw
    unfold hashSqueezeStep
    simp only [emb]
    rw [run_bind_of (run_store8 hw), P12_eq]
    rfl
  · intro mem s p n hw h8
    simp only [emb]
    have h1 : run (Gen.STOREBYTES Gen.opt64 e p s.x0 n) mem = some ((), mem.writes p ((bytes64 s.x0).take n)) :=
      Gen.run_STOREBYTES (ok e) hw h8
    rw [h1, rate_le8 n s h8]

theorem xof_with_correct (ivs : State) (iv : Word) (hiv : ivs = spongeInit iv) :
    XofCorrectAt e (fun m n => squeeze 8 (absorb 12 (spongeInit iv) (fullBlocks 8 (pad 8 m))) n) (ascon_xof ivs) := by
  intro mem sp out n inp M hM _ _ hw _
  unfold ascon_xof
  rw [hiv]
  have ha := run_absorb (e := e) (y5 := 0) (y6 := 0) (y7 := 0) (s := spongeInit iv) hM
  simp only
  simp only [emb] at ha
  rw [run_bind_of ha]
  have hs := fun s => run_squeeze (e := e) (y5 := 0) (y6 := 0) (y7 := 0) (s := s) hw
  simp only [emb] at hs
  rw [run_bind_of (hs _), Gen.absorb_pad8]
  rfl

theorem hash256_correct : HashCorrectAt e hash256 32 crypto_hash_hash256 :=
  fun mem sp out inp M hM hMl hw hs =>
    xof_with_correct _ _ (ok e).hash mem sp out 32 inp M hM hMl (by omega) hw hs

theorem xof_correct : XofCorrectAt e xof128 ascon_xof_xof128 := xof_with_correct _ _ (ok e).xof

theorem xof128_correct : HashCorrectAt e (fun m => xof128 m 64) 64 crypto_hash_xof128 :=
  fun mem sp out inp M hM hMl hw hs =>
    xof_with_correct _ _ (ok e).xof mem sp out 64 inp M hM hMl (by omega) hw hs

end

end Ascon.Avx512
