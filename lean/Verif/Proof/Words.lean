import Verif.Spec.Modes
/-!
# Lemmas about bytes and words (specification side)
-/

namespace Ascon.Spec

theorem le64_nil : le64 [] = 0 := rfl

theorem getLsbD_le64 (bs : List Byte) (i : Nat) :
    (le64 bs).getLsbD i = (decide (i < 64) && (bs.getD (i / 8) 0).getLsbD (i % 8)) := by
  induction bs generalizing i with
  | nil => simp [le64]
  | cons b bs ih =>
    simp only [le64, BitVec.getLsbD_or, BitVec.getLsbD_setWidth, BitVec.getLsbD_shiftLeft, ih]
    by_cases h : i < 8
    · simp [h, Nat.div_eq_of_lt h, Nat.mod_eq_of_lt h]
    · have h1 : i / 8 = (i - 8) / 8 + 1 := by omega
      have h2 : (i - 8) % 8 = i % 8 := by omega
      have h3 : b.getLsbD i = false := BitVec.getLsbD_of_ge b i (by omega)
      simp only [h, h3, h1, h2]
      by_cases h4 : i < 64
      · simp [h4]; omega
      · simp [h4]

theorem length_bytes64 (w : Word) : (bytes64 w).length = 8 := by simp [bytes64]

@[simp] theorem getElem_bytes64 (w : Word) (i : Nat) (h : i < (bytes64 w).length) :
    (bytes64 w)[i] = (w >>> (8 * i)).setWidth 8 := by
  simp [bytes64]

theorem getLsbD_bytes64 (w : Word) (i j : Nat) (h : i < (bytes64 w).length) :
    ((bytes64 w)[i]).getLsbD j = (decide (j < 8) && w.getLsbD (8 * i + j)) := by
  simp

theorem take8_bytes64_append (w : Word) (ys : List Byte) : (bytes64 w ++ ys).take 8 = bytes64 w := by
  rw [List.take_append_of_le_length (by simp [length_bytes64]), List.take_of_length_le (by simp [length_bytes64])]

theorem drop8_bytes64_append (w : Word) (ys : List Byte) : (bytes64 w ++ ys).drop 8 = ys := by
  rw [List.drop_append_of_le_length (by simp [length_bytes64]), List.drop_of_length_le (by simp [length_bytes64]),
    List.nil_append]

/-- Byte strings of at most eight bytes survive the trip through a word. -/
theorem take_bytes64_le64 (bs : List Byte) (n : Nat) (hn : n ≤ 8) (hb : n ≤ bs.length) :
    (bytes64 (le64 bs)).take n = bs.take n := by
  apply List.ext_getElem
  · simp [length_bytes64]; omega
  · intro i h1 h2
    simp only [List.length_take, length_bytes64] at h1 h2
    rw [List.getElem_take, List.getElem_take]
    apply BitVec.eq_of_getLsbD_eq
    intro j hj
    rw [getLsbD_bytes64, getLsbD_le64]
    have e1 : (8 * i + j) / 8 = i := by omega
    have e2 : (8 * i + j) % 8 = j := by omega
    have e3 : 8 * i + j < 64 := by omega
    simp [e1, e2, e3, hj, List.getD_eq_getElem?_getD, List.getElem?_eq_getElem (show i < bs.length by omega)]

theorem bytes64_le64 (bs : List Byte) (hb : bs.length = 8) : bytes64 (le64 bs) = bs := by
  have := take_bytes64_le64 bs 8 (by omega) (by omega)
  rwa [List.take_of_length_le (by simp [length_bytes64]), List.take_of_length_le (by omega)] at this

theorem le64_bytes64 (w : Word) : le64 (bytes64 w) = w := by
  apply BitVec.eq_of_getLsbD_eq
  intro i hi
  rw [getLsbD_le64]
  have h : i / 8 < (bytes64 w).length := by simp [length_bytes64]; omega
  rw [List.getD_eq_getElem?_getD, List.getElem?_eq_getElem h, Option.getD_some, getLsbD_bytes64]
  have e : 8 * (i / 8) + i % 8 = i := by omega
  have e2 : i % 8 < 8 := by omega
  simp [hi, e, e2]

theorem le64_inj {a b : List Byte} (hl : a.length = b.length) (h8 : a.length ≤ 8)
    (h : le64 a = le64 b) : a = b := by
  have h1 := take_bytes64_le64 a a.length h8 (Nat.le_refl _)
  have h2 := take_bytes64_le64 b b.length (by omega) (Nat.le_refl _)
  rw [List.take_length] at h1 h2
  rw [← h1, ← h2, h, hl]

theorem bytes64_inj {v w : Word} (h : bytes64 v = bytes64 w) : v = w := by
  rw [← le64_bytes64 v, ← le64_bytes64 w, h]

/-- Appending bytes: place value. -/
theorem le64_append (as bs : List Byte) (h : as.length ≤ 8) :
    le64 (as ++ bs) = le64 as ||| (le64 bs <<< (8 * as.length)) := by
  induction as with
  | nil => simp [le64]
  | cons a as ih =>
    simp only [List.length_cons] at h
    simp only [List.cons_append, le64, ih (by omega), List.length_cons]
    rw [BitVec.shiftLeft_or_distrib, ← BitVec.shiftLeft_add, BitVec.or_assoc,
      show 8 * as.length + 8 = 8 * (as.length + 1) by omega]

theorem le64_snoc (as : List Byte) (b : Byte) (h : as.length ≤ 8) :
    le64 (as ++ [b]) = le64 as ||| (b.setWidth 64 <<< (8 * as.length)) := by
  rw [le64_append as [b] h]; simp [le64]

/-- A byte string has no bits above its length. -/
theorem getLsbD_le64_of_ge (bs : List Byte) (i : Nat) (h : 8 * bs.length ≤ i) :
    (le64 bs).getLsbD i = false := by
  rw [getLsbD_le64, List.getD_eq_getElem?_getD, List.getElem?_eq_none (by omega)]; simp

theorem le64_replicate_zero (n : Nat) : le64 (List.replicate n 0) = 0 := by
  induction n with
  | zero => rfl
  | succ n ih => rw [List.replicate_succ, le64, ih]; rfl

theorem le64_append_zeros (bs : List Byte) (n : Nat) :
    le64 (bs ++ List.replicate n 0) = le64 bs := by
  apply BitVec.eq_of_getLsbD_eq
  intro i _
  rw [getLsbD_le64, getLsbD_le64]
  congr 2
  simp only [List.getD_eq_getElem?_getD]
  by_cases h : i / 8 < bs.length
  · rw [List.getElem?_append_left h]
  · rw [List.getElem?_append_right (by omega), List.getElem?_eq_none (l := bs) (by omega)]
    simp [List.getElem?_replicate]
    split <;> simp

theorem le64_take8 (bs : List Byte) : le64 (bs.take 8) = le64 bs := by
  apply BitVec.eq_of_getLsbD_eq
  intro i hi
  rw [getLsbD_le64, getLsbD_le64]
  congr 2
  simp only [List.getD_eq_getElem?_getD, List.getElem?_take]
  rw [if_pos (by omega)]

theorem le64_xorBytes (as bs : List Byte) (h : as.length = bs.length) :
    le64 (xorBytes as bs) = le64 as ^^^ le64 bs := by
  apply BitVec.eq_of_getLsbD_eq
  intro i hi
  simp only [BitVec.getLsbD_xor, getLsbD_le64, hi, decide_true, Bool.true_and, xorBytes,
    List.getD_eq_getElem?_getD, List.getElem?_zipWith]
  by_cases h1 : i / 8 < as.length
  · rw [List.getElem?_eq_getElem h1, List.getElem?_eq_getElem (h ▸ h1)]; simp
  · rw [List.getElem?_eq_none (l := as) (by omega), List.getElem?_eq_none (l := bs) (by omega)]; simp

@[simp] theorem length_xorBytes (a b : List Byte) :
    (xorBytes a b).length = min a.length b.length := by simp [xorBytes]

theorem bytes64_xor (v w : Word) : bytes64 (v ^^^ w) = xorBytes (bytes64 v) (bytes64 w) := by
  apply List.ext_getElem
  · simp [length_bytes64]
  · intro i h1 h2
    apply BitVec.eq_of_getLsbD_eq
    intro j hj
    simp [xorBytes, hj]

theorem xorBytes_take (a b : List Byte) (n : Nat) :
    (xorBytes a b).take n = xorBytes (a.take n) (b.take n) := by
  simp [xorBytes, List.take_zipWith]

theorem xorBytes_self_cancel (a b : List Byte) (h : b.length ≤ a.length) :
    xorBytes a (xorBytes a b) = b := by
  apply List.ext_getElem
  · simp; omega
  · intro i h1 h2
    simp [xorBytes, ← BitVec.xor_assoc]

theorem xorBytes_comm (a b : List Byte) : xorBytes a b = xorBytes b a := by
  unfold xorBytes; rw [List.zipWith_comm]; congr; funext x y; exact BitVec.xor_comm _ _

/-! ### Words from bits -/

theorem foldr_bits_lt (f : Nat → Bool) (n : Nat) :
    (List.range n).foldr (fun i acc => acc + (f i).toNat * 2 ^ i) 0 < 2 ^ n ∧
    ∀ acc, (List.range n).foldr (fun i acc => acc + (f i).toNat * 2 ^ i) acc =
      acc + (List.range n).foldr (fun i acc => acc + (f i).toNat * 2 ^ i) 0 := by
  induction n with
  | zero => simp
  | succ n ih =>
    refine ⟨?_, ?_⟩
    · rw [List.range_succ, List.foldr_append]
      simp only [List.foldr_cons, List.foldr_nil, Nat.zero_add]
      rw [ih.2, Nat.pow_succ]
      have := ih.1
      cases f n <;> simp <;> omega
    · intro acc
      rw [List.range_succ, List.foldr_append, List.foldr_append]
      simp only [List.foldr_cons, List.foldr_nil, Nat.zero_add]
      rw [ih.2, ih.2 ((f n).toNat * 2 ^ n)]
      omega

theorem testBit_foldr_bits (f : Nat → Bool) (n i : Nat) :
    ((List.range n).foldr (fun i acc => acc + (f i).toNat * 2 ^ i) 0).testBit i =
      (decide (i < n) && f i) := by
  induction n with
  | zero => simp
  | succ n ih =>
    rw [List.range_succ, List.foldr_append]
    simp only [List.foldr_cons, List.foldr_nil, Nat.zero_add]
    rw [(foldr_bits_lt f n).2, Nat.mul_comm, Nat.testBit_two_pow_mul_add _ (foldr_bits_lt f n).1, ih]
    by_cases h : i < n
    · simp [h]; omega
    · by_cases h2 : i = n
      · subst h2; simp; cases f i <;> simp
      · have h4 : (f n).toNat.testBit (i - n) = false := by
          obtain ⟨k, hk⟩ : ∃ k, i - n = k + 1 := ⟨i - n - 1, by omega⟩
          rw [hk]; cases f n <;> simp [Nat.testBit_succ]
        have h5 : ¬ i < n + 1 := by omega
        simp [h, h4, h5]

theorem getLsbD_wordOfBits (f : Nat → Bool) (i : Nat) :
    (wordOfBits f).getLsbD i = (decide (i < 64) && f i) := by
  unfold wordOfBits
  rw [BitVec.getLsbD_ofNat, testBit_foldr_bits]
  by_cases h : i < 64 <;> simp [h]

/-! ### Padded blocks -/

theorem pad_length (r : Nat) (m : List Byte) (hr : 0 < r) : (pad r m).length = r * (m.length / r + 1) := by
  simp only [pad, List.length_append, List.length_cons, List.length_replicate]
  have h1 := Nat.div_add_mod m.length r
  have h2 := Nat.mod_lt m.length hr
  rw [Nat.mul_add, Nat.mul_one]
  generalize r * (m.length / r) = q at *
  omega

/-- The word of a padded short block: the bytes and a one bit behind them. -/
theorem le64_pad_short (m : List Byte) (k : Nat) (h : m.length < 8) :
    le64 (m ++ (1 : Byte) :: List.replicate k 0) = le64 m ^^^ ((1 : Word) <<< (8 * m.length)) := by
  rw [show m ++ (1 : Byte) :: List.replicate k 0 = (m ++ [1]) ++ List.replicate k 0 by simp,
    le64_append_zeros, le64_snoc m 1 (by omega)]
  apply BitVec.eq_of_getLsbD_eq
  intro i hi
  simp only [BitVec.getLsbD_or, BitVec.getLsbD_xor, BitVec.getLsbD_shiftLeft]
  by_cases h2 : i < 8 * m.length
  · simp [h2]
  · rw [getLsbD_le64_of_ge m i (by omega)]; simp

/-! ### Blocks -/

theorem fullBlocks_of_lt (r : Nat) (m : List Byte) (h : m.length < r) : fullBlocks r m = [] := by
  simp [fullBlocks, Nat.div_eq_of_lt h]

theorem fullBlocks_of_ge (r : Nat) (m : List Byte) (hr : 0 < r) (h : r ≤ m.length) :
    fullBlocks r m = m.take r :: fullBlocks r (m.drop r) := by
  unfold fullBlocks
  rw [List.length_drop]
  have : m.length / r = (m.length - r) / r + 1 := by
    rw [← Nat.sub_add_cancel h, Nat.add_div_right _ hr, Nat.add_sub_cancel]
  rw [this, List.range_succ_eq_map]
  simp only [List.map_cons, Nat.mul_zero, List.drop_zero, List.map_map]
  congr 1
  apply List.map_congr_left
  intro i _
  simp [List.drop_drop, Nat.mul_succ, Nat.add_comm]

theorem lastBlock_of_lt (r : Nat) (m : List Byte) (h : m.length < r) : lastBlock r m = m := by
  simp [lastBlock, Nat.div_eq_of_lt h]

theorem lastBlock_of_ge (r : Nat) (m : List Byte) (hr : 0 < r) (h : r ≤ m.length) :
    lastBlock r m = lastBlock r (m.drop r) := by
  unfold lastBlock
  rw [List.length_drop, List.drop_drop]
  have : m.length / r = (m.length - r) / r + 1 := by
    rw [← Nat.sub_add_cancel h, Nat.add_div_right _ hr, Nat.add_sub_cancel]
  rw [this, Nat.mul_succ, Nat.add_comm]

theorem length_lastBlock (r : Nat) (m : List Byte) : (lastBlock r m).length = m.length % r := by
  unfold lastBlock
  rw [List.length_drop]
  have := Nat.div_add_mod m.length r
  omega

theorem fullBlocks_flatten_append_lastBlock (r : Nat) (m : List Byte) (hr : 0 < r) :
    (fullBlocks r m).flatten ++ lastBlock r m = m := by
  induction hm : m.length using Nat.strongRecOn generalizing m with
  | ind n ih =>
    by_cases h : m.length < r
    · simp [fullBlocks_of_lt r m h, lastBlock_of_lt r m h]
    · rw [fullBlocks_of_ge r m hr (by omega), lastBlock_of_ge r m hr (by omega), List.flatten_cons,
        List.append_assoc, ih (m.drop r).length (by simp; omega) _ rfl, List.take_append_drop]

theorem mem_fullBlocks_length {r : Nat} {m b : List Byte} (hb : b ∈ fullBlocks r m) : b.length = r := by
  simp only [fullBlocks, List.mem_map, List.mem_range] at hb
  obtain ⟨i, hi, rfl⟩ := hb
  rw [List.length_take, List.length_drop]
  have h1 := Nat.div_add_mod m.length r
  have h2 : r * (i + 1) ≤ r * (m.length / r) := Nat.mul_le_mul_left r hi
  rw [Nat.mul_succ] at h2
  omega

/-- The blocks of the padded string: the complete blocks and the padded last block. -/
theorem fullBlocks_pad (r : Nat) (m : List Byte) (hr : 0 < r) :
    fullBlocks r (pad r m) = fullBlocks r m ++ [pad r (lastBlock r m)] := by
  induction hm : m.length using Nat.strongRecOn generalizing m with
  | ind n ih =>
    by_cases h : m.length < r
    · rw [fullBlocks_of_lt r m h, lastBlock_of_lt r m h]
      have hl : (pad r m).length = r := by
        rw [pad_length r m hr, Nat.div_eq_of_lt h]; simp
      rw [fullBlocks_of_ge r _ hr (by omega), fullBlocks_of_lt r _ (by simp; omega),
        List.take_of_length_le (by omega)]
      rfl
    · have hp : pad r m = m.take r ++ pad r (m.drop r) := by
        unfold pad
        rw [← List.append_assoc, List.take_append_drop, List.length_drop]
        congr 3
        rw [Nat.mod_eq_sub_mod (by omega)]
      rw [fullBlocks_of_ge r m hr (by omega), lastBlock_of_ge r m hr (by omega),
        fullBlocks_of_ge r (pad r m) hr (by rw [pad_length r m hr, Nat.mul_add]; omega)]
      have ht : (pad r m).take r = m.take r := by
        rw [hp, List.take_append_of_le_length (by simp; omega), List.take_of_length_le (by simp; omega)]
      have hd : (pad r m).drop r = pad r (m.drop r) := by
        rw [hp, List.drop_append_of_le_length (by simp; omega), List.drop_of_length_le (by simp; omega)]
        rfl
      rw [ht, hd, ih (m.drop r).length (by simp; omega) _ rfl]
      rfl

theorem length_stateBytes (s : State) : (stateBytes s).length = 40 := by
  simp [stateBytes, length_bytes64]

theorem length_rate (r : Nat) (s : State) (h : r ≤ 40) : (rate r s).length = r := by
  simp [rate, length_stateBytes, h]

end Ascon.Spec

namespace Ascon.Spec

/-! ### Blocks and the state -/

theorem xorIn_nil (s : State) : xorIn s [] = s := by
  simp [xorIn, le64]

theorem xorIn_of_le8 (s : State) (b : List Byte) (h : b.length ≤ 8) :
    xorIn s b = { s with x0 := s.x0 ^^^ le64 b } := by
  unfold xorIn
  rw [List.take_of_length_le h, List.drop_of_length_le h, List.drop_of_length_le (by omega : b.length ≤ 16),
    List.drop_of_length_le (by omega : b.length ≤ 24), List.drop_of_length_le (by omega : b.length ≤ 32)]
  simp [le64]

theorem xorIn_of_le16 (s : State) (b : List Byte) (h : b.length ≤ 16) :
    xorIn s b = { s with x0 := s.x0 ^^^ le64 (b.take 8), x1 := s.x1 ^^^ le64 (b.drop 8) } := by
  unfold xorIn
  rw [List.take_of_length_le (l := b.drop 8) (by simp; omega), List.drop_of_length_le (by omega : b.length ≤ 16),
    List.drop_of_length_le (by omega : b.length ≤ 24), List.drop_of_length_le (by omega : b.length ≤ 32)]
  simp [le64]

theorem rate_le8 (n : Nat) (s : State) (h : n ≤ 8) : rate n s = (bytes64 s.x0).take n := by
  unfold rate stateBytes
  simp only [List.append_assoc]
  rw [List.take_append_of_le_length (by simp [length_bytes64]; omega)]

theorem rate_8 (s : State) : rate 8 s = bytes64 s.x0 := by
  rw [rate_le8 8 s (by omega), List.take_of_length_le (by simp [length_bytes64])]

theorem rate_le16 (n : Nat) (s : State) (h8 : 8 ≤ n) (h : n ≤ 16) :
    rate n s = bytes64 s.x0 ++ (bytes64 s.x1).take (n - 8) := by
  unfold rate stateBytes
  simp only [List.append_assoc]
  rw [List.take_append, List.take_of_length_le (by simp [length_bytes64]; omega),
    length_bytes64, List.take_append_of_le_length (by simp [length_bytes64]; omega)]

theorem rate_16 (s : State) : rate 16 s = bytes64 s.x0 ++ bytes64 s.x1 := by
  rw [rate_le16 16 s (by omega) (by omega), List.take_of_length_le (by simp [length_bytes64])]

theorem pad16_lt8_take (l : List Byte) (h : l.length < 8) :
    le64 ((pad 16 l).take 8) = le64 l ^^^ ((1 : Word) <<< (8 * l.length)) := by
  rw [le64_take8, pad, le64_pad_short l _ h]

theorem pad16_lt8_drop (l : List Byte) (h : l.length < 8) : le64 ((pad 16 l).drop 8) = 0 := by
  unfold pad
  have e : 16 - 1 - l.length % 16 = (7 - l.length) + 8 := by omega
  rw [e, ← List.replicate_append_replicate, ← List.cons_append, ← List.append_assoc,
    List.drop_append_of_le_length (by simp; omega),
    List.drop_of_length_le (by simp; omega), List.nil_append, le64_replicate_zero]

theorem pad16_ge8_take (l : List Byte) (h8 : 8 ≤ l.length) :
    (pad 16 l).take 8 = l.take 8 := by
  unfold pad
  rw [List.take_append_of_le_length h8]

theorem pad16_ge8_drop (l : List Byte) (h8 : 8 ≤ l.length) (h : l.length < 16) :
    le64 ((pad 16 l).drop 8) = le64 (l.drop 8) ^^^ ((1 : Word) <<< (8 * (l.length - 8))) := by
  unfold pad
  rw [List.drop_append_of_le_length h8, le64_pad_short _ _ (by simp; omega), List.length_drop]

theorem length_pad16 (l : List Byte) (h : l.length < 16) : (pad 16 l).length = 16 := by
  rw [pad_length 16 l (by omega), Nat.div_eq_of_lt h]

/-- Adding the padded last block, short case. -/
theorem xorIn_pad16_lt8 (s : State) (l : List Byte) (h : l.length < 8) :
    xorIn s (pad 16 l) = { s with x0 := s.x0 ^^^ le64 l ^^^ ((1 : Word) <<< (8 * l.length)) } := by
  rw [xorIn_of_le16 _ _ (by rw [length_pad16 l (by omega)]; omega), pad16_lt8_take l h, pad16_lt8_drop l h]
  simp [BitVec.xor_assoc]

/-- Adding the padded last block, long case. -/
theorem xorIn_pad16_ge8 (s : State) (l : List Byte) (h8 : 8 ≤ l.length) (h : l.length < 16) :
    xorIn s (pad 16 l) =
      { s with x0 := s.x0 ^^^ le64 (l.take 8),
               x1 := s.x1 ^^^ le64 (l.drop 8) ^^^ ((1 : Word) <<< (8 * (l.length - 8))) } := by
  rw [xorIn_of_le16 _ _ (by rw [length_pad16 l (by omega)]; omega), pad16_ge8_take l h8,
    pad16_ge8_drop l h8 h]
  simp [BitVec.xor_assoc]

/-- Bytes below the padding bit do not see it. -/
theorem take_bytes64_xor_pad (x : Word) (n : Nat) (h : n ≤ 8) :
    (bytes64 (x ^^^ ((1 : Word) <<< (8 * n)))).take n = (bytes64 x).take n := by
  apply List.ext_getElem
  · simp [length_bytes64]
  · intro i h1 h2
    simp only [List.length_take, length_bytes64] at h1 h2
    rw [List.getElem_take, List.getElem_take]
    apply BitVec.eq_of_getLsbD_eq
    intro j hj
    rw [getLsbD_bytes64, getLsbD_bytes64, BitVec.getLsbD_xor, BitVec.getLsbD_shiftLeft]
    have : 8 * i + j < 8 * n := by omega
    simp [this]

end Ascon.Spec
