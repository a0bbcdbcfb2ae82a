import Verif.Spec.Variants
import Verif.Proof.SpecAead
/-!
# Facts about the specification of the Ascon AEAD family
-/

namespace Ascon.Spec

attribute [local irreducible] perm

theorem le64_append_zeros_take (b : List Byte) (n j : Nat) :
    le64 (((b ++ List.replicate n 0).drop j).take 8) = le64 ((b.drop j).take 8) := by
  rw [le64_take8, le64_take8, List.drop_append, List.drop_replicate, le64_append_zeros]

theorem xorIn_append_zeros (s : State) (b : List Byte) (n : Nat) :
    xorIn s (b ++ List.replicate n 0) = xorIn s b := by
  unfold xorIn
  have h0 := le64_append_zeros_take b n 0
  rw [List.drop_zero, List.drop_zero] at h0
  rw [h0, le64_append_zeros_take, le64_append_zeros_take, le64_append_zeros_take, le64_append_zeros_take]

theorem bytes64_xor_le64 (x : Word) (l : List Byte) (h : l.length = 8) :
    bytes64 (x ^^^ le64 l) = xorBytes (bytes64 x) l := by
  rw [bytes64_xor, bytes64_le64 l h]

theorem xorBytes_append (a b c d : List Byte) (h : a.length = c.length) :
    xorBytes (a ++ b) (c ++ d) = xorBytes a c ++ xorBytes b d := List.zipWith_append h

theorem stateBytes_xorIn40 (s : State) (b : List Byte) (h : b.length = 40) :
    stateBytes (xorIn s b) = xorBytes (stateBytes s) b := by
  have hb : b = b.take 8 ++ ((b.drop 8).take 8 ++ ((b.drop 16).take 8 ++ ((b.drop 24).take 8 ++ (b.drop 32).take 8))) := by
    rw [List.take_of_length_le (l := b.drop 32) (by simp; omega),
      show b.drop 32 = (b.drop 24).drop 8 by rw [List.drop_drop], List.take_append_drop,
      show b.drop 24 = (b.drop 16).drop 8 by rw [List.drop_drop], List.take_append_drop,
      show b.drop 16 = (b.drop 8).drop 8 by rw [List.drop_drop], List.take_append_drop, List.take_append_drop]
  have hl : ∀ j, j + 8 ≤ 40 → ((b.drop j).take 8).length = 8 := by intro j hj; simp; omega
  have h0 : (b.take 8).length = 8 := by simp; omega
  conv => rhs; rw [hb]
  unfold stateBytes xorIn
  simp only [List.append_assoc]
  rw [bytes64_xor_le64 _ _ h0, bytes64_xor_le64 _ _ (hl 8 (by omega)), bytes64_xor_le64 _ _ (hl 16 (by omega)),
    bytes64_xor_le64 _ _ (hl 24 (by omega)), bytes64_xor_le64 _ _ (hl 32 (by omega)),
    xorBytes_append _ _ _ _ (by rw [length_bytes64, h0]),
    xorBytes_append _ _ _ _ (by rw [length_bytes64, hl 8 (by omega)]),
    xorBytes_append _ _ _ _ (by rw [length_bytes64, hl 16 (by omega)]),
    xorBytes_append _ _ _ _ (by rw [length_bytes64, hl 24 (by omega)])]

/-- The first bytes of the state after adding a block. -/
theorem rate_xorIn (s : State) (b : List Byte) (n : Nat) (hb : b.length ≤ 40) (hn : n ≤ b.length) :
    rate n (xorIn s b) = xorBytes (rate n s) (b.take n) := by
  unfold rate
  rw [← xorIn_append_zeros s b (40 - b.length), stateBytes_xorIn40 _ _ (by simp; omega), xorBytes_take,
    List.take_append_of_le_length hn]

namespace Variant

variable (V : Variant)

/-- The parameters are those of a sponge on 40 bytes. -/
structure Ok : Prop where
  pos : 0 < V.r
  le : V.r ≤ 40

theorem encBody_of_ge (h0 : 0 < V.r) (s : State) (p : List Byte) (h : V.r ≤ p.length) :
    V.encBody s p = ((V.encBody (perm V.b (xorIn s (p.take V.r))) (p.drop V.r)).1,
      rate V.r (xorIn s (p.take V.r)) ++ (V.encBody (perm V.b (xorIn s (p.take V.r))) (p.drop V.r)).2) := by
  unfold encBody
  rw [fullBlocks_of_ge V.r p h0 h, lastBlock_of_ge V.r p h0 h]
  simp only [encBlocks, List.append_assoc]

theorem encBody_of_lt (s : State) (p : List Byte) (h : p.length < V.r) :
    V.encBody s p = (xorIn s (pad V.r p), rate p.length (xorIn s (pad V.r p))) := by
  unfold encBody
  rw [fullBlocks_of_lt V.r p h, lastBlock_of_lt V.r p h]
  simp only [encBlocks, List.nil_append]

theorem decBody_of_ge (h0 : 0 < V.r) (s : State) (c : List Byte) (h : V.r ≤ c.length) :
    V.decBody s c = ((V.decBody (perm V.b (xorIn s (xorBytes (rate V.r s) (c.take V.r)))) (c.drop V.r)).1,
      xorBytes (rate V.r s) (c.take V.r) ++
        (V.decBody (perm V.b (xorIn s (xorBytes (rate V.r s) (c.take V.r)))) (c.drop V.r)).2) := by
  unfold decBody
  rw [fullBlocks_of_ge V.r c h0 h, lastBlock_of_ge V.r c h0 h]
  simp only [decBlocks, List.append_assoc]

theorem decBody_of_lt (s : State) (c : List Byte) (h : c.length < V.r) :
    V.decBody s c = (xorIn s (pad V.r (xorBytes (rate c.length s) c)), xorBytes (rate c.length s) c) := by
  unfold decBody
  rw [fullBlocks_of_lt V.r c h, lastBlock_of_lt V.r c h]
  simp only [decBlocks, List.nil_append]

variable {V}

theorem rate_xorIn_pad' (hV : V.Ok) (s : State) (l : List Byte) (h : l.length < V.r) :
    rate l.length (xorIn s (pad V.r l)) = xorBytes (rate l.length s) l := by
  have hp : (pad V.r l).length = V.r := by
    rw [pad_length V.r l hV.pos, Nat.div_eq_of_lt h]; omega
  have := hV.le
  rw [rate_xorIn s _ _ (by omega) (by omega), pad_take_self]

theorem length_encBody (hV : V.Ok) (s : State) (p : List Byte) : (V.encBody s p).2.length = p.length := by
  have hp := hV.pos
  have hl := hV.le
  induction hn : p.length using Nat.strongRecOn generalizing s p with
  | ind n ih =>
    subst hn
    by_cases h : V.r ≤ p.length
    · rw [V.encBody_of_ge hp s p h]
      simp only [List.length_append]
      rw [ih (p.drop V.r).length (by simp; omega) _ _ rfl, length_rate _ _ hl]
      simp; omega
    · rw [V.encBody_of_lt s p (by omega)]
      exact length_rate _ _ (by omega)

theorem length_decBody (hV : V.Ok) (s : State) (p : List Byte) : (V.decBody s p).2.length = p.length := by
  have hp := hV.pos
  have hl := hV.le
  induction hn : p.length using Nat.strongRecOn generalizing s p with
  | ind n ih =>
    subst hn
    by_cases h : V.r ≤ p.length
    · rw [V.decBody_of_ge hp s p h]
      simp only [List.length_append]
      rw [ih (p.drop V.r).length (by simp; omega) _ _ rfl, length_xorBytes, length_rate _ _ hl]
      simp; omega
    · rw [V.decBody_of_lt s p (by omega)]
      simp only
      rw [length_xorBytes, length_rate _ _ (by omega)]; omega

theorem decBody_encBody (hV : V.Ok) (s : State) (p : List Byte) :
    V.decBody s (V.encBody s p).2 = ((V.encBody s p).1, p) := by
  have hp := hV.pos
  have hl := hV.le
  induction hn : p.length using Nat.strongRecOn generalizing s p with
  | ind n ih =>
    subst hn
    by_cases h : V.r ≤ p.length
    · have h16 : (p.take V.r).length = V.r := by simp; omega
      have hr : rate V.r (xorIn s (p.take V.r)) = xorBytes (rate V.r s) (p.take V.r) := by
        rw [rate_xorIn s _ V.r (by omega) (by omega), List.take_take]; simp
      have hrl : (rate V.r (xorIn s (p.take V.r))).length = V.r := length_rate _ _ (by omega)
      rw [V.encBody_of_ge hp s p h]
      simp only
      rw [V.decBody_of_ge hp _ _ (by simp [hrl])]
      rw [List.take_append_of_le_length (by omega), List.take_of_length_le (by omega),
        List.drop_append_of_le_length (by omega), List.drop_of_length_le (by omega), List.nil_append, hr,
        xorBytes_self_cancel _ _ (by rw [h16, length_rate _ _ (by omega)]; omega),
        ih (p.drop V.r).length (by simp; omega) _ _ rfl, List.take_append_drop]
    · rw [V.encBody_of_lt s p (by omega)]
      simp only
      have hl : (rate p.length (xorIn s (pad V.r p))).length = p.length := length_rate _ _ (by omega)
      rw [V.decBody_of_lt _ _ (by rw [hl]; omega), hl, rate_xorIn_pad' hV s p (by omega),
        xorBytes_self_cancel _ _ (by rw [length_rate _ _ (by omega)]; omega)]

theorem encBody_decBody (hV : V.Ok) (s : State) (c : List Byte) :
    V.encBody s (V.decBody s c).2 = ((V.decBody s c).1, c) := by
  have hp := hV.pos
  have hl := hV.le
  induction hn : c.length using Nat.strongRecOn generalizing s c with
  | ind n ih =>
    subst hn
    by_cases h : V.r ≤ c.length
    · have h16 : (c.take V.r).length = V.r := by simp; omega
      have hxl : (xorBytes (rate V.r s) (c.take V.r)).length = V.r := by
        rw [length_xorBytes, length_rate _ _ (by omega), h16]; simp
      rw [V.decBody_of_ge hp s c h]
      simp only
      rw [V.encBody_of_ge hp _ _ (by rw [List.length_append, hxl]; omega)]
      rw [List.take_append_of_le_length (by omega), List.take_of_length_le (by omega),
        List.drop_append_of_le_length (by omega), List.drop_of_length_le (by omega), List.nil_append,
        rate_xorIn s _ V.r (by omega) (by omega),
        List.take_of_length_le (l := xorBytes (rate V.r s) (c.take V.r)) (by omega),
        xorBytes_self_cancel _ _ (by rw [h16, length_rate _ _ (by omega)]; omega),
        ih (c.drop V.r).length (by simp; omega) _ _ rfl, List.take_append_drop]
    · rw [V.decBody_of_lt s c (by omega)]
      simp only
      have hl : (xorBytes (rate c.length s) c).length = c.length := by
        rw [length_xorBytes, length_rate _ _ (by omega)]; omega
      rw [V.encBody_of_lt _ _ (by rw [hl]; omega), rate_xorIn_pad' hV s _ (by rw [hl]; omega), hl,
        xorBytes_self_cancel _ _ (by rw [length_rate _ _ (by omega)]; omega)]

theorem length_tag (k : List Byte) (s : State) : (V.tag k s).length = 16 := by
  unfold tag
  rw [List.length_drop, length_stateBytes]

theorem length_encrypt (hV : V.Ok) (k n a p : List Byte) : (V.encrypt k n a p).length = p.length + 16 := by
  simp only [encrypt, List.length_append, length_encBody hV, length_tag]

theorem take_encrypt (hV : V.Ok) (k n a p : List Byte) :
    (V.encrypt k n a p).take p.length = (V.encBody (V.ad a (V.init k n)) p).2 := by
  unfold encrypt
  simp only
  have hl := length_encBody hV (V.ad a (V.init k n)) p
  rw [List.take_append_of_le_length (by omega), List.take_of_length_le (by omega)]

theorem drop_encrypt (hV : V.Ok) (k n a p : List Byte) :
    (V.encrypt k n a p).drop p.length = V.tag k (V.encBody (V.ad a (V.init k n)) p).1 := by
  unfold encrypt
  simp only
  have hl := length_encBody hV (V.ad a (V.init k n)) p
  rw [List.drop_append_of_le_length (by omega), List.drop_of_length_le (by omega), List.nil_append]

theorem decrypt_encrypt (hV : V.Ok) (k n a p : List Byte) : V.decrypt k n a (V.encrypt k n a p) = some p := by
  unfold decrypt
  have hl := length_encrypt hV k n a p
  rw [if_neg (by omega)]
  simp only [hl, Nat.add_sub_cancel]
  rw [take_encrypt hV, drop_encrypt hV, decTag, candidate, decBody_encBody hV, if_pos rfl]

theorem encrypt_of_decrypt (hV : V.Ok) {k n a c p : List Byte} (h : V.decrypt k n a c = some p) :
    c = V.encrypt k n a p := by
  unfold decrypt at h
  split at h
  · cases h
  · split at h
    case isTrue hc ht =>
      injection h with h
      rw [← List.take_append_drop (c.length - 16) c, ht, ← h]
      unfold encrypt
      simp only
      rw [candidate, encBody_decBody hV, decTag]
    case isFalse => cases h

theorem decrypt_eq_some_iff (hV : V.Ok) (k n a c p : List Byte) :
    V.decrypt k n a c = some p ↔ c = V.encrypt k n a p :=
  ⟨encrypt_of_decrypt hV, fun h => by rw [h, decrypt_encrypt hV]⟩

end Variant

end Ascon.Spec
