import Verif.Proof.RefAead
/-!
# Facts about the specification of Ascon-AEAD128

Decryption inverts encryption and conversely; verified decryption accepts exactly the outputs of encryption.
-/

namespace Ascon.Spec

open Ascon.Ref (length_encBlocks length_fullBlocks length_aeadTag length_encBody length_decBody)

attribute [local irreducible] perm

/-- The rate part after adding a 16-byte block. -/
theorem rate_xorIn16 (s : State) (b : List Byte) (n : Nat) (hb : b.length = 16) (hn : n ≤ 16) :
    rate n (xorIn s b) = xorBytes (rate n s) (b.take n) := by
  have h16 : rate 16 (xorIn s b) = xorBytes (rate 16 s) b := by
    rw [rate_16, rate_16, xorIn_of_le16 s b (by omega)]
    simp only
    rw [bytes64_xor, bytes64_xor, bytes64_le64 _ (by simp; omega), bytes64_le64 _ (by simp; omega)]
    conv => rhs; rw [← List.take_append_drop 8 b]
    simp only [xorBytes]
    rw [List.zipWith_append (by simp [length_bytes64]; omega)]
  have e : ∀ t : State, rate n t = (rate 16 t).take n := by
    intro t; unfold rate; rw [List.take_take, Nat.min_eq_left hn]
  rw [e, h16, xorBytes_take, ← e]

theorem encBody_of_ge (s : State) (p : List Byte) (h : 16 ≤ p.length) :
    encBody s p = ((encBody (perm 8 (xorIn s (p.take 16))) (p.drop 16)).1,
      rate 16 (xorIn s (p.take 16)) ++ (encBody (perm 8 (xorIn s (p.take 16))) (p.drop 16)).2) := by
  unfold encBody
  rw [fullBlocks_of_ge 16 p (by omega) h, lastBlock_of_ge 16 p (by omega) h]
  simp only [encBlocks, List.append_assoc]

theorem encBody_of_lt (s : State) (p : List Byte) (h : p.length < 16) :
    encBody s p = (xorIn s (pad 16 p), rate p.length (xorIn s (pad 16 p))) := by
  unfold encBody
  rw [fullBlocks_of_lt 16 p h, lastBlock_of_lt 16 p h]
  simp only [encBlocks, List.nil_append]

theorem decBody_of_ge (s : State) (c : List Byte) (h : 16 ≤ c.length) :
    decBody s c = ((decBody (perm 8 (xorIn s (xorBytes (rate 16 s) (c.take 16)))) (c.drop 16)).1,
      xorBytes (rate 16 s) (c.take 16) ++
        (decBody (perm 8 (xorIn s (xorBytes (rate 16 s) (c.take 16)))) (c.drop 16)).2) := by
  unfold decBody
  rw [fullBlocks_of_ge 16 c (by omega) h, lastBlock_of_ge 16 c (by omega) h]
  simp only [decBlocks, List.append_assoc]

theorem decBody_of_lt (s : State) (c : List Byte) (h : c.length < 16) :
    decBody s c = (xorIn s (pad 16 (xorBytes (rate c.length s) c)), xorBytes (rate c.length s) c) := by
  unfold decBody
  rw [fullBlocks_of_lt 16 c h, lastBlock_of_lt 16 c h]
  simp only [decBlocks, List.nil_append]

theorem pad_take_self (r : Nat) (m : List Byte) : (pad r m).take m.length = m := by
  unfold pad; simp

theorem rate_xorIn_pad (s : State) (l : List Byte) (h : l.length < 16) :
    rate l.length (xorIn s (pad 16 l)) = xorBytes (rate l.length s) l := by
  rw [rate_xorIn16 s _ _ (length_pad16 l h) (by omega), pad_take_self]

/-- Decrypting an encrypted body restores the plaintext and the state. -/
theorem decBody_encBody (s : State) (p : List Byte) :
    decBody s (encBody s p).2 = ((encBody s p).1, p) := by
  induction hn : p.length using Nat.strongRecOn generalizing s p with
  | ind n ih =>
    subst hn
    by_cases h : 16 ≤ p.length
    · have h16 : (p.take 16).length = 16 := by simp; omega
      have hr : rate 16 (xorIn s (p.take 16)) = xorBytes (rate 16 s) (p.take 16) := by
        rw [rate_xorIn16 s _ 16 h16 (by omega), List.take_take]; simp
      have hrl : (rate 16 (xorIn s (p.take 16))).length = 16 := length_rate _ _ (by omega)
      rw [encBody_of_ge s p h]
      simp only
      rw [decBody_of_ge _ _ (by simp [hrl])]
      rw [List.take_append_of_le_length (by omega), List.take_of_length_le (by omega),
        List.drop_append_of_le_length (by omega), List.drop_of_length_le (by omega), List.nil_append, hr,
        xorBytes_self_cancel _ _ (by rw [h16, length_rate _ _ (by omega)]; omega),
        ih (p.drop 16).length (by simp; omega) _ _ rfl, List.take_append_drop]
    · rw [encBody_of_lt s p (by omega)]
      simp only
      have hl : (rate p.length (xorIn s (pad 16 p))).length = p.length := length_rate _ _ (by omega)
      rw [decBody_of_lt _ _ (by rw [hl]; omega), hl, rate_xorIn_pad s p (by omega),
        xorBytes_self_cancel _ _ (by rw [length_rate _ _ (by omega)]; omega)]

/-- Encrypting a decrypted body restores the ciphertext and the state. -/
theorem encBody_decBody (s : State) (c : List Byte) :
    encBody s (decBody s c).2 = ((decBody s c).1, c) := by
  induction hn : c.length using Nat.strongRecOn generalizing s c with
  | ind n ih =>
    subst hn
    by_cases h : 16 ≤ c.length
    · have h16 : (c.take 16).length = 16 := by simp; omega
      have hxl : (xorBytes (rate 16 s) (c.take 16)).length = 16 := by
        rw [length_xorBytes, length_rate _ _ (by omega), h16]; rfl
      rw [decBody_of_ge s c h]
      simp only
      rw [encBody_of_ge _ _ (by simp [length_rate 16 s (by omega)]; omega)]
      rw [List.take_append_of_le_length (by omega), List.take_of_length_le (by omega),
        List.drop_append_of_le_length (by omega), List.drop_of_length_le (by omega), List.nil_append,
        rate_xorIn16 s _ 16 hxl (by omega),
        List.take_of_length_le (l := xorBytes (rate 16 s) (c.take 16)) (by omega),
        xorBytes_self_cancel _ _ (by rw [h16, length_rate _ _ (by omega)]; omega),
        ih (c.drop 16).length (by simp; omega) _ _ rfl, List.take_append_drop]
    · rw [decBody_of_lt s c (by omega)]
      simp only
      have hl : (xorBytes (rate c.length s) c).length = c.length := by
        rw [length_xorBytes, length_rate _ _ (by omega)]; omega
      rw [encBody_of_lt _ _ (by rw [hl]; omega), rate_xorIn_pad s _ (by rw [hl]; omega), hl,
        xorBytes_self_cancel _ _ (by rw [length_rate _ _ (by omega)]; omega)]

theorem length_aeadEncrypt (k n a p : List Byte) : (aeadEncrypt k n a p).length = p.length + 16 := by
  simp only [aeadEncrypt, List.length_append, length_encBody, length_aeadTag]

theorem take_aeadEncrypt (k n a p : List Byte) :
    (aeadEncrypt k n a p).take p.length = (encBody (aeadAd a (aeadInit k n)) p).2 := by
  unfold aeadEncrypt
  simp only
  have hl := length_encBody (aeadAd a (aeadInit k n)) p
  rw [List.take_append_of_le_length (by omega), List.take_of_length_le (by omega)]

theorem drop_aeadEncrypt (k n a p : List Byte) :
    (aeadEncrypt k n a p).drop p.length = aeadTag k (encBody (aeadAd a (aeadInit k n)) p).1 := by
  unfold aeadEncrypt
  simp only
  have hl := length_encBody (aeadAd a (aeadInit k n)) p
  rw [List.drop_append_of_le_length (by omega), List.drop_of_length_le (by omega), List.nil_append]

/-- Round trip. -/
theorem aeadDecrypt_aeadEncrypt (k n a p : List Byte) :
    aeadDecrypt k n a (aeadEncrypt k n a p) = some p := by
  unfold aeadDecrypt
  have hl := length_aeadEncrypt k n a p
  rw [if_neg (by omega)]
  simp only [hl, Nat.add_sub_cancel]
  rw [take_aeadEncrypt, drop_aeadEncrypt, aeadDecTag, aeadCandidate, decBody_encBody, if_pos rfl]

/-- Verified decryption accepts only outputs of encryption. -/
theorem aeadEncrypt_of_aeadDecrypt {k n a c p : List Byte} (h : aeadDecrypt k n a c = some p) :
    c = aeadEncrypt k n a p := by
  unfold aeadDecrypt at h
  split at h
  · cases h
  · simp only at h
    split at h
    case isTrue hc ht =>
      injection h with h
      rw [← List.take_append_drop (c.length - 16) c, ht, ← h]
      unfold aeadEncrypt
      simp only
      rw [aeadCandidate, encBody_decBody, aeadDecTag]
    case isFalse => cases h

/-- Verified decryption accepts exactly the genuine ciphertexts. -/
theorem aeadDecrypt_eq_some_iff (k n a c p : List Byte) :
    aeadDecrypt k n a c = some p ↔ c = aeadEncrypt k n a p :=
  ⟨aeadEncrypt_of_aeadDecrypt, fun h => by rw [h, aeadDecrypt_aeadEncrypt]⟩

theorem aeadEncrypt_injective {k n a p q : List Byte} (h : aeadEncrypt k n a p = aeadEncrypt k n a q) : p = q := by
  have h1 := aeadDecrypt_aeadEncrypt k n a p
  rw [h, aeadDecrypt_aeadEncrypt] at h1
  injection h1 with h1
  exact h1.symm

/-- Online: the body of the ciphertext of `p ++ q`, with `|p|` a multiple of the rate, starts with the
body of the ciphertext of `p`. -/
theorem encBody_append (s : State) (p q : List Byte) (h : p.length % 16 = 0) :
    (encBody s (p ++ q)).2.take p.length = (encBody s p).2 := by
  induction hn : p.length using Nat.strongRecOn generalizing s p with
  | ind n ih =>
    by_cases h0 : p.length = 0
    · have : p = [] := by simpa using h0
      subst this
      have : (encBody s []).2.length = 0 := length_encBody s []
      rw [← hn]; simp only [List.length_nil, List.take_zero]
      exact (List.length_eq_zero_iff.mp this).symm
    · have h16 : 16 ≤ p.length := by omega
      have hrl := length_rate 16 (xorIn s (p.take 16)) (by omega)
      rw [encBody_of_ge s (p ++ q) (by simp; omega), encBody_of_ge s p h16]
      simp only
      rw [List.take_append_of_le_length h16, List.drop_append_of_le_length h16, List.take_append,
        List.take_of_length_le (by omega), hrl, ← hn, show p.length - 16 = (p.drop 16).length by simp,
        ih (p.drop 16).length (by simp; omega) _ _ (by simp; omega) rfl]

end Ascon.Spec
