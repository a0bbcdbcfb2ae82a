import Verif.Props.Aead
/-!
# C81: a nonce used twice

Every block of 16 bytes is masked by 16 bytes that depend only on the key, the nonce, the associated data and the message before the block.
-/

namespace Ascon.Props

open Ascon.C Ascon.Spec Ascon.Impl
open Ascon.Ref (length_encBody length_decBody)

attribute [local irreducible] perm

theorem getElem?_xor (a b : List Byte) (x : Nat) (h1 : x < a.length) (h2 : x < b.length) :
    (xorBytes a b)[x]? = some (b.getD x 0 ^^^ a.getD x 0) := by
  unfold xorBytes
  rw [List.getElem?_zipWith, List.getElem?_eq_getElem h1, List.getElem?_eq_getElem h2, List.getD_eq_getElem?_getD,
    List.getD_eq_getElem?_getD, List.getElem?_eq_getElem h1, List.getElem?_eq_getElem h2]
  show some (a[x] ^^^ b[x]) = some (b[x] ^^^ a[x])
  rw [BitVec.xor_comm]

theorem getD_take {a : List Byte} {n x : Nat} (h : x < n) : (a.take n).getD x 0 = a.getD x 0 := by
  rw [List.getD_eq_getElem?_getD, List.getD_eq_getElem?_getD, List.getElem?_take, if_pos h]

theorem getD_rate (s : State) {n x : Nat} (hn : n ≤ 16) (h : x < n) : (rate n s).getD x 0 = (rate 16 s).getD x 0 := by
  unfold rate
  rw [getD_take h, getD_take (by omega)]

theorem first_enc (s : State) (Q : List Byte) (x : Nat) (h16 : x < 16) (hx : x < Q.length) :
    (encBody s Q).2[x]? = some (Q.getD x 0 ^^^ (rate 16 s).getD x 0) := by
  by_cases h : 16 ≤ Q.length
  · have hl : (Q.take 16).length = 16 := by simp; omega
    have hr := rate_xorIn16 s (Q.take 16) 16 hl (by omega)
    rw [List.take_take, Nat.min_self] at hr
    rw [encBody_of_ge s Q h]
    show (rate 16 (xorIn s (Q.take 16)) ++ _)[x]? = _
    rw [List.getElem?_append_left (by rw [length_rate _ _ (by omega)]; exact h16), hr,
      getElem?_xor _ _ _ (by rw [length_rate _ _ (by omega)]; exact h16) (by rw [hl]; exact h16), getD_take h16]
  · rw [encBody_of_lt s Q (by omega)]
    show (rate Q.length (xorIn s (pad 16 Q)))[x]? = _
    rw [rate_xorIn_pad s Q (by omega), getElem?_xor _ _ _ (by rw [length_rate _ _ (by omega)]; exact hx) hx,
      getD_rate s (by omega) hx]

theorem first_dec (s : State) (D : List Byte) (x : Nat) (h16 : x < 16) (hx : x < D.length) :
    (decBody s D).2[x]? = some (D.getD x 0 ^^^ (rate 16 s).getD x 0) := by
  by_cases h : 16 ≤ D.length
  · have hl : (D.take 16).length = 16 := by simp; omega
    rw [decBody_of_ge s D h]
    show (xorBytes (rate 16 s) (D.take 16) ++ _)[x]? = _
    rw [List.getElem?_append_left (by rw [length_xorBytes, length_rate _ _ (by omega), hl]; exact h16),
      getElem?_xor _ _ _ (by rw [length_rate _ _ (by omega)]; exact h16) (by rw [hl]; exact h16), getD_take h16]
  · rw [decBody_of_lt s D (by omega)]
    show (xorBytes (rate D.length s) D)[x]? = _
    rw [getElem?_xor _ _ _ (by rw [length_rate _ _ (by omega)]; exact hx) hx, getD_rate s (by omega) hx]

theorem keystream (s : State) (P : List Byte) (hP : P.length % 16 = 0) : ∃ Z : List Byte, Z.length = 16 ∧
    (∀ Q x, x < 16 → x < Q.length → (encBody s (P ++ Q)).2[P.length + x]? = some (Q.getD x 0 ^^^ Z.getD x 0)) ∧
    ∀ D x, x < 16 → x < D.length → (decBody s ((encBody s P).2 ++ D)).2[P.length + x]? = some (D.getD x 0 ^^^ Z.getD x 0) := by
  induction hn : P.length using Nat.strongRecOn generalizing s P with
  | ind n ih =>
    subst hn
    by_cases h : 16 ≤ P.length
    · have hl : (P.take 16).length = 16 := by simp; omega
      have hr := rate_xorIn16 s (P.take 16) 16 hl (by omega)
      rw [List.take_take, Nat.min_self] at hr
      have hrl : (rate 16 (xorIn s (P.take 16))).length = 16 := length_rate _ _ (by omega)
      have hd : (P.drop 16).length = P.length - 16 := List.length_drop
      obtain ⟨Z, z1, z2, z3⟩ := ih (P.drop 16).length (by omega) (perm 8 (xorIn s (P.take 16))) (P.drop 16) (by omega) rfl
      refine ⟨Z, z1, fun Q x h16 hx => ?_, fun D x h16 hx => ?_⟩
      · rw [encBody_of_ge s (P ++ Q) (by rw [List.length_append]; omega), List.take_append_of_le_length h,
          List.drop_append_of_le_length h]
        show (rate 16 _ ++ (encBody _ (P.drop 16 ++ Q)).2)[P.length + x]? = _
        rw [List.getElem?_append_right (by rw [hrl]; omega), hrl, show P.length + x - 16 = (P.drop 16).length + x by omega]
        exact z2 Q x h16 hx
      · rw [encBody_of_ge s P h]
        show (decBody s (rate 16 _ ++ (encBody _ (P.drop 16)).2 ++ D)).2[P.length + x]? = _
        rw [List.append_assoc, decBody_of_ge _ _ (by rw [List.length_append, hrl]; omega), List.take_append_of_le_length (by omega),
          List.take_of_length_le (by omega), List.drop_append_of_le_length (by omega), List.drop_of_length_le (by omega),
          List.nil_append]
        have hx16 : xorBytes (rate 16 s) (rate 16 (xorIn s (P.take 16))) = P.take 16 := by
          rw [hr]; exact xorBytes_self_cancel _ _ (by rw [hl, length_rate _ _ (by omega)]; omega)
        rw [hx16]
        show (P.take 16 ++ (decBody _ ((encBody _ (P.drop 16)).2 ++ D)).2)[P.length + x]? = _
        rw [List.getElem?_append_right (by omega), hl, show P.length + x - 16 = (P.drop 16).length + x by omega]
        exact z3 D x h16 hx
    · have h0 : P = [] := List.eq_nil_of_length_eq_zero (by omega)
      subst h0
      refine ⟨rate 16 s, length_rate _ _ (by omega), fun Q x h16 hx => ?_, fun D x h16 hx => ?_⟩
      · rw [List.nil_append, List.length_nil, Nat.zero_add]
        exact first_enc s Q x h16 hx
      · have : (encBody s []).2 = [] := List.eq_nil_of_length_eq_zero (length_encBody s [])
        rw [this, List.nil_append, List.length_nil, Nat.zero_add]
        exact first_dec s D x h16 hx

/-! ## C81 -/

/-- For a key, nonce, associated data and a beginning `P` of whole blocks there are 16 bytes `Z` such that, with every implementation,
the block after `P` of every ciphertext of a message `P ‖ Q` is the block of `Q` plus `Z`; and such that decryption of what begins with the
ciphertext of `P` puts, whatever the tag, the block of the ciphertext plus `Z` into the output. -/
theorem C81_keystream (K N A P : List Byte) (hP : P.length % 16 = 0) : ∃ Z : List Byte, Z.length = 16 ∧
    (∀ (i : Aead) (e : Endian) (_ : i.runsOn e) (mem : Mem) (sp c clen m ad nsec npub k : Nat) (Q : List Byte)
      (_ : EncPre mem sp c clen m ad npub k K N A (P ++ Q)),
      ∃ mem', run (i.encrypt e sp c clen m (P ++ Q).length ad A.length nsec npub k) mem = some (0, mem') ∧
        ∀ x, x < 16 → x < Q.length → (mem' (c + (P.length + x))).byte = some (Q.getD x 0 ^^^ Z.getD x 0)) ∧
    ∀ (i : Aead) (e : Endian) (_ : i.runsOn e) (mem : Mem) (sp m mlen nsec c ad npub k : Nat) (D T : List Byte) (_ : T.length = 16)
      (_ : DecPre mem sp m mlen c ad npub k K N A ((aeadEncrypt K N A P).take P.length ++ D ++ T)),
      ∃ r mem', run (i.decrypt e sp m mlen nsec c ((aeadEncrypt K N A P).take P.length ++ D ++ T).length ad A.length npub k) mem =
          some (r, mem') ∧
        ∀ x, x < 16 → x < D.length → (mem' (m + (P.length + x))).byte = some (D.getD x 0 ^^^ Z.getD x 0) := by
  obtain ⟨Z, z1, z2, z3⟩ := keystream (aeadAd A (aeadInit K N)) P hP
  refine ⟨Z, z1, ?_, ?_⟩
  · intro i e hi mem sp c clen m ad nsec npub k Q h
    refine ⟨_, i.encrypt_correct e hi mem sp c clen m ad nsec npub k K N A (P ++ Q) h, fun x h16 hx => ?_⟩
    have hh := (encPost_holds e h).take (P ++ Q).length
    rw [take_aeadEncrypt] at hh
    have hlt : P.length + x < (encBody (aeadAd A (aeadInit K N)) (P ++ Q)).2.length := by
      rw [length_encBody, List.length_append]; omega
    rw [hh _ hlt, ← z2 Q x h16 hx, List.getElem?_eq_getElem hlt]
  · intro i e hi mem sp m mlen nsec c ad npub k D T hT h
    refine ⟨_, _, i.decrypt_correct e hi mem sp m mlen nsec c ad npub k K N A _ h, fun x h16 hx => ?_⟩
    have hh := decPost_holds (mem := mem) (m := m) (mlen := mlen) (K := K) (N := N) (A := A)
      (C := (aeadEncrypt K N A P).take P.length ++ D ++ T) e
    have hc : ctBody ((aeadEncrypt K N A P).take P.length ++ D ++ T) = (encBody (aeadAd A (aeadInit K N)) P).2 ++ D := by
      unfold ctBody
      rw [take_aeadEncrypt, List.length_append, hT, Nat.add_sub_cancel, List.take_append_of_le_length (Nat.le_refl _),
        List.take_of_length_le (Nat.le_refl _)]
    rw [hc] at hh
    unfold aeadCandidate at hh
    have hlt : P.length + x < (decBody (aeadAd A (aeadInit K N)) ((encBody (aeadAd A (aeadInit K N)) P).2 ++ D)).2.length := by
      rw [length_decBody, List.length_append, length_encBody]; omega
    rw [hh _ hlt, ← z3 D x h16 hx, List.getElem?_eq_getElem hlt]

/-- (negative) Two messages encrypted with the same key, nonce and associated data: after a common beginning of whole blocks, the sum of the
ciphertexts is, in the next block, the sum of the messages. -/
theorem C81_nonce_reuse (i j : Aead) (e f : Endian) (hi : i.runsOn e) (hj : j.runsOn f) (mem1 mem2 : Mem)
    (sp1 c1 clen1 m1 ad1 nsec1 npub1 k1 sp2 c2 clen2 m2 ad2 nsec2 npub2 k2 : Nat) (K N A P Q Q' : List Byte) (hP : P.length % 16 = 0)
    (h1 : EncPre mem1 sp1 c1 clen1 m1 ad1 npub1 k1 K N A (P ++ Q)) (h2 : EncPre mem2 sp2 c2 clen2 m2 ad2 npub2 k2 K N A (P ++ Q')) :
    ∃ mem1' mem2', run (i.encrypt e sp1 c1 clen1 m1 (P ++ Q).length ad1 A.length nsec1 npub1 k1) mem1 = some (0, mem1') ∧
      run (j.encrypt f sp2 c2 clen2 m2 (P ++ Q').length ad2 A.length nsec2 npub2 k2) mem2 = some (0, mem2') ∧
      ∀ x, x < 16 → x < Q.length → x < Q'.length → ∃ u v, (mem1' (c1 + (P.length + x))).byte = some u ∧
        (mem2' (c2 + (P.length + x))).byte = some v ∧ u ^^^ v = Q.getD x 0 ^^^ Q'.getD x 0 := by
  obtain ⟨Z, -, z, -⟩ := C81_keystream K N A P hP
  obtain ⟨a, ra, ea⟩ := z i e hi mem1 sp1 c1 clen1 m1 ad1 nsec1 npub1 k1 Q h1
  obtain ⟨b, rb, eb⟩ := z j f hj mem2 sp2 c2 clen2 m2 ad2 nsec2 npub2 k2 Q' h2
  refine ⟨a, b, ra, rb, fun x h16 h h' => ⟨_, _, ea x h16 h, eb x h16 h', ?_⟩⟩
  generalize Q.getD x 0 = q
  generalize Q'.getD x 0 = q'
  generalize Z.getD x 0 = z
  rw [BitVec.xor_assoc, BitVec.xor_comm z, BitVec.xor_assoc, BitVec.xor_self, BitVec.xor_zero]

/-- (negative) Who knows one message and its ciphertext reads the first block of every other message with the same key, nonce and associated
data: `u ⊕ v ⊕ q` is the byte of the message, where `u`, `v` are the bytes of the two ciphertexts and `q` that of the known message. -/
theorem C81_known_plaintext (i j : Aead) (e f : Endian) (hi : i.runsOn e) (hj : j.runsOn f) (mem1 mem2 : Mem)
    (sp1 c1 clen1 m1 ad1 nsec1 npub1 k1 sp2 c2 clen2 m2 ad2 nsec2 npub2 k2 : Nat) (K N A Q Q' : List Byte)
    (h1 : EncPre mem1 sp1 c1 clen1 m1 ad1 npub1 k1 K N A Q) (h2 : EncPre mem2 sp2 c2 clen2 m2 ad2 npub2 k2 K N A Q') :
    ∃ mem1' mem2', run (i.encrypt e sp1 c1 clen1 m1 Q.length ad1 A.length nsec1 npub1 k1) mem1 = some (0, mem1') ∧
      run (j.encrypt f sp2 c2 clen2 m2 Q'.length ad2 A.length nsec2 npub2 k2) mem2 = some (0, mem2') ∧
      ∀ x, x < 16 → x < Q.length → x < Q'.length → ∃ u v, (mem1' (c1 + x)).byte = some u ∧
        (mem2' (c2 + x)).byte = some v ∧ Q'.getD x 0 = u ^^^ v ^^^ Q.getD x 0 := by
  obtain ⟨a, b, ra, rb, h⟩ := C81_nonce_reuse i j e f hi hj mem1 mem2 sp1 c1 clen1 m1 ad1 nsec1 npub1 k1 sp2 c2 clen2 m2 ad2 nsec2 npub2 k2
    K N A [] Q Q' rfl h1 h2
  refine ⟨a, b, ra, rb, fun x h16 hx hx' => ?_⟩
  obtain ⟨u, v, eu, ev, huv⟩ := h x h16 hx hx'
  rw [List.length_nil, Nat.zero_add] at eu ev
  refine ⟨u, v, eu, ev, ?_⟩
  rw [huv, BitVec.xor_comm (Q.getD x 0), BitVec.xor_assoc, BitVec.xor_self, BitVec.xor_zero]

/-- (negative) The plaintext that decryption leaves in the output, also when it returns -1 (C32), changes in one bit of a block when this
bit of the ciphertext is changed: two inputs that agree before the block, with any tags. -/
theorem C81_malleable (i j : Aead) (e f : Endian) (hi : i.runsOn e) (hj : j.runsOn f) (mem1 mem2 : Mem)
    (sp1 m1 mlen1 nsec1 c1 ad1 npub1 k1 sp2 m2 mlen2 nsec2 c2 ad2 npub2 k2 : Nat) (K N A P D D' T T' : List Byte) (hP : P.length % 16 = 0)
    (hT : T.length = 16) (hT' : T'.length = 16)
    (h1 : DecPre mem1 sp1 m1 mlen1 c1 ad1 npub1 k1 K N A ((aeadEncrypt K N A P).take P.length ++ D ++ T))
    (h2 : DecPre mem2 sp2 m2 mlen2 c2 ad2 npub2 k2 K N A ((aeadEncrypt K N A P).take P.length ++ D' ++ T')) :
    ∃ r1 r2 mem1' mem2',
      run (i.decrypt e sp1 m1 mlen1 nsec1 c1 ((aeadEncrypt K N A P).take P.length ++ D ++ T).length ad1 A.length npub1 k1) mem1 =
        some (r1, mem1') ∧
      run (j.decrypt f sp2 m2 mlen2 nsec2 c2 ((aeadEncrypt K N A P).take P.length ++ D' ++ T').length ad2 A.length npub2 k2) mem2 =
        some (r2, mem2') ∧
      ∀ x, x < 16 → x < D.length → x < D'.length → ∃ u v, (mem1' (m1 + (P.length + x))).byte = some u ∧
        (mem2' (m2 + (P.length + x))).byte = some v ∧ u ^^^ v = D.getD x 0 ^^^ D'.getD x 0 := by
  obtain ⟨Z, -, -, z⟩ := C81_keystream K N A P hP
  obtain ⟨r, a, ra, ea⟩ := z i e hi mem1 sp1 m1 mlen1 nsec1 c1 ad1 npub1 k1 D T hT h1
  obtain ⟨r', b, rb, eb⟩ := z j f hj mem2 sp2 m2 mlen2 nsec2 c2 ad2 npub2 k2 D' T' hT' h2
  refine ⟨r, r', a, b, ra, rb, fun x h16 h h' => ⟨_, _, ea x h16 h, eb x h16 h', ?_⟩⟩
  generalize D.getD x 0 = q
  generalize D'.getD x 0 = q'
  generalize Z.getD x 0 = z
  rw [BitVec.xor_assoc, BitVec.xor_comm z, BitVec.xor_assoc, BitVec.xor_self, BitVec.xor_zero]

/-! ## Concrete cases -/

example : EncPre Demo.mem 1000 200 300 100 32 16 0 Demo.K Demo.N Demo.A (Demo.P.take 16 ++ Demo.P.drop 16) ∧
    (Demo.P.take 16).length % 16 = 0 ∧ 0 < (Demo.P.drop 16).length := ⟨Demo.encPre, by decide, by decide⟩

example : ∃ P D T, P.length = 16 ∧ 0 < D.length ∧ T.length = 16 ∧
    DecPre Demo.memC 1000 100 300 200 32 16 0 Demo.K Demo.N Demo.A ((aeadEncrypt Demo.K Demo.N Demo.A P).take P.length ++ D ++ T) := by
  have e : (aeadEncrypt Demo.K Demo.N Demo.A (decBody (aeadAd Demo.A (aeadInit Demo.K Demo.N)) (Demo.C.take 16)).2).take
      (decBody (aeadAd Demo.A (aeadInit Demo.K Demo.N)) (Demo.C.take 16)).2.length = Demo.C.take 16 := by
    rw [take_aeadEncrypt, encBody_decBody]
  refine ⟨(decBody (aeadAd Demo.A (aeadInit Demo.K Demo.N)) (Demo.C.take 16)).2, (Demo.C.drop 16).take 4, Demo.C.drop 20,
    by rw [length_decBody]; decide, by decide, by decide, ?_⟩
  rw [e]
  exact Demo.decPre

end Ascon.Props
