import Verif.Proof.RvTop
import Verif.Spec.Ascon128a
/-!
# The duplex construction of the RISC-V code with the codec of Ascon v1.2 is Ascon-128a
-/

namespace Ascon.Rv

open Ascon.C Ascon.Spec Ascon.Gen
open Ascon.Spec.V12 (be64 beBytes)

attribute [local irreducible] perm

/-! ## Generic facts about codecs -/

theorem xorBytes_append {a b c d : List Byte} (h : a.length = c.length) :
    xorBytes (a ++ b) (c ++ d) = xorBytes a c ++ xorBytes b d := by
  simp only [xorBytes]; rw [List.zipWith_append h]

namespace Variant
variable {V : Variant}

theorem ld_xor (h : V.Ok) (a b : List Byte) (ha : a.length = 8) (hb : b.length = 8) :
    V.ld (xorBytes a b) = V.ld a ^^^ V.ld b := by
  have := h.st_xor (V.ld a) (V.ld b)
  rw [h.st_ld a ha, h.st_ld b hb] at this
  rw [← this, h.ld_st]

theorem rate_take (h : V.Ok) (s : State) : (V.rate s).take 8 = V.st s.x0 ∧ (V.rate s).drop 8 = V.st s.x1 := by
  unfold rate
  rw [List.take_append_of_le_length (by rw [h.len]; omega), List.take_of_length_le (by rw [h.len]; omega),
    List.drop_append_of_le_length (by rw [h.len]; omega), List.drop_of_length_le (by rw [h.len]; omega)]
  exact ⟨rfl, List.nil_append _⟩

theorem rate_xorIn (h : V.Ok) (s : State) (b : List Byte) (hb : b.length = 16) :
    V.rate (V.xorIn s b) = xorBytes (V.rate s) b := by
  have e : b = b.take 8 ++ b.drop 8 := (List.take_append_drop 8 b).symm
  show V.st (s.x0 ^^^ V.ld (b.take 8)) ++ V.st (s.x1 ^^^ V.ld (b.drop 8)) = xorBytes (V.st s.x0 ++ V.st s.x1) b
  rw [h.st_xor, h.st_xor, h.st_ld _ (by simp; omega), h.st_ld _ (by simp; omega)]
  conv => rhs; rw [e]
  rw [xorBytes_append (by rw [h.len]; simp; omega)]

theorem setIn_eq (h : V.Ok) (s : State) (b : List Byte) (hb : b.length = 16) :
    V.setIn s b = V.xorIn s (xorBytes (V.rate s) b) := by
  have e : b = b.take 8 ++ b.drop 8 := (List.take_append_drop 8 b).symm
  have l1 : (b.take 8).length = 8 := by rw [List.length_take, hb]; rfl
  have l2 : (b.drop 8).length = 8 := by rw [List.length_drop, hb]
  have hx : xorBytes (V.rate s) b = xorBytes (V.st s.x0) (b.take 8) ++ xorBytes (V.st s.x1) (b.drop 8) := by
    conv => lhs; rw [e]
    unfold rate
    rw [xorBytes_append (by rw [h.len, l1])]
  have hl : (xorBytes (V.st s.x0) (b.take 8)).length = 8 := by rw [length_xorBytes, h.len, l1]; rfl
  have hc : ∀ x y : Word, x ^^^ (x ^^^ y) = y := fun x y => by rw [← BitVec.xor_assoc, BitVec.xor_self, BitVec.zero_xor]
  have ht : (xorBytes (V.rate s) b).take 8 = xorBytes (V.st s.x0) (b.take 8) := by rw [hx, List.take_left' hl]
  have hd : (xorBytes (V.rate s) b).drop 8 = xorBytes (V.st s.x1) (b.drop 8) := by rw [hx, List.drop_left' hl]
  unfold setIn xorIn
  rw [ht, hd, ld_xor h _ _ (h.len _) l1, ld_xor h _ _ (h.len _) l2, h.ld_st, h.ld_st, hc, hc]

theorem pad_take (l : List Byte) : (V.pad l).take l.length = l := by
  unfold pad; rw [List.take_append_of_le_length (by omega), List.take_of_length_le (by omega)]

theorem finO_eq (h : V.Ok) (s : State) (l : List Byte) (hl : l.length < 16) :
    V.finO s l = xorBytes ((V.rate s).take l.length) l := by
  unfold finO
  rw [rate_xorIn h s _ (length_pad l hl), xorBytes_take, pad_take]

/-- What replaces the last block in decryption. -/
theorem dec_tail (h : V.Ok) (s : State) (C : List Byte) (hC : C.length < 16) :
    C ++ (V.rate (V.xorIn s (V.pad C))).drop C.length =
      xorBytes (V.rate s) (V.pad (xorBytes ((V.rate s).take C.length) C)) := by
  rw [rate_xorIn h s _ (length_pad C hC)]
  have hrl := length_rate h s
  have hr1 : ((V.rate s).take C.length).length = C.length := by rw [List.length_take, hrl]; omega
  have hx : (xorBytes ((V.rate s).take C.length) C).length = C.length := by
    rw [length_xorBytes, hr1]; omega
  have hr : V.rate s = (V.rate s).take C.length ++ (V.rate s).drop C.length := (List.take_append_drop _ _).symm
  generalize (V.rate s).take C.length = r1 at *
  generalize (V.rate s).drop C.length = r2 at *
  rw [hr]
  unfold pad
  rw [hx]
  generalize V.padB :: List.replicate (15 - C.length) 0 = z
  rw [xorBytes_append hr1, xorBytes_append (by omega), List.drop_append_of_le_length (by omega),
    List.drop_of_length_le (by omega), List.nil_append, xorBytes_self_cancel _ _ (by omega)]

theorem finS_dec (h : V.Ok) (s : State) (C : List Byte) (hC : C.length < 16) :
    V.finS .dec s C C = V.xorIn s (V.pad (xorBytes ((V.rate s).take C.length) C)) := by
  have hrl := length_rate h s
  have hx : (xorBytes ((V.rate s).take C.length) C).length = C.length := by
    rw [length_xorBytes, List.length_take, hrl]; omega
  have hp : (V.pad (xorBytes ((V.rate s).take C.length) C)).length = 16 := length_pad _ (by omega)
  show V.setIn s (C ++ (V.rate (V.xorIn s (V.pad C))).drop C.length) = _
  rw [dec_tail h s C hC, setIn_eq h _ _ (by rw [length_xorBytes, hrl, hp]; rfl),
    xorBytes_self_cancel _ _ (by omega)]

/-- Decryption undoes encryption. -/
theorem dec_enc (h : V.Ok) (s : State) (P l' : List Byte) :
    V.duplex .dec s (V.duplex .enc s P l').2 (lastBlock 16 (V.duplex .enc s P l').2) = ((V.duplex .enc s P l').1, P) := by
  induction hn : P.length using Nat.strongRecOn generalizing s P with
  | ind n ih =>
    subst hn
    have hrl := length_rate h
    by_cases h16 : 16 ≤ P.length
    · have hl : (P.take 16).length = 16 := by simp; omega
      rw [duplex_of_ge .enc s P l' h16]
      simp only
      have e1 : V.stepS .enc s (P.take 16) = V.xorIn s (P.take 16) := rfl
      rw [e1]
      have hC : ∀ X : List Byte, (V.rate (V.xorIn s (P.take 16)) ++ X).take 16 = V.rate (V.xorIn s (P.take 16)) ∧
          (V.rate (V.xorIn s (P.take 16)) ++ X).drop 16 = X ∧ 16 ≤ (V.rate (V.xorIn s (P.take 16)) ++ X).length := fun X => by
        rw [List.take_append_of_le_length (by rw [hrl]; exact Nat.le_refl _), List.take_of_length_le (by rw [hrl]; exact Nat.le_refl _),
          List.drop_append_of_le_length (by rw [hrl]; exact Nat.le_refl _), List.drop_of_length_le (by rw [hrl]; exact Nat.le_refl _),
          List.length_append, hrl]
        exact ⟨rfl, List.nil_append _, by omega⟩
      have := ih (P.drop 16).length (by simp; omega) (perm 8 (V.xorIn s (P.take 16))) (P.drop 16) rfl
      generalize V.duplex .enc (perm 8 (V.xorIn s (P.take 16))) (P.drop 16) l' = X at this ⊢
      obtain ⟨c1, c2, c3⟩ := hC X.2
      rw [duplex_of_ge .dec s _ _ c3, lastBlock_of_ge 16 _ (by omega) c3, c1, c2]
      have e2 : V.stepS .dec s (V.rate (V.xorIn s (P.take 16))) = V.xorIn s (P.take 16) := by
        show V.setIn s _ = _
        rw [setIn_eq h _ _ (hrl _), rate_xorIn h s _ hl, xorBytes_self_cancel _ _ (by rw [hrl, hl]; exact Nat.le_refl _)]
      rw [e2, this, rate_xorIn h s _ (hrl _), rate_xorIn h s _ hl, xorBytes_self_cancel _ _ (by rw [hrl, hl]; exact Nat.le_refl _)]
      simp only
      rw [List.take_append_drop]
    · have hP : P.length < 16 := by omega
      rw [duplex_of_lt .enc s P l' hP]
      simp only
      have hol := length_finO h s P hP
      rw [duplex_of_lt .dec s _ _ (by omega), lastBlock_of_lt 16 _ (by omega), finS_dec h _ _ (by omega), finO_eq h s (V.finO s P) (by omega), hol]
      have e : xorBytes ((V.rate s).take P.length) (V.finO s P) = P := by
        rw [finO_eq h s P hP, xorBytes_self_cancel _ _ (by rw [List.length_take, hrl]; omega)]
      rw [e]
      rfl

/-! ## The codec of Ascon v1.2 -/

/-- Ascon v1.2. -/
def v12 : Variant := ⟨be64, beBytes, V12.iv, 0x80, 1⟩

end Variant

theorem be64_eq (b : List Byte) : be64 b = le64 b.reverse := by
  unfold be64
  rw [List.foldl_eq_foldr_reverse]
  generalize b.reverse = l
  induction l with
  | nil => rfl
  | cons x l ih => rw [List.foldr_cons, ih]; exact BitVec.or_comm _ _

theorem beBytes_eq (w : Word) : beBytes w = (bytes64 w).reverse := by
  simp [beBytes, bytes64, List.range, List.range.loop]

namespace Variant

theorem v12_ok : v12.Ok where
  len w := by show (beBytes w).length = 8; rw [beBytes_eq, List.length_reverse, length_bytes64]
  ld_st w := by show be64 (beBytes w) = w; rw [be64_eq, beBytes_eq, List.reverse_reverse, le64_bytes64]
  st_ld b hb := by
    show beBytes (be64 b) = b
    rw [be64_eq, beBytes_eq, bytes64_le64 _ (by rw [List.length_reverse]; exact hb), List.reverse_reverse]
  st_xor a b := by
    show beBytes (a ^^^ b) = xorBytes (beBytes a) (beBytes b)
    rw [beBytes_eq, beBytes_eq, beBytes_eq, bytes64_xor]
    simp only [xorBytes]
    rw [List.reverse_zipWith (by simp [length_bytes64])]

theorem v12_pad (l : List Byte) (hl : l.length < 16) : v12.pad l = V12.pad l := by
  unfold pad V12.pad
  rw [Nat.mod_eq_of_lt hl]
  rfl

theorem v12_encBlocks (s : State) (bs : List (List Byte)) : v12.blocks .enc s bs = V12.encBlocks s bs := by
  induction bs generalizing s with
  | nil => rfl
  | cons b bs ih =>
    simp only [blocks, V12.encBlocks]
    have e : v12.stepS .enc s b = V12.xorIn s b := rfl
    rw [e, ih]
    rfl

theorem v12_decBlocks (s : State) (bs : List (List Byte)) (hb : ∀ b ∈ bs, b.length = 16) :
    v12.blocks .dec s bs = V12.decBlocks s bs := by
  induction bs generalizing s with
  | nil => rfl
  | cons b bs ih =>
    have hl := hb b List.mem_cons_self
    simp only [blocks, V12.decBlocks]
    have e : v12.stepS .dec s b = V12.xorIn s (xorBytes (V12.rate s) b) := setIn_eq v12_ok s b hl
    have e2 : v12.rate (v12.xorIn s b) = xorBytes (V12.rate s) b := rate_xorIn v12_ok s b hl
    rw [e, e2, ih _ fun c hc => hb c (List.mem_cons_of_mem _ hc)]

theorem v12_adBlocks (s : State) (bs : List (List Byte)) :
    (v12.blocks .ad s bs).1 = bs.foldl (fun s b => perm 8 (V12.xorIn s b)) s := by
  induction bs generalizing s with
  | nil => rfl
  | cons b bs ih =>
    simp only [blocks, List.foldl_cons]
    exact ih _

theorem lastBlock_lt (M : List Byte) : (lastBlock 16 M).length < 16 := by
  unfold lastBlock; rw [List.length_drop]; omega

theorem fullBlocks_len (M : List Byte) : ∀ b ∈ fullBlocks 16 M, b.length = 16 := by
  intro b hb
  unfold fullBlocks at hb
  obtain ⟨i, hi, rfl⟩ := List.mem_map.mp hb
  rw [List.mem_range] at hi
  rw [List.length_take, List.length_drop]
  have : 16 * (i + 1) ≤ 16 * (M.length / 16) := Nat.mul_le_mul_left 16 hi
  omega

theorem v12_enc (s : State) (P l' : List Byte) : v12.duplex .enc s P l' = V12.encBody s P := by
  have hl := lastBlock_lt P
  unfold duplex V12.encBody
  rw [v12_encBlocks]
  have e : ∀ q : State, v12.finS .enc q (lastBlock 16 P) l' = V12.xorIn q (V12.pad (lastBlock 16 P)) := fun q => by
    rw [← v12_pad _ hl]; rfl
  have e2 : ∀ q : State, v12.finO q (lastBlock 16 P) = (V12.rate (V12.xorIn q (V12.pad (lastBlock 16 P)))).take (lastBlock 16 P).length :=
    fun q => by rw [← v12_pad _ hl]; rfl
  simp only [e, e2]

theorem v12_dec (s : State) (C : List Byte) : v12.duplex .dec s C (lastBlock 16 C) = V12.decBody s C := by
  have hl := lastBlock_lt C
  unfold duplex V12.decBody
  rw [v12_decBlocks _ _ (fullBlocks_len C)]
  have e : ∀ q : State, v12.finS .dec q (lastBlock 16 C) (lastBlock 16 C) =
      V12.xorIn q (V12.pad (xorBytes ((V12.rate q).take (lastBlock 16 C).length) (lastBlock 16 C))) := fun q => by
    rw [finS_dec v12_ok _ _ hl, v12_pad _ (by
      rw [length_xorBytes, List.length_take, length_rate v12_ok]; omega)]
    rfl
  have e2 : ∀ q : State, v12.finO q (lastBlock 16 C) = xorBytes ((V12.rate q).take (lastBlock 16 C).length) (lastBlock 16 C) :=
    fun q => finO_eq v12_ok q _ hl
  simp only [e, e2]

theorem fullBlocks_pad12 (A : List Byte) : fullBlocks 16 (V12.pad A) = fullBlocks 16 A ++ [V12.pad (lastBlock 16 A)] := by
  induction hn : A.length using Nat.strongRecOn generalizing A with
  | ind n ih =>
    subst hn
    by_cases h : 16 ≤ A.length
    · have hd : (V12.pad A).drop 16 = V12.pad (A.drop 16) := by
        unfold V12.pad
        rw [List.drop_append_of_le_length h, List.length_drop]
        congr 3; omega
      have ht : (V12.pad A).take 16 = A.take 16 := by
        unfold V12.pad; rw [List.take_append_of_le_length h]
      rw [fullBlocks_of_ge 16 (V12.pad A) (by omega) (by unfold V12.pad; simp; omega), hd, ht, fullBlocks_of_ge 16 A (by omega) h,
        lastBlock_of_ge 16 A (by omega) h, ih (A.drop 16).length (by simp; omega) _ rfl]
      rfl
    · have hl : (V12.pad A).length = 16 := by
        unfold V12.pad; simp; omega
      rw [fullBlocks_of_lt 16 A (by omega), lastBlock_of_lt 16 A (by omega), fullBlocks_of_ge 16 _ (by omega) (by omega),
        List.drop_of_length_le (by omega), List.take_of_length_le (by omega), fullBlocks_of_lt 16 [] (by simp)]
      rfl

theorem v12_ad (s : State) (A l' : List Byte) : perm 8 (v12.duplex .ad s A l').1 =
    (fullBlocks 16 (V12.pad A)).foldl (fun s b => perm 8 (V12.xorIn s b)) s := by
  rw [fullBlocks_pad12, List.foldl_append, List.foldl_cons, List.foldl_nil]
  congr 1
  show v12.xorIn _ (v12.pad _) = _
  rw [v12_pad _ (lastBlock_lt A), v12_adBlocks]
  rfl

theorem v12_start (K N A : List Byte) : v12.start K N A = V12.absorbAd A (V12.init K N) := by
  have h0 : v12.init (be64 (K.take 8)) (be64 (K.drop 8)) (be64 (N.take 8)) (be64 (N.drop 8)) = V12.init K N := rfl
  show v12.absorbA (v12.init (be64 (K.take 8)) (be64 (K.drop 8)) (be64 (N.take 8)) (be64 (N.drop 8))) A = _
  rw [h0]
  generalize V12.init K N = s
  have h1 : ∀ q : State, q = (if A = [] then s else (fullBlocks 16 (V12.pad A)).foldl (fun s b => perm 8 (V12.xorIn s b)) s) →
      V12.absorbAd A s = { q with x4 := q.x4 ^^^ 1 } := by
    intro q h; subst h; rfl
  have h2 : ∀ q : State, q = (if A = [] then s else perm 8 (v12.duplex .ad s A (lastBlock 16 A)).1) →
      v12.absorbA s A = { q with x4 := q.x4 ^^^ 1 } := by
    intro q h; subst h; rfl
  rw [h1 _ rfl, h2 (if A = [] then s else (fullBlocks 16 (V12.pad A)).foldl (fun s b => perm 8 (V12.xorIn s b)) s) ?_]
  split
  · rfl
  · rw [v12_ad]

theorem v12_tag (K : List Byte) (s : State) : v12.tag K s = V12.tag K s := by
  have h1 : ∀ q : State, q = perm 12 { s with x2 := s.x2 ^^^ be64 (K.take 8), x3 := s.x3 ^^^ be64 (K.drop 8) } →
      v12.tag K s = beBytes (q.x3 ^^^ be64 (K.take 8)) ++ beBytes (q.x4 ^^^ be64 (K.drop 8)) := by
    intro q h; subst h; rfl
  have h2 : ∀ q : State, q = perm 12 { s with x2 := s.x2 ^^^ be64 (K.take 8), x3 := s.x3 ^^^ be64 (K.drop 8) } →
      V12.tag K s = beBytes (q.x3 ^^^ be64 (K.take 8)) ++ beBytes (q.x4 ^^^ be64 (K.drop 8)) := by
    intro q h; subst h; rfl
  rw [h1 _ rfl, h2 _ rfl]

theorem v12_encrypt (K N A P : List Byte) : v12.encrypt K N A P = V12.encrypt K N A P := by
  unfold encrypt V12.encrypt
  rw [v12_start, v12_enc]
  simp only [v12_tag]

theorem v12_decrypt (K N A C : List Byte) : v12.decrypt K N A C = V12.decBody (V12.absorbAd A (V12.init K N)) C := by
  unfold decrypt
  rw [v12_start, v12_dec]

end Variant

/-! ## Facts about Ascon-128a -/

theorem length_beBytes (w : Word) : (beBytes w).length = 8 := Variant.v12_ok.len w

theorem length_tag12 (K : List Byte) (s : State) : (V12.tag K s).length = 16 := by
  unfold V12.tag; simp only [List.length_append, length_beBytes]

theorem length_encBody12 (s : State) (P : List Byte) : (V12.encBody s P).2.length = P.length := by
  rw [← Variant.v12_enc s P [], Variant.length_duplex Variant.v12_ok]

theorem length_decBody12 (s : State) (C : List Byte) : (V12.decBody s C).2.length = C.length := by
  rw [← Variant.v12_dec s C, Variant.length_duplex Variant.v12_ok]

theorem decBody_encBody12 (s : State) (P : List Byte) : V12.decBody s (V12.encBody s P).2 = ((V12.encBody s P).1, P) := by
  rw [← Variant.v12_enc s P [], ← Variant.v12_dec, Variant.dec_enc Variant.v12_ok]

theorem length_encrypt12 (K N A P : List Byte) : (V12.encrypt K N A P).length = P.length + 16 := by
  unfold V12.encrypt
  simp only [List.length_append, length_tag12, length_encBody12]

theorem take_drop_encrypt12 (K N A P : List Byte) (r : State × List Byte)
    (hr : r = V12.encBody (V12.absorbAd A (V12.init K N)) P) :
    (V12.encrypt K N A P).take P.length = r.2 ∧ (V12.encrypt K N A P).drop P.length = V12.tag K r.1 := by
  have hl : r.2.length = P.length := by rw [hr, length_encBody12]
  have he : V12.encrypt K N A P = r.2 ++ V12.tag K r.1 := by subst hr; rw [V12.encrypt]
  rw [he]
  exact ⟨List.take_left' hl, List.drop_left' hl⟩

theorem decrypt_encrypt12 (K N A P : List Byte) : V12.decrypt K N A (V12.encrypt K N A P) = some P := by
  have hl := length_encrypt12 K N A P
  obtain ⟨hb, ht⟩ := take_drop_encrypt12 K N A P _ rfl
  generalize V12.encrypt K N A P = X at *
  have hd := decBody_encBody12 (V12.absorbAd A (V12.init K N)) P
  have hn : X.length - 16 = P.length := by omega
  have h1 : V12.candidate K N A (X.take P.length) = P := by rw [V12.candidate, hb, hd]
  have h2 : V12.decTag K N A (X.take P.length) = X.drop P.length := by rw [V12.decTag, hb, hd, ht]
  rw [V12.decrypt, if_neg (by omega)]
  simp only [hn, h1, h2]
  rw [if_pos trivial]

end Ascon.Rv
