import Verif.Proof.RvTop
import Verif.Proof.RvUnaligned
/-!
# The RISC-V implementations with the codec of SP 800-232: verdict, and decryption in place
-/

namespace Ascon.Rv

open Ascon.C Ascon.Spec Ascon.Asm
open Ascon.Masked (U32 repr32)

attribute [local irreducible] perm

theorem repr32_xor (a b : U32) : repr32 .little (a ^^^ b) = xorBytes (repr32 .little a) (repr32 .little b) := by
  simp only [repr32, List.range, List.range.loop, List.map_cons, List.map_nil, xorBytes, List.zipWith_cons_cons, List.zipWith_nil_left,
    BitVec.ushiftRight_xor_distrib, BitVec.setWidth_xor]

theorem foldTag_words (c0 c1 c2 c3 : U32) :
    foldTag (repr32 .little c0 ++ repr32 .little c1 ++ (repr32 .little c2 ++ repr32 .little c3)) =
      repr32 .little ((c0 ^^^ c1) ^^^ (c2 ^^^ c3)) := by
  rw [repr32_xor, repr32_xor, repr32_xor]
  rfl

theorem foldTag_bytes (a b : Word) : foldTag (bytes64 a ++ bytes64 b) =
    repr32 .little ((chunk 32 0 a ^^^ chunk 32 1 a) ^^^ (chunk 32 0 b ^^^ chunk 32 1 b)) := by
  rw [bytes64_chunks, bytes64_chunks, foldTag_words]

theorem foldTag_tag (T : List Byte) (h : T.length = 16) : foldTag T =
    repr32 .little ((chunk 32 0 (le64 (T.take 8)) ^^^ chunk 32 1 (le64 (T.take 8))) ^^^
      (chunk 32 0 (le64 (T.drop 8)) ^^^ chunk 32 1 (le64 (T.drop 8)))) := by
  rw [← foldTag_bytes, bytes64_le64 _ (by simp; omega), bytes64_le64 _ (by simp; omega), List.take_append_drop]

theorem xor4 (a b c d e f g h : U32) : (a ^^^ b) ^^^ (c ^^^ d) ^^^ (e ^^^ f) ^^^ (g ^^^ h) = 0 ↔
    (d ^^^ b) ^^^ (h ^^^ f) = (c ^^^ a) ^^^ (g ^^^ e) := by
  have e1 : (a ^^^ b) ^^^ (c ^^^ d) ^^^ (e ^^^ f) ^^^ (g ^^^ h) = ((d ^^^ b) ^^^ (h ^^^ f)) ^^^ ((c ^^^ a) ^^^ (g ^^^ e)) := by
    ac_rfl
  rw [e1]
  exact BitVec.xor_eq_zero_iff

/-- The verdict of the code in terms of the tags. -/
theorem good_iff (I : Impl) (hV : I.V = .std) (hE : I.enc = fun w => w) (K : List Byte) (s : State) (T : List Byte)
    (h : T.length = 16) : I.good K s T ↔ foldTag T = foldTag (aeadTag K s) := by
  rw [← Variant.std_tag]
  have e1 : Variant.std.tag K s = bytes64 (Variant.final (le64 (K.take 8)) (le64 (K.drop 8)) s).x3 ++
    bytes64 (Variant.final (le64 (K.take 8)) (le64 (K.drop 8)) s).x4 := rfl
  rw [e1, foldTag_bytes, foldTag_tag T h]
  unfold Impl.good Impl.diff
  rw [hV, hE]
  have hl : Variant.std.ld = le64 := rfl
  simp only [chunk_xor, hl]
  rw [xor4]
  constructor
  · intro h; rw [h]
  · intro h; exact Masked.repr32_inj h

namespace Variant

theorem duplex_snd {V : Variant} (md : Mode) (s : State) (M l l' : List Byte) : (V.duplex md s M l).2 = (V.duplex md s M l').2 := rfl

/-- Decryption in place, as for esp32. -/
theorem std_dec_inPlace (s : State) (C : List Byte) :
    std.duplex .dec s C ((decBody s C).2.drop (C.length / 16 * 16)) = ((Esp32.decBodyInPlace s C).1, (decBody s C).2) := by
  induction hn : C.length using Nat.strongRecOn generalizing s C with
  | ind n ih =>
    subst hn
    by_cases h16 : 16 ≤ C.length
    · have hl : (C.take 16).length = 16 := by simp; omega
      have hx : (xorBytes (Spec.rate 16 s) (C.take 16)).length = 16 := by
        rw [length_xorBytes, Spec.length_rate _ _ (by omega), hl]; rfl
      rw [duplex_of_ge _ s C _ h16, Esp32.decBodyInPlace_of_ge s C h16, decBody_of_ge s C h16]
      have e : std.stepS .dec s (C.take 16) = Spec.xorIn s (xorBytes (Spec.rate 16 s) (C.take 16)) :=
        std_setIn s _ hl
      have ed : (xorBytes (Spec.rate 16 s) (C.take 16) ++
          (decBody (perm 8 (Spec.xorIn s (xorBytes (Spec.rate 16 s) (C.take 16)))) (C.drop 16)).2).drop (C.length / 16 * 16) =
          (decBody (perm 8 (Spec.xorIn s (xorBytes (Spec.rate 16 s) (C.take 16)))) (C.drop 16)).2.drop ((C.drop 16).length / 16 * 16) := by
        rw [List.length_drop, List.drop_append, List.drop_of_length_le (by omega), List.nil_append, hx]
        congr 1; omega
      simp only
      rw [ed, e, ih (C.drop 16).length (by simp; omega) _ _ rfl, std_xorIn _ _ hl, std_rate, rate_xorIn16 s _ 16 hl (by omega), List.take_of_length_le (l := C.take 16) (by omega)]
    · have h : C.length < 16 := by omega
      rw [duplex_of_lt _ s C _ h, Esp32.decBodyInPlace_of_lt s C h, decBody_of_lt s C h, std_finO s C h,
        rate_xorIn_pad s C h]
      simp only
      rw [Nat.div_eq_of_lt h, Nat.zero_mul, List.drop_zero]
      have hxl : (xorBytes (Spec.rate C.length s) C).length = C.length := by
        rw [length_xorBytes, Spec.length_rate _ _ (by omega)]; omega
      congr 1
      show std.setIn s (xorBytes (Spec.rate C.length s) C ++ (std.rate (std.xorIn s (std.pad C))).drop C.length) = _
      rw [std_pad C h, std_xorIn _ _ (length_pad16 C h), std_rate]
      have e : xorBytes (Spec.rate C.length s) C ++ (Spec.rate 16 (Spec.xorIn s (Spec.pad 16 C))).drop C.length =
          Spec.rate 16 (Spec.xorIn s (Spec.pad 16 C)) := by
        rw [← rate_xorIn_pad s C h]
        have : Spec.rate C.length (Spec.xorIn s (Spec.pad 16 C)) = (Spec.rate 16 (Spec.xorIn s (Spec.pad 16 C))).take C.length := by
          unfold Spec.rate; rw [List.take_take, Nat.min_eq_left (by omega)]
        rw [this, List.take_append_drop]
      rw [e, std_setIn _ _ (Spec.length_rate _ _ (by omega)), rate_xorIn16 s _ 16 (length_pad16 C h) (by omega)]
      rw [List.take_of_length_le (Nat.le_of_eq (length_pad16 C h)), xorBytes_self_cancel _ _ (by
        rw [Spec.length_rate _ _ (by omega), length_pad16 C h]; exact Nat.le_refl 16)]

end Variant
end Ascon.Rv
