import Verif.Proof.Rv32b
import Verif.Proof.RvFsr
import Verif.Proof.RvBi32
import Verif.Proof.RvStd
/-!
# The verdict of asm_rv32b, asm_fsr_rv32b and asm_bi32_rv32b
-/

namespace Ascon.Rv

open Ascon.C Ascon.Spec Ascon.Asm Ascon.Gen
open Ascon.Masked (U32 repr32)
open Ascon.Spec.V12 (be64 beBytes)

attribute [local irreducible] perm

/-- The three files that implement the competition version, with the folding of the tag that each of them compares
(`rc`: address of the table of round constants). -/
inductive Old : Impl → (List Byte → List Byte) → Prop
  | rv32b : Old rv32b foldTag
  | fsr : Old rvFsr foldTag
  | bi32 (rc : Nat) (h : rc + 25 ≤ 2 ^ 32) : Old (rvBi32 rc) foldPairs

theorem Old.ok {I : Impl} {fold : List Byte → List Byte} (h : Old I fold) : I.Ok := by
  cases h with
  | rv32b => exact rv32b_ok
  | fsr => exact rvFsr_ok
  | bi32 rc h => exact rvBi32_ok h

theorem Old.v12 {I : Impl} {fold : List Byte → List Byte} (h : Old I fold) : I.V = .v12 := by
  cases h <;> rfl

/-- The words of a tag. -/
theorem tag_words (T : List Byte) (h : T.length = 16) : T = beBytes (be64 (T.take 8)) ++ beBytes (be64 (T.drop 8)) := by
  have h1 : beBytes (be64 (T.take 8)) = T.take 8 := Variant.v12_ok.st_ld _ (by simp; omega)
  have h2 : beBytes (be64 (T.drop 8)) = T.drop 8 := Variant.v12_ok.st_ld _ (by simp; omega)
  rw [h1, h2, List.take_append_drop]

theorem v12_tag_words (K : List Byte) (s : State) : V12.tag K s =
    beBytes (Variant.final (be64 (K.take 8)) (be64 (K.drop 8)) s).x3 ++ beBytes (Variant.final (be64 (K.take 8)) (be64 (K.drop 8)) s).x4 := by
  rw [← Variant.v12_tag]; rfl

theorem rev8_inj {a b : U32} (h : rev8 a = rev8 b) : a = b := by
  have hi : ∀ x : U32, rev8 (rev8 x) = x := fun x => Lin.ext (Lin.rev8.comp Lin.rev8) Lin.id (by decide +kernel) x
  rw [← hi a, h, hi]

theorem chunk_rv (a : Word) : chunk 32 0 (rv a) = rev8 (chunk 32 1 a) ∧ chunk 32 1 (rv a) = rev8 (chunk 32 0 a) :=
  ⟨(rev8_1 a).symm, (rev8_0 a).symm⟩

theorem foldTag_be (a b : Word) : foldTag (beBytes a ++ beBytes b) =
    repr32 .little (rev8 ((chunk 32 1 a ^^^ chunk 32 0 a) ^^^ (chunk 32 1 b ^^^ chunk 32 0 b))) := by
  rw [← bytes64_rv, ← bytes64_rv, foldTag_bytes, (chunk_rv a).1, (chunk_rv a).2, (chunk_rv b).1, (chunk_rv b).2, Lin.rev8, Lin.rev8, Lin.rev8]

theorem good_id (I : Impl) (hV : I.V = .v12) (hE : I.enc = fun w => w) (K : List Byte) (s : State) (T : List Byte)
    (h : T.length = 16) : I.good K s T ↔ foldTag T = foldTag (V12.tag K s) := by
  rw [v12_tag_words, foldTag_be]
  rw [show foldTag T = foldTag (beBytes (be64 (T.take 8)) ++ beBytes (be64 (T.drop 8))) by rw [← tag_words T h], foldTag_be]
  unfold Impl.good Impl.diff
  rw [hV, hE]
  have hl : Variant.v12.ld = be64 := rfl
  simp only [chunk_xor, hl]
  generalize (Variant.final (be64 (K.take 8)) (be64 (K.drop 8)) s) = q
  generalize be64 (T.take 8) = u
  generalize be64 (T.drop 8) = v
  have e : ∀ a b c d e f g h : U32, (a ^^^ b) ^^^ (c ^^^ d) ^^^ (e ^^^ f) ^^^ (g ^^^ h) = ((b ^^^ d) ^^^ (f ^^^ h)) ^^^ ((a ^^^ c) ^^^ (e ^^^ g)) := by
    intros; ac_rfl
  rw [e]
  constructor
  · intro h; rw [BitVec.xor_eq_zero_iff.mp h]
  · intro h; exact BitVec.xor_eq_zero_iff.mpr (rev8_inj (Masked.repr32_inj h))

/-- Sum of neighbouring bits. -/
def pairs (x : Word) : Word := (x ^^^ x >>> 1) &&& 0x5555555555555555

theorem Lin.pairs : Lin Rv.pairs := (Lin.id.xor (Lin.id.shr 1)).and _

theorem beBytes_pairs (x : Word) : (beBytes x).map (fun b : Byte => (b ^^^ b >>> 1) &&& (0x55 : Byte)) = beBytes (pairs x) := by
  have h : ∀ n : Fin 8, ∀ x : Word, (((x >>> (8 * n.val)).setWidth 8 ^^^ ((x >>> (8 * n.val)).setWidth 8 : Byte) >>> 1) &&& (0x55 : Byte)) =
      (pairs x >>> (8 * n.val)).setWidth 8 := by
    intro n x
    refine Lin.ext (f := fun x : Word => (((x >>> (8 * n.val)).setWidth 8 ^^^ ((x >>> (8 * n.val)).setWidth 8 : Byte) >>> 1) &&& (0x55 : Byte)))
      (g := fun x => (pairs x >>> (8 * n.val)).setWidth 8) ?_ ?_ ?_ x
    · exact (((Lin.id.shr _).setWidth 8).xor (((Lin.id.shr _).setWidth 8).shr 1)).and _
    · exact (Lin.pairs.shr _).setWidth 8
    · revert n; decide +kernel
  rw [beBytes_eq, beBytes_eq, List.map_reverse]
  congr 1
  have e : ∀ w : Word, bytes64 w = (List.finRange 8).map fun n => (w >>> (8 * n.val)).setWidth 8 := by
    intro w; rfl
  rw [e, e, List.map_map]
  apply List.map_congr_left
  intro n _
  exact h n x

theorem beBytes_inj {a b : Word} (h : beBytes a = beBytes b) : a = b := by
  have := congrArg be64 h
  rwa [show be64 (beBytes a) = a from Variant.v12_ok.ld_st a, show be64 (beBytes b) = b from Variant.v12_ok.ld_st b] at this

theorem foldPairs_be (a b : Word) : foldPairs (beBytes a ++ beBytes b) = beBytes (pairs (a ^^^ b)) := by
  have h8 : ∀ w, (beBytes w).length = 8 := Variant.v12_ok.len
  unfold foldPairs
  rw [List.take_left' (h8 a), List.drop_left' (h8 a)]
  have : xorBytes (beBytes a) (beBytes b) = beBytes (a ^^^ b) := (Variant.v12_ok.st_xor a b).symm
  rw [this, beBytes_pairs]

/-- The sum of the even and the odd bits. -/
def eo (x : Word) : U32 := chunk 32 1 (deinterleave32 .little x) ^^^ chunk 32 0 (deinterleave32 .little x)

theorem Lin.eo : Lin Rv.eo :=
  ((Lin.chunk 1).comp (Lin.deinterleave32 .little)).xor ((Lin.chunk 0).comp (Lin.deinterleave32 .little))

theorem eo_pairs (a b : Word) : eo a = eo b ↔ pairs a = pairs b := by
  have h1 : ∀ x, eo x = chunk 32 0 (deinterleave32 .little (pairs x)) := fun x =>
    Lin.ext Lin.eo ((Lin.chunk 0).comp ((Lin.deinterleave32 .little).comp Lin.pairs)) (by decide +kernel) x
  have h2 : ∀ x, pairs x = interleave32 .little ((eo x).setWidth 64) := fun x =>
    Lin.ext Lin.pairs ((Lin.interleave32 .little).comp (Lin.eo.setWidth 64)) (by decide +kernel) x
  constructor
  · intro h; rw [h2, h, ← h2]
  · intro h; rw [h1, h, ← h1]

theorem good_bi (rc : Nat) (K : List Byte) (s : State) (T : List Byte) (h : T.length = 16) :
    (rvBi32 rc).good K s T ↔ foldPairs T = foldPairs (V12.tag K s) := by
  rw [v12_tag_words, foldPairs_be]
  rw [show foldPairs T = foldPairs (beBytes (be64 (T.take 8)) ++ beBytes (be64 (T.drop 8))) by rw [← tag_words T h], foldPairs_be]
  unfold Impl.good
  have hl : (rvBi32 rc).V.ld = be64 := rfl
  have hd : ∀ a b, (rvBi32 rc).diff a b = eo (a ^^^ b) := by
    intro a b
    rw [Lin.eo]
    show _ = (_ ^^^ _) ^^^ (_ ^^^ _)
    rw [← BitVec.xor_assoc]; rfl
  simp only [hl, hd]
  generalize (Variant.final (be64 (K.take 8)) (be64 (K.drop 8)) s) = q
  generalize be64 (T.take 8) = u
  generalize be64 (T.drop 8) = v
  have e : (q.x3 ^^^ u) ^^^ (q.x4 ^^^ v) = (u ^^^ v) ^^^ (q.x3 ^^^ q.x4) := by ac_rfl
  rw [e, Lin.eo]
  constructor
  · intro h; rw [(eo_pairs _ _).mp (BitVec.xor_eq_zero_iff.mp h)]
  · intro h; exact BitVec.xor_eq_zero_iff.mpr ((eo_pairs _ _).mpr (beBytes_inj h))

theorem Old.good {I : Impl} {fold : List Byte → List Byte} (h : Old I fold) (K : List Byte) (s : State) (T : List Byte)
    (hT : T.length = 16) : I.good K s T ↔ fold T = fold (V12.tag K s) := by
  cases h with
  | rv32b => exact good_id _ rfl rfl K s T hT
  | fsr => exact good_id _ rfl rfl K s T hT
  | bi32 rc h => exact good_bi rc K s T hT

/-- Adding the same eight bytes to both halves of a tag is not noticed. -/
theorem Old.forge {I : Impl} {fold : List Byte → List Byte} (h : Old I fold) (T δ : List Byte) (hT : T.length = 16)
    (hδ : δ.length = 8) : fold (xorBytes T (δ ++ δ)) = fold T := by
  have hst : ∀ a b, beBytes (a ^^^ b) = xorBytes (beBytes a) (beBytes b) := Variant.v12_ok.st_xor
  have h8 : ∀ w, (beBytes w).length = 8 := Variant.v12_ok.len
  have hd : beBytes (be64 δ) = δ := Variant.v12_ok.st_ld _ hδ
  have e : xorBytes T (δ ++ δ) = beBytes (be64 (T.take 8) ^^^ be64 δ) ++ beBytes (be64 (T.drop 8) ^^^ be64 δ) := by
    rw [hst, hst, ← xorBytes_append (by rw [h8, h8]), ← tag_words T hT, hd]
  rw [e, show fold T = fold (beBytes (be64 (T.take 8)) ++ beBytes (be64 (T.drop 8))) by rw [← tag_words T hT]]
  generalize be64 (T.take 8) = u
  generalize be64 (T.drop 8) = v
  generalize be64 δ = d
  have p : foldPairs (beBytes (u ^^^ d) ++ beBytes (v ^^^ d)) = foldPairs (beBytes u ++ beBytes v) := by
    rw [foldPairs_be, foldPairs_be]
    have : (u ^^^ d) ^^^ (v ^^^ d) = (u ^^^ v) ^^^ (d ^^^ d) := by ac_rfl
    rw [this, BitVec.xor_self, BitVec.xor_zero]
  have t : foldTag (beBytes (u ^^^ d) ++ beBytes (v ^^^ d)) = foldTag (beBytes u ++ beBytes v) := by
    rw [foldTag_be, foldTag_be]
    simp only [chunk_xor]
    have : ∀ a b c d e f : U32, ((a ^^^ e) ^^^ (b ^^^ f)) ^^^ ((c ^^^ e) ^^^ (d ^^^ f)) = ((a ^^^ b) ^^^ (c ^^^ d)) ^^^ ((e ^^^ e) ^^^ (f ^^^ f)) := by
      intros; ac_rfl
    rw [this, BitVec.xor_self, BitVec.xor_self, BitVec.xor_self, BitVec.xor_zero]
  cases h <;> assumption

namespace Variant

/-- Decryption in place: the last, partial block is read again after it has been overwritten. -/
theorem v12_dec_inPlace (s : State) (C : List Byte) :
    v12.duplex .dec s C ((V12.decBody s C).2.drop (C.length / 16 * 16)) = ((V12.decBodyInPlace s C).1, (V12.decBody s C).2) := by
  have hl := lastBlock_lt C
  have hrl : ∀ s, (v12.rate s).length = 16 := length_rate v12_ok
  have hdl := length_decBody12 s C
  have hll : (lastBlock 16 C).length = C.length % 16 := by unfold lastBlock; rw [List.length_drop]; omega
  have e1 := v12_decBlocks s (fullBlocks 16 C) (fullBlocks_len C)
  have e2 := v12_dec s C
  have hfst : (V12.decBody s C).2 = (v12.blocks .dec s (fullBlocks 16 C)).2 ++ v12.finO (v12.blocks .dec s (fullBlocks 16 C)).1 (lastBlock 16 C) := by
    rw [← e2]; rfl
  have hO : v12.finO (v12.blocks .dec s (fullBlocks 16 C)).1 (lastBlock 16 C) = (v12.rate (v12.xorIn (v12.blocks .dec s (fullBlocks 16 C)).1 (v12.pad (lastBlock 16 C)))).take (lastBlock 16 C).length := rfl
  have hOl : (v12.finO (v12.blocks .dec s (fullBlocks 16 C)).1 (lastBlock 16 C)).length = (lastBlock 16 C).length := by
    rw [hO, List.length_take, hrl]; omega
  have hbl : (v12.blocks .dec s (fullBlocks 16 C)).2.length = C.length / 16 * 16 := by
    have := congrArg List.length hfst
    rw [List.length_append, hdl, hOl, hll] at this
    omega
  have hdrop : (V12.decBody s C).2.drop (C.length / 16 * 16) = v12.finO (v12.blocks .dec s (fullBlocks 16 C)).1 (lastBlock 16 C) := by
    rw [hfst, List.drop_left' hbl]
  rw [hdrop]
  have h2 : ∀ l', v12.duplex .dec s C l' = (v12.finS .dec (v12.blocks .dec s (fullBlocks 16 C)).1 (lastBlock 16 C) l', (V12.decBody s C).2) := by
    intro l'
    rw [hfst]; rfl
  rw [h2]
  congr 1
  have h3 : (V12.decBodyInPlace s C).1 = v12.xorIn (v12.blocks .dec s (fullBlocks 16 C)).1 (v12.pad (lastBlock 16 C)) := by
    rw [e1, v12_pad _ hl]; rfl
  rw [h3]
  generalize (v12.blocks .dec s (fullBlocks 16 C)).1 = q at *
  have hx : v12.finS .dec q (lastBlock 16 C) (v12.finO q (lastBlock 16 C)) =
      v12.setIn q (v12.finO q (lastBlock 16 C) ++ (v12.rate (v12.xorIn q (v12.pad (lastBlock 16 C)))).drop (lastBlock 16 C).length) := if_pos rfl
  rw [hx, hO, List.take_append_drop]
  obtain ⟨r1, r2⟩ := rate_take v12_ok (v12.xorIn q (v12.pad (lastBlock 16 C)))
  unfold setIn
  rw [r1, r2, v12_ok.ld_st, v12_ok.ld_st]
  rfl

end Variant
end Ascon.Rv
