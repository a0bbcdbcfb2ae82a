import Verif.Proof.RvV12
import Verif.Proof.RvRules
import Verif.Proof.Backends
/-!
# Byte reversal and bit interleaving by single instructions
-/

namespace Ascon.Rv

open Ascon.C Ascon.Spec Ascon.Asm Ascon.Gen
open Ascon.Masked (U32)
open Ascon.Spec.V12 (be64 beBytes)

/-- The word with its bytes in reverse order. -/
def rv (w : Word) : Word := le64 (bytes64 w).reverse

theorem rv_le64 (b : List Byte) (h : b.length = 8) : rv (le64 b) = be64 b := by
  rw [rv, bytes64_le64 b h, be64_eq]

theorem bytes64_rv (w : Word) : bytes64 (rv w) = beBytes w := by
  rw [rv, bytes64_le64 _ (by rw [List.length_reverse, length_bytes64]), beBytes_eq]

theorem rev8_xor (x : U32) :
    Rv.rev8 x = x <<< 24 ^^^ (x &&& (0xff00 : U32)) <<< 8 ^^^ (x >>> 8 &&& (0xff00 : U32)) ^^^ x >>> 24 := by
  have w1 := (Within.all x).shl 24
  have w2 := (Within.and_right x (0xff00 : U32)).shl 8
  have w3 := Within.and_right (x >>> 8) (0xff00 : U32)
  have w4 := (Within.all x).shr 24
  rw [← or_eq_xor w1 w2 (by decide), ← or_eq_xor (w1.or w2) w3 (by decide), ← or_eq_xor ((w1.or w2).or w3) w4 (by decide)]
  rfl

theorem Lin.rev8 : Lin Rv.rev8 := by
  have h : Lin (fun x : U32 => x <<< 24 ^^^ (x &&& (0xff00 : U32)) <<< 8 ^^^ (x >>> 8 &&& (0xff00 : U32)) ^^^ x >>> 24) :=
    (((Lin.id.shl 24).xor ((Lin.id.and _).shl 8)).xor ((Lin.id.shr 8).and _)).xor (Lin.id.shr 24)
  intro a b
  rw [rev8_xor, rev8_xor, rev8_xor]
  exact h a b

theorem ofBools_bit (f : Nat → Bool) (i : Nat) (hi : i < 32) :
    (BitVec.ofBoolListLE ((List.range 32).map f)).getLsbD i = f i := by
  rw [BitVec.getLsbD_ofBoolListLE]
  simp [hi]

theorem Lin.unzip : Lin Rv.unzip := by
  intro a b
  apply BitVec.eq_of_getLsbD_eq
  intro i hi
  rw [BitVec.getLsbD_xor]
  refine (ofBools_bit _ i hi).trans ?_
  have ha : (Rv.unzip a).getLsbD i = _ := ofBools_bit _ i hi
  have hb : (Rv.unzip b).getLsbD i = _ := ofBools_bit _ i hi
  rw [ha, hb]
  by_cases h : i < 16 <;> simp [h]

theorem Lin.zip : Lin Rv.zip := by
  intro a b
  apply BitVec.eq_of_getLsbD_eq
  intro i hi
  rw [BitVec.getLsbD_xor]
  refine (ofBools_bit _ i hi).trans ?_
  have ha : (Rv.zip a).getLsbD i = _ := ofBools_bit _ i hi
  have hb : (Rv.zip b).getLsbD i = _ := ofBools_bit _ i hi
  rw [ha, hb]
  by_cases h : i % 2 = 0 <;> simp [h]

theorem Lin.chunk (h : Nat) : Lin (Asm.chunk 32 h) := chunk_xor h

theorem pack_eq (a b : U32) : Op2.pack.fn a b = b <<< 16 ||| (a &&& 0xffff) := BitVec.or_comm _ _
theorem packu_eq (a b : U32) : Op2.packu.fn a b = (b &&& 0xffff0000) ||| a >>> 16 := BitVec.or_comm _ _

theorem Lin.pack {f g : Word → U32} (hf : Lin f) (hg : Lin g) : Lin (fun x => Op2.pack.fn (f x) (g x)) := by
  simp only [pack_eq]; exact Lin.quarters1 hg hf
theorem Lin.packu {f g : Word → U32} (hf : Lin f) (hg : Lin g) : Lin (fun x => Op2.packu.fn (f x) (g x)) := by
  simp only [packu_eq]; exact Lin.quarters2 hg hf

theorem Lin.rv : Lin Rv.rv := Lin.bytes_rev

theorem rev8_0 (w : Word) : rev8 (chunk 32 0 w) = chunk 32 1 (rv w) :=
  Lin.ext (Lin.rev8.comp (Lin.chunk 0)) ((Lin.chunk 1).comp Lin.rv) (by decide +kernel) w
theorem rev8_1 (w : Word) : rev8 (chunk 32 1 w) = chunk 32 0 (rv w) :=
  Lin.ext (Lin.rev8.comp (Lin.chunk 1)) ((Lin.chunk 0).comp Lin.rv) (by decide +kernel) w

/-- `TO_BI32_REV8` of asm_bi32_rv32b/ascon.S -/
theorem to_bi32 (w : Word) :
    Op2.pack.fn (unzip (rev8 (chunk 32 1 w))) (unzip (rev8 (chunk 32 0 w))) = chunk 32 0 (deinterleave32 .little (rv w)) ∧
    Op2.packu.fn (unzip (rev8 (chunk 32 1 w))) (unzip (rev8 (chunk 32 0 w))) = chunk 32 1 (deinterleave32 .little (rv w)) := by
  have h1 := Lin.unzip.comp (Lin.rev8.comp (Lin.chunk 1))
  have h0 := Lin.unzip.comp (Lin.rev8.comp (Lin.chunk 0))
  have hr := (Lin.deinterleave32 .little).comp Lin.rv
  exact ⟨Lin.ext (Lin.pack h1 h0) ((Lin.chunk 0).comp hr) (by decide +kernel) w,
    Lin.ext (Lin.packu h1 h0) ((Lin.chunk 1).comp hr) (by decide +kernel) w⟩

/-- `FROM_BI32_REV8` of asm_bi32_rv32b/ascon.S -/
theorem from_bi32 (x : Word) :
    rev8 (zip (Op2.pack.fn (chunk 32 0 (deinterleave32 .little x)) (chunk 32 1 (deinterleave32 .little x)))) = chunk 32 1 (rv x) ∧
    rev8 (zip (Op2.packu.fn (chunk 32 0 (deinterleave32 .little x)) (chunk 32 1 (deinterleave32 .little x)))) = chunk 32 0 (rv x) := by
  have h1 := (Lin.chunk 1).comp (Lin.deinterleave32 .little)
  have h0 := (Lin.chunk 0).comp (Lin.deinterleave32 .little)
  exact ⟨Lin.ext (Lin.rev8.comp (Lin.zip.comp (Lin.pack h0 h1))) ((Lin.chunk 1).comp Lin.rv) (by decide +kernel) x,
    Lin.ext (Lin.rev8.comp (Lin.zip.comp (Lin.packu h0 h1))) ((Lin.chunk 0).comp Lin.rv) (by decide +kernel) x⟩

end Ascon.Rv
