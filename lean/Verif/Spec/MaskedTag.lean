import Verif.Spec.Modes
/-!
# Specification: the tag comparison of the masked implementation

The implementation protected_bi32_armv6_leveled does not compare the two tags.  It applies eight rounds of the
permutation to the state `0 ‖ 0 ‖ 0 ‖ δ`, where `δ` is the difference of the tags, and compares 32 bits of the
result with the value for `δ = 0`.
-/

namespace Ascon.Spec

/-- Exclusive or of neighbouring bits. -/
def pairSums (w : Word) : List Bool := (List.range 32).map fun i => (w.getLsbD (2 * i) ^^ w.getLsbD (2 * i + 1))

/-- The 32 bits that are compared, for the tag difference `δ3 ‖ δ4`. -/
def tagDigest (δ3 δ4 : Word) : List Bool :=
  let s := perm 8 { x0 := 0, x1 := 0, x2 := 0, x3 := δ3, x4 := δ4 }
  pairSums (s.x3 ^^^ s.x4)

/-- What the masked implementation checks instead of `T = T'`. -/
def tagsMatch32 (T T' : List Byte) : Prop :=
  tagDigest (le64 (T.take 8) ^^^ le64 (T'.take 8)) (le64 (T.drop 8) ^^^ le64 (T'.drop 8)) = tagDigest 0 0

instance (T T' : List Byte) : Decidable (tagsMatch32 T T') := by unfold tagsMatch32; infer_instance

end Ascon.Spec
