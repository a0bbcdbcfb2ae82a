import Verif.Spec.Modes
/-!
# Specification: the tag comparison of the RISC-V implementations

The RISC-V files do not compare the received tag with the computed one.  They compare the exclusive or of the four 32-bit
words of the one with that of the other.
-/

namespace Ascon.Spec

/-- Exclusive or of the four groups of four bytes of a tag. -/
def foldTag (T : List Byte) : List Byte :=
  xorBytes (xorBytes (T.take 4) ((T.drop 4).take 4)) (xorBytes ((T.drop 8).take 4) ((T.drop 12).take 4))

example : foldTag [1, 2, 3, 4, 16, 32, 48, 64, 0, 0, 0, 0, 1, 0, 0, 0] = [16, 34, 51, 68] := by decide

/-- The comparison of the bit-interleaved RISC-V file: the two halves of the tag are added, and then the two bits of each of the
32 pairs of neighbouring bits. -/
def foldPairs (T : List Byte) : List Byte :=
  (xorBytes (T.take 8) (T.drop 8)).map fun b : Byte => (b ^^^ b >>> 1) &&& 0x55

example : foldPairs [1, 2, 3, 4, 0x80, 0, 0, 0, 0, 0, 0, 8, 0x40, 0, 0, 0xff] = [1, 1, 0, 0, 0, 0, 0, 0] := by decide

end Ascon.Spec
