/-!
# Specification: bytes, 64-bit words, byte strings

Independent of the C code.  Byte strings are `List Byte`.  SP 800-232 uses
little-endian words: the integer value of a byte string `b₀ b₁ …` is `Σ bᵢ·2^(8i)`.
-/

namespace Ascon

abbrev Byte := BitVec 8
abbrev Word := BitVec 64

namespace Spec

/-- Little-endian value of (at most eight) bytes as a 64-bit word; missing bytes count as zero. -/
def le64 : List Byte → Word
  | [] => 0
  | b :: bs => b.setWidth 64 ||| (le64 bs <<< 8)

/-- The eight bytes of a word, least significant first. -/
def bytes64 (w : Word) : List Byte :=
  (List.range 8).map fun i => (w >>> (8 * i)).setWidth 8

/-- The complete blocks of `r` bytes of a byte string, in order (SP 800-232 `parse`). -/
def fullBlocks (r : Nat) (m : List Byte) : List (List Byte) :=
  (List.range (m.length / r)).map fun i => (m.drop (r * i)).take r

/-- What is left after the complete blocks (SP 800-232 `parse`): fewer than `r` bytes. -/
def lastBlock (r : Nat) (m : List Byte) : List Byte :=
  m.drop (r * (m.length / r))

/-- `pad(X, 8r)`: append the bit 1 and then zeros until the length is a multiple of
`r` bytes.  With little-endian bit order the appended bit is the byte `0x01`. -/
def pad (r : Nat) (m : List Byte) : List Byte :=
  m ++ (1 : Byte) :: List.replicate (r - 1 - m.length % r) 0

end Spec
end Ascon
