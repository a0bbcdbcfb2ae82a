import Verif.Spec.Ascon128a
/-!
# Specification: Ascon-Hash and Ascon-Xof of version 1.2

The hash functions as submitted to the NIST lightweight competition (Ascon v1.2, 2021), the predecessors of Ascon-Hash256 and
Ascon-XOF128: rate 64 bits, `Ascon-p[12]` everywhere, *big-endian* words, the initial value `0 ‖ r ‖ a ‖ a - b ‖ h` (`h` = 256 for
Ascon-Hash, 0 for Ascon-Xof) and the padding byte `0x80`.  Written from the submission document, independently of the code;
`Test/KatHash12.lean` evaluates it on published vectors.
-/

namespace Ascon.Spec.V12

/-- Append `0x80` and zeros up to a multiple of 8 bytes. -/
def pad8 (m : List Byte) : List Byte := m ++ (0x80 : Byte) :: List.replicate (7 - m.length % 8) 0

/-- Absorb one block of 8 bytes. -/
def absorb8 (s : State) (b : List Byte) : State := perm 12 { s with x0 := s.x0 ^^^ be64 b }

/-- `n` bytes of output, 8 bytes per application of `Ascon-p[12]`. -/
def squeeze8 (s : State) (n : Nat) : List Byte :=
  (((List.range (n / 8 + 1)).map fun i => beBytes (iterPerm i s).x0).flatten).take n

def ivHash12 : Word := 0x00400c0000000100
def ivXof12 : Word := 0x00400c0000000000

/-- The state after absorbing the message. -/
def absorbed (iv : Word) (m : List Byte) : State := (fullBlocks 8 (pad8 m)).foldl absorb8 (spongeInit iv)

/-- Ascon-Hash (v1.2) -/
def hash (m : List Byte) : List Byte := squeeze8 (absorbed ivHash12 m) 32

/-- Ascon-Xof (v1.2) -/
def xof (m : List Byte) (n : Nat) : List Byte := squeeze8 (absorbed ivXof12 m) n

end Ascon.Spec.V12
