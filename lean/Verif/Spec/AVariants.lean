import Verif.Spec.Modes
/-!
# Specification: Ascon-Hasha, Ascon-Xofa, Ascon-Prfa, Ascon-Maca

The variants with 8 rounds between blocks (12 rounds at the start and before the first output).  Ascon-Prfa and Ascon-Maca absorb
40 bytes per block.  Initial values in the little-endian form of SP 800-232.
-/

namespace Ascon.Spec.A

def ivHasha : Word := 0x00000801008c0002
def ivXofa : Word := 0x00000800008c0003
def ivMaca : Word := 0x00102800808c0005
def ivPrfa : Word := 0x00102800008c0006

/-- `i` applications of `Ascon-p[8]`. -/
def iterPerm8 : Nat → State → State
  | 0, s => s
  | i + 1, s => perm 8 (iterPerm8 i s)

/-- `n` bytes of output, `r` bytes per application of `Ascon-p[8]`. -/
def squeeze (r : Nat) (s : State) (n : Nat) : List Byte :=
  (((List.range (n / r + 1)).map fun i => rate r (iterPerm8 i s)).flatten).take n

/-- `n` bytes of output for message `m`: the complete blocks with `Ascon-p[8]`, the padded last block with `Ascon-p[12]`. -/
def xofWith (iv : Word) (m : List Byte) (n : Nat) : List Byte :=
  squeeze 8 (perm 12 (xorIn (absorb 8 (spongeInit iv) (fullBlocks 8 m)) (pad 8 (lastBlock 8 m)))) n

def hasha (m : List Byte) : List Byte := xofWith ivHasha m 32
def xofa (m : List Byte) (n : Nat) : List Byte := xofWith ivXofa m n

/-- 40-byte blocks with `Ascon-p[8]`; the last bit of the state is flipped with the padded last block. -/
def prfAbsorb (s : State) (m : List Byte) : State :=
  let s := absorb 8 s (fullBlocks 40 m)
  let s := xorIn s (pad 40 (lastBlock 40 m))
  perm 12 { s with x4 := s.x4 ^^^ 0x8000000000000000 }

/-- `n` bytes of output, 16 bytes per application of `Ascon-p[8]`. -/
def prfWith (iv : Word) (k m : List Byte) (n : Nat) : List Byte := squeeze 16 (prfAbsorb (prfInit iv k) m) n

def prfa (k m : List Byte) (n : Nat) : List Byte := prfWith ivPrfa k m n
def maca (k m : List Byte) : List Byte := prfWith ivMaca k m 16

end Ascon.Spec.A
