import Verif.Spec.Modes
/-!
# Specification: the family of Ascon AEAD schemes

Ascon-128, Ascon-80pq and Ascon-128a differ in the rate, the number of rounds between blocks, the initial value and the
key length.  This file describes the whole family once, on byte strings: the initial state is `IV ‖ K ‖ N` (40 bytes), the
key is added to the *end* of the state after the first permutation, right *after the rate* before the last one, and to the
end again to form the tag.  `Ascon-128a` with the AEAD128 initial value is Ascon-AEAD128 (`Props/Variants.lean` proves that this
file and `Spec/Modes.lean` agree on it).
-/

namespace Ascon.Spec

/-- Parameters of a member of the family. -/
structure Variant where
  /-- block length in bytes -/
  r : Nat
  /-- rounds of the permutation between two blocks -/
  b : Nat
  /-- initial value -/
  iv : List Byte
  /-- key length in bytes -/
  keyLen : Nat

/-- Ascon-128 (little-endian form): 8-byte blocks, 6 rounds, 16-byte key. -/
def ascon128 : Variant := ⟨8, 6, [0x01, 0x00, 0x6c, 0x80, 0x00, 0x08, 0x00, 0x00], 16⟩

/-- Ascon-80pq (little-endian form): 8-byte blocks, 6 rounds, 20-byte key, 4-byte initial value. -/
def ascon80pq : Variant := ⟨8, 6, [0x00, 0x08, 0x6c, 0x80], 20⟩

/-- Ascon-128a with the initial value of SP 800-232, that is, Ascon-AEAD128. -/
def asconAead128 : Variant := ⟨16, 8, [0x01, 0x00, 0x8c, 0x80, 0x00, 0x10, 0x00, 0x00], 16⟩

namespace Variant

/-- The state made of 40 bytes. -/
def ofBytes (b : List Byte) : State := xorIn ⟨0, 0, 0, 0, 0⟩ b

/-- XOR a byte string into the state, starting `off` bytes into it. -/
def xorAtByte (off : Nat) (b : List Byte) (s : State) : State := xorIn s (List.replicate off 0 ++ b)

/-- Add the key to the last bytes of the state. -/
def addKeyEnd (k : List Byte) (s : State) : State := xorAtByte (40 - k.length) k s

variable (V : Variant)

/-- Initialisation. -/
def init (k n : List Byte) : State := addKeyEnd k (perm 12 (ofBytes (V.iv ++ k ++ n)))

/-- Associated data, and the domain separation bit: the last bit of the state. -/
def ad (a : List Byte) (s : State) : State :=
  let s := if a = [] then s else absorb V.b s (fullBlocks V.r (pad V.r a))
  xorAtByte 39 [0x80] s

/-- Encrypt complete blocks. -/
def encBlocks : State → List (List Byte) → State × List Byte
  | s, [] => (s, [])
  | s, p :: ps =>
    let s := xorIn s p
    let t := encBlocks (perm V.b s) ps
    (t.1, rate V.r s ++ t.2)

/-- Encrypt a plaintext. -/
def encBody (s : State) (p : List Byte) : State × List Byte :=
  let t := V.encBlocks s (fullBlocks V.r p)
  let l := lastBlock V.r p
  let s := xorIn t.1 (pad V.r l)
  (s, t.2 ++ rate l.length s)

/-- Decrypt complete blocks. -/
def decBlocks : State → List (List Byte) → State × List Byte
  | s, [] => (s, [])
  | s, c :: cs =>
    let p := xorBytes (rate V.r s) c
    let t := decBlocks (perm V.b (xorIn s p)) cs
    (t.1, p ++ t.2)

/-- Decrypt a ciphertext body. -/
def decBody (s : State) (c : List Byte) : State × List Byte :=
  let t := V.decBlocks s (fullBlocks V.r c)
  let l := lastBlock V.r c
  let p := xorBytes (rate l.length t.1) l
  (xorIn t.1 (pad V.r p), t.2 ++ p)

/-- Finalisation: the last 16 bytes of the state. -/
def tag (k : List Byte) (s : State) : List Byte :=
  (stateBytes (addKeyEnd k (perm 12 (xorAtByte V.r k s)))).drop 24

/-- Authenticated encryption: ciphertext followed by the 16-byte tag. -/
def encrypt (k n a p : List Byte) : List Byte :=
  let t := V.encBody (V.ad a (V.init k n)) p
  t.2 ++ V.tag k t.1

/-- The plaintext candidate and the expected tag of a ciphertext body. -/
def candidate (k n a c : List Byte) : List Byte := (V.decBody (V.ad a (V.init k n)) c).2
def decTag (k n a c : List Byte) : List Byte := V.tag k (V.decBody (V.ad a (V.init k n)) c).1

/-- Authenticated decryption of a ciphertext followed by a tag. -/
def decrypt (k n a c : List Byte) : Option (List Byte) :=
  if c.length < 16 then none
  else if c.drop (c.length - 16) = V.decTag k n a (c.take (c.length - 16)) then
    some (V.candidate k n a (c.take (c.length - 16)))
  else none

end Variant

end Ascon.Spec
