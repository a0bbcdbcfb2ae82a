import Verif.Spec.Bytes
/-!
# Specification: the Ascon permutation (SP 800-232, section 3)
-/

namespace Ascon

/-- The 320-bit state as five 64-bit words. -/
structure State where
  x0 : Word
  x1 : Word
  x2 : Word
  x3 : Word
  x4 : Word
deriving DecidableEq, Repr

@[ext] theorem State.ext' {a b : State} (h0 : a.x0 = b.x0) (h1 : a.x1 = b.x1)
    (h2 : a.x2 = b.x2) (h3 : a.x3 = b.x3) (h4 : a.x4 = b.x4) : a = b := by
  cases a; cases b; simp_all

namespace Spec

/-- SP 800-232 Table 5: the sixteen round constants. -/
def roundConsts : List Word :=
  [0x3c, 0x2d, 0x1e, 0x0f, 0xf0, 0xe1, 0xd2, 0xc3,
   0xb4, 0xa5, 0x96, 0x87, 0x78, 0x69, 0x5a, 0x4b]

/-- Constant-addition layer: only the third word changes. -/
def addConst (c : Word) (s : State) : State := { s with x2 := s.x2 ^^^ c }

/-- SP 800-232 Table 6: the 5-bit S-box, input `x0 x1 x2 x3 x4` with `x0` most significant. -/
def sboxTable : List Nat :=
  [0x04, 0x0b, 0x1f, 0x14, 0x1a, 0x15, 0x09, 0x02,
   0x1b, 0x05, 0x08, 0x12, 0x1d, 0x03, 0x06, 0x1c,
   0x1e, 0x13, 0x07, 0x0e, 0x00, 0x0d, 0x11, 0x18,
   0x10, 0x0c, 0x01, 0x19, 0x16, 0x0a, 0x0f, 0x17]

/-- S-box applied to one bit column. -/
def sbox (b0 b1 b2 b3 b4 : Bool) : Nat :=
  sboxTable.getD
    (16 * b0.toNat + 8 * b1.toNat + 4 * b2.toNat + 2 * b3.toNat + b4.toNat) 0

/-- The word whose bit `i` is `f i` (`i < 64`). -/
def wordOfBits (f : Nat → Bool) : Word :=
  BitVec.ofNat 64 ((List.range 64).foldr (fun i acc => acc + (f i).toNat * 2 ^ i) 0)

/-- Substitution layer: the S-box is applied to each of the 64 bit columns. -/
def subst (s : State) : State :=
  let col (i : Nat) : Nat :=
    sbox (s.x0.getLsbD i) (s.x1.getLsbD i) (s.x2.getLsbD i) (s.x3.getLsbD i) (s.x4.getLsbD i)
  { x0 := wordOfBits fun i => (col i).testBit 4
    x1 := wordOfBits fun i => (col i).testBit 3
    x2 := wordOfBits fun i => (col i).testBit 2
    x3 := wordOfBits fun i => (col i).testBit 1
    x4 := wordOfBits fun i => (col i).testBit 0 }

/-- Linear diffusion layer. -/
def diffuse (s : State) : State :=
  { x0 := s.x0 ^^^ s.x0.rotateRight 19 ^^^ s.x0.rotateRight 28
    x1 := s.x1 ^^^ s.x1.rotateRight 61 ^^^ s.x1.rotateRight 39
    x2 := s.x2 ^^^ s.x2.rotateRight 1  ^^^ s.x2.rotateRight 6
    x3 := s.x3 ^^^ s.x3.rotateRight 10 ^^^ s.x3.rotateRight 17
    x4 := s.x4 ^^^ s.x4.rotateRight 7  ^^^ s.x4.rotateRight 41 }

/-- One round. -/
def round (c : Word) (s : State) : State := diffuse (subst (addConst c s))

/-- `Ascon-p[rnd]`: `rnd` rounds using the last `rnd` constants. -/
def perm (rnd : Nat) (s : State) : State :=
  (roundConsts.drop (16 - rnd)).foldl (fun s c => round c s) s

end Spec
end Ascon
