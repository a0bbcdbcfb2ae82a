import Verif.Model.GenCore
/-!
# Round functions and permutations of the portable optimized implementations

Every implementation directory is assembled from copies of files below /repo/src (see
/verif/provenance.py); the line numbers refer to those.  Each `ROUND` is modelled as a function of the
rotation `ROR` of the word.h it is compiled with.  `printstate` calls expand to nothing unless
`ASCON_PRINT_STATE` is defined and are left out.
-/

namespace Ascon.Gen

open Ascon.C
open Ascon.C.Prog (require ifc loop)

/-- src/opt64/round.h:10-39 and src/bi32/round.h:10-39 (same text; the type of `C` differs, callers
here pass the converted constant). -/
def ROUND_opt64 (ROR : Word → Nat → Word) (s : State) (C : Word) : State :=
  let x0 := s.x0
  let x1 := s.x1
  let x2 := s.x2
  let x3 := s.x3
  let x4 := s.x4
  -- round constant
  let x2 := x2 ^^^ C
  -- s-box layer
  let x0 := x0 ^^^ x4
  let x4 := x4 ^^^ x3
  let x2 := x2 ^^^ x1
  let t0 := x0 ^^^ (~~~x1 &&& x2)
  let t2 := x2 ^^^ (~~~x3 &&& x4)
  let t4 := x4 ^^^ (~~~x0 &&& x1)
  let t1 := x1 ^^^ (~~~x2 &&& x3)
  let t3 := x3 ^^^ (~~~x4 &&& x0)
  let t1 := t1 ^^^ t0
  let t3 := t3 ^^^ t2
  let t0 := t0 ^^^ t4
  -- linear layer
  let x2 := t2 ^^^ ROR t2 (6 - 1)
  let x3 := t3 ^^^ ROR t3 (17 - 10)
  let x4 := t4 ^^^ ROR t4 (41 - 7)
  let x0 := t0 ^^^ ROR t0 (28 - 19)
  let x1 := t1 ^^^ ROR t1 (61 - 39)
  let x2 := t2 ^^^ ROR x2 1
  let x3 := t3 ^^^ ROR x3 10
  let x4 := t4 ^^^ ROR x4 7
  let x0 := t0 ^^^ ROR x0 19
  let x1 := t1 ^^^ ROR x1 39
  let x2 := ~~~x2
  ⟨x0, x1, x2, x3, x4⟩

/-- src/opt64_lowsize/round.h:10-40, src/bi32_lowsize/round.h, src/bi32_lowreg/round.h and
src/bi8/round.h (the last three are identical; opt64_lowsize differs in the type of `C`). -/
def ROUND_low (ROR : Word → Nat → Word) (s : State) (C : Word) : State :=
  let x0 := s.x0
  let x1 := s.x1
  let x2 := s.x2
  let x3 := s.x3
  let x4 := s.x4
  -- round constant
  let x2 := x2 ^^^ C
  -- s-box layer
  let x0 := x0 ^^^ x4
  let x4 := x4 ^^^ x3
  let x2 := x2 ^^^ x1
  let xtemp := x0 &&& ~~~x4
  let x0 := x0 ^^^ (x2 &&& ~~~x1)
  let x2 := x2 ^^^ (x4 &&& ~~~x3)
  let x4 := x4 ^^^ (x1 &&& ~~~x0)
  let x1 := x1 ^^^ (x3 &&& ~~~x2)
  let x3 := x3 ^^^ xtemp
  let x1 := x1 ^^^ x0
  let x3 := x3 ^^^ x2
  let x0 := x0 ^^^ x4
  -- linear layer
  let xtemp := x0 ^^^ ROR x0 (28 - 19)
  let x0 := x0 ^^^ ROR xtemp 19
  let xtemp := x1 ^^^ ROR x1 (61 - 39)
  let x1 := x1 ^^^ ROR xtemp 39
  let xtemp := x2 ^^^ ROR x2 (6 - 1)
  let x2 := x2 ^^^ ROR xtemp 1
  let xtemp := x3 ^^^ ROR x3 (17 - 10)
  let x3 := x3 ^^^ ROR xtemp 10
  let xtemp := x4 ^^^ ROR x4 (41 - 7)
  let x4 := x4 ^^^ ROR xtemp 7
  let x2 := ~~~x2
  ⟨x0, x1, x2, x3, x4⟩

/-- src/opt32/round.h:10-40 (src/opt32_lowsize/round.h is a copy). -/
def ROUND_opt32 (s : State) (C : Word) : State :=
  let x0 := s.x0
  let x1 := s.x1
  let x2 := s.x2
  let x3 := s.x3
  let x4 := s.x4
  -- round constant
  let x2 := x2 ^^^ C
  -- s-box layer
  let x0 := x0 ^^^ x4
  let x4 := x4 ^^^ x3
  let x2 := x2 ^^^ x1
  let xtemp := x0 &&& ~~~x4
  let x0 := x0 ^^^ (x2 &&& ~~~x1)
  let x2 := x2 ^^^ (x4 &&& ~~~x3)
  let x4 := x4 ^^^ (x1 &&& ~~~x0)
  let x1 := x1 ^^^ (x3 &&& ~~~x2)
  let x3 := x3 ^^^ xtemp
  let x1 := x1 ^^^ x0
  let x3 := x3 ^^^ x2
  let x0 := x0 ^^^ x4
  let x2 := ~~~x2
  -- linear layer
  let x0 := x0 ^^^ ((x0 >>> 19) ^^^ (x0 <<< 45) ^^^ (x0 >>> 28) ^^^ (x0 <<< 36))
  let x1 := x1 ^^^ ((x1 >>> 61) ^^^ (x1 <<< 3) ^^^ (x1 >>> 39) ^^^ (x1 <<< 25))
  let x2 := x2 ^^^ ((x2 >>> 1) ^^^ (x2 <<< 63) ^^^ (x2 >>> 6) ^^^ (x2 <<< 58))
  let x3 := x3 ^^^ ((x3 >>> 10) ^^^ (x3 <<< 54) ^^^ (x3 >>> 17) ^^^ (x3 <<< 47))
  let x4 := x4 ^^^ ((x4 >>> 7) ^^^ (x4 <<< 57) ^^^ (x4 >>> 41) ^^^ (x4 <<< 23))
  ⟨x0, x1, x2, x3, x4⟩

/-- Round constants and the `START`/`INC`/`END`/`RC` macros of a constants.h file. -/
structure Consts where
  /-- `RC0` … `RCb` -/
  RCs : List Word
  /-- `RC(i)`, `none` where the C expression is undefined (index outside of the table) -/
  RC : Int → Option Word
  START : Nat → Int
  INC : Int
  END : Int

/-- src/permutations.h:13-26: `ROUND(s, RC0); … ROUND(s, RCb);` -/
def P12ROUNDS (K : Consts) (ROUND : State → Word → State) (s : State) : Prog State :=
  pure (K.RCs.foldl ROUND s)

/-- src/permutations.h:28-37: `ROUND(s, RC4); … ROUND(s, RCb);` -/
def P8ROUNDS (K : Consts) (ROUND : State → Word → State) (s : State) : Prog State :=
  pure ((K.RCs.drop 4).foldl ROUND s)

/-- src/permutations.h:39-46: `ROUND(s, RC6); … ROUND(s, RCb);` -/
def P6ROUNDS (K : Consts) (ROUND : State → Word → State) (s : State) : Prog State :=
  pure ((K.RCs.drop 6).foldl ROUND s)

/-- One iteration of the body of `PROUNDS`: `ROUND(s, RC(i)); i += INC;` -/
def roundStep (K : Consts) (ROUND : State → Word → State) (q : Int × State) : Prog (Int × State) :=
  match K.RC q.1 with
  | some c => pure (q.1 + K.INC, ROUND q.2 c)
  | none => .ub

/-- `PROUNDS` (opt64/round.h:41-47 and the same lines in the other round.h files):
`int i = START(nr); do { ROUND(s, RC(i)); i += INC; } while (i != END);`.  More than 16 iterations
count as non-termination. -/
def PROUNDS (K : Consts) (ROUND : State → Word → State) (nr : Nat) (s : State) : Prog State := do
  let q ← roundStep K ROUND (K.START nr, s)
  let q ← loop 16 (fun q : Int × State => q.1 != K.END) (roundStep K ROUND) q
  pure q.2

/-- src/constants.h:74-85 (`RC0` … `RCb`), 87-91 (`RC`, `START`, `INC`, `END`).  `ROUND` takes a
`uint8_t`, so `RC(i)` is the low byte of `i`. -/
def optConsts : Consts where
  RCs := [0xf0, 0xe1, 0xd2, 0xc3, 0xb4, 0xa5, 0x96, 0x87, 0x78, 0x69, 0x5a, 0x4b]
  RC := fun i => some ((BitVec.ofInt 8 i).setWidth 64)
  START := fun n => (((3 + n) <<< 4 ||| (12 - n) : Nat) : Int)
  INC := -0x0f
  END := 0x3c

/-- src/bi32/constants.c:5-7 `const uint8_t constants[] = {0xc, 0xc, 0x9, 0xc, …}` -/
def bi32Table : List Word :=
  [0xc, 0xc, 0x9, 0xc, 0xc, 0x9, 0x9, 0x9, 0x6, 0xc, 0x3, 0xc,
   0x6, 0x9, 0x3, 0x9, 0xc, 0x6, 0x9, 0x6, 0xc, 0x3, 0x9, 0x3]

/-- src/bi32/constants.h:74-85, 87-91: `RC(i) ((uint64_t)constants[i + 1] << 32 | constants[i])`,
`START(n) (24 - 2 * n)`, `INC 2`, `END 24`.  The table lookups use the public loop counter; they are
not recorded as memory accesses. -/
def bi32Consts : Consts where
  RCs := [0x0000000c0000000c, 0x0000000c00000009, 0x000000090000000c, 0x0000000900000009,
          0x0000000c00000006, 0x0000000c00000003, 0x0000000900000006, 0x0000000900000003,
          0x000000060000000c, 0x0000000600000009, 0x000000030000000c, 0x0000000300000009]
  RC := fun i =>
    if 0 ≤ i ∧ i + 1 < 24 then
      some (bi32Table.getD (i + 1).toNat 0 <<< 32 ||| bi32Table.getD i.toNat 0)
    else none
  START := fun n => 24 - 2 * n
  INC := 2
  END := 24

/-- src/bi8/constants.h:74-85 and the table `constants[]` of src/bi8/constants.c:5-6. -/
def bi8Table : List Word :=
  [0x0101010100000000, 0x0101010000000001, 0x0101000100000100, 0x0101000000000101,
   0x0100010100010000, 0x0100010000010001, 0x0100000100010100, 0x0100000000010101,
   0x0001010101000000, 0x0001010001000001, 0x0001000101000100, 0x0001000001000101]

/-- src/bi8/constants.h:74-85, 87-90: `RC(i) (constants[i])`, `START(n) (12 - n)`, `INC 1`, `END 12`. -/
def bi8Consts : Consts where
  RCs := bi8Table
  RC := fun i => if 0 ≤ i ∧ i < 12 then some (bi8Table.getD i.toNat 0) else none
  START := fun n => 12 - n
  INC := 1
  END := 12

end Ascon.Gen
