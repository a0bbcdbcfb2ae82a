import Verif.C.Prog
/-!
# A register machine for the assembly blocks

Straight-line assembly (the inline assembly of the ARM round.h files, among others) is translated line by line into
a list of `Instr`; `exec` runs it on a register file of `w`-bit registers, a stack (for `push`/`pop`), a
zero flag and a read-only byte table (for `ldrb` from the constants).  `none` is a fault.

Simplifications: condition flags other than zero are not modelled; the operands of an inline assembly
statement are pairwise distinct registers (what the compiler guarantees for `+r`/`=r` operands); the stack
is not part of the addressable memory.
-/

namespace Ascon.Asm

open Ascon.C

/-- Bitwise operations of two operands: `and`, `orr`, `eor`, `bic` (`a & ~b`), `orn` (`a | ~b`). -/
inductive BitOp where
  | and | or | xor | andn | orn
deriving DecidableEq

def BitOp.fn {w : Nat} : BitOp → BitVec w → BitVec w → BitVec w
  | .and, a, b => a &&& b
  | .or, a, b => a ||| b
  | .xor, a, b => a ^^^ b
  | .andn, a, b => a &&& ~~~b
  | .orn, a, b => a ||| ~~~b

/-- Second operand of an instruction: immediate, register, or register shifted by a constant. -/
inductive Opnd (w : Nat) where
  | imm (v : BitVec w)
  | reg (r : Nat)
  | lsl (r k : Nat)
  | lsr (r k : Nat)
  | ror (r k : Nat)

inductive Instr (w : Nat) where
  | bit (op : BitOp) (d : Nat) (a b : Opnd w)
  | mov (d : Nat) (a : Opnd w)
  | mvn (d : Nat) (a : Opnd w)
  | add (d : Nat) (a b : Opnd w)
  | sub (d : Nat) (a b : Opnd w)
  /-- rotate right by the amount in register `m` -/
  | rorReg (d a m : Nat)
  /-- compare for equality, sets the zero flag -/
  | cmp (a b : Opnd w)
  | push (r : Nat)
  | pop (r : Nat)
  /-- `ldrb d, [a, #off]` -/
  | ldrb (d a off : Nat)
  /-- `ldrb d, [a], #inc` -/
  | ldrbPost (d a inc : Nat)
  /-- NEON `vsri d, a, #k`: shift right and insert, the upper `k` bits of `d` are kept -/
  | sri (d a k : Nat)
  /-- NEON `vsli d, a, #k`: shift left and insert, the lower `k` bits of `d` are kept -/
  | sli (d a k : Nat)
  /-- RISC-V `fsri d, a, b, k` (funnel shift, `0 < k < w`): the lower `w` bits of `b:a >> k` -/
  | fsr (d a b k : Nat)

/-- Machine state. -/
structure M (w : Nat) where
  r : Nat → BitVec w
  stk : List (BitVec w)
  z : Bool

variable {w : Nat}

def M.set (m : M w) (d : Nat) (v : BitVec w) : M w := { m with r := fun i => if i = d then v else m.r i }

def Opnd.get (m : M w) : Opnd w → BitVec w
  | .imm v => v
  | .reg r => m.r r
  | .lsl r k => m.r r <<< k
  | .lsr r k => m.r r >>> k
  | .ror r k => (m.r r).rotateRight k

/-- One instruction. -/
def step (rom : Nat → Option Byte) (m : M w) : Instr w → Option (M w)
  | .bit op d a b => some (m.set d (op.fn (a.get m) (b.get m)))
  | .mov d a => some (m.set d (a.get m))
  | .mvn d a => some (m.set d (~~~(a.get m)))
  | .add d a b => some (m.set d (a.get m + b.get m))
  | .sub d a b => some (m.set d (a.get m - b.get m))
  | .rorReg d a k => some (m.set d ((m.r a).rotateRight (m.r k).toNat))
  | .cmp a b => some { m with z := a.get m == b.get m }
  | .push r => some { m with stk := m.r r :: m.stk }
  | .pop r =>
    match m.stk with
    | [] => none
    | v :: t => some ({ m with stk := t }.set r v)
  | .ldrb d a off => (rom ((m.r a).toNat + off)).map fun b => m.set d (b.setWidth w)
  | .ldrbPost d a inc =>
    (rom (m.r a).toNat).map fun b => (m.set d (b.setWidth w)).set a (m.r a + BitVec.ofNat w inc)
  | .sri d a k => some (m.set d ((m.r d &&& ~~~(BitVec.allOnes w >>> k)) ||| m.r a >>> k))
  | .sli d a k => some (m.set d ((m.r d &&& ~~~(BitVec.allOnes w <<< k)) ||| m.r a <<< k))
  | .fsr d a b k => some (m.set d (m.r a >>> k ||| m.r b <<< (w - k)))

/-- A list of instructions. -/
def exec (rom : Nat → Option Byte) : List (Instr w) → M w → Option (M w)
  | [], m => some m
  | i :: is, m => (step rom m i).bind (exec rom is)

/-- `begin: body; bne begin` (or `beq end; b begin; end:`): the body is repeated until the zero flag is set.
Every jump is recorded; running out of fuel counts as a fault. -/
def doWhile (rom : Nat → Option Byte) (body : List (Instr w)) : Nat → M w → Prog (M w)
  | 0, _ => .ub
  | f + 1, m =>
    match exec rom body m with
    | none => .ub
    | some m => .branch (!m.z) (if m.z then .ret m else doWhile rom body f m)

end Ascon.Asm
