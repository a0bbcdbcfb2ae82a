import Verif.Model.Registry
import Verif.C.Place
/-!
# The ARM permutations with the registers chosen by the compiler

The operand lists of the `asm` statements of /repo/crypto_aead/asconaead128/<dir>/round.h and the permutations of
Verif/Model/ArmPerm.lean with every statement run on machine registers.
-/

namespace Ascon.Arm

open Ascon.C Ascon.Asm Ascon.Gen

/-- `[x0_l] "+r"(s->w[0][0]), …, [x4_h] "+r"(s->w[4][1])` -/
def words : List Nat := [x0_l, x0_h, x1_l, x1_h, x2_l, x2_h, x3_l, x3_h, x4_l, x4_h]

/-- armv6/round.h:184-188, armv7m/round.h:176-180 (`ROUND`) -/
def opsROUND : Operands := { inout := words, out := [tmp0, tmp1], imm := [C_l] }
/-- armv6/round.h:272-277, armv7m/round.h:262-267 (`ROUND5`) -/
def opsROUND5 : Operands := { inout := words, out := [tmp0, tmp1, tmp2], imm := [C_l] }
/-- bi32_armv6/round.h:149-153, bi32_armv7m/round.h:141-145 (`ROUND`) -/
def opsBiROUND : Operands := { inout := words, out := [tmp0, tmp1], imm := [C_e, C_o] }
/-- bi32_armv6/round.h:218-223, bi32_armv7m/round.h:208-213 (`ROUND5`) -/
def opsBiROUND5 : Operands := { inout := words, out := [tmp0, tmp1, tmp2], imm := [C_e, C_o] }
/-- armv6/round.h:95-98, armv7m/round.h:91-94 (`ROUND_LOOP`): `[C] "+r"(C), [tmp0] "=r"(tmp0), [tmp1] "=r"(tmp1)` -/
def opsLOOP : Operands := { inout := words ++ [C], out := [tmp0, tmp1] }
/-- armv6m/round.h:173-177: `[tmp1] "+l"(C), [tmp0] "=l"(tmp0), [tmp2] "=l"(tmp1)` -/
def opsLOOPArmv6m : Operands := { inout := words ++ [tmp1], out := [tmp0, tmp2] }
/-- bi32_armv6/round.h:78-82, bi32_armv7m/round.h:74-78: `[C] "+r"(C), [E] "+r"(E), [tmp0] "=r"(tmp0), [tmp1] "=r"(tmp1)` -/
def opsBiLOOP : Operands := { inout := words ++ [C, E], out := [tmp0, tmp1] }
/-- bi32_armv6m/round.h:164-167: `[tmp1] "+l"(C), [tmp0] "+l"(E), [tmp2] "=l"(tmp1)` -/
def opsBiLOOPArmv6m : Operands := { inout := words ++ [tmp1, tmp0], out := [tmp2] }

/-- One choice of registers, and what the machine (other registers, registers of the `"=r"` operands, stack, flag) holds when the
statement is reached. -/
structure Placement (o : Operands) where
  ρ : Alloc
  valid : o.Valid ρ
  m0 : M 32

/-- The compiler may choose differently for every statement, and the machine differs between executions: a choice for
every operand list, round number and state. -/
abbrev Pick := (o : Operands) → Nat → State → Placement o

/-- The word operands read back after the statement. -/
def storePlaced (e : Endian) (ρ : Alloc) (m : M 32) : State := storeRegs e ⟨fun i => m.r (ρ i), [], false⟩

/-- `block` on machine registers. -/
def blockP (o : Operands) (p : Placement o) (e : Endian) (code : List (Instr 32)) (init : Nat → BitVec 32) (s : State) :
    Prog State :=
  let val := (loadRegs e s init).r
  match exec (fun _ => none) (code.map (Instr.place o p.ρ val)) (o.load p.ρ val p.m0) with
  | none => .ub
  | some m => .ret (storePlaced e p.ρ m)

/-- `roundLoop` on machine registers. -/
def roundLoopP (o : Operands) (p : Placement o) (e : Endian) (rom : Nat → Option Byte) (body : List (Instr 32))
    (init : Nat → BitVec 32) (s : State) : Prog State := do
  let val := (loadRegs e s init).r
  let m ← doWhile rom (body.map (Instr.place o p.ρ val)) 16 (o.load p.ρ val p.m0)
  pure (storePlaced e p.ρ m)

/-- `blockR` on machine registers. -/
def blockRP (pick : Pick) (o : Operands) (e : Endian) (code : List (Instr 32)) (imm : Word → Nat → BitVec 32) (K : Consts)
    (s : State) (i : Nat) : Prog State := blockP o (pick o i s) e code (imm (K.RCs.getD i 0)) s

/-- `unrolled` on machine registers. -/
def unrolledP (pick : Pick) (o5 o : Operands) (inl : Bool) (r5 r : List (Instr 32)) (imm : Word → Nat → BitVec 32)
    (K : Consts) (nr : Nat) (e : Endian) (s : State) : Prog State :=
  match nr with
  | 12 => P12ROUNDS5 inl (blockRP pick o5 e r5 imm K) (blockRP pick o e r imm K) s
  | 8 => P8ROUNDS5 inl (blockRP pick o5 e r5 imm K) (blockRP pick o e r imm K) s
  | _ => P6ROUNDS5 inl (blockRP pick o5 e r5 imm K) (blockRP pick o e r imm K) s

/-- The directories with inline assembly. -/
inductive Inline where
  | armv6 | armv6_lowsize | armv6m | armv7m | armv7m_small | bi32_armv6 | bi32_armv6m | bi32_armv7m | bi32_armv7m_small
deriving DecidableEq, Repr

/-- The backend of Verif/Model/ArmPerm.lean. -/
def Inline.core : Inline → Impl.Core
  | .armv6 => .armv6
  | .armv6_lowsize => .armv6_lowsize
  | .armv6m => .armv6m
  | .armv7m => .armv7m
  | .armv7m_small => .armv7m_small
  | .bi32_armv6 => .bi32_armv6
  | .bi32_armv6m => .bi32_armv6m
  | .bi32_armv7m => .bi32_armv7m
  | .bi32_armv7m_small => .bi32_armv7m_small

/-- `P(s, nr)` with the registers of `pick`. -/
def Inline.P (pick : Pick) (nr : Nat) (e : Endian) : Inline → State → Prog State
  | .armv6 => unrolledP pick opsROUND5 opsROUND false armv6_ROUND5 armv6_ROUND immOpt optConsts nr e
  | .armv6_lowsize => fun s => roundLoopP opsLOOP (pick _ nr s) e (fun _ => none) armv6_ROUND_LOOP (initLoop nr) s
  | .armv6m => fun s =>
    roundLoopP opsLOOPArmv6m (pick _ nr s) e (fun _ => none) armv6m_ROUND_LOOP (initLoopArmv6m nr) s
  | .armv7m => unrolledP pick opsROUND5 opsROUND false armv7m_ROUND5 armv7m_ROUND immOpt optConsts nr e
  | .armv7m_small => fun s => roundLoopP opsLOOP (pick _ nr s) e (fun _ => none) armv7m_ROUND_LOOP (initLoop nr) s
  | .bi32_armv6 => unrolledP pick opsBiROUND5 opsBiROUND false bi32_armv6_ROUND5 bi32_armv6_ROUND immBi32 bi32Consts nr e
  | .bi32_armv6m => fun s =>
    roundLoopP opsBiLOOPArmv6m (pick _ nr s) e bi32Rom bi32_armv6m_ROUND_LOOP (initLoopBi32Armv6m nr) s
  | .bi32_armv7m => unrolledP pick opsBiROUND5 opsBiROUND true bi32_armv7m_ROUND5 bi32_armv7m_ROUND immBi32 bi32Consts nr e
  | .bi32_armv7m_small => fun s =>
    roundLoopP opsBiLOOP (pick _ nr s) e bi32Rom bi32_armv7m_ROUND_LOOP (initLoopBi32 nr) s

/-- The backend whose permutations run on the registers of `pick`; everything else (word.h, constants.h) is C. -/
def Inline.backend (pick : Pick) (i : Inline) : Backend :=
  { i.core.backend with
    P12 := fun e => i.P pick 12 e
    P8 := fun e => i.P pick 8 e }

end Ascon.Arm

namespace Ascon.Arm

open Ascon.C Ascon.Asm Ascon.Gen

/-- The straight-line `asm` statements that the shipped configurations use. -/
inductive RoundStmt where
  | armv6_ROUND | armv6_ROUND5 | armv7m_ROUND | armv7m_ROUND5
  | bi32_armv6_ROUND | bi32_armv6_ROUND5 | bi32_armv7m_ROUND | bi32_armv7m_ROUND5
deriving DecidableEq, Repr

def RoundStmt.code : RoundStmt → List (Instr 32)
  | .armv6_ROUND => Arm.armv6_ROUND
  | .armv6_ROUND5 => Arm.armv6_ROUND5
  | .armv7m_ROUND => Arm.armv7m_ROUND
  | .armv7m_ROUND5 => Arm.armv7m_ROUND5
  | .bi32_armv6_ROUND => Arm.bi32_armv6_ROUND
  | .bi32_armv6_ROUND5 => Arm.bi32_armv6_ROUND5
  | .bi32_armv7m_ROUND => Arm.bi32_armv7m_ROUND
  | .bi32_armv7m_ROUND5 => Arm.bi32_armv7m_ROUND5

def RoundStmt.ops : RoundStmt → Operands
  | .armv6_ROUND | .armv7m_ROUND => opsROUND
  | .armv6_ROUND5 | .armv7m_ROUND5 => opsROUND5
  | .bi32_armv6_ROUND | .bi32_armv7m_ROUND => opsBiROUND
  | .bi32_armv6_ROUND5 | .bi32_armv7m_ROUND5 => opsBiROUND5

/-- The representation of a state word. -/
def RoundStmt.enc : RoundStmt → Word → Word
  | .armv6_ROUND | .armv7m_ROUND | .armv6_ROUND5 | .armv7m_ROUND5 => fun w => w
  | _ => deinterleave32 .little

/-- The immediate operands for the (representation of the) round constant `c`. -/
def RoundStmt.imm : RoundStmt → Word → Nat → BitVec 32
  | .armv6_ROUND | .armv7m_ROUND | .armv6_ROUND5 | .armv7m_ROUND5 => immOpt
  | _ => immBi32

/-- `ROUND` leaves word `i` in the operand `xi`, `ROUND5` leaves `x0` in the operand of `x2` and so on. -/
def RoundStmt.order : RoundStmt → State → State
  | .armv6_ROUND | .armv7m_ROUND | .bi32_armv6_ROUND | .bi32_armv7m_ROUND => fun s => s
  | _ => fun s => ⟨s.x3, s.x4, s.x0, s.x1, s.x2⟩

/-- The `ROUND_LOOP` statements. -/
inductive LoopStmt where
  | armv6 | armv6m | armv7m | bi32_armv6m | bi32_armv7m
deriving DecidableEq, Repr

def LoopStmt.code : LoopStmt → List (Instr 32)
  | .armv6 => armv6_ROUND_LOOP
  | .armv6m => armv6m_ROUND_LOOP
  | .armv7m => armv7m_ROUND_LOOP
  | .bi32_armv6m => bi32_armv6m_ROUND_LOOP
  | .bi32_armv7m => bi32_armv7m_ROUND_LOOP

def LoopStmt.ops : LoopStmt → Operands
  | .armv6 | .armv7m => opsLOOP
  | .armv6m => opsLOOPArmv6m
  | .bi32_armv6m => opsBiLOOPArmv6m
  | .bi32_armv7m => opsBiLOOP

def LoopStmt.enc : LoopStmt → Word → Word
  | .armv6 | .armv7m | .armv6m => fun w => w
  | _ => deinterleave32 .little

/-- The loop operands (round constant, or position in the table and its end) for `nr` rounds. -/
def LoopStmt.init : LoopStmt → Nat → Nat → BitVec 32
  | .armv6 | .armv7m => initLoop
  | .armv6m => initLoopArmv6m
  | .bi32_armv6m => initLoopBi32Armv6m
  | .bi32_armv7m => initLoopBi32

def LoopStmt.rom : LoopStmt → Nat → Option Byte
  | .armv6 | .armv7m | .armv6m => fun _ => none
  | _ => bi32Rom

/-- bi32_armv6m/round.h:314-319, `ROUND`: `[C_e] "ri"((uint32_t)C), [C_o] "ri"((uint32_t)(C >> 32))`.  With the
constants in registers these are inputs that the compiler may place in the register of any `"=l"` output (none of them is marked `&`):
these are the operands whose registers have to be different; `ρ C_e` and `ρ C_o` may be registers of temporaries. -/
def opsBiROUNDArmv6m : Operands := { inout := words, out := [tmp0, tmp1, tmp2] }

end Ascon.Arm
