import Verif.C.Asm
/-!
# ARM instructions and the operands of the inline assembly blocks

Each mnemonic is given as an instruction of the register machine of Verif/C/Asm.lean (Arm Architecture
Reference Manual: `BIC` is `a AND NOT b`, `ORN` is `a OR NOT b`, `MVN` is `NOT a`; the flag-setting Thumb
forms only differ in the flags, which are not read).  `movs` from a register and `mov` coincide.
-/

namespace Ascon.Arm

open Ascon.Asm

/-! Operand names of the round.h files; `x3_h` is the register holding `s->w[3][1]`. -/

abbrev x0_l : Nat := 0
abbrev x0_h : Nat := 1
abbrev x1_l : Nat := 2
abbrev x1_h : Nat := 3
abbrev x2_l : Nat := 4
abbrev x2_h : Nat := 5
abbrev x3_l : Nat := 6
abbrev x3_h : Nat := 7
abbrev x4_l : Nat := 8
abbrev x4_h : Nat := 9
abbrev tmp0 : Nat := 10
abbrev tmp1 : Nat := 11
abbrev tmp2 : Nat := 12
abbrev C : Nat := 13
abbrev E : Nat := 14
/-- `"i"` operands: the immediate constant is kept in a register that is never written. -/
abbrev C_l : Nat := 15
abbrev C_e : Nat := 15
abbrev C_o : Nat := 16

abbrev eor (d n : Nat) (m : Opnd 32) : Instr 32 := .bit .xor d (.reg n) m
abbrev and (d n : Nat) (m : Opnd 32) : Instr 32 := .bit .and d (.reg n) m
abbrev orr (d n : Nat) (m : Opnd 32) : Instr 32 := .bit .or d (.reg n) m
abbrev bic (d n : Nat) (m : Opnd 32) : Instr 32 := .bit .andn d (.reg n) m
abbrev orn (d n : Nat) (m : Opnd 32) : Instr 32 := .bit .orn d (.reg n) m
abbrev mvn (d : Nat) (m : Opnd 32) : Instr 32 := .mvn d m
abbrev movs (d : Nat) (m : Opnd 32) : Instr 32 := .mov d m
abbrev lsl (d n k : Nat) : Instr 32 := .mov d (.lsl n k)
abbrev lsr (d n k : Nat) : Instr 32 := .mov d (.lsr n k)
/-- Rotation by a register (the amount modulo 32; the machine's `rorReg` uses the whole register, which
is equivalent as 32 divides 256). -/
abbrev ror (d n m : Nat) : Instr 32 := .rorReg d n m
abbrev add (d n : Nat) (m : Opnd 32) : Instr 32 := .add d (.reg n) m
abbrev sub (d n : Nat) (m : Opnd 32) : Instr 32 := .sub d (.reg n) m
abbrev cmp (n : Nat) (m : Opnd 32) : Instr 32 := .cmp (.reg n) m
abbrev push (r : Nat) : Instr 32 := .push r
abbrev pop (r : Nat) : Instr 32 := .pop r
abbrev ldrb (d n off : Nat) : Instr 32 := .ldrb d n off
abbrev ldrbPost (d n inc : Nat) : Instr 32 := .ldrbPost d n inc

end Ascon.Arm
