import Verif.Model.Arm
/-!
# src/armv6m_lowsize/permutations.S

Generated by tools/gen_arm.py from /repo/crypto_aead/asconaead128/armv6m_lowsize/permutations.S, in order.
The ten words of the state in memory are the cells `cell … cell + 9`, the stack slot `[sp, #4]` is `slot`
(the generator checks that every `ldr`/`str` goes through a register holding the state pointer, or through
`[sp, #4]`); the adjustment of `sp` by 12 and the jumps are not listed.  `push {a, b}` is `push b, push a`; the final
`pop {…, pc}` pops the return address into `lr`.  The registers are numbered so that at the head of the loop the
state words are 0 … 9.
-/

namespace Ascon.Arm.Low6m

open Ascon.Asm Ascon.Arm

abbrev r3 : Nat := 0
abbrev r8 : Nat := 1
abbrev r7 : Nat := 2
abbrev r9 : Nat := 3
abbrev r5 : Nat := 4
abbrev ip : Nat := 5
abbrev r4 : Nat := 6
abbrev fp : Nat := 7
abbrev r2 : Nat := 8
abbrev r10 : Nat := 9
abbrev r0 : Nat := 10
abbrev r6 : Nat := 11
abbrev r1 : Nat := 12
abbrev lr : Nat := 13
abbrev cell : Nat := 20
abbrev slot : Nat := 30

/-- /repo/crypto_aead/asconaead128/armv6m_lowsize/permutations.S:24-56 -/
def prologue : List (Instr 32) := [
  movs r3 (.reg r1),
  movs r2 (.imm 12),
  add r1 r1 (.imm 3),
  sub r3 r2 (.reg r3),
  lsl r1 r1 4,
  push lr,
  push r7,
  push r6,
  push r5,
  push r4,
  orr r1 r1 (.reg r3),
  movs lr (.reg fp),
  movs r7 (.reg r10),
  movs r6 (.reg r9),
  movs r5 (.reg r8),
  movs r3 (.reg (cell + 0)),
  push lr,
  push r7,
  push r6,
  push r5,
  movs r9 (.reg r3),
  movs r3 (.reg (cell + 1)),
  movs r8 (.reg r3),
  movs r3 (.reg (cell + 5)),
  movs r2 (.reg (cell + 7)),
  movs ip (.reg r3),
  movs r3 (.reg (cell + 8)),
  movs r6 (.reg (cell + 3)),
  movs r10 (.reg r3),
  movs r7 (.reg (cell + 2)),
  movs r5 (.reg (cell + 4)),
  movs r4 (.reg (cell + 6)),
  movs slot (.reg r0),
  movs r0 (.reg (cell + 9)),
  movs r3 (.reg r9),
  movs fp (.reg r2),
  movs r9 (.reg r6),
  movs r2 (.reg r10),
  movs r10 (.reg r0)]

/-- /repo/crypto_aead/asconaead128/armv6m_lowsize/permutations.S:59-212 -/
def body : List (Instr 32) := [
  eor r5 r5 (.reg r1),
  push r1,
  eor r3 r3 (.reg r2),
  eor r2 r2 (.reg r4),
  eor r5 r5 (.reg r7),
  mvn r6 (.reg r3),
  orr r6 r6 (.reg r2),
  movs r1 (.reg r5),
  bic r1 r1 (.reg r7),
  eor r3 r3 (.reg r1),
  mvn r1 (.reg r2),
  orr r1 r1 (.reg r4),
  eor r5 r5 (.reg r1),
  movs r1 (.reg r7),
  bic r1 r1 (.reg r3),
  eor r2 r2 (.reg r1),
  movs r1 (.reg r4),
  and r1 r1 (.reg r5),
  eor r1 r7 (.reg r1),
  eor r6 r4 (.reg r6),
  eor r6 r6 (.reg r5),
  eor r1 r1 (.reg r3),
  eor r3 r3 (.reg r2),
  movs r7 (.reg r8),
  movs r4 (.reg r9),
  movs r8 (.reg r5),
  movs r9 (.reg r3),
  movs r3 (.reg ip),
  movs r5 (.reg fp),
  movs r0 (.reg r10),
  movs ip (.reg r6),
  movs fp (.reg r2),
  eor r7 r7 (.reg r0),
  eor r0 r0 (.reg r5),
  eor r3 r3 (.reg r4),
  mvn r6 (.reg r7),
  orr r6 r6 (.reg r0),
  movs r2 (.reg r3),
  bic r2 r2 (.reg r4),
  eor r7 r7 (.reg r2),
  mvn r2 (.reg r0),
  orr r2 r2 (.reg r5),
  eor r3 r3 (.reg r2),
  movs r2 (.reg r4),
  bic r2 r2 (.reg r7),
  eor r0 r0 (.reg r2),
  movs r2 (.reg r5),
  and r2 r2 (.reg r3),
  eor r4 r4 (.reg r2),
  eor r5 r5 (.reg r6),
  eor r5 r5 (.reg r3),
  eor r4 r4 (.reg r7),
  eor r7 r7 (.reg r0),
  movs r10 (.reg r5),
  movs r5 (.reg r8),
  movs r8 (.reg r7),
  lsr r2 r3 6,
  lsl r7 r5 26,
  lsr r6 r5 6,
  eor r2 r2 (.reg r7),
  lsl r7 r3 26,
  eor r6 r6 (.reg r7),
  lsr r7 r3 1,
  eor r2 r2 (.reg r7),
  lsl r7 r5 31,
  eor r2 r2 (.reg r7),
  lsr r7 r5 1,
  eor r6 r6 (.reg r7),
  lsl r7 r3 31,
  eor r6 r6 (.reg r7),
  eor r3 r3 (.reg r2),
  eor r5 r5 (.reg r6),
  lsl r2 r4 3,
  lsr r7 r1 29,
  lsl r6 r1 3,
  eor r2 r2 (.reg r7),
  lsr r7 r4 29,
  eor r6 r6 (.reg r7),
  lsl r7 r4 25,
  eor r2 r2 (.reg r7),
  lsr r7 r1 7,
  eor r2 r2 (.reg r7),
  lsl r7 r1 25,
  eor r6 r6 (.reg r7),
  lsr r7 r4 7,
  eor r6 r6 (.reg r7),
  eor r4 r4 (.reg r2),
  eor r1 r1 (.reg r6),
  movs r2 (.reg fp),
  movs fp (.reg r1),
  lsl r1 r0 23,
  lsr r7 r2 9,
  lsl r6 r2 23,
  eor r1 r1 (.reg r7),
  lsr r7 r0 9,
  eor r6 r6 (.reg r7),
  lsr r7 r0 7,
  eor r1 r1 (.reg r7),
  lsl r7 r2 25,
  eor r1 r1 (.reg r7),
  lsr r7 r2 7,
  eor r6 r6 (.reg r7),
  lsl r7 r0 25,
  eor r6 r6 (.reg r7),
  eor r0 r0 (.reg r1),
  eor r2 r2 (.reg r6),
  movs r7 (.reg fp),
  movs r1 (.reg r10),
  movs r10 (.reg r0),
  movs fp (.reg r4),
  movs r4 (.reg ip),
  movs ip (.reg r3),
  lsr r0 r1 17,
  lsl r3 r4 15,
  lsr r6 r4 17,
  eor r0 r0 (.reg r3),
  lsl r3 r1 15,
  eor r6 r6 (.reg r3),
  lsr r3 r1 10,
  eor r0 r0 (.reg r3),
  lsl r3 r4 22,
  eor r0 r0 (.reg r3),
  lsr r3 r4 10,
  eor r6 r6 (.reg r3),
  lsl r3 r1 22,
  eor r6 r6 (.reg r3),
  eor r1 r1 (.reg r0),
  eor r4 r4 (.reg r6),
  movs r6 (.reg r8),
  movs r3 (.reg r9),
  movs r8 (.reg r2),
  movs r9 (.reg fp),
  movs fp (.reg r1),
  lsr r2 r6 28,
  lsl r1 r3 4,
  lsr r0 r3 28,
  eor r2 r2 (.reg r1),
  lsl r1 r6 4,
  eor r0 r0 (.reg r1),
  lsr r1 r6 19,
  eor r2 r2 (.reg r1),
  lsl r1 r3 13,
  eor r2 r2 (.reg r1),
  lsr r1 r3 19,
  eor r0 r0 (.reg r1),
  lsl r1 r6 13,
  eor r0 r0 (.reg r1),
  pop r1,
  eor r6 r6 (.reg r2),
  eor r3 r3 (.reg r0),
  movs r2 (.reg r8),
  movs r8 (.reg r6),
  sub r1 r1 (.imm 15),
  cmp r1 (.imm 60)]

/-- /repo/crypto_aead/asconaead128/armv6m_lowsize/permutations.S:219-244 -/
def epilogue : List (Instr 32) := [
  movs r1 (.reg slot),
  movs r0 (.reg r10),
  movs (cell + 0) (.reg r3),
  movs r3 (.reg r8),
  movs r10 (.reg r2),
  movs (cell + 1) (.reg r3),
  movs r3 (.reg ip),
  movs r2 (.reg fp),
  movs r6 (.reg r9),
  movs (cell + 5) (.reg r3),
  movs r3 (.reg r10),
  movs (cell + 2) (.reg r7),
  movs (cell + 3) (.reg r6),
  movs (cell + 4) (.reg r5),
  movs (cell + 6) (.reg r4),
  movs (cell + 7) (.reg r2),
  movs (cell + 8) (.reg r3),
  movs (cell + 9) (.reg r0),
  pop r4,
  pop r5,
  pop r6,
  pop r7,
  movs fp (.reg r7),
  movs r10 (.reg r6),
  movs r9 (.reg r5),
  movs r8 (.reg r4),
  pop r4,
  pop r5,
  pop r6,
  pop r7,
  pop lr]

end Ascon.Arm.Low6m
