import Verif.Model.Arm
/-!
# The inline assembly of the ARM implementations

Generated by tools/gen_arm.py from /repo/crypto_aead/asconaead128/*/round.h: one list entry per line of
assembly, in order, with the operand names of the source.  Labels and the closing conditional jump of
`ROUND_LOOP` are represented by `Asm.doWhile`.
-/

namespace Ascon.Arm

open Ascon.Asm

/-- /repo/crypto_aead/asconaead128/armv6/round.h:13-93, `ROUND_LOOP`; jumps: rbegin:, bne rbegin -/
def armv6_ROUND_LOOP : List (Instr 32) := [
  eor x2_l x2_l (.reg C),
  eor x0_l x0_l (.reg x4_l),
  eor x4_l x4_l (.reg x3_l),
  eor x2_l x2_l (.reg x1_l),
  mvn tmp0 (.reg x0_l),
  orr tmp0 x4_l (.reg tmp0),
  bic tmp1 x2_l (.reg x1_l),
  eor x0_l x0_l (.reg tmp1),
  mvn tmp1 (.reg x4_l),
  orr tmp1 x3_l (.reg tmp1),
  eor x2_l x2_l (.reg tmp1),
  bic tmp1 x1_l (.reg x0_l),
  eor x4_l x4_l (.reg tmp1),
  and tmp1 x3_l (.reg x2_l),
  eor x1_l x1_l (.reg tmp1),
  eor x3_l x3_l (.reg tmp0),
  eor x1_l x1_l (.reg x0_l),
  eor x3_l x3_l (.reg x2_l),
  eor x0_l x0_l (.reg x4_l),
  eor x0_h x0_h (.reg x4_h),
  eor x4_h x4_h (.reg x3_h),
  eor x2_h x2_h (.reg x1_h),
  mvn tmp0 (.reg x0_h),
  orr tmp0 x4_h (.reg tmp0),
  bic tmp1 x2_h (.reg x1_h),
  eor x0_h x0_h (.reg tmp1),
  mvn tmp1 (.reg x4_h),
  orr tmp1 x3_h (.reg tmp1),
  eor x2_h x2_h (.reg tmp1),
  bic tmp1 x1_h (.reg x0_h),
  eor x4_h x4_h (.reg tmp1),
  and tmp1 x3_h (.reg x2_h),
  eor x1_h x1_h (.reg tmp1),
  eor x3_h x3_h (.reg tmp0),
  eor x1_h x1_h (.reg x0_h),
  eor x3_h x3_h (.reg x2_h),
  eor x0_h x0_h (.reg x4_h),
  eor tmp0 x0_l (.lsr x0_l 19),
  eor tmp1 x0_h (.lsr x0_h 19),
  eor tmp0 tmp0 (.lsl x0_h (32-19)),
  eor tmp1 tmp1 (.lsl x0_l (32-19)),
  eor tmp0 tmp0 (.lsl x0_h (32-28)),
  eor tmp1 tmp1 (.lsl x0_l (32-28)),
  eor x0_l tmp0 (.lsr x0_l 28),
  eor x0_h tmp1 (.lsr x0_h 28),
  eor tmp0 x1_l (.lsl x1_l (64-61)),
  eor tmp1 x1_h (.lsl x1_h (64-61)),
  eor tmp0 tmp0 (.lsr x1_h (61-32)),
  eor tmp1 tmp1 (.lsr x1_l (61-32)),
  eor tmp0 tmp0 (.lsr x1_h (39-32)),
  eor tmp1 tmp1 (.lsr x1_l (39-32)),
  eor x1_l tmp0 (.lsl x1_l (64-39)),
  eor x1_h tmp1 (.lsl x1_h (64-39)),
  eor tmp0 x2_l (.lsr x2_l 1),
  eor tmp1 x2_h (.lsr x2_h 1),
  eor tmp0 tmp0 (.lsl x2_h (32-1)),
  eor tmp1 tmp1 (.lsl x2_l (32-1)),
  eor tmp0 tmp0 (.lsl x2_h (32-6)),
  eor tmp1 tmp1 (.lsl x2_l (32-6)),
  eor x2_l tmp0 (.lsr x2_l 6),
  eor x2_h tmp1 (.lsr x2_h 6),
  eor tmp0 x3_l (.lsr x3_l 10),
  eor tmp1 x3_h (.lsr x3_h 10),
  eor tmp0 tmp0 (.lsl x3_h (32-10)),
  eor tmp1 tmp1 (.lsl x3_l (32-10)),
  eor tmp0 tmp0 (.lsl x3_h (32-17)),
  eor tmp1 tmp1 (.lsl x3_l (32-17)),
  eor x3_l tmp0 (.lsr x3_l 17),
  eor x3_h tmp1 (.lsr x3_h 17),
  eor tmp0 x4_l (.lsr x4_l 7),
  eor tmp1 x4_h (.lsr x4_h 7),
  eor tmp0 tmp0 (.lsl x4_h (32-7)),
  eor tmp1 tmp1 (.lsl x4_l (32-7)),
  eor tmp0 tmp0 (.lsr x4_h (41-32)),
  eor tmp1 tmp1 (.lsr x4_l (41-32)),
  eor x4_l tmp0 (.lsl x4_l (64-41)),
  eor x4_h tmp1 (.lsl x4_h (64-41)),
  sub C C (.imm 15),
  cmp C (.imm 60)]

/-- /repo/crypto_aead/asconaead128/armv6/round.h:106-182, `ROUND` -/
def armv6_ROUND : List (Instr 32) := [
  eor x0_l x0_l (.reg x4_l),
  eor x4_l x4_l (.reg x3_l),
  eor x2_l x2_l (.reg x1_l),
  mvn tmp0 (.reg x0_l),
  orr tmp0 x4_l (.reg tmp0),
  eor x2_l x2_l (.reg C_l),
  bic tmp1 x2_l (.reg x1_l),
  eor x0_l x0_l (.reg tmp1),
  mvn tmp1 (.reg x4_l),
  orr tmp1 x3_l (.reg tmp1),
  eor x2_l x2_l (.reg tmp1),
  bic tmp1 x1_l (.reg x0_l),
  eor x4_l x4_l (.reg tmp1),
  and tmp1 x3_l (.reg x2_l),
  eor x1_l x1_l (.reg tmp1),
  eor x3_l x3_l (.reg tmp0),
  eor x1_l x1_l (.reg x0_l),
  eor x3_l x3_l (.reg x2_l),
  eor x0_l x0_l (.reg x4_l),
  eor x0_h x0_h (.reg x4_h),
  eor x4_h x4_h (.reg x3_h),
  eor x2_h x2_h (.reg x1_h),
  mvn tmp0 (.reg x0_h),
  orr tmp0 x4_h (.reg tmp0),
  bic tmp1 x2_h (.reg x1_h),
  eor x0_h x0_h (.reg tmp1),
  mvn tmp1 (.reg x4_h),
  orr tmp1 x3_h (.reg tmp1),
  eor x2_h x2_h (.reg tmp1),
  bic tmp1 x1_h (.reg x0_h),
  eor x4_h x4_h (.reg tmp1),
  and tmp1 x3_h (.reg x2_h),
  eor x1_h x1_h (.reg tmp1),
  eor x3_h x3_h (.reg tmp0),
  eor x1_h x1_h (.reg x0_h),
  eor x3_h x3_h (.reg x2_h),
  eor x0_h x0_h (.reg x4_h),
  eor tmp0 x0_l (.lsr x0_l 19),
  eor tmp1 x0_h (.lsr x0_h 19),
  eor tmp0 tmp0 (.lsl x0_h (32-19)),
  eor tmp1 tmp1 (.lsl x0_l (32-19)),
  eor tmp0 tmp0 (.lsl x0_h (32-28)),
  eor tmp1 tmp1 (.lsl x0_l (32-28)),
  eor x0_l tmp0 (.lsr x0_l 28),
  eor x0_h tmp1 (.lsr x0_h 28),
  eor tmp0 x1_l (.lsl x1_l (64-61)),
  eor tmp1 x1_h (.lsl x1_h (64-61)),
  eor tmp0 tmp0 (.lsr x1_h (61-32)),
  eor tmp1 tmp1 (.lsr x1_l (61-32)),
  eor tmp0 tmp0 (.lsr x1_h (39-32)),
  eor tmp1 tmp1 (.lsr x1_l (39-32)),
  eor x1_l tmp0 (.lsl x1_l (64-39)),
  eor x1_h tmp1 (.lsl x1_h (64-39)),
  eor tmp0 x2_l (.lsr x2_l 1),
  eor tmp1 x2_h (.lsr x2_h 1),
  eor tmp0 tmp0 (.lsl x2_h (32-1)),
  eor tmp1 tmp1 (.lsl x2_l (32-1)),
  eor tmp0 tmp0 (.lsl x2_h (32-6)),
  eor tmp1 tmp1 (.lsl x2_l (32-6)),
  eor x2_l tmp0 (.lsr x2_l 6),
  eor x2_h tmp1 (.lsr x2_h 6),
  eor tmp0 x3_l (.lsr x3_l 10),
  eor tmp1 x3_h (.lsr x3_h 10),
  eor tmp0 tmp0 (.lsl x3_h (32-10)),
  eor tmp1 tmp1 (.lsl x3_l (32-10)),
  eor tmp0 tmp0 (.lsl x3_h (32-17)),
  eor tmp1 tmp1 (.lsl x3_l (32-17)),
  eor x3_l tmp0 (.lsr x3_l 17),
  eor x3_h tmp1 (.lsr x3_h 17),
  eor tmp0 x4_l (.lsr x4_l 7),
  eor tmp1 x4_h (.lsr x4_h 7),
  eor tmp0 tmp0 (.lsl x4_h (32-7)),
  eor tmp1 tmp1 (.lsl x4_l (32-7)),
  eor tmp0 tmp0 (.lsr x4_h (41-32)),
  eor tmp1 tmp1 (.lsr x4_l (41-32)),
  eor x4_l tmp0 (.lsl x4_l (64-41)),
  eor x4_h tmp1 (.lsl x4_h (64-41))]

/-- /repo/crypto_aead/asconaead128/armv6/round.h:199-271, `ROUND5` -/
def armv6_ROUND5 : List (Instr 32) := [
  eor x2_l x2_l (.reg C_l),
  eor tmp0 x1_l (.reg x2_l),
  eor tmp1 x0_l (.reg x4_l),
  eor tmp2 x3_l (.reg x4_l),
  mvn x4_l (.reg x4_l),
  orr x4_l x3_l (.reg x4_l),
  eor x4_l x4_l (.reg tmp0),
  eor x3_l x3_l (.reg x1_l),
  orr x3_l x3_l (.reg tmp0),
  eor x3_l x3_l (.reg tmp1),
  eor x2_l x2_l (.reg tmp1),
  orr x2_l x2_l (.reg x1_l),
  eor x2_l x2_l (.reg tmp2),
  bic x1_l x1_l (.reg tmp1),
  eor x1_l x1_l (.reg tmp2),
  orr x0_l x0_l (.reg tmp2),
  eor x0_l x0_l (.reg tmp0),
  eor tmp0 x1_h (.reg x2_h),
  eor tmp1 x0_h (.reg x4_h),
  eor tmp2 x3_h (.reg x4_h),
  mvn x4_h (.reg x4_h),
  orr x4_h x3_h (.reg x4_h),
  eor x4_h x4_h (.reg tmp0),
  eor x3_h x3_h (.reg x1_h),
  orr x3_h x3_h (.reg tmp0),
  eor x3_h x3_h (.reg tmp1),
  eor x2_h x2_h (.reg tmp1),
  orr x2_h x2_h (.reg x1_h),
  eor x2_h x2_h (.reg tmp2),
  bic x1_h x1_h (.reg tmp1),
  eor x1_h x1_h (.reg tmp2),
  orr x0_h x0_h (.reg tmp2),
  eor x0_h x0_h (.reg tmp0),
  eor tmp0 x2_l (.lsr x2_l 19),
  eor tmp1 x2_h (.lsr x2_h 19),
  eor tmp0 tmp0 (.lsl x2_h (32-19)),
  eor tmp1 tmp1 (.lsl x2_l (32-19)),
  eor tmp0 tmp0 (.lsl x2_h (32-28)),
  eor tmp1 tmp1 (.lsl x2_l (32-28)),
  eor x2_l tmp0 (.lsr x2_l 28),
  eor x2_h tmp1 (.lsr x2_h 28),
  eor tmp0 x3_l (.lsl x3_l (64-61)),
  eor tmp1 x3_h (.lsl x3_h (64-61)),
  eor tmp0 tmp0 (.lsr x3_h (61-32)),
  eor tmp1 tmp1 (.lsr x3_l (61-32)),
  eor tmp0 tmp0 (.lsr x3_h (39-32)),
  eor tmp1 tmp1 (.lsr x3_l (39-32)),
  eor x3_l tmp0 (.lsl x3_l (64-39)),
  eor x3_h tmp1 (.lsl x3_h (64-39)),
  eor tmp0 x4_l (.lsr x4_l 1),
  eor tmp1 x4_h (.lsr x4_h 1),
  eor tmp0 tmp0 (.lsl x4_h (32-1)),
  eor tmp1 tmp1 (.lsl x4_l (32-1)),
  eor tmp0 tmp0 (.lsl x4_h (32-6)),
  eor tmp1 tmp1 (.lsl x4_l (32-6)),
  eor x4_l tmp0 (.lsr x4_l 6),
  eor x4_h tmp1 (.lsr x4_h 6),
  eor tmp0 x0_l (.lsr x0_l 10),
  eor tmp1 x0_h (.lsr x0_h 10),
  eor tmp0 tmp0 (.lsl x0_h (32-10)),
  eor tmp1 tmp1 (.lsl x0_l (32-10)),
  eor tmp0 tmp0 (.lsl x0_h (32-17)),
  eor tmp1 tmp1 (.lsl x0_l (32-17)),
  eor x0_l tmp0 (.lsr x0_l 17),
  eor x0_h tmp1 (.lsr x0_h 17),
  eor tmp0 x1_l (.lsr x1_l 7),
  eor tmp1 x1_h (.lsr x1_h 7),
  eor tmp0 tmp0 (.lsl x1_h (32-7)),
  eor tmp1 tmp1 (.lsl x1_l (32-7)),
  eor tmp0 tmp0 (.lsr x1_h (41-32)),
  eor tmp1 tmp1 (.lsr x1_l (41-32)),
  eor x1_l tmp0 (.lsl x1_l (64-41)),
  eor x1_h tmp1 (.lsl x1_h (64-41))]

/-- /repo/crypto_aead/asconaead128/armv6m/round.h:13-171, `ROUND_LOOP`; jumps: rbegin:, beq rend, b rbegin, rend: -/
def armv6m_ROUND_LOOP : List (Instr 32) := [
  eor x2_l x2_l (.reg tmp1),
  push tmp1,
  eor x0_l x0_l (.reg x4_l),
  eor x4_l x4_l (.reg x3_l),
  eor x2_l x2_l (.reg x1_l),
  mvn tmp0 (.reg x0_l),
  orr tmp0 tmp0 (.reg x4_l),
  movs tmp1 (.reg x2_l),
  bic tmp1 tmp1 (.reg x1_l),
  eor x0_l x0_l (.reg tmp1),
  mvn tmp1 (.reg x4_l),
  orr tmp1 tmp1 (.reg x3_l),
  eor x2_l x2_l (.reg tmp1),
  movs tmp1 (.reg x1_l),
  bic tmp1 tmp1 (.reg x0_l),
  eor x4_l x4_l (.reg tmp1),
  movs tmp1 (.reg x3_l),
  and tmp1 tmp1 (.reg x2_l),
  eor tmp1 x1_l (.reg tmp1),
  eor tmp0 x3_l (.reg tmp0),
  eor tmp0 tmp0 (.reg x2_l),
  eor tmp1 tmp1 (.reg x0_l),
  eor x0_l x0_l (.reg x4_l),
  movs x1_l (.reg x0_h),
  movs x3_l (.reg x1_h),
  movs x0_h (.reg x2_l),
  movs x1_h (.reg x0_l),
  movs x0_l (.reg x2_h),
  movs x2_l (.reg x3_h),
  movs tmp2 (.reg x4_h),
  movs x2_h (.reg tmp0),
  movs x3_h (.reg x4_l),
  eor x1_l x1_l (.reg tmp2),
  eor tmp2 tmp2 (.reg x2_l),
  eor x0_l x0_l (.reg x3_l),
  mvn tmp0 (.reg x1_l),
  orr tmp0 tmp0 (.reg tmp2),
  movs x4_l (.reg x0_l),
  bic x4_l x4_l (.reg x3_l),
  eor x1_l x1_l (.reg x4_l),
  mvn x4_l (.reg tmp2),
  orr x4_l x4_l (.reg x2_l),
  eor x0_l x0_l (.reg x4_l),
  movs x4_l (.reg x3_l),
  bic x4_l x4_l (.reg x1_l),
  eor tmp2 tmp2 (.reg x4_l),
  movs x4_l (.reg x2_l),
  and x4_l x4_l (.reg x0_l),
  eor x3_l x3_l (.reg x4_l),
  eor x2_l x2_l (.reg tmp0),
  eor x2_l x2_l (.reg x0_l),
  eor x3_l x3_l (.reg x1_l),
  eor x1_l x1_l (.reg tmp2),
  movs x4_h (.reg x2_l),
  movs x2_l (.reg x0_h),
  movs x0_h (.reg x1_l),
  lsr x4_l x0_l 6,
  lsl x1_l x2_l 26,
  lsr tmp0 x2_l 6,
  eor x4_l x4_l (.reg x1_l),
  lsl x1_l x0_l 26,
  eor tmp0 tmp0 (.reg x1_l),
  lsr x1_l x0_l 1,
  eor x4_l x4_l (.reg x1_l),
  lsl x1_l x2_l 31,
  eor x4_l x4_l (.reg x1_l),
  lsr x1_l x2_l 1,
  eor tmp0 tmp0 (.reg x1_l),
  lsl x1_l x0_l 31,
  eor tmp0 tmp0 (.reg x1_l),
  eor x0_l x0_l (.reg x4_l),
  eor x2_l x2_l (.reg tmp0),
  lsl x4_l x3_l 3,
  lsr x1_l tmp1 29,
  lsl tmp0 tmp1 3,
  eor x4_l x4_l (.reg x1_l),
  lsr x1_l x3_l 29,
  eor tmp0 tmp0 (.reg x1_l),
  lsl x1_l x3_l 25,
  eor x4_l x4_l (.reg x1_l),
  lsr x1_l tmp1 7,
  eor x4_l x4_l (.reg x1_l),
  lsl x1_l tmp1 25,
  eor tmp0 tmp0 (.reg x1_l),
  lsr x1_l x3_l 7,
  eor tmp0 tmp0 (.reg x1_l),
  eor x3_l x3_l (.reg x4_l),
  eor tmp1 tmp1 (.reg tmp0),
  movs x4_l (.reg x3_h),
  movs x3_h (.reg tmp1),
  lsl tmp1 tmp2 23,
  lsr x1_l x4_l 9,
  lsl tmp0 x4_l 23,
  eor tmp1 tmp1 (.reg x1_l),
  lsr x1_l tmp2 9,
  eor tmp0 tmp0 (.reg x1_l),
  lsr x1_l tmp2 7,
  eor tmp1 tmp1 (.reg x1_l),
  lsl x1_l x4_l 25,
  eor tmp1 tmp1 (.reg x1_l),
  lsr x1_l x4_l 7,
  eor tmp0 tmp0 (.reg x1_l),
  lsl x1_l tmp2 25,
  eor tmp0 tmp0 (.reg x1_l),
  eor tmp2 tmp2 (.reg tmp1),
  eor x4_l x4_l (.reg tmp0),
  movs x1_l (.reg x3_h),
  movs tmp1 (.reg x4_h),
  movs x4_h (.reg tmp2),
  movs x3_h (.reg x3_l),
  movs x3_l (.reg x2_h),
  movs x2_h (.reg x0_l),
  lsr tmp2 tmp1 17,
  lsl x0_l x3_l 15,
  lsr tmp0 x3_l 17,
  eor tmp2 tmp2 (.reg x0_l),
  lsl x0_l tmp1 15,
  eor tmp0 tmp0 (.reg x0_l),
  lsr x0_l tmp1 10,
  eor tmp2 tmp2 (.reg x0_l),
  lsl x0_l x3_l 22,
  eor tmp2 tmp2 (.reg x0_l),
  lsr x0_l x3_l 10,
  eor tmp0 tmp0 (.reg x0_l),
  lsl x0_l tmp1 22,
  eor tmp0 tmp0 (.reg x0_l),
  eor tmp1 tmp1 (.reg tmp2),
  eor x3_l x3_l (.reg tmp0),
  movs tmp0 (.reg x0_h),
  movs x0_l (.reg x1_h),
  movs x0_h (.reg x4_l),
  movs x1_h (.reg x3_h),
  movs x3_h (.reg tmp1),
  lsr x4_l tmp0 28,
  lsl tmp1 x0_l 4,
  lsr tmp2 x0_l 28,
  eor x4_l x4_l (.reg tmp1),
  lsl tmp1 tmp0 4,
  eor tmp2 tmp2 (.reg tmp1),
  lsr tmp1 tmp0 19,
  eor x4_l x4_l (.reg tmp1),
  lsl tmp1 x0_l 13,
  eor x4_l x4_l (.reg tmp1),
  lsr tmp1 x0_l 19,
  eor tmp2 tmp2 (.reg tmp1),
  lsl tmp1 tmp0 13,
  eor tmp2 tmp2 (.reg tmp1),
  pop tmp1,
  eor tmp0 tmp0 (.reg x4_l),
  eor x0_l x0_l (.reg tmp2),
  movs x4_l (.reg x0_h),
  movs x0_h (.reg tmp0),
  sub tmp1 tmp1 (.imm 15),
  cmp tmp1 (.imm 60)]

/-- /repo/crypto_aead/asconaead128/armv6m/round.h:185-336, `ROUND` -/
def armv6m_ROUND : List (Instr 32) := [
  movs tmp0 (.reg C),
  eor x2_l x2_l (.reg tmp0),
  eor x0_l x0_l (.reg x4_l),
  eor x4_l x4_l (.reg x3_l),
  eor x2_l x2_l (.reg x1_l),
  mvn tmp0 (.reg x0_l),
  orr tmp0 tmp0 (.reg x4_l),
  movs tmp1 (.reg x2_l),
  bic tmp1 tmp1 (.reg x1_l),
  eor x0_l x0_l (.reg tmp1),
  mvn tmp1 (.reg x4_l),
  orr tmp1 tmp1 (.reg x3_l),
  eor x2_l x2_l (.reg tmp1),
  movs tmp1 (.reg x1_l),
  bic tmp1 tmp1 (.reg x0_l),
  eor x4_l x4_l (.reg tmp1),
  movs tmp1 (.reg x3_l),
  and tmp1 tmp1 (.reg x2_l),
  eor tmp1 x1_l (.reg tmp1),
  eor tmp0 x3_l (.reg tmp0),
  eor tmp0 tmp0 (.reg x2_l),
  eor tmp1 tmp1 (.reg x0_l),
  eor x0_l x0_l (.reg x4_l),
  movs x1_l (.reg x0_h),
  movs x3_l (.reg x1_h),
  movs x0_h (.reg x2_l),
  movs x1_h (.reg x0_l),
  movs x0_l (.reg x2_h),
  movs x2_l (.reg x3_h),
  movs tmp2 (.reg x4_h),
  movs x2_h (.reg tmp0),
  movs x3_h (.reg x4_l),
  eor x1_l x1_l (.reg tmp2),
  eor tmp2 tmp2 (.reg x2_l),
  eor x0_l x0_l (.reg x3_l),
  mvn tmp0 (.reg x1_l),
  orr tmp0 tmp0 (.reg tmp2),
  movs x4_l (.reg x0_l),
  bic x4_l x4_l (.reg x3_l),
  eor x1_l x1_l (.reg x4_l),
  mvn x4_l (.reg tmp2),
  orr x4_l x4_l (.reg x2_l),
  eor x0_l x0_l (.reg x4_l),
  movs x4_l (.reg x3_l),
  bic x4_l x4_l (.reg x1_l),
  eor tmp2 tmp2 (.reg x4_l),
  movs x4_l (.reg x2_l),
  and x4_l x4_l (.reg x0_l),
  eor x3_l x3_l (.reg x4_l),
  eor x2_l x2_l (.reg tmp0),
  eor x2_l x2_l (.reg x0_l),
  eor x3_l x3_l (.reg x1_l),
  eor x1_l x1_l (.reg tmp2),
  movs x4_h (.reg x2_l),
  movs x2_l (.reg x0_h),
  movs x0_h (.reg x1_l),
  lsr x4_l x0_l 6,
  lsl x1_l x2_l 26,
  lsr tmp0 x2_l 6,
  eor x4_l x4_l (.reg x1_l),
  lsl x1_l x0_l 26,
  eor tmp0 tmp0 (.reg x1_l),
  lsr x1_l x0_l 1,
  eor x4_l x4_l (.reg x1_l),
  lsl x1_l x2_l 31,
  eor x4_l x4_l (.reg x1_l),
  lsr x1_l x2_l 1,
  eor tmp0 tmp0 (.reg x1_l),
  lsl x1_l x0_l 31,
  eor tmp0 tmp0 (.reg x1_l),
  eor x0_l x0_l (.reg x4_l),
  eor x2_l x2_l (.reg tmp0),
  lsl x4_l x3_l 3,
  lsr x1_l tmp1 29,
  lsl tmp0 tmp1 3,
  eor x4_l x4_l (.reg x1_l),
  lsr x1_l x3_l 29,
  eor tmp0 tmp0 (.reg x1_l),
  lsl x1_l x3_l 25,
  eor x4_l x4_l (.reg x1_l),
  lsr x1_l tmp1 7,
  eor x4_l x4_l (.reg x1_l),
  lsl x1_l tmp1 25,
  eor tmp0 tmp0 (.reg x1_l),
  lsr x1_l x3_l 7,
  eor tmp0 tmp0 (.reg x1_l),
  eor x3_l x3_l (.reg x4_l),
  eor tmp1 tmp1 (.reg tmp0),
  movs x4_l (.reg x3_h),
  movs x3_h (.reg tmp1),
  lsl tmp1 tmp2 23,
  lsr x1_l x4_l 9,
  lsl tmp0 x4_l 23,
  eor tmp1 tmp1 (.reg x1_l),
  lsr x1_l tmp2 9,
  eor tmp0 tmp0 (.reg x1_l),
  lsr x1_l tmp2 7,
  eor tmp1 tmp1 (.reg x1_l),
  lsl x1_l x4_l 25,
  eor tmp1 tmp1 (.reg x1_l),
  lsr x1_l x4_l 7,
  eor tmp0 tmp0 (.reg x1_l),
  lsl x1_l tmp2 25,
  eor tmp0 tmp0 (.reg x1_l),
  eor tmp2 tmp2 (.reg tmp1),
  eor x4_l x4_l (.reg tmp0),
  movs x1_l (.reg x3_h),
  movs tmp1 (.reg x4_h),
  movs x4_h (.reg tmp2),
  movs x3_h (.reg x3_l),
  movs x3_l (.reg x2_h),
  movs x2_h (.reg x0_l),
  lsr tmp2 tmp1 17,
  lsl x0_l x3_l 15,
  lsr tmp0 x3_l 17,
  eor tmp2 tmp2 (.reg x0_l),
  lsl x0_l tmp1 15,
  eor tmp0 tmp0 (.reg x0_l),
  lsr x0_l tmp1 10,
  eor tmp2 tmp2 (.reg x0_l),
  lsl x0_l x3_l 22,
  eor tmp2 tmp2 (.reg x0_l),
  lsr x0_l x3_l 10,
  eor tmp0 tmp0 (.reg x0_l),
  lsl x0_l tmp1 22,
  eor tmp0 tmp0 (.reg x0_l),
  eor tmp1 tmp1 (.reg tmp2),
  eor x3_l x3_l (.reg tmp0),
  movs tmp0 (.reg x0_h),
  movs x0_l (.reg x1_h),
  movs x0_h (.reg x4_l),
  movs x1_h (.reg x3_h),
  movs x3_h (.reg tmp1),
  lsr x4_l tmp0 28,
  lsl tmp1 x0_l 4,
  lsr tmp2 x0_l 28,
  eor x4_l x4_l (.reg tmp1),
  lsl tmp1 tmp0 4,
  eor tmp2 tmp2 (.reg tmp1),
  lsr tmp1 tmp0 19,
  eor x4_l x4_l (.reg tmp1),
  lsl tmp1 x0_l 13,
  eor x4_l x4_l (.reg tmp1),
  lsr tmp1 x0_l 19,
  eor tmp2 tmp2 (.reg tmp1),
  lsl tmp1 tmp0 13,
  eor tmp2 tmp2 (.reg tmp1),
  eor tmp0 tmp0 (.reg x4_l),
  eor x0_l x0_l (.reg tmp2),
  movs x4_l (.reg x0_h),
  movs x0_h (.reg tmp0)]

/-- /repo/crypto_aead/asconaead128/armv7m/round.h:13-89, `ROUND_LOOP`; jumps: rbegin:, bne rbegin -/
def armv7m_ROUND_LOOP : List (Instr 32) := [
  eor x2_l x2_l (.reg C),
  eor x0_l x0_l (.reg x4_l),
  eor x4_l x4_l (.reg x3_l),
  eor x2_l x2_l (.reg x1_l),
  orn tmp0 x4_l (.reg x0_l),
  bic tmp1 x2_l (.reg x1_l),
  eor x0_l x0_l (.reg tmp1),
  orn tmp1 x3_l (.reg x4_l),
  eor x2_l x2_l (.reg tmp1),
  bic tmp1 x1_l (.reg x0_l),
  eor x4_l x4_l (.reg tmp1),
  and tmp1 x3_l (.reg x2_l),
  eor x1_l x1_l (.reg tmp1),
  eor x3_l x3_l (.reg tmp0),
  eor x1_l x1_l (.reg x0_l),
  eor x3_l x3_l (.reg x2_l),
  eor x0_l x0_l (.reg x4_l),
  eor x0_h x0_h (.reg x4_h),
  eor x4_h x4_h (.reg x3_h),
  eor x2_h x2_h (.reg x1_h),
  orn tmp0 x4_h (.reg x0_h),
  bic tmp1 x2_h (.reg x1_h),
  eor x0_h x0_h (.reg tmp1),
  orn tmp1 x3_h (.reg x4_h),
  eor x2_h x2_h (.reg tmp1),
  bic tmp1 x1_h (.reg x0_h),
  eor x4_h x4_h (.reg tmp1),
  and tmp1 x3_h (.reg x2_h),
  eor x1_h x1_h (.reg tmp1),
  eor x3_h x3_h (.reg tmp0),
  eor x1_h x1_h (.reg x0_h),
  eor x3_h x3_h (.reg x2_h),
  eor x0_h x0_h (.reg x4_h),
  eor tmp0 x0_l (.lsr x0_l 19),
  eor tmp1 x0_h (.lsr x0_h 19),
  eor tmp0 tmp0 (.lsl x0_h (32-19)),
  eor tmp1 tmp1 (.lsl x0_l (32-19)),
  eor tmp0 tmp0 (.lsl x0_h (32-28)),
  eor tmp1 tmp1 (.lsl x0_l (32-28)),
  eor x0_l tmp0 (.lsr x0_l 28),
  eor x0_h tmp1 (.lsr x0_h 28),
  eor tmp0 x1_l (.lsl x1_l (64-61)),
  eor tmp1 x1_h (.lsl x1_h (64-61)),
  eor tmp0 tmp0 (.lsr x1_h (61-32)),
  eor tmp1 tmp1 (.lsr x1_l (61-32)),
  eor tmp0 tmp0 (.lsr x1_h (39-32)),
  eor tmp1 tmp1 (.lsr x1_l (39-32)),
  eor x1_l tmp0 (.lsl x1_l (64-39)),
  eor x1_h tmp1 (.lsl x1_h (64-39)),
  eor tmp0 x2_l (.lsr x2_l 1),
  eor tmp1 x2_h (.lsr x2_h 1),
  eor tmp0 tmp0 (.lsl x2_h (32-1)),
  eor tmp1 tmp1 (.lsl x2_l (32-1)),
  eor tmp0 tmp0 (.lsl x2_h (32-6)),
  eor tmp1 tmp1 (.lsl x2_l (32-6)),
  eor x2_l tmp0 (.lsr x2_l 6),
  eor x2_h tmp1 (.lsr x2_h 6),
  eor tmp0 x3_l (.lsr x3_l 10),
  eor tmp1 x3_h (.lsr x3_h 10),
  eor tmp0 tmp0 (.lsl x3_h (32-10)),
  eor tmp1 tmp1 (.lsl x3_l (32-10)),
  eor tmp0 tmp0 (.lsl x3_h (32-17)),
  eor tmp1 tmp1 (.lsl x3_l (32-17)),
  eor x3_l tmp0 (.lsr x3_l 17),
  eor x3_h tmp1 (.lsr x3_h 17),
  eor tmp0 x4_l (.lsr x4_l 7),
  eor tmp1 x4_h (.lsr x4_h 7),
  eor tmp0 tmp0 (.lsl x4_h (32-7)),
  eor tmp1 tmp1 (.lsl x4_l (32-7)),
  eor tmp0 tmp0 (.lsr x4_h (41-32)),
  eor tmp1 tmp1 (.lsr x4_l (41-32)),
  eor x4_l tmp0 (.lsl x4_l (64-41)),
  eor x4_h tmp1 (.lsl x4_h (64-41)),
  sub C C (.imm 15),
  cmp C (.imm 60)]

/-- /repo/crypto_aead/asconaead128/armv7m/round.h:102-174, `ROUND` -/
def armv7m_ROUND : List (Instr 32) := [
  eor x0_l x0_l (.reg x4_l),
  eor x4_l x4_l (.reg x3_l),
  eor x2_l x2_l (.reg x1_l),
  orn tmp0 x4_l (.reg x0_l),
  eor x2_l x2_l (.reg C_l),
  bic tmp1 x2_l (.reg x1_l),
  eor x0_l x0_l (.reg tmp1),
  orn tmp1 x3_l (.reg x4_l),
  eor x2_l x2_l (.reg tmp1),
  bic tmp1 x1_l (.reg x0_l),
  eor x4_l x4_l (.reg tmp1),
  and tmp1 x3_l (.reg x2_l),
  eor x1_l x1_l (.reg tmp1),
  eor x3_l x3_l (.reg tmp0),
  eor x1_l x1_l (.reg x0_l),
  eor x3_l x3_l (.reg x2_l),
  eor x0_l x0_l (.reg x4_l),
  eor x0_h x0_h (.reg x4_h),
  eor x4_h x4_h (.reg x3_h),
  eor x2_h x2_h (.reg x1_h),
  orn tmp0 x4_h (.reg x0_h),
  bic tmp1 x2_h (.reg x1_h),
  eor x0_h x0_h (.reg tmp1),
  orn tmp1 x3_h (.reg x4_h),
  eor x2_h x2_h (.reg tmp1),
  bic tmp1 x1_h (.reg x0_h),
  eor x4_h x4_h (.reg tmp1),
  and tmp1 x3_h (.reg x2_h),
  eor x1_h x1_h (.reg tmp1),
  eor x3_h x3_h (.reg tmp0),
  eor x1_h x1_h (.reg x0_h),
  eor x3_h x3_h (.reg x2_h),
  eor x0_h x0_h (.reg x4_h),
  eor tmp0 x0_l (.lsr x0_l 19),
  eor tmp1 x0_h (.lsr x0_h 19),
  eor tmp0 tmp0 (.lsl x0_h (32-19)),
  eor tmp1 tmp1 (.lsl x0_l (32-19)),
  eor tmp0 tmp0 (.lsl x0_h (32-28)),
  eor tmp1 tmp1 (.lsl x0_l (32-28)),
  eor x0_l tmp0 (.lsr x0_l 28),
  eor x0_h tmp1 (.lsr x0_h 28),
  eor tmp0 x1_l (.lsl x1_l (64-61)),
  eor tmp1 x1_h (.lsl x1_h (64-61)),
  eor tmp0 tmp0 (.lsr x1_h (61-32)),
  eor tmp1 tmp1 (.lsr x1_l (61-32)),
  eor tmp0 tmp0 (.lsr x1_h (39-32)),
  eor tmp1 tmp1 (.lsr x1_l (39-32)),
  eor x1_l tmp0 (.lsl x1_l (64-39)),
  eor x1_h tmp1 (.lsl x1_h (64-39)),
  eor tmp0 x2_l (.lsr x2_l 1),
  eor tmp1 x2_h (.lsr x2_h 1),
  eor tmp0 tmp0 (.lsl x2_h (32-1)),
  eor tmp1 tmp1 (.lsl x2_l (32-1)),
  eor tmp0 tmp0 (.lsl x2_h (32-6)),
  eor tmp1 tmp1 (.lsl x2_l (32-6)),
  eor x2_l tmp0 (.lsr x2_l 6),
  eor x2_h tmp1 (.lsr x2_h 6),
  eor tmp0 x3_l (.lsr x3_l 10),
  eor tmp1 x3_h (.lsr x3_h 10),
  eor tmp0 tmp0 (.lsl x3_h (32-10)),
  eor tmp1 tmp1 (.lsl x3_l (32-10)),
  eor tmp0 tmp0 (.lsl x3_h (32-17)),
  eor tmp1 tmp1 (.lsl x3_l (32-17)),
  eor x3_l tmp0 (.lsr x3_l 17),
  eor x3_h tmp1 (.lsr x3_h 17),
  eor tmp0 x4_l (.lsr x4_l 7),
  eor tmp1 x4_h (.lsr x4_h 7),
  eor tmp0 tmp0 (.lsl x4_h (32-7)),
  eor tmp1 tmp1 (.lsl x4_l (32-7)),
  eor tmp0 tmp0 (.lsr x4_h (41-32)),
  eor tmp1 tmp1 (.lsr x4_l (41-32)),
  eor x4_l tmp0 (.lsl x4_l (64-41)),
  eor x4_h tmp1 (.lsl x4_h (64-41))]

/-- /repo/crypto_aead/asconaead128/armv7m/round.h:191-261, `ROUND5` -/
def armv7m_ROUND5 : List (Instr 32) := [
  eor x2_l x2_l (.reg C_l),
  eor tmp0 x1_l (.reg x2_l),
  eor tmp1 x0_l (.reg x4_l),
  eor tmp2 x3_l (.reg x4_l),
  orn x4_l x3_l (.reg x4_l),
  eor x4_l x4_l (.reg tmp0),
  eor x3_l x3_l (.reg x1_l),
  orr x3_l x3_l (.reg tmp0),
  eor x3_l x3_l (.reg tmp1),
  eor x2_l x2_l (.reg tmp1),
  orr x2_l x2_l (.reg x1_l),
  eor x2_l x2_l (.reg tmp2),
  bic x1_l x1_l (.reg tmp1),
  eor x1_l x1_l (.reg tmp2),
  orr x0_l x0_l (.reg tmp2),
  eor x0_l x0_l (.reg tmp0),
  eor tmp0 x1_h (.reg x2_h),
  eor tmp1 x0_h (.reg x4_h),
  eor tmp2 x3_h (.reg x4_h),
  orn x4_h x3_h (.reg x4_h),
  eor x4_h x4_h (.reg tmp0),
  eor x3_h x3_h (.reg x1_h),
  orr x3_h x3_h (.reg tmp0),
  eor x3_h x3_h (.reg tmp1),
  eor x2_h x2_h (.reg tmp1),
  orr x2_h x2_h (.reg x1_h),
  eor x2_h x2_h (.reg tmp2),
  bic x1_h x1_h (.reg tmp1),
  eor x1_h x1_h (.reg tmp2),
  orr x0_h x0_h (.reg tmp2),
  eor x0_h x0_h (.reg tmp0),
  eor tmp0 x2_l (.lsr x2_l 19),
  eor tmp1 x2_h (.lsr x2_h 19),
  eor tmp0 tmp0 (.lsl x2_h (32-19)),
  eor tmp1 tmp1 (.lsl x2_l (32-19)),
  eor tmp0 tmp0 (.lsl x2_h (32-28)),
  eor tmp1 tmp1 (.lsl x2_l (32-28)),
  eor x2_l tmp0 (.lsr x2_l 28),
  eor x2_h tmp1 (.lsr x2_h 28),
  eor tmp0 x3_l (.lsl x3_l (64-61)),
  eor tmp1 x3_h (.lsl x3_h (64-61)),
  eor tmp0 tmp0 (.lsr x3_h (61-32)),
  eor tmp1 tmp1 (.lsr x3_l (61-32)),
  eor tmp0 tmp0 (.lsr x3_h (39-32)),
  eor tmp1 tmp1 (.lsr x3_l (39-32)),
  eor x3_l tmp0 (.lsl x3_l (64-39)),
  eor x3_h tmp1 (.lsl x3_h (64-39)),
  eor tmp0 x4_l (.lsr x4_l 1),
  eor tmp1 x4_h (.lsr x4_h 1),
  eor tmp0 tmp0 (.lsl x4_h (32-1)),
  eor tmp1 tmp1 (.lsl x4_l (32-1)),
  eor tmp0 tmp0 (.lsl x4_h (32-6)),
  eor tmp1 tmp1 (.lsl x4_l (32-6)),
  eor x4_l tmp0 (.lsr x4_l 6),
  eor x4_h tmp1 (.lsr x4_h 6),
  eor tmp0 x0_l (.lsr x0_l 10),
  eor tmp1 x0_h (.lsr x0_h 10),
  eor tmp0 tmp0 (.lsl x0_h (32-10)),
  eor tmp1 tmp1 (.lsl x0_l (32-10)),
  eor tmp0 tmp0 (.lsl x0_h (32-17)),
  eor tmp1 tmp1 (.lsl x0_l (32-17)),
  eor x0_l tmp0 (.lsr x0_l 17),
  eor x0_h tmp1 (.lsr x0_h 17),
  eor tmp0 x1_l (.lsr x1_l 7),
  eor tmp1 x1_h (.lsr x1_h 7),
  eor tmp0 tmp0 (.lsl x1_h (32-7)),
  eor tmp1 tmp1 (.lsl x1_l (32-7)),
  eor tmp0 tmp0 (.lsr x1_h (41-32)),
  eor tmp1 tmp1 (.lsr x1_l (41-32)),
  eor x1_l tmp0 (.lsl x1_l (64-41)),
  eor x1_h tmp1 (.lsl x1_h (64-41))]

/-- /repo/crypto_aead/asconaead128/bi32_armv6/round.h:14-76, `ROUND_LOOP`; jumps: rbegin:, bne rbegin -/
def bi32_armv6_ROUND_LOOP : List (Instr 32) := [
  ldrbPost tmp1 C 1,
  eor x0_l x0_l (.reg x4_l),
  eor x4_l x4_l (.reg x3_l),
  eor x2_l x2_l (.reg x1_l),
  mvn tmp0 (.reg x0_l),
  orr tmp0 x4_l (.reg tmp0),
  eor x2_l x2_l (.reg tmp1),
  bic tmp1 x2_l (.reg x1_l),
  eor x0_l x0_l (.reg tmp1),
  mvn tmp1 (.reg x4_l),
  orr tmp1 x3_l (.reg tmp1),
  eor x2_l x2_l (.reg tmp1),
  bic tmp1 x1_l (.reg x0_l),
  eor x4_l x4_l (.reg tmp1),
  and tmp1 x3_l (.reg x2_l),
  eor x1_l x1_l (.reg tmp1),
  eor x3_l x3_l (.reg tmp0),
  ldrbPost tmp1 C 1,
  eor x1_l x1_l (.reg x0_l),
  eor x3_l x3_l (.reg x2_l),
  eor x0_l x0_l (.reg x4_l),
  eor x0_h x0_h (.reg x4_h),
  eor x4_h x4_h (.reg x3_h),
  eor x2_h x2_h (.reg tmp1),
  eor x2_h x2_h (.reg x1_h),
  mvn tmp0 (.reg x0_h),
  orr tmp0 x4_h (.reg tmp0),
  bic tmp1 x2_h (.reg x1_h),
  eor x0_h x0_h (.reg tmp1),
  mvn tmp1 (.reg x4_h),
  orr tmp1 x3_h (.reg tmp1),
  eor x2_h x2_h (.reg tmp1),
  bic tmp1 x1_h (.reg x0_h),
  eor x4_h x4_h (.reg tmp1),
  and tmp1 x3_h (.reg x2_h),
  eor x1_h x1_h (.reg tmp1),
  eor x3_h x3_h (.reg tmp0),
  eor x1_h x1_h (.reg x0_h),
  eor x3_h x3_h (.reg x2_h),
  eor x0_h x0_h (.reg x4_h),
  eor tmp0 x0_l (.ror x0_h 4),
  eor tmp1 x0_h (.ror x0_l 5),
  eor x0_h x0_h (.ror tmp0 10),
  eor x0_l x0_l (.ror tmp1 9),
  eor tmp0 x1_l (.ror x1_l 11),
  eor tmp1 x1_h (.ror x1_h 11),
  eor x1_h x1_h (.ror tmp0 20),
  eor x1_l x1_l (.ror tmp1 19),
  eor tmp0 x2_l (.ror x2_h 2),
  eor tmp1 x2_h (.ror x2_l 3),
  eor x2_h x2_h (.ror tmp0 1),
  eor x2_l x2_l (.reg tmp1),
  eor tmp0 x3_l (.ror x3_h 3),
  eor tmp1 x3_h (.ror x3_l 4),
  eor x3_l x3_l (.ror tmp0 5),
  eor x3_h x3_h (.ror tmp1 5),
  eor tmp0 x4_l (.ror x4_l 17),
  eor tmp1 x4_h (.ror x4_h 17),
  eor x4_h x4_h (.ror tmp0 4),
  eor x4_l x4_l (.ror tmp1 3),
  cmp C (.reg E)]

/-- /repo/crypto_aead/asconaead128/bi32_armv6/round.h:90-147, `ROUND` -/
def bi32_armv6_ROUND : List (Instr 32) := [
  eor x0_l x0_l (.reg x4_l),
  eor x4_l x4_l (.reg x3_l),
  eor x2_l x2_l (.reg x1_l),
  mvn tmp0 (.reg x0_l),
  orr tmp0 x4_l (.reg tmp0),
  eor x2_l x2_l (.reg C_e),
  bic tmp1 x2_l (.reg x1_l),
  eor x0_l x0_l (.reg tmp1),
  mvn tmp1 (.reg x4_l),
  orr tmp1 x3_l (.reg tmp1),
  eor x2_l x2_l (.reg tmp1),
  bic tmp1 x1_l (.reg x0_l),
  eor x4_l x4_l (.reg tmp1),
  and tmp1 x3_l (.reg x2_l),
  eor x1_l x1_l (.reg tmp1),
  eor x3_l x3_l (.reg tmp0),
  eor x1_l x1_l (.reg x0_l),
  eor x3_l x3_l (.reg x2_l),
  eor x0_l x0_l (.reg x4_l),
  eor x0_h x0_h (.reg x4_h),
  eor x4_h x4_h (.reg x3_h),
  eor x2_h x2_h (.reg C_o),
  eor x2_h x2_h (.reg x1_h),
  mvn tmp0 (.reg x0_h),
  orr tmp0 x4_h (.reg tmp0),
  bic tmp1 x2_h (.reg x1_h),
  eor x0_h x0_h (.reg tmp1),
  mvn tmp1 (.reg x4_h),
  orr tmp1 x3_h (.reg tmp1),
  eor x2_h x2_h (.reg tmp1),
  bic tmp1 x1_h (.reg x0_h),
  eor x4_h x4_h (.reg tmp1),
  and tmp1 x3_h (.reg x2_h),
  eor x1_h x1_h (.reg tmp1),
  eor x3_h x3_h (.reg tmp0),
  eor x1_h x1_h (.reg x0_h),
  eor x3_h x3_h (.reg x2_h),
  eor x0_h x0_h (.reg x4_h),
  eor tmp0 x0_l (.ror x0_h 4),
  eor tmp1 x0_h (.ror x0_l 5),
  eor x0_h x0_h (.ror tmp0 10),
  eor x0_l x0_l (.ror tmp1 9),
  eor tmp0 x1_l (.ror x1_l 11),
  eor tmp1 x1_h (.ror x1_h 11),
  eor x1_h x1_h (.ror tmp0 20),
  eor x1_l x1_l (.ror tmp1 19),
  eor tmp0 x2_l (.ror x2_h 2),
  eor tmp1 x2_h (.ror x2_l 3),
  eor x2_h x2_h (.ror tmp0 1),
  eor x2_l x2_l (.reg tmp1),
  eor tmp0 x3_l (.ror x3_h 3),
  eor tmp1 x3_h (.ror x3_l 4),
  eor x3_l x3_l (.ror tmp0 5),
  eor x3_h x3_h (.ror tmp1 5),
  eor tmp0 x4_l (.ror x4_l 17),
  eor tmp1 x4_h (.ror x4_h 17),
  eor x4_h x4_h (.ror tmp0 4),
  eor x4_l x4_l (.ror tmp1 3)]

/-- /repo/crypto_aead/asconaead128/bi32_armv6/round.h:164-217, `ROUND5` -/
def bi32_armv6_ROUND5 : List (Instr 32) := [
  eor x2_l x2_l (.reg C_e),
  eor tmp0 x1_l (.reg x2_l),
  eor tmp1 x0_l (.reg x4_l),
  eor tmp2 x3_l (.reg x4_l),
  mvn x4_l (.reg x4_l),
  orr x4_l x3_l (.reg x4_l),
  eor x4_l x4_l (.reg tmp0),
  eor x3_l x3_l (.reg x1_l),
  orr x3_l x3_l (.reg tmp0),
  eor x3_l x3_l (.reg tmp1),
  eor x2_l x2_l (.reg tmp1),
  orr x2_l x2_l (.reg x1_l),
  eor x2_l x2_l (.reg tmp2),
  bic x1_l x1_l (.reg tmp1),
  eor x1_l x1_l (.reg tmp2),
  orr x0_l x0_l (.reg tmp2),
  eor x0_l x0_l (.reg tmp0),
  eor x2_h x2_h (.reg C_o),
  eor tmp0 x1_h (.reg x2_h),
  eor tmp1 x0_h (.reg x4_h),
  eor tmp2 x3_h (.reg x4_h),
  mvn x4_h (.reg x4_h),
  orr x4_h x3_h (.reg x4_h),
  eor x4_h x4_h (.reg tmp0),
  eor x3_h x3_h (.reg x1_h),
  orr x3_h x3_h (.reg tmp0),
  eor x3_h x3_h (.reg tmp1),
  eor x2_h x2_h (.reg tmp1),
  orr x2_h x2_h (.reg x1_h),
  eor x2_h x2_h (.reg tmp2),
  bic x1_h x1_h (.reg tmp1),
  eor x1_h x1_h (.reg tmp2),
  orr x0_h x0_h (.reg tmp2),
  eor x0_h x0_h (.reg tmp0),
  eor tmp0 x2_l (.ror x2_h 4),
  eor tmp1 x2_h (.ror x2_l 5),
  eor x2_h x2_h (.ror tmp0 10),
  eor x2_l x2_l (.ror tmp1 9),
  eor tmp0 x3_l (.ror x3_l 11),
  eor tmp1 x3_h (.ror x3_h 11),
  eor x3_h x3_h (.ror tmp0 20),
  eor x3_l x3_l (.ror tmp1 19),
  eor tmp0 x4_l (.ror x4_h 2),
  eor tmp1 x4_h (.ror x4_l 3),
  eor x4_h x4_h (.ror tmp0 1),
  eor x4_l x4_l (.reg tmp1),
  eor tmp0 x0_l (.ror x0_h 3),
  eor tmp1 x0_h (.ror x0_l 4),
  eor x0_l x0_l (.ror tmp0 5),
  eor x0_h x0_h (.ror tmp1 5),
  eor tmp0 x1_l (.ror x1_l 17),
  eor tmp1 x1_h (.ror x1_h 17),
  eor x1_h x1_h (.ror tmp0 4),
  eor x1_l x1_l (.ror tmp1 3)]

/-- /repo/crypto_aead/asconaead128/bi32_armv6m/round.h:14-162, `ROUND_LOOP`; jumps: rbegin:, beq rend, b rbegin, rend: -/
def bi32_armv6m_ROUND_LOOP : List (Instr 32) := [
  ldrb tmp2 tmp1 0,
  push tmp0,
  eor x0_l x0_l (.reg x4_l),
  eor x4_l x4_l (.reg x3_l),
  eor x2_l x2_l (.reg x1_l),
  eor x2_l x2_l (.reg tmp2),
  ldrb tmp2 tmp1 1,
  add tmp1 tmp1 (.imm 2),
  movs tmp0 (.reg x2_h),
  push tmp1,
  eor tmp0 tmp0 (.reg tmp2),
  movs x2_h (.reg tmp0),
  movs tmp0 (.reg x0_l),
  bic tmp0 tmp0 (.reg x4_l),
  movs tmp1 (.reg x2_l),
  bic tmp1 tmp1 (.reg x1_l),
  eor x0_l x0_l (.reg tmp1),
  movs tmp1 (.reg x4_l),
  bic tmp1 tmp1 (.reg x3_l),
  eor x2_l x2_l (.reg tmp1),
  movs tmp2 (.reg x1_l),
  bic tmp2 tmp2 (.reg x0_l),
  eor tmp2 x4_l (.reg tmp2),
  movs tmp1 (.reg x3_l),
  bic tmp1 tmp1 (.reg x2_l),
  eor tmp1 x1_l (.reg tmp1),
  eor tmp0 x3_l (.reg tmp0),
  eor tmp0 tmp0 (.reg x2_l),
  eor tmp1 tmp1 (.reg x0_l),
  eor x0_l x0_l (.reg tmp2),
  movs x4_l (.reg x4_h),
  movs x1_l (.reg x1_h),
  movs x3_l (.reg x3_h),
  movs x3_h (.reg tmp0),
  movs x1_h (.reg tmp1),
  movs tmp0 (.reg x0_h),
  movs tmp1 (.reg x2_h),
  movs x0_h (.reg x0_l),
  movs x2_h (.reg x2_l),
  eor tmp0 tmp0 (.reg x4_l),
  eor x4_l x4_l (.reg x3_l),
  eor tmp1 tmp1 (.reg x1_l),
  movs x0_l (.reg tmp0),
  bic x0_l x0_l (.reg x4_l),
  movs x2_l (.reg tmp1),
  bic x2_l x2_l (.reg x1_l),
  eor tmp0 tmp0 (.reg x2_l),
  movs x2_l (.reg x4_l),
  bic x2_l x2_l (.reg x3_l),
  eor tmp1 tmp1 (.reg x2_l),
  movs x2_l (.reg x1_l),
  bic x2_l x2_l (.reg tmp0),
  eor x4_l x4_l (.reg x2_l),
  movs x2_l (.reg x3_l),
  bic x2_l x2_l (.reg tmp1),
  eor x1_l x1_l (.reg x2_l),
  eor x3_l x3_l (.reg x0_l),
  eor x3_l x3_l (.reg tmp1),
  eor x1_l x1_l (.reg tmp0),
  eor tmp0 tmp0 (.reg x4_l),
  movs x4_h (.reg tmp1),
  movs x2_l (.reg x3_h),
  movs x3_h (.reg x1_l),
  movs tmp1 (.imm 17),
  movs x0_l (.reg tmp2),
  ror x0_l x0_l tmp1,
  eor x0_l tmp2 (.reg x0_l),
  movs x1_l (.reg x4_l),
  ror x1_l x1_l tmp1,
  eor x1_l x4_l (.reg x1_l),
  movs tmp1 (.imm 3),
  ror x1_l x1_l tmp1,
  eor tmp2 tmp2 (.reg x1_l),
  movs tmp1 (.imm 4),
  ror x0_l x0_l tmp1,
  eor x4_l x4_l (.reg x0_l),
  movs x1_l (.reg x2_l),
  ror x1_l x1_l tmp1,
  eor x1_l x3_l (.reg x1_l),
  movs tmp1 (.imm 3),
  movs x0_l (.reg x3_l),
  ror x0_l x0_l tmp1,
  eor x0_l x2_l (.reg x0_l),
  movs tmp1 (.imm 5),
  ror x0_l x0_l tmp1,
  eor x2_l x2_l (.reg x0_l),
  ror x1_l x1_l tmp1,
  eor x3_l x3_l (.reg x1_l),
  movs x0_l (.reg x0_h),
  movs x1_l (.reg x1_h),
  movs x1_h (.reg x2_l),
  movs x0_h (.reg tmp2),
  movs tmp2 (.reg x4_h),
  movs x4_h (.reg x4_l),
  movs x4_l (.reg x3_h),
  movs x3_h (.reg x3_l),
  movs x3_l (.reg x0_l),
  ror x3_l x3_l tmp1,
  eor x3_l tmp0 (.reg x3_l),
  movs tmp1 (.imm 4),
  movs x2_l (.reg tmp0),
  ror x2_l x2_l tmp1,
  eor x2_l x0_l (.reg x2_l),
  movs tmp1 (.imm 9),
  ror x3_l x3_l tmp1,
  eor x0_l x0_l (.reg x3_l),
  movs tmp1 (.imm 10),
  ror x2_l x2_l tmp1,
  eor tmp0 tmp0 (.reg x2_l),
  movs tmp1 (.imm 11),
  movs x2_l (.reg x1_l),
  ror x2_l x2_l tmp1,
  eor x2_l x1_l (.reg x2_l),
  movs x3_l (.reg x4_l),
  ror x3_l x3_l tmp1,
  eor x3_l x4_l (.reg x3_l),
  movs tmp1 (.imm 19),
  ror x3_l x3_l tmp1,
  eor x1_l x1_l (.reg x3_l),
  movs tmp1 (.imm 20),
  ror x2_l x2_l tmp1,
  eor x4_l x4_l (.reg x2_l),
  movs x2_l (.reg x2_h),
  movs x3_l (.reg x1_h),
  movs x1_h (.reg x4_l),
  movs x2_h (.reg tmp0),
  movs x4_l (.imm 2),
  mvn tmp0 (.reg tmp2),
  ror tmp0 tmp0 x4_l,
  eor tmp0 x2_l (.reg tmp0),
  movs x4_l (.imm 3),
  mvn tmp1 (.reg x2_l),
  ror tmp1 tmp1 x4_l,
  eor tmp1 tmp2 (.reg tmp1),
  eor x2_l x2_l (.reg tmp1),
  movs x4_l (.imm 1),
  pop tmp1,
  ror tmp0 tmp0 x4_l,
  eor tmp2 tmp2 (.reg tmp0),
  pop tmp0,
  movs x4_l (.reg x0_h),
  movs x0_h (.reg x2_h),
  movs x2_h (.reg tmp2),
  cmp tmp1 (.reg tmp0)]

/-- /repo/crypto_aead/asconaead128/bi32_armv6m/round.h:176-312, `ROUND` -/
def bi32_armv6m_ROUND : List (Instr 32) := [
  movs tmp1 (.reg C_e),
  eor x2_l x2_l (.reg tmp1),
  eor x0_l x0_l (.reg x4_l),
  eor x4_l x4_l (.reg x3_l),
  eor x2_l x2_l (.reg x1_l),
  movs tmp0 (.reg x0_l),
  bic tmp0 tmp0 (.reg x4_l),
  movs tmp1 (.reg x2_l),
  bic tmp1 tmp1 (.reg x1_l),
  eor x0_l x0_l (.reg tmp1),
  movs tmp1 (.reg x4_l),
  bic tmp1 tmp1 (.reg x3_l),
  eor x2_l x2_l (.reg tmp1),
  movs tmp2 (.reg x1_l),
  bic tmp2 tmp2 (.reg x0_l),
  eor tmp2 x4_l (.reg tmp2),
  movs tmp1 (.reg x3_l),
  bic tmp1 tmp1 (.reg x2_l),
  eor tmp1 x1_l (.reg tmp1),
  eor tmp0 x3_l (.reg tmp0),
  eor tmp0 tmp0 (.reg x2_l),
  eor tmp1 tmp1 (.reg x0_l),
  eor x0_l x0_l (.reg tmp2),
  movs x4_l (.reg x4_h),
  movs x1_l (.reg x1_h),
  movs x3_l (.reg x3_h),
  movs x3_h (.reg tmp0),
  movs x1_h (.reg tmp1),
  movs tmp0 (.reg x0_h),
  movs tmp1 (.reg x2_h),
  movs x0_h (.reg x0_l),
  movs x2_h (.reg x2_l),
  movs x0_l (.reg C_o),
  eor tmp1 tmp1 (.reg x0_l),
  eor tmp0 tmp0 (.reg x4_l),
  eor x4_l x4_l (.reg x3_l),
  eor tmp1 tmp1 (.reg x1_l),
  movs x0_l (.reg tmp0),
  bic x0_l x0_l (.reg x4_l),
  movs x2_l (.reg tmp1),
  bic x2_l x2_l (.reg x1_l),
  eor tmp0 tmp0 (.reg x2_l),
  movs x2_l (.reg x4_l),
  bic x2_l x2_l (.reg x3_l),
  eor tmp1 tmp1 (.reg x2_l),
  movs x2_l (.reg x1_l),
  bic x2_l x2_l (.reg tmp0),
  eor x4_l x4_l (.reg x2_l),
  movs x2_l (.reg x3_l),
  bic x2_l x2_l (.reg tmp1),
  eor x1_l x1_l (.reg x2_l),
  eor x3_l x3_l (.reg x0_l),
  eor x3_l x3_l (.reg tmp1),
  eor x1_l x1_l (.reg tmp0),
  eor tmp0 tmp0 (.reg x4_l),
  movs x4_h (.reg tmp1),
  movs x2_l (.reg x3_h),
  movs x3_h (.reg x1_l),
  movs tmp1 (.imm 17),
  movs x0_l (.reg tmp2),
  ror x0_l x0_l tmp1,
  eor x0_l tmp2 (.reg x0_l),
  movs x1_l (.reg x4_l),
  ror x1_l x1_l tmp1,
  eor x1_l x4_l (.reg x1_l),
  movs tmp1 (.imm 3),
  ror x1_l x1_l tmp1,
  eor tmp2 tmp2 (.reg x1_l),
  movs tmp1 (.imm 4),
  ror x0_l x0_l tmp1,
  eor x4_l x4_l (.reg x0_l),
  movs x1_l (.reg x2_l),
  ror x1_l x1_l tmp1,
  eor x1_l x3_l (.reg x1_l),
  movs tmp1 (.imm 3),
  movs x0_l (.reg x3_l),
  ror x0_l x0_l tmp1,
  eor x0_l x2_l (.reg x0_l),
  movs tmp1 (.imm 5),
  ror x0_l x0_l tmp1,
  eor x2_l x2_l (.reg x0_l),
  ror x1_l x1_l tmp1,
  eor x3_l x3_l (.reg x1_l),
  movs x0_l (.reg x0_h),
  movs x1_l (.reg x1_h),
  movs x1_h (.reg x2_l),
  movs x0_h (.reg tmp2),
  movs tmp2 (.reg x4_h),
  movs x4_h (.reg x4_l),
  movs x4_l (.reg x3_h),
  movs x3_h (.reg x3_l),
  movs x3_l (.reg x0_l),
  ror x3_l x3_l tmp1,
  eor x3_l tmp0 (.reg x3_l),
  movs tmp1 (.imm 4),
  movs x2_l (.reg tmp0),
  ror x2_l x2_l tmp1,
  eor x2_l x0_l (.reg x2_l),
  movs tmp1 (.imm 9),
  ror x3_l x3_l tmp1,
  eor x0_l x0_l (.reg x3_l),
  movs tmp1 (.imm 10),
  ror x2_l x2_l tmp1,
  eor tmp0 tmp0 (.reg x2_l),
  movs tmp1 (.imm 11),
  movs x2_l (.reg x1_l),
  ror x2_l x2_l tmp1,
  eor x2_l x1_l (.reg x2_l),
  movs x3_l (.reg x4_l),
  ror x3_l x3_l tmp1,
  eor x3_l x4_l (.reg x3_l),
  movs tmp1 (.imm 19),
  ror x3_l x3_l tmp1,
  eor x1_l x1_l (.reg x3_l),
  movs tmp1 (.imm 20),
  ror x2_l x2_l tmp1,
  eor x4_l x4_l (.reg x2_l),
  movs x2_l (.reg x2_h),
  movs x3_l (.reg x1_h),
  movs x1_h (.reg x4_l),
  movs x2_h (.reg tmp0),
  movs x4_l (.imm 2),
  mvn tmp0 (.reg tmp2),
  ror tmp0 tmp0 x4_l,
  eor tmp0 x2_l (.reg tmp0),
  movs x4_l (.imm 3),
  mvn tmp1 (.reg x2_l),
  ror tmp1 tmp1 x4_l,
  eor tmp1 tmp2 (.reg tmp1),
  eor x2_l x2_l (.reg tmp1),
  movs x4_l (.imm 1),
  ror tmp0 tmp0 x4_l,
  eor tmp2 tmp2 (.reg tmp0),
  movs x4_l (.reg x0_h),
  movs x0_h (.reg x2_h),
  movs x2_h (.reg tmp2)]

/-- /repo/crypto_aead/asconaead128/bi32_armv7m/round.h:14-72, `ROUND_LOOP`; jumps: rbegin:, bne rbegin -/
def bi32_armv7m_ROUND_LOOP : List (Instr 32) := [
  ldrbPost tmp1 C 1,
  eor x0_l x0_l (.reg x4_l),
  eor x4_l x4_l (.reg x3_l),
  eor x2_l x2_l (.reg x1_l),
  orn tmp0 x4_l (.reg x0_l),
  eor x2_l x2_l (.reg tmp1),
  bic tmp1 x2_l (.reg x1_l),
  eor x0_l x0_l (.reg tmp1),
  orn tmp1 x3_l (.reg x4_l),
  eor x2_l x2_l (.reg tmp1),
  bic tmp1 x1_l (.reg x0_l),
  eor x4_l x4_l (.reg tmp1),
  and tmp1 x3_l (.reg x2_l),
  eor x1_l x1_l (.reg tmp1),
  eor x3_l x3_l (.reg tmp0),
  ldrbPost tmp1 C 1,
  eor x1_l x1_l (.reg x0_l),
  eor x3_l x3_l (.reg x2_l),
  eor x0_l x0_l (.reg x4_l),
  eor x0_h x0_h (.reg x4_h),
  eor x4_h x4_h (.reg x3_h),
  eor x2_h x2_h (.reg tmp1),
  eor x2_h x2_h (.reg x1_h),
  orn tmp0 x4_h (.reg x0_h),
  bic tmp1 x2_h (.reg x1_h),
  eor x0_h x0_h (.reg tmp1),
  orn tmp1 x3_h (.reg x4_h),
  eor x2_h x2_h (.reg tmp1),
  bic tmp1 x1_h (.reg x0_h),
  eor x4_h x4_h (.reg tmp1),
  and tmp1 x3_h (.reg x2_h),
  eor x1_h x1_h (.reg tmp1),
  eor x3_h x3_h (.reg tmp0),
  eor x1_h x1_h (.reg x0_h),
  eor x3_h x3_h (.reg x2_h),
  eor x0_h x0_h (.reg x4_h),
  eor tmp0 x0_l (.ror x0_h 4),
  eor tmp1 x0_h (.ror x0_l 5),
  eor x0_h x0_h (.ror tmp0 10),
  eor x0_l x0_l (.ror tmp1 9),
  eor tmp0 x1_l (.ror x1_l 11),
  eor tmp1 x1_h (.ror x1_h 11),
  eor x1_h x1_h (.ror tmp0 20),
  eor x1_l x1_l (.ror tmp1 19),
  eor tmp0 x2_l (.ror x2_h 2),
  eor tmp1 x2_h (.ror x2_l 3),
  eor x2_h x2_h (.ror tmp0 1),
  eor x2_l x2_l (.reg tmp1),
  eor tmp0 x3_l (.ror x3_h 3),
  eor tmp1 x3_h (.ror x3_l 4),
  eor x3_l x3_l (.ror tmp0 5),
  eor x3_h x3_h (.ror tmp1 5),
  eor tmp0 x4_l (.ror x4_l 17),
  eor tmp1 x4_h (.ror x4_h 17),
  eor x4_h x4_h (.ror tmp0 4),
  eor x4_l x4_l (.ror tmp1 3),
  cmp C (.reg E)]

/-- /repo/crypto_aead/asconaead128/bi32_armv7m/round.h:86-139, `ROUND` -/
def bi32_armv7m_ROUND : List (Instr 32) := [
  eor x0_l x0_l (.reg x4_l),
  eor x4_l x4_l (.reg x3_l),
  eor x2_l x2_l (.reg x1_l),
  orn tmp0 x4_l (.reg x0_l),
  eor x2_l x2_l (.reg C_e),
  bic tmp1 x2_l (.reg x1_l),
  eor x0_l x0_l (.reg tmp1),
  orn tmp1 x3_l (.reg x4_l),
  eor x2_l x2_l (.reg tmp1),
  bic tmp1 x1_l (.reg x0_l),
  eor x4_l x4_l (.reg tmp1),
  and tmp1 x3_l (.reg x2_l),
  eor x1_l x1_l (.reg tmp1),
  eor x3_l x3_l (.reg tmp0),
  eor x1_l x1_l (.reg x0_l),
  eor x3_l x3_l (.reg x2_l),
  eor x0_l x0_l (.reg x4_l),
  eor x0_h x0_h (.reg x4_h),
  eor x4_h x4_h (.reg x3_h),
  eor x2_h x2_h (.reg C_o),
  eor x2_h x2_h (.reg x1_h),
  orn tmp0 x4_h (.reg x0_h),
  bic tmp1 x2_h (.reg x1_h),
  eor x0_h x0_h (.reg tmp1),
  orn tmp1 x3_h (.reg x4_h),
  eor x2_h x2_h (.reg tmp1),
  bic tmp1 x1_h (.reg x0_h),
  eor x4_h x4_h (.reg tmp1),
  and tmp1 x3_h (.reg x2_h),
  eor x1_h x1_h (.reg tmp1),
  eor x3_h x3_h (.reg tmp0),
  eor x1_h x1_h (.reg x0_h),
  eor x3_h x3_h (.reg x2_h),
  eor x0_h x0_h (.reg x4_h),
  eor tmp0 x0_l (.ror x0_h 4),
  eor tmp1 x0_h (.ror x0_l 5),
  eor x0_h x0_h (.ror tmp0 10),
  eor x0_l x0_l (.ror tmp1 9),
  eor tmp0 x1_l (.ror x1_l 11),
  eor tmp1 x1_h (.ror x1_h 11),
  eor x1_h x1_h (.ror tmp0 20),
  eor x1_l x1_l (.ror tmp1 19),
  eor tmp0 x2_l (.ror x2_h 2),
  eor tmp1 x2_h (.ror x2_l 3),
  eor x2_h x2_h (.ror tmp0 1),
  eor x2_l x2_l (.reg tmp1),
  eor tmp0 x3_l (.ror x3_h 3),
  eor tmp1 x3_h (.ror x3_l 4),
  eor x3_l x3_l (.ror tmp0 5),
  eor x3_h x3_h (.ror tmp1 5),
  eor tmp0 x4_l (.ror x4_l 17),
  eor tmp1 x4_h (.ror x4_h 17),
  eor x4_h x4_h (.ror tmp0 4),
  eor x4_l x4_l (.ror tmp1 3)]

/-- /repo/crypto_aead/asconaead128/bi32_armv7m/round.h:156-207, `ROUND5` -/
def bi32_armv7m_ROUND5 : List (Instr 32) := [
  eor x2_l x2_l (.reg C_e),
  eor tmp0 x1_l (.reg x2_l),
  eor tmp1 x0_l (.reg x4_l),
  eor tmp2 x3_l (.reg x4_l),
  orn x4_l x3_l (.reg x4_l),
  eor x4_l x4_l (.reg tmp0),
  eor x3_l x3_l (.reg x1_l),
  orr x3_l x3_l (.reg tmp0),
  eor x3_l x3_l (.reg tmp1),
  eor x2_l x2_l (.reg tmp1),
  orr x2_l x2_l (.reg x1_l),
  eor x2_l x2_l (.reg tmp2),
  bic x1_l x1_l (.reg tmp1),
  eor x1_l x1_l (.reg tmp2),
  orr x0_l x0_l (.reg tmp2),
  eor x0_l x0_l (.reg tmp0),
  eor x2_h x2_h (.reg C_o),
  eor tmp0 x1_h (.reg x2_h),
  eor tmp1 x0_h (.reg x4_h),
  eor tmp2 x3_h (.reg x4_h),
  orn x4_h x3_h (.reg x4_h),
  eor x4_h x4_h (.reg tmp0),
  eor x3_h x3_h (.reg x1_h),
  orr x3_h x3_h (.reg tmp0),
  eor x3_h x3_h (.reg tmp1),
  eor x2_h x2_h (.reg tmp1),
  orr x2_h x2_h (.reg x1_h),
  eor x2_h x2_h (.reg tmp2),
  bic x1_h x1_h (.reg tmp1),
  eor x1_h x1_h (.reg tmp2),
  orr x0_h x0_h (.reg tmp2),
  eor x0_h x0_h (.reg tmp0),
  eor tmp0 x2_l (.ror x2_h 4),
  eor tmp1 x2_h (.ror x2_l 5),
  eor x2_h x2_h (.ror tmp0 10),
  eor x2_l x2_l (.ror tmp1 9),
  eor tmp0 x3_l (.ror x3_l 11),
  eor tmp1 x3_h (.ror x3_h 11),
  eor x3_h x3_h (.ror tmp0 20),
  eor x3_l x3_l (.ror tmp1 19),
  eor tmp0 x4_l (.ror x4_h 2),
  eor tmp1 x4_h (.ror x4_l 3),
  eor x4_h x4_h (.ror tmp0 1),
  eor x4_l x4_l (.reg tmp1),
  eor tmp0 x0_l (.ror x0_h 3),
  eor tmp1 x0_h (.ror x0_l 4),
  eor x0_l x0_l (.ror tmp0 5),
  eor x0_h x0_h (.ror tmp1 5),
  eor tmp0 x1_l (.ror x1_l 17),
  eor tmp1 x1_h (.ror x1_h 17),
  eor x1_h x1_h (.ror tmp0 4),
  eor x1_l x1_l (.ror tmp1 3)]

end Ascon.Arm
