import Verif.Model.Rv
/-!
# The RISC-V assembly code

Generated by tools/gen_rv.py from /repo/crypto_aead/asconaead128/asm_*rv32*/ascon.S: one list entry per instruction after
macro expansion, in order; the comment gives the line of ascon.S (of the macro call for expanded instructions).  Labels are
resolved to relative positions.  The `#define`s (register names, IV, round constants) are substituted.
-/

namespace Ascon.Rv

open Ascon.Asm (Instr Opnd)

/-- asm_rv32i/ascon.S:121-121 ascon_permute -/
def rv32i_ascon_permute : List Ins := [
  .alu (.mov t6 (.imm 0x4b)) -- 121
]

/-- asm_rv32i/ascon.S:124-135 ascon_permute -/
def rv32i_ascon_permuteBody : List (Instr 32) := [
  .bit .xor s5 (.reg s5) (.reg t1), -- 124
  .bit .xor t3 (.reg s1) (.reg s9), -- 127
  .bit .xor t5 (.reg s7) (.reg s9), -- 127
  .bit .xor s9 (.reg s9) (.imm 0xffffffff), -- 127
  .bit .xor t4 (.reg s3) (.reg s5), -- 127
  .bit .or s9 (.reg s9) (.reg s7), -- 127
  .bit .xor s9 (.reg s9) (.reg t4), -- 127
  .bit .xor s7 (.reg s7) (.reg s3), -- 127
  .bit .or s7 (.reg s7) (.reg t4), -- 127
  .bit .xor s7 (.reg s7) (.reg t3), -- 127
  .bit .xor s5 (.reg s5) (.reg t3), -- 127
  .bit .or s5 (.reg s5) (.reg s3), -- 127
  .bit .xor s5 (.reg s5) (.reg t5), -- 127
  .bit .or s1 (.reg s1) (.reg t5), -- 127
  .bit .xor t4 (.reg t4) (.reg s1), -- 127
  .bit .xor t3 (.reg t3) (.imm 0xffffffff), -- 127
  .bit .and s3 (.reg s3) (.reg t3), -- 127
  .bit .xor s3 (.reg s3) (.reg t5), -- 127
  .bit .xor s1 (.reg s0) (.reg s8), -- 128
  .bit .xor t5 (.reg s6) (.reg s8), -- 128
  .bit .xor s8 (.reg s8) (.imm 0xffffffff), -- 128
  .bit .xor t3 (.reg s2) (.reg s4), -- 128
  .bit .or s8 (.reg s8) (.reg s6), -- 128
  .bit .xor s8 (.reg s8) (.reg t3), -- 128
  .bit .xor s6 (.reg s6) (.reg s2), -- 128
  .bit .or s6 (.reg s6) (.reg t3), -- 128
  .bit .xor s6 (.reg s6) (.reg s1), -- 128
  .bit .xor s4 (.reg s4) (.reg s1), -- 128
  .bit .or s4 (.reg s4) (.reg s2), -- 128
  .bit .xor s4 (.reg s4) (.reg t5), -- 128
  .bit .or s0 (.reg s0) (.reg t5), -- 128
  .bit .xor t3 (.reg t3) (.reg s0), -- 128
  .bit .xor s1 (.reg s1) (.imm 0xffffffff), -- 128
  .bit .and s2 (.reg s2) (.reg s1), -- 128
  .bit .xor s2 (.reg s2) (.reg t5), -- 128
  .mov s0 (.lsl s5 13), -- 131
  .mov t5 (.lsr s4 19), -- 131
  .bit .xor s0 (.reg s0) (.reg t5), -- 131
  .mov t5 (.lsl s5 4), -- 131
  .bit .xor s0 (.reg s0) (.reg t5), -- 131
  .mov t5 (.lsr s4 28), -- 131
  .bit .xor s0 (.reg s0) (.reg t5), -- 131
  .mov s1 (.lsl s4 13), -- 131
  .mov t5 (.lsr s5 19), -- 131
  .bit .xor s1 (.reg s1) (.reg t5), -- 131
  .mov t5 (.lsl s4 4), -- 131
  .bit .xor s1 (.reg s1) (.reg t5), -- 131
  .mov t5 (.lsr s5 28), -- 131
  .bit .xor s1 (.reg s1) (.reg t5), -- 131
  .bit .xor s1 (.reg s1) (.reg s5), -- 131
  .bit .xor s0 (.reg s0) (.reg s4), -- 131
  .mov s4 (.lsl s9 31), -- 132
  .mov t5 (.lsr s8 1), -- 132
  .bit .xor s4 (.reg s4) (.reg t5), -- 132
  .mov t5 (.lsl s9 26), -- 132
  .bit .xor s4 (.reg s4) (.reg t5), -- 132
  .mov t5 (.lsr s8 6), -- 132
  .bit .xor s4 (.reg s4) (.reg t5), -- 132
  .mov s5 (.lsl s8 31), -- 132
  .mov t5 (.lsr s9 1), -- 132
  .bit .xor s5 (.reg s5) (.reg t5), -- 132
  .mov t5 (.lsl s8 26), -- 132
  .bit .xor s5 (.reg s5) (.reg t5), -- 132
  .mov t5 (.lsr s9 6), -- 132
  .bit .xor s5 (.reg s5) (.reg t5), -- 132
  .bit .xor s5 (.reg s5) (.reg s9), -- 132
  .bit .xor s4 (.reg s4) (.reg s8), -- 132
  .mov s8 (.lsl s3 25), -- 133
  .mov t5 (.lsr s2 7), -- 133
  .bit .xor s8 (.reg s8) (.reg t5), -- 133
  .mov t5 (.lsl s2 23), -- 133
  .bit .xor s8 (.reg s8) (.reg t5), -- 133
  .mov t5 (.lsr s3 9), -- 133
  .bit .xor s8 (.reg s8) (.reg t5), -- 133
  .mov s9 (.lsl s2 25), -- 133
  .mov t5 (.lsr s3 7), -- 133
  .bit .xor s9 (.reg s9) (.reg t5), -- 133
  .mov t5 (.lsl s3 23), -- 133
  .bit .xor s9 (.reg s9) (.reg t5), -- 133
  .mov t5 (.lsr s2 9), -- 133
  .bit .xor s9 (.reg s9) (.reg t5), -- 133
  .bit .xor s9 (.reg s9) (.reg s3), -- 133
  .bit .xor s8 (.reg s8) (.reg s2), -- 133
  .mov s2 (.lsl s6 3), -- 134
  .mov t5 (.lsr s7 29), -- 134
  .bit .xor s2 (.reg s2) (.reg t5), -- 134
  .mov t5 (.lsl s6 25), -- 134
  .bit .xor s2 (.reg s2) (.reg t5), -- 134
  .mov t5 (.lsr s7 7), -- 134
  .bit .xor s2 (.reg s2) (.reg t5), -- 134
  .mov s3 (.lsl s7 3), -- 134
  .mov t5 (.lsr s6 29), -- 134
  .bit .xor s3 (.reg s3) (.reg t5), -- 134
  .mov t5 (.lsl s7 25), -- 134
  .bit .xor s3 (.reg s3) (.reg t5), -- 134
  .mov t5 (.lsr s6 7), -- 134
  .bit .xor s3 (.reg s3) (.reg t5), -- 134
  .bit .xor s3 (.reg s3) (.reg s7), -- 134
  .bit .xor s2 (.reg s2) (.reg s6), -- 134
  .mov s6 (.lsl t4 22), -- 135
  .mov t5 (.lsr t3 10), -- 135
  .bit .xor s6 (.reg s6) (.reg t5), -- 135
  .mov t5 (.lsl t4 15), -- 135
  .bit .xor s6 (.reg s6) (.reg t5), -- 135
  .mov t5 (.lsr t3 17), -- 135
  .bit .xor s6 (.reg s6) (.reg t5), -- 135
  .mov s7 (.lsl t3 22), -- 135
  .mov t5 (.lsr t4 10), -- 135
  .bit .xor s7 (.reg s7) (.reg t5), -- 135
  .mov t5 (.lsl t3 15), -- 135
  .bit .xor s7 (.reg s7) (.reg t5), -- 135
  .mov t5 (.lsr t4 17), -- 135
  .bit .xor s7 (.reg s7) (.reg t5), -- 135
  .bit .xor s7 (.reg s7) (.reg t4), -- 135
  .bit .xor s6 (.reg s6) (.reg t3) -- 135
]

/-- asm_rv32i/ascon.S:138-142 ascon_permute -/
def rv32i_ascon_permuteEnd : List Ins := [
  .alu (.add t1 (.reg t1) (.imm 0xfffffff1)), -- 138
  .br .ge (.reg t1) (.reg t6) (-116), -- 139
  .jalr t0 -- 142
]

/-- asm_rv32i/ascon.S:154-165 ascon_memcpy -/
def rv32i_ascon_memcpy : List Ins := [
  .alu (.mov t3 (.imm 0x0)), -- 154
  .jal none (6), -- 155
  .lbu t4 t2 0, -- 157
  .sb t4 t1 0, -- 158
  .alu (.add t1 (.reg t1) (.imm 0x1)), -- 159
  .alu (.add t2 (.reg t2) (.imm 0x1)), -- 160
  .alu (.add t3 (.reg t3) (.imm 0x1)), -- 161
  .br .lt (.reg t3) (.reg a4) (-5), -- 163
  .jalr t0 -- 165
]

/-- asm_rv32i/ascon.S:171-268 ascon_duplex -/
def rv32i_ascon_duplex : List Ins := [
  .jal none (24), -- 171
  .lw t4 a3 0, -- 174
  .lw t3 a3 4, -- 175
  .lw t6 a3 8, -- 176
  .lw t5 a3 12, -- 177
  .alu (.bit .xor s0 (.reg s0) (.reg t3)), -- 178
  .alu (.bit .xor s1 (.reg s1) (.reg t4)), -- 179
  .alu (.bit .xor s2 (.reg s2) (.reg t5)), -- 180
  .alu (.bit .xor s3 (.reg s3) (.reg t6)), -- 181
  .br .eq (.reg a7) (.imm 0) (5), -- 184
  .sw (.reg s1) a0 0, -- 185
  .sw (.reg s0) a0 4, -- 186
  .sw (.reg s3) a0 8, -- 187
  .sw (.reg s2) a0 12, -- 188
  .br .ge (.reg a7) (.imm 0) (5), -- 191
  .alu (.mov s0 (.reg t3)), -- 192
  .alu (.mov s1 (.reg t4)), -- 193
  .alu (.mov s2 (.reg t5)), -- 194
  .alu (.mov s3 (.reg t6)), -- 195
  .alu (.mov t1 (.imm 0xb4)), -- 198
  .jal (some t0) (-148), -- 199
  .alu (.add a0 (.reg a0) (.imm 0x10)), -- 201
  .alu (.add a3 (.reg a3) (.imm 0x10)), -- 202
  .alu (.add a4 (.reg a4) (.imm 0xfffffff0)), -- 203
  .alu (.mov t0 (.imm 0x10)), -- 206
  .br .ge (.reg a4) (.reg t0) (-24), -- 207
  .sw (.imm 0) sp 0, -- 210
  .sw (.imm 0) sp 4, -- 211
  .sw (.imm 0) sp 8, -- 212
  .sw (.imm 0) sp 12, -- 213
  .alu (.mov t1 (.reg sp)), -- 215
  .alu (.mov t2 (.reg a3)), -- 216
  .jal (some t0) (-41), -- 217
  .alu (.add t1 (.reg sp) (.reg a4)), -- 219
  .lbu t0 t1 0, -- 220
  .alu (.bit .xor t0 (.reg t0) (.imm 0x1)), -- 221
  .sb t0 t1 0, -- 222
  .lw t4 sp 0, -- 224
  .lw t3 sp 4, -- 225
  .lw t6 sp 8, -- 226
  .lw t5 sp 12, -- 227
  .alu (.bit .xor s0 (.reg s0) (.reg t3)), -- 228
  .alu (.bit .xor s1 (.reg s1) (.reg t4)), -- 229
  .alu (.bit .xor s2 (.reg s2) (.reg t5)), -- 230
  .alu (.bit .xor s3 (.reg s3) (.reg t6)), -- 231
  .br .eq (.reg a7) (.imm 0) (12), -- 234
  .alu (.mov t3 (.reg s0)), -- 236
  .alu (.mov t4 (.reg s1)), -- 237
  .alu (.mov t5 (.reg s2)), -- 238
  .alu (.mov t6 (.reg s3)), -- 239
  .sw (.reg t4) sp 0, -- 240
  .sw (.reg t3) sp 4, -- 241
  .sw (.reg t6) sp 8, -- 242
  .sw (.reg t5) sp 12, -- 243
  .alu (.mov t1 (.reg a0)), -- 245
  .alu (.mov t2 (.reg sp)), -- 246
  .jal (some t0) (-65), -- 247
  .br .ge (.reg a7) (.imm 0) (12), -- 250
  .alu (.mov t1 (.reg sp)), -- 252
  .alu (.mov t2 (.reg a3)), -- 253
  .jal (some t0) (-69), -- 254
  .lw t4 sp 0, -- 256
  .lw t3 sp 4, -- 257
  .lw t5 sp 8, -- 258
  .lw t6 sp 12, -- 259
  .alu (.mov s0 (.reg t3)), -- 260
  .alu (.mov s1 (.reg t4)), -- 261
  .alu (.mov s3 (.reg t5)), -- 262
  .alu (.mov s2 (.reg t6)), -- 263
  .alu (.add a0 (.reg a0) (.reg a4)), -- 266
  .alu (.add a3 (.reg a3) (.reg a4)), -- 267
  .jalr ra -- 268
]

/-- asm_rv32i/ascon.S:321-449 ascon_core -/
def rv32i_ascon_core : List Ins := [
  .alu (.add sp (.reg sp) (.imm 0xffffffb0)), -- 321
  .sw (.reg ra) sp 76, -- 322
  .sw (.reg s0) sp 72, -- 323
  .sw (.reg s1) sp 68, -- 324
  .sw (.reg s2) sp 64, -- 325
  .sw (.reg s3) sp 60, -- 326
  .sw (.reg s4) sp 56, -- 327
  .sw (.reg s5) sp 52, -- 328
  .sw (.reg s6) sp 48, -- 329
  .sw (.reg s7) sp 44, -- 330
  .sw (.reg s8) sp 40, -- 331
  .sw (.reg s9) sp 36, -- 332
  .sw (.reg s10) sp 32, -- 333
  .sw (.reg s11) sp 28, -- 334
  .alu (.mov a7 (.lsl a7 24)), -- 337
  .op2 .sra a7 (.reg a7) (.imm 0x18), -- 338
  .lw t4 a5 0, -- 340
  .lw t3 a5 4, -- 341
  .lw t6 a5 8, -- 342
  .lw t5 a5 12, -- 343
  .alu (.mov s6 (.reg t3)), -- 344
  .alu (.mov s7 (.reg t4)), -- 345
  .alu (.mov s8 (.reg t5)), -- 346
  .alu (.mov s9 (.reg t6)), -- 347
  .lw t4 a6 0, -- 349
  .lw t3 a6 4, -- 350
  .lw t6 a6 8, -- 351
  .lw t5 a6 12, -- 352
  .alu (.mov s10 (.reg t3)), -- 353
  .alu (.mov s11 (.reg t4)), -- 354
  .alu (.mov a5 (.reg t5)), -- 355
  .alu (.mov a6 (.reg t6)), -- 356
  .alu (.mov s0 (.imm 0x1000)), -- 358
  .alu (.mov s1 (.imm 0x808c0001)), -- 359
  .alu (.mov s2 (.reg s10)), -- 360
  .alu (.mov s3 (.reg s11)), -- 361
  .alu (.mov s4 (.reg a5)), -- 362
  .alu (.mov s5 (.reg a6)), -- 363
  .alu (.mov t1 (.imm 0xf0)), -- 365
  .jal (some t0) (-239), -- 366
  .alu (.bit .xor s6 (.reg s6) (.reg s10)), -- 368
  .alu (.bit .xor s7 (.reg s7) (.reg s11)), -- 369
  .alu (.bit .xor s8 (.reg s8) (.reg a5)), -- 370
  .alu (.bit .xor s9 (.reg s9) (.reg a6)), -- 371
  .br .eq (.reg a4) (.imm 0) (9), -- 373
  .sw (.reg a0) sp 20, -- 375
  .sw (.reg a7) sp 24, -- 376
  .alu (.mov a7 (.imm 0)), -- 377
  .jal (some ra) (-120), -- 378
  .lw a0 sp 20, -- 379
  .lw a7 sp 24, -- 380
  .alu (.mov t1 (.imm 0xb4)), -- 382
  .jal (some t0) (-252), -- 383
  .alu (.mov t0 (.imm 0x80000000)), -- 386
  .alu (.bit .xor s8 (.reg s8) (.reg t0)), -- 387
  .alu (.mov a3 (.reg a1)), -- 389
  .alu (.mov a4 (.reg a2)), -- 390
  .jal (some ra) (-129), -- 391
  .alu (.bit .xor s4 (.reg s4) (.reg s10)), -- 393
  .alu (.bit .xor s5 (.reg s5) (.reg s11)), -- 394
  .alu (.bit .xor s6 (.reg s6) (.reg a5)), -- 395
  .alu (.bit .xor s7 (.reg s7) (.reg a6)), -- 396
  .alu (.mov t1 (.imm 0xf0)), -- 398
  .jal (some t0) (-263), -- 399
  .alu (.bit .xor s6 (.reg s6) (.reg s10)), -- 401
  .alu (.bit .xor s7 (.reg s7) (.reg s11)), -- 402
  .alu (.bit .xor s8 (.reg s8) (.reg a5)), -- 403
  .alu (.bit .xor s9 (.reg s9) (.reg a6)), -- 404
  .br .ge (.reg a7) (.imm 0) (33), -- 406
  .alu (.bit .and t0 (.reg a3) (.imm 0xfffffffc)), -- 408
  .lw t4 t0 0, -- 408
  .lw t3 t0 4, -- 408
  .lw t6 t0 8, -- 408
  .lw t5 t0 12, -- 408
  .br .eq (.reg t0) (.reg a3) (17), -- 408
  .lw t0 t0 16, -- 408
  .alu (.bit .and t1 (.reg a3) (.imm 0x3)), -- 408
  .alu (.mov t1 (.lsl t1 3)), -- 408
  .alu (.sub t2 (.imm 0) (.reg t1)), -- 408
  .op2 .srl t4 (.reg t4) (.reg t1), -- 408
  .op2 .sll s10 (.reg t3) (.reg t2), -- 408
  .alu (.bit .or t4 (.reg t4) (.reg s10)), -- 408
  .op2 .srl t3 (.reg t3) (.reg t1), -- 408
  .op2 .sll s10 (.reg t6) (.reg t2), -- 408
  .alu (.bit .or t3 (.reg t3) (.reg s10)), -- 408
  .op2 .srl t6 (.reg t6) (.reg t1), -- 408
  .op2 .sll s10 (.reg t5) (.reg t2), -- 408
  .alu (.bit .or t6 (.reg t6) (.reg s10)), -- 408
  .op2 .srl t5 (.reg t5) (.reg t1), -- 408
  .op2 .sll s10 (.reg t0) (.reg t2), -- 408
  .alu (.bit .or t5 (.reg t5) (.reg s10)), -- 408
  .alu (.bit .xor t0 (.reg s6) (.reg t3)), -- 410
  .alu (.bit .xor t1 (.reg s7) (.reg t4)), -- 411
  .alu (.bit .xor t0 (.reg t0) (.reg t1)), -- 412
  .alu (.bit .xor t1 (.reg s8) (.reg t5)), -- 413
  .alu (.bit .xor t0 (.reg t0) (.reg t1)), -- 414
  .alu (.bit .xor t1 (.reg s9) (.reg t6)), -- 415
  .alu (.bit .xor t0 (.reg t0) (.reg t1)), -- 416
  .br .eq (.reg t0) (.imm 0) (35), -- 418
  .alu (.mov a0 (.imm 0xffffffff)), -- 419
  .jal none (34), -- 420
  .alu (.mov t3 (.reg s6)), -- 423
  .alu (.mov t4 (.reg s7)), -- 424
  .alu (.mov t5 (.reg s8)), -- 425
  .alu (.mov t6 (.reg s9)), -- 426
  .sb t4 a0 0, -- 427
  .alu (.mov t4 (.lsr t4 8)), -- 427
  .sb t4 a0 1, -- 427
  .alu (.mov t4 (.lsr t4 8)), -- 427
  .sb t4 a0 2, -- 427
  .alu (.mov t4 (.lsr t4 8)), -- 427
  .sb t4 a0 3, -- 427
  .sb t3 a0 4, -- 428
  .alu (.mov t3 (.lsr t3 8)), -- 428
  .sb t3 a0 5, -- 428
  .alu (.mov t3 (.lsr t3 8)), -- 428
  .sb t3 a0 6, -- 428
  .alu (.mov t3 (.lsr t3 8)), -- 428
  .sb t3 a0 7, -- 428
  .sb t6 a0 8, -- 429
  .alu (.mov t6 (.lsr t6 8)), -- 429
  .sb t6 a0 9, -- 429
  .alu (.mov t6 (.lsr t6 8)), -- 429
  .sb t6 a0 10, -- 429
  .alu (.mov t6 (.lsr t6 8)), -- 429
  .sb t6 a0 11, -- 429
  .sb t5 a0 12, -- 430
  .alu (.mov t5 (.lsr t5 8)), -- 430
  .sb t5 a0 13, -- 430
  .alu (.mov t5 (.lsr t5 8)), -- 430
  .sb t5 a0 14, -- 430
  .alu (.mov t5 (.lsr t5 8)), -- 430
  .sb t5 a0 15, -- 430
  .alu (.mov a0 (.imm 0x0)), -- 433
  .lw ra sp 76, -- 435
  .lw s0 sp 72, -- 436
  .lw s1 sp 68, -- 437
  .lw s2 sp 64, -- 438
  .lw s3 sp 60, -- 439
  .lw s4 sp 56, -- 440
  .lw s5 sp 52, -- 441
  .lw s6 sp 48, -- 442
  .lw s7 sp 44, -- 443
  .lw s8 sp 40, -- 444
  .lw s9 sp 36, -- 445
  .lw s10 sp 32, -- 446
  .lw s11 sp 28, -- 447
  .alu (.add sp (.reg sp) (.imm 0x50)), -- 448
  .jalr ra -- 449
]

/-- asm_rv32i/ascon.S, the whole file. -/
def rv32i_code : List Ins :=
  rv32i_ascon_permute ++ rv32i_ascon_permuteBody.map .alu ++ rv32i_ascon_permuteEnd ++ rv32i_ascon_memcpy ++ rv32i_ascon_duplex ++ rv32i_ascon_core

/-- Position of the label `ascon_permute` of asm_rv32i/ascon.S. -/
abbrev rv32i_L_ascon_permute : Nat := 0
/-- Position of the label `.LPloop` of asm_rv32i/ascon.S. -/
abbrev rv32i_L_LPloop : Nat := 1
/-- Position of the label `.LPend` of asm_rv32i/ascon.S. -/
abbrev rv32i_L_LPend : Nat := 118
/-- Position of the label `ascon_memcpy` of asm_rv32i/ascon.S. -/
abbrev rv32i_L_ascon_memcpy : Nat := 119
/-- Position of the label `.LMloop` of asm_rv32i/ascon.S. -/
abbrev rv32i_L_LMloop : Nat := 121
/-- Position of the label `.LMcond` of asm_rv32i/ascon.S. -/
abbrev rv32i_L_LMcond : Nat := 126
/-- Position of the label `.LMend` of asm_rv32i/ascon.S. -/
abbrev rv32i_L_LMend : Nat := 127
/-- Position of the label `ascon_duplex` of asm_rv32i/ascon.S. -/
abbrev rv32i_L_ascon_duplex : Nat := 128
/-- Position of the label `.LDloop` of asm_rv32i/ascon.S. -/
abbrev rv32i_L_LDloop : Nat := 129
/-- Position of the label `.LDsqueeze` of asm_rv32i/ascon.S. -/
abbrev rv32i_L_LDsqueeze : Nat := 137
/-- Position of the label `.LDreset` of asm_rv32i/ascon.S. -/
abbrev rv32i_L_LDreset : Nat := 142
/-- Position of the label `.LDpermute` of asm_rv32i/ascon.S. -/
abbrev rv32i_L_LDpermute : Nat := 147
/-- Position of the label `.LDcond` of asm_rv32i/ascon.S. -/
abbrev rv32i_L_LDcond : Nat := 152
/-- Position of the label `.LDend` of asm_rv32i/ascon.S. -/
abbrev rv32i_L_LDend : Nat := 154
/-- Position of the label `.LDendsqueeze` of asm_rv32i/ascon.S. -/
abbrev rv32i_L_LDendsqueeze : Nat := 173
/-- Position of the label `.LDendreset` of asm_rv32i/ascon.S. -/
abbrev rv32i_L_LDendreset : Nat := 185
/-- Position of the label `.LDreturn` of asm_rv32i/ascon.S. -/
abbrev rv32i_L_LDreturn : Nat := 197
/-- Position of the label `ascon_core` of asm_rv32i/ascon.S. -/
abbrev rv32i_L_ascon_core : Nat := 200
/-- Position of the label `.LCskipad` of asm_rv32i/ascon.S. -/
abbrev rv32i_L_LCskipad : Nat := 253
/-- Position of the label `.LCdecrypt` of asm_rv32i/ascon.S. -/
abbrev rv32i_L_LCdecrypt : Nat := 269
/-- Position of the label `.LCencrypt` of asm_rv32i/ascon.S. -/
abbrev rv32i_L_LCencrypt : Nat := 301
/-- Position of the label `.LCzeroreturn` of asm_rv32i/ascon.S. -/
abbrev rv32i_L_LCzeroreturn : Nat := 333
/-- Position of the label `.LCreturn` of asm_rv32i/ascon.S. -/
abbrev rv32i_L_LCreturn : Nat := 334

/-- asm_rv32b/ascon.S:118-118 ascon_permute -/
def rv32b_ascon_permute : List Ins := [
  .alu (.mov t6 (.imm 0x4b)) -- 118
]

/-- asm_rv32b/ascon.S:121-132 ascon_permute -/
def rv32b_ascon_permuteBody : List (Instr 32) := [
  .bit .xor s5 (.reg s5) (.reg t1), -- 121
  .bit .xor t3 (.reg s1) (.reg s9), -- 124
  .bit .xor t5 (.reg s7) (.reg s9), -- 124
  .bit .xor t4 (.reg s3) (.reg s5), -- 124
  .bit .orn s9 (.reg s7) (.reg s9), -- 124
  .bit .xor s9 (.reg s9) (.reg t4), -- 124
  .bit .xor s7 (.reg s7) (.reg s3), -- 124
  .bit .or s7 (.reg s7) (.reg t4), -- 124
  .bit .xor s7 (.reg s7) (.reg t3), -- 124
  .bit .xor s5 (.reg s5) (.reg t3), -- 124
  .bit .or s5 (.reg s5) (.reg s3), -- 124
  .bit .xor s5 (.reg s5) (.reg t5), -- 124
  .bit .or s1 (.reg s1) (.reg t5), -- 124
  .bit .xor t4 (.reg t4) (.reg s1), -- 124
  .bit .andn s3 (.reg s3) (.reg t3), -- 124
  .bit .xor s3 (.reg s3) (.reg t5), -- 124
  .bit .xor s1 (.reg s0) (.reg s8), -- 125
  .bit .xor t5 (.reg s6) (.reg s8), -- 125
  .bit .xor t3 (.reg s2) (.reg s4), -- 125
  .bit .orn s8 (.reg s6) (.reg s8), -- 125
  .bit .xor s8 (.reg s8) (.reg t3), -- 125
  .bit .xor s6 (.reg s6) (.reg s2), -- 125
  .bit .or s6 (.reg s6) (.reg t3), -- 125
  .bit .xor s6 (.reg s6) (.reg s1), -- 125
  .bit .xor s4 (.reg s4) (.reg s1), -- 125
  .bit .or s4 (.reg s4) (.reg s2), -- 125
  .bit .xor s4 (.reg s4) (.reg t5), -- 125
  .bit .or s0 (.reg s0) (.reg t5), -- 125
  .bit .xor t3 (.reg t3) (.reg s0), -- 125
  .bit .andn s2 (.reg s2) (.reg s1), -- 125
  .bit .xor s2 (.reg s2) (.reg t5), -- 125
  .mov s0 (.lsl s5 13), -- 128
  .mov t5 (.lsr s4 19), -- 128
  .bit .xor s0 (.reg s0) (.reg t5), -- 128
  .mov t5 (.lsl s5 4), -- 128
  .bit .xor s0 (.reg s0) (.reg t5), -- 128
  .mov t5 (.lsr s4 28), -- 128
  .bit .xor s0 (.reg s0) (.reg t5), -- 128
  .mov s1 (.lsl s4 13), -- 128
  .mov t5 (.lsr s5 19), -- 128
  .bit .xor s1 (.reg s1) (.reg t5), -- 128
  .mov t5 (.lsl s4 4), -- 128
  .bit .xor s1 (.reg s1) (.reg t5), -- 128
  .mov t5 (.lsr s5 28), -- 128
  .bit .xor s1 (.reg s1) (.reg t5), -- 128
  .bit .xor s1 (.reg s1) (.reg s5), -- 128
  .bit .xor s0 (.reg s0) (.reg s4), -- 128
  .mov s4 (.lsl s9 31), -- 129
  .mov t5 (.lsr s8 1), -- 129
  .bit .xor s4 (.reg s4) (.reg t5), -- 129
  .mov t5 (.lsl s9 26), -- 129
  .bit .xor s4 (.reg s4) (.reg t5), -- 129
  .mov t5 (.lsr s8 6), -- 129
  .bit .xor s4 (.reg s4) (.reg t5), -- 129
  .mov s5 (.lsl s8 31), -- 129
  .mov t5 (.lsr s9 1), -- 129
  .bit .xor s5 (.reg s5) (.reg t5), -- 129
  .mov t5 (.lsl s8 26), -- 129
  .bit .xor s5 (.reg s5) (.reg t5), -- 129
  .mov t5 (.lsr s9 6), -- 129
  .bit .xor s5 (.reg s5) (.reg t5), -- 129
  .bit .xor s5 (.reg s5) (.reg s9), -- 129
  .bit .xor s4 (.reg s4) (.reg s8), -- 129
  .mov s8 (.lsl s3 25), -- 130
  .mov t5 (.lsr s2 7), -- 130
  .bit .xor s8 (.reg s8) (.reg t5), -- 130
  .mov t5 (.lsl s2 23), -- 130
  .bit .xor s8 (.reg s8) (.reg t5), -- 130
  .mov t5 (.lsr s3 9), -- 130
  .bit .xor s8 (.reg s8) (.reg t5), -- 130
  .mov s9 (.lsl s2 25), -- 130
  .mov t5 (.lsr s3 7), -- 130
  .bit .xor s9 (.reg s9) (.reg t5), -- 130
  .mov t5 (.lsl s3 23), -- 130
  .bit .xor s9 (.reg s9) (.reg t5), -- 130
  .mov t5 (.lsr s2 9), -- 130
  .bit .xor s9 (.reg s9) (.reg t5), -- 130
  .bit .xor s9 (.reg s9) (.reg s3), -- 130
  .bit .xor s8 (.reg s8) (.reg s2), -- 130
  .mov s2 (.lsl s6 3), -- 131
  .mov t5 (.lsr s7 29), -- 131
  .bit .xor s2 (.reg s2) (.reg t5), -- 131
  .mov t5 (.lsl s6 25), -- 131
  .bit .xor s2 (.reg s2) (.reg t5), -- 131
  .mov t5 (.lsr s7 7), -- 131
  .bit .xor s2 (.reg s2) (.reg t5), -- 131
  .mov s3 (.lsl s7 3), -- 131
  .mov t5 (.lsr s6 29), -- 131
  .bit .xor s3 (.reg s3) (.reg t5), -- 131
  .mov t5 (.lsl s7 25), -- 131
  .bit .xor s3 (.reg s3) (.reg t5), -- 131
  .mov t5 (.lsr s6 7), -- 131
  .bit .xor s3 (.reg s3) (.reg t5), -- 131
  .bit .xor s3 (.reg s3) (.reg s7), -- 131
  .bit .xor s2 (.reg s2) (.reg s6), -- 131
  .mov s6 (.lsl t4 22), -- 132
  .mov t5 (.lsr t3 10), -- 132
  .bit .xor s6 (.reg s6) (.reg t5), -- 132
  .mov t5 (.lsl t4 15), -- 132
  .bit .xor s6 (.reg s6) (.reg t5), -- 132
  .mov t5 (.lsr t3 17), -- 132
  .bit .xor s6 (.reg s6) (.reg t5), -- 132
  .mov s7 (.lsl t3 22), -- 132
  .mov t5 (.lsr t4 10), -- 132
  .bit .xor s7 (.reg s7) (.reg t5), -- 132
  .mov t5 (.lsl t3 15), -- 132
  .bit .xor s7 (.reg s7) (.reg t5), -- 132
  .mov t5 (.lsr t4 17), -- 132
  .bit .xor s7 (.reg s7) (.reg t5), -- 132
  .bit .xor s7 (.reg s7) (.reg t4), -- 132
  .bit .xor s6 (.reg s6) (.reg t3) -- 132
]

/-- asm_rv32b/ascon.S:135-139 ascon_permute -/
def rv32b_ascon_permuteEnd : List Ins := [
  .alu (.add t1 (.reg t1) (.imm 0xfffffff1)), -- 135
  .br .ge (.reg t1) (.reg t6) (-112), -- 136
  .jalr t0 -- 139
]

/-- asm_rv32b/ascon.S:149-153 ascon_rev8 -/
def rv32b_ascon_rev8 : List Ins := [
  .op1 .rev8 t3 t3, -- 149
  .op1 .rev8 t4 t4, -- 150
  .op1 .rev8 t5 t5, -- 151
  .op1 .rev8 t6 t6, -- 152
  .jalr t0 -- 153
]

/-- asm_rv32b/ascon.S:165-176 ascon_memcpy -/
def rv32b_ascon_memcpy : List Ins := [
  .alu (.mov t3 (.imm 0x0)), -- 165
  .jal none (6), -- 166
  .lbu t4 t2 0, -- 168
  .sb t4 t1 0, -- 169
  .alu (.add t1 (.reg t1) (.imm 0x1)), -- 170
  .alu (.add t2 (.reg t2) (.imm 0x1)), -- 171
  .alu (.add t3 (.reg t3) (.imm 0x1)), -- 172
  .br .lt (.reg t3) (.reg a4) (-5), -- 174
  .jalr t0 -- 176
]

/-- asm_rv32b/ascon.S:182-290 ascon_duplex -/
def rv32b_ascon_duplex : List Ins := [
  .jal none (29), -- 182
  .lw t3 a3 0, -- 185
  .lw t4 a3 4, -- 186
  .lw t5 a3 8, -- 187
  .lw t6 a3 12, -- 188
  .jal (some t0) (-19), -- 189
  .alu (.bit .xor s0 (.reg s0) (.reg t3)), -- 190
  .alu (.bit .xor s1 (.reg s1) (.reg t4)), -- 191
  .alu (.bit .xor s2 (.reg s2) (.reg t5)), -- 192
  .alu (.bit .xor s3 (.reg s3) (.reg t6)), -- 193
  .br .eq (.reg a7) (.imm 0) (9), -- 196
  .op1 .rev8 t0 s0, -- 200
  .sw (.reg t0) a0 0, -- 201
  .op1 .rev8 t0 s1, -- 202
  .sw (.reg t0) a0 4, -- 203
  .op1 .rev8 t0 s2, -- 204
  .sw (.reg t0) a0 8, -- 205
  .op1 .rev8 t0 s3, -- 206
  .sw (.reg t0) a0 12, -- 207
  .br .ge (.reg a7) (.imm 0) (5), -- 210
  .alu (.mov s0 (.reg t3)), -- 211
  .alu (.mov s1 (.reg t4)), -- 212
  .alu (.mov s2 (.reg t5)), -- 213
  .alu (.mov s3 (.reg t6)), -- 214
  .alu (.mov t1 (.imm 0xb4)), -- 217
  .jal (some t0) (-154), -- 218
  .alu (.add a0 (.reg a0) (.imm 0x10)), -- 220
  .alu (.add a3 (.reg a3) (.imm 0x10)), -- 221
  .alu (.add a4 (.reg a4) (.imm 0xfffffff0)), -- 222
  .alu (.mov t0 (.imm 0x10)), -- 225
  .br .ge (.reg a4) (.reg t0) (-29), -- 226
  .sw (.imm 0) sp 0, -- 229
  .sw (.imm 0) sp 4, -- 230
  .sw (.imm 0) sp 8, -- 231
  .sw (.imm 0) sp 12, -- 232
  .alu (.mov t1 (.reg sp)), -- 234
  .alu (.mov t2 (.reg a3)), -- 235
  .jal (some t0) (-46), -- 236
  .alu (.add t1 (.reg sp) (.reg a4)), -- 238
  .lbu t0 t1 0, -- 239
  .alu (.bit .xor t0 (.reg t0) (.imm 0x80)), -- 240
  .sb t0 t1 0, -- 241
  .lw t3 sp 0, -- 243
  .lw t4 sp 4, -- 244
  .lw t5 sp 8, -- 245
  .lw t6 sp 12, -- 246
  .jal (some t0) (-60), -- 247
  .alu (.bit .xor s0 (.reg s0) (.reg t3)), -- 248
  .alu (.bit .xor s1 (.reg s1) (.reg t4)), -- 249
  .alu (.bit .xor s2 (.reg s2) (.reg t5)), -- 250
  .alu (.bit .xor s3 (.reg s3) (.reg t6)), -- 251
  .br .eq (.reg a7) (.imm 0) (13), -- 254
  .alu (.mov t3 (.reg s0)), -- 256
  .alu (.mov t4 (.reg s1)), -- 257
  .alu (.mov t5 (.reg s2)), -- 258
  .alu (.mov t6 (.reg s3)), -- 259
  .jal (some t0) (-70), -- 260
  .sw (.reg t3) sp 0, -- 261
  .sw (.reg t4) sp 4, -- 262
  .sw (.reg t5) sp 8, -- 263
  .sw (.reg t6) sp 12, -- 264
  .alu (.mov t1 (.reg a0)), -- 266
  .alu (.mov t2 (.reg sp)), -- 267
  .jal (some t0) (-72), -- 268
  .br .ge (.reg a7) (.imm 0) (13), -- 271
  .alu (.mov t1 (.reg sp)), -- 273
  .alu (.mov t2 (.reg a3)), -- 274
  .jal (some t0) (-76), -- 275
  .lw t3 sp 0, -- 277
  .lw t4 sp 4, -- 278
  .lw t5 sp 8, -- 279
  .lw t6 sp 12, -- 280
  .jal (some t0) (-86), -- 281
  .alu (.mov s0 (.reg t3)), -- 282
  .alu (.mov s1 (.reg t4)), -- 283
  .alu (.mov s2 (.reg t5)), -- 284
  .alu (.mov s3 (.reg t6)), -- 285
  .alu (.add a0 (.reg a0) (.reg a4)), -- 288
  .alu (.add a3 (.reg a3) (.reg a4)), -- 289
  .jalr ra -- 290
]

/-- asm_rv32b/ascon.S:343-474 ascon_core -/
def rv32b_ascon_core : List Ins := [
  .alu (.add sp (.reg sp) (.imm 0xffffffb0)), -- 343
  .sw (.reg ra) sp 76, -- 344
  .sw (.reg s0) sp 72, -- 345
  .sw (.reg s1) sp 68, -- 346
  .sw (.reg s2) sp 64, -- 347
  .sw (.reg s3) sp 60, -- 348
  .sw (.reg s4) sp 56, -- 349
  .sw (.reg s5) sp 52, -- 350
  .sw (.reg s6) sp 48, -- 351
  .sw (.reg s7) sp 44, -- 352
  .sw (.reg s8) sp 40, -- 353
  .sw (.reg s9) sp 36, -- 354
  .sw (.reg s10) sp 32, -- 355
  .sw (.reg s11) sp 28, -- 356
  .alu (.mov a7 (.lsl a7 24)), -- 359
  .op2 .sra a7 (.reg a7) (.imm 0x18), -- 360
  .lw t3 a5 0, -- 362
  .lw t4 a5 4, -- 363
  .lw t5 a5 8, -- 364
  .lw t6 a5 12, -- 365
  .jal (some t0) (-114), -- 366
  .alu (.mov s6 (.reg t3)), -- 367
  .alu (.mov s7 (.reg t4)), -- 368
  .alu (.mov s8 (.reg t5)), -- 369
  .alu (.mov s9 (.reg t6)), -- 370
  .lw t3 a6 0, -- 372
  .lw t4 a6 4, -- 373
  .lw t5 a6 8, -- 374
  .lw t6 a6 12, -- 375
  .jal (some t0) (-123), -- 376
  .alu (.mov s10 (.reg t3)), -- 377
  .alu (.mov s11 (.reg t4)), -- 378
  .alu (.mov a5 (.reg t5)), -- 379
  .alu (.mov a6 (.reg t6)), -- 380
  .alu (.mov s0 (.imm 0x80800c08)), -- 382
  .alu (.mov s1 (.imm 0x0)), -- 383
  .alu (.mov s2 (.reg s10)), -- 384
  .alu (.mov s3 (.reg s11)), -- 385
  .alu (.mov s4 (.reg a5)), -- 386
  .alu (.mov s5 (.reg a6)), -- 387
  .alu (.mov t1 (.imm 0xf0)), -- 389
  .jal (some t0) (-250), -- 390
  .alu (.bit .xor s6 (.reg s6) (.reg s10)), -- 392
  .alu (.bit .xor s7 (.reg s7) (.reg s11)), -- 393
  .alu (.bit .xor s8 (.reg s8) (.reg a5)), -- 394
  .alu (.bit .xor s9 (.reg s9) (.reg a6)), -- 395
  .br .eq (.reg a4) (.imm 0) (9), -- 397
  .sw (.reg a0) sp 20, -- 399
  .sw (.reg a7) sp 24, -- 400
  .alu (.mov a7 (.imm 0)), -- 401
  .jal (some ra) (-130), -- 402
  .lw a0 sp 20, -- 403
  .lw a7 sp 24, -- 404
  .alu (.mov t1 (.imm 0xb4)), -- 406
  .jal (some t0) (-263), -- 407
  .alu (.bit .xor s9 (.reg s9) (.imm 0x1)), -- 410
  .alu (.mov a3 (.reg a1)), -- 412
  .alu (.mov a4 (.reg a2)), -- 413
  .jal (some ra) (-138), -- 414
  .alu (.bit .xor s4 (.reg s4) (.reg s10)), -- 416
  .alu (.bit .xor s5 (.reg s5) (.reg s11)), -- 417
  .alu (.bit .xor s6 (.reg s6) (.reg a5)), -- 418
  .alu (.bit .xor s7 (.reg s7) (.reg a6)), -- 419
  .alu (.mov t1 (.imm 0xf0)), -- 421
  .jal (some t0) (-273), -- 422
  .alu (.bit .xor s6 (.reg s6) (.reg s10)), -- 424
  .alu (.bit .xor s7 (.reg s7) (.reg s11)), -- 425
  .alu (.bit .xor s8 (.reg s8) (.reg a5)), -- 426
  .alu (.bit .xor s9 (.reg s9) (.reg a6)), -- 427
  .br .ge (.reg a7) (.imm 0) (34), -- 429
  .alu (.bit .and t0 (.reg a3) (.imm 0xfffffffc)), -- 431
  .lw t3 t0 0, -- 431
  .lw t4 t0 4, -- 431
  .lw t5 t0 8, -- 431
  .lw t6 t0 12, -- 431
  .br .eq (.reg t0) (.reg a3) (17), -- 431
  .lw t0 t0 16, -- 431
  .alu (.bit .and t1 (.reg a3) (.imm 0x3)), -- 431
  .alu (.mov t1 (.lsl t1 3)), -- 431
  .alu (.sub t2 (.imm 0) (.reg t1)), -- 431
  .op2 .srl t3 (.reg t3) (.reg t1), -- 431
  .op2 .sll s10 (.reg t4) (.reg t2), -- 431
  .alu (.bit .or t3 (.reg t3) (.reg s10)), -- 431
  .op2 .srl t4 (.reg t4) (.reg t1), -- 431
  .op2 .sll s10 (.reg t5) (.reg t2), -- 431
  .alu (.bit .or t4 (.reg t4) (.reg s10)), -- 431
  .op2 .srl t5 (.reg t5) (.reg t1), -- 431
  .op2 .sll s10 (.reg t6) (.reg t2), -- 431
  .alu (.bit .or t5 (.reg t5) (.reg s10)), -- 431
  .op2 .srl t6 (.reg t6) (.reg t1), -- 431
  .op2 .sll s10 (.reg t0) (.reg t2), -- 431
  .alu (.bit .or t6 (.reg t6) (.reg s10)), -- 431
  .jal (some t0) (-186), -- 432
  .alu (.bit .xor t0 (.reg s6) (.reg t3)), -- 434
  .alu (.bit .xor t1 (.reg s7) (.reg t4)), -- 435
  .alu (.bit .xor t0 (.reg t0) (.reg t1)), -- 436
  .alu (.bit .xor t1 (.reg s8) (.reg t5)), -- 437
  .alu (.bit .xor t0 (.reg t0) (.reg t1)), -- 438
  .alu (.bit .xor t1 (.reg s9) (.reg t6)), -- 439
  .alu (.bit .xor t0 (.reg t0) (.reg t1)), -- 440
  .br .eq (.reg t0) (.imm 0) (36), -- 442
  .alu (.mov a0 (.imm 0xffffffff)), -- 443
  .jal none (35), -- 444
  .alu (.mov t3 (.reg s6)), -- 447
  .alu (.mov t4 (.reg s7)), -- 448
  .alu (.mov t5 (.reg s8)), -- 449
  .alu (.mov t6 (.reg s9)), -- 450
  .jal (some t0) (-201), -- 451
  .sb t3 a0 0, -- 452
  .alu (.mov t3 (.lsr t3 8)), -- 452
  .sb t3 a0 1, -- 452
  .alu (.mov t3 (.lsr t3 8)), -- 452
  .sb t3 a0 2, -- 452
  .alu (.mov t3 (.lsr t3 8)), -- 452
  .sb t3 a0 3, -- 452
  .sb t4 a0 4, -- 453
  .alu (.mov t4 (.lsr t4 8)), -- 453
  .sb t4 a0 5, -- 453
  .alu (.mov t4 (.lsr t4 8)), -- 453
  .sb t4 a0 6, -- 453
  .alu (.mov t4 (.lsr t4 8)), -- 453
  .sb t4 a0 7, -- 453
  .sb t5 a0 8, -- 454
  .alu (.mov t5 (.lsr t5 8)), -- 454
  .sb t5 a0 9, -- 454
  .alu (.mov t5 (.lsr t5 8)), -- 454
  .sb t5 a0 10, -- 454
  .alu (.mov t5 (.lsr t5 8)), -- 454
  .sb t5 a0 11, -- 454
  .sb t6 a0 12, -- 455
  .alu (.mov t6 (.lsr t6 8)), -- 455
  .sb t6 a0 13, -- 455
  .alu (.mov t6 (.lsr t6 8)), -- 455
  .sb t6 a0 14, -- 455
  .alu (.mov t6 (.lsr t6 8)), -- 455
  .sb t6 a0 15, -- 455
  .alu (.mov a0 (.imm 0x0)), -- 458
  .lw ra sp 76, -- 460
  .lw s0 sp 72, -- 461
  .lw s1 sp 68, -- 462
  .lw s2 sp 64, -- 463
  .lw s3 sp 60, -- 464
  .lw s4 sp 56, -- 465
  .lw s5 sp 52, -- 466
  .lw s6 sp 48, -- 467
  .lw s7 sp 44, -- 468
  .lw s8 sp 40, -- 469
  .lw s9 sp 36, -- 470
  .lw s10 sp 32, -- 471
  .lw s11 sp 28, -- 472
  .alu (.add sp (.reg sp) (.imm 0x50)), -- 473
  .jalr ra -- 474
]

/-- asm_rv32b/ascon.S, the whole file. -/
def rv32b_code : List Ins :=
  rv32b_ascon_permute ++ rv32b_ascon_permuteBody.map .alu ++ rv32b_ascon_permuteEnd ++ rv32b_ascon_rev8 ++ rv32b_ascon_memcpy ++ rv32b_ascon_duplex ++ rv32b_ascon_core

/-- Position of the label `ascon_permute` of asm_rv32b/ascon.S. -/
abbrev rv32b_L_ascon_permute : Nat := 0
/-- Position of the label `.LPloop` of asm_rv32b/ascon.S. -/
abbrev rv32b_L_LPloop : Nat := 1
/-- Position of the label `.LPend` of asm_rv32b/ascon.S. -/
abbrev rv32b_L_LPend : Nat := 114
/-- Position of the label `ascon_rev8` of asm_rv32b/ascon.S. -/
abbrev rv32b_L_ascon_rev8 : Nat := 115
/-- Position of the label `ascon_memcpy` of asm_rv32b/ascon.S. -/
abbrev rv32b_L_ascon_memcpy : Nat := 120
/-- Position of the label `.LMloop` of asm_rv32b/ascon.S. -/
abbrev rv32b_L_LMloop : Nat := 122
/-- Position of the label `.LMcond` of asm_rv32b/ascon.S. -/
abbrev rv32b_L_LMcond : Nat := 127
/-- Position of the label `.LMend` of asm_rv32b/ascon.S. -/
abbrev rv32b_L_LMend : Nat := 128
/-- Position of the label `ascon_duplex` of asm_rv32b/ascon.S. -/
abbrev rv32b_L_ascon_duplex : Nat := 129
/-- Position of the label `.LDloop` of asm_rv32b/ascon.S. -/
abbrev rv32b_L_LDloop : Nat := 130
/-- Position of the label `.LDsqueeze` of asm_rv32b/ascon.S. -/
abbrev rv32b_L_LDsqueeze : Nat := 139
/-- Position of the label `.LDreset` of asm_rv32b/ascon.S. -/
abbrev rv32b_L_LDreset : Nat := 148
/-- Position of the label `.LDpermute` of asm_rv32b/ascon.S. -/
abbrev rv32b_L_LDpermute : Nat := 153
/-- Position of the label `.LDcond` of asm_rv32b/ascon.S. -/
abbrev rv32b_L_LDcond : Nat := 158
/-- Position of the label `.LDend` of asm_rv32b/ascon.S. -/
abbrev rv32b_L_LDend : Nat := 160
/-- Position of the label `.LDendsqueeze` of asm_rv32b/ascon.S. -/
abbrev rv32b_L_LDendsqueeze : Nat := 180
/-- Position of the label `.LDendreset` of asm_rv32b/ascon.S. -/
abbrev rv32b_L_LDendreset : Nat := 193
/-- Position of the label `.LDreturn` of asm_rv32b/ascon.S. -/
abbrev rv32b_L_LDreturn : Nat := 206
/-- Position of the label `ascon_core` of asm_rv32b/ascon.S. -/
abbrev rv32b_L_ascon_core : Nat := 209
/-- Position of the label `.LCskipad` of asm_rv32b/ascon.S. -/
abbrev rv32b_L_LCskipad : Nat := 264
/-- Position of the label `.LCdecrypt` of asm_rv32b/ascon.S. -/
abbrev rv32b_L_LCdecrypt : Nat := 279
/-- Position of the label `.LCencrypt` of asm_rv32b/ascon.S. -/
abbrev rv32b_L_LCencrypt : Nat := 312
/-- Position of the label `.LCzeroreturn` of asm_rv32b/ascon.S. -/
abbrev rv32b_L_LCzeroreturn : Nat := 345
/-- Position of the label `.LCreturn` of asm_rv32b/ascon.S. -/
abbrev rv32b_L_LCreturn : Nat := 346

/-- asm_fsr_rv32b/ascon.S:110-110 ascon_permute -/
def fsr_ascon_permute : List Ins := [
  .alu (.mov t6 (.imm 0x4b)) -- 110
]

/-- asm_fsr_rv32b/ascon.S:113-124 ascon_permute -/
def fsr_ascon_permuteBody : List (Instr 32) := [
  .bit .xor s5 (.reg s5) (.reg t1), -- 113
  .bit .xor t3 (.reg s1) (.reg s9), -- 116
  .bit .xor t5 (.reg s7) (.reg s9), -- 116
  .bit .xor t4 (.reg s3) (.reg s5), -- 116
  .bit .orn s9 (.reg s7) (.reg s9), -- 116
  .bit .xor s9 (.reg s9) (.reg t4), -- 116
  .bit .xor s7 (.reg s7) (.reg s3), -- 116
  .bit .or s7 (.reg s7) (.reg t4), -- 116
  .bit .xor s7 (.reg s7) (.reg t3), -- 116
  .bit .xor s5 (.reg s5) (.reg t3), -- 116
  .bit .or s5 (.reg s5) (.reg s3), -- 116
  .bit .xor s5 (.reg s5) (.reg t5), -- 116
  .bit .or s1 (.reg s1) (.reg t5), -- 116
  .bit .xor t4 (.reg t4) (.reg s1), -- 116
  .bit .andn s3 (.reg s3) (.reg t3), -- 116
  .bit .xor s3 (.reg s3) (.reg t5), -- 116
  .bit .xor s1 (.reg s0) (.reg s8), -- 117
  .bit .xor t5 (.reg s6) (.reg s8), -- 117
  .bit .xor t3 (.reg s2) (.reg s4), -- 117
  .bit .orn s8 (.reg s6) (.reg s8), -- 117
  .bit .xor s8 (.reg s8) (.reg t3), -- 117
  .bit .xor s6 (.reg s6) (.reg s2), -- 117
  .bit .or s6 (.reg s6) (.reg t3), -- 117
  .bit .xor s6 (.reg s6) (.reg s1), -- 117
  .bit .xor s4 (.reg s4) (.reg s1), -- 117
  .bit .or s4 (.reg s4) (.reg s2), -- 117
  .bit .xor s4 (.reg s4) (.reg t5), -- 117
  .bit .or s0 (.reg s0) (.reg t5), -- 117
  .bit .xor t3 (.reg t3) (.reg s0), -- 117
  .bit .andn s2 (.reg s2) (.reg s1), -- 117
  .bit .xor s2 (.reg s2) (.reg t5), -- 117
  .fsr s1 s5 s4 19, -- 120
  .fsr s0 s4 s5 19, -- 120
  .bit .xor s1 (.reg s1) (.reg s5), -- 120
  .bit .xor s0 (.reg s0) (.reg s4), -- 120
  .fsr t5 s5 s4 28, -- 120
  .fsr s4 s4 s5 28, -- 120
  .bit .xor s1 (.reg s1) (.reg t5), -- 120
  .bit .xor s0 (.reg s0) (.reg s4), -- 120
  .fsr s5 s9 s8 1, -- 121
  .fsr s4 s8 s9 1, -- 121
  .bit .xor s5 (.reg s5) (.reg s9), -- 121
  .bit .xor s4 (.reg s4) (.reg s8), -- 121
  .fsr t5 s9 s8 6, -- 121
  .fsr s8 s8 s9 6, -- 121
  .bit .xor s5 (.reg s5) (.reg t5), -- 121
  .bit .xor s4 (.reg s4) (.reg s8), -- 121
  .fsr s9 s3 s2 7, -- 122
  .fsr s8 s2 s3 7, -- 122
  .bit .xor s9 (.reg s9) (.reg s3), -- 122
  .bit .xor s8 (.reg s8) (.reg s2), -- 122
  .fsr t5 s2 s3 9, -- 122
  .fsr s2 s3 s2 9, -- 122
  .bit .xor s9 (.reg s9) (.reg t5), -- 122
  .bit .xor s8 (.reg s8) (.reg s2), -- 122
  .fsr s3 s6 s7 29, -- 123
  .fsr s2 s7 s6 29, -- 123
  .bit .xor s3 (.reg s3) (.reg s7), -- 123
  .bit .xor s2 (.reg s2) (.reg s6), -- 123
  .fsr t5 s6 s7 7, -- 123
  .fsr s6 s7 s6 7, -- 123
  .bit .xor s3 (.reg s3) (.reg t5), -- 123
  .bit .xor s2 (.reg s2) (.reg s6), -- 123
  .fsr s7 t4 t3 10, -- 124
  .fsr s6 t3 t4 10, -- 124
  .bit .xor s7 (.reg s7) (.reg t4), -- 124
  .bit .xor s6 (.reg s6) (.reg t3), -- 124
  .fsr t5 t4 t3 17, -- 124
  .fsr t3 t3 t4 17, -- 124
  .bit .xor s7 (.reg s7) (.reg t5), -- 124
  .bit .xor s6 (.reg s6) (.reg t3) -- 124
]

/-- asm_fsr_rv32b/ascon.S:127-131 ascon_permute -/
def fsr_ascon_permuteEnd : List Ins := [
  .alu (.add t1 (.reg t1) (.imm 0xfffffff1)), -- 127
  .br .ge (.reg t1) (.reg t6) (-72), -- 128
  .jalr t0 -- 131
]

/-- asm_fsr_rv32b/ascon.S:141-145 ascon_rev8 -/
def fsr_ascon_rev8 : List Ins := [
  .op1 .rev8 t3 t3, -- 141
  .op1 .rev8 t4 t4, -- 142
  .op1 .rev8 t5 t5, -- 143
  .op1 .rev8 t6 t6, -- 144
  .jalr t0 -- 145
]

/-- asm_fsr_rv32b/ascon.S:157-168 ascon_memcpy -/
def fsr_ascon_memcpy : List Ins := [
  .alu (.mov t3 (.imm 0x0)), -- 157
  .jal none (6), -- 158
  .lbu t4 t2 0, -- 160
  .sb t4 t1 0, -- 161
  .alu (.add t1 (.reg t1) (.imm 0x1)), -- 162
  .alu (.add t2 (.reg t2) (.imm 0x1)), -- 163
  .alu (.add t3 (.reg t3) (.imm 0x1)), -- 164
  .br .lt (.reg t3) (.reg a4) (-5), -- 166
  .jalr t0 -- 168
]

/-- asm_fsr_rv32b/ascon.S:174-282 ascon_duplex -/
def fsr_ascon_duplex : List Ins := [
  .jal none (29), -- 174
  .lw t3 a3 0, -- 177
  .lw t4 a3 4, -- 178
  .lw t5 a3 8, -- 179
  .lw t6 a3 12, -- 180
  .jal (some t0) (-19), -- 181
  .alu (.bit .xor s0 (.reg s0) (.reg t3)), -- 182
  .alu (.bit .xor s1 (.reg s1) (.reg t4)), -- 183
  .alu (.bit .xor s2 (.reg s2) (.reg t5)), -- 184
  .alu (.bit .xor s3 (.reg s3) (.reg t6)), -- 185
  .br .eq (.reg a7) (.imm 0) (9), -- 188
  .op1 .rev8 t0 s0, -- 192
  .sw (.reg t0) a0 0, -- 193
  .op1 .rev8 t0 s1, -- 194
  .sw (.reg t0) a0 4, -- 195
  .op1 .rev8 t0 s2, -- 196
  .sw (.reg t0) a0 8, -- 197
  .op1 .rev8 t0 s3, -- 198
  .sw (.reg t0) a0 12, -- 199
  .br .ge (.reg a7) (.imm 0) (5), -- 202
  .alu (.mov s0 (.reg t3)), -- 203
  .alu (.mov s1 (.reg t4)), -- 204
  .alu (.mov s2 (.reg t5)), -- 205
  .alu (.mov s3 (.reg t6)), -- 206
  .alu (.mov t1 (.imm 0xb4)), -- 209
  .jal (some t0) (-114), -- 210
  .alu (.add a0 (.reg a0) (.imm 0x10)), -- 212
  .alu (.add a3 (.reg a3) (.imm 0x10)), -- 213
  .alu (.add a4 (.reg a4) (.imm 0xfffffff0)), -- 214
  .alu (.mov t0 (.imm 0x10)), -- 217
  .br .ge (.reg a4) (.reg t0) (-29), -- 218
  .sw (.imm 0) sp 0, -- 221
  .sw (.imm 0) sp 4, -- 222
  .sw (.imm 0) sp 8, -- 223
  .sw (.imm 0) sp 12, -- 224
  .alu (.mov t1 (.reg sp)), -- 226
  .alu (.mov t2 (.reg a3)), -- 227
  .jal (some t0) (-46), -- 228
  .alu (.add t1 (.reg sp) (.reg a4)), -- 230
  .lbu t0 t1 0, -- 231
  .alu (.bit .xor t0 (.reg t0) (.imm 0x80)), -- 232
  .sb t0 t1 0, -- 233
  .lw t3 sp 0, -- 235
  .lw t4 sp 4, -- 236
  .lw t5 sp 8, -- 237
  .lw t6 sp 12, -- 238
  .jal (some t0) (-60), -- 239
  .alu (.bit .xor s0 (.reg s0) (.reg t3)), -- 240
  .alu (.bit .xor s1 (.reg s1) (.reg t4)), -- 241
  .alu (.bit .xor s2 (.reg s2) (.reg t5)), -- 242
  .alu (.bit .xor s3 (.reg s3) (.reg t6)), -- 243
  .br .eq (.reg a7) (.imm 0) (13), -- 246
  .alu (.mov t3 (.reg s0)), -- 248
  .alu (.mov t4 (.reg s1)), -- 249
  .alu (.mov t5 (.reg s2)), -- 250
  .alu (.mov t6 (.reg s3)), -- 251
  .jal (some t0) (-70), -- 252
  .sw (.reg t3) sp 0, -- 253
  .sw (.reg t4) sp 4, -- 254
  .sw (.reg t5) sp 8, -- 255
  .sw (.reg t6) sp 12, -- 256
  .alu (.mov t1 (.reg a0)), -- 258
  .alu (.mov t2 (.reg sp)), -- 259
  .jal (some t0) (-72), -- 260
  .br .ge (.reg a7) (.imm 0) (13), -- 263
  .alu (.mov t1 (.reg sp)), -- 265
  .alu (.mov t2 (.reg a3)), -- 266
  .jal (some t0) (-76), -- 267
  .lw t3 sp 0, -- 269
  .lw t4 sp 4, -- 270
  .lw t5 sp 8, -- 271
  .lw t6 sp 12, -- 272
  .jal (some t0) (-86), -- 273
  .alu (.mov s0 (.reg t3)), -- 274
  .alu (.mov s1 (.reg t4)), -- 275
  .alu (.mov s2 (.reg t5)), -- 276
  .alu (.mov s3 (.reg t6)), -- 277
  .alu (.add a0 (.reg a0) (.reg a4)), -- 280
  .alu (.add a3 (.reg a3) (.reg a4)), -- 281
  .jalr ra -- 282
]

/-- asm_fsr_rv32b/ascon.S:326-457 ascon_core -/
def fsr_ascon_core : List Ins := [
  .alu (.add sp (.reg sp) (.imm 0xffffffb0)), -- 326
  .sw (.reg ra) sp 76, -- 327
  .sw (.reg s0) sp 72, -- 328
  .sw (.reg s1) sp 68, -- 329
  .sw (.reg s2) sp 64, -- 330
  .sw (.reg s3) sp 60, -- 331
  .sw (.reg s4) sp 56, -- 332
  .sw (.reg s5) sp 52, -- 333
  .sw (.reg s6) sp 48, -- 334
  .sw (.reg s7) sp 44, -- 335
  .sw (.reg s8) sp 40, -- 336
  .sw (.reg s9) sp 36, -- 337
  .sw (.reg s10) sp 32, -- 338
  .sw (.reg s11) sp 28, -- 339
  .alu (.mov a7 (.lsl a7 24)), -- 342
  .op2 .sra a7 (.reg a7) (.imm 0x18), -- 343
  .lw t3 a5 0, -- 345
  .lw t4 a5 4, -- 346
  .lw t5 a5 8, -- 347
  .lw t6 a5 12, -- 348
  .jal (some t0) (-114), -- 349
  .alu (.mov s6 (.reg t3)), -- 350
  .alu (.mov s7 (.reg t4)), -- 351
  .alu (.mov s8 (.reg t5)), -- 352
  .alu (.mov s9 (.reg t6)), -- 353
  .lw t3 a6 0, -- 355
  .lw t4 a6 4, -- 356
  .lw t5 a6 8, -- 357
  .lw t6 a6 12, -- 358
  .jal (some t0) (-123), -- 359
  .alu (.mov s10 (.reg t3)), -- 360
  .alu (.mov s11 (.reg t4)), -- 361
  .alu (.mov a5 (.reg t5)), -- 362
  .alu (.mov a6 (.reg t6)), -- 363
  .alu (.mov s0 (.imm 0x80800c08)), -- 365
  .alu (.mov s1 (.imm 0x0)), -- 366
  .alu (.mov s2 (.reg s10)), -- 367
  .alu (.mov s3 (.reg s11)), -- 368
  .alu (.mov s4 (.reg a5)), -- 369
  .alu (.mov s5 (.reg a6)), -- 370
  .alu (.mov t1 (.imm 0xf0)), -- 372
  .jal (some t0) (-210), -- 373
  .alu (.bit .xor s6 (.reg s6) (.reg s10)), -- 375
  .alu (.bit .xor s7 (.reg s7) (.reg s11)), -- 376
  .alu (.bit .xor s8 (.reg s8) (.reg a5)), -- 377
  .alu (.bit .xor s9 (.reg s9) (.reg a6)), -- 378
  .br .eq (.reg a4) (.imm 0) (9), -- 380
  .sw (.reg a0) sp 20, -- 382
  .sw (.reg a7) sp 24, -- 383
  .alu (.mov a7 (.imm 0)), -- 384
  .jal (some ra) (-130), -- 385
  .lw a0 sp 20, -- 386
  .lw a7 sp 24, -- 387
  .alu (.mov t1 (.imm 0xb4)), -- 389
  .jal (some t0) (-223), -- 390
  .alu (.bit .xor s9 (.reg s9) (.imm 0x1)), -- 393
  .alu (.mov a3 (.reg a1)), -- 395
  .alu (.mov a4 (.reg a2)), -- 396
  .jal (some ra) (-138), -- 397
  .alu (.bit .xor s4 (.reg s4) (.reg s10)), -- 399
  .alu (.bit .xor s5 (.reg s5) (.reg s11)), -- 400
  .alu (.bit .xor s6 (.reg s6) (.reg a5)), -- 401
  .alu (.bit .xor s7 (.reg s7) (.reg a6)), -- 402
  .alu (.mov t1 (.imm 0xf0)), -- 404
  .jal (some t0) (-233), -- 405
  .alu (.bit .xor s6 (.reg s6) (.reg s10)), -- 407
  .alu (.bit .xor s7 (.reg s7) (.reg s11)), -- 408
  .alu (.bit .xor s8 (.reg s8) (.reg a5)), -- 409
  .alu (.bit .xor s9 (.reg s9) (.reg a6)), -- 410
  .br .ge (.reg a7) (.imm 0) (25), -- 412
  .alu (.bit .and t0 (.reg a3) (.imm 0xfffffffc)), -- 414
  .lw t3 t0 0, -- 414
  .lw t4 t0 4, -- 414
  .lw t5 t0 8, -- 414
  .lw t6 t0 12, -- 414
  .br .eq (.reg t0) (.reg a3) (8), -- 414
  .lw t0 t0 16, -- 414
  .alu (.bit .and t1 (.reg a3) (.imm 0x3)), -- 414
  .alu (.mov t1 (.lsl t1 3)), -- 414
  .fsr t3 t3 t4 (.reg t1), -- 414
  .fsr t4 t4 t5 (.reg t1), -- 414
  .fsr t5 t5 t6 (.reg t1), -- 414
  .fsr t6 t6 t0 (.reg t1), -- 414
  .jal (some t0) (-177), -- 415
  .alu (.bit .xor t0 (.reg s6) (.reg t3)), -- 417
  .alu (.bit .xor t1 (.reg s7) (.reg t4)), -- 418
  .alu (.bit .xor t0 (.reg t0) (.reg t1)), -- 419
  .alu (.bit .xor t1 (.reg s8) (.reg t5)), -- 420
  .alu (.bit .xor t0 (.reg t0) (.reg t1)), -- 421
  .alu (.bit .xor t1 (.reg s9) (.reg t6)), -- 422
  .alu (.bit .xor t0 (.reg t0) (.reg t1)), -- 423
  .br .eq (.reg t0) (.imm 0) (36), -- 425
  .alu (.mov a0 (.imm 0xffffffff)), -- 426
  .jal none (35), -- 427
  .alu (.mov t3 (.reg s6)), -- 430
  .alu (.mov t4 (.reg s7)), -- 431
  .alu (.mov t5 (.reg s8)), -- 432
  .alu (.mov t6 (.reg s9)), -- 433
  .jal (some t0) (-192), -- 434
  .sb t3 a0 0, -- 435
  .alu (.mov t3 (.lsr t3 8)), -- 435
  .sb t3 a0 1, -- 435
  .alu (.mov t3 (.lsr t3 8)), -- 435
  .sb t3 a0 2, -- 435
  .alu (.mov t3 (.lsr t3 8)), -- 435
  .sb t3 a0 3, -- 435
  .sb t4 a0 4, -- 436
  .alu (.mov t4 (.lsr t4 8)), -- 436
  .sb t4 a0 5, -- 436
  .alu (.mov t4 (.lsr t4 8)), -- 436
  .sb t4 a0 6, -- 436
  .alu (.mov t4 (.lsr t4 8)), -- 436
  .sb t4 a0 7, -- 436
  .sb t5 a0 8, -- 437
  .alu (.mov t5 (.lsr t5 8)), -- 437
  .sb t5 a0 9, -- 437
  .alu (.mov t5 (.lsr t5 8)), -- 437
  .sb t5 a0 10, -- 437
  .alu (.mov t5 (.lsr t5 8)), -- 437
  .sb t5 a0 11, -- 437
  .sb t6 a0 12, -- 438
  .alu (.mov t6 (.lsr t6 8)), -- 438
  .sb t6 a0 13, -- 438
  .alu (.mov t6 (.lsr t6 8)), -- 438
  .sb t6 a0 14, -- 438
  .alu (.mov t6 (.lsr t6 8)), -- 438
  .sb t6 a0 15, -- 438
  .alu (.mov a0 (.imm 0x0)), -- 441
  .lw ra sp 76, -- 443
  .lw s0 sp 72, -- 444
  .lw s1 sp 68, -- 445
  .lw s2 sp 64, -- 446
  .lw s3 sp 60, -- 447
  .lw s4 sp 56, -- 448
  .lw s5 sp 52, -- 449
  .lw s6 sp 48, -- 450
  .lw s7 sp 44, -- 451
  .lw s8 sp 40, -- 452
  .lw s9 sp 36, -- 453
  .lw s10 sp 32, -- 454
  .lw s11 sp 28, -- 455
  .alu (.add sp (.reg sp) (.imm 0x50)), -- 456
  .jalr ra -- 457
]

/-- asm_fsr_rv32b/ascon.S, the whole file. -/
def fsr_code : List Ins :=
  fsr_ascon_permute ++ fsr_ascon_permuteBody.map .alu ++ fsr_ascon_permuteEnd ++ fsr_ascon_rev8 ++ fsr_ascon_memcpy ++ fsr_ascon_duplex ++ fsr_ascon_core

/-- Position of the label `ascon_permute` of asm_fsr_rv32b/ascon.S. -/
abbrev fsr_L_ascon_permute : Nat := 0
/-- Position of the label `.LPloop` of asm_fsr_rv32b/ascon.S. -/
abbrev fsr_L_LPloop : Nat := 1
/-- Position of the label `.LPend` of asm_fsr_rv32b/ascon.S. -/
abbrev fsr_L_LPend : Nat := 74
/-- Position of the label `ascon_rev8` of asm_fsr_rv32b/ascon.S. -/
abbrev fsr_L_ascon_rev8 : Nat := 75
/-- Position of the label `ascon_memcpy` of asm_fsr_rv32b/ascon.S. -/
abbrev fsr_L_ascon_memcpy : Nat := 80
/-- Position of the label `.LMloop` of asm_fsr_rv32b/ascon.S. -/
abbrev fsr_L_LMloop : Nat := 82
/-- Position of the label `.LMcond` of asm_fsr_rv32b/ascon.S. -/
abbrev fsr_L_LMcond : Nat := 87
/-- Position of the label `.LMend` of asm_fsr_rv32b/ascon.S. -/
abbrev fsr_L_LMend : Nat := 88
/-- Position of the label `ascon_duplex` of asm_fsr_rv32b/ascon.S. -/
abbrev fsr_L_ascon_duplex : Nat := 89
/-- Position of the label `.LDloop` of asm_fsr_rv32b/ascon.S. -/
abbrev fsr_L_LDloop : Nat := 90
/-- Position of the label `.LDsqueeze` of asm_fsr_rv32b/ascon.S. -/
abbrev fsr_L_LDsqueeze : Nat := 99
/-- Position of the label `.LDreset` of asm_fsr_rv32b/ascon.S. -/
abbrev fsr_L_LDreset : Nat := 108
/-- Position of the label `.LDpermute` of asm_fsr_rv32b/ascon.S. -/
abbrev fsr_L_LDpermute : Nat := 113
/-- Position of the label `.LDcond` of asm_fsr_rv32b/ascon.S. -/
abbrev fsr_L_LDcond : Nat := 118
/-- Position of the label `.LDend` of asm_fsr_rv32b/ascon.S. -/
abbrev fsr_L_LDend : Nat := 120
/-- Position of the label `.LDendsqueeze` of asm_fsr_rv32b/ascon.S. -/
abbrev fsr_L_LDendsqueeze : Nat := 140
/-- Position of the label `.LDendreset` of asm_fsr_rv32b/ascon.S. -/
abbrev fsr_L_LDendreset : Nat := 153
/-- Position of the label `.LDreturn` of asm_fsr_rv32b/ascon.S. -/
abbrev fsr_L_LDreturn : Nat := 166
/-- Position of the label `ascon_core` of asm_fsr_rv32b/ascon.S. -/
abbrev fsr_L_ascon_core : Nat := 169
/-- Position of the label `.LCskipad` of asm_fsr_rv32b/ascon.S. -/
abbrev fsr_L_LCskipad : Nat := 224
/-- Position of the label `.LCdecrypt` of asm_fsr_rv32b/ascon.S. -/
abbrev fsr_L_LCdecrypt : Nat := 239
/-- Position of the label `.LCencrypt` of asm_fsr_rv32b/ascon.S. -/
abbrev fsr_L_LCencrypt : Nat := 263
/-- Position of the label `.LCzeroreturn` of asm_fsr_rv32b/ascon.S. -/
abbrev fsr_L_LCzeroreturn : Nat := 296
/-- Position of the label `.LCreturn` of asm_fsr_rv32b/ascon.S. -/
abbrev fsr_L_LCreturn : Nat := 297

/-- asm_bi32_rv32b/ascon.S:159-163 ascon_permute -/
def bi32_ascon_permute (rc : Masked.U32) : List Ins := [
  .jal none (74), -- 159
  .alu (.bit .xor s5 (.reg s5) (.reg t2)), -- 162
  .lbu t2 t1 1 -- 163
]

/-- asm_bi32_rv32b/ascon.S:164-175 ascon_permute -/
def bi32_ascon_permuteBody : List (Instr 32) := [
  .bit .xor s4 (.reg s4) (.reg t2), -- 164
  .bit .xor t3 (.reg s1) (.reg s9), -- 167
  .bit .xor t5 (.reg s7) (.reg s9), -- 167
  .bit .xor t4 (.reg s3) (.reg s5), -- 167
  .bit .orn s9 (.reg s7) (.reg s9), -- 167
  .bit .xor s9 (.reg s9) (.reg t4), -- 167
  .bit .xor s7 (.reg s7) (.reg s3), -- 167
  .bit .or s7 (.reg s7) (.reg t4), -- 167
  .bit .xor s7 (.reg s7) (.reg t3), -- 167
  .bit .xor s5 (.reg s5) (.reg t3), -- 167
  .bit .or s5 (.reg s5) (.reg s3), -- 167
  .bit .xor s5 (.reg s5) (.reg t5), -- 167
  .bit .or s1 (.reg s1) (.reg t5), -- 167
  .bit .xor t4 (.reg t4) (.reg s1), -- 167
  .bit .andn s3 (.reg s3) (.reg t3), -- 167
  .bit .xor s3 (.reg s3) (.reg t5), -- 167
  .bit .xor s1 (.reg s0) (.reg s8), -- 168
  .bit .xor t5 (.reg s6) (.reg s8), -- 168
  .bit .xor t3 (.reg s2) (.reg s4), -- 168
  .bit .orn s8 (.reg s6) (.reg s8), -- 168
  .bit .xor s8 (.reg s8) (.reg t3), -- 168
  .bit .xor s6 (.reg s6) (.reg s2), -- 168
  .bit .or s6 (.reg s6) (.reg t3), -- 168
  .bit .xor s6 (.reg s6) (.reg s1), -- 168
  .bit .xor s4 (.reg s4) (.reg s1), -- 168
  .bit .or s4 (.reg s4) (.reg s2), -- 168
  .bit .xor s4 (.reg s4) (.reg t5), -- 168
  .bit .or s0 (.reg s0) (.reg t5), -- 168
  .bit .xor t3 (.reg t3) (.reg s0), -- 168
  .bit .andn s2 (.reg s2) (.reg s1), -- 168
  .bit .xor s2 (.reg s2) (.reg t5), -- 168
  .mov s1 (.ror s4 9), -- 171
  .bit .xor s1 (.reg s1) (.reg s5), -- 171
  .mov s0 (.ror s5 10), -- 171
  .bit .xor s0 (.reg s0) (.reg s4), -- 171
  .mov s5 (.ror s5 14), -- 171
  .mov s4 (.ror s4 14), -- 171
  .bit .xor s1 (.reg s5) (.reg s1), -- 171
  .bit .xor s0 (.reg s4) (.reg s0), -- 171
  .bit .xor s5 (.reg s8) (.reg s9), -- 172
  .mov s4 (.ror s9 1), -- 172
  .bit .xor s4 (.reg s4) (.reg s8), -- 172
  .mov s9 (.ror s9 3), -- 172
  .mov s8 (.ror s8 3), -- 172
  .bit .xor s5 (.reg s9) (.reg s5), -- 172
  .bit .xor s4 (.reg s8) (.reg s4), -- 172
  .mov s9 (.ror s2 17), -- 173
  .mov s8 (.ror s3 17), -- 173
  .bit .xor s9 (.reg s9) (.reg s2), -- 173
  .bit .xor s8 (.reg s8) (.reg s3), -- 173
  .mov s9 (.ror s9 3), -- 173
  .mov s8 (.ror s8 4), -- 173
  .bit .xor s9 (.reg s3) (.reg s9), -- 173
  .bit .xor s8 (.reg s2) (.reg s8), -- 173
  .mov s3 (.ror s6 11), -- 174
  .mov s2 (.ror s7 11), -- 174
  .bit .xor s3 (.reg s3) (.reg s6), -- 174
  .bit .xor s2 (.reg s2) (.reg s7), -- 174
  .mov s3 (.ror s3 19), -- 174
  .mov s2 (.ror s2 20), -- 174
  .bit .xor s3 (.reg s7) (.reg s3), -- 174
  .bit .xor s2 (.reg s6) (.reg s2), -- 174
  .mov s7 (.ror t3 8), -- 175
  .bit .xor s7 (.reg s7) (.reg t4), -- 175
  .mov s6 (.ror t4 9), -- 175
  .bit .xor s6 (.reg s6) (.reg t3), -- 175
  .mov t4 (.ror t4 5), -- 175
  .mov t3 (.ror t3 5), -- 175
  .bit .xor s7 (.reg t4) (.reg s7), -- 175
  .bit .xor s6 (.reg t3) (.reg s6) -- 175
]

/-- asm_bi32_rv32b/ascon.S:178-184 ascon_permute -/
def bi32_ascon_permuteEnd (rc : Masked.U32) : List Ins := [
  .alu (.add t1 (.reg t1) (.imm 0x2)), -- 178
  .lbu t2 t1 0, -- 180
  .br .ne (.reg t2) (.imm 0) (-74), -- 181
  .jalr t0 -- 184
]

/-- asm_bi32_rv32b/ascon.S:212-214 ascon_to_bi32_rev8 -/
def bi32_ascon_to_bi32_rev8 (rc : Masked.U32) : List Ins := [
  .op1 .rev8 t1 t4, -- 212
  .op1 .rev8 t3 t3, -- 212
  .op1 .unzip t1 t1, -- 212
  .op1 .unzip t3 t3, -- 212
  .op2 .pack t4 (.reg t1) (.reg t3), -- 212
  .op2 .packu t3 (.reg t1) (.reg t3), -- 212
  .op1 .rev8 t1 t6, -- 213
  .op1 .rev8 t5 t5, -- 213
  .op1 .unzip t1 t1, -- 213
  .op1 .unzip t5 t5, -- 213
  .op2 .pack t6 (.reg t1) (.reg t5), -- 213
  .op2 .packu t5 (.reg t1) (.reg t5), -- 213
  .jalr t0 -- 214
]

/-- asm_bi32_rv32b/ascon.S:224-226 ascon_from_bi32_rev8 -/
def bi32_ascon_from_bi32_rev8 (rc : Masked.U32) : List Ins := [
  .op2 .pack t1 (.reg t4) (.reg t3), -- 224
  .op2 .packu t3 (.reg t4) (.reg t3), -- 224
  .op1 .zip t4 t1, -- 224
  .op1 .zip t3 t3, -- 224
  .op1 .rev8 t4 t4, -- 224
  .op1 .rev8 t3 t3, -- 224
  .op2 .pack t1 (.reg t6) (.reg t5), -- 225
  .op2 .packu t5 (.reg t6) (.reg t5), -- 225
  .op1 .zip t6 t1, -- 225
  .op1 .zip t5 t5, -- 225
  .op1 .rev8 t6 t6, -- 225
  .op1 .rev8 t5 t5, -- 225
  .jalr t0 -- 226
]

/-- asm_bi32_rv32b/ascon.S:238-249 ascon_memcpy -/
def bi32_ascon_memcpy (rc : Masked.U32) : List Ins := [
  .alu (.mov t3 (.imm 0x0)), -- 238
  .jal none (6), -- 239
  .lbu t4 t2 0, -- 241
  .sb t4 t1 0, -- 242
  .alu (.add t1 (.reg t1) (.imm 0x1)), -- 243
  .alu (.add t2 (.reg t2) (.imm 0x1)), -- 244
  .alu (.add t3 (.reg t3) (.imm 0x1)), -- 245
  .br .lt (.reg t3) (.reg a4) (-5), -- 247
  .jalr t0 -- 249
]

/-- asm_bi32_rv32b/ascon.S:255-361 ascon_duplex -/
def bi32_ascon_duplex (rc : Masked.U32) : List Ins := [
  .jal none (37), -- 255
  .lw t3 a3 0, -- 258
  .lw t4 a3 4, -- 259
  .lw t5 a3 8, -- 260
  .lw t6 a3 12, -- 261
  .jal (some t0) (-40), -- 262
  .alu (.bit .xor s0 (.reg s0) (.reg t3)), -- 263
  .alu (.bit .xor s1 (.reg s1) (.reg t4)), -- 264
  .alu (.bit .xor s2 (.reg s2) (.reg t5)), -- 265
  .alu (.bit .xor s3 (.reg s3) (.reg t6)), -- 266
  .br .eq (.reg a7) (.imm 0) (17), -- 269
  .op2 .pack t2 (.reg s1) (.reg s0), -- 273
  .op2 .packu t1 (.reg s1) (.reg s0), -- 273
  .op1 .zip t0 t2, -- 273
  .op1 .zip t1 t1, -- 273
  .op1 .rev8 t0 t0, -- 273
  .op1 .rev8 t1 t1, -- 273
  .sw (.reg t1) a0 0, -- 274
  .sw (.reg t0) a0 4, -- 275
  .op2 .pack t2 (.reg s3) (.reg s2), -- 276
  .op2 .packu t1 (.reg s3) (.reg s2), -- 276
  .op1 .zip t0 t2, -- 276
  .op1 .zip t1 t1, -- 276
  .op1 .rev8 t0 t0, -- 276
  .op1 .rev8 t1 t1, -- 276
  .sw (.reg t1) a0 8, -- 277
  .sw (.reg t0) a0 12, -- 278
  .br .ge (.reg a7) (.imm 0) (5), -- 281
  .alu (.mov s0 (.reg t3)), -- 282
  .alu (.mov s1 (.reg t4)), -- 283
  .alu (.mov s2 (.reg t5)), -- 284
  .alu (.mov s3 (.reg t6)), -- 285
  .alu (.mov t1 (.imm (rc + 8))), -- 288
  .jal (some t0) (-145), -- 289
  .alu (.add a0 (.reg a0) (.imm 0x10)), -- 291
  .alu (.add a3 (.reg a3) (.imm 0x10)), -- 292
  .alu (.add a4 (.reg a4) (.imm 0xfffffff0)), -- 293
  .alu (.mov t0 (.imm 0x10)), -- 296
  .br .ge (.reg a4) (.reg t0) (-37), -- 297
  .sw (.imm 0) sp 0, -- 300
  .sw (.imm 0) sp 4, -- 301
  .sw (.imm 0) sp 8, -- 302
  .sw (.imm 0) sp 12, -- 303
  .alu (.mov t1 (.reg sp)), -- 305
  .alu (.mov t2 (.reg a3)), -- 306
  .jal (some t0) (-54), -- 307
  .alu (.add t1 (.reg sp) (.reg a4)), -- 309
  .lbu t0 t1 0, -- 310
  .alu (.bit .xor t0 (.reg t0) (.imm 0x80)), -- 311
  .sb t0 t1 0, -- 312
  .lw t3 sp 0, -- 314
  .lw t4 sp 4, -- 315
  .lw t5 sp 8, -- 316
  .lw t6 sp 12, -- 317
  .jal (some t0) (-89), -- 318
  .alu (.bit .xor s0 (.reg s0) (.reg t3)), -- 319
  .alu (.bit .xor s1 (.reg s1) (.reg t4)), -- 320
  .alu (.bit .xor s2 (.reg s2) (.reg t5)), -- 321
  .alu (.bit .xor s3 (.reg s3) (.reg t6)), -- 322
  .br .eq (.reg a7) (.imm 0) (13), -- 325
  .alu (.mov t3 (.reg s0)), -- 327
  .alu (.mov t4 (.reg s1)), -- 328
  .alu (.mov t5 (.reg s2)), -- 329
  .alu (.mov t6 (.reg s3)), -- 330
  .jal (some t0) (-86), -- 331
  .sw (.reg t3) sp 0, -- 332
  .sw (.reg t4) sp 4, -- 333
  .sw (.reg t5) sp 8, -- 334
  .sw (.reg t6) sp 12, -- 335
  .alu (.mov t1 (.reg a0)), -- 337
  .alu (.mov t2 (.reg sp)), -- 338
  .jal (some t0) (-80), -- 339
  .br .ge (.reg a7) (.imm 0) (13), -- 342
  .alu (.mov t1 (.reg sp)), -- 344
  .alu (.mov t2 (.reg a3)), -- 345
  .jal (some t0) (-84), -- 346
  .lw t3 sp 0, -- 348
  .lw t4 sp 4, -- 349
  .lw t5 sp 8, -- 350
  .lw t6 sp 12, -- 351
  .jal (some t0) (-115), -- 352
  .alu (.mov s0 (.reg t3)), -- 353
  .alu (.mov s1 (.reg t4)), -- 354
  .alu (.mov s2 (.reg t5)), -- 355
  .alu (.mov s3 (.reg t6)), -- 356
  .alu (.add a0 (.reg a0) (.reg a4)), -- 359
  .alu (.add a3 (.reg a3) (.reg a4)), -- 360
  .jalr ra -- 361
]

/-- asm_bi32_rv32b/ascon.S:414-545 ascon_core -/
def bi32_ascon_core (rc : Masked.U32) : List Ins := [
  .alu (.add sp (.reg sp) (.imm 0xffffffb0)), -- 414
  .sw (.reg ra) sp 76, -- 415
  .sw (.reg s0) sp 72, -- 416
  .sw (.reg s1) sp 68, -- 417
  .sw (.reg s2) sp 64, -- 418
  .sw (.reg s3) sp 60, -- 419
  .sw (.reg s4) sp 56, -- 420
  .sw (.reg s5) sp 52, -- 421
  .sw (.reg s6) sp 48, -- 422
  .sw (.reg s7) sp 44, -- 423
  .sw (.reg s8) sp 40, -- 424
  .sw (.reg s9) sp 36, -- 425
  .sw (.reg s10) sp 32, -- 426
  .sw (.reg s11) sp 28, -- 427
  .alu (.mov a7 (.lsl a7 24)), -- 430
  .op2 .sra a7 (.reg a7) (.imm 0x18), -- 431
  .lw t3 a5 0, -- 433
  .lw t4 a5 4, -- 434
  .lw t5 a5 8, -- 435
  .lw t6 a5 12, -- 436
  .jal (some t0) (-143), -- 437
  .alu (.mov s6 (.reg t3)), -- 438
  .alu (.mov s7 (.reg t4)), -- 439
  .alu (.mov s8 (.reg t5)), -- 440
  .alu (.mov s9 (.reg t6)), -- 441
  .lw t3 a6 0, -- 443
  .lw t4 a6 4, -- 444
  .lw t5 a6 8, -- 445
  .lw t6 a6 12, -- 446
  .jal (some t0) (-152), -- 447
  .alu (.mov s10 (.reg t3)), -- 448
  .alu (.mov s11 (.reg t4)), -- 449
  .alu (.mov a5 (.reg t5)), -- 450
  .alu (.mov a6 (.reg t6)), -- 451
  .alu (.mov s0 (.imm 0x88220000)), -- 453
  .alu (.mov s1 (.imm 0x200000)), -- 454
  .alu (.mov s2 (.reg s10)), -- 455
  .alu (.mov s3 (.reg s11)), -- 456
  .alu (.mov s4 (.reg a5)), -- 457
  .alu (.mov s5 (.reg a6)), -- 458
  .alu (.mov t1 (.imm (rc + 0))), -- 460
  .jal (some t0) (-241), -- 461
  .alu (.bit .xor s6 (.reg s6) (.reg s10)), -- 463
  .alu (.bit .xor s7 (.reg s7) (.reg s11)), -- 464
  .alu (.bit .xor s8 (.reg s8) (.reg a5)), -- 465
  .alu (.bit .xor s9 (.reg s9) (.reg a6)), -- 466
  .br .eq (.reg a4) (.imm 0) (9), -- 468
  .sw (.reg a0) sp 20, -- 470
  .sw (.reg a7) sp 24, -- 471
  .alu (.mov a7 (.imm 0)), -- 472
  .jal (some ra) (-138), -- 473
  .lw a0 sp 20, -- 474
  .lw a7 sp 24, -- 475
  .alu (.mov t1 (.imm (rc + 8))), -- 477
  .jal (some t0) (-254), -- 478
  .alu (.bit .xor s9 (.reg s9) (.imm 0x1)), -- 481
  .alu (.mov a3 (.reg a1)), -- 483
  .alu (.mov a4 (.reg a2)), -- 484
  .jal (some ra) (-146), -- 485
  .alu (.bit .xor s4 (.reg s4) (.reg s10)), -- 487
  .alu (.bit .xor s5 (.reg s5) (.reg s11)), -- 488
  .alu (.bit .xor s6 (.reg s6) (.reg a5)), -- 489
  .alu (.bit .xor s7 (.reg s7) (.reg a6)), -- 490
  .alu (.mov t1 (.imm (rc + 0))), -- 492
  .jal (some t0) (-264), -- 493
  .alu (.bit .xor s6 (.reg s6) (.reg s10)), -- 495
  .alu (.bit .xor s7 (.reg s7) (.reg s11)), -- 496
  .alu (.bit .xor s8 (.reg s8) (.reg a5)), -- 497
  .alu (.bit .xor s9 (.reg s9) (.reg a6)), -- 498
  .br .ge (.reg a7) (.imm 0) (34), -- 500
  .alu (.bit .and t0 (.reg a3) (.imm 0xfffffffc)), -- 502
  .lw t3 t0 0, -- 502
  .lw t4 t0 4, -- 502
  .lw t5 t0 8, -- 502
  .lw t6 t0 12, -- 502
  .br .eq (.reg t0) (.reg a3) (17), -- 502
  .lw t0 t0 16, -- 502
  .alu (.bit .and t1 (.reg a3) (.imm 0x3)), -- 502
  .alu (.mov t1 (.lsl t1 3)), -- 502
  .alu (.sub t2 (.imm 0) (.reg t1)), -- 502
  .op2 .srl t3 (.reg t3) (.reg t1), -- 502
  .op2 .sll s10 (.reg t4) (.reg t2), -- 502
  .alu (.bit .or t3 (.reg t3) (.reg s10)), -- 502
  .op2 .srl t4 (.reg t4) (.reg t1), -- 502
  .op2 .sll s10 (.reg t5) (.reg t2), -- 502
  .alu (.bit .or t4 (.reg t4) (.reg s10)), -- 502
  .op2 .srl t5 (.reg t5) (.reg t1), -- 502
  .op2 .sll s10 (.reg t6) (.reg t2), -- 502
  .alu (.bit .or t5 (.reg t5) (.reg s10)), -- 502
  .op2 .srl t6 (.reg t6) (.reg t1), -- 502
  .op2 .sll s10 (.reg t0) (.reg t2), -- 502
  .alu (.bit .or t6 (.reg t6) (.reg s10)), -- 502
  .jal (some t0) (-215), -- 503
  .alu (.bit .xor t0 (.reg s6) (.reg t3)), -- 505
  .alu (.bit .xor t1 (.reg s7) (.reg t4)), -- 506
  .alu (.bit .xor t0 (.reg t0) (.reg t1)), -- 507
  .alu (.bit .xor t1 (.reg s8) (.reg t5)), -- 508
  .alu (.bit .xor t0 (.reg t0) (.reg t1)), -- 509
  .alu (.bit .xor t1 (.reg s9) (.reg t6)), -- 510
  .alu (.bit .xor t0 (.reg t0) (.reg t1)), -- 511
  .br .eq (.reg t0) (.imm 0) (36), -- 513
  .alu (.mov a0 (.imm 0xffffffff)), -- 514
  .jal none (35), -- 515
  .alu (.mov t3 (.reg s6)), -- 518
  .alu (.mov t4 (.reg s7)), -- 519
  .alu (.mov t5 (.reg s8)), -- 520
  .alu (.mov t6 (.reg s9)), -- 521
  .jal (some t0) (-217), -- 522
  .sb t3 a0 0, -- 523
  .alu (.mov t3 (.lsr t3 8)), -- 523
  .sb t3 a0 1, -- 523
  .alu (.mov t3 (.lsr t3 8)), -- 523
  .sb t3 a0 2, -- 523
  .alu (.mov t3 (.lsr t3 8)), -- 523
  .sb t3 a0 3, -- 523
  .sb t4 a0 4, -- 524
  .alu (.mov t4 (.lsr t4 8)), -- 524
  .sb t4 a0 5, -- 524
  .alu (.mov t4 (.lsr t4 8)), -- 524
  .sb t4 a0 6, -- 524
  .alu (.mov t4 (.lsr t4 8)), -- 524
  .sb t4 a0 7, -- 524
  .sb t5 a0 8, -- 525
  .alu (.mov t5 (.lsr t5 8)), -- 525
  .sb t5 a0 9, -- 525
  .alu (.mov t5 (.lsr t5 8)), -- 525
  .sb t5 a0 10, -- 525
  .alu (.mov t5 (.lsr t5 8)), -- 525
  .sb t5 a0 11, -- 525
  .sb t6 a0 12, -- 526
  .alu (.mov t6 (.lsr t6 8)), -- 526
  .sb t6 a0 13, -- 526
  .alu (.mov t6 (.lsr t6 8)), -- 526
  .sb t6 a0 14, -- 526
  .alu (.mov t6 (.lsr t6 8)), -- 526
  .sb t6 a0 15, -- 526
  .alu (.mov a0 (.imm 0x0)), -- 529
  .lw ra sp 76, -- 531
  .lw s0 sp 72, -- 532
  .lw s1 sp 68, -- 533
  .lw s2 sp 64, -- 534
  .lw s3 sp 60, -- 535
  .lw s4 sp 56, -- 536
  .lw s5 sp 52, -- 537
  .lw s6 sp 48, -- 538
  .lw s7 sp 44, -- 539
  .lw s8 sp 40, -- 540
  .lw s9 sp 36, -- 541
  .lw s10 sp 32, -- 542
  .lw s11 sp 28, -- 543
  .alu (.add sp (.reg sp) (.imm 0x50)), -- 544
  .jalr ra -- 545
]

/-- asm_bi32_rv32b/ascon.S, the whole file. -/
def bi32_code (rc : Masked.U32) : List Ins :=
  bi32_ascon_permute rc ++ bi32_ascon_permuteBody.map .alu ++ bi32_ascon_permuteEnd rc ++ bi32_ascon_to_bi32_rev8 rc ++ bi32_ascon_from_bi32_rev8 rc ++ bi32_ascon_memcpy rc ++ bi32_ascon_duplex rc ++ bi32_ascon_core rc

/-- Position of the label `ascon_permute` of asm_bi32_rv32b/ascon.S. -/
abbrev bi32_L_ascon_permute : Nat := 0
/-- Position of the label `.LPloop` of asm_bi32_rv32b/ascon.S. -/
abbrev bi32_L_LPloop : Nat := 1
/-- Position of the label `.LPloopcond` of asm_bi32_rv32b/ascon.S. -/
abbrev bi32_L_LPloopcond : Nat := 74
/-- Position of the label `.LPend` of asm_bi32_rv32b/ascon.S. -/
abbrev bi32_L_LPend : Nat := 76
/-- Position of the label `ascon_to_bi32_rev8` of asm_bi32_rv32b/ascon.S. -/
abbrev bi32_L_ascon_to_bi32_rev8 : Nat := 77
/-- Position of the label `ascon_from_bi32_rev8` of asm_bi32_rv32b/ascon.S. -/
abbrev bi32_L_ascon_from_bi32_rev8 : Nat := 90
/-- Position of the label `ascon_memcpy` of asm_bi32_rv32b/ascon.S. -/
abbrev bi32_L_ascon_memcpy : Nat := 103
/-- Position of the label `.LMloop` of asm_bi32_rv32b/ascon.S. -/
abbrev bi32_L_LMloop : Nat := 105
/-- Position of the label `.LMcond` of asm_bi32_rv32b/ascon.S. -/
abbrev bi32_L_LMcond : Nat := 110
/-- Position of the label `.LMend` of asm_bi32_rv32b/ascon.S. -/
abbrev bi32_L_LMend : Nat := 111
/-- Position of the label `ascon_duplex` of asm_bi32_rv32b/ascon.S. -/
abbrev bi32_L_ascon_duplex : Nat := 112
/-- Position of the label `.LDloop` of asm_bi32_rv32b/ascon.S. -/
abbrev bi32_L_LDloop : Nat := 113
/-- Position of the label `.LDsqueeze` of asm_bi32_rv32b/ascon.S. -/
abbrev bi32_L_LDsqueeze : Nat := 122
/-- Position of the label `.LDreset` of asm_bi32_rv32b/ascon.S. -/
abbrev bi32_L_LDreset : Nat := 139
/-- Position of the label `.LDpermute` of asm_bi32_rv32b/ascon.S. -/
abbrev bi32_L_LDpermute : Nat := 144
/-- Position of the label `.LDcond` of asm_bi32_rv32b/ascon.S. -/
abbrev bi32_L_LDcond : Nat := 149
/-- Position of the label `.LDend` of asm_bi32_rv32b/ascon.S. -/
abbrev bi32_L_LDend : Nat := 151
/-- Position of the label `.LDendsqueeze` of asm_bi32_rv32b/ascon.S. -/
abbrev bi32_L_LDendsqueeze : Nat := 171
/-- Position of the label `.LDendreset` of asm_bi32_rv32b/ascon.S. -/
abbrev bi32_L_LDendreset : Nat := 184
/-- Position of the label `.LDreturn` of asm_bi32_rv32b/ascon.S. -/
abbrev bi32_L_LDreturn : Nat := 197
/-- Position of the label `ascon_core` of asm_bi32_rv32b/ascon.S. -/
abbrev bi32_L_ascon_core : Nat := 200
/-- Position of the label `.LCskipad` of asm_bi32_rv32b/ascon.S. -/
abbrev bi32_L_LCskipad : Nat := 255
/-- Position of the label `.LCdecrypt` of asm_bi32_rv32b/ascon.S. -/
abbrev bi32_L_LCdecrypt : Nat := 270
/-- Position of the label `.LCencrypt` of asm_bi32_rv32b/ascon.S. -/
abbrev bi32_L_LCencrypt : Nat := 303
/-- Position of the label `.LCzeroreturn` of asm_bi32_rv32b/ascon.S. -/
abbrev bi32_L_LCzeroreturn : Nat := 336
/-- Position of the label `.LCreturn` of asm_bi32_rv32b/ascon.S. -/
abbrev bi32_L_LCreturn : Nat := 337

/-- asm_bi32_rv32b/ascon.S: the data section. -/
def bi32_rom : List Byte := [12, 12, 9, 12, 12, 9, 9, 9, 6, 12, 3, 12, 6, 9, 3, 9, 12, 6, 9, 6, 12, 3, 9, 3, 0]

end Ascon.Rv
