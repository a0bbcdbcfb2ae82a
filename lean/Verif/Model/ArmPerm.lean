import Verif.Model.ArmCode
import Verif.Model.ArmLowCode
import Verif.Model.Backends
/-!
# The permutations of the ARM implementations

round.h (inline assembly, see Verif/Model/ArmCode.lean) and permutations.h of the directories armv6,
armv6_lowsize, armv6m, armv6m_lowsize, armv7m, armv7m_lowsize, armv7m_small, bi32_armv6, bi32_armv6m, bi32_armv7m and
bi32_armv7m_small, identical in all algorithm directories.
-/

namespace Ascon.Arm

open Ascon.C Ascon.Asm Ascon.Gen

/-- The `"+r"(s->w[i][j])` operands are loaded from the state; `init` are the other operands (round
constant, loop bounds; uninitialized temporaries are 0 here, no theorem depends on that). -/
def loadRegs (e : Endian) (s : State) (init : Nat → BitVec 32) : M 32 where
  r := fun
    | 0 => unionW0 e s.x0
    | 1 => unionW1 e s.x0
    | 2 => unionW0 e s.x1
    | 3 => unionW1 e s.x1
    | 4 => unionW0 e s.x2
    | 5 => unionW1 e s.x2
    | 6 => unionW0 e s.x3
    | 7 => unionW1 e s.x3
    | 8 => unionW0 e s.x4
    | 9 => unionW1 e s.x4
    | i => init i
  stk := []
  z := false

/-- The `"+r"` operands are written back. -/
def storeRegs (e : Endian) (m : M 32) : State :=
  ⟨unionX e (m.r 0) (m.r 1), unionX e (m.r 2) (m.r 3), unionX e (m.r 4) (m.r 5), unionX e (m.r 6) (m.r 7),
    unionX e (m.r 8) (m.r 9)⟩

/-- A straight-line block. -/
def block (e : Endian) (code : List (Instr 32)) (init : Nat → BitVec 32) (s : State) : Prog State :=
  match exec (fun _ => none) code (loadRegs e s init) with
  | none => .ub
  | some m => .ret (storeRegs e m)

/-- `[C_l] "i"((uint32_t)C)` (armv6/round.h:188, 277; armv7m/round.h:180, 267). -/
def immOpt (C : Word) (i : Nat) : BitVec 32 := if i = C_l then C.setWidth 32 else 0

/-- `[C_e] "i"((uint32_t)C), [C_o] "i"((uint32_t)(C >> 32))` (bi32_armv6/round.h:153, 223;
bi32_armv7m/round.h:145, 213). -/
def immBi32 (C : Word) (i : Nat) : BitVec 32 :=
  if i = C_e then C.setWidth 32 else if i = C_o then (C >>> 32).setWidth 32 else 0

/-- `[C] "ri"(C)` (armv6m/round.h:343) -/
def immArmv6m (K : Word) (i : Nat) : BitVec 32 := if i = C then K.setWidth 32 else 0

/-- `ROUND_LOOP`: repeat the body until the zero flag is set; more than 16 rounds count as non-termination. -/
def roundLoop (e : Endian) (rom : Nat → Option Byte) (body : List (Instr 32)) (init : Nat → BitVec 32) (s : State) :
    Prog State := do
  let m ← doWhile rom body 16 (loadRegs e s init)
  pure (storeRegs e m)

/-- armv6/round.h:281, armv7m/round.h:271: `PROUNDS(s, nr)` is `ROUND_LOOP(s, START(nr))`;
the constant is the read-write operand `[C] "+r"(C)`. -/
def initLoop (nr i : Nat) : BitVec 32 := if i = C then BitVec.ofInt 32 (optConsts.START nr) else 0

/-- armv6m/round.h:348; there the operand is called `[tmp1] "+l"(C)`. -/
def initLoopArmv6m (nr i : Nat) : BitVec 32 := if i = tmp1 then BitVec.ofInt 32 (optConsts.START nr) else 0

/-- The table `constants[24]` of src/bi32/constants.c:5-7, placed at address 0. -/
def bi32Rom (a : Nat) : Option Byte := (bi32Table[a]?).map fun w => w.setWidth 8

/-- bi32_armv6/round.h:227, bi32_armv7m/round.h:217:
`ROUND_LOOP(s, constants + START(nr), constants + 24)`. -/
def initLoopBi32 (nr i : Nat) : BitVec 32 :=
  if i = C then BitVec.ofInt 32 (bi32Consts.START nr) else if i = E then 24 else 0

/-- bi32_armv6m/round.h:324; the operands are called `[tmp1] "+l"(C), [tmp0] "+l"(E)`. -/
def initLoopBi32Armv6m (nr i : Nat) : BitVec 32 :=
  if i = tmp1 then BitVec.ofInt 32 (bi32Consts.START nr) else if i = tmp0 then 24 else 0

/-! ## permutations.h of armv6, armv7m, bi32_armv6, bi32_armv7m (lines 31-91)

`R5 ⟨a, b, c, d, e⟩ i` is `ROUND5(a, b, c, d, e, RCi)`, `R s i` is `ROUND(s, RCi)`. -/

/-- permutations.h:31-53 -/
def P12ROUNDS5 (inl : Bool) (R5 R : State → Nat → Prog State) (s : State) : Prog State := do
  let ⟨x0, x1, x2, x3, x4⟩ := s
  let ⟨x0, x1, x2, x3, x4⟩ ← R5 ⟨x0, x1, x2, x3, x4⟩ 0
  let ⟨x2, x3, x4, x0, x1⟩ ← R5 ⟨x2, x3, x4, x0, x1⟩ 1
  let ⟨x4, x0, x1, x2, x3⟩ ← R5 ⟨x4, x0, x1, x2, x3⟩ 2
  let ⟨x1, x2, x3, x4, x0⟩ ← R5 ⟨x1, x2, x3, x4, x0⟩ 3
  let ⟨x3, x4, x0, x1, x2⟩ ← R5 ⟨x3, x4, x0, x1, x2⟩ 4
  let ⟨x0, x1, x2, x3, x4⟩ ← R5 ⟨x0, x1, x2, x3, x4⟩ 5
  let ⟨x2, x3, x4, x0, x1⟩ ← R5 ⟨x2, x3, x4, x0, x1⟩ 6
  let ⟨x4, x0, x1, x2, x3⟩ ← R5 ⟨x4, x0, x1, x2, x3⟩ 7
  let ⟨x1, x2, x3, x4, x0⟩ ← R5 ⟨x1, x2, x3, x4, x0⟩ 8
  let ⟨x3, x4, x0, x1, x2⟩ ← R5 ⟨x3, x4, x0, x1, x2⟩ 9
  if inl then
    let s ← R ⟨x0, x1, x2, x3, x4⟩ 10
    R s 11
  else
    let ⟨x0, x1, x2, x3, x4⟩ ← R5 ⟨x0, x1, x2, x3, x4⟩ 10
    let ⟨x2, x3, x4, x0, x1⟩ ← R5 ⟨x2, x3, x4, x0, x1⟩ 11
    pure ⟨x4, x0, x1, x2, x3⟩

/-- permutations.h:55-74 -/
def P8ROUNDS5 (inl : Bool) (R5 R : State → Nat → Prog State) (s : State) : Prog State := do
  let ⟨x0, x1, x2, x3, x4⟩ := s
  let ⟨x0, x1, x2, x3, x4⟩ ← R5 ⟨x0, x1, x2, x3, x4⟩ 4
  let ⟨x2, x3, x4, x0, x1⟩ ← R5 ⟨x2, x3, x4, x0, x1⟩ 5
  let ⟨x4, x0, x1, x2, x3⟩ ← R5 ⟨x4, x0, x1, x2, x3⟩ 6
  let ⟨x1, x2, x3, x4, x0⟩ ← R5 ⟨x1, x2, x3, x4, x0⟩ 7
  let ⟨x3, x4, x0, x1, x2⟩ ← R5 ⟨x3, x4, x0, x1, x2⟩ 8
  if inl then
    let s ← R ⟨x0, x1, x2, x3, x4⟩ 9
    let s ← R s 10
    R s 11
  else
    let ⟨x0, x1, x2, x3, x4⟩ ← R5 ⟨x0, x1, x2, x3, x4⟩ 9
    let ⟨x2, x3, x4, x0, x1⟩ ← R5 ⟨x2, x3, x4, x0, x1⟩ 10
    let ⟨x4, x0, x1, x2, x3⟩ ← R5 ⟨x4, x0, x1, x2, x3⟩ 11
    pure ⟨x1, x2, x3, x4, x0⟩

/-- permutations.h:76-91 -/
def P6ROUNDS5 (inl : Bool) (R5 R : State → Nat → Prog State) (s : State) : Prog State := do
  let ⟨x0, x1, x2, x3, x4⟩ := s
  let ⟨x0, x1, x2, x3, x4⟩ ← R5 ⟨x0, x1, x2, x3, x4⟩ 6
  let ⟨x2, x3, x4, x0, x1⟩ ← R5 ⟨x2, x3, x4, x0, x1⟩ 7
  let ⟨x4, x0, x1, x2, x3⟩ ← R5 ⟨x4, x0, x1, x2, x3⟩ 8
  let ⟨x1, x2, x3, x4, x0⟩ ← R5 ⟨x1, x2, x3, x4, x0⟩ 9
  let ⟨x3, x4, x0, x1, x2⟩ ← R5 ⟨x3, x4, x0, x1, x2⟩ 10
  if inl then
    R ⟨x0, x1, x2, x3, x4⟩ 11
  else
    let ⟨x0, x1, x2, x3, x4⟩ ← R5 ⟨x0, x1, x2, x3, x4⟩ 11
    pure ⟨x2, x3, x4, x0, x1⟩

/-- A block applied to a state with the constant `RCi` as immediate operand. -/
def blockR (e : Endian) (code : List (Instr 32)) (imm : Word → Nat → BitVec 32) (K : Consts) (s : State) (i : Nat) :
    Prog State := block e code (imm (K.RCs.getD i 0)) s

/-! ## src/armv6m_lowsize/permutations.S -/

namespace Low6m

/-- State of the machine at the call `P(s, nr)`: the words of `*s` in the cells, `nr` in `r1`, arbitrary other
registers (`r0` holds the address of the state, which is not modelled as a number). -/
def entry (e : Endian) (nr : Nat) (regs : Nat → BitVec 32) (s : State) : M 32 where
  r := fun i =>
    if 20 ≤ i ∧ i < 30 then (loadRegs e s fun _ => 0).r (i - 20)
    else if i = r1 then BitVec.ofNat 32 nr else regs i
  stk := []
  z := false

/-- The state in memory. -/
def cells (e : Endian) (m : M 32) : State := storeRegs e ⟨fun i => m.r (20 + i), [], false⟩

/-- The function `P`, permutations.S:22-244; the result includes the registers at return. -/
def call (e : Endian) (nr : Nat) (regs : Nat → BitVec 32) (s : State) : Prog (State × M 32) :=
  match exec (fun _ => none) prologue (entry e nr regs s) with
  | none => .ub
  | some m => do
    let m ← doWhile (fun _ => none) body 16 m
    match exec (fun _ => none) epilogue m with
    | none => .ub
    | some m => pure (cells e m, m)

end Low6m

/-! ## The permutation of each directory -/

/-- `P(s, nr)` with unrolled loops (`ASCON_UNROLL_LOOPS 1`, `ASCON_INLINE_PERM inl`). -/
def unrolled (inl : Bool) (r5 r : List (Instr 32)) (imm : Word → Nat → BitVec 32) (K : Consts) (nr : Nat)
    (e : Endian) (s : State) : Prog State :=
  match nr with
  | 12 => P12ROUNDS5 inl (blockR e r5 imm K) (blockR e r imm K) s
  | 8 => P8ROUNDS5 inl (blockR e r5 imm K) (blockR e r imm K) s
  | _ => P6ROUNDS5 inl (blockR e r5 imm K) (blockR e r imm K) s

/-- armv6 (config.h: INLINE_PERM 0, UNROLL_LOOPS 1) -/
def armv6_P (nr : Nat) : Endian → State → Prog State :=
  unrolled false armv6_ROUND5 armv6_ROUND immOpt optConsts nr
/-- armv6_lowsize (UNROLL_LOOPS 0) -/
def armv6_lowsize_P (nr : Nat) (e : Endian) : State → Prog State :=
  roundLoop e (fun _ => none) armv6_ROUND_LOOP (initLoop nr)
/-- armv6m (UNROLL_LOOPS 0) -/
def armv6m_P (nr : Nat) (e : Endian) : State → Prog State :=
  roundLoop e (fun _ => none) armv6m_ROUND_LOOP (initLoopArmv6m nr)
/-- armv7m (INLINE_PERM 0, UNROLL_LOOPS 1) -/
def armv7m_P (nr : Nat) : Endian → State → Prog State :=
  unrolled false armv7m_ROUND5 armv7m_ROUND immOpt optConsts nr
/-- armv7m_lowsize and armv7m_small (UNROLL_LOOPS 0) -/
def armv7m_small_P (nr : Nat) (e : Endian) : State → Prog State :=
  roundLoop e (fun _ => none) armv7m_ROUND_LOOP (initLoop nr)
/-- bi32_armv6 (INLINE_PERM 0, UNROLL_LOOPS 1) -/
def bi32_armv6_P (nr : Nat) : Endian → State → Prog State :=
  unrolled false bi32_armv6_ROUND5 bi32_armv6_ROUND immBi32 bi32Consts nr
/-- bi32_armv6m (UNROLL_LOOPS 0) -/
def bi32_armv6m_P (nr : Nat) (e : Endian) : State → Prog State :=
  roundLoop e bi32Rom bi32_armv6m_ROUND_LOOP (initLoopBi32Armv6m nr)
/-- bi32_armv7m (INLINE_PERM 1, UNROLL_LOOPS 1) -/
def bi32_armv7m_P (nr : Nat) : Endian → State → Prog State :=
  unrolled true bi32_armv7m_ROUND5 bi32_armv7m_ROUND immBi32 bi32Consts nr
/-- bi32_armv7m_small (UNROLL_LOOPS 0) -/
def bi32_armv7m_small_P (nr : Nat) (e : Endian) : State → Prog State :=
  roundLoop e bi32Rom bi32_armv7m_ROUND_LOOP (initLoopBi32 nr)

/-- armv6m_lowsize (UNROLL_LOOPS 0, permutations.S); no theorem depends on the caller's registers being 0 -/
def armv6m_lowsize_P (nr : Nat) (e : Endian) (s : State) : Prog State := do
  let q ← Low6m.call e nr (fun _ => 0) s
  pure q.1

def armv6 : Backend := optBackend (armv6_P 12) (armv6_P 8)
def armv6_lowsize : Backend := optBackend (armv6_lowsize_P 12) (armv6_lowsize_P 8)
def armv6m : Backend := optBackend (armv6m_P 12) (armv6m_P 8)
def armv6m_lowsize : Backend := optBackend (armv6m_lowsize_P 12) (armv6m_lowsize_P 8)
def armv7m : Backend := optBackend (armv7m_P 12) (armv7m_P 8)
def armv7m_small : Backend := optBackend (armv7m_small_P 12) (armv7m_small_P 8)
def bi32_armv6 : Backend := bi32Backend (bi32_armv6_P 12) (bi32_armv6_P 8)
def bi32_armv6m : Backend := bi32Backend (bi32_armv6m_P 12) (bi32_armv6m_P 8)
def bi32_armv7m : Backend := bi32Backend (bi32_armv7m_P 12) (bi32_armv7m_P 8)
def bi32_armv7m_small : Backend := bi32Backend (bi32_armv7m_small_P 12) (bi32_armv7m_small_P 8)

end Ascon.Arm
