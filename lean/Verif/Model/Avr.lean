import Verif.Model.Opt8
/-!
# Model of the AVR assembly permutation, avr/permutations.S

The file is the same text in all directories avr and avr_lowsize.  The instructions are executed by a model of
the AVR core: 32 byte registers, carry and T flag, the 16-bit pointer `Z = r31:r30`, a stack of bytes, and the 40
bytes of `*s`.  An access outside of the 40 bytes and a pop from the empty stack are faults.  The assembler macros
are Lean functions with the same names that return the list of instructions they expand to.

Simplifications: flags other than C and T are not modelled (`cpse` compares registers itself); the stack is not
part of the addressable memory; the return address is not modelled.
-/

namespace Ascon.Avr

open Ascon.C

/-- Instructions used in permutations.S; registers are numbered 0 … 31. -/
inductive Instr where
  | movw (d a : Nat)
  | mov (d a : Nat)
  | ldi (d : Nat) (k : Byte)
  | clr (d : Nat)
  | and (d a : Nat)
  | or (d a : Nat)
  | eor (d a : Nat)
  | com (d : Nat)
  | lsl (d : Nat)
  | rol (d : Nat)
  | ror (d : Nat)
  | adc (d a : Nat)
  | add (d a : Nat)
  | sub (d a : Nat)
  | subi (d : Nat) (k : Byte)
  | swap (d : Nat)
  | bst (d b : Nat)
  | bld (d b : Nat)
  /-- `ldd d, Z+q` -/
  | ldd (d q : Nat)
  /-- `std Z+q, a` -/
  | std (q a : Nat)
  /-- `st Z+, a` (post-increment) -/
  | stzi (a : Nat)
  /-- `sbiw ZL, k` -/
  | sbiwZ (k : Nat)
  | push (a : Nat)
  | pop (d : Nat)

/-- Machine state; `cell i` is the byte at address `s + i`, `i < 40`. -/
structure M where
  r : Nat → Byte
  c : Bool
  t : Bool
  cell : Nat → Byte
  stk : List Byte

def M.set (m : M) (d : Nat) (v : Byte) : M := { m with r := fun i => if i = d then v else m.r i }

/-- The pointer register. -/
def M.z (m : M) : BitVec 16 := m.r 31 ++ m.r 30

def M.setZ (m : M) (v : BitVec 16) : M := (m.set 30 (v.setWidth 8)).set 31 ((v >>> 8).setWidth 8)

/-- Position in `*s` of the byte at `Z + q`; `base` is the address of `*s`. -/
def M.pos (base : BitVec 16) (m : M) (q : Nat) : Option Nat :=
  let i := (m.z + BitVec.ofNat 16 q - base).toNat
  if i < 40 then some i else none

/-- One instruction (AVR Instruction Set Manual). -/
def step (base : BitVec 16) (m : M) : Instr → Option M
  | .movw d a => some ((m.set d (m.r a)).set (d + 1) (m.r (a + 1)))
  | .mov d a => some (m.set d (m.r a))
  | .ldi d k => some (m.set d k)
  | .clr d => some (m.set d 0)
  | .and d a => some (m.set d (m.r d &&& m.r a))
  | .or d a => some (m.set d (m.r d ||| m.r a))
  | .eor d a => some (m.set d (m.r d ^^^ m.r a))
  | .com d => some { m.set d (~~~(m.r d)) with c := true }
  | .lsl d => some { m.set d (m.r d <<< 1) with c := (m.r d).getLsbD 7 }
  | .rol d => some { m.set d (m.r d <<< 1 ||| (if m.c then 1 else 0)) with c := (m.r d).getLsbD 7 }
  | .ror d => some { m.set d (m.r d >>> 1 ||| (if m.c then 0x80 else 0)) with c := (m.r d).getLsbD 0 }
  | .adc d a =>
    some { m.set d (m.r d + m.r a + (if m.c then 1 else 0)) with
      c := decide ((m.r d).toNat + (m.r a).toNat + (if m.c then 1 else 0) ≥ 256) }
  | .add d a => some { m.set d (m.r d + m.r a) with c := decide ((m.r d).toNat + (m.r a).toNat ≥ 256) }
  | .sub d a => some { m.set d (m.r d - m.r a) with c := decide ((m.r d).toNat < (m.r a).toNat) }
  | .subi d k => some { m.set d (m.r d - k) with c := decide ((m.r d).toNat < k.toNat) }
  | .swap d => some (m.set d (m.r d <<< 4 ||| m.r d >>> 4))
  | .bst d b => some { m with t := (m.r d).getLsbD b }
  | .bld d b =>
    some (m.set d ((m.r d &&& ~~~((1 : Byte) <<< b)) ||| (if m.t then (1 : Byte) <<< b else 0)))
  | .ldd d q => (m.pos base q).map fun i => m.set d (m.cell i)
  | .std q a => (m.pos base q).map fun i => { m with cell := fun j => if j = i then m.r a else m.cell j }
  | .stzi a =>
    (m.pos base 0).map fun i => { m with cell := fun j => if j = i then m.r a else m.cell j }.setZ (m.z + 1)
  | .sbiwZ k =>
    some { m.setZ (m.z - BitVec.ofNat 16 k) with c := decide (m.z.toNat < k) }
  | .push a => some { m with stk := m.r a :: m.stk }
  | .pop d =>
    match m.stk with
    | [] => none
    | v :: l => some ({ m with stk := l }.set d v)

/-- A list of instructions. -/
def exec (base : BitVec 16) : List Instr → M → Option M
  | [], m => some m
  | i :: is, m => (step base m i).bind (exec base is)

/-! ## Registers, permutations.S:43-102 -/

/-- `DRn` = registers `2 n + 2, 2 n + 3` (lines 43-54); a dual register is given by its two registers. -/
def DR (n : Nat) : Nat × Nat := (2 * n + 2, 2 * n + 3)

/-- `ORn` (lines 62-64) -/
def OR (n : Nat) : List Nat := (List.range 8).map fun i => 8 * n + 2 + i
/-- `ORnR8`, `ORnR16`, `ORnR24` (lines 67-79): rotated `k` bytes right -/
def ORR (n k : Nat) : List Nat := (OR n).drop k ++ (OR n).take k
/-- `ORnL24` (lines 82-84): rotated 3 bytes left -/
def ORL24 (n : Nat) : List Nat := (OR n).drop 5 ++ (OR n).take 5
/-- `OFk` (lines 88-92) -/
def OF (k : Nat) : List Nat := (List.range 8).map fun i => k + i

/-- lines 96-105 -/
def rstop : Nat := 0
def sstop : Nat := 26
def zero : Nat := 1
def tmp : Nat := 26
def rcon : Nat := 27
def x2lsb : Nat := 18

/-! ## Macros -/

/-- permutations.S:115-117 -/
def DMOV (a b : Nat × Nat) : List Instr := [.movw a.1 b.1]
/-- permutations.S:124-127 -/
def DAND (a b : Nat × Nat) : List Instr := [.and a.1 b.1, .and a.2 b.2]
/-- permutations.S:134-137 -/
def DIOR (a b : Nat × Nat) : List Instr := [.or a.1 b.1, .or a.2 b.2]
/-- permutations.S:144-147 -/
def DXOR (a b : Nat × Nat) : List Instr := [.eor a.1 b.1, .eor a.2 b.2]
/-- permutations.S:153-156 -/
def DINV (a : Nat × Nat) : List Instr := [.com a.1, .com a.2]
/-- permutations.S:168-171 -/
def DLDZO (a : Nat × Nat) (b0 b1 : Nat) : List Instr := [.ldd a.1 b0, .ldd a.2 b1]
/-- permutations.S:179-182 -/
def DSTZI (a : Nat × Nat) : List Instr := [.stzi a.1, .stzi a.2]
/-- permutations.S:190-193 -/
def DSTZO (a : Nat × Nat) (b0 b1 : Nat) : List Instr := [.std b0 a.1, .std b1 a.2]

/-- The register `\ai` of an octa-byte operand. -/
def at' (l : List Nat) (i : Nat) : Nat := l.getD i 0

/-- permutations.S:205-211 -/
def OMOV (a b : List Nat) : List Instr :=
  [.movw (at' a 0) (at' b 0), .movw (at' a 2) (at' b 2), .movw (at' a 4) (at' b 4), .movw (at' a 6) (at' b 6)]

/-- permutations.S:217-227 -/
def OROL (a : List Nat) : List Instr :=
  [.lsl (at' a 0), .rol (at' a 1), .rol (at' a 2), .rol (at' a 3), .rol (at' a 4), .rol (at' a 5), .rol (at' a 6),
   .rol (at' a 7), .adc (at' a 0) zero]

/-- permutations.S:233-252 -/
def OROL2 (a : List Nat) : List Instr := OROL a ++ OROL a

/-- permutations.S:292-303 -/
def OROR (a : List Nat) : List Instr :=
  [.bst (at' a 0) 0, .ror (at' a 7), .ror (at' a 6), .ror (at' a 5), .ror (at' a 4), .ror (at' a 3), .ror (at' a 2),
   .ror (at' a 1), .ror (at' a 0), .bld (at' a 7) 7]

/-- permutations.S:336-367 -/
def OROR3 (a : List Nat) : List Instr := OROR a ++ OROR a ++ OROR a

/-- permutations.S:374-384 -/
def OXOR (a b : List Nat) : List Instr := (List.range 8).map fun i => .eor (at' a i) (at' b i)

/-- permutations.S:397-407 -/
def OLDZO (a b : List Nat) : List Instr := (List.range 8).map fun i => .ldd (at' a i) (at' b i)

/-- permutations.S:416-426 -/
def OSTZO (a b : List Nat) : List Instr := (List.range 8).map fun i => .std (at' b i) (at' a i)

/-- permutations.S:436-454 -/
def PROLOGUE : List Instr :=
  [.push 0, .push 2, .push 3, .push 4, .push 5, .push 6, .push 7, .push 8, .push 9, .push 10, .push 11, .push 12,
   .push 13, .push 14, .push 15, .push 16, .push 17]

/-- permutations.S:460-479 -/
def EPILOGUE : List Instr :=
  [.pop 17, .pop 16, .pop 15, .pop 14, .pop 13, .pop 12, .pop 11, .pop 10, .pop 9, .pop 8, .pop 7, .pop 6, .pop 5,
   .pop 4, .pop 3, .pop 2, .pop 0]

/-- permutations.S:484-495 -/
def INITVARS : List Instr :=
  [.movw 30 24, .ldi tmp 0x3C, .mov rstop tmp, .clr zero, .mov rcon 22, .swap rcon, .sub rcon 22, .add rcon rstop]

/-- permutations.S:500-502 -/
def ADDRCON : List Instr := [.eor x2lsb rcon]

/-- permutations.S:515-520 -/
def LDSLICE : List Instr := DLDZO (DR 0) 0 1 ++ DLDZO (DR 1) 8 9 ++ DLDZO (DR 3) 24 25 ++ DLDZO (DR 4) 32 33

/-- permutations.S:529-550 -/
def SBOXSLICE : List Instr :=
  DMOV (DR 5) (DR 0) ++ DMOV (DR 6) (DR 1) ++ DMOV (DR 7) (DR 3) ++ DXOR (DR 5) (DR 4) ++ DXOR (DR 6) (DR 8) ++
  DXOR (DR 7) (DR 4) ++ DINV (DR 4) ++ DIOR (DR 4) (DR 3) ++ DXOR (DR 4) (DR 6) ++ DXOR (DR 3) (DR 8) ++
  DIOR (DR 3) (DR 6) ++ DXOR (DR 3) (DR 5) ++ DXOR (DR 8) (DR 5) ++ DIOR (DR 8) (DR 1) ++ DXOR (DR 8) (DR 7) ++
  DINV (DR 5) ++ DAND (DR 1) (DR 5) ++ DXOR (DR 1) (DR 7) ++ DIOR (DR 0) (DR 7) ++ DXOR (DR 0) (DR 6)

/-- permutations.S:559-568 -/
def STSLICE : List Instr :=
  DSTZI (DR 8) ++ DSTZO (DR 3) 6 7 ++ DSTZO (DR 0) 22 23 ++ DSTZO (DR 1) 30 31 ++ DMOV (DR 8) (DR 9) ++
  DMOV (DR 9) (DR 10) ++ DMOV (DR 10) (DR 11) ++ DMOV (DR 11) (DR 4)

/-- permutations.S:596-604 -/
def LINSWX0 : List Instr :=
  OLDZO (OR 0) (OF 0) ++ OMOV (OR 1) (OR 0) ++ OROR3 (OR 1) ++ OXOR (OR 0) (ORR 1 2) ++ OROR (OR 1) ++
  OXOR (OR 0) (ORR 1 3) ++ OSTZO (OR 0) (OF 0)

/-- permutations.S:610-618 -/
def LINSWX1 : List Instr :=
  OLDZO (OR 0) (OF 8) ++ OMOV (OR 1) (OR 0) ++ OROL (OR 1) ++ OXOR (OR 0) (ORL24 1) ++ OROL2 (OR 1) ++
  OXOR (OR 0) (OR 1) ++ OSTZO (OR 0) (OF 8)

/-- permutations.S:625-631 -/
def LINSWX2 : List Instr :=
  OMOV (OR 1) (OR 2) ++ OROR (OR 2) ++ OXOR (OR 2) (OR 1) ++ OROL2 (OR 1) ++ OXOR (OR 2) (ORR 1 1)

/-- permutations.S:637-645 -/
def LINSWX3 : List Instr :=
  OLDZO (OR 0) (OF 24) ++ OMOV (OR 1) (OR 0) ++ OROR (OR 1) ++ OXOR (OR 0) (ORR 1 2) ++ OROR (OR 1) ++
  OXOR (OR 0) (ORR 1 1) ++ OSTZO (OR 0) (OF 24)

/-- permutations.S:651-659 -/
def LINSWX4 : List Instr :=
  OLDZO (OR 0) (OF 32) ++ OMOV (OR 1) (OR 0) ++ OROR (OR 1) ++ OXOR (OR 0) (ORL24 1) ++ OROL2 (OR 1) ++
  OXOR (OR 0) (ORR 1 1) ++ OSTZO (OR 0) (OF 32)

/-- permutations.S:664-670 -/
def LINLAYER : List Instr := LINSWX0 ++ LINSWX1 ++ LINSWX2 ++ LINSWX3 ++ LINSWX4

/-! ## Control flow -/

/-- Straight-line code; a fault is undefined behaviour. -/
def block (base : BitVec 16) (code : List Instr) (m : M) : Prog M :=
  match exec base code m with
  | none => .ub
  | some m => .ret m

/-- `loop: body; cpse a, b; rjmp loop`: every test is recorded; running out of fuel counts as
non-termination. -/
def untilEq (body : M → Prog M) (a b : Nat) : Nat → M → Prog M
  | 0, _ => .ub
  | f + 1, m => do
    let m ← body m
    .branch (m.r a != m.r b) (if m.r a = m.r b then .ret m else untilEq body a b f m)

/-- Body of the loop of SBOXLAYER, permutations.S:579-581 -/
def sliceCode : List Instr := LDSLICE ++ SBOXSLICE ++ STSLICE

/-- permutations.S:575-585 -/
def SBOXLAYER (base : BitVec 16) (m : M) : Prog M := do
  let m ← block base [.ldi sstop 8, .add sstop 30] m
  let m ← untilEq (block base sliceCode) 30 sstop 256 m
  block base [.sbiwZ 8] m

/-- Body of the round loop, permutations.S:687-690 -/
def roundBody (base : BitVec 16) (m : M) : Prog M := do
  let m ← block base ADDRCON m
  let m ← SBOXLAYER base m
  block base (LINLAYER ++ [.subi rcon 15]) m

/-- The function `P`, permutations.S:682-694. -/
def P (base : BitVec 16) (m : M) : Prog M := do
  let m ← block base (PROLOGUE ++ INITVARS ++ OLDZO (OR 2) (OF 16)) m
  let m ← untilEq (roundBody base) rcon rstop 256 m
  block base (OSTZO (OR 2) (OF 16) ++ EPILOGUE) m

/-- State of the machine at the call `P(s, nr)`: the bytes of `*s` in the cells, its address in `r25:r24`, `nr` in
`r23:r22`, anything in the other registers and flags. -/
def entry (e : Endian) (base : BitVec 16) (nr : Nat) (regs : Nat → Byte) (c t : Bool) (s : State) : M where
  r := fun i =>
    if i = 24 then base.setWidth 8
    else if i = 25 then (base >>> 8).setWidth 8
    else if i = 22 then BitVec.ofNat 8 nr
    else if i = 23 then BitVec.ofNat 8 (nr / 256)
    else regs i
  c := c
  t := t
  cell := fun k => Opt8.byteOf e (Opt8.wordOf s (k / 8)) (k % 8)
  stk := []

/-- The state in memory. -/
def cells (e : Endian) (m : M) : State :=
  let w := fun k => value64 e ((List.range 8).map fun j => m.cell (8 * k + j))
  ⟨w 0, w 1, w 2, w 3, w 4⟩

/-- A call of the function; the result includes the machine at return. -/
def call (e : Endian) (base : BitVec 16) (nr : Nat) (regs : Nat → Byte) (c t : Bool) (s : State) :
    Prog (State × M) := do
  let m ← P base (entry e base nr regs c t s)
  pure (cells e m, m)

/-- The permutation seen by the C code; no theorem depends on the values of the caller's registers and flags or
the address of the state. -/
def avr_P (nr : Nat) (e : Endian) (s : State) : Prog State := do
  let q ← call e 0x100 nr (fun _ => 0) false false s
  pure q.1

/-- The permutation of the directories avr and avr_lowsize. -/
def perms : Opt8.Perms where
  P12 := avr_P 12
  P8 := avr_P 8

end Ascon.Avr
