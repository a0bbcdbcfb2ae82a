import Verif.C.Asm
/-!
# Operands of an inline assembly statement and the registers the compiler chooses for them

`asm volatile("…" : [x] "+r"(a), [t] "=r"(b) : [k] "i"(c), [q] "ri"(d) :)` names operands; the compiler chooses the machine registers.  What it
guarantees (GCC manual, "Extended Asm"): different output operands (`"+r"`, `"=r"`) get different registers; the
input values are in the registers of the `"+r"` and input operands when the statement starts; an
`"i"` operand is replaced by the constant; an input register may be shared with a `"=r"` output that
is not marked `&`.  What it relies on: no other register changes and the stack pointer is restored.

`Verif.C.Asm` runs code whose registers are the operand names themselves; here the names are replaced by the
chosen registers and the code runs on the machine.
-/

namespace Ascon.Asm

variable {w : Nat}

/-- A choice of the compiler: the machine register of every operand. -/
abbrev Alloc := Nat → Nat

/-- The operands of a statement: `inout` are the `"+r"` operands, `out` the `"=r"` operands, `imm` the `"i"` operands. -/
structure Operands where
  inout : List Nat
  out : List Nat
  imm : List Nat := []

/-- Output operands have different registers. -/
def Operands.Valid (o : Operands) (ρ : Alloc) : Prop :=
  ∀ i ∈ o.inout ++ o.out, ∀ j ∈ o.inout ++ o.out, ρ i = ρ j → i = j

/-- The operand text with the chosen register or constant inserted. -/
def Opnd.place (o : Operands) (ρ : Alloc) (val : Nat → BitVec w) : Opnd w → Opnd w
  | .imm v => .imm v
  | .reg r => if r ∈ o.imm then .imm (val r) else .reg (ρ r)
  | .lsl r k => .lsl (ρ r) k
  | .lsr r k => .lsr (ρ r) k
  | .ror r k => .ror (ρ r) k

/-- The instruction with the chosen registers and constants inserted. -/
def Instr.place (o : Operands) (ρ : Alloc) (val : Nat → BitVec w) : Instr w → Instr w
  | .bit op d a b => .bit op (ρ d) (a.place o ρ val) (b.place o ρ val)
  | .mov d a => .mov (ρ d) (a.place o ρ val)
  | .mvn d a => .mvn (ρ d) (a.place o ρ val)
  | .add d a b => .add (ρ d) (a.place o ρ val) (b.place o ρ val)
  | .sub d a b => .sub (ρ d) (a.place o ρ val) (b.place o ρ val)
  | .rorReg d a m => .rorReg (ρ d) (ρ a) (ρ m)
  | .cmp a b => .cmp (a.place o ρ val) (b.place o ρ val)
  | .push r => .push (ρ r)
  | .pop r => .pop (ρ r)
  | .ldrb d a off => .ldrb (ρ d) (ρ a) off
  | .ldrbPost d a inc => .ldrbPost (ρ d) (ρ a) inc
  | .sri d a k => .sri (ρ d) (ρ a) k
  | .sli d a k => .sli (ρ d) (ρ a) k
  | .fsr d a b k => .fsr (ρ d) (ρ a) (ρ b) k

/-- The machine `m` just before the statement: the values of the `"+r"` operands are in their registers.  Nothing
is known about the registers of the `"=r"` operands, all other registers, the stack and the flags. -/
def Operands.Loaded (o : Operands) (ρ : Alloc) (val : Nat → BitVec w) (m : M w) : Prop :=
  ∀ i ∈ o.inout, m.r (ρ i) = val i

/-- The compiler is told about every change: registers other than those of the operands keep their contents, and so does
the stack. -/
def Operands.Preserved (o : Operands) (ρ : Alloc) (m m' : M w) : Prop :=
  (∀ j, (∀ i ∈ o.inout ++ o.out, ρ i ≠ j) → m'.r j = m.r j) ∧ m'.stk = m.stk

/-- Move the values of the `"+r"` operands into their registers, starting from a machine `m`. -/
def Operands.load (o : Operands) (ρ : Alloc) (val : Nat → BitVec w) (m : M w) : M w :=
  { m with r := fun j => match o.inout.find? (fun i => ρ i = j) with
    | some i => val i
    | none => m.r j }

theorem Operands.loaded_load {o : Operands} {ρ : Alloc} (h : o.Valid ρ) (val : Nat → BitVec w) (m : M w) :
    o.Loaded ρ val (o.load ρ val m) := by
  intro i hi
  show (match o.inout.find? (fun k => ρ k = ρ i) with | some k => val k | none => m.r (ρ i)) = val i
  cases hf : o.inout.find? (fun k => decide (ρ k = ρ i)) with
  | none =>
    have := List.find?_eq_none.mp hf i hi
    simp at this
  | some k =>
    have h1 := List.find?_some hf
    have h2 := List.mem_of_find?_eq_some hf
    have : k = i := h k (List.mem_append_left _ h2) i (List.mem_append_left _ hi) (by simpa using h1)
    simp [this]

end Ascon.Asm
