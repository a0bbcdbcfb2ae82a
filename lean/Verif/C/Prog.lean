import Verif.Spec.Bytes
/-!
# Semantics of the C fragment used by ascon-c

A C function body is translated into a `Prog`: a tree of primitive effects.
* `load a`, `store a b`: access to one byte of memory;
* `branch b`: the outcome of a conditional or loop test (recorded in the trace);
* `alloc p n` / `free p n`: entry/exit of the scope of an automatic array;
* `ub`: undefined behaviour.

Simplifications: pointers are natural numbers in one flat address space (pointer
provenance is not modelled, out-of-bounds accesses are detected because the cells
outside the buffers are unallocated); scalars, structs of scalars and arrays that are only
indexed with literals live in Lean variables, not in memory.
-/

namespace Ascon.C

/-- One byte of memory. -/
inductive Cell where
  | unalloc
  | uninit
  | val (b : Byte)
  /-- an initialised byte that must not be written (read-only memory, or an object of another thread) -/
  | const (b : Byte)
deriving DecidableEq

/-- The value of an initialised cell. -/
def Cell.byte : Cell → Option Byte
  | .val b => some b
  | .const b => some b
  | _ => none

/-- May the cell be written? -/
def Cell.rw : Cell → Bool
  | .uninit => true
  | .val _ => true
  | _ => false

@[simp] theorem Cell.byte_val (b : Byte) : (Cell.val b).byte = some b := rfl
@[simp] theorem Cell.byte_const (b : Byte) : (Cell.const b).byte = some b := rfl
@[simp] theorem Cell.byte_uninit : Cell.uninit.byte = none := rfl
@[simp] theorem Cell.byte_unalloc : Cell.unalloc.byte = none := rfl
@[simp] theorem Cell.rw_val (b : Byte) : (Cell.val b).rw = true := rfl
@[simp] theorem Cell.rw_const (b : Byte) : (Cell.const b).rw = false := rfl
@[simp] theorem Cell.rw_uninit : Cell.uninit.rw = true := rfl
@[simp] theorem Cell.rw_unalloc : Cell.unalloc.rw = false := rfl

abbrev Mem := Nat → Cell

inductive Prog (α : Type) : Type where
  | ret (a : α)
  | load (addr : Nat) (k : Byte → Prog α)
  | store (addr : Nat) (b : Byte) (k : Prog α)
  | branch (b : Bool) (k : Prog α)
  | alloc (p n : Nat) (k : Prog α)
  | free (p n : Nat) (k : Prog α)
  | ub

namespace Prog

protected def bind {α β : Type} : Prog α → (α → Prog β) → Prog β
  | .ret a, f => f a
  | .load a k, f => .load a fun b => (k b).bind f
  | .store a b k, f => .store a b (k.bind f)
  | .branch b k, f => .branch b (k.bind f)
  | .alloc p n k, f => .alloc p n (k.bind f)
  | .free p n k, f => .free p n (k.bind f)
  | .ub, _ => .ub

instance : Monad Prog where
  pure := Prog.ret
  bind := Prog.bind

end Prog

/-- Overwrite `bs.length` bytes starting at `p`. -/
def Mem.writes (mem : Mem) (p : Nat) (bs : List Byte) : Mem := fun a =>
  if h : p ≤ a ∧ a < p + bs.length then
    .val (bs[a - p]'(by omega))
  else mem a

/-- Set all cells of `[p, p+n)`. -/
def Mem.fill (mem : Mem) (p n : Nat) (c : Cell) : Mem := fun a =>
  if p ≤ a ∧ a < p + n then c else mem a

/-- Execution: result and final memory, or `none` for undefined behaviour. -/
def run {α : Type} : Prog α → Mem → Option (α × Mem)
  | .ret a, mem => some (a, mem)
  | .load a k, mem =>
    match (mem a).byte with
    | some b => run (k b) mem
    | none => none
  | .store a b k, mem =>
    if (mem a).rw then run k (mem.writes a [b]) else none
  | .branch _ k, mem => run k mem
  | .alloc p n k, mem =>
    run k (mem.fill p n .uninit)
  | .free p n k, mem => run k (mem.fill p n .unalloc)
  | .ub, _ => none

/-- What an observer of the address bus and of the program counter sees. -/
inductive Event where
  | read (a : Nat)
  | write (a : Nat)
  | branch (b : Bool)
deriving DecidableEq

/-- The sequence of observable events of an execution (up to undefined behaviour, if any). -/
def trace {α : Type} : Prog α → Mem → List Event
  | .ret _, _ => []
  | .load a k, mem =>
    .read a :: (match (mem a).byte with | some b => trace (k b) mem | none => [])
  | .store a b k, mem =>
    .write a :: (if (mem a).rw then trace k (mem.writes a [b]) else [])
  | .branch b k, mem => .branch b :: trace k mem
  | .alloc p n k, mem => trace k (mem.fill p n .uninit)
  | .free p n k, mem => trace k (mem.fill p n .unalloc)
  | .ub, _ => []

/-! ## Derived statements -/

namespace Prog

/-- The C expression is only defined under `c` (e.g. a shift amount below the width). -/
def require (c : Bool) : Prog Unit := if c then .ret () else .ub

/-- Read one byte `*a`. -/
def loadB (a : Nat) : Prog Byte := .load a .ret

/-- Write one byte `*a = b`. -/
def storeB (a : Nat) (b : Byte) : Prog Unit := .store a b (.ret ())

/-- `if (c) t else e`, with the outcome visible in the trace. -/
def ifc {α : Type} (c : Bool) (t e : Prog α) : Prog α := .branch c (if c then t else e)

/-- `while (cond) body`.  `fuel` bounds the number of iterations; running out of it is
reported as `ub`, so any statement of the form `run … = some …` includes termination. -/
def loop {σ : Type} (fuel : Nat) (cond : σ → Bool) (body : σ → Prog σ) (s : σ) : Prog σ :=
  match fuel with
  | 0 => .ub
  | f + 1 => ifc (cond s) (body s >>= loop f cond body) (.ret s)

/-- `for (i = start; i < start + count; ++i) body(i)` -/
def forUp {σ : Type} (body : Nat → σ → Prog σ) : (count start : Nat) → σ → Prog σ
  | 0, _, s => .branch false (.ret s)
  | n + 1, i, s => .branch true (body i s >>= forUp body n (i + 1))

/-- Read `n` consecutive bytes (`memcpy` from memory into a local object; `for` loop over `bytes[i]`). -/
def loadN (p : Nat) : Nat → Prog (List Byte)
  | 0 => .ret []
  | n + 1 => .load p fun b => loadN (p + 1) n >>= fun bs => .ret (b :: bs)

/-- Write consecutive bytes. -/
def storeN (p : Nat) : List Byte → Prog Unit
  | [] => .ret ()
  | b :: bs => .store p b (storeN (p + 1) bs)

end Prog

/-! ## Objects of type `unsigned long long` in memory -/

/-- Byte order of the target. -/
inductive Endian where
  | little
  | big
deriving DecidableEq

/-- Object representation of a 64-bit integer. -/
def repr64 : Endian → Word → List Byte
  | .little, w => Spec.bytes64 w
  | .big, w => (Spec.bytes64 w).reverse

/-- Value of an object representation. -/
def value64 : Endian → List Byte → Word
  | .little, bs => Spec.le64 bs
  | .big, bs => Spec.le64 bs.reverse

/-- `*p = w` for `unsigned long long* p`. -/
def Prog.store64 (e : Endian) (p : Nat) (w : Word) : Prog Unit := storeN p (repr64 e w)

/-- `*p` for `unsigned long long* p`. -/
def Prog.load64 (e : Endian) (p : Nat) : Prog Word := loadN p 8 >>= fun bs => .ret (value64 e bs)

/-! ## Contracts on memory -/

/-- The bytes `bs` are stored at `p` (in memory that may be read-only). -/
def Mem.Holds (mem : Mem) (p : Nat) (bs : List Byte) : Prop :=
  ∀ i (h : i < bs.length), (mem (p + i)).byte = some bs[i]

/-- `[p, p+n)` is allocated and not read-only. -/
def Mem.Writable (mem : Mem) (p n : Nat) : Prop := ∀ i, i < n → (mem (p + i)).rw = true

/-- `[p, p+n)` is unallocated (room for an automatic array). -/
def Mem.Free (mem : Mem) (p n : Nat) : Prop := ∀ i, i < n → mem (p + i) = .unalloc

/-- `[p, p+n)` and `[q, q+k)` do not overlap (an empty range overlaps nothing). -/
def Disjoint (p n q k : Nat) : Prop := n = 0 ∨ k = 0 ∨ p + n ≤ q ∨ q + k ≤ p

end Ascon.C
