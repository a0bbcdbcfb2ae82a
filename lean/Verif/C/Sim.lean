import Verif.C.Lemmas
/-!
# Relational logic for constant-time claims

`Sim R p q`: the two programs touch the same addresses in the same order and take the same
branches *whatever the loaded values are*, and end in results related by `R`.  `Sim` for a program
and itself, started with different secrets, is the constant-time property; `Sim.trace_eq` turns it
into equality of traces for any two memories with the same layout.
-/

namespace Ascon.C

open Prog

inductive Sim {α β : Type} (R : α → β → Prop) : Prog α → Prog β → Prop where
  | ret {a : α} {b : β} : R a b → Sim R (.ret a) (.ret b)
  | load {a : Nat} {k : Byte → Prog α} {k' : Byte → Prog β} :
      (∀ v w, Sim R (k v) (k' w)) → Sim R (.load a k) (.load a k')
  | store {a : Nat} {v w : Byte} {k : Prog α} {k' : Prog β} :
      Sim R k k' → Sim R (.store a v k) (.store a w k')
  | branch {b : Bool} {k : Prog α} {k' : Prog β} : Sim R k k' → Sim R (.branch b k) (.branch b k')
  | alloc {p n : Nat} {k : Prog α} {k' : Prog β} : Sim R k k' → Sim R (.alloc p n k) (.alloc p n k')
  | free {p n : Nat} {k : Prog α} {k' : Prog β} : Sim R k k' → Sim R (.free p n k) (.free p n k')
  | ub : Sim R .ub .ub

/-- A cell without its contents. -/
def Cell.shape : Cell → Cell
  | .val _ => .val 0
  | .const _ => .const 0
  | c => c

/-- Same layout: the same cells are unallocated / uninitialised / initialised / read-only; contents may differ. -/
def SameLayout (m1 m2 : Mem) : Prop := ∀ a, (m1 a).shape = (m2 a).shape

theorem SameLayout.val {m1 m2 : Mem} (h : SameLayout m1 m2) (a : Nat) :
    (∃ b c, (m1 a).byte = some b ∧ (m2 a).byte = some c ∧ (m1 a).rw = (m2 a).rw) ∨
      (m1 a = .unalloc ∧ m2 a = .unalloc) ∨ (m1 a = .uninit ∧ m2 a = .uninit) := by
  have := h a
  cases h1 : m1 a <;> cases h2 : m2 a <;> simp_all [Cell.shape]

theorem SameLayout.write {m1 m2 : Mem} (h : SameLayout m1 m2) (a : Nat) (v w : Byte) :
    SameLayout (m1.writes a [v]) (m2.writes a [w]) := by
  intro x
  by_cases hx : a ≤ x ∧ x < a + 1
  · rw [writes_in hx.1 (by simpa using hx.2), writes_in hx.1 (by simpa using hx.2)]; rfl
  · rw [writes_out (by simp; omega), writes_out (by simp; omega)]; exact h x

theorem SameLayout.fill {m1 m2 : Mem} (h : SameLayout m1 m2) (p n : Nat) (c : Cell) :
    SameLayout (m1.fill p n c) (m2.fill p n c) := by
  intro x
  by_cases hx : p ≤ x ∧ x < p + n
  · rw [fill_in hx, fill_in hx]
  · rw [fill_out (by omega), fill_out (by omega)]; exact h x

/-- Equal traces from memories of the same layout. -/
theorem Sim.trace_eq {α β : Type} {R : α → β → Prop} {p : Prog α} {q : Prog β} (h : Sim R p q)
    {m1 m2 : Mem} (hm : SameLayout m1 m2) : trace p m1 = trace q m2 := by
  induction h generalizing m1 m2 with
  | ret _ => rfl
  | @load a k k' _ ih =>
    simp only [trace]
    rcases hm.val a with ⟨b, c, h1, h2, -⟩ | ⟨h1, h2⟩ | ⟨h1, h2⟩ <;> simp only [h1, h2, Cell.byte_unalloc, Cell.byte_uninit]
    rw [ih b c hm]
  | @store a v w k k' _ ih =>
    simp only [trace]
    have : (m1 a).rw = (m2 a).rw := by
      rcases hm.val a with ⟨b, c, -, -, h3⟩ | ⟨h1, h2⟩ | ⟨h1, h2⟩
      · exact h3
      · rw [h1, h2]
      · rw [h1, h2]
    rw [this, ih (hm.write a v w)]
  | branch _ ih => simp only [trace, ih hm]
  | alloc _ ih => simp only [trace]; exact ih (hm.fill _ _ _)
  | free _ ih => simp only [trace]; exact ih (hm.fill _ _ _)
  | ub => rfl

variable {α β γ δ σ : Type}

theorem Sim.bind {R : α → β → Prop} {S : γ → δ → Prop} {p : Prog α} {q : Prog β} {f : α → Prog γ}
    {g : β → Prog δ} (h : Sim R p q) (hf : ∀ a b, R a b → Sim S (f a) (g b)) :
    Sim S (p >>= f) (q >>= g) := by
  show Sim S (p.bind f) (q.bind g)
  induction h with
  | ret h => exact hf _ _ h
  | load _ ih => exact .load fun v w => ih v w
  | store _ ih => exact .store ih
  | branch _ ih => exact .branch ih
  | alloc _ ih => exact .alloc ih
  | free _ ih => exact .free ih
  | ub => exact .ub

theorem Sim.mono {R S : α → β → Prop} {p : Prog α} {q : Prog β} (h : Sim R p q)
    (hRS : ∀ a b, R a b → S a b) : Sim S p q := by
  induction h with
  | ret h => exact .ret (hRS _ _ h)
  | load _ ih => exact .load fun v w => ih v w
  | store _ ih => exact .store ih
  | branch _ ih => exact .branch ih
  | alloc _ ih => exact .alloc ih
  | free _ ih => exact .free ih
  | ub => exact .ub

/-- The relation that says nothing (secret results). -/
def Any {α β : Type} (_ : α) (_ : β) : Prop := True

theorem Sim.pure {R : α → β → Prop} {a : α} {b : β} (h : R a b) :
    Sim R (Pure.pure a : Prog α) (Pure.pure b : Prog β) := .ret h

theorem Sim.ifc {R : α → β → Prop} {c : Bool} {t e : Prog α} {t' e' : Prog β} (ht : Sim R t t')
    (he : Sim R e e') : Sim R (Prog.ifc c t e) (Prog.ifc c t' e') := by
  unfold Prog.ifc
  cases c
  · exact .branch he
  · exact .branch ht

theorem Sim.require {c : Bool} : Sim Any (Prog.require c) (Prog.require c) := by
  unfold Prog.require
  cases c
  · exact .ub
  · exact .ret trivial

theorem Sim.loadB {a : Nat} : Sim Any (Prog.loadB a) (Prog.loadB a) := .load fun _ _ => .ret trivial

theorem Sim.storeB {a : Nat} {v w : Byte} : Sim Any (Prog.storeB a v) (Prog.storeB a w) :=
  .store (.ret trivial)

theorem Sim.loop {R : σ → σ → Prop} {cond : σ → Bool} {body : σ → Prog σ}
    (hc : ∀ a b, R a b → cond a = cond b) (hb : ∀ a b, R a b → Sim R (body a) (body b)) (f : Nat)
    {s t : σ} (h : R s t) : Sim R (Prog.loop f cond body s) (Prog.loop f cond body t) := by
  induction f generalizing s t with
  | zero => exact .ub
  | succ f ih =>
    unfold Prog.loop
    rw [hc s t h]
    exact Sim.ifc (Sim.bind (hb s t h) fun a b hab => ih hab) (.ret h)

theorem Sim.forUp {R : σ → σ → Prop} {body : Nat → σ → Prog σ} {body' : Nat → σ → Prog σ}
    (hb : ∀ i a b, R a b → Sim R (body i a) (body' i b)) (n i : Nat)
    {s t : σ} (h : R s t) : Sim R (Prog.forUp body n i s) (Prog.forUp body' n i t) := by
  induction n generalizing i s t with
  | zero => exact .branch (.ret h)
  | succ n ih => exact .branch (Sim.bind (hb i s t h) fun a b hab => ih (i + 1) hab)

/-- Loaded byte strings have the requested length. -/
def SameLen (a b : List Byte) : Prop := a.length = b.length

theorem Sim.loadN (p n : Nat) : Sim SameLen (Prog.loadN p n) (Prog.loadN p n) := by
  induction n generalizing p with
  | zero => exact .ret rfl
  | succ n ih =>
    refine .load fun v w => Sim.bind (ih (p + 1)) fun a b hab => .ret ?_
    simp [SameLen] at *; exact hab

theorem Sim.storeN (p : Nat) {a b : List Byte} (h : a.length = b.length) :
    Sim Any (Prog.storeN p a) (Prog.storeN p b) := by
  induction a generalizing p b with
  | nil => cases b <;> simp_all [Prog.storeN]; exact .ret trivial
  | cons x xs ih =>
    cases b with
    | nil => simp at h
    | cons y ys => exact .store (ih (p + 1) (by simpa using h))

theorem Sim.store64 {e : Endian} {p : Nat} {v w : Word} :
    Sim Any (Prog.store64 e p v) (Prog.store64 e p w) := by
  apply Sim.storeN
  cases e <;> simp [repr64, Spec.bytes64]

theorem Sim.load64 {e : Endian} {p : Nat} :
    Sim Any (Prog.load64 e p) (Prog.load64 e p) :=
  Sim.bind (Sim.loadN p 8) fun _ _ _ => .ret trivial

/-- Constant time: from any two memories of the same layout (in particular: the same pointers and
lengths but different keys, nonces, messages, tags) the observable event sequences coincide. -/
def ConstTime {α : Type} (p : Prog α) : Prop :=
  ∀ m1 m2 : Mem, SameLayout m1 m2 → trace p m1 = trace p m2

theorem Sim.constTime {R : α → α → Prop} {p : Prog α} (h : Sim R p p) : ConstTime p :=
  fun _ _ hm => h.trace_eq hm

end Ascon.C
