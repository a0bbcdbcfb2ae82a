import Verif.C.Lemmas
/-!
# What is in a block of memory when it is given back

`free(p)`, and the end of the scope of an automatic array, give back memory without changing it: whoever gets it next can read
what was left there.  `freed` lists, in order, the blocks given back during an execution, with the contents at that moment.
-/

namespace Ascon.C

/-- The `n` cells at `p`; nothing else. -/
def Mem.only (mem : Mem) (p n : Nat) : Mem := fun a => if p ≤ a ∧ a < p + n then mem a else .unalloc

/-- The blocks given back, each as a memory in which only the block exists. -/
def freed {α : Type} : Prog α → Mem → List Mem
  | .ret _, _ => []
  | .load a k, mem => match (mem a).byte with | some b => freed (k b) mem | none => []
  | .store a b k, mem => if (mem a).rw then freed k (mem.writes a [b]) else []
  | .branch _ k, mem => freed k mem
  | .alloc p n k, mem => freed k (mem.fill p n .uninit)
  | .free p n k, mem => mem.only p n :: freed k (mem.fill p n .unalloc)
  | .ub, _ => []

theorem freed_bind {α β : Type} {p : Prog α} {f : α → Prog β} {mem m : Mem} {a : α} (h : run p mem = some (a, m)) :
    freed (p >>= f) mem = freed p mem ++ freed (f a) m := by
  show freed (p.bind f) mem = _
  induction p generalizing mem with
  | ret x =>
    simp only [run, Option.some.injEq, Prod.mk.injEq] at h
    obtain ⟨rfl, rfl⟩ := h
    rfl
  | load x k ih =>
    simp only [Prog.bind, run, freed] at h ⊢
    cases hb : (mem x).byte with
    | none => rw [hb] at h; cases h
    | some b => rw [hb] at h; exact ih b h
  | store x b k ih =>
    simp only [Prog.bind, run, freed] at h ⊢
    by_cases hw : (mem x).rw = true
    · rw [if_pos hw] at h ⊢; rw [if_pos hw]; exact ih h
    · rw [if_neg hw] at h; cases h
  | branch b k ih => exact ih h
  | alloc p n k ih => exact ih h
  | free p n k ih =>
    simp only [Prog.bind, run, freed] at h ⊢
    rw [ih h, List.cons_append]
  | ub => cases h

/-- What is given back after `p`. -/
theorem mem_freed_bind {α β : Type} {p : Prog α} {f : α → Prog β} {mem m : Mem} {a : α} {B : Mem} (h : run p mem = some (a, m))
    (hB : B ∈ freed (f a) m) : B ∈ freed (p >>= f) mem := by
  rw [freed_bind h]; exact List.mem_append_right _ hB

theorem freed_ifc_neg {α : Type} {c : Bool} {t e : Prog α} {mem : Mem} (h : c = false) :
    freed (Prog.ifc c t e) mem = freed e mem := by
  subst h; rfl

theorem freed_ifc_pos {α : Type} {c : Bool} {t e : Prog α} {mem : Mem} (h : c = true) :
    freed (Prog.ifc c t e) mem = freed t mem := by
  subst h; rfl

theorem holds_only {mem : Mem} {p n q : Nat} {D : List Byte} (h : mem.Holds q D) (h1 : p ≤ q) (h2 : q + D.length ≤ p + n) :
    (mem.only p n).Holds q D := by
  intro i hi
  have := h i hi
  unfold Mem.only
  rw [if_pos (by omega)]
  exact this

end Ascon.C
