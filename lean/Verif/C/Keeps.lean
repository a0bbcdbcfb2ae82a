import Verif.C.Lemmas
/-!
# Programs that neither allocate nor give back memory

`Keeps p`: an execution of `p` that is defined does not change which cells may be written.  So a cell that a defined execution
writes was writable before.
-/

namespace Ascon.C

open Ascon.C.Prog (require ifc loop forUp loadB storeB loadN storeN store64 load64)

/-- A defined execution does not change which cells may be written. -/
def Keeps {α : Type} (p : Prog α) : Prop := ∀ mem a m, run p mem = some (a, m) → ∀ x, (m x).rw = (mem x).rw

theorem run_bind_some {α β : Type} {p : Prog α} {f : α → Prog β} {mem m : Mem} {b : β} (h : run (p >>= f) mem = some (b, m)) :
    ∃ a m1, run p mem = some (a, m1) ∧ run (f a) m1 = some (b, m) := by
  rw [run_bind] at h
  cases hp : run p mem with
  | none => rw [hp] at h; cases h
  | some r => rw [hp] at h; exact ⟨r.1, r.2, rfl, h⟩

theorem keeps_ret {α : Type} (a : α) : Keeps (.ret a) := by
  intro mem b m h x
  cases h; rfl

theorem keeps_pure {α : Type} (a : α) : Keeps (pure a : Prog α) := keeps_ret a

theorem keeps_ub {α : Type} : Keeps (.ub : Prog α) := by
  intro mem b m h; cases h

theorem keeps_bind {α β : Type} {p : Prog α} {f : α → Prog β} (hp : Keeps p) (hf : ∀ a, Keeps (f a)) : Keeps (p >>= f) := by
  intro mem b m h x
  obtain ⟨a, m1, h1, h2⟩ := run_bind_some h
  rw [hf a m1 b m h2 x, hp mem a m1 h1 x]

theorem keeps_load {α : Type} {a : Nat} {k : Byte → Prog α} (h : ∀ b, Keeps (k b)) : Keeps (.load a k) := by
  intro mem b m hr x
  simp only [run] at hr
  cases hb : (mem a).byte with
  | none => rw [hb] at hr; cases hr
  | some v => rw [hb] at hr; exact h v mem b m hr x

theorem keeps_store {α : Type} {a : Nat} {v : Byte} {k : Prog α} (h : Keeps k) : Keeps (.store a v k) := by
  intro mem b m hr x
  simp only [run] at hr
  by_cases hw : (mem a).rw = true
  · rw [if_pos hw] at hr
    rw [h _ b m hr x]
    by_cases hx : x = a
    · subst hx
      rw [writes_in (Nat.le_refl _) (by simp), hw]; rfl
    · rw [writes_out (by simp; omega)]
  · rw [if_neg hw] at hr; cases hr

theorem keeps_branch {α : Type} {c : Bool} {k : Prog α} (h : Keeps k) : Keeps (.branch c k) := fun mem b m hr x => h mem b m hr x

theorem keeps_ifc {α : Type} {c : Bool} {t e : Prog α} (ht : Keeps t) (he : Keeps e) : Keeps (ifc c t e) := by
  unfold ifc
  refine keeps_branch ?_
  split
  · exact ht
  · exact he

theorem keeps_ite {α : Type} {c : Prop} [Decidable c] {t e : Prog α} (ht : Keeps t) (he : Keeps e) : Keeps (if c then t else e) := by
  split
  · exact ht
  · exact he

theorem keeps_require (c : Bool) : Keeps (require c) := by
  unfold require
  split
  · exact keeps_ret _
  · exact keeps_ub

theorem keeps_loop {σ : Type} {cond : σ → Bool} {body : σ → Prog σ} (h : ∀ s, Keeps (body s)) (fuel : Nat) (s : σ) :
    Keeps (loop fuel cond body s) := by
  induction fuel generalizing s with
  | zero => exact keeps_ub
  | succ f ih => exact keeps_ifc (keeps_bind (h s) ih) (keeps_ret _)

theorem keeps_forUp {σ : Type} {body : Nat → σ → Prog σ} (h : ∀ i s, Keeps (body i s)) (n i : Nat) (s : σ) :
    Keeps (forUp body n i s) := by
  induction n generalizing i s with
  | zero => exact keeps_branch (keeps_ret _)
  | succ n ih => exact keeps_branch (keeps_bind (h i s) fun s' => ih (i + 1) s')

theorem keeps_loadN (p n : Nat) : Keeps (loadN p n) := by
  induction n generalizing p with
  | zero => exact keeps_ret _
  | succ n ih => exact keeps_load fun b => keeps_bind (ih (p + 1)) fun _ => keeps_ret _

theorem keeps_storeN (p : Nat) (bs : List Byte) : Keeps (storeN p bs) := by
  induction bs generalizing p with
  | nil => exact keeps_ret _
  | cons b bs ih => exact keeps_store (ih (p + 1))

theorem keeps_loadB (p : Nat) : Keeps (loadB p) := keeps_load fun _ => keeps_ret _
theorem keeps_storeB (p : Nat) (b : Byte) : Keeps (storeB p b) := keeps_store (keeps_ret _)
theorem keeps_load64 (e : Endian) (p : Nat) : Keeps (load64 e p) := keeps_bind (keeps_loadN p 8) fun _ => keeps_ret _
theorem keeps_store64 (e : Endian) (p : Nat) (w : Word) : Keeps (store64 e p w) := keeps_storeN _ _

/-- A defined execution of `p` writes only to cells that were writable: those of `storeN` for example. -/
theorem storeN_writable {p : Nat} {bs : List Byte} {mem m : Mem} {a : Unit} (h : run (storeN p bs) mem = some (a, m)) :
    mem.Writable p bs.length := by
  induction bs generalizing p mem with
  | nil => intro i hi; simp at hi
  | cons b bs ih =>
    simp only [storeN, run] at h
    by_cases hw : (mem p).rw = true
    · rw [if_pos hw] at h
      intro i hi
      rcases Nat.eq_zero_or_pos i with rfl | h0
      · exact hw
      · have := ih h (i - 1) (by simp at hi; omega)
        rw [show p + 1 + (i - 1) = p + i by omega, writes_out (by simp; omega)] at this
        exact this
    · rw [if_neg hw] at h; cases h

/-- `Needs p q n`: a defined execution of `p` needs the `n` cells at `q` to be writable. -/
def Needs {α : Type} (p : Prog α) (q n : Nat) : Prop := ∀ mem a m, run p mem = some (a, m) → mem.Writable q n

theorem needs_storeN (p : Nat) (bs : List Byte) : Needs (storeN p bs) p bs.length := fun _ _ _ h => storeN_writable h

theorem needs_bind_left {α β : Type} {p : Prog α} {f : α → Prog β} {q n : Nat} (h : Needs p q n) : Needs (p >>= f) q n := by
  intro mem b m hr
  obtain ⟨a, m1, h1, _⟩ := run_bind_some hr
  exact h mem a m1 h1

theorem needs_bind_right {α β : Type} {p : Prog α} {f : α → Prog β} {q n : Nat} (hp : Keeps p) (h : ∀ a, Needs (f a) q n) :
    Needs (p >>= f) q n := by
  intro mem b m hr i hi
  obtain ⟨a, m1, h1, h2⟩ := run_bind_some hr
  rw [← hp mem a m1 h1]
  exact h a m1 b m h2 i hi

theorem needs_ite {α : Type} {c : Prop} [Decidable c] {t e : Prog α} {q n : Nat} (hc : c) (h : Needs t q n) :
    Needs (if c then t else e) q n := by rw [if_pos hc]; exact h

/-- A `for` loop needs what any of its iterations needs. -/
theorem needs_forUp {σ : Type} {body : Nat → σ → Prog σ} (hk : ∀ i s, Keeps (body i s)) {q n j : Nat}
    (hn : ∀ s, Needs (body j s) q n) (k i : Nat) (s : σ) (h1 : i ≤ j) (h2 : j < i + k) : Needs (forUp body k i s) q n := by
  induction k generalizing i s with
  | zero => omega
  | succ k ih =>
    intro mem a m hr
    have hr : run (body i s >>= forUp body k (i + 1)) mem = some (a, m) := hr
    by_cases hj : i = j
    · subst hj
      exact needs_bind_left (hn s) mem a m hr
    · exact needs_bind_right (hk i s) (fun s' => ih (i + 1) s' (by omega) (by omega)) mem a m hr

theorem needs_mono {α : Type} {p : Prog α} {q n q' n' : Nat} (h : Needs p q n) (h1 : q ≤ q') (h2 : q' + n' ≤ q + n) :
    Needs p q' n' := fun mem a m hr => (h mem a m hr).mono h1 h2

/-- If one of the cells is not writable, the execution is undefined. -/
theorem undefined_of_needs {α : Type} {p : Prog α} {q n i : Nat} {mem : Mem} (h : Needs p q n) (hi : i < n)
    (hx : (mem (q + i)).rw = false) : run p mem = none := by
  cases hr : run p mem with
  | none => rfl
  | some r =>
    have := h mem r.1 r.2 hr i hi
    rw [hx] at this; cases this

end Ascon.C
