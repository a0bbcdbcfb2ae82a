import Verif.C.Contracts
import Verif.C.Lemmas
/-!
# From "what the final memory is" to "which addresses are touched"

If a program runs without undefined behaviour whatever the cell `a` contains (including when it is not
allocated) and always leaves that cell as it was, then it never accesses `a`.
-/

namespace Ascon.C

open Prog

/-- Replace one cell. -/
def Mem.upd (mem : Mem) (a : Nat) (c : Cell) : Mem := fun x => if x = a then c else mem x

@[simp] theorem upd_self (mem : Mem) (a : Nat) (c : Cell) : mem.upd a c a = c := by simp [Mem.upd]
theorem upd_ne {mem : Mem} {a x : Nat} {c : Cell} (h : x ≠ a) : mem.upd a c x = mem x := by simp [Mem.upd, h]

theorem upd_upd (mem : Mem) (a : Nat) (c d : Cell) : (mem.upd a c).upd a d = mem.upd a d := by
  funext x; by_cases h : x = a <;> simp [Mem.upd, h]

theorem upd_writes {mem : Mem} {a p : Nat} {c : Cell} {bs : List Byte} (h : a < p ∨ p + bs.length ≤ a) :
    (mem.upd a c).writes p bs = (mem.writes p bs).upd a c := by
  funext x
  by_cases hx : p ≤ x ∧ x < p + bs.length
  · rw [writes_in hx.1 hx.2, upd_ne (by omega), writes_in hx.1 hx.2]
  · rw [writes_out (by omega)]
    by_cases hxa : x = a
    · subst hxa; simp
    · rw [upd_ne hxa, upd_ne hxa, writes_out (by omega)]

theorem upd_fill_out {mem : Mem} {a p n : Nat} {c d : Cell} (h : ¬ (p ≤ a ∧ a < p + n)) :
    (mem.upd a c).fill p n d = (mem.fill p n d).upd a c := by
  funext x
  by_cases hxa : x = a
  · subst hxa; rw [upd_self, fill_out (by omega), upd_self]
  · rw [upd_ne hxa]
    by_cases hx : p ≤ x ∧ x < p + n
    · rw [fill_in hx, fill_in hx]
    · rw [fill_out (by omega), fill_out (by omega), upd_ne hxa]

theorem upd_fill_in {mem : Mem} {a p n : Nat} {c d : Cell} (h : p ≤ a ∧ a < p + n) :
    (mem.upd a c).fill p n d = mem.fill p n d := by
  funext x
  by_cases hx : p ≤ x ∧ x < p + n
  · rw [fill_in hx, fill_in hx]
  · rw [fill_out (by omega), fill_out (by omega), upd_ne (by omega)]

/-- The address of a memory event. -/
def Event.addr : Event → Option Nat
  | .read a => some a
  | .write a => some a
  | .branch _ => none

theorem no_touch {α : Type} (p : Prog α) (mem : Mem) (a : Nat) (h0 : mem a = .unalloc)
    (hr : run p mem ≠ none)
    (hv : ∀ v : Byte, ∃ r m', run p (mem.upd a (.val v)) = some (r, m') ∧ m' a = .val v) :
    (∀ ev ∈ trace p mem, ev.addr ≠ some a) ∧
    ∀ c, trace p (mem.upd a c) = trace p mem := by
  induction p generalizing mem with
  | ret _ => simp [trace]
  | load b k ih =>
    have hb : b ≠ a := by
      rintro rfl
      simp [run, h0] at hr
    simp only [run, upd_ne hb] at hr hv
    simp only [trace, upd_ne hb]
    cases hm : (mem b).byte with
    | none => simp [hm] at hr
    | some w =>
      simp only [hm] at hr hv ⊢
      have := ih w mem h0 hr hv
      refine ⟨?_, fun c => by rw [this.2 c]⟩
      intro ev hev
      rcases List.mem_cons.mp hev with rfl | hev
      · simpa [Event.addr] using hb
      · exact this.1 ev hev
  | store b w k ih =>
    have hb : b ≠ a := by
      rintro rfl
      simp [run, h0] at hr
    have hu : (mem b).rw = true := by
      cases hm : (mem b).rw
      · simp [run, hm] at hr
      · rfl
    have hw : ∀ c, (mem.upd a c).writes b [w] = (mem.writes b [w]).upd a c :=
      fun c => upd_writes (by simp; omega)
    have e1 : run (.store b w k) mem = run k (mem.writes b [w]) := by
      simp only [run, if_pos hu]
    have e2 : ∀ c, run (.store b w k) (mem.upd a c) = run k ((mem.writes b [w]).upd a c) := by
      intro c; simp only [run, upd_ne hb, hw, if_pos hu]
    have t1 : trace (.store b w k) mem = .write b :: trace k (mem.writes b [w]) := by
      simp only [trace, if_pos hu]
    have t2 : ∀ c, trace (.store b w k) (mem.upd a c) = .write b :: trace k ((mem.writes b [w]).upd a c) := by
      intro c; simp only [trace, upd_ne hb, hw, if_pos hu]
    rw [e1] at hr
    have := ih (mem.writes b [w]) (by rw [writes_out (by simp; omega)]; exact h0) hr
      (fun v => by have := hv v; rwa [e2] at this)
    refine ⟨?_, fun c => by rw [t1, t2, this.2 c]⟩
    rw [t1]
    intro ev hev
    rcases List.mem_cons.mp hev with rfl | hev
    · simpa [Event.addr] using hb
    · exact this.1 ev hev
  | branch b k ih =>
    have := ih mem h0 hr hv
    refine ⟨?_, fun c => by simp only [trace]; rw [this.2 c]⟩
    intro ev hev
    rcases List.mem_cons.mp hev with rfl | hev
    · simp [Event.addr]
    · exact this.1 ev hev
  | alloc q n k ih =>
    by_cases hq : q ≤ a ∧ a < q + n
    · exfalso
      obtain ⟨r0, m0, h1, h2⟩ := hv 0
      obtain ⟨r1, m1, h3, h4⟩ := hv 1
      simp only [run, upd_fill_in hq] at h1 h3
      rw [h1] at h3
      injection h3 with h3; injection h3 with _ h3
      rw [← h3, h2] at h4
      revert h4; decide
    · simp only [run, upd_fill_out hq] at hr hv
      have := ih _ (by rw [fill_out (by omega)]; exact h0) hr hv
      refine ⟨?_, fun c => by simp only [trace]; rw [upd_fill_out hq, this.2 c]⟩
      intro ev hev
      exact this.1 ev hev
  | free q n k ih =>
    by_cases hq : q ≤ a ∧ a < q + n
    · exfalso
      obtain ⟨r0, m0, h1, h2⟩ := hv 0
      obtain ⟨r1, m1, h3, h4⟩ := hv 1
      simp only [run, upd_fill_in hq] at h1 h3
      rw [h1] at h3
      injection h3 with h3; injection h3 with _ h3
      rw [← h3, h2] at h4
      revert h4; decide
    · simp only [run, upd_fill_out hq] at hr hv
      have := ih _ (by rw [fill_out (by omega)]; exact h0) hr hv
      refine ⟨?_, fun c => by simp only [trace]; rw [upd_fill_out hq, this.2 c]⟩
      intro ev hev
      exact this.1 ev hev
  | ub => simp [run] at hr

/-- A program that works whatever cell `a` is, and leaves it alone, never accesses it. -/
theorem untouched {α : Type} (p : Prog α) (mem : Mem) (a : Nat)
    (h : ∀ c, ∃ r m', run p (mem.upd a c) = some (r, m') ∧ m' a = c) :
    ∀ ev ∈ trace p mem, ev.addr ≠ some a := by
  have h1 := no_touch p (mem.upd a .unalloc) a (by simp)
    (by obtain ⟨r, m', hr, _⟩ := h .unalloc; rw [hr]; simp)
    (fun v => by rw [upd_upd]; exact h (.val v))
  have h2 := h1.2 (mem a)
  rw [upd_upd] at h2
  have h3 : mem.upd a (mem a) = mem := by
    funext x; by_cases hx : x = a
    · subst hx; simp
    · rw [upd_ne hx]
  rw [h3] at h2
  rw [h2]
  exact h1.1

theorem Mem.Holds.upd {mem : Mem} {p a : Nat} {bs : List Byte} {c : Cell} (h : mem.Holds p bs)
    (ha : ¬ (p ≤ a ∧ a < p + bs.length)) : (mem.upd a c).Holds p bs := fun i hi => by
  rw [upd_ne (by omega)]; exact h i hi

theorem Mem.Writable.upd {mem : Mem} {p a n : Nat} {c : Cell} (h : mem.Writable p n)
    (ha : ¬ (p ≤ a ∧ a < p + n)) : (mem.upd a c).Writable p n := fun i hi => by
  rw [upd_ne (by omega)]; exact h i hi

theorem Mem.Free.upd {mem : Mem} {p a n : Nat} {c : Cell} (h : mem.Free p n)
    (ha : ¬ (p ≤ a ∧ a < p + n)) : (mem.upd a c).Free p n := fun i hi => by
  rw [upd_ne (by omega)]; exact h i hi

end Ascon.C
