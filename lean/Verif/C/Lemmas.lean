import Verif.C.Prog
/-!
# Lemmas about `Prog`, `run`, and memories
-/

namespace Ascon.C

open Prog

variable {α β γ σ : Type}

theorem bind_eq (p : Prog α) (f : α → Prog β) : p.bind f = p >>= f := rfl

theorem run_bind (p : Prog α) (f : α → Prog β) (mem : Mem) :
    run (p >>= f) mem = (run p mem).bind fun r => run (f r.1) r.2 := by
  show run (p.bind f) mem = _
  induction p generalizing mem with
  | ret a => rfl
  | load a k ih =>
    simp only [Prog.bind, run]
    split <;> first | rfl | exact ih _ _
  | store a b k ih =>
    simp only [Prog.bind, run]
    split <;> first | rfl | exact ih _
  | branch b k ih => simp only [Prog.bind, run]; exact ih mem
  | alloc p n k ih => simp only [Prog.bind, run]; exact ih _
  | free p n k ih => simp only [Prog.bind, run]; exact ih _
  | ub => rfl

/-- Sequential composition with a known first result. -/
theorem run_bind_of {p : Prog α} {f : α → Prog β} {mem mem' : Mem} {a : α}
    (h : run p mem = some (a, mem')) : run (p >>= f) mem = run (f a) mem' := by
  rw [run_bind, h]; rfl

@[simp] theorem run_pure (a : α) (mem : Mem) : run (Prog.ret a) mem = some (a, mem) := rfl
@[simp] theorem run_pure' (a : α) (mem : Mem) : run (Pure.pure a) mem = some (a, mem) := rfl

@[simp] theorem pure_bind' (a : α) (f : α → Prog β) : (Pure.pure a : Prog α) >>= f = f a := rfl
@[simp] theorem pure_bind'' (a : α) (f : α → Prog β) : (Prog.ret a : Prog α) >>= f = f a := rfl

theorem bind_assoc' (p : Prog α) (f : α → Prog β) (g : β → Prog γ) :
    p >>= f >>= g = p >>= fun a => f a >>= g := by
  show (p.bind f).bind g = p.bind fun a => (f a).bind g
  induction p with
  | ret a => rfl
  | load a k ih => simp only [Prog.bind, ih]
  | store a b k ih => simp only [Prog.bind, ih]
  | branch b k ih => simp only [Prog.bind, ih]
  | alloc p n k ih => simp only [Prog.bind, ih]
  | free p n k ih => simp only [Prog.bind, ih]
  | ub => rfl

theorem bind_pure' (p : Prog α) : p >>= Prog.ret = p := by
  show p.bind Prog.ret = p
  induction p with
  | ret a => rfl
  | load a k ih => simp only [Prog.bind, ih]
  | store a b k ih => simp only [Prog.bind, ih]
  | branch b k ih => simp only [Prog.bind, ih]
  | alloc p n k ih => simp only [Prog.bind, ih]
  | free p n k ih => simp only [Prog.bind, ih]
  | ub => rfl

@[simp] theorem run_ifc (c : Bool) (t e : Prog α) (mem : Mem) :
    run (Prog.ifc c t e) mem = if c then run t mem else run e mem := by
  unfold Prog.ifc; cases c <;> simp [run]

@[simp] theorem run_require (c : Bool) (mem : Mem) :
    run (require c) mem = if c then some ((), mem) else none := by
  unfold require; cases c <;> simp [run]

theorem require_bind_of {c : Bool} (h : c = true) (f : Unit → Prog β) :
    (require c >>= f) = f () := by subst h; rfl

theorem run_loop_step {cond : σ → Bool} {body : σ → Prog σ} {s s' : σ} {mem mem' : Mem} {f : Nat}
    (hc : cond s = true) (hb : run (body s) mem = some (s', mem')) :
    run (loop (f + 1) cond body s) mem = run (loop f cond body s') mem' := by
  conv => lhs; unfold loop
  rw [run_ifc, hc, if_pos rfl, run_bind_of hb]

theorem run_loop_done {cond : σ → Bool} {body : σ → Prog σ} {s : σ} {mem : Mem} {f : Nat}
    (hc : cond s = false) : run (loop (f + 1) cond body s) mem = some (s, mem) := by
  unfold loop
  simp [hc]

/-! ## Memory -/

theorem writes_nil (mem : Mem) (p : Nat) : mem.writes p [] = mem := by
  funext a
  unfold Mem.writes
  rw [dif_neg]
  simp

theorem writes_in {mem : Mem} {p a : Nat} {bs : List Byte} (h1 : p ≤ a) (h2 : a < p + bs.length) :
    mem.writes p bs a = .val (bs[a - p]'(by omega)) := by
  unfold Mem.writes
  rw [dif_pos ⟨h1, h2⟩]

theorem writes_out {mem : Mem} {p a : Nat} {bs : List Byte} (h : a < p ∨ p + bs.length ≤ a) :
    mem.writes p bs a = mem a := by
  unfold Mem.writes
  rw [dif_neg]; omega

theorem writes_append (mem : Mem) (p : Nat) (xs ys : List Byte) :
    mem.writes p (xs ++ ys) = (mem.writes p xs).writes (p + xs.length) ys := by
  funext a
  by_cases h1 : a < p
  · rw [writes_out (Or.inl h1), writes_out (by omega), writes_out (by omega)]
  · by_cases h2 : a < p + xs.length
    · rw [writes_out (p := p + xs.length) (by omega), writes_in (by omega) (by simp; omega),
        writes_in (by omega) h2, List.getElem_append_left]
    · by_cases h3 : a < p + xs.length + ys.length
      · rw [writes_in (by omega) (by simp; omega), writes_in (by omega) (by omega),
          List.getElem_append_right (by omega)]
        congr 2; omega
      · rw [writes_out (by right; simp; omega), writes_out (by omega), writes_out (by omega)]

theorem writes_comm {mem : Mem} {p q : Nat} {xs ys : List Byte}
    (h : Disjoint p xs.length q ys.length) :
    (mem.writes p xs).writes q ys = (mem.writes q ys).writes p xs := by
  funext a
  unfold Disjoint at h
  by_cases h1 : p ≤ a ∧ a < p + xs.length
  · rw [writes_out (p := q) (by omega), writes_in h1.1 h1.2, writes_in h1.1 h1.2]
  · rw [writes_out (p := p) (mem := mem.writes q ys) (by omega)]
    by_cases h2 : q ≤ a ∧ a < q + ys.length
    · rw [writes_in h2.1 h2.2, writes_in h2.1 h2.2]
    · rw [writes_out (by omega), writes_out (by omega), writes_out (by omega)]

theorem writes_cons (mem : Mem) (p : Nat) (b : Byte) (bs : List Byte) :
    mem.writes p (b :: bs) = (mem.writes p [b]).writes (p + 1) bs := by
  rw [← List.singleton_append, writes_append]; rfl

theorem Mem.Holds.nil (mem : Mem) (p : Nat) : mem.Holds p [] := by
  intro i h; simp at h

theorem holds_append {mem : Mem} {p : Nat} {xs ys : List Byte} :
    mem.Holds p (xs ++ ys) ↔ mem.Holds p xs ∧ mem.Holds (p + xs.length) ys := by
  constructor
  · intro h
    refine ⟨fun i hi => ?_, fun i hi => ?_⟩
    · have := h i (by simp; omega)
      rw [this, List.getElem_append_left]
    · have := h (xs.length + i) (by simp; omega)
      rw [Nat.add_assoc, this, List.getElem_append_right (by omega)]
      simp
  · rintro ⟨h1, h2⟩ i hi
    by_cases h : i < xs.length
    · rw [h1 i h, List.getElem_append_left]
    · simp at hi
      have := h2 (i - xs.length) (by omega)
      rw [List.getElem_append_right (by omega), ← this]
      congr 2; omega

theorem Mem.Holds.take {mem : Mem} {p : Nat} {bs : List Byte} (h : mem.Holds p bs) (n : Nat) :
    mem.Holds p (bs.take n) := by
  rw [← List.take_append_drop n bs, holds_append] at h; exact h.1

theorem Mem.Holds.drop {mem : Mem} {p : Nat} {bs : List Byte} (h : mem.Holds p bs) (n : Nat)
    (hn : n ≤ bs.length) : mem.Holds (p + n) (bs.drop n) := by
  rw [← List.take_append_drop n bs, holds_append] at h
  have := h.2
  rwa [List.length_take, Nat.min_eq_left hn] at this

theorem holds_cons {mem : Mem} {p : Nat} {b : Byte} {bs : List Byte} :
    mem.Holds p (b :: bs) ↔ (mem p).byte = some b ∧ mem.Holds (p + 1) bs := by
  rw [← List.singleton_append, holds_append]
  constructor
  · rintro ⟨h1, h2⟩; exact ⟨by simpa using h1 0 (by simp), h2⟩
  · rintro ⟨h1, h2⟩
    refine ⟨fun i hi => ?_, h2⟩
    simp at hi; subst hi; simpa using h1

theorem Mem.Holds.writes_disjoint {mem : Mem} {p q : Nat} {bs cs : List Byte} (h : mem.Holds p bs)
    (hd : Disjoint q cs.length p bs.length) : (mem.writes q cs).Holds p bs := by
  intro i hi
  unfold Disjoint at hd
  rw [writes_out (by omega)]
  exact h i hi

theorem holds_writes_self (mem : Mem) (p : Nat) (bs : List Byte) : (mem.writes p bs).Holds p bs := by
  intro i hi
  rw [writes_in (by omega) (by omega), Cell.byte_val]
  congr 2; omega

theorem Mem.Holds.ext {mem : Mem} {p : Nat} {bs cs : List Byte} (h : mem.Holds p bs)
    (h' : mem.Holds p cs) (hl : bs.length = cs.length) : bs = cs := by
  apply List.ext_getElem hl
  intro i h1 h2
  have := (h i h1).symm.trans (h' i h2)
  injection this

theorem Mem.Writable.writes {mem : Mem} {p n q : Nat} {bs : List Byte} (h : mem.Writable p n) :
    (mem.writes q bs).Writable p n := by
  intro i hi
  by_cases hc : q ≤ p + i ∧ p + i < q + bs.length
  · rw [writes_in hc.1 hc.2]; simp
  · rw [writes_out (by omega)]; exact h i hi

theorem Mem.Writable.mono {mem : Mem} {p n : Nat} (h : mem.Writable p n) {q k : Nat}
    (h1 : p ≤ q) (h2 : q + k ≤ p + n) : mem.Writable q k := by
  intro i hi
  have := h (q + i - p) (by omega)
  rwa [show p + (q + i - p) = q + i by omega] at this

/-- What has just been written can be written again. -/
theorem writable_writes_self (mem : Mem) (p : Nat) (bs : List Byte) : (mem.writes p bs).Writable p bs.length := by
  intro i hi
  rw [writes_in (by omega) (by omega)]; rfl

theorem run_loadN {mem : Mem} {p : Nat} {bs : List Byte} (h : mem.Holds p bs) :
    run (loadN p bs.length) mem = some (bs, mem) := by
  induction bs generalizing p with
  | nil => rfl
  | cons b bs ih =>
    rw [holds_cons] at h
    simp only [List.length_cons, loadN, run, h.1]
    rw [run_bind_of (ih h.2)]; rfl

theorem run_loadN' {mem : Mem} {p n : Nat} {bs : List Byte} (h : mem.Holds p bs) (hn : n = bs.length) :
    run (loadN p n) mem = some (bs, mem) := by subst hn; exact run_loadN h

theorem run_storeN {mem : Mem} {p : Nat} {bs : List Byte} (h : mem.Writable p bs.length) :
    run (storeN p bs) mem = some ((), mem.writes p bs) := by
  induction bs generalizing p mem with
  | nil => simp [storeN, writes_nil]
  | cons b bs ih =>
    have h0 := h 0 (by simp)
    simp only [storeN, run]
    rw [if_pos (by simpa using h0), ih]
    · rw [writes_cons mem p b bs]
    · exact (h.mono (by omega) (by simp; omega)).writes

theorem fill_in {mem : Mem} {p n a : Nat} {c : Cell} (h : p ≤ a ∧ a < p + n) :
    mem.fill p n c a = c := by unfold Mem.fill; rw [if_pos h]

theorem fill_out {mem : Mem} {p n a : Nat} {c : Cell} (h : a < p ∨ p + n ≤ a) :
    mem.fill p n c a = mem a := by unfold Mem.fill; rw [if_neg (by omega)]

theorem Mem.Holds.fill {mem : Mem} {p q n : Nat} {c : Cell} {bs : List Byte} (h : mem.Holds p bs)
    (hd : Disjoint q n p bs.length) : (mem.fill q n c).Holds p bs := by
  intro i hi
  unfold Disjoint at hd
  rw [fill_out (by omega)]
  exact h i hi

/-- A buffer with content cannot overlap a free area. -/
theorem Mem.Free.disjoint_holds {mem : Mem} {sp n p : Nat} {bs : List Byte} (hf : mem.Free sp n)
    (h : mem.Holds p bs) : Disjoint sp n p bs.length := by
  unfold Disjoint
  by_cases hn : n = 0
  · exact .inl hn
  by_cases hb : bs.length = 0
  · exact .inr (.inl hb)
  right; right
  by_cases h1 : sp + n ≤ p
  · exact .inl h1
  by_cases h2 : p + bs.length ≤ sp
  · exact .inr h2
  exfalso
  by_cases h3 : p ≤ sp
  · have a := hf 0 (by omega)
    have b := h (sp - p) (by omega)
    rw [show p + (sp - p) = sp + 0 by omega, a] at b; simp at b
  · have a := hf (p - sp) (by omega)
    have b := h 0 (by omega)
    rw [← show sp + (p - sp) = p + 0 by omega, a] at b; simp at b

theorem Mem.Free.disjoint_writable {mem : Mem} {sp n p k : Nat} (hf : mem.Free sp n)
    (h : mem.Writable p k) : Disjoint sp n p k := by
  unfold Disjoint
  by_cases hn : n = 0
  · exact .inl hn
  by_cases hb : k = 0
  · exact .inr (.inl hb)
  right; right
  by_cases h1 : sp + n ≤ p
  · exact .inl h1
  by_cases h2 : p + k ≤ sp
  · exact .inr h2
  exfalso
  by_cases h3 : p ≤ sp
  · have a := hf 0 (by omega)
    have b := h (sp - p) (by omega)
    rw [show p + (sp - p) = sp + 0 by omega, a] at b; simp at b
  · have a := hf (p - sp) (by omega)
    have b := h 0 (by omega)
    rw [← show sp + (p - sp) = p + 0 by omega, a] at b; simp at b

theorem writable_fill_uninit (mem : Mem) (p n : Nat) : (mem.fill p n .uninit).Writable p n := by
  intro i hi; rw [fill_in (by omega)]; simp

/-- Allocating, writing and freeing an automatic array leaves the memory unchanged. -/
theorem fill_writes_fill {mem : Mem} {p n : Nat} {bs : List Byte} (hf : mem.Free p n)
    (hb : bs.length ≤ n) :
    ((mem.fill p n .uninit).writes p bs).fill p n .unalloc = mem := by
  funext a
  by_cases h : p ≤ a ∧ a < p + n
  · rw [fill_in h]
    have := hf (a - p) (by omega)
    rw [show p + (a - p) = a by omega] at this
    exact this.symm
  · rw [fill_out (by omega), writes_out (by omega), fill_out (by omega)]

theorem fill_writes_comm {mem : Mem} {p n q : Nat} {bs : List Byte} {c : Cell}
    (hd : Disjoint p n q bs.length) :
    (mem.writes q bs).fill p n c = (mem.fill p n c).writes q bs := by
  funext a
  unfold Disjoint at hd
  by_cases h : p ≤ a ∧ a < p + n
  · rw [fill_in h, writes_out (by omega), fill_in h]
  · rw [fill_out (by omega)]
    by_cases h2 : q ≤ a ∧ a < q + bs.length
    · rw [writes_in h2.1 h2.2, writes_in h2.1 h2.2]
    · rw [writes_out (by omega), writes_out (by omega), fill_out (by omega)]

end Ascon.C
