import Verif.C.Footprint
/-!
# Concurrent calls: interleaving semantics

A `Prog` is executed one memory access (or branch, or entry/exit of the scope of an automatic array) at a time by `tick`.
`exec σ` runs a family of threads on one shared memory in the order given by the schedule `σ`: the i-th entry says which
thread makes the next step.  `none` is undefined behaviour in some thread.
-/

namespace Ascon.C

open Prog

variable {α : Type}

/-- One step of a thread; a finished thread stays as it is. -/
def tick : Prog α → Mem → Option (Prog α × Mem)
  | .ret a, mem => some (.ret a, mem)
  | .load a k, mem =>
    match (mem a).byte with
    | some b => some (k b, mem)
    | none => none
  | .store a b k, mem => if (mem a).rw then some (k, mem.writes a [b]) else none
  | .branch _ k, mem => some (k, mem)
  | .alloc p n k, mem => some (k, mem.fill p n .uninit)
  | .free p n k, mem => some (k, mem.fill p n .unalloc)
  | .ub, _ => none

/-- Run the threads `ps` on the shared memory under the schedule. -/
def exec {ι : Type} [DecidableEq ι] : List ι → (ι → Prog α) → Mem → Option ((ι → Prog α) × Mem)
  | [], ps, mem => some (ps, mem)
  | i :: σ, ps, mem =>
    match tick (ps i) mem with
    | none => none
    | some (p, mem') => exec σ (fun j => if j = i then p else ps j) mem'

/-! ## Footprints -/

/-- All loads of the execution from `mem` are from addresses in `R`; all stores, and all automatic arrays, are in `W`. -/
def Access (R W : Nat → Prop) : Prog α → Mem → Prop
  | .ret _, _ => True
  | .load a k, mem => R a ∧ ∀ b, (mem a).byte = some b → Access R W (k b) mem
  | .store a b k, mem => W a ∧ ((mem a).rw = true → Access R W k (mem.writes a [b]))
  | .branch _ k, mem => Access R W k mem
  | .alloc p n k, mem => (∀ x, p ≤ x → x < p + n → W x) ∧ Access R W k (mem.fill p n .uninit)
  | .free p n k, mem => (∀ x, p ≤ x → x < p + n → W x) ∧ Access R W k (mem.fill p n .unalloc)
  | .ub, _ => True

/-- Number of steps to the end. -/
def steps : Prog α → Mem → Nat
  | .ret _, _ => 0
  | .load a k, mem => (match (mem a).byte with | some b => steps (k b) mem | none => 0) + 1
  | .store a b k, mem => steps k (mem.writes a [b]) + 1
  | .branch _ k, mem => steps k mem + 1
  | .alloc p n k, mem => steps k (mem.fill p n .uninit) + 1
  | .free p n k, mem => steps k (mem.fill p n .unalloc) + 1
  | .ub, _ => 0

theorem Access.inter {ι : Type} {P : ι → Prop} {R W : ι → Nat → Prop} : ∀ (p : Prog α) (mem : Mem),
    (∀ i, P i → Access (R i) (W i) p mem) → Access (fun a => ∀ i, P i → R i a) (fun a => ∀ i, P i → W i a) p mem := by
  intro p
  induction p with
  | ret _ => intros; trivial
  | load a k ih =>
    intro mem h
    exact ⟨fun i hi => (h i hi).1, fun b hb => ih b mem fun i hi => (h i hi).2 b hb⟩
  | store a b k ih =>
    intro mem h
    exact ⟨fun i hi => (h i hi).1, fun hw => ih _ fun i hi => (h i hi).2 hw⟩
  | branch b k ih => intro mem h; exact ih mem h
  | alloc q n k ih =>
    intro mem h
    exact ⟨fun x h1 h2 i hi => (h i hi).1 x h1 h2, ih _ fun i hi => (h i hi).2⟩
  | free q n k ih =>
    intro mem h
    exact ⟨fun x h1 h2 i hi => (h i hi).1 x h1 h2, ih _ fun i hi => (h i hi).2⟩
  | ub => intros; trivial

theorem Access.mono {R W R' W' : Nat → Prop} (hR : ∀ a, R a → R' a) (hW : ∀ a, W a → W' a) : ∀ (p : Prog α) (mem : Mem),
    Access R W p mem → Access R' W' p mem := by
  intro p
  induction p with
  | ret _ => intros; trivial
  | load a k ih => intro mem h; exact ⟨hR _ h.1, fun b hb => ih b mem (h.2 b hb)⟩
  | store a b k ih => intro mem h; exact ⟨hW _ h.1, fun hw => ih _ (h.2 hw)⟩
  | branch b k ih => intro mem h; exact ih mem h
  | alloc q n k ih => intro mem h; exact ⟨fun x h1 h2 => hW _ (h.1 x h1 h2), ih _ h.2⟩
  | free q n k ih => intro mem h; exact ⟨fun x h1 h2 => hW _ (h.1 x h1 h2), ih _ h.2⟩
  | ub => intros; trivial

theorem Access.and {R W R' W' : Nat → Prop} (p : Prog α) (mem : Mem) (h : Access R W p mem) (h' : Access R' W' p mem) :
    Access (fun a => R a ∧ R' a) (fun a => W a ∧ W' a) p mem := by
  have := Access.inter (ι := Bool) (P := fun _ => True) (R := fun i => if i then R else R') (W := fun i => if i then W else W') p mem
    (fun i _ => by cases i <;> assumption)
  exact this.mono (fun a h => ⟨h true trivial, h false trivial⟩) (fun a h => ⟨h true trivial, h false trivial⟩)

/-! ## Footprints from results

If the program also works when the cell `a` is read-only, and leaves it read-only, then it does not write it. -/

/-- Once a cell is not read-only it never becomes read-only. -/
theorem run_not_const : ∀ (p : Prog α) (mem mem' : Mem) (r : α) (a : Nat), (∀ b, mem a ≠ .const b) →
    run p mem = some (r, mem') → ∀ b, mem' a ≠ .const b := by
  intro p
  induction p with
  | ret r =>
    intro mem mem' r' a h hr
    simp only [run, Option.some.injEq, Prod.mk.injEq] at hr
    rw [← hr.2]; exact h
  | load x k ih =>
    intro mem mem' r a h hr
    simp only [run] at hr
    cases hb : (mem x).byte with
    | none => simp [hb] at hr
    | some b => simp only [hb] at hr; exact ih b mem mem' r a h hr
  | store x b k ih =>
    intro mem mem' r a h hr
    simp only [run] at hr
    cases hw : (mem x).rw
    · simp [hw] at hr
    · rw [hw, if_pos rfl] at hr
      refine ih _ mem' r a (fun b' => ?_) hr
      by_cases hx : x ≤ a ∧ a < x + 1
      · rw [writes_in hx.1 (by simpa using hx.2)]; simp
      · rw [writes_out (by simp; omega)]; exact h b'
  | branch b k ih => intro mem mem' r a h hr; exact ih mem mem' r a h hr
  | alloc q n k ih =>
    intro mem mem' r a h hr
    refine ih _ mem' r a (fun b' => ?_) hr
    by_cases hx : q ≤ a ∧ a < q + n
    · rw [fill_in hx]; simp
    · rw [fill_out (by omega)]; exact h b'
  | free q n k ih =>
    intro mem mem' r a h hr
    refine ih _ mem' r a (fun b' => ?_) hr
    by_cases hx : q ≤ a ∧ a < q + n
    · rw [fill_in hx]; simp
    · rw [fill_out (by omega)]; exact h b'
  | ub => intro mem mem' r a h hr; simp [run] at hr

/-- A cell that is read-only before and after is not written; and neither is it if it is made writable. -/
theorem access_of_const : ∀ (p : Prog α) (mem mem' : Mem) (r : α) (a : Nat) (b : Byte), (mem a).byte = some b →
    run p (mem.upd a (.const b)) = some (r, mem') → mem' a = .const b →
    Access (fun _ => True) (fun x => x ≠ a) p mem := by
  intro p
  induction p with
  | ret r => intros; trivial
  | load x k ih =>
    intro mem mem' r a b hb hr hm
    refine ⟨trivial, fun v hv => ?_⟩
    have hx : ((mem.upd a (.const b)) x).byte = some v := by
      by_cases hxa : x = a
      · subst hxa; rw [upd_self]; rw [hb] at hv; exact hv
      · rw [upd_ne hxa]; exact hv
    simp only [run, hx] at hr
    exact ih v mem mem' r a b hb hr hm
  | store x w k ih =>
    intro mem mem' r a b hb hr hm
    have hxa : x ≠ a := by
      rintro rfl
      simp [run] at hr
    refine ⟨hxa, fun hw => ?_⟩
    simp only [run, upd_ne hxa, if_pos hw] at hr
    rw [upd_writes (by simp; omega)] at hr
    exact ih _ mem' r a b (by rw [writes_out (by simp; omega)]; exact hb) hr hm
  | branch c k ih => intro mem mem' r a b hb hr hm; exact ih mem mem' r a b hb hr hm
  | alloc q n k ih =>
    intro mem mem' r a b hb hr hm
    by_cases hq : q ≤ a ∧ a < q + n
    · exact absurd hm (run_not_const k _ mem' r a (by rw [fill_in hq]; simp) hr b)
    · refine ⟨fun x h1 h2 => by omega, ?_⟩
      rw [run, upd_fill_out hq] at hr
      exact ih _ mem' r a b (by rw [fill_out (by omega)]; exact hb) hr hm
  | free q n k ih =>
    intro mem mem' r a b hb hr hm
    by_cases hq : q ≤ a ∧ a < q + n
    · exact absurd hm (run_not_const k _ mem' r a (by rw [fill_in hq]; simp) hr b)
    · refine ⟨fun x h1 h2 => by omega, ?_⟩
      rw [run, upd_fill_out hq] at hr
      exact ih _ mem' r a b (by rw [fill_out (by omega)]; exact hb) hr hm
  | ub => intros; trivial

/-- A cell that may be anything (even not allocated) before, and is the same after, is not accessed. -/
theorem access_of_any : ∀ (p : Prog α) (mem : Mem) (a : Nat),
    (∀ c, ∃ r m', run p (mem.upd a c) = some (r, m') ∧ m' a = c) → Access (fun x => x ≠ a) (fun x => x ≠ a) p mem := by
  intro p
  induction p with
  | ret r => intros; trivial
  | load x k ih =>
    intro mem a h
    have hxa : x ≠ a := by
      rintro rfl
      obtain ⟨r, m', hr, -⟩ := h .unalloc
      simp [run] at hr
    refine ⟨hxa, fun v hv => ih v mem a fun c => ?_⟩
    obtain ⟨r, m', hr, hm⟩ := h c
    simp only [run, upd_ne hxa, hv] at hr
    exact ⟨r, m', hr, hm⟩
  | store x w k ih =>
    intro mem a h
    have hxa : x ≠ a := by
      rintro rfl
      obtain ⟨r, m', hr, -⟩ := h .unalloc
      simp [run] at hr
    refine ⟨hxa, fun hw => ih _ a fun c => ?_⟩
    obtain ⟨r, m', hr, hm⟩ := h c
    simp only [run, upd_ne hxa, if_pos hw] at hr
    rw [upd_writes (by simp; omega)] at hr
    exact ⟨r, m', hr, hm⟩
  | branch c k ih => intro mem a h; exact ih mem a h
  | alloc q n k ih =>
    intro mem a h
    by_cases hq : q ≤ a ∧ a < q + n
    · obtain ⟨r, m', hr, hm⟩ := h (.const 0)
      exact absurd hm (run_not_const k _ m' r a (by rw [fill_in hq]; simp) hr 0)
    · refine ⟨fun x h1 h2 => by omega, ih _ a fun c => ?_⟩
      obtain ⟨r, m', hr, hm⟩ := h c
      rw [run, upd_fill_out hq] at hr
      exact ⟨r, m', hr, hm⟩
  | free q n k ih =>
    intro mem a h
    by_cases hq : q ≤ a ∧ a < q + n
    · obtain ⟨r, m', hr, hm⟩ := h (.const 0)
      exact absurd hm (run_not_const k _ m' r a (by rw [fill_in hq]; simp) hr 0)
    · refine ⟨fun x h1 h2 => by omega, ih _ a fun c => ?_⟩
      obtain ⟨r, m', hr, hm⟩ := h c
      rw [run, upd_fill_out hq] at hr
      exact ⟨r, m', hr, hm⟩
  | ub => intros; trivial

/-- The footprint of a program from its behaviour: cells outside of `R` and `W` may be anything, cells in `R` and not in
`W` may be read-only. -/
theorem access_of {R W : Nat → Prop} (p : Prog α) (mem : Mem)
    (h1 : ∀ a, ¬ R a → ¬ W a → ∀ c, ∃ r m', run p (mem.upd a c) = some (r, m') ∧ m' a = c)
    (h2 : ∀ a, R a → ¬ W a → ∃ b r m', (mem a).byte = some b ∧ run p (mem.upd a (.const b)) = some (r, m') ∧ m' a = .const b) :
    Access (fun a => R a ∨ W a) W p mem := by
  have hA : Access (fun x => ∀ a, (¬ R a ∧ ¬ W a) → x ≠ a) (fun x => ∀ a, (¬ R a ∧ ¬ W a) → x ≠ a) p mem :=
    Access.inter p mem fun a ha => access_of_any p mem a (h1 a ha.1 ha.2)
  have hB : Access (fun x => ∀ a : Nat, (R a ∧ ¬ W a) → True) (fun x => ∀ a, (R a ∧ ¬ W a) → x ≠ a) p mem :=
    Access.inter p mem fun a ha => by
      obtain ⟨b, r, m', hb, hr, hm⟩ := h2 a ha.1 ha.2
      exact access_of_const p mem m' r a b hb hr hm
  refine (Access.and p mem hA hB).mono (fun x hx => ?_) (fun x hx => ?_)
  · apply Classical.byContradiction
    intro hn
    rw [not_or] at hn
    exact hx.1 x hn rfl
  · apply Classical.byContradiction
    intro hn
    by_cases hr : R x
    · exact hx.2 x ⟨hr, hn⟩ rfl
    · exact hx.1 x ⟨hr, hn⟩ rfl

/-! ## Threads that do not interfere -/

/-- The state of a thread in the middle of a concurrent execution: there is a private memory from which the rest of it,
alone, would give the same result; and the shared memory agrees with it on the thread's footprint. -/
structure Going (R W : Nat → Prop) (mem0 : Mem) (r : α) (fin : Mem) (n : Nat) (p : Prog α) (mem : Mem) : Prop where
  ex : ∃ own : Mem, run p own = some (r, fin) ∧ Access R W p own ∧ steps p own = n ∧
    (∀ a, R a ∨ W a → mem a = own a) ∧ ∀ a, ¬ W a → own a = mem0 a

theorem Going.tick {R W : Nat → Prop} {mem0 : Mem} {r : α} {fin : Mem} {n : Nat} {p : Prog α} {mem : Mem}
    (h : Going R W mem0 r fin n p mem) : ∃ p' mem', tick p mem = some (p', mem') ∧ (∀ a, ¬ W a → mem' a = mem a) ∧
      Going R W mem0 r fin (n - 1) p' mem' := by
  obtain ⟨own, hr, hA, hn, hag, hfr⟩ := h.ex
  cases p with
  | ret x => exact ⟨_, _, rfl, fun _ _ => rfl, own, hr, hA, by rw [← hn]; rfl, hag, hfr⟩
  | load a k =>
    have ha := hag a (.inl hA.1)
    cases hb : (own a).byte with
    | none => simp [run, hb] at hr
    | some b =>
      simp only [run, hb] at hr
      refine ⟨k b, mem, by simp only [C.tick, ha, hb], fun _ _ => rfl, own, hr, hA.2 b hb, ?_, hag, hfr⟩
      rw [← hn]; simp only [steps, hb]; omega
  | store a b k =>
    have ha := hag a (.inr hA.1)
    cases hw : (own a).rw
    · simp [run, hw] at hr
    · simp only [run, hw, if_true] at hr
      refine ⟨k, mem.writes a [b], by simp only [C.tick, ha, hw, if_true], fun x hx => ?_, own.writes a [b], hr,
        hA.2 hw, ?_, fun x hx => ?_, fun x hx => ?_⟩
      · rw [writes_out]
        have : x ≠ a := by rintro rfl; exact hx hA.1
        simp; omega
      · rw [← hn]; simp only [steps]; omega
      · by_cases hxa : a ≤ x ∧ x < a + 1
        · rw [writes_in hxa.1 (by simpa using hxa.2), writes_in hxa.1 (by simpa using hxa.2)]
        · rw [writes_out (by simp; omega), writes_out (by simp; omega)]; exact hag x hx
      · have : x ≠ a := by rintro rfl; exact hx hA.1
        rw [writes_out (by simp; omega)]; exact hfr x hx
  | branch b k =>
    refine ⟨k, mem, rfl, fun _ _ => rfl, own, hr, hA, ?_, hag, hfr⟩
    rw [← hn]; simp only [steps]; omega
  | alloc q m k =>
    refine ⟨k, _, rfl, fun x hx => ?_, _, hr, hA.2, ?_, fun x hx => ?_, fun x hx => ?_⟩
    · rw [fill_out]
      apply Classical.byContradiction
      intro hc; exact hx (hA.1 x (by omega) (by omega))
    · rw [← hn]; simp only [steps]; omega
    · by_cases hq : q ≤ x ∧ x < q + m
      · rw [fill_in hq, fill_in hq]
      · rw [fill_out (by omega), fill_out (by omega)]; exact hag x hx
    · rw [fill_out]
      · exact hfr x hx
      · apply Classical.byContradiction
        intro hc; exact hx (hA.1 x (by omega) (by omega))
  | free q m k =>
    refine ⟨k, _, rfl, fun x hx => ?_, _, hr, hA.2, ?_, fun x hx => ?_, fun x hx => ?_⟩
    · rw [fill_out]
      apply Classical.byContradiction
      intro hc; exact hx (hA.1 x (by omega) (by omega))
    · rw [← hn]; simp only [steps]; omega
    · by_cases hq : q ≤ x ∧ x < q + m
      · rw [fill_in hq, fill_in hq]
      · rw [fill_out (by omega), fill_out (by omega)]; exact hag x hx
    · rw [fill_out]
      · exact hfr x hx
      · apply Classical.byContradiction
        intro hc; exact hx (hA.1 x (by omega) (by omega))
  | ub => simp [run] at hr

/-- Steps of other threads do not disturb. -/
theorem Going.frame {R W : Nat → Prop} {mem0 : Mem} {r : α} {fin : Mem} {n : Nat} {p : Prog α} {mem mem' : Mem}
    (h : Going R W mem0 r fin n p mem) (hm : ∀ a, R a ∨ W a → mem' a = mem a) : Going R W mem0 r fin n p mem' := by
  obtain ⟨own, hr, hA, hn, hag, hfr⟩ := h.ex
  exact ⟨own, hr, hA, hn, fun a ha => (hm a ha).trans (hag a ha), hfr⟩

/-- No step left: the thread has returned. -/
theorem Going.done {R W : Nat → Prop} {mem0 : Mem} {r : α} {fin : Mem} {p : Prog α} {mem : Mem}
    (h : Going R W mem0 r fin 0 p mem) : p = .ret r ∧ ∀ a, W a → mem a = fin a := by
  obtain ⟨own, hr, hA, hn, hag, hfr⟩ := h.ex
  cases p with
  | ret x =>
    simp only [run, Option.some.injEq, Prod.mk.injEq] at hr
    obtain ⟨rfl, rfl⟩ := hr
    exact ⟨rfl, fun a ha => hag a (.inr ha)⟩
  | ub => simp [run] at hr
  | load a k => simp [steps] at hn
  | store a b k => simp [steps] at hn
  | branch b k => simp [steps] at hn
  | alloc q m k => simp [steps] at hn
  | free q m k => simp [steps] at hn

/-- Threads whose write sets are disjoint from the footprints of the others behave, under every schedule, as if each was
alone. -/
theorem exec_noninterfering {ι : Type} [DecidableEq ι] {R W : ι → Nat → Prop} {mem0 : Mem} {r : ι → α} {fin : ι → Mem}
    (hsep : ∀ i j, i ≠ j → ∀ a, W i a → ¬ R j a ∧ ¬ W j a) :
    ∀ (σ : List ι) (n : ι → Nat) (ps : ι → Prog α) (mem : Mem),
      (∀ i, Going (R i) (W i) mem0 (r i) (fin i) (n i) (ps i) mem) → (∀ a, (∀ i, ¬ W i a) → mem a = mem0 a) →
      ∃ ps' mem', exec σ ps mem = some (ps', mem') ∧ (∀ a, (∀ i, ¬ W i a) → mem' a = mem0 a) ∧
        ∀ i, Going (R i) (W i) mem0 (r i) (fin i) (n i - σ.count i) (ps' i) mem' := by
  intro σ
  induction σ with
  | nil => intro n ps mem h hm; exact ⟨ps, mem, rfl, hm, fun i => by simpa using h i⟩
  | cons i σ ih =>
    intro n ps mem h hm
    obtain ⟨p', mem1, ht, hw, hg⟩ := (h i).tick
    have step : ∀ j, Going (R j) (W j) mem0 (r j) (fin j) (if j = i then n i - 1 else n j) (if j = i then p' else ps j) mem1 := by
      intro j
      by_cases hj : j = i
      · subst hj; simpa using hg
      · simp only [if_neg hj]
        refine (h j).frame fun a ha => hw a fun hwa => ?_
        have := hsep i j (fun e => hj e.symm) a hwa
        exact ha.elim this.1 this.2
    obtain ⟨ps', mem', he, h1, h2⟩ := ih _ _ mem1 step (fun a ha => (hw a (ha i)).trans (hm a ha))
    refine ⟨ps', mem', by simp only [exec, ht]; exact he, h1, fun j => ?_⟩
    have := h2 j
    by_cases hj : j = i
    · subst hj
      rw [if_pos rfl, Nat.sub_sub, Nat.add_comm] at this
      rwa [List.count_cons_self]
    · rw [if_neg hj] at this
      rwa [List.count_cons_of_ne (fun e => hj e.symm)]

end Ascon.C
