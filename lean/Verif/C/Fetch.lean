import Verif.C.Threads
import Verif.C.Sim
/-!
# Access lists

`readsOf t` and `writesOf t` are the addresses read and written in a trace, in order, with repetitions.
`Acc R p rs ws` says: whatever bytes the loads of `p` return, `p` reads exactly the addresses `rs` and writes exactly
the addresses `ws` (unless it runs into undefined behaviour), and a value it returns satisfies `R`.
-/

namespace Ascon.C

/-- Addresses read, in order. -/
def readsOf (t : List Event) : List Nat := t.filterMap fun | .read a => some a | _ => none

/-- Addresses written, in order. -/
def writesOf (t : List Event) : List Nat := t.filterMap fun | .write a => some a | _ => none

inductive Acc {α : Type} (R : α → Prop) : Prog α → List Nat → List Nat → Prop where
  | ret {a : α} (h : R a) : Acc R (.ret a) [] []
  | load {a : Nat} {k : Byte → Prog α} {rs ws : List Nat} (h : ∀ b, Acc R (k b) rs ws) : Acc R (.load a k) (a :: rs) ws
  | store {a : Nat} {b : Byte} {k : Prog α} {rs ws : List Nat} (h : Acc R k rs ws) : Acc R (.store a b k) rs (a :: ws)
  | branch {b : Bool} {k : Prog α} {rs ws : List Nat} (h : Acc R k rs ws) : Acc R (.branch b k) rs ws
  | alloc {p n : Nat} {k : Prog α} {rs ws : List Nat} (h : Acc R k rs ws) : Acc R (.alloc p n k) rs ws
  | free {p n : Nat} {k : Prog α} {rs ws : List Nat} (h : Acc R k rs ws) : Acc R (.free p n k) rs ws
  | ub {rs ws : List Nat} : Acc R .ub rs ws

variable {α β σ : Type}

theorem Acc.sound {R : α → Prop} {p : Prog α} {rs ws : List Nat} (h : Acc R p rs ws) :
    ∀ (mem mem' : Mem) (r : α), run p mem = some (r, mem') →
      R r ∧ readsOf (trace p mem) = rs ∧ writesOf (trace p mem) = ws := by
  induction h with
  | ret h =>
    intro mem mem' r hr
    simp only [run, Option.some.injEq, Prod.mk.injEq] at hr
    obtain ⟨rfl, rfl⟩ := hr
    exact ⟨h, rfl, rfl⟩
  | @load a k rs ws h ih =>
    intro mem mem' r hr
    unfold run at hr
    unfold trace
    cases hb : (mem a).byte with
    | none => rw [hb] at hr; cases hr
    | some b =>
      rw [hb] at hr
      obtain ⟨h1, h2, h3⟩ := ih b mem mem' r hr
      exact ⟨h1, by simp only [readsOf] at h2 ⊢; rw [List.filterMap_cons, h2],
        by simp only [writesOf] at h3 ⊢; rw [List.filterMap_cons, h3]⟩
  | @store a b k rs ws h ih =>
    intro mem mem' r hr
    unfold run at hr
    unfold trace
    by_cases hw : (mem a).rw = true
    · rw [if_pos hw] at hr
      rw [if_pos hw]
      obtain ⟨h1, h2, h3⟩ := ih _ mem' r hr
      exact ⟨h1, by simp only [readsOf] at h2 ⊢; rw [List.filterMap_cons, h2],
        by simp only [writesOf] at h3 ⊢; rw [List.filterMap_cons, h3]⟩
    · rw [if_neg hw] at hr; cases hr
  | branch h ih =>
    intro mem mem' r hr
    obtain ⟨h1, h2, h3⟩ := ih mem mem' r hr
    exact ⟨h1, by unfold trace; simp only [readsOf] at h2 ⊢; rw [List.filterMap_cons, h2],
        by unfold trace; simp only [writesOf] at h3 ⊢; rw [List.filterMap_cons, h3]⟩
  | alloc h ih => intro mem mem' r hr; exact ih _ mem' r hr
  | free h ih => intro mem mem' r hr; exact ih _ mem' r hr
  | ub => intro mem mem' r hr; cases hr

theorem Acc.bind {R : α → Prop} {S : β → Prop} {p : Prog α} {f : α → Prog β} {r1 w1 r2 w2 : List Nat}
    (h : Acc R p r1 w1) (hf : ∀ a, R a → Acc S (f a) r2 w2) : Acc S (p >>= f) (r1 ++ r2) (w1 ++ w2) := by
  show Acc S (p.bind f) _ _
  induction h with
  | ret h => exact hf _ h
  | load h ih => exact .load ih
  | store h ih => exact .store ih
  | branch h ih => exact .branch ih
  | alloc h ih => exact .alloc ih
  | free h ih => exact .free ih
  | ub => exact .ub

/-- `Acc.bind` with the lists given up to equality. -/
theorem Acc.bind' {R : α → Prop} {S : β → Prop} {p : Prog α} {f : α → Prog β} {r w r1 w1 r2 w2 : List Nat}
    (h : Acc R p r1 w1) (hf : ∀ a, R a → Acc S (f a) r2 w2) (hr : r = r1 ++ r2) (hw : w = w1 ++ w2) :
    Acc S (p >>= f) r w := by
  subst hr; subst hw; exact h.bind hf

/-- A first part that does not access memory. -/
theorem Acc.bind0 {R : α → Prop} {S : β → Prop} {p : Prog α} {f : α → Prog β} {r w : List Nat}
    (h : Acc R p [] []) (hf : ∀ a, R a → Acc S (f a) r w) : Acc S (p >>= f) r w :=
  h.bind' hf rfl rfl

/-- A last part that does not access memory. -/
theorem Acc.then0 {R : α → Prop} {S : β → Prop} {p : Prog α} {f : α → Prog β} {r w : List Nat}
    (h : Acc R p r w) (hf : ∀ a, R a → Acc S (f a) [] []) : Acc S (p >>= f) r w :=
  h.bind' hf (by simp) (by simp)

theorem Acc.mono {R S : α → Prop} {p : Prog α} {rs ws : List Nat} (h : Acc R p rs ws) (hRS : ∀ a, R a → S a) :
    Acc S p rs ws := by
  induction h with
  | ret h => exact .ret (hRS _ h)
  | load h ih => exact .load ih
  | store h ih => exact .store ih
  | branch h ih => exact .branch ih
  | alloc h ih => exact .alloc ih
  | free h ih => exact .free ih
  | ub => exact .ub

/-- No information about the result. -/
def Any1 {α : Type} (_ : α) : Prop := True

theorem Acc.any {R : α → Prop} {p : Prog α} {rs ws : List Nat} (h : Acc R p rs ws) : Acc Any1 p rs ws :=
  h.mono fun _ _ => trivial

theorem Acc.cast {R : α → Prop} {p : Prog α} {rs ws rs' ws' : List Nat} (h : Acc R p rs ws) (hr : rs = rs')
    (hw : ws = ws') : Acc R p rs' ws' := by subst hr; subst hw; exact h

theorem Acc.pure {R : α → Prop} {a : α} (h : R a) : Acc R (Pure.pure a : Prog α) [] [] := .ret h

theorem Acc.ifc {R : α → Prop} {c : Bool} {t f : Prog α} {rs ws : List Nat} (ht : c = true → Acc R t rs ws)
    (hf : c = false → Acc R f rs ws) : Acc R (Prog.ifc c t f) rs ws := by
  unfold Prog.ifc
  refine .branch ?_
  cases c with
  | true => exact ht rfl
  | false => exact hf rfl

theorem Acc.require {c : Bool} : Acc (fun _ => c = true) (Prog.require c) [] [] := by
  unfold Prog.require
  cases c with
  | true => exact .ret rfl
  | false => exact .ub

theorem Acc.loadB {a : Nat} : Acc Any1 (Prog.loadB a) [a] [] := .load fun _ => .ret trivial

theorem Acc.storeB {a : Nat} {b : Byte} : Acc Any1 (Prog.storeB a b) [] [a] := .store (.ret trivial)

theorem Acc.loadN (p n : Nat) : Acc (fun bs => bs.length = n) (Prog.loadN p n) (List.range' p n) [] := by
  induction n generalizing p with
  | zero => exact .ret rfl
  | succ n ih =>
    unfold Prog.loadN
    rw [List.range'_succ]
    exact .load fun b => (ih (p + 1)).then0 fun bs h => .ret (by simp [h])

theorem Acc.storeN (p : Nat) (bs : List Byte) : Acc Any1 (Prog.storeN p bs) [] (List.range' p bs.length) := by
  induction bs generalizing p with
  | nil => exact .ret trivial
  | cons b bs ih =>
    rw [List.length_cons, List.range'_succ]
    exact .store (ih (p + 1))

theorem length_repr64' (e : Endian) (w : Word) : (repr64 e w).length = 8 := by
  cases e <;> simp [repr64, Spec.bytes64]

theorem Acc.store64 {e : Endian} {p : Nat} {w : Word} : Acc Any1 (Prog.store64 e p w) [] (List.range' p 8) := by
  have := Acc.storeN p (repr64 e w)
  rw [length_repr64'] at this
  exact this

theorem Acc.load64 {e : Endian} {p : Nat} : Acc Any1 (Prog.load64 e p) (List.range' p 8) [] :=
  (Acc.loadN p 8).then0 fun _ _ => .ret trivial

/-- Loops: `At i s` describes the state before iteration `i`, `q` is the number of iterations, `rf i`, `wf i` are the
accesses from iteration `i` on. -/
theorem Acc.loop {At : Nat → σ → Prop} {q : Nat} {rf wf : Nat → List Nat} {cond : σ → Bool} {body : σ → Prog σ}
    (hc : ∀ i s, i ≤ q → At i s → cond s = decide (i < q))
    (hb : ∀ i s, i < q → At i s → ∃ r w, Acc (At (i + 1)) (body s) r w ∧ rf i = r ++ rf (i + 1) ∧ wf i = w ++ wf (i + 1))
    (hr : rf q = []) (hw : wf q = []) :
    ∀ (fuel n i : Nat) (s : σ), i + n = q → n < fuel → At i s →
      Acc (At q) (Prog.loop fuel cond body s) (rf i) (wf i) := by
  intro fuel
  induction fuel with
  | zero => intro n i s _ h _; omega
  | succ f ih =>
    intro n i s hi hf hs
    unfold Prog.loop
    refine Acc.ifc (fun h => ?_) (fun h => ?_)
    · rw [hc i s (by omega) hs] at h
      have hlt : i < q := of_decide_eq_true h
      obtain ⟨r, w, h1, h2, h3⟩ := hb i s hlt hs
      rw [h2, h3]
      exact h1.bind fun s' hs' => ih (n - 1) (i + 1) s' (by omega) (by omega) hs'
    · rw [hc i s (by omega) hs] at h
      have hge : ¬ i < q := of_decide_eq_false h
      have : i = q := by omega
      subst this
      rw [hr, hw]
      exact .ret hs

/-- The same starting with iteration 0. -/
theorem Acc.loop0 {At : Nat → σ → Prop} {q : Nat} {rf wf : Nat → List Nat} {cond : σ → Bool} {body : σ → Prog σ}
    {fuel : Nat} {s : σ} (hs : At 0 s)
    (hc : ∀ i s, i ≤ q → At i s → cond s = decide (i < q))
    (hb : ∀ i s, i < q → At i s → ∃ r w, Acc (At (i + 1)) (body s) r w ∧ rf i = r ++ rf (i + 1) ∧ wf i = w ++ wf (i + 1))
    (hr : rf q = []) (hw : wf q = []) (hf : q < fuel) :
    Acc (At q) (Prog.loop fuel cond body s) (rf 0) (wf 0) :=
  Acc.loop hc hb hr hw fuel q 0 s (by omega) hf hs

theorem Acc.forUp {At : Nat → σ → Prop} {rf wf : Nat → List Nat} {body : Nat → σ → Prog σ} {q : Nat}
    (hb : ∀ i s, i < q → At i s → ∃ r w, Acc (At (i + 1)) (body i s) r w ∧ rf i = r ++ rf (i + 1) ∧
      wf i = w ++ wf (i + 1)) (hr : rf q = []) (hw : wf q = []) :
    ∀ (n i : Nat) (s : σ), i + n = q → At i s → Acc (At q) (Prog.forUp body n i s) (rf i) (wf i) := by
  intro n
  induction n with
  | zero =>
    intro i s hi hs
    have : i = q := by omega
    subst this
    rw [hr, hw]
    exact .branch (.ret hs)
  | succ n ih =>
    intro i s hi hs
    obtain ⟨r, w, h1, h2, h3⟩ := hb i s (by omega) hs
    rw [h2, h3]
    unfold Prog.forUp
    exact .branch (h1.bind fun s' hs' => ih (i + 1) s' (by omega) hs')

/-! ## Programs that do not access memory -/

/-- A program that runs in every memory and leaves every memory as it is accesses nothing. -/
theorem Acc.of_silent (p : Prog α) (h : ∀ mem : Mem, ∃ r, run p mem = some (r, mem)) : Acc Any1 p [] [] := by
  induction p with
  | ret a => exact .ret trivial
  | load a k ih =>
    obtain ⟨r, hr⟩ := h fun _ => .unalloc
    simp [run] at hr
  | store a b k ih =>
    obtain ⟨r, hr⟩ := h fun _ => .unalloc
    simp [run] at hr
  | branch b k ih => exact .branch (ih h)
  | alloc p n k ih =>
    by_cases hn : n = 0
    · refine .alloc (ih fun mem => ?_)
      obtain ⟨r, hr⟩ := h mem
      unfold run at hr
      have : mem.fill p n .uninit = mem := by funext a; unfold Mem.fill; rw [if_neg (by omega)]
      rw [this] at hr
      exact ⟨r, hr⟩
    · obtain ⟨r, hr⟩ := h fun _ => .const 0
      unfold run at hr
      exact absurd rfl (run_not_const k _ _ r p (by
        intro b; unfold Mem.fill; rw [if_pos (by omega)]; simp) hr 0)
  | free p n k ih =>
    by_cases hn : n = 0
    · refine .free (ih fun mem => ?_)
      obtain ⟨r, hr⟩ := h mem
      unfold run at hr
      have : mem.fill p n .unalloc = mem := by funext a; unfold Mem.fill; rw [if_neg (by omega)]
      rw [this] at hr
      exact ⟨r, hr⟩
    · obtain ⟨r, hr⟩ := h fun _ => .const 0
      unfold run at hr
      exact absurd rfl (run_not_const k _ _ r p (by
        intro b; unfold Mem.fill; rw [if_pos (by omega)]; simp) hr 0)
  | ub =>
    obtain ⟨r, hr⟩ := h fun _ => .unalloc
    cases hr

/-- Programs that are indistinguishable on the bus access the same addresses. -/
theorem Acc.of_sim {R : α → β → Prop} {p : Prog α} {q : Prog β} (h : Sim R p q) :
    ∀ {S : β → Prop} {rs ws : List Nat}, Acc S q rs ws → Acc Any1 p rs ws := by
  induction h with
  | ret h => intro S rs ws hq; cases hq; exact .ret trivial
  | load h ih => intro S rs ws hq; cases hq with | load h' => exact .load fun b => ih b b (h' b)
  | store h ih => intro S rs ws hq; cases hq with | store h' => exact .store (ih h')
  | branch h ih => intro S rs ws hq; cases hq with | branch h' => exact .branch (ih h')
  | alloc h ih => intro S rs ws hq; cases hq with | alloc h' => exact .alloc (ih h')
  | free h ih => intro S rs ws hq; cases hq with | free h' => exact .free (ih h')
  | ub => intro S rs ws hq; exact .ub

/-! ## Lists of addresses -/

theorem range'_split (p n m : Nat) : List.range' p (n + m) = List.range' p n ++ List.range' (p + n) m := by
  rw [List.range'_append_1]

/-- The addresses outside of `[p, p + n)`. -/
def outside (p n : Nat) (l : List Nat) : List Nat := l.filter fun a => !decide (p ≤ a ∧ a < p + n)

theorem outside_append (p n : Nat) (l l' : List Nat) : outside p n (l ++ l') = outside p n l ++ outside p n l' :=
  List.filter_append ..

theorem outside_nil (p n : Nat) : outside p n [] = [] := rfl

theorem outside_range' {p n q k : Nat} (h : Disjoint p n q k) : outside p n (List.range' q k) = List.range' q k := by
  unfold outside
  rw [List.filter_eq_self]
  intro a ha
  rw [List.mem_range'_1] at ha
  unfold Disjoint at h
  simp only [Bool.not_eq_true', decide_eq_false_iff_not]
  omega

theorem outside_inside {p n q k : Nat} (h1 : p ≤ q) (h2 : q + k ≤ p + n) : outside p n (List.range' q k) = [] := by
  unfold outside
  rw [List.filter_eq_nil_iff]
  intro a ha
  rw [List.mem_range'_1] at ha
  simp only [Bool.not_eq_true', decide_eq_false_iff_not]
  omega


/-! ## Blocks -/

theorem range'_join {p n q m k : Nat} (hq : q = p + n) (hk : k = n + m) :
    List.range' p n ++ List.range' q m = List.range' p k := by
  subst hq; subst hk; exact (range'_split p n m).symm

/-- A loop whose iterations read blocks of `Rr` bytes and write blocks of `Rw` bytes. -/
theorem Acc.blocks {At : Nat → σ → Prop} {q pr pw Rr Rw : Nat} {cond : σ → Bool} {body : σ → Prog σ}
    {fuel : Nat} {s : σ} (hs : At 0 s)
    (hc : ∀ i s, i ≤ q → At i s → cond s = decide (i < q))
    (hb : ∀ i s, i < q → At i s →
      Acc (At (i + 1)) (body s) (List.range' (pr + i * Rr) Rr) (List.range' (pw + i * Rw) Rw))
    (hf : q < fuel) :
    Acc (At q) (Prog.loop fuel cond body s) (List.range' pr (q * Rr)) (List.range' pw (q * Rw)) := by
  have key : ∀ (i p R : Nat), i < q → List.range' (p + i * R) ((q - i) * R) =
      List.range' (p + i * R) R ++ List.range' (p + (i + 1) * R) ((q - (i + 1)) * R) := by
    intro i p R hi
    refine (range'_join ?_ ?_).symm
    · rw [Nat.add_mul, Nat.one_mul, Nat.add_assoc]
    · rw [show q - i = (q - (i + 1)) + 1 by omega, Nat.add_mul, Nat.one_mul, Nat.add_comm]
  have := Acc.loop0 (rf := fun i => List.range' (pr + i * Rr) ((q - i) * Rr))
    (wf := fun i => List.range' (pw + i * Rw) ((q - i) * Rw)) (fuel := fuel) hs hc
    (fun i s hi hs => ⟨_, _, hb i s hi hs, key i pr Rr hi, key i pw Rw hi⟩) (by simp) (by simp) hf
  simpa using this

theorem Acc.forBlocks {At : Nat → σ → Prop} {q pr pw Rr Rw : Nat} {body : Nat → σ → Prog σ} {s : σ} (hs : At 0 s)
    (hb : ∀ i s, i < q → At i s →
      Acc (At (i + 1)) (body i s) (List.range' (pr + i * Rr) Rr) (List.range' (pw + i * Rw) Rw)) :
    Acc (At q) (Prog.forUp body q 0 s) (List.range' pr (q * Rr)) (List.range' pw (q * Rw)) := by
  have key : ∀ (i p R : Nat), i < q → List.range' (p + i * R) ((q - i) * R) =
      List.range' (p + i * R) R ++ List.range' (p + (i + 1) * R) ((q - (i + 1)) * R) := by
    intro i p R hi
    refine (range'_join ?_ ?_).symm
    · rw [Nat.add_mul, Nat.one_mul, Nat.add_assoc]
    · rw [show q - i = (q - (i + 1)) + 1 by omega, Nat.add_mul, Nat.one_mul, Nat.add_comm]
  have := Acc.forUp (rf := fun i => List.range' (pr + i * Rr) ((q - i) * Rr))
    (wf := fun i => List.range' (pw + i * Rw) ((q - i) * Rw)) (q := q) (body := body) (At := At)
    (fun i s hi hs => ⟨_, _, hb i s hi hs, key i pr Rr hi, key i pw Rw hi⟩) (by simp) (by simp) q 0 s (by omega) hs
  simpa using this

end Ascon.C
