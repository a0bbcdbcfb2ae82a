import Verif.Proof.MaskedNSteps
/-!
# The instrumented code looks at and changes the first `n` shares only
-/

namespace Ascon.MaskedN.Probe

open Ascon.Masked (U32 ROR32 ROT constants)
open Ascon.Masked.Probe (Val)

/-- The values and the first `n` shares of the result depend on the first `n` shares only. -/
structure Local (n : Nat) (f : Op) : Prop where
  go : ∀ s s' : St, (∀ d, d < n → s d = s' d) → (f s).2 = (f s').2 ∧ ∀ d, d < n → (f s).1 d = (f s').1 d

theorem put_local {n : Nat} {s s' : St} (h : ∀ d, d < n → s d = s' d) (d : Nat) (k : Fin 6) (i : Fin 2) {v v' : U32} (hv : v = v') :
    ∀ e, e < n → put s d k i v e = put s' d k i v' e := by
  intro e he
  subst hv
  unfold put
  rw [h e he]

theorem Local.nil (n : Nat) : Local n (seq []) := ⟨fun _ _ h => ⟨rfl, h⟩⟩

theorem Local.cons {n : Nat} {f : Op} {l : List Op} (hf : Local n f) (hl : Local n (seq l)) : Local n (seq (f :: l)) := by
  refine ⟨fun s s' h => ?_⟩
  obtain ⟨a, b⟩ := hf.go s s' h
  obtain ⟨c, d⟩ := hl.go _ _ b
  refine ⟨?_, d⟩
  show (f s).2 ++ (seq l (f s).1).2 = (f s').2 ++ (seq l (f s').1).2
  rw [a, c]

theorem Local.all {n : Nat} : ∀ {l : List Op}, (∀ f ∈ l, Local n f) → Local n (seq l)
  | [], _ => Local.nil n
  | f :: l, h => Local.cons (h f (List.mem_cons_self ..)) (Local.all fun g hg => h g (List.mem_cons_of_mem _ hg))

theorem Local.when {n : Nat} {c : Prop} [Decidable c] {f : Op} (h : c → Local n f) : Local n (when c f) := by
  unfold Probe.when
  split
  · rename_i hc; exact h hc
  · exact Local.nil n

theorem Local.xorInto {n d : Nat} (hd : d < n) (k k' : Fin 6) (i : Fin 2) : Local n (xorInto d k k' i) := by
  refine ⟨fun s s' h => ?_⟩
  have e : s d k i ^^^ s d k' i = s' d k i ^^^ s' d k' i := by rw [h d hd]
  exact ⟨by show [_] = [_]; rw [e], put_local h d k i e⟩

theorem Local.xorConst {n : Nat} (hd : 0 < n) (k : Fin 6) (i : Fin 2) (C : U32) : Local n (xorConst k i C) := by
  refine ⟨fun s s' h => ?_⟩
  have e : s 0 k i ^^^ C = s' 0 k i ^^^ C := by rw [h 0 hd]
  exact ⟨by show [_] = [_]; rw [e], put_local h 0 k i e⟩

theorem Local.xorShare {n d : Nat} (hd : d < n) (k : Fin 6) (i : Fin 2) (v : U32) : Local n (xorShare d k i v) := by
  refine ⟨fun s s' h => ?_⟩
  have e : s d k i ^^^ v = s' d k i ^^^ v := by rw [h d hd]
  exact ⟨by show [_] = [_]; rw [e], put_local h d k i e⟩

theorem Local.notInto {n : Nat} (hd : 0 < n) (k : Fin 6) (i : Fin 2) : Local n (notInto k i) := by
  refine ⟨fun s s' h => ?_⟩
  have e : ~~~(s 0 k i) = ~~~(s' 0 k i) := by rw [h 0 hd]
  exact ⟨by show [_] = [_]; rw [e], put_local h 0 k i e⟩

theorem Local.eorRor {n : Nat} {g : U32 → U32 → U32} {dc dx dy : Nat} (h1 : dc < n) (h2 : dx < n) (h3 : dy < n) (c x y : Fin 6)
    (i : Fin 2) (imm : Int) : Local n (eorRor g dc c dx x dy y i imm) := by
  refine ⟨fun s s' h => ?_⟩
  have e1 := h dc h1
  have e2 := h dx h2
  have e3 := h dy h3
  refine ⟨?_, put_local h dc c i ?_⟩
  · show [_, _, _] = [_, _, _]
    rw [e1, e2, e3]
  · rw [e1, e2, e3]

theorem Local.setConst {n : Nat} (k : Fin 6) (i : Fin 2) (v : U32) : Local n (setConst k i v) :=
  ⟨fun _ _ h => ⟨rfl, put_local h 0 k i rfl⟩⟩

theorem Local.rorInto {n d : Nat} (hd : d < n) (k : Fin 6) (i : Fin 2) (r : Nat) : Local n (rorInto d k i r) := by
  refine ⟨fun s s' h => ?_⟩
  have e : ROR32 (s d k i) r = ROR32 (s' d k i) r := by rw [h d hd]
  exact ⟨by show [_] = [_]; rw [e], put_local h d k i e⟩

theorem Local.addRor {n d : Nat} (h0 : 0 < n) (hd : d < n) (k : Fin 6) (i : Fin 2) (imm : Int) : Local n (addRor d k i imm) := by
  refine ⟨fun s s' h => ?_⟩
  have e1 := h 0 h0
  have e2 := h d hd
  refine ⟨?_, put_local h 0 k i ?_⟩
  · show [_, _] = [_, _]
    rw [e1, e2]
  · rw [e1, e2]

theorem Local.linearWord {n d : Nat} (hd : d < n) (k : Fin 6) : Local n (linearWord d k) := by
  refine ⟨fun s s' h => ?_⟩
  have e : ∀ p, half s d k p = half s' d k p := fun p => by unfold half; rw [h d hd]
  have e' := h d hd
  unfold Probe.linearWord
  simp only [e, e', true_and]
  exact (put_local (put_local h d k 0 rfl) d k 1 rfl)

theorem Local.mxorbic2 {n : Nat} (hn : 2 ≤ n) (c a b : Fin 6) (i : Fin 2) : Local n (mxorbic2 c a b i) :=
  Local.all fun f hf => by
    simp only [List.mem_cons, List.not_mem_nil, or_false] at hf
    rcases hf with rfl | rfl | rfl | rfl <;> exact Local.eorRor (by omega) (by omega) (by omega) _ _ _ _ _

theorem Local.mxorbic3 {n : Nat} (hn : 3 ≤ n) (c a b : Fin 6) (i : Fin 2) : Local n (mxorbic3 c a b i) :=
  Local.all fun f hf => by
    simp only [List.mem_cons, List.not_mem_nil, or_false] at hf
    rcases hf with rfl | rfl | rfl | rfl | rfl | rfl | rfl | rfl | rfl <;>
      exact Local.eorRor (by omega) (by omega) (by omega) _ _ _ _ _

theorem Local.mxorbic4 {n : Nat} (hn : 4 ≤ n) (c a b : Fin 6) (i : Fin 2) : Local n (mxorbic4 c a b i) :=
  Local.all fun f hf => by
    simp only [List.mem_cons, List.not_mem_nil, or_false] at hf
    rcases hf with rfl | rfl | rfl | rfl | rfl | rfl | rfl | rfl | rfl | rfl | rfl | rfl | rfl | rfl | rfl | rfl <;>
      exact Local.eorRor (by omega) (by omega) (by omega) _ _ _ _ _

theorem Local.mxorbic {n : Nat} (h2 : 2 ≤ n) (h4 : n ≤ 4) (c a b : Fin 6) (i : Fin 2) : Local n (mxorbic n c a b i) := by
  unfold Probe.mxorbic
  split
  · exact Local.mxorbic2 h2 ..
  · split
    · exact Local.mxorbic3 (by omega) ..
    · exact Local.mxorbic4 (by omega) ..

theorem Local.affine1 {n d : Nat} (hd : d < n) (i : Fin 2) : Local n (affine1 i d) :=
  Local.all fun f hf => by
    simp only [List.mem_cons, List.not_mem_nil, or_false] at hf
    rcases hf with rfl | rfl | rfl <;> exact Local.xorInto hd ..

theorem Local.affine2 {n d : Nat} (hd : d < n) (i : Fin 2) : Local n (affine2 i d) :=
  Local.all fun f hf => by
    simp only [List.mem_cons, List.not_mem_nil, or_false] at hf
    rcases hf with rfl | rfl | rfl | rfl <;> exact Local.xorInto hd ..

theorem Local.sbox {n : Nat} (h2 : 2 ≤ n) (h4 : n ≤ 4) (i : Fin 2) : Local n (sbox n i) :=
  Local.all fun f hf => by
    simp only [List.mem_cons, List.not_mem_nil, or_false] at hf
    rcases hf with rfl | rfl | rfl | rfl | rfl | rfl | rfl | rfl | rfl | rfl | rfl | rfl | rfl | rfl <;>
      first
      | exact Local.mxorbic h2 h4 ..
      | exact Local.notInto (by omega) ..
      | exact Local.when fun h => Local.affine1 h i
      | exact Local.when fun h => Local.affine2 h i

theorem Local.reuse {n : Nat} (k : Fin 6) : Local n (reuse n k) :=
  Local.all fun f hf => by
    simp only [List.mem_cons, List.not_mem_nil, or_false] at hf
    rcases hf with rfl | rfl | rfl | rfl | rfl | rfl | rfl | rfl | rfl | rfl | rfl | rfl | rfl | rfl <;>
      first
      | exact Local.setConst ..
      | exact Local.when fun h => Local.rorInto (by omega) ..
      | exact Local.when fun h => Local.addRor (by omega) (by omega) ..

theorem Local.linear {n d : Nat} (hd : d < n) : Local n (linear d) :=
  Local.all fun f hf => by
    simp only [List.mem_cons, List.not_mem_nil, or_false] at hf
    rcases hf with rfl | rfl | rfl | rfl | rfl <;> exact Local.linearWord hd _

theorem Local.round {n : Nat} (h2 : 2 ≤ n) (h4 : n ≤ 4) (Co Ce : Byte) : Local n (round n Co Ce) :=
  Local.all fun f hf => by
    simp only [List.mem_cons, List.not_mem_nil, or_false] at hf
    rcases hf with rfl | rfl | rfl | rfl | rfl | rfl | rfl | rfl | rfl <;>
      first
      | exact Local.xorConst (by omega) ..
      | exact Local.sbox h2 h4 _
      | exact Local.reuse _
      | exact Local.when fun h => Local.linear h

theorem Local.perm {n : Nat} (h2 : 2 ≤ n) (h4 : n ≤ 4) (nr : Nat) : Local n (perm n nr) :=
  Local.all fun f hf => by
    obtain ⟨j, -, rfl⟩ := List.mem_map.1 hf
    exact Local.round h2 h4 _ _

theorem Local.mxor {n ns : Nat} (h : ns ≤ n) (k : Fin 6) (b : Nat → Fin 2 → U32) : Local n (mxor ns k b) :=
  Local.all fun f hf => by
    simp only [List.mem_cons, List.not_mem_nil, or_false] at hf
    rcases hf with rfl | rfl | rfl | rfl | rfl | rfl | rfl | rfl <;> exact Local.when fun h => Local.xorShare (by omega) ..

theorem Local.steps {n : Nat} (h2 : 2 ≤ n) (h4 : n ≤ 4) {l : List Step} (hf : ∀ a ∈ l, a.Fits n) : Local n (steps n l) :=
  Local.all fun f h => by
    obtain ⟨a, ha, rfl⟩ := List.mem_map.1 h
    have := hf a ha
    cases a with
    | absorb ns k b => exact Local.mxor this k b
    | const k i C => exact Local.xorConst (by omega) k i C
    | reuse k => exact Local.reuse k
    | perm nr => exact Local.perm h2 h4 nr

end Ascon.MaskedN.Probe
