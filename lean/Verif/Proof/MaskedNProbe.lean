import Verif.Model.MaskedNProbe
import Verif.Proof.MaskedNRound
import Verif.Proof.MaskedProbeLink
/-!
# First-order probing security of the masked permutation with two, three or four shares: proof

Invariant: if the state is uniformly distributed among the sharings of some value, it is so again after each gate or layer.
-/

namespace Ascon.MaskedN.Probe

open Ascon.Masked (U32 ROR32 ROT constants share_t linWord getLsbD_ROR32 ROR32_xor linWord_xor linWord_ror)
open Ascon.Masked.Probe (Val linParams two six upd upd_same upd_upd upd_self upd_ne xx xx' xv lv lin_xv lv_lin)

/-! ## Values -/

/-- `S ⊕ ror(m, r)`, half by half. -/
def xr (S : Val) (r : Nat) (m : Val) : Val := fun k i => S k i ^^^ ROR32 (m k i) r

/-- The value shared by the first `n` shares. -/
def val : Nat → St → Val
  | 0, _ => fun _ _ => 0
  | n + 1, s => xr (val n s) (5 * n) (s n)

theorem val_congr {n : Nat} {s s' : St} {k : Fin 6} {i : Fin 2} (h : ∀ d, d < n → s d k i = s' d k i) :
    val n s k i = val n s' k i := by
  induction n with
  | zero => rfl
  | succ n ih =>
    show val n s k i ^^^ _ = val n s' k i ^^^ _
    rw [ih fun d hd => h d (by omega), h n (by omega)]

theorem ROR32_0 (x : U32) : ROR32 x 0 = x := by
  apply BitVec.eq_of_getLsbD_eq; intro i hi
  rw [getLsbD_ROR32 _ _ _ (by omega) hi]
  congr 1; omega

/-- The rotation back. -/
def back (d : Nat) : Nat := (32 - 5 * d) % 32

theorem back_lt (d : Nat) : back d < 32 := Nat.mod_lt _ (by omega)

theorem ROR32_back (x : U32) {d : Nat} (h : d < 4) : ROR32 (ROR32 x (back d)) (5 * d) = x := by
  rw [ROR32_add _ _ _ (back_lt d) (by omega), show (back d + 5 * d) % 32 = 0 by unfold back; omega, ROR32_0]

theorem ROR32_back' (x : U32) {d : Nat} (h : d < 4) : ROR32 (ROR32 x (5 * d)) (back d) = x := by
  rw [ROR32_add _ _ _ (by omega) (back_lt d), show (5 * d + back d) % 32 = 0 by unfold back; omega, ROR32_0]

theorem xz (x : U32) : x ^^^ (0 : U32) = x := BitVec.xor_zero

/-- One share changed by `x`. -/
theorem val_upd {n : Nat} (h4 : n ≤ 4) {s s' : St} {k : Fin 6} {i : Fin 2} {e : Nat} {x : U32} (he : e < n)
    (h : s' e k i = s e k i ^^^ x) (ho : ∀ d, d < n → d ≠ e → s' d k i = s d k i) :
    val n s' k i = val n s k i ^^^ ROR32 x (5 * e) := by
  induction n with
  | zero => omega
  | succ n ih =>
    show val n s' k i ^^^ ROR32 (s' n k i) (5 * n) = val n s k i ^^^ ROR32 (s n k i) (5 * n) ^^^ _
    by_cases hn : n = e
    · subst hn
      rw [h, ROR32_xor _ _ _ (by omega), val_congr fun d hd => ho d (by omega) (by omega), BitVec.xor_assoc]
    · rw [ho n (by omega) hn, ih (by omega) (by omega) fun d hd => ho d (by omega), xor_rc]

/-! ## Uniform sharings -/

/-- `s` is a sharing of `S` with `n` shares (and has `R` beyond the shares). -/
def In (n : Nat) (R : St) (S : Val) (s : St) : Prop := val n s = S ∧ ∀ d, n ≤ d → s d = R d

/-- `p` has the same distribution on the sharings of `S` and of `S'`. -/
def SD {V : Type} (n : Nat) (R : St) (S S' : Val) (p : St → V) : Prop :=
  ∃ φ ψ : St → St, (∀ s, In n R S s → In n R S' (φ s) ∧ ψ (φ s) = s ∧ p s = p (φ s)) ∧
    ∀ s, In n R S' s → In n R S (ψ s) ∧ φ (ψ s) = s

/-- Add `T` to share `e k` of each word `k`. -/
def adj (e : Fin 6 → Nat) (T : Val) (s : St) : St :=
  fun d k i => if d = e k then s d k i ^^^ ROR32 (T k i) (back d) else s d k i

theorem adj_adj (e : Fin 6 → Nat) (T : Val) (s : St) : adj e T (adj e T s) = s := by
  funext d k i
  unfold adj
  split
  · rw [xx']
  · rfl

theorem val_adj {n : Nat} (h4 : n ≤ 4) {e : Fin 6 → Nat} (he : ∀ k, e k < n) (T : Val) (s : St) :
    val n (adj e T s) = fun k i => val n s k i ^^^ T k i := by
  funext k i
  have hk := he k
  rw [val_upd h4 (s := s) (x := ROR32 (T k i) (back (e k))) hk, ROR32_back _ (by omega)]
  · simp [adj]
  · intro d _ hd; simp [adj, hd]

theorem in_adj {n : Nat} (h4 : n ≤ 4) {e : Fin 6 → Nat} (he : ∀ k, e k < n) {R : St} {S S' : Val} {s : St}
    (h : In n R S s) : In n R S' (adj e (fun k i => S k i ^^^ S' k i) s) := by
  refine ⟨?_, fun d hd => ?_⟩
  · rw [val_adj h4 he]
    funext k i
    rw [h.1]; exact xx _ _
  · rw [← h.2 d hd]
    funext k i
    have := he k
    simp only [adj, if_neg (show ¬ d = e k by omega)]

theorem xor_symm (S S' : Val) : (fun k i => S' k i ^^^ S k i) = fun k i => S k i ^^^ S' k i := by
  funext k i; exact BitVec.xor_comm _ _

/-- A value that does not depend on some share of each word. -/
theorem sel {V : Type} {n : Nat} (h4 : n ≤ 4) {e : Fin 6 → Nat} (he : ∀ k, e k < n) {p : St → V}
    (hp : ∀ s s' : St, (∀ d k i, d ≠ e k → s d k i = s' d k i) → p s = p s') (R : St) (S S' : Val) : SD n R S S' p := by
  refine ⟨adj e fun k i => S k i ^^^ S' k i, adj e fun k i => S' k i ^^^ S k i, fun s hs => ⟨in_adj h4 he hs, ?_, ?_⟩,
    fun s hs => ⟨in_adj h4 he hs, ?_⟩⟩
  · rw [xor_symm, adj_adj]
  · refine hp _ _ fun d k i hd => ?_
    simp only [adj, if_neg hd]
  · rw [xor_symm S, adj_adj]

/-- `h` does not depend on half `i` of word `c`. -/
def Indep {V : Type} (c : Fin 6) (i : Fin 2) (h : St → V) : Prop :=
  ∀ s s' : St, (∀ d k j, ¬(k = c ∧ j = i) → s d k j = s' d k j) → h s = h s'

/-- Change shares `dc` and `e` of half `i` of word `c`, not the value. -/
def flip (dc e : Nat) (c : Fin 6) (i : Fin 2) (x : U32) (s : St) : St := fun d k j =>
  if k = c ∧ j = i then
    if d = dc then s d k j ^^^ x else if d = e then s d k j ^^^ ROR32 (ROR32 x (5 * dc)) (back e) else s d k j
  else s d k j

theorem flip_flip (dc e : Nat) (c : Fin 6) (i : Fin 2) (x : U32) (s : St) : flip dc e c i x (flip dc e c i x s) = s := by
  funext d k j
  unfold flip
  by_cases h : k = c ∧ j = i
  · simp only [h, and_self, if_true]
    by_cases h1 : d = dc
    · simp only [h1, if_true]; rw [xx']
    · simp only [h1, if_false]
      by_cases h2 : d = e
      · simp only [h2, if_true]; rw [xx']
      · simp only [h2, if_false]
  · simp only [h, if_false]

theorem flip_adj (dc e : Nat) (c : Fin 6) (i : Fin 2) (x : U32) (f : Fin 6 → Nat) (T : Val) (s : St) :
    adj f T (flip dc e c i x s) = flip dc e c i x (adj f T s) := by
  funext d k j
  unfold flip adj
  have : ∀ (p q r t : Prop) [Decidable p] [Decidable q] [Decidable r] [Decidable t] (a x y z : U32),
      (if t then (if p then if q then a ^^^ x else if r then a ^^^ y else a else a) ^^^ z
        else if p then if q then a ^^^ x else if r then a ^^^ y else a else a) =
      if p then if q then (if t then a ^^^ z else a) ^^^ x else if r then (if t then a ^^^ z else a) ^^^ y
        else if t then a ^^^ z else a else if t then a ^^^ z else a := by
    intro p q r t _ _ _ _ a x y z
    by_cases hp : p <;> by_cases hq : q <;> by_cases hr : r <;> by_cases ht : t <;>
      simp only [hp, hq, hr, ht, if_true, if_false] <;> exact xor_rc _ _ _
  exact this _ _ _ _ _ _ _ _

theorem in_flip {n : Nat} (h4 : n ≤ 4) {dc e : Nat} (hd : dc < n) (he : e < n) (hne : e ≠ dc) (c : Fin 6) (i : Fin 2) (x : U32)
    {R : St} {S : Val} {s : St} (h : In n R S s) : In n R S (flip dc e c i x s) := by
  refine ⟨?_, fun d hd' => ?_⟩
  · rw [← h.1]
    funext k j
    by_cases hk : k = c ∧ j = i
    · obtain ⟨rfl, rfl⟩ := hk
      let u : St := fun d k' j' => if d = dc ∧ k' = k ∧ j' = j then s d k' j' ^^^ x else s d k' j'
      have h1 : val n u k j = val n s k j ^^^ ROR32 x (5 * dc) :=
        val_upd h4 hd (by simp [u]) fun d _ hd => by simp [u, hd]
      have h2 : val n (flip dc e k j x s) k j = val n u k j ^^^ ROR32 (ROR32 (ROR32 x (5 * dc)) (back e)) (5 * e) :=
        val_upd h4 he (by simp [u, flip, hne]) fun d _ hd => by simp [u, flip, hd]
      rw [h2, h1, ROR32_back _ (by omega), xx']
    · exact val_congr fun d _ => by simp only [flip, if_neg hk]
  · rw [← h.2 d hd']
    funext k j
    simp only [flip, if_neg (show ¬ d = dc by omega), if_neg (show ¬ d = e by omega), ite_self]

/-- Another share. -/
def other (d : Nat) : Nat := if d = 0 then 1 else 0

theorem other_ne (d : Nat) : other d ≠ d := by unfold other; split <;> omega
theorem other_lt {n : Nat} (h2 : 2 ≤ n) (d : Nat) : other d < n := by unfold other; split <;> omega

/-- A value blinded by a share of `c`. -/
theorem blind {n : Nat} (h2 : 2 ≤ n) (h4 : n ≤ 4) {c : Fin 6} {i : Fin 2} {dc : Nat} (hd : dc < n) {h : St → U32}
    (hh : Indep c i h) (R : St) (S S' : Val) : SD n R S S' (fun s => some (s dc c i ^^^ h s)) := by
  have he := other_lt h2 dc
  have hne := other_ne dc
  have ha : ∀ k : Fin 6, (fun _ => other dc : Fin 6 → Nat) k < n := fun _ => he
  have hf : ∀ x s, h (flip dc (other dc) c i x s) = h s := fun x s => hh _ _ fun d k j hk => by
    simp only [flip, if_neg hk]
  have key : ∀ T s, (fun t => flip dc (other dc) c i (h t ^^^ h (adj (fun _ => other dc) T t)) (adj (fun _ => other dc) T t))
      ((fun t => flip dc (other dc) c i (h t ^^^ h (adj (fun _ => other dc) T t)) (adj (fun _ => other dc) T t)) s) = s := by
    intro T s
    simp only [hf, flip_adj, adj_adj]
    rw [BitVec.xor_comm (h (adj _ T s)), flip_flip]
  refine ⟨fun t => flip dc (other dc) c i (h t ^^^ h (adj (fun _ => other dc) (fun k i => S k i ^^^ S' k i) t))
      (adj (fun _ => other dc) (fun k i => S k i ^^^ S' k i) t),
    fun t => flip dc (other dc) c i (h t ^^^ h (adj (fun _ => other dc) (fun k i => S' k i ^^^ S k i) t))
      (adj (fun _ => other dc) (fun k i => S' k i ^^^ S k i) t),
    fun s hs => ⟨in_flip h4 hd he hne _ _ _ (in_adj h4 ha hs), ?_, ?_⟩,
    fun s hs => ⟨in_flip h4 hd he hne _ _ _ (in_adj h4 ha hs), ?_⟩⟩
  · rw [xor_symm]; exact key _ s
  · simp only [hf]
    congr 1
    simp only [flip, adj, and_self, if_true, if_neg hne.symm]
    rw [BitVec.xor_assoc, xx']
  · rw [xor_symm S]; exact key _ s

theorem SD.const {V : Type} {n : Nat} (h1 : 1 ≤ n) (h4 : n ≤ 4) {p : St → V} (hp : ∀ s s', p s = p s') (R : St) (S S' : Val) :
    SD n R S S' p :=
  sel h4 (e := fun _ => 0) (fun _ => by omega) (fun s s' _ => hp s s') R S S'

/-! ## Good pieces of code -/

/-- The code maps the uniform sharings of a value to those of another, and no single value that appears depends on the
secret. -/
structure Good (n : Nat) (f : Op) : Prop where
  map : ∃ A : Val → Val, ∀ R S, ∃ g : St → St, (∀ s, In n R S s → In n R (A S) (f s).1 ∧ g (f s).1 = s) ∧
    ∀ t, In n R (A S) t → In n R S (g t) ∧ (f (g t)).1 = t
  len : ∃ m, ∀ s, (f s).2.length = m
  probe : ∀ (R : St) (S S' : Val) (j : Nat), SD n R S S' (fun s => (f s).2[j]?)

theorem then_fst (f g : Op) (s : St) : (f.then g s).1 = (g (f s).1).1 := rfl
theorem then_snd (f g : Op) (s : St) : (f.then g s).2 = (f s).2 ++ (g (f s).1).2 := rfl

theorem Good.then {n : Nat} {f g : Op} (hf : Good n f) (hg : Good n g) : Good n (f.then g) := by
  obtain ⟨A, hA⟩ := hf.map
  obtain ⟨B, hB⟩ := hg.map
  obtain ⟨m, hm⟩ := hf.len
  obtain ⟨m2, hm2⟩ := hg.len
  refine ⟨⟨fun S => B (A S), fun R S => ?_⟩, ⟨m + m2, fun s => ?_⟩, fun R S S' j => ?_⟩
  · obtain ⟨u, u1, u2⟩ := hA R S
    obtain ⟨w, w1, w2⟩ := hB R (A S)
    refine ⟨fun t => u (w t), fun s hs => ⟨(w1 _ (u1 s hs).1).1, ?_⟩, fun t ht => ⟨(u2 _ (w2 t ht).1).1, ?_⟩⟩
    · simp only [then_fst, (w1 _ (u1 s hs).1).2, (u1 s hs).2]
    · simp only [then_fst, (u2 _ (w2 t ht).1).2, (w2 t ht).2]
  · rw [then_snd, List.length_append, hm, hm2]
  · by_cases hj : j < m
    · obtain ⟨φ, ψ, p1, p2⟩ := hf.probe R S S' j
      have q : ∀ s, (f.then g s).2[j]? = (f s).2[j]? := fun s => by
        rw [then_snd, List.getElem?_append_left (by rw [hm]; exact hj)]
      simp only [q]
      exact ⟨φ, ψ, p1, p2⟩
    · obtain ⟨u, u1, u2⟩ := hA R S
      obtain ⟨u', u1', u2'⟩ := hA R S'
      obtain ⟨φ, ψ, p1, p2⟩ := hg.probe R (A S) (A S') (j - m)
      have q : ∀ s, (f.then g s).2[j]? = (g (f s).1).2[j - m]? := fun s => by
        rw [then_snd, List.getElem?_append_right (by rw [hm]; omega), hm]
      simp only [q]
      refine ⟨fun s => u' (φ (f s).1), fun s => u (ψ (f s).1), fun s hs => ?_, fun s hs => ?_⟩
      · obtain ⟨a1, a2⟩ := u1 s hs
        obtain ⟨b1, b2, b3⟩ := p1 _ a1
        obtain ⟨c1, c2⟩ := u2' _ b1
        refine ⟨c1, ?_, ?_⟩
        · simp only [c2, b2, a2]
        · simp only [c2]; exact b3
      · obtain ⟨a1, a2⟩ := u1' s hs
        obtain ⟨b1, b2⟩ := p2 _ a1
        obtain ⟨c1, c2⟩ := u2 _ b1
        refine ⟨c1, ?_⟩
        simp only [c2, b2, a2]

theorem good_nil {n : Nat} (h1 : 1 ≤ n) (h4 : n ≤ 4) : Good n (seq []) :=
  ⟨⟨fun S => S, fun R S => ⟨fun s => s, fun _ hs => ⟨hs, rfl⟩, fun _ ht => ⟨ht, rfl⟩⟩⟩, ⟨0, fun _ => rfl⟩,
    fun R S S' j => SD.const h1 h4 (fun _ _ => rfl) R S S'⟩

theorem good_seq {n : Nat} (h1 : 1 ≤ n) (h4 : n ≤ 4) : ∀ l : List Op, (∀ f ∈ l, Good n f) → Good n (seq l)
  | [], _ => good_nil h1 h4
  | f :: l, h => (h f (List.mem_cons_self ..)).then (good_seq h1 h4 l fun g hg => h g (List.mem_cons_of_mem _ hg))

theorem then_assoc (f g h : Op) : (f.then g).then h = f.then (g.then h) := by
  funext s
  simp only [Op.then, List.append_assoc]

theorem then_nil (f : Op) : f.then (seq []) = f := by
  funext s; simp [Op.then, seq]

theorem nil_then (f : Op) : (seq []).then f = f := by
  funext s; simp [Op.then, seq]

theorem seq_append (l l' : List Op) : seq (l ++ l') = (seq l).then (seq l') := by
  induction l with
  | nil => rw [List.nil_append, nil_then]
  | cons f l ih => rw [List.cons_append, seq, ih, seq, then_assoc]

/-- From an invertible map on states that acts on the shared value. -/
theorem Good.of_bij {n : Nat} {f : Op} {A : Val → Val} {g : St → St} (hA : ∀ s, val n (f s).1 = A (val n s))
    (hi : ∀ S S', A S = A S' → S = S') (g1 : ∀ s, g (f s).1 = s) (g2 : ∀ t, (f (g t)).1 = t)
    (hr : ∀ s d, n ≤ d → (f s).1 d = s d)
    (len : ∃ m, ∀ s, (f s).2.length = m) (probe : ∀ (R : St) (S S' : Val) (j : Nat), SD n R S S' (fun s => (f s).2[j]?)) :
    Good n f := by
  refine ⟨⟨A, fun R S => ⟨g, fun s hs => ⟨⟨?_, fun d hd => ?_⟩, g1 s⟩, fun t ht => ⟨⟨hi _ _ ?_, fun d hd => ?_⟩, g2 t⟩⟩⟩,
    len, probe⟩
  · rw [hA, hs.1]
  · rw [hr _ _ hd, hs.2 d hd]
  · rw [← hA, g2, ht.1]
  · rw [← hr (g t) d hd, g2, ht.2 d hd]

/-! ## Code that works share by share -/

/-- Share `d` is changed by `F d`, and each value shown depends on one share only. -/
structure SW (n : Nat) (f : Op) (F : Nat → Val → Val) : Prop where
  eq : ∀ s, (f s).1 = fun d => F d (s d)
  rest : ∀ d, n ≤ d → ∀ v, F d v = v
  len : ∃ m, ∀ s, (f s).2.length = m
  probe : ∀ j : Nat, ∃ d : Nat, d < n ∧ ∀ s s' : St, s d = s' d → (f s).2[j]? = (f s').2[j]?

theorem SW.then {n : Nat} {f g : Op} {F G : Nat → Val → Val} (hf : SW n f F) (hg : SW n g G) :
    SW n (f.then g) (fun d v => G d (F d v)) := by
  obtain ⟨m, hm⟩ := hf.len
  obtain ⟨m2, hm2⟩ := hg.len
  refine ⟨fun s => ?_, fun d hd v => ?_, ⟨m + m2, fun s => ?_⟩, fun j => ?_⟩
  · rw [then_fst, hg.eq, hf.eq]
  · rw [hf.rest d hd, hg.rest d hd]
  · rw [then_snd, List.length_append, hm, hm2]
  · by_cases hj : j < m
    · obtain ⟨d, hd, hp⟩ := hf.probe j
      refine ⟨d, hd, fun s s' h => ?_⟩
      rw [then_snd, then_snd, List.getElem?_append_left (by rw [hm]; exact hj),
        List.getElem?_append_left (by rw [hm]; exact hj)]
      exact hp s s' h
    · obtain ⟨d, hd, hp⟩ := hg.probe (j - m)
      refine ⟨d, hd, fun s s' h => ?_⟩
      rw [then_snd, then_snd, List.getElem?_append_right (by rw [hm]; omega),
        List.getElem?_append_right (by rw [hm]; omega), hm, hm]
      refine hp _ _ ?_
      rw [hf.eq, hf.eq]
      simp only [h]

theorem SW.nil {n : Nat} (h1 : 1 ≤ n) : SW n (seq []) (fun _ v => v) :=
  ⟨fun _ => rfl, fun _ _ _ => rfl, ⟨0, fun _ => rfl⟩, fun _ => ⟨0, by omega, fun _ _ _ => rfl⟩⟩

/-- Compatible with sharing, and invertible. -/
structure VLin (A : Val → Val) : Prop where
  hom : ∀ r, r < 32 → ∀ S m, A (xr S r m) = xr (A S) r (A m)
  inv : ∃ B : Val → Val, (∀ m, B (A m) = m) ∧ ∀ m, A (B m) = m

theorem VLin.comp {A B : Val → Val} (hA : VLin A) (hB : VLin B) : VLin (fun v => B (A v)) := by
  obtain ⟨a, a1, a2⟩ := hA.inv
  obtain ⟨b, b1, b2⟩ := hB.inv
  exact ⟨fun r hr S m => by rw [hA.hom r hr, hB.hom r hr], fun v => a (b v), fun m => by simp only [b1, a1],
    fun m => by simp only [a2, b2]⟩

theorem VLin.id : VLin (fun v => v) := ⟨fun _ _ _ _ => rfl, fun v => v, fun _ => rfl, fun _ => rfl⟩

/-- `v ⊕ C` on share 0. -/
def addC (C : Val) (d : Nat) (v : Val) : Val := if d = 0 then fun k i => v k i ^^^ C k i else v

theorem addC_addC (C : Val) (d : Nat) (v : Val) : addC C d (addC C d v) = v := by
  unfold addC
  split
  · funext k i; exact xx' _ _
  · rfl

theorem val_SW {n : Nat} (h1 : 1 ≤ n) (h4 : n ≤ 4) {B : Val → Val} (hB : VLin B) (C : Val) (s : St) :
    val n (fun d => addC C d (B (s d))) = addC C 0 (B (val n s)) := by
  have hz : B (fun _ _ => 0) = fun _ _ => 0 := by
    have := hB.hom 0 (by omega) (fun _ _ => 0) (fun _ _ => 0)
    have e : xr (fun _ _ => 0) 0 (fun _ _ => 0) = fun _ _ => 0 := by
      funext k i; unfold xr; rw [ROR32_0]; exact xz 0
    rw [e] at this
    rw [this]
    funext k i
    unfold xr
    rw [ROR32_0, BitVec.xor_self]
    rfl
  have one : ∀ s : St, val 1 s = s 0 := by
    intro s; funext k i
    show (0 : U32) ^^^ ROR32 (s 0 k i) 0 = _
    rw [ROR32_0]; exact BitVec.zero_xor
  induction n with
  | zero => omega
  | succ n ih =>
    by_cases hn : n = 0
    · subst hn
      rw [show 0 + 1 = 1 from rfl, one, one]
    · have e := ih (by omega) (by omega)
      show xr (val n _) _ _ = addC C 0 (B (xr (val n s) _ _))
      rw [e, hB.hom _ (by omega)]
      funext k i
      simp only [addC, if_true, xr, if_neg hn]
      exact xor_rc _ _ _

theorem SW.good {n : Nat} (h2 : 2 ≤ n) (h4 : n ≤ 4) {f : Op} {F : Nat → Val → Val} (hf : SW n f F) {B : Val → Val} {C : Val}
    (hB : VLin B) (hF : ∀ d, d < n → ∀ v, F d v = addC C d (B v)) : Good n f := by
  obtain ⟨B', b1, b2⟩ := hB.inv
  have hv : ∀ s : St, val n (f s).1 = addC C 0 (B (val n s)) := by
    intro s
    rw [hf.eq, ← val_SW (by omega) h4 hB]
    funext k i
    exact val_congr fun d hd => by simp only [hF d hd]
  refine Good.of_bij (A := fun S => addC C 0 (B S)) (g := fun t d => if d < n then B' (addC C d (t d)) else t d) hv
    (fun S S' h => ?_) (fun s => ?_) (fun t => ?_) (fun s d hd => ?_) hf.len (fun R S S' j => ?_)
  · have := congrArg (fun v => B' (addC C 0 v)) h
    simp only [addC_addC, b1] at this
    exact this
  · funext d
    rw [hf.eq]
    simp only []
    by_cases hd : d < n
    · rw [if_pos hd, hF d hd, addC_addC, b1]
    · rw [if_neg hd, hf.rest d (by omega)]
  · rw [hf.eq]
    funext d
    by_cases hd : d < n
    · rw [if_pos hd, hF d hd, b2, addC_addC]
    · rw [if_neg hd, hf.rest d (by omega)]
  · rw [hf.eq]; exact hf.rest d hd _
  · obtain ⟨d, hd, hp⟩ := hf.probe j
    refine sel h4 (e := fun _ => other d) (fun _ => other_lt h2 d) (fun s s' h => hp s s' ?_) R S S'
    funext k i
    exact h d k i (other_ne d).symm


/-- Only share `d` is changed, if it exists. -/
def on (n d : Nat) (A : Val → Val) : Nat → Val → Val := fun d' v => if d' = d ∧ d < n then A v else v

theorem SW.on {n : Nat} {d : Nat} (hd : d < n) {f : Op} {A : Val → Val} {L : Val → List U32}
    (h1 : ∀ s d', (f s).1 d' = if d' = d then A (s d) else s d') (h2 : ∀ s, (f s).2 = L (s d)) (hl : ∃ m, ∀ v, (L v).length = m) :
    SW n f (on n d A) := by
  obtain ⟨m, hm⟩ := hl
  refine ⟨fun s => ?_, fun d' hd' v => ?_, ⟨m, fun s => by rw [h2, hm]⟩, fun j => ⟨d, hd, fun s s' h => by rw [h2, h2, h]⟩⟩
  · funext d'
    rw [h1]
    unfold MaskedN.Probe.on
    by_cases h : d' = d
    · subst h; rw [if_pos rfl, if_pos ⟨rfl, hd⟩]
    · rw [if_neg h, if_neg fun h' => h h'.1]
  · unfold MaskedN.Probe.on
    rw [if_neg]; omega

theorem SW.congr {n : Nat} {f : Op} {F G : Nat → Val → Val} (h : SW n f F) (e : ∀ d v, F d v = G d v) : SW n f G := by
  have : F = G := funext fun d => funext fun v => e d v
  rw [← this]; exact h

theorem SW.when {n : Nat} (h1 : 1 ≤ n) {d : Nat} {c : Prop} [Decidable c] (hc : c ↔ d < n) {f : Op} {A : Val → Val}
    (h : d < n → SW n f (MaskedN.Probe.on n d A)) : SW n (when c f) (MaskedN.Probe.on n d A) := by
  unfold MaskedN.Probe.when
  by_cases hd : d < n
  · rw [if_pos (hc.2 hd)]; exact h hd
  · rw [if_neg fun h => hd (hc.1 h)]
    have e : MaskedN.Probe.on n d A = fun _ v => v := by
      funext d' v; unfold MaskedN.Probe.on; rw [if_neg fun h => hd h.2]
    rw [e]
    exact SW.nil h1

theorem put_share (s : St) (d d' : Nat) (k : Fin 6) (i : Fin 2) (v : U32) :
    put s d k i v d' = if d' = d then upd (s d) k i v else s d' := by
  funext k' i'
  unfold put
  by_cases h : d' = d
  · subst h; simp [upd]
  · simp [h]

theorem sw_xorInto {n d : Nat} (hd : d < n) (k k' : Fin 6) (i : Fin 2) : SW n (xorInto d k k' i) (on n d (xv k k' i)) :=
  SW.on hd (fun s d' => put_share _ _ _ _ _ _) (L := fun v => [v k i ^^^ v k' i]) (fun _ => rfl) ⟨1, fun _ => rfl⟩

theorem sw_put0 {n : Nat} (h1 : 1 ≤ n) (k : Fin 6) (i : Fin 2) (g : U32 → U32) :
    SW n (fun s => (put s 0 k i (g (s 0 k i)), [g (s 0 k i)])) (on n 0 fun v => upd v k i (g (v k i))) :=
  SW.on (by omega) (fun s d' => put_share _ _ _ _ _ _) (L := fun v => [g (v k i)]) (fun _ => rfl) ⟨1, fun _ => rfl⟩

theorem sw_linearWord {n d : Nat} (hd : d < n) (k : Fin 6) : SW n (linearWord d k) (on n d (lv k)) := by
  refine SW.on hd (fun s d' => ?_) (L := fun v => (linearWord 0 k (fun _ => v)).2) (fun s => rfl) ⟨8, fun _ => rfl⟩
  funext a b
  show put (put s d k 0 _) d k 1 _ d' a b = _
  unfold put
  by_cases hd : d' = d
  · by_cases ha : a = k
    · subst hd; subst ha
      revert b
      refine two ?_ ?_
      · simp [lv, linWord, share_t.get, half]; rfl
      · simp [lv, linWord, share_t.get, half]; rfl
    · simp [hd, ha, lv]
  · simp [hd]

theorem linv_xv {k k' : Fin 6} (h : k' ≠ k) (i : Fin 2) : VLin (xv k k' i) := by
  refine ⟨fun r hr S m => ?_, (lin_xv h i).inv⟩
  funext a b
  unfold xv upd xr
  by_cases hab : a = k ∧ b = i
  · simp only [hab, and_self, if_true]
    rw [ROR32_xor _ _ _ hr, Masked.xor4]
  · simp only [hab, if_false]

theorem linv_lv (k : Fin 6) (h : (linParams k).2.1 < 32 ∧ (linParams k).2.2.1 < 32 ∧ (linParams k).2.2.2.2.1 < 32 ∧
    (linParams k).2.2.2.2.2 < 32) (hl : Masked.Probe.VLin (lv k)) : VLin (lv k) := by
  refine ⟨fun r hr S m => ?_, hl.inv⟩
  funext a b
  unfold lv xr
  by_cases ha : a = k
  · simp only [ha, if_true]
    have e := linWord_xor ⟨S k 0, S k 1⟩ ⟨ROR32 (m k 0) r, ROR32 (m k 1) r⟩ (linParams k).1 (linParams k).2.1
      (linParams k).2.2.1 (linParams k).2.2.2.1 (linParams k).2.2.2.2.1 (linParams k).2.2.2.2.2 h
    have e' := linWord_ror ⟨m k 0, m k 1⟩ r (linParams k).1 (linParams k).2.1
      (linParams k).2.2.1 (linParams k).2.2.2.1 (linParams k).2.2.2.2.1 (linParams k).2.2.2.2.2 h hr
    rw [e'] at e
    rw [e]
    by_cases hb : b = 0 <;> simp [hb]
  · simp only [ha, if_false]

/-- Affine layer 1 on one share. -/
def A1 (i : Fin 2) (v : Val) : Val := xv 4 3 i (xv 0 4 i (xv 2 1 i v))
/-- Affine layer 2 on one share. -/
def A2 (i : Fin 2) (v : Val) : Val := xv 3 2 i (xv 0 4 i (xv 1 0 i (xv 2 5 i v)))
/-- The linear layer on one share. -/
def LL (v : Val) : Val := lv 4 (lv 3 (lv 2 (lv 1 (lv 0 v))))

theorem linv_A1 (i : Fin 2) : VLin (A1 i) :=
  ((linv_xv (by decide) i).comp (linv_xv (by decide) i)).comp (linv_xv (by decide) i)
theorem linv_A2 (i : Fin 2) : VLin (A2 i) :=
  (((linv_xv (by decide) i).comp (linv_xv (by decide) i)).comp (linv_xv (by decide) i)).comp (linv_xv (by decide) i)
theorem linv_LL : VLin LL := by
  obtain ⟨v0, v1, v2, v3, v4⟩ := lv_lin
  exact ((((linv_lv 0 (by decide) v0).comp (linv_lv 1 (by decide) v1)).comp (linv_lv 2 (by decide) v2)).comp
    (linv_lv 3 (by decide) v3)).comp (linv_lv 4 (by decide) v4)

theorem sw_affine1 {n d : Nat} (hd : d < n) (i : Fin 2) : SW n (affine1 i d) (on n d (A1 i)) := by
  have h := (sw_xorInto hd 2 1 i).then ((sw_xorInto hd 0 4 i).then ((sw_xorInto hd 4 3 i).then (SW.nil (by omega))))
  exact h.congr fun d' v => by simp only [on]; split <;> rfl

theorem sw_affine2 {n d : Nat} (hd : d < n) (i : Fin 2) : SW n (affine2 i d) (on n d (A2 i)) := by
  have h := (sw_xorInto hd 2 5 i).then ((sw_xorInto hd 1 0 i).then ((sw_xorInto hd 0 4 i).then ((sw_xorInto hd 3 2 i).then
    (SW.nil (by omega)))))
  exact h.congr fun d' v => by simp only [on]; split <;> rfl

theorem sw_linear {n d : Nat} (hd : d < n) : SW n (linear d) (on n d LL) := by
  have h := (sw_linearWord hd 0).then ((sw_linearWord hd 1).then ((sw_linearWord hd 2).then ((sw_linearWord hd 3).then
    ((sw_linearWord hd 4).then (SW.nil (by omega))))))
  exact h.congr fun d' v => by simp only [on]; split <;> rfl

theorem four {n d : Nat} (h : d < n) (h4 : n ≤ 4) : d = 0 ∨ d = 1 ∨ d = 2 ∨ d = 3 := by omega

theorem good_affine1 {n : Nat} (h2 : 2 ≤ n) (h4 : n ≤ 4) (i : Fin 2) :
    Good n (seq [when (n ≥ 1) (affine1 i 0), when (n ≥ 2) (affine1 i 1), when (n ≥ 3) (affine1 i 2),
      when (n ≥ 4) (affine1 i 3)]) := by
  have w := fun {d : Nat} {c : Prop} [Decidable c] (hc : c ↔ d < n) =>
    SW.when (by omega) hc (f := affine1 i d) (A := A1 i) fun hd => sw_affine1 hd i
  have h := (w (d := 0) (c := n ≥ 1) (by omega)).then ((w (d := 1) (c := n ≥ 2) (by omega)).then
    ((w (d := 2) (c := n ≥ 3) (by omega)).then ((w (d := 3) (c := n ≥ 4) (by omega)).then (SW.nil (by omega)))))
  refine SW.good h2 h4 h (linv_A1 i) (C := fun _ _ => 0) fun d hd v => ?_
  have e : addC (fun _ _ => 0) d (A1 i v) = A1 i v := by
    unfold addC; split
    · funext k j; exact xz _
    · rfl
  rw [e]
  rcases four hd h4 with rfl | rfl | rfl | rfl <;> simp [on, hd]

theorem good_linear {n : Nat} (h2 : 2 ≤ n) (h4 : n ≤ 4) :
    Good n (seq [when (n ≥ 4) (linear 3), when (n ≥ 3) (linear 2), when (n ≥ 2) (linear 1), when (n ≥ 1) (linear 0)]) := by
  have w := fun {d : Nat} {c : Prop} [Decidable c] (hc : c ↔ d < n) =>
    SW.when (by omega) hc (f := linear d) (A := LL) fun hd => sw_linear hd
  have h := (w (d := 3) (c := n ≥ 4) (by omega)).then ((w (d := 2) (c := n ≥ 3) (by omega)).then
    ((w (d := 1) (c := n ≥ 2) (by omega)).then ((w (d := 0) (c := n ≥ 1) (by omega)).then (SW.nil (by omega)))))
  refine SW.good h2 h4 h linv_LL (C := fun _ _ => 0) fun d hd v => ?_
  have e : addC (fun _ _ => 0) d (LL v) = LL v := by
    unfold addC; split
    · funext k j; exact xz _
    · rfl
  rw [e]
  rcases four hd h4 with rfl | rfl | rfl | rfl <;> simp [on, hd]

/-- The value `x` in one half of one word. -/
def single (k : Fin 6) (i : Fin 2) (x : U32) : Val := fun k' i' => if k' = k ∧ i' = i then x else 0

theorem upd_single (v : Val) (k : Fin 6) (i : Fin 2) (x : U32) :
    upd v k i (v k i ^^^ x) = fun k' i' => v k' i' ^^^ single k i x k' i' := by
  funext k' i'
  unfold upd single
  by_cases h : k' = k ∧ i' = i
  · simp only [h, and_self, if_true]
  · simp only [h, if_false]; exact (xz _).symm

theorem not_eq_xor (x : U32) : ~~~x = x ^^^ BitVec.allOnes 32 := by
  rw [BitVec.xor_allOnes]

theorem good_xorConst {n : Nat} (h2 : 2 ≤ n) (h4 : n ≤ 4) (k : Fin 6) (i : Fin 2) (C : U32) : Good n (xorConst k i C) := by
  refine SW.good h2 h4 (sw_put0 (by omega) k i (· ^^^ C)) VLin.id (C := single k i C) fun d hd v => ?_
  unfold on addC
  by_cases h : d = 0
  · rw [if_pos ⟨h, by omega⟩, if_pos h]; exact upd_single _ _ _ _
  · rw [if_neg fun h' => h h'.1, if_neg h]

theorem good_affine2 {n : Nat} (h2 : 2 ≤ n) (h4 : n ≤ 4) (i : Fin 2) :
    Good n (seq [when (n ≥ 1) (affine2 i 0), notInto 2 i, when (n ≥ 2) (affine2 i 1), when (n ≥ 3) (affine2 i 2),
      when (n ≥ 4) (affine2 i 3)]) := by
  have w := fun {d : Nat} {c : Prop} [Decidable c] (hc : c ↔ d < n) =>
    SW.when (by omega) hc (f := affine2 i d) (A := A2 i) fun hd => sw_affine2 hd i
  have hn : SW n (notInto 2 i) _ := sw_put0 (by omega) 2 i (fun x => ~~~x)
  have h := (w (d := 0) (c := n ≥ 1) (by omega)).then (hn.then ((w (d := 1) (c := n ≥ 2) (by omega)).then
    ((w (d := 2) (c := n ≥ 3) (by omega)).then ((w (d := 3) (c := n ≥ 4) (by omega)).then (SW.nil (by omega))))))
  refine SW.good h2 h4 h (linv_A2 i) (C := single 2 i (BitVec.allOnes 32)) fun d hd v => ?_
  have hn : ∀ v : Val, upd v 2 i (~~~(v 2 i)) = fun k' i' => v k' i' ^^^ single 2 i (BitVec.allOnes 32) k' i' := fun v => by
    rw [not_eq_xor, upd_single]
  rcases four hd h4 with rfl | rfl | rfl | rfl <;> simp [on, hd, addC, hn]

end Ascon.MaskedN.Probe
