import Verif.Proof.MaskedNProbe
/-!
# The shared Toffoli gate, the reuse of masks and the whole permutation
-/

namespace Ascon.MaskedN.Probe

open Ascon.Masked (U32 ROR32 ROT constants share_t linWord getLsbD_ROR32 ROR32_xor)
open Ascon.Masked.Probe (Val linParams two six upd upd_same upd_upd upd_self upd_ne xx xx')

/-! ## Code that adds functions of other words to the shares of one word -/

/-- Share `d` of half `i` of `c` gets `H d` added; each value shown is blinded by a share of `c` or does not depend on some
share of each word. -/
structure Gate (n : Nat) (c : Fin 6) (i : Fin 2) (f : Op) : Prop where
  eq : ∃ H : Nat → St → U32, (∀ d, Indep c i (H d)) ∧ (∀ d s, n ≤ d → H d s = 0) ∧
    ∀ s, (f s).1 = fun d k j => if k = c ∧ j = i then s d k j ^^^ H d s else s d k j
  len : ∃ m, ∀ s, (f s).2.length = m
  probe : ∀ j : Nat, (∃ (dc : Nat) (h : St → U32), dc < n ∧ Indep c i h ∧ ∀ s, (f s).2[j]? = some (s dc c i ^^^ h s)) ∨
    ∃ e : Fin 6 → Nat, (∀ k, e k < n) ∧ ∀ s s' : St,
      (∀ d k j, d ≠ e k → ¬(k = c ∧ j = i) → s d k j = s' d k j) → (f s).2[j]? = (f s').2[j]?

theorem Gate.then {n : Nat} {c : Fin 6} {i : Fin 2} {f g : Op} (hf : Gate n c i f) (hg : Gate n c i g) :
    Gate n c i (f.then g) := by
  obtain ⟨H, h1, h2, h3⟩ := hf.eq
  obtain ⟨G, g1, g2, g3⟩ := hg.eq
  obtain ⟨m, hm⟩ := hf.len
  obtain ⟨m2, hm2⟩ := hg.len
  have hi : ∀ {V : Type} {p : St → V}, Indep c i p → ∀ s, p (f s).1 = p s := fun hp s => hp _ _ fun d k j hk => by
    rw [h3]; simp only [if_neg hk]
  refine ⟨⟨fun d s => H d s ^^^ G d s, fun d s s' h => ?_, fun d s hd => ?_, fun s => ?_⟩, ⟨m + m2, fun s => ?_⟩, fun j => ?_⟩
  · simp only [h1 d s s' h, g1 d s s' h]
  · simp only [h2 d s hd, g2 d s hd]; exact xz _
  · rw [then_fst, g3]
    funext d k j
    rw [hi (g1 d), h3]
    by_cases hk : k = c ∧ j = i
    · simp only [hk, and_self, if_true]; rw [BitVec.xor_assoc]
    · simp only [if_neg hk]
  · rw [then_snd, List.length_append, hm, hm2]
  · by_cases hj : j < m
    · have q : ∀ s, (f.then g s).2[j]? = (f s).2[j]? := fun s => by
        rw [then_snd, List.getElem?_append_left (by rw [hm]; exact hj)]
      simp only [q]
      exact hf.probe j
    · have q : ∀ s, (f.then g s).2[j]? = (g (f s).1).2[j - m]? := fun s => by
        rw [then_snd, List.getElem?_append_right (by rw [hm]; omega), hm]
      simp only [q]
      rcases hg.probe (j - m) with ⟨dc, h, hd, hh, hp⟩ | ⟨e, he, hp⟩
      · refine Or.inl ⟨dc, fun s => H dc s ^^^ h s, hd, fun s s' hs => ?_, fun s => ?_⟩
        · simp only [h1 dc s s' hs, hh s s' hs]
        · rw [hp, hi hh, h3]
          simp only [and_self, if_true]
          rw [BitVec.xor_assoc]
      · refine Or.inr ⟨e, he, fun s s' hs => hp _ _ fun d k j hd hk => ?_⟩
        rw [h3, h3]
        simp only [if_neg hk]
        exact hs d k j hd hk

theorem Gate.nil {n : Nat} (h1 : 1 ≤ n) (c : Fin 6) (i : Fin 2) : Gate n c i (seq []) := by
  refine ⟨⟨fun _ _ => 0, fun _ _ _ _ => rfl, fun _ _ _ => rfl, fun s => ?_⟩, ⟨0, fun _ => rfl⟩,
    fun j => Or.inr ⟨fun _ => 0, fun _ => h1, fun _ _ _ => rfl⟩⟩
  funext d k j
  show s d k j = _
  split
  · exact (xz _).symm
  · rfl

theorem Gate.cons {n : Nat} {c : Fin 6} {i : Fin 2} {f : Op} {l : List Op} (hf : Gate n c i f)
    (hl : Gate n c i (MaskedN.Probe.seq l)) : Gate n c i (MaskedN.Probe.seq (f :: l)) := hf.then hl

/-- One instruction pair of asm.h. -/
theorem gate_eorRor {n : Nat} (h2 : 2 ≤ n) (g : U32 → U32 → U32) {dc dx dy : Nat} (hc : dc < n)
    {c x y : Fin 6} (hx : x ≠ c) (hy : y ≠ c) (hxy : x ≠ y) (i : Fin 2) (imm : Int) :
    Gate n c i (eorRor g dc c dx x dy y i imm) := by
  have hI : Indep c i fun s : St => g (s dx x i) (ROR32 (s dy y i) (ROT imm)) := fun s s' h => by
    simp only [h dx x i fun h => hx h.1, h dy y i fun h => hy h.1]
  have he : ∀ k : Fin 6, (fun k => if k = x then other dx else other dy : Fin 6 → Nat) k < n := fun k => by
    simp only []
    split <;> exact other_lt h2 _
  have hs : ∀ s s' : St, (∀ d k j, d ≠ (if k = x then other dx else other dy) → ¬(k = c ∧ j = i) → s d k j = s' d k j) →
      s dx x i = s' dx x i ∧ s dy y i = s' dy y i := by
    intro s s' h
    refine ⟨h dx x i ?_ fun h => hx h.1, h dy y i ?_ fun h => hy h.1⟩
    · rw [if_pos rfl]; exact (other_ne dx).symm
    · rw [if_neg hxy.symm]; exact (other_ne dy).symm
  refine ⟨⟨fun d s => if d = dc then g (s dx x i) (ROR32 (s dy y i) (ROT imm)) else 0, fun d s s' h => ?_, fun d s hd => ?_,
    fun s => ?_⟩, ⟨3, fun _ => rfl⟩, fun j => ?_⟩
  · have := hI s s' h
    simp only [] at this ⊢
    rw [this]
  · exact if_neg (by omega)
  · funext d k j
    show put s dc c i _ d k j = _
    unfold put
    by_cases hk : k = c ∧ j = i
    · obtain ⟨rfl, rfl⟩ := hk
      by_cases hd : d = dc
      · subst hd; simp only [and_self, if_true]; exact BitVec.xor_comm _ _
      · simp only [hd, false_and, if_false, and_self, if_true]; exact (xz _).symm
    · rw [if_neg fun h => hk h.2, if_neg hk]
  · match j with
    | 0 =>
      refine Or.inr ⟨_, he, fun s s' h => ?_⟩
      show some (ROR32 (s dy y i) (ROT imm)) = some (ROR32 (s' dy y i) (ROT imm))
      rw [(hs s s' h).2]
    | 1 =>
      refine Or.inr ⟨_, he, fun s s' h => ?_⟩
      show some (g (s dx x i) (ROR32 (s dy y i) (ROT imm))) = some (g (s' dx x i) (ROR32 (s' dy y i) (ROT imm)))
      rw [(hs s s' h).1, (hs s s' h).2]
    | 2 =>
      refine Or.inl ⟨dc, _, hc, hI, fun s => ?_⟩
      show some (_ ^^^ s dc c i) = _
      rw [BitVec.xor_comm]
    | j + 3 => exact Or.inr ⟨_, he, fun _ _ _ => rfl⟩

theorem mx2 : mxorbic 2 = mxorbic2 := by funext c a b i; unfold mxorbic; rw [if_pos rfl]
theorem mx3 : mxorbic 3 = mxorbic3 := by funext c a b i; unfold mxorbic; rw [if_neg (by decide), if_pos rfl]
theorem mx4 : mxorbic 4 = mxorbic4 := by funext c a b i; unfold mxorbic; rw [if_neg (by decide), if_neg (by decide)]
theorem MX2 : (MXORBIC · · · · 2) = MXORBIC2 := by funext c a b i; unfold MXORBIC; simp
theorem MX3 : (MXORBIC · · · · 3) = MXORBIC3 := by funext c a b i; unfold MXORBIC; simp
theorem MX4 : (MXORBIC · · · · 4) = MXORBIC4 := by funext c a b i; unfold MXORBIC; simp

theorem gate_mxorbic {n : Nat} (h2 : 2 ≤ n) (h4 : n ≤ 4) {c a b : Fin 6} (ha : a ≠ c) (hb : b ≠ c) (hab : a ≠ b) (i : Fin 2) :
    Gate n c i (mxorbic n c a b i) := by
  have t := fun (g : U32 → U32 → U32) (dc dx dy : Nat) (hc : dc < n) (imm : Int) =>
    gate_eorRor h2 g (dx := dx) (dy := dy) hc ha hb hab i imm
  have u := fun (g : U32 → U32 → U32) (dc dx dy : Nat) (hc : dc < n) (imm : Int) =>
    gate_eorRor h2 g (dx := dx) (dy := dy) hc hb ha hab.symm i imm
  obtain rfl | rfl | rfl : n = 2 ∨ n = 3 ∨ n = 4 := by omega
  · rw [mx2]
    unfold mxorbic2
    refine Gate.cons (t (fun x y => x &&& ~~~y) 0 0 0 (by omega) _) ?_
    refine Gate.cons (t (fun x y => x &&& ~~~y) 1 1 0 (by omega) _) ?_
    refine Gate.cons (t (fun x y => x &&& y) 1 1 1 (by omega) _) ?_
    refine Gate.cons (t (fun x y => x &&& y) 0 0 1 (by omega) _) ?_
    exact Gate.nil (by omega) c i
  · rw [mx3]
    unfold mxorbic3
    refine Gate.cons (u (fun x y => x &&& y) 0 0 1 (by omega) _) ?_
    refine Gate.cons (t (fun x y => x &&& ~~~y) 0 0 0 (by omega) _) ?_
    refine Gate.cons (u (fun x y => x &&& y) 0 0 2 (by omega) _) ?_
    refine Gate.cons (u (fun x y => x &&& y) 1 1 2 (by omega) _) ?_
    refine Gate.cons (t (fun x y => x &&& ~~~y) 1 1 1 (by omega) _) ?_
    refine Gate.cons (u (fun x y => x &&& y) 1 1 0 (by omega) _) ?_
    refine Gate.cons (u (fun x y => x &&& ~~~y) 2 2 0 (by omega) _) ?_
    refine Gate.cons (t (fun x y => x ||| y) 2 2 2 (by omega) _) ?_
    refine Gate.cons (u (fun x y => x &&& y) 2 2 1 (by omega) _) ?_
    exact Gate.nil (by omega) c i
  · rw [mx4]
    unfold mxorbic4
    refine Gate.cons (t (fun x y => x &&& ~~~y) 0 0 0 (by omega) _) ?_
    refine Gate.cons (t (fun x y => x &&& ~~~y) 1 1 0 (by omega) _) ?_
    refine Gate.cons (t (fun x y => x &&& ~~~y) 2 2 0 (by omega) _) ?_
    refine Gate.cons (t (fun x y => x &&& ~~~y) 3 3 0 (by omega) _) ?_
    refine Gate.cons (t (fun x y => x &&& y) 1 1 1 (by omega) _) ?_
    refine Gate.cons (t (fun x y => x &&& y) 2 2 1 (by omega) _) ?_
    refine Gate.cons (t (fun x y => x &&& y) 3 3 1 (by omega) _) ?_
    refine Gate.cons (t (fun x y => x &&& y) 0 0 1 (by omega) _) ?_
    refine Gate.cons (t (fun x y => x &&& y) 2 2 2 (by omega) _) ?_
    refine Gate.cons (t (fun x y => x &&& y) 3 3 2 (by omega) _) ?_
    refine Gate.cons (t (fun x y => x &&& y) 0 0 2 (by omega) _) ?_
    refine Gate.cons (t (fun x y => x &&& y) 1 1 2 (by omega) _) ?_
    refine Gate.cons (t (fun x y => x &&& y) 3 3 3 (by omega) _) ?_
    refine Gate.cons (t (fun x y => x &&& y) 0 0 3 (by omega) _) ?_
    refine Gate.cons (t (fun x y => x &&& y) 1 1 3 (by omega) _) ?_
    refine Gate.cons (t (fun x y => x &&& y) 2 2 3 (by omega) _) ?_
    exact Gate.nil (by omega) c i

/-! ## Link of the gate to Model/MaskedN -/

/-- Word `k` as a `word_t`. -/
def wd (s : St) (k : Fin 6) : word_t := fun d => ⟨s d k 0, s d k 1⟩

/-- The state with word `c` replaced. -/
def putw (s : St) (c : Fin 6) (w : word_t) : St := fun d k j => if k = c then w.get d j.val else s d k j

theorem wd_get (s : St) (k : Fin 6) (d : Nat) (j : Fin 2) : (wd s k).get d j.val = s d k j := by
  revert j; exact two rfl rfl

theorem putw_wd (s : St) (c : Fin 6) : putw s c (wd s c) = s := by
  funext d k j
  unfold putw
  split
  · next h => rw [wd_get, h]
  · rfl

theorem get_set (w : word_t) (d d' : Nat) (i i' : Fin 2) (v : U32) :
    (w.set d i.val v).get d' i'.val = if d' = d ∧ i' = i then v else w.get d' i'.val := by
  by_cases hd : d' = d
  · subst hd
    revert i i'
    refine two (two ?_ ?_) (two ?_ ?_) <;> simp [word_t.set, word_t.get, share_t.set, share_t.get]
  · rw [if_neg fun h => hd h.1, get_set_share _ hd]

theorem put_putw (s : St) (c : Fin 6) (w : word_t) (d : Nat) (i : Fin 2) (v : U32) :
    put (putw s c w) d c i v = putw s c (w.set d i.val v) := by
  funext d' k j
  unfold put putw
  by_cases hk : k = c
  · simp only [hk, true_and, if_true, get_set]
  · simp only [hk, false_and, and_false, if_false]

theorem putw_same (s : St) (c : Fin 6) (w : word_t) (d : Nat) (i : Fin 2) : putw s c w d c i = w.get d i.val := by
  simp [putw]

theorem putw_ne (s : St) {c a : Fin 6} (h : a ≠ c) (w : word_t) (d : Nat) (i : Fin 2) : putw s c w d a i = (wd s a).get d i.val := by
  rw [wd_get]; simp [putw, h]

theorem seq_cons (f : Op) (l : List Op) (s : St) : (seq (f :: l) s).1 = (seq l (f s).1).1 := by
  cases l <;> rfl
theorem seq_nil (s : St) : (seq [] s).1 = s := by
  rw [seq]

theorem link_gate {n : Nat} (h2 : 2 ≤ n) (h4 : n ≤ 4) {c a b : Fin 6} (ha : a ≠ c) (hb : b ≠ c) (i : Fin 2) (s : St) :
    (mxorbic n c a b i s).1 = putw s c (MXORBIC (wd s c) (wd s a) (wd s b) i.val n) := by
  have hs := putw_wd s c
  generalize hw : wd s c = w at hs
  rw [← hs]
  have e : ∀ k w, k ≠ c → wd (putw s c w) k = wd s k := fun k w hk => by
    funext d; unfold wd putw; simp only [hk, if_false]
  have e' : ∀ w, putw (putw s c w) c = putw s c := fun w => by
    funext w' d k j; unfold putw; by_cases h : k = c <;> simp only [h, if_true, if_false]
  rw [e a w ha, e b w hb, e']
  have t1 : ∀ (dc dx dy : Nat) (imm : Int) (w : word_t), (eorBicRor dc c dx a dy b i imm (putw s c w)).1 =
      putw s c (bic w dc i.val ((wd s a).get dx i.val) ((wd s b).get dy i.val) imm) := by
    intro dc dx dy imm w
    unfold eorBicRor eorRor
    simp only [put_putw, putw_same, putw_ne _ ha, putw_ne _ hb]
    rfl
  have t2 : ∀ (dc dx dy : Nat) (imm : Int) (w : word_t), (eorAndRor dc c dx a dy b i imm (putw s c w)).1 =
      putw s c (MaskedN.and w dc i.val ((wd s a).get dx i.val) ((wd s b).get dy i.val) imm) := by
    intro dc dx dy imm w
    unfold eorAndRor eorRor
    simp only [put_putw, putw_same, putw_ne _ ha, putw_ne _ hb]
    rfl
  have t3 : ∀ (dc dx dy : Nat) (imm : Int) (w : word_t), (eorOrrRor dc c dx a dy b i imm (putw s c w)).1 =
      putw s c (orr w dc i.val ((wd s a).get dx i.val) ((wd s b).get dy i.val) imm) := by
    intro dc dx dy imm w
    unfold eorOrrRor eorRor
    simp only [put_putw, putw_same, putw_ne _ ha, putw_ne _ hb]
    rfl
  have u1 : ∀ (dc dx dy : Nat) (imm : Int) (w : word_t), (eorBicRor dc c dx b dy a i imm (putw s c w)).1 =
      putw s c (bic w dc i.val ((wd s b).get dx i.val) ((wd s a).get dy i.val) imm) := by
    intro dc dx dy imm w
    unfold eorBicRor eorRor
    simp only [put_putw, putw_same, putw_ne _ ha, putw_ne _ hb]
    rfl
  have u2 : ∀ (dc dx dy : Nat) (imm : Int) (w : word_t), (eorAndRor dc c dx b dy a i imm (putw s c w)).1 =
      putw s c (MaskedN.and w dc i.val ((wd s b).get dx i.val) ((wd s a).get dy i.val) imm) := by
    intro dc dx dy imm w
    unfold eorAndRor eorRor
    simp only [put_putw, putw_same, putw_ne _ ha, putw_ne _ hb]
    rfl
  obtain rfl | rfl | rfl : n = 2 ∨ n = 3 ∨ n = 4 := by omega
  · have e : MXORBIC w (wd s a) (wd s b) i.val 2 = MXORBIC2 w (wd s a) (wd s b) i.val :=
      congrFun (congrFun (congrFun (congrFun MX2 _) _) _) _
    rw [mx2, e]
    unfold mxorbic2 MXORBIC2
    simp only [seq_cons, seq_nil, t1, t2, t3, u1, u2]
  · have e : MXORBIC w (wd s a) (wd s b) i.val 3 = MXORBIC3 w (wd s a) (wd s b) i.val :=
      congrFun (congrFun (congrFun (congrFun MX3 _) _) _) _
    rw [mx3, e]
    unfold mxorbic3 MXORBIC3
    simp only [seq_cons, seq_nil, t1, t2, t3, u1, u2]
  · have e : MXORBIC w (wd s a) (wd s b) i.val 4 = MXORBIC4 w (wd s a) (wd s b) i.val :=
      congrFun (congrFun (congrFun (congrFun MX4 _) _) _) _
    rw [mx4, e]
    unfold mxorbic4 MXORBIC4
    simp only [seq_cons, seq_nil, t1, t2, t3, u1, u2]

theorem V_wd (n : Nat) (s : St) (k : Fin 6) (i : Fin 2) : V n (wd s k) i.val = val n s k i := by
  induction n with
  | zero => rfl
  | succ n ih =>
    show V n (wd s k) i.val ^^^ ROR32 ((wd s k).get n i.val) _ = val n s k i ^^^ _
    rw [ih, wd_get]

theorem val_putw (n : Nat) (s : St) (c : Fin 6) (w : word_t) (k : Fin 6) (i : Fin 2) :
    val n (putw s c w) k i = if k = c then V n w i.val else val n s k i := by
  by_cases h : k = c
  · subst h
    rw [if_pos rfl]
    induction n with
    | zero => rfl
    | succ n ih =>
      show val n _ k i ^^^ ROR32 (putw s k w n k i) _ = V n w i.val ^^^ ROR32 (w.get n i.val) _
      rw [ih, putw_same]
  · rw [if_neg h]
    exact val_congr fun d _ => by simp only [putw, if_neg h]

theorem val_gate {n : Nat} (h2 : 2 ≤ n) (h4 : n ≤ 4) {c a b : Fin 6} (ha : a ≠ c) (hb : b ≠ c) (i : Fin 2) (s : St) :
    val n (mxorbic n c a b i s).1 = upd (val n s) c i (val n s c i ^^^ (val n s a i &&& ~~~(val n s b i))) := by
  have hns : Ns n := ⟨by omega, h4⟩
  rw [link_gate h2 h4 ha hb]
  funext k j
  rw [val_putw]
  unfold upd
  by_cases hk : k = c
  · subst hk
    rw [if_pos rfl]
    by_cases hj : j = i
    · subst hj
      rw [if_pos ⟨rfl, rfl⟩, V_MXORBIC hns, V_wd, V_wd, V_wd]
    · rw [if_neg fun h => hj h.2, V_MXORBIC_other n n (i := i.val) (j := j.val) ?_, V_wd]
      revert i j
      refine two (two ?_ ?_) (two ?_ ?_) <;> intro h <;> simp at h ⊢
  · rw [if_neg hk, if_neg fun h => hk h.1]

theorem good_mxorbic {n : Nat} (h2 : 2 ≤ n) (h4 : n ≤ 4) {c a b : Fin 6} (ha : a ≠ c) (hb : b ≠ c) (hab : a ≠ b) (i : Fin 2) :
    Good n (mxorbic n c a b i) := by
  have hg := gate_mxorbic h2 h4 ha hb hab i
  have hv := val_gate h2 h4 ha hb i
  generalize mxorbic n c a b i = f at hg hv
  obtain ⟨H, h1, h2', h3⟩ := hg.eq
  have inv : ∀ s, (f (f s).1).1 = s := by
    intro s
    have hi : ∀ d, H d (f s).1 = H d s := fun d => h1 d _ _ fun d k j hk => by rw [h3]; simp only [if_neg hk]
    rw [h3 (f s).1]
    funext d k j
    rw [hi, h3]
    by_cases hk : k = c ∧ j = i
    · simp only [hk, and_self, if_true]; exact xx' _ _
    · simp only [if_neg hk]
  have cs : ∀ (S : Val) {k : Fin 6} (v : U32), k ≠ c → upd S c i v k i = S k i := fun S k v hk => upd_ne _ hk _ _ _
  refine Good.of_bij (A := fun S => upd S c i (S c i ^^^ (S a i &&& ~~~(S b i)))) (g := fun t => (f t).1) hv
    (fun S S' h => ?_) inv inv (fun s d hd => ?_) hg.len (fun R S S' j => ?_)
  · have e := congrArg (fun T : Val => upd T c i (T c i ^^^ (T a i &&& ~~~(T b i)))) h
    simp only [upd_upd, upd_same, cs _ _ ha, cs _ _ hb, xx', upd_self] at e
    exact e
  · rw [h3]
    funext k j
    simp only []
    split
    · rw [h2' d s hd]; exact xz _
    · rfl
  · rcases hg.probe j with ⟨dc, h, hd, hh, hp⟩ | ⟨e, he, hp⟩
    · simp only [hp]
      exact blind h2 h4 hd hh R S S'
    · exact sel h4 he (fun s s' hs => hp s s' fun d k j hd _ => hs d k j hd) R S S'

/-! ## Fresh sharing of zero from the old masks -/

/-- Word `k` and the values shown depend on word `k` only. -/
def Resp (k : Fin 6) (f : Op) : Prop :=
  ∀ s s' : St, (∀ d i, s d k i = s' d k i) → (∀ d i, (f s).1 d k i = (f s').1 d k i) ∧ (f s).2 = (f s').2

theorem Resp.seq {k : Fin 6} : ∀ l : List Op, (∀ f ∈ l, Resp k f) → Resp k (MaskedN.Probe.seq l)
  | [], _ => fun _ _ h => ⟨h, rfl⟩
  | f :: l, hl => fun s s' h => by
    obtain ⟨h1, h2⟩ := hl f (List.mem_cons_self ..) s s' h
    obtain ⟨h3, h4⟩ := Resp.seq l (fun g hg => hl g (List.mem_cons_of_mem _ hg)) _ _ h1
    refine ⟨h3, ?_⟩
    show (f s).2 ++ _ = (f s').2 ++ _
    rw [h2, h4]

theorem put_cong {k : Fin 6} {s s' : St} (h : ∀ d i, s d k i = s' d k i) (e : Nat) (j : Fin 2) {v v' : U32} (hv : v = v') (d : Nat)
    (i : Fin 2) : put s e k j v d k i = put s' e k j v' d k i := by
  unfold put
  rw [hv, h]

theorem resp_ror (d : Nat) (k : Fin 6) (i : Fin 2) (r : Nat) : Resp k (rorInto d k i r) := fun s s' h => by
  have e : ROR32 (s d k i) r = ROR32 (s' d k i) r := by rw [h]
  exact ⟨put_cong h _ _ e, by simp only [rorInto, e]⟩

theorem resp_add (d : Nat) (k : Fin 6) (i : Fin 2) (imm : Int) : Resp k (addRor d k i imm) := fun s s' h => by
  have e : ROR32 (s d k i) (ROT imm) = ROR32 (s' d k i) (ROT imm) := by rw [h]
  have e' : s 0 k i ^^^ ROR32 (s d k i) (ROT imm) = s' 0 k i ^^^ ROR32 (s' d k i) (ROT imm) := by rw [h, h]
  refine ⟨put_cong h _ _ e', ?_⟩
  show [_, _] = [_, _]
  rw [e', e]

theorem resp_when {k : Fin 6} {f : Op} (h : Resp k f) (c : Prop) [Decidable c] : Resp k (when c f) := by
  unfold MaskedN.Probe.when
  split
  · exact h
  · exact fun _ _ h => ⟨h, rfl⟩

/-- `reuse` after the first two assignments. -/
def reuseTail (n : Nat) (k : Fin 6) : List Op :=
  [when (n ≥ 2) (rorInto 1 k 0 7), when (n ≥ 2) (rorInto 1 k 1 7), when (n ≥ 3) (rorInto 2 k 0 13),
    when (n ≥ 3) (rorInto 2 k 1 13), when (n ≥ 4) (rorInto 3 k 0 29), when (n ≥ 4) (rorInto 3 k 1 29),
    when (n ≥ 2) (addRor 1 k 0 1), when (n ≥ 2) (addRor 1 k 1 1), when (n ≥ 3) (addRor 2 k 0 2),
    when (n ≥ 3) (addRor 2 k 1 2), when (n ≥ 4) (addRor 3 k 0 3), when (n ≥ 4) (addRor 3 k 1 3)]

theorem resp_tail (n : Nat) (k : Fin 6) : Resp k (seq (reuseTail n k)) := by
  refine Resp.seq _ fun f hf => ?_
  unfold reuseTail at hf
  simp only [List.mem_cons, List.not_mem_nil, or_false] at hf
  rcases hf with h | h | h | h | h | h | h | h | h | h | h | h <;> rw [h]
  · exact resp_when (resp_ror _ _ _ _) _
  · exact resp_when (resp_ror _ _ _ _) _
  · exact resp_when (resp_ror _ _ _ _) _
  · exact resp_when (resp_ror _ _ _ _) _
  · exact resp_when (resp_ror _ _ _ _) _
  · exact resp_when (resp_ror _ _ _ _) _
  · exact resp_when (resp_add _ _ _ _) _
  · exact resp_when (resp_add _ _ _ _) _
  · exact resp_when (resp_add _ _ _ _) _
  · exact resp_when (resp_add _ _ _ _) _
  · exact resp_when (resp_add _ _ _ _) _
  · exact resp_when (resp_add _ _ _ _) _

/-- The values shown depend on the masks only. -/
theorem reuse_probes (n : Nat) (k : Fin 6) (s s' : St) (h : ∀ d i, d ≠ 0 → s d k i = s' d k i) :
    (reuse n k s).2 = (reuse n k s').2 := by
  have e : reuse n k = (setConst k 0 0).then ((setConst k 1 0).then (seq (reuseTail n k))) := by
    unfold reuse reuseTail
    rw [seq, seq]
  have e2 : ∀ s, (reuse n k s).2 = [0] ++ ([0] ++ (seq (reuseTail n k) (put (put s 0 k 0 0) 0 k 1 0)).2) := fun s => by
    rw [e, then_snd, then_snd, setConst, setConst]
  rw [e2, e2, (resp_tail n k _ _ ?_).2]
  intro d i
  unfold put
  by_cases hd : d = 0
  · revert i
    refine two ?_ ?_ <;> simp [hd]
  · simp only [hd, false_and, if_false]; exact h d i hd

theorem reuse_word (n : Nat) (k : Fin 6) (s : St) : (reuse n k s).1 = putw s k (MREUSE (wd s k) 0 n) := by
  have hs := putw_wd s k
  generalize hw : wd s k = w at hs
  rw [← hs]
  have e' : ∀ w, putw (putw s k w) k = putw s k := fun w => by
    funext w' d k' j; unfold putw; by_cases h : k' = k <;> simp only [h, if_true, if_false]
  rw [e']
  have t1 : ∀ (i : Fin 2) (v : U32) (w : word_t), (setConst k i v (putw s k w)).1 = putw s k (w.set 0 i.val v) := fun i v w => by
    unfold setConst; simp only [put_putw]
  have t2 : ∀ (d : Nat) (i : Fin 2) (r : Nat) (c : Prop) [Decidable c] (w : word_t), (when c (rorInto d k i r) (putw s k w)).1 =
      putw s k (if c then rorShare w d i.val r else w) := fun d i r c _ w => by
    unfold MaskedN.Probe.when
    by_cases h : c
    · rw [if_pos h, if_pos h]; unfold rorInto rorShare; simp only [put_putw, putw_same]
    · rw [if_neg h, if_neg h]; rfl
  have t3 : ∀ (d : Nat) (i : Fin 2) (imm : Int) (c : Prop) [Decidable c] (w : word_t), (when c (addRor d k i imm) (putw s k w)).1 =
      putw s k (if c then w.xor 0 i.val (ROR32 (w.get d i.val) (ROT imm)) else w) := fun d i r c _ w => by
    unfold MaskedN.Probe.when
    by_cases h : c
    · rw [if_pos h, if_pos h]; unfold addRor word_t.xor; simp only [put_putw, putw_same]
    · rw [if_neg h, if_neg h]; rfl
  unfold reuse
  simp only [seq_cons, seq_nil, t1, t2, t3]
  congr 1
  have gx : ∀ (c : Prop) [Decidable c] (w : word_t) (d j i : Nat) (v : U32), d ≠ 0 →
      (if c then w.xor 0 j v else w).get d i = w.get d i := fun c _ w d j i v hd => by
    split
    · exact get_xor_share _ hd _ _ _
    · rfl
  have c2 : (n ≥ 2 ∧ 1 < 2) = (n ≥ 2) := by simp
  have c3 : (n ≥ 3 ∧ 1 < 3) = (n ≥ 3) := by simp
  have c4 : (n ≥ 4 ∧ 1 < 4) = (n ≥ 4) := by simp
  unfold MREUSE MREMASK
  simp only [gx _ _ _ _ _ _ (show (1 : Nat) ≠ 0 by decide), gx _ _ _ _ _ _ (show (2 : Nat) ≠ 0 by decide),
    gx _ _ _ _ _ _ (show (3 : Nat) ≠ 0 by decide), c2, c3, c4]
  rfl

/-- The rotations of `MMIX`. -/
def mixr (d : Nat) : Nat := if d = 1 then 7 else if d = 2 then 13 else 29

theorem get_MREUSE {n : Nat} (h4 : n ≤ 4) (w : word_t) {d : Nat} (hd : d ≠ 0) (i : Fin 2) :
    (MREUSE w 0 n).get d i.val = if d < n then ROR32 (w.get d i.val) (mixr d) else w.get d i.val := by
  unfold MREUSE
  simp only []
  rw [get_MREMASK _ _ _ _ _ _ (by revert i; exact two (Or.inl rfl) (Or.inr rfl)), if_neg hd]
  have gs : ∀ (w : word_t) (j : Nat) (v : U32), (w.set 0 j v).get d i.val = w.get d i.val := fun w j v =>
    get_set_share _ hd _ _ _
  have gr : ∀ (w : word_t) (e : Nat) (j : Fin 2) (r : Nat) (c : Prop) [Decidable c],
      (if c then rorShare w e j.val r else w).get d i.val =
        if c ∧ d = e ∧ i = j then ROR32 (w.get d i.val) r else w.get d i.val := by
    intro w e j r c _
    by_cases hc : c
    · simp only [hc, if_true, true_and, rorShare, get_set]
      split
      · next h => rw [h.1, h.2]
      · rfl
    · simp only [hc, if_false, false_and]
  have gr0 := fun w e r c [Decidable c] => gr w e 0 r c
  have gr1 := fun w e r c [Decidable c] => gr w e 1 r c
  unfold MMIX
  simp only [show ((0 : Fin 2)).val = 0 from rfl, show ((1 : Fin 2)).val = 1 from rfl] at gr0 gr1
  simp only [gr0, gr1, gs]
  by_cases h : d < n
  · rcases four h h4 with rfl | rfl | rfl | rfl
    · exact absurd rfl hd
    · revert i; refine two ?_ ?_ <;> simp [h, mixr, show 2 ≤ n by omega]
    · revert i; refine two ?_ ?_ <;> simp [h, mixr, show 3 ≤ n by omega]
    · revert i; refine two ?_ ?_ <;> simp [h, mixr, show 4 ≤ n by omega]
  · rw [if_neg h]
    have e1 : ¬ (n ≥ 2 ∧ d = 1) := by omega
    have e2 : ¬ (n ≥ 3 ∧ d = 2) := by omega
    have e3 : ¬ (n ≥ 4 ∧ d = 3) := by omega
    simp only [← and_assoc, e1, e2, e3, false_and, if_false]

theorem V_MREUSE {n : Nat} (h1 : 1 ≤ n) (h4 : n ≤ 4) (w : word_t) (i : Fin 2) : V n (MREUSE w 0 n) i.val = 0 := by
  have h := PV_zero_iff.2 (PV_MREUSE0 (ns := n) ⟨h1, h4⟩ w)
  revert i
  exact two h.1 h.2

theorem uniq {n : Nat} (h1 : 1 ≤ n) (h4 : n ≤ 4) {s s' : St} (h : ∀ d, d ≠ 0 → s' d = s d) (hv : val n s' = val n s) : s' = s := by
  funext d
  by_cases hd : d = 0
  · subst hd
    funext k i
    have e := val_upd h4 (s := s) (s' := s') (k := k) (i := i) (e := 0) (x := s 0 k i ^^^ s' 0 k i) (by omega) (xx _ _).symm
      (fun d _ hd => by rw [h d hd])
    rw [hv, ROR32_0] at e
    have e' : s 0 k i ^^^ s' 0 k i = 0 := by
      have := congrArg (fun x => val n s k i ^^^ x) e
      simp only [BitVec.xor_self, xx] at this
      exact this.symm
    have := congrArg (fun x => s 0 k i ^^^ x) e'
    simp only [xx] at this
    rw [this]; exact xz _
  · exact h d hd

/-- The mixing undone. -/
def unmix (n : Nat) (k : Fin 6) (t : St) : St := fun d k' i =>
  if d ≠ 0 ∧ d < n ∧ k' = k then ROR32 (t d k' i) (32 - mixr d) else t d k' i

theorem mix_inv (x : U32) (d : Nat) : ROR32 (ROR32 x (mixr d)) (32 - mixr d) = x := by
  have h : mixr d < 32 ∧ 0 < mixr d := by unfold mixr; split <;> (try split) <;> omega
  rw [ROR32_add _ _ _ (by omega) (by omega), show (mixr d + (32 - mixr d)) % 32 = 0 by omega, ROR32_0]

theorem mix_inv' (x : U32) (d : Nat) : ROR32 (ROR32 x (32 - mixr d)) (mixr d) = x := by
  have h : mixr d < 32 ∧ 0 < mixr d := by unfold mixr; split <;> (try split) <;> omega
  rw [ROR32_add _ _ _ (by omega) (by omega), show (32 - mixr d + mixr d) % 32 = 0 by omega, ROR32_0]

theorem good_reuse {n : Nat} (h2 : 2 ≤ n) (h4 : n ≤ 4) (k : Fin 6) : Good n (reuse n k) := by
  have hlen : ∃ m, ∀ s, (reuse n k s).2.length = m := by
    have hw : ∀ (c : Prop) [Decidable c] (f : Op) (m : Nat), (∀ s, (f s).2.length = m) →
        ∀ s, (when c f s).2.length = if c then m else 0 := by
      intro c _ f m h s
      unfold MaskedN.Probe.when
      by_cases hc : c
      · rw [if_pos hc, if_pos hc, h]
      · rw [if_neg hc, if_neg hc]; rfl
    have cons : ∀ (f : Op) (l : List Op) (s : St), (seq (f :: l) s).2.length = (f s).2.length + (seq l (f s).1).2.length :=
      fun f l s => List.length_append
    have nil : ∀ s : St, (seq [] s).2.length = 0 := fun _ => rfl
    have l1 : ∀ i v s, (setConst k i v s).2.length = 1 := fun _ _ _ => rfl
    have l2 := fun c [Decidable c] d i r => hw c (rorInto d k i r) 1 fun _ => rfl
    have l3 := fun c [Decidable c] d i r => hw c (addRor d k i r) 2 fun _ => rfl
    refine ⟨(reuse n k fun _ _ _ => 0).2.length, fun s => ?_⟩
    unfold reuse
    simp only [cons, nil, l1, l2, l3]
  have hf : ∀ s, (reuse n k s).1 = putw s k (MREUSE (wd s k) 0 n) := reuse_word n k
  have hA : ∀ s, val n (reuse n k s).1 = fun k' i => if k' = k then 0 else val n s k' i := by
    intro s
    funext k' i
    rw [hf, val_putw, V_MREUSE (by omega) h4]
  have hsh : ∀ s d k' i, d ≠ 0 → (reuse n k s).1 d k' i =
      if d ≠ 0 ∧ d < n ∧ k' = k then ROR32 (s d k' i) (mixr d) else s d k' i := by
    intro s d k' i hd
    rw [hf]
    unfold putw
    by_cases hk : k' = k
    · rw [if_pos hk, get_MREUSE h4 _ hd, wd_get]
      subst hk
      by_cases h : d < n
      · rw [if_pos h, if_pos ⟨hd, h, rfl⟩]
      · rw [if_neg h, if_neg fun h' => h h'.2.1]
    · rw [if_neg hk, if_neg fun h' => hk h'.2.2]
  refine ⟨⟨fun S k' i => if k' = k then 0 else S k' i, fun R S =>
    ⟨fun t => adj (fun _ => 0) (fun k' i => val n (unmix n k t) k' i ^^^ S k' i) (unmix n k t), fun s hs => ?_, fun t ht => ?_⟩⟩,
    hlen, fun R S S' j => sel h4 (e := fun _ => 0) (fun _ => by omega) (fun s s' h => ?_) R S S'⟩
  · have hin : In n R (fun k' i => if k' = k then 0 else S k' i) (reuse n k s).1 := by
      refine ⟨by rw [hA, hs.1], fun d hd => ?_⟩
      rw [← hs.2 d hd]
      funext k' i
      rw [hsh s d k' i (by omega), if_neg (by omega)]
    refine ⟨hin, uniq (n := n) (by omega) h4 (fun d hd => ?_) ?_⟩
    · funext k' i
      simp only [adj, if_neg hd, unmix]
      by_cases h : d ≠ 0 ∧ d < n ∧ k' = k
      · rw [if_pos h, hsh _ _ _ _ hd, if_pos h, mix_inv]
      · rw [if_neg h, hsh _ _ _ _ hd, if_neg h]
    · rw [val_adj h4 fun _ => by omega, hs.1]
      funext k' i
      exact xx _ _
  · have hin : In n R S (adj (fun _ => 0) (fun k' i => val n (unmix n k t) k' i ^^^ S k' i) (unmix n k t)) := by
      refine ⟨?_, fun d hd => ?_⟩
      · rw [val_adj h4 fun _ => by omega]
        funext k' i
        exact xx _ _
      · rw [← ht.2 d hd]
        funext k' i
        have h0 : ¬ d = 0 := by omega
        simp only [adj, if_neg h0, unmix]
        rw [if_neg (by omega)]
    refine ⟨hin, uniq (n := n) (by omega) h4 (fun d hd => ?_) ?_⟩
    · funext k' i
      rw [hsh _ _ _ _ hd]
      simp only [adj, if_neg hd, unmix]
      by_cases h : d ≠ 0 ∧ d < n ∧ k' = k
      · rw [if_pos h, if_pos h, mix_inv']
      · rw [if_neg h, if_neg h]
    · rw [hA, hin.1, ht.1]
  · rw [reuse_probes n k s s' fun d i hd => h d k i hd]

/-! ## The whole permutation -/

theorem good_sbox {n : Nat} (h2 : 2 ≤ n) (h4 : n ≤ 4) (i : Fin 2) : Good n (sbox n i) := by
  have e : sbox n i = (seq [when (n ≥ 1) (affine1 i 0), when (n ≥ 2) (affine1 i 1), when (n ≥ 3) (affine1 i 2),
      when (n ≥ 4) (affine1 i 3)]).then ((mxorbic n 5 4 3 i).then ((mxorbic n 4 1 0 i).then ((mxorbic n 1 3 2 i).then
      ((mxorbic n 3 0 4 i).then ((mxorbic n 0 2 1 i).then (seq [when (n ≥ 1) (affine2 i 0), notInto 2 i,
        when (n ≥ 2) (affine2 i 1), when (n ≥ 3) (affine2 i 2), when (n ≥ 4) (affine2 i 3)])))))) := by
    unfold sbox
    rw [show ∀ a b c d e f g h i j k l m o : Op, [a, b, c, d, e, f, g, h, i, j, k, l, m, o] =
      [a, b, c, d] ++ [e, f, g, h, i, j, k, l, m, o] from fun _ _ _ _ _ _ _ _ _ _ _ _ _ _ => rfl, seq_append]
    congr 1
  rw [e]
  have g := fun {c a b : Fin 6} (ha : a ≠ c) (hb : b ≠ c) (hab : a ≠ b) => good_mxorbic h2 h4 ha hb hab i
  exact (good_affine1 h2 h4 i).then ((g (by decide) (by decide) (by decide)).then ((g (by decide) (by decide) (by decide)).then
    ((g (by decide) (by decide) (by decide)).then ((g (by decide) (by decide) (by decide)).then
    ((g (by decide) (by decide) (by decide)).then (good_affine2 h2 h4 i))))))

theorem good_round {n : Nat} (h2 : 2 ≤ n) (h4 : n ≤ 4) (C_o C_e : Byte) : Good n (round n C_o C_e) := by
  have e : round n C_o C_e = (xorConst 2 0 (C_e.setWidth 32)).then ((sbox n 0).then ((xorConst 2 1 (C_o.setWidth 32)).then
      ((sbox n 1).then ((reuse n 5).then (seq [when (n ≥ 4) (linear 3), when (n ≥ 3) (linear 2), when (n ≥ 2) (linear 1),
        when (n ≥ 1) (linear 0)]))))) := rfl
  rw [e]
  exact (good_xorConst h2 h4 _ _ _).then ((good_sbox h2 h4 0).then ((good_xorConst h2 h4 _ _ _).then ((good_sbox h2 h4 1).then
    ((good_reuse h2 h4 5).then (good_linear h2 h4)))))

theorem good_rounds {n : Nat} (h2 : 2 ≤ n) (h4 : n ≤ 4) (i nr : Nat) : Good n (rounds n i nr) := by
  refine good_seq (by omega) h4 _ fun f hf => ?_
  obtain ⟨j, -, rfl⟩ := List.mem_map.1 hf
  exact good_round h2 h4 _ _

theorem good_perm {n : Nat} (h2 : 2 ≤ n) (h4 : n ≤ 4) (nr : Nat) : Good n (perm n nr) := good_rounds h2 h4 _ _

end Ascon.MaskedN.Probe
