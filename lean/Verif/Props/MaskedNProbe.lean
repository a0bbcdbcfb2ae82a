import Verif.Proof.MaskedNProbeLink
import Verif.Spec.Probing
import Verif.Props.Demo
/-!
# C74: two, three or four shares: one probe learns nothing, two probes can

protected_bi32_armv6_leveled compiled with `NUM_SHARES_…` = 2, 3 or 4.
-/

namespace Ascon.Props

open Ascon.Spec Ascon.C Ascon.MaskedN Ascon.MaskedN.Probe
open Ascon.Masked (U32 ROR32 ROR32_xor constants)
open Ascon.Masked.Probe (Val two)

/-! ## Sharings -/

/-- The shares 1, …, `m` are the masks; share 0 is left open; beyond the shares is `R`. -/
def nMasks {m : Nat} (R : St) (μ : Fin m → Val) : St := fun d =>
  if d = 0 then fun _ _ => 0 else if h : d - 1 < m then μ ⟨d - 1, h⟩ else R d

/-- The sharing of `S` with `m + 1` shares and the masks `μ`: share `d ≥ 1` is the mask number `d`, share 0 is
`S ⊕ ror(share 1, 5) ⊕ ror(share 2, 10) ⊕ …`.  (`R` is what lies beyond the shares; the code does not look at it.) -/
def nShare {m : Nat} (R : St) (S : Val) (μ : Fin m → Val) : St := fun d =>
  if d = 0 then fun k i => S k i ^^^ val (m + 1) (nMasks R μ) k i else nMasks R μ d

/-- For three shares, in full. -/
theorem nShare_three (R : St) (S : Val) (μ : Fin 2 → Val) (k : Fin 6) (i : Fin 2) :
    nShare R S μ 0 k i = S k i ^^^ (ROR32 (μ 0 k i) 5 ^^^ ROR32 (μ 1 k i) 10) ∧ nShare R S μ 1 k i = μ 0 k i ∧
      nShare R S μ 2 k i = μ 1 k i := by
  refine ⟨?_, rfl, rfl⟩
  show S k i ^^^ ((0 : U32) ^^^ ROR32 0 0 ^^^ ROR32 (μ 0 k i) 5 ^^^ ROR32 (μ 1 k i) 10) = _
  have z : ∀ x : U32, (0 : U32) ^^^ x = x := fun _ => BitVec.zero_xor
  rw [show (0 : U32) ^^^ ROR32 0 0 = 0 by decide, z]

theorem in_nShare {m : Nat} (h4 : m + 1 ≤ 4) (R : St) (S : Val) (μ : Fin m → Val) : In (m + 1) R S (nShare R S μ) := by
  refine ⟨?_, fun d hd => ?_⟩
  · funext k i
    rw [val_upd h4 (s := nMasks R μ) (e := 0) (x := S k i ^^^ val (m + 1) (nMasks R μ) k i) (by omega)
      (show nShare R S μ 0 k i = (0 : U32) ^^^ (S k i ^^^ val (m + 1) (nMasks R μ) k i) from BitVec.zero_xor.symm)
      (fun d _ hd => by rw [nShare, if_neg hd]), ROR32_0, BitVec.xor_comm (S k i), Masked.Probe.xx]
  · unfold nShare nMasks
    rw [if_neg (by omega), if_neg (by omega), dif_neg (by omega)]

/-- The masks of a sharing. -/
def masksIn (m : Nat) (s : St) : Fin m → Val := fun e => s (e.val + 1)

theorem masksIn_nShare {m : Nat} (R : St) (S : Val) (μ : Fin m → Val) : masksIn m (nShare R S μ) = μ := by
  funext e
  unfold masksIn nShare nMasks
  rw [if_neg (by omega), if_neg (by omega), dif_pos (show e.val + 1 - 1 < m by have := e.isLt; omega)]
  rfl

theorem nShare_masksIn {m : Nat} (h4 : m + 1 ≤ 4) {R : St} {S : Val} {s : St} (h : In (m + 1) R S s) :
    nShare R S (masksIn m s) = s := by
  refine uniq (n := m + 1) (by omega) h4 (fun d hd => ?_) ((in_nShare h4 R S _).1.trans h.1.symm)
  unfold nShare nMasks masksIn
  rw [if_neg hd, if_neg hd]
  by_cases hm : d - 1 < m
  · rw [dif_pos hm]
    show s (d - 1 + 1) = s d
    rw [show d - 1 + 1 = d by omega]
  · rw [dif_neg hm, h.2 d (by omega)]

theorem sameDist_of_SD {V : Type} {m : Nat} (h4 : m + 1 ≤ 4) {R : St} {S S' : Val} {p : St → V} (h : SD (m + 1) R S S' p) :
    SameDist (fun μ : Fin m → Val => p (nShare R S μ)) (fun μ => p (nShare R S' μ)) := by
  obtain ⟨φ, ψ, h1, h2⟩ := h
  refine ⟨fun μ => masksIn m (φ (nShare R S μ)), fun μ => masksIn m (ψ (nShare R S' μ)), fun μ => ?_, fun μ => ?_, fun μ => ?_⟩
  · obtain ⟨a, b, -⟩ := h1 _ (in_nShare h4 R S μ)
    simp only [nShare_masksIn h4 a, b, masksIn_nShare]
  · obtain ⟨a, b⟩ := h2 _ (in_nShare h4 R S' μ)
    simp only [nShare_masksIn h4 a, b, masksIn_nShare]
  · obtain ⟨a, b, c⟩ := h1 _ (in_nShare h4 R S μ)
    simp only [nShare_masksIn h4 a]
    exact c

/-! ## One probe -/

/-- `P(s, nr, ns)` on a uniformly shared state with `ns = m + 1` shares (two, three or four): any one value that appears (result,
rotated operand or temporary, the `j`-th in execution order) has a distribution that does not depend on the shared state, for
every number of rounds. -/
theorem C74_perm_probe {m : Nat} (h1 : 1 ≤ m) (h3 : m ≤ 3) (nr : Nat) (R : St) (S S' : Val) (j : Nat) :
    SameDist (fun μ : Fin m → Val => (Probe.perm (m + 1) nr (nShare R S μ)).2[j]?)
      (fun μ => (Probe.perm (m + 1) nr (nShare R S' μ)).2[j]?) :=
  sameDist_of_SD (by omega) ((MaskedN.Probe.good_perm (by omega) (by omega) nr).probe R S S' j)

/-- After the permutation the state is again uniformly shared: the masks of the result run through all masks, each once, when
those of the argument do; the value shared after it depends on the value shared before it only. -/
theorem C74_perm_uniform {m : Nat} (h1 : 1 ≤ m) (h3 : m ≤ 3) (nr : Nat) (R : St) :
    ∃ A : Val → Val, ∀ S, ∃ π π' : (Fin m → Val) → Fin m → Val,
      (∀ μ, (Probe.perm (m + 1) nr (nShare R S μ)).1 = nShare R (A S) (π μ)) ∧ (∀ μ, π' (π μ) = μ) ∧ ∀ μ, π (π' μ) = μ := by
  obtain ⟨A, hA⟩ := (MaskedN.Probe.good_perm (n := m + 1) (by omega) (by omega) nr).map
  refine ⟨A, fun S => ?_⟩
  obtain ⟨g, g1, g2⟩ := hA R S
  have h4 : m + 1 ≤ 4 := by omega
  refine ⟨fun μ => masksIn m (Probe.perm (m + 1) nr (nShare R S μ)).1, fun μ => masksIn m (g (nShare R (A S) μ)), fun μ => ?_,
    fun μ => ?_, fun μ => ?_⟩
  · exact (nShare_masksIn h4 (g1 _ (in_nShare h4 R S μ)).1).symm
  · obtain ⟨a, b⟩ := g1 _ (in_nShare h4 R S μ)
    simp only [nShare_masksIn h4 a, b, masksIn_nShare]
  · obtain ⟨a, b⟩ := g2 _ (in_nShare h4 R (A S) μ)
    simp only [nShare_masksIn h4 a, b, masksIn_nShare]

/-- The states are those of the code (Model/MaskedN). -/
theorem C74_states {n : Nat} (h2 : 2 ≤ n) (h4 : n ≤ 4) {nr : Nat} (h0 : 0 < nr) (h12 : nr ≤ 12) (s : MState) (mem : Mem) :
    ∃ s', run (P s nr n) mem = some (s', mem) ∧ toSt s' = (Probe.perm n nr (toSt s)).1 := by
  obtain ⟨s', a, b⟩ := MaskedN.Probe.link_P h2 h4 h0 h12 s mem
  exact ⟨s', b, a⟩

/-- Number of values that appear in a round: 240, 450, 720 for two, three, four shares. -/
theorem C74_values (nr : Nat) (s : St) : (Probe.perm 2 nr s).2.length = 240 * nr ∧ (Probe.perm 3 nr s).2.length = 450 * nr ∧
    (Probe.perm 4 nr s).2.length = 720 * nr := by
  have cons : ∀ (f : Op) (l : List Op) (s : St), (seq (f :: l) s).2.length = (f s).2.length + (seq l (f s).1).2.length :=
    fun f l s => List.length_append
  have nil : ∀ s : St, (seq [] s).2.length = 0 := fun _ => rfl
  have h1 : ∀ d k k' i s, (xorInto d k k' i s).2.length = 1 := fun _ _ _ _ _ => rfl
  have h2 : ∀ k i C s, (xorConst k i C s).2.length = 1 := fun _ _ _ _ => rfl
  have h3 : ∀ k i s, (notInto k i s).2.length = 1 := fun _ _ _ => rfl
  have h4 : ∀ g dc c da a db b i r s, (eorRor g dc c da a db b i r s).2.length = 3 := fun _ _ _ _ _ _ _ _ _ _ => rfl
  have h5 : ∀ k i v s, (setConst k i v s).2.length = 1 := fun _ _ _ _ => rfl
  have h6 : ∀ d k i r s, (rorInto d k i r s).2.length = 1 := fun _ _ _ _ _ => rfl
  have h7 : ∀ d k i r s, (addRor d k i r s).2.length = 2 := fun _ _ _ _ _ => rfl
  have h8 : ∀ d k s, (linearWord d k s).2.length = 8 := fun _ _ _ => rfl
  have hw : ∀ (c : Prop) [Decidable c] (f : Op) (s : St), (when c f s).2.length = if c then (f s).2.length else 0 := by
    intro c _ f s
    unfold MaskedN.Probe.when
    split <;> rfl
  have r2 : ∀ Co Ce s, (Probe.round 2 Co Ce s).2.length = 240 := by
    intro Co Ce s
    simp only [Probe.round, Probe.sbox, mx2, Probe.affine1, Probe.affine2, mxorbic2, Probe.linear, reuse, cons, nil, h1, h2,
      h3, h4, h5, h6, h7, h8, hw]
    decide
  have r3 : ∀ Co Ce s, (Probe.round 3 Co Ce s).2.length = 450 := by
    intro Co Ce s
    simp only [Probe.round, Probe.sbox, mx3, Probe.affine1, Probe.affine2, mxorbic3, Probe.linear, reuse, cons, nil, h1, h2,
      h3, h4, h5, h6, h7, h8, hw]
    decide
  have r4 : ∀ Co Ce s, (Probe.round 4 Co Ce s).2.length = 720 := by
    intro Co Ce s
    simp only [Probe.round, Probe.sbox, mx4, Probe.affine1, Probe.affine2, mxorbic4, Probe.linear, reuse, cons, nil, h1, h2,
      h3, h4, h5, h6, h7, h8, hw]
    decide
  have all : ∀ (q : Nat) (l : List Op), (∀ f ∈ l, ∀ s, (f s).2.length = q) → ∀ s, (seq l s).2.length = q * l.length := by
    intro q l
    induction l with
    | nil => intro _ s; rfl
    | cons f l ih =>
      intro h s
      rw [cons, h f (List.mem_cons_self ..), ih (fun g hg => h g (List.mem_cons_of_mem _ hg)), List.length_cons, Nat.mul_succ,
        Nat.add_comm]
  have fin : ∀ n q, (∀ Co Ce s, (Probe.round n Co Ce s).2.length = q) → (Probe.perm n nr s).2.length = q * nr := by
    intro n q h
    unfold Probe.perm rounds
    rw [all q _ fun f hf s => ?_, List.length_map, List.length_range]
    obtain ⟨j, -, rfl⟩ := List.mem_map.1 hf
    exact h _ _ s
  exact ⟨fin 2 _ r2, fin 3 _ r3, fin 4 _ r4⟩

/-! ## Two probes -/

/-- If a property of the observed value always holds for one secret and not always for another, the distributions differ. -/
theorem not_sameDist {M V : Type} {f g : M → V} (p : V → Prop) (hf : ∀ m, p (f m)) {m : M} (hg : ¬ p (g m)) :
    ¬ SameDist f g := by
  rintro ⟨φ, ψ, -, h2, h3⟩
  refine hg ?_
  rw [← h2 m, ← h3]
  exact hf _

theorem gate_ne {n : Nat} (h2 : 2 ≤ n) (h4 : n ≤ 4) {c a b : Fin 6} (ha : a ≠ c) (hb : b ≠ c) (hab : a ≠ b) (i : Fin 2) (s : St)
    (d : Nat) {k : Fin 6} (hk : k ≠ c) (j : Fin 2) : (mxorbic n c a b i s).1 d k j = s d k j := by
  obtain ⟨H, -, -, h3⟩ := (gate_mxorbic h2 h4 ha hb hab i).eq
  rw [h3]
  exact if_neg fun h => hk h.1

theorem val_gate_ne {n : Nat} (h2 : 2 ≤ n) (h4 : n ≤ 4) {c a b : Fin 6} (ha : a ≠ c) (hb : b ≠ c) (hab : a ≠ b) (i : Fin 2) (s : St)
    {k : Fin 6} (hk : k ≠ c) (j : Fin 2) : val n (mxorbic n c a b i s).1 k j = val n s k j :=
  val_congr fun d _ => gate_ne h2 h4 ha hb hab i s d hk j

/-- Three shares: what the gate does to share 0. -/
theorem gate3_share0 {c a b : Fin 6} (ha : a ≠ c) (hb : b ≠ c) (i : Fin 2) (s : St) :
    (mxorbic 3 c a b i s).1 0 c i = s 0 c i ^^^ s 0 a i ^^^ (s 0 b i &&& val 3 s a i) := by
  rw [mx3]
  unfold mxorbic3
  simp only [seq_cons, seq_nil, eorRor, put]
  simp only [ha, hb, and_true, and_false, and_self, if_true, if_false, show ¬ (0 : Nat) = 1 by decide,
    show ¬ (0 : Nat) = 2 by decide]
  have e : val 3 s a i = s 0 a i ^^^ ROR32 (s 1 a i) 5 ^^^ ROR32 (s 2 a i) 10 := by
    show (0 : U32) ^^^ ROR32 (s 0 a i) 0 ^^^ _ ^^^ _ = _
    rw [ROR32_0, show (0 : U32) ^^^ s 0 a i = s 0 a i from BitVec.zero_xor]
  rw [e]
  obtain ⟨r0, -, -, -, -, -, -, r1, -, -, r2, -⟩ := rots
  rw [r0, r1, r2, ROR32_0]
  generalize ROR32 (s 1 a i) 5 = y, ROR32 (s 2 a i) 10 = z, s 0 a i = x, s 0 b i = u, s 0 c i = v
  apply BitVec.eq_of_getLsbD_eq; intro j hj
  simp only [BitVec.getLsbD_xor, BitVec.getLsbD_and, BitVec.getLsbD_not, hj, decide_true, Bool.true_and]
  generalize x.getLsbD j = x, y.getLsbD j = y, u.getLsbD j = u, v.getLsbD j = v, z.getLsbD j = z
  revert x y u v z; decide +kernel

/-- The first round up to the end of the non-linear part of the first half, with three shares. -/
def pre3 (C : U32) : Op :=
  seq [xorConst 2 0 C, Probe.affine1 0 0, Probe.affine1 0 1, Probe.affine1 0 2, mxorbic 3 5 4 3 0, mxorbic 3 4 1 0 0, mxorbic 3 1 3 2 0,
    mxorbic 3 3 0 4 0, mxorbic 3 0 2 1 0]

/-- Share 0 of `x[0]`, half 0, after the S-box. -/
theorem sbox3_x0 (C : U32) (s : St) : (pre3 C s).1 0 0 0 ^^^ (pre3 C s).1 0 4 0 =
    s 0 0 0 ^^^ s 0 2 0 ^^^ C ^^^ s 0 3 0 ^^^ ((s 0 0 0 ^^^ s 0 4 0) &&& val 3 s 1 0) ^^^
      ((s 0 1 0 ^^^ s 0 3 0 ^^^ ((s 0 2 0 ^^^ C ^^^ s 0 1 0) &&& val 3 s 3 0)) &&& (val 3 s 2 0 ^^^ C ^^^ val 3 s 1 0)) := by
  have e : (pre3 C s).1 = (mxorbic 3 0 2 1 0 (mxorbic 3 3 0 4 0 (mxorbic 3 1 3 2 0 (mxorbic 3 4 1 0 0 (mxorbic 3 5 4 3 0
      (seq [xorConst 2 0 C, Probe.affine1 0 0, Probe.affine1 0 1, Probe.affine1 0 2] s).1).1).1).1).1).1 := by
    unfold pre3
    simp only [seq_cons, seq_nil]
  have hv : ∀ s : St, ∀ k, val 3 s k 0 = s 0 k 0 ^^^ ROR32 (s 1 k 0) 5 ^^^ ROR32 (s 2 k 0) 10 := by
    intro s k
    show (0 : U32) ^^^ ROR32 (s 0 k 0) 0 ^^^ _ ^^^ _ = _
    rw [ROR32_0, show (0 : U32) ^^^ s 0 k 0 = s 0 k 0 from BitVec.zero_xor]
  have hs : ∀ d, d < 3 → ∀ t, t = (seq [xorConst 2 0 C, Probe.affine1 0 0, Probe.affine1 0 1, Probe.affine1 0 2] s).1 →
      t d 0 0 = s d 0 0 ^^^ s d 4 0 ∧ t d 1 0 = s d 1 0 ∧
        t d 2 0 = (if d = 0 then s d 2 0 ^^^ C else s d 2 0) ^^^ s d 1 0 ∧ t d 3 0 = s d 3 0 ∧
        t d 4 0 = s d 4 0 ^^^ s d 3 0 := by
    intro d hd t ht
    subst ht
    unfold Probe.affine1
    simp only [seq_cons, seq_nil, xorInto, xorConst]
    obtain rfl | rfl | rfl : d = 0 ∨ d = 1 ∨ d = 2 := by omega
    all_goals simp [put]
  rw [e]
  generalize ht : (seq [xorConst 2 0 C, Probe.affine1 0 0, Probe.affine1 0 1, Probe.affine1 0 2] s).1 = t
  obtain ⟨a0, a1, a2, a3, a4⟩ := hs 0 (by omega) t ht.symm
  have v1 : val 3 t 1 0 = val 3 s 1 0 := val_congr fun d hd => (hs d hd t ht.symm).2.1
  have v3 : val 3 t 3 0 = val 3 s 3 0 := val_congr fun d hd => (hs d hd t ht.symm).2.2.2.1
  have v2 : val 3 t 2 0 = val 3 s 2 0 ^^^ C ^^^ val 3 s 1 0 := by
    rw [hv, hv, hv, (hs 0 (by omega) t ht.symm).2.2.1, (hs 1 (by omega) t ht.symm).2.2.1, (hs 2 (by omega) t ht.symm).2.2.1,
      if_pos rfl, if_neg (by decide), if_neg (by decide), ROR32_xor _ _ _ (by omega), ROR32_xor _ _ _ (by omega)]
    generalize s 0 2 0 = x, s 0 1 0 = y, ROR32 (s 1 2 0) 5 = u, ROR32 (s 1 1 0) 5 = v, ROR32 (s 2 2 0) 10 = w,
      ROR32 (s 2 1 0) 10 = z
    apply BitVec.eq_of_getLsbD_eq; intro j hj
    simp only [BitVec.getLsbD_xor]
    generalize x.getLsbD j = x, y.getLsbD j = y, u.getLsbD j = u, v.getLsbD j = v, w.getLsbD j = w, z.getLsbD j = z,
      C.getLsbD j = c
    revert x y u v w z c; decide +kernel
  have g := fun {c a b : Fin 6} (ha : a ≠ c) (hb : b ≠ c) (s : St) => gate3_share0 ha hb 0 s
  have gn := fun {c a b : Fin 6} (ha : a ≠ c) (hb : b ≠ c) (hab : a ≠ b) (s : St) (d : Nat) {k : Fin 6} (hk : k ≠ c) =>
    gate_ne (n := 3) (by omega) (by omega) ha hb hab 0 s d hk 0
  have gv := fun {c a b : Fin 6} (ha : a ≠ c) (hb : b ≠ c) (hab : a ≠ b) (s : St) {k : Fin 6} (hk : k ≠ c) =>
    val_gate_ne (n := 3) (by omega) (by omega) ha hb hab 0 s hk 0
  -- x[0]
  rw [g (by decide) (by decide)]
  simp only [gn (c := 3) (a := 0) (b := 4) (by decide) (by decide) (by decide) _ _ (show (0 : Fin 6) ≠ 3 by decide),
    gn (c := 3) (a := 0) (b := 4) (by decide) (by decide) (by decide) _ _ (show (1 : Fin 6) ≠ 3 by decide),
    gn (c := 3) (a := 0) (b := 4) (by decide) (by decide) (by decide) _ _ (show (2 : Fin 6) ≠ 3 by decide),
    gn (c := 3) (a := 0) (b := 4) (by decide) (by decide) (by decide) _ _ (show (4 : Fin 6) ≠ 3 by decide),
    gn (c := 0) (a := 2) (b := 1) (by decide) (by decide) (by decide) _ _ (show (4 : Fin 6) ≠ 0 by decide),
    gv (c := 3) (a := 0) (b := 4) (by decide) (by decide) (by decide) _ (show (2 : Fin 6) ≠ 3 by decide),
    gv (c := 1) (a := 3) (b := 2) (by decide) (by decide) (by decide) _ (show (2 : Fin 6) ≠ 1 by decide),
    gv (c := 4) (a := 1) (b := 0) (by decide) (by decide) (by decide) _ (show (2 : Fin 6) ≠ 4 by decide),
    gv (c := 5) (a := 4) (b := 3) (by decide) (by decide) (by decide) _ (show (2 : Fin 6) ≠ 5 by decide),
    gv (c := 4) (a := 1) (b := 0) (by decide) (by decide) (by decide) _ (show (3 : Fin 6) ≠ 4 by decide),
    gv (c := 5) (a := 4) (b := 3) (by decide) (by decide) (by decide) _ (show (3 : Fin 6) ≠ 5 by decide),
    gv (c := 5) (a := 4) (b := 3) (by decide) (by decide) (by decide) _ (show (1 : Fin 6) ≠ 5 by decide),
    g (c := 1) (a := 3) (b := 2) (by decide) (by decide), g (c := 4) (a := 1) (b := 0) (by decide) (by decide),
    gn (c := 1) (a := 3) (b := 2) (by decide) (by decide) (by decide) _ _ (show (0 : Fin 6) ≠ 1 by decide),
    gn (c := 1) (a := 3) (b := 2) (by decide) (by decide) (by decide) _ _ (show (2 : Fin 6) ≠ 1 by decide),
    gn (c := 1) (a := 3) (b := 2) (by decide) (by decide) (by decide) _ _ (show (4 : Fin 6) ≠ 1 by decide),
    gn (c := 4) (a := 1) (b := 0) (by decide) (by decide) (by decide) _ _ (show (0 : Fin 6) ≠ 4 by decide),
    gn (c := 4) (a := 1) (b := 0) (by decide) (by decide) (by decide) _ _ (show (1 : Fin 6) ≠ 4 by decide),
    gn (c := 4) (a := 1) (b := 0) (by decide) (by decide) (by decide) _ _ (show (2 : Fin 6) ≠ 4 by decide),
    gn (c := 4) (a := 1) (b := 0) (by decide) (by decide) (by decide) _ _ (show (3 : Fin 6) ≠ 4 by decide),
    gn (c := 5) (a := 4) (b := 3) (by decide) (by decide) (by decide) _ _ (show (0 : Fin 6) ≠ 5 by decide),
    gn (c := 5) (a := 4) (b := 3) (by decide) (by decide) (by decide) _ _ (show (1 : Fin 6) ≠ 5 by decide),
    gn (c := 5) (a := 4) (b := 3) (by decide) (by decide) (by decide) _ _ (show (2 : Fin 6) ≠ 5 by decide),
    gn (c := 5) (a := 4) (b := 3) (by decide) (by decide) (by decide) _ _ (show (3 : Fin 6) ≠ 5 by decide),
    gn (c := 5) (a := 4) (b := 3) (by decide) (by decide) (by decide) _ _ (show (4 : Fin 6) ≠ 5 by decide),
    v1, v2, v3, a0, a1, a2, a3, a4, if_true]
  generalize s 0 0 0 = x0, s 0 1 0 = x1, s 0 2 0 = x2, s 0 3 0 = x3, s 0 4 0 = x4, val 3 s 1 0 = y1, val 3 s 2 0 = y2,
    val 3 s 3 0 = y3
  apply BitVec.eq_of_getLsbD_eq; intro j hj
  simp only [BitVec.getLsbD_xor, BitVec.getLsbD_and]
  generalize x0.getLsbD j = x0, x1.getLsbD j = x1, x2.getLsbD j = x2, x3.getLsbD j = x3, x4.getLsbD j = x4,
    y1.getLsbD j = y1, y2.getLsbD j = y2, y3.getLsbD j = y3, C.getLsbD j = c
  revert x0 x1 x2 x3 x4 y1 y2 y3 c; decide +kernel

theorem csnd (f : Op) (l : List Op) (s : St) : (seq (f :: l) s).2 = (f s).2 ++ (seq l (f s).1).2 := by rw [seq, then_snd]

theorem nsnd (s : St) : (seq [] s).2 = [] := by rw [seq]

theorem probe147 (nr : Nat) (s : St) {C : U32} (hC : C = (constants.getD (2 * (12 - (nr + 1))) 0).setWidth 32) :
    (Probe.perm 3 (nr + 1) s).2[147]? = some ((pre3 C s).1 0 0 0 ^^^ (pre3 C s).1 0 4 0) := by
  unfold Probe.perm
  rw [MaskedN.Probe.rounds_cons]
  generalize hCo : (constants.getD (2 * (12 - (nr + 1)) + 1) 0) = Co
  generalize hCe : (constants.getD (2 * (12 - (nr + 1))) 0) = Ce
  generalize rounds 3 (12 - (nr + 1) + 1) nr = rest
  rw [hCe] at hC
  have w1 : ∀ f, when (3 ≥ 1) f = f := fun _ => if_pos (by decide)
  have w2 : ∀ f, when (3 ≥ 2) f = f := fun _ => if_pos (by decide)
  have w3 : ∀ f, when (3 ≥ 3) f = f := fun _ => if_pos (by decide)
  have w4 : ∀ f, when (3 ≥ 4) f = seq [] := fun _ => if_neg (by decide)
  have sc : ∀ (f : Op) (l : List Op), seq (f :: l) = f.then (seq l) := fun _ _ => by rw [seq]
  obtain ⟨tl, ht⟩ : ∃ tl : Op, (Probe.round 3 Co Ce).then rest = (pre3 C).then ((Probe.affine2 0 0).then tl) := by
    have e : ∃ q : Op, Probe.sbox 3 0 = (seq [Probe.affine1 0 0, Probe.affine1 0 1, Probe.affine1 0 2, mxorbic 3 5 4 3 0,
        mxorbic 3 4 1 0 0, mxorbic 3 1 3 2 0, mxorbic 3 3 0 4 0, mxorbic 3 0 2 1 0]).then ((Probe.affine2 0 0).then q) := by
      unfold Probe.sbox
      rw [w1, w2, w3, w4, w1]
      generalize mxorbic 3 5 4 3 0 = g1, mxorbic 3 4 1 0 0 = g2, mxorbic 3 1 3 2 0 = g3, mxorbic 3 3 0 4 0 = g4,
        mxorbic 3 0 2 1 0 = g5, Probe.affine1 0 0 = f1, Probe.affine1 0 1 = f2, Probe.affine1 0 2 = f3, Probe.affine2 0 0 = f4
      simp only [sc, then_assoc, nil_then, then_nil]
      exact ⟨_, rfl⟩
    obtain ⟨q, e⟩ := e
    have e' : pre3 C = (xorConst 2 0 C).then (seq [Probe.affine1 0 0, Probe.affine1 0 1, Probe.affine1 0 2, mxorbic 3 5 4 3 0,
        mxorbic 3 4 1 0 0, mxorbic 3 1 3 2 0, mxorbic 3 3 0 4 0, mxorbic 3 0 2 1 0]) := by
      unfold pre3
      rw [sc]
    have e2 : ∀ l, seq (xorConst 2 0 (Ce.setWidth 32) :: Probe.sbox 3 0 :: l) = (xorConst 2 0 C).then ((Probe.sbox 3 0).then (seq l)) := by
      intro l
      rw [sc, sc, hC]
    unfold Probe.round
    rw [e2, e', e]
    generalize seq [xorConst 2 1 (BitVec.setWidth 32 Co), Probe.sbox 3 1, reuse 3 5, when (3 ≥ 4) (Probe.linear 3),
      when (3 ≥ 3) (Probe.linear 2), when (3 ≥ 2) (Probe.linear 1), when (3 ≥ 1) (Probe.linear 0)] = u
    exact ⟨(q.then u).then rest, by simp only [then_assoc]⟩
  have hl : (pre3 C s).2.length = 145 := by
    have cons : ∀ (f : Op) (l : List Op) (s : St), (seq (f :: l) s).2.length = (f s).2.length + (seq l (f s).1).2.length :=
      fun f l s => List.length_append
    have nil : ∀ s : St, (seq [] s).2.length = 0 := fun _ => rfl
    have h1 : ∀ d k k' i s, (xorInto d k k' i s).2.length = 1 := fun _ _ _ _ _ => rfl
    have h2 : ∀ k i C s, (xorConst k i C s).2.length = 1 := fun _ _ _ _ => rfl
    have h4 : ∀ g dc c da a db b i r s, (eorRor g dc c da a db b i r s).2.length = 3 := fun _ _ _ _ _ _ _ _ _ _ => rfl
    simp only [pre3, mx3, mxorbic3, Probe.affine1, cons, nil, h1, h2, h4]
  have e : ∀ t : St, (Probe.affine2 0 0 t).2 = [t 0 2 0 ^^^ t 0 5 0, t 0 1 0 ^^^ t 0 0 0, t 0 0 0 ^^^ t 0 4 0,
      t 0 3 0 ^^^ (t 0 2 0 ^^^ t 0 5 0)] := by
    intro t
    unfold Probe.affine2
    rw [csnd, csnd, csnd, csnd, nsnd]
    simp [xorInto, put]
  rw [ht, then_snd, then_snd]
  clear ht
  generalize pre3 C s = p at hl
  rw [e, List.getElem?_append_right (by rw [hl]; decide), hl]
  rfl

/-- Three shares: share 0 of the first word when the permutation is called, and the value number 147 (the same share after the
first S-box layer), have a joint distribution that depends on the shared state.  So three shares resist one probe, not two
(goal_powersca_2nd claims the second order for three shares "on certain devices"). -/
theorem C74_three_shares_two_probes (nr : Nat) (h0 : 0 < nr) (R : St) : ∃ S S' : Val, ¬ SameDist
    (fun μ : Fin 2 → Val => (nShare R S μ 0 0 0, (Probe.perm 3 nr (nShare R S μ)).2[147]?))
    (fun μ => (nShare R S' μ 0 0 0, (Probe.perm 3 nr (nShare R S' μ)).2[147]?)) := by
  obtain ⟨nr, rfl⟩ : ∃ k, nr = k + 1 := ⟨nr - 1, by omega⟩
  have hp := fun s => probe147 nr s rfl
  generalize hCe : (constants.getD (2 * (12 - (nr + 1))) 0) = Ce at hp
  have hx := fun s => sbox3_x0 (Ce.setWidth 32) s
  have hc : (Ce.setWidth 32 : U32).getLsbD 31 = false := by
    rw [BitVec.getLsbD_setWidth]
    simp
  generalize (Ce.setWidth 32 : U32) = C at hp hx hc
  -- x[1] = 0, x[2] = ~C, x[3] = ~0
  let S : Val := fun k _ => if k = 2 then ~~~C else if k = 3 then ~~~0 else 0
  refine ⟨S, fun _ _ => 0, not_sameDist (fun v => v.2 = some v.1) (fun μ => ?_)
    (m := fun e k i => if e = 0 ∧ k = 3 ∧ i = 0 then ROR32 0x80000000 27 else 0) ?_⟩
  · have hv := (in_nShare (m := 2) (by omega) R S μ).1
    show (Probe.perm 3 (nr + 1) (nShare R S μ)).2[147]? = some (nShare R S μ 0 0 0)
    rw [hp, hx, hv]
    congr 1
    show _ ^^^ ((_ ^^^ _) &&& (0 : U32)) ^^^ ((_ ^^^ _ ^^^ ((_ ^^^ _ ^^^ _) &&& ~~~(0 : U32))) &&& (~~~C ^^^ C ^^^ (0 : U32))) = _
    generalize nShare R S μ 0 0 0 = x0, nShare R S μ 0 1 0 = x1, nShare R S μ 0 2 0 = x2, nShare R S μ 0 3 0 = x3,
      nShare R S μ 0 4 0 = x4
    apply BitVec.eq_of_getLsbD_eq; intro j hj
    simp only [BitVec.getLsbD_xor, BitVec.getLsbD_and, BitVec.getLsbD_not, hj, decide_true, Bool.true_and,
      BitVec.getLsbD_zero, show (0 : U32) = 0#32 from rfl]
    generalize x0.getLsbD j = x0, x1.getLsbD j = x1, x2.getLsbD j = x2, x3.getLsbD j = x3, x4.getLsbD j = x4, C.getLsbD j = c
    revert x0 x1 x2 x3 x4 c; decide +kernel
  · generalize hμ : (fun (e : Fin 2) (k : Fin 6) (i : Fin 2) => if e = 0 ∧ k = 3 ∧ i = 0 then ROR32 0x80000000 27 else 0) = μ
    have hv := (in_nShare (m := 2) (by omega) R (fun _ _ => 0) μ).1
    have hz : ∀ k : Fin 6, nShare R (fun _ _ => 0) μ 0 k 0 = if k = 3 then 0x80000000 else 0 := by
      intro k
      rw [(nShare_three R (fun _ _ => 0) μ k 0).1, ← hμ]
      revert k
      decide +kernel
    show ¬ (Probe.perm 3 (nr + 1) (nShare R (fun _ _ => 0) μ)).2[147]? = some (nShare R (fun _ _ => 0) μ 0 0 0)
    rw [hp, hx, hv]
    simp only [hz]
    intro h
    have h := congrArg (fun x : U32 => x.getLsbD 31) (Option.some.inj h)
    simp at h

end Ascon.Props
