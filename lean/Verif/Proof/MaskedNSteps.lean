import Verif.Model.MaskedNSteps
import Verif.Proof.MaskedNProbeLink
import Verif.Proof.MaskedNAlloc
/-!
# First-order probing security of the code around the masked permutation: proof
-/

namespace Ascon.MaskedN.Probe

open Ascon.C Ascon.Spec
open Ascon.C.Prog (require loop ifc)
open Ascon.Masked (U32 ROR32 ROT constants share_t linWord)
open Ascon.Masked.Probe (Val two six upd upd_same upd_self xx xx')

/-! ## Two programs -/

/-- `p` on the sharings of `S` has the same distribution as `p'` on the sharings of `S'`. -/
def SD2 {V : Type} (n : Nat) (R : St) (S S' : Val) (p p' : St → V) : Prop :=
  ∃ φ ψ : St → St, (∀ s, In n R S s → In n R S' (φ s) ∧ ψ (φ s) = s ∧ p s = p' (φ s)) ∧
    ∀ s, In n R S' s → In n R S (ψ s) ∧ φ (ψ s) = s

structure Pair (n : Nat) (f f' : Op) : Prop where
  l : Good n f
  r : Good n f'
  len : ∃ m, ∀ s, (f s).2.length = m ∧ (f' s).2.length = m
  probe : ∀ (R : St) (S S' : Val) (j : Nat), SD2 n R S S' (fun s => (f s).2[j]?) (fun s => (f' s).2[j]?)

theorem Good.pair {n : Nat} {f : Op} (h : Good n f) : Pair n f f := by
  obtain ⟨m, hm⟩ := h.len
  exact ⟨h, h, ⟨m, fun s => ⟨hm s, hm s⟩⟩, h.probe⟩

theorem Pair.then {n : Nat} {f g f' g' : Op} (hf : Pair n f f') (hg : Pair n g g') : Pair n (f.then g) (f'.then g') := by
  obtain ⟨A, hA⟩ := hf.l.map
  obtain ⟨A', hA'⟩ := hf.r.map
  obtain ⟨m, hm⟩ := hf.len
  obtain ⟨m2, hm2⟩ := hg.len
  refine ⟨hf.l.then hg.l, hf.r.then hg.r, ⟨m + m2, fun s => ?_⟩, fun R S S' j => ?_⟩
  · rw [then_snd, then_snd, List.length_append, List.length_append, (hm _).1, (hm _).2, (hm2 _).1, (hm2 _).2]
    exact ⟨rfl, rfl⟩
  · by_cases hj : j < m
    · have q : ∀ s, (f.then g s).2[j]? = (f s).2[j]? := fun s => by
        rw [then_snd, List.getElem?_append_left (by rw [(hm _).1]; exact hj)]
      have q' : ∀ s, (f'.then g' s).2[j]? = (f' s).2[j]? := fun s => by
        rw [then_snd, List.getElem?_append_left (by rw [(hm _).2]; exact hj)]
      simp only [q, q']
      exact hf.probe R S S' j
    · obtain ⟨u, u1, u2⟩ := hA R S
      obtain ⟨u', u1', u2'⟩ := hA' R S'
      obtain ⟨φ, ψ, p1, p2⟩ := hg.probe R (A S) (A' S') (j - m)
      have q : ∀ s, (f.then g s).2[j]? = (g (f s).1).2[j - m]? := fun s => by
        rw [then_snd, List.getElem?_append_right (by rw [(hm _).1]; omega), (hm _).1]
      have q' : ∀ s, (f'.then g' s).2[j]? = (g' (f' s).1).2[j - m]? := fun s => by
        rw [then_snd, List.getElem?_append_right (by rw [(hm _).2]; omega), (hm _).2]
      simp only [q, q']
      refine ⟨fun s => u' (φ (f s).1), fun s => u (ψ (f' s).1), fun s hs => ?_, fun s hs => ?_⟩
      · obtain ⟨a1, a2⟩ := u1 s hs
        obtain ⟨b1, b2, b3⟩ := p1 _ a1
        obtain ⟨c1, c2⟩ := u2' _ b1
        refine ⟨c1, ?_, ?_⟩
        · simp only [c2, b2, a2]
        · simp only [c2]; exact b3
      · obtain ⟨a1, a2⟩ := u1' s hs
        obtain ⟨b1, b2⟩ := p2 _ a1
        obtain ⟨c1, c2⟩ := u2 _ b1
        refine ⟨c1, ?_⟩
        simp only [c2, b2, a2]

/-! ## Adding data -/

theorem good_xorShare {n : Nat} (h2 : 2 ≤ n) (h4 : n ≤ 4) {d : Nat} (hd : d < n) (k : Fin 6) (i : Fin 2) (v : U32) :
    Good n (xorShare d k i v) := by
  have e0 : ∀ s d' k' i', (xorShare d k i v s).1 d' k' i' = if d' = d ∧ k' = k ∧ i' = i then s d k i ^^^ v else s d' k' i' :=
    fun _ _ _ _ => rfl
  have inv : ∀ s, (xorShare d k i v (xorShare d k i v s).1).1 = s := by
    intro s
    funext d' k' i'
    rw [e0, e0, e0]
    by_cases h : d' = d ∧ k' = k ∧ i' = i
    · obtain ⟨rfl, rfl, rfl⟩ := h
      simp only [and_self, if_true, xx']
    · rw [if_neg h, if_neg h]
  refine Good.of_bij (A := fun S k' i' => if k' = k ∧ i' = i then S k' i' ^^^ ROR32 v (5 * d) else S k' i')
    (g := fun s => (xorShare d k i v s).1) (fun s => ?_) (fun S S' h => ?_) inv inv (fun s d' hd' => ?_) ⟨1, fun _ => rfl⟩
    (fun R S S' j => ?_)
  · funext k' i'
    by_cases h : k' = k ∧ i' = i
    · obtain ⟨rfl, rfl⟩ := h
      simp only [and_self, if_true]
      exact val_upd h4 hd (by rw [e0]; simp) fun d' _ hne => by rw [e0, if_neg fun h => hne h.1]
    · simp only [if_neg h]
      exact val_congr fun d' _ => by rw [e0, if_neg fun h' => h h'.2]
  · funext k' i'
    have := congrFun (congrFun h k') i'
    by_cases hk : k' = k ∧ i' = i
    · simp only [if_pos hk] at this
      have t := congrArg (· ^^^ ROR32 v (5 * d)) this
      simp only [xx'] at t
      exact t
    · simp only [if_neg hk] at this
      exact this
  · funext k' i'
    rw [e0, if_neg]; omega
  · match j with
    | 0 => exact blind h2 h4 hd (h := fun _ => v) (fun _ _ _ => rfl) R S S'
    | j + 1 => exact SD.const (by omega) h4 (fun _ _ => rfl) R S S'

theorem pair_xorShare {n : Nat} (h2 : 2 ≤ n) (h4 : n ≤ 4) {d : Nat} (hd : d < n) (k : Fin 6) (i : Fin 2) (v v' : U32) :
    Pair n (xorShare d k i v) (xorShare d k i v') := by
  refine ⟨good_xorShare h2 h4 hd k i v, good_xorShare h2 h4 hd k i v', ⟨1, fun _ => ⟨rfl, rfl⟩⟩, fun R S S' j => ?_⟩
  match j with
  | 0 =>
    have he := other_lt h2 d
    have hne := other_ne d
    have ha : ∀ k : Fin 6, (fun _ => other d : Fin 6 → Nat) k < n := fun _ => he
    refine ⟨fun s => flip d (other d) k i (v ^^^ v') (adj (fun _ => other d) (fun k i => S k i ^^^ S' k i) s),
      fun s => flip d (other d) k i (v' ^^^ v) (adj (fun _ => other d) (fun k i => S' k i ^^^ S k i) s),
      fun s hs => ⟨in_flip h4 hd he hne _ _ _ (in_adj h4 ha hs), ?_, ?_⟩,
      fun s hs => ⟨in_flip h4 hd he hne _ _ _ (in_adj h4 ha hs), ?_⟩⟩
    · rw [xor_symm, BitVec.xor_comm v']
      simp only [flip_adj, adj_adj, flip_flip]
    · show some (s d k i ^^^ v) = some (flip d (other d) k i (v ^^^ v') (adj _ _ s) d k i ^^^ v')
      simp only [flip, adj, and_self, if_true, if_neg hne.symm]
      rw [← BitVec.xor_assoc, xx']
    · rw [xor_symm S, BitVec.xor_comm v']
      simp only [flip_adj, adj_adj, flip_flip]
  | j + 1 => exact SD.const (by omega) h4 (fun _ _ => rfl) R S S'

theorem pair_seq {n : Nat} (h1 : 1 ≤ n) (h4 : n ≤ 4) : ∀ (l l' : List Op), l.length = l'.length →
    (∀ j (h : j < l.length) (h' : j < l'.length), Pair n l[j] l'[j]) → Pair n (seq l) (seq l')
  | [], [], _, _ => (good_nil h1 h4).pair
  | f :: l, f' :: l', hl, h =>
    (h 0 (Nat.zero_lt_succ _) (Nat.zero_lt_succ _)).then (pair_seq h1 h4 l l' (by simpa using hl) fun j hj hj' =>
      h (j + 1) (Nat.succ_lt_succ hj) (Nat.succ_lt_succ hj'))

theorem pair_when {n : Nat} (h1 : 1 ≤ n) (h4 : n ≤ 4) {c : Prop} [Decidable c] {f f' : Op} (h : c → Pair n f f') :
    Pair n (when c f) (when c f') := by
  unfold MaskedN.Probe.when
  by_cases hc : c
  · rw [if_pos hc, if_pos hc]; exact h hc
  · rw [if_neg hc, if_neg hc]; exact (good_nil h1 h4).pair

theorem pair_mxor {n : Nat} (h2 : 2 ≤ n) (h4 : n ≤ 4) {ns : Nat} (hn : ns ≤ n) (k : Fin 6) (b b' : Nat → Fin 2 → U32) :
    Pair n (mxor ns k b) (mxor ns k b') := by
  have h1 : 1 ≤ n := by omega
  have w := fun {d : Nat} (i : Fin 2) => pair_when (c := ns ≥ d + 1) h1 h4 fun hc => pair_xorShare h2 h4 (d := d) (by omega) k i (b d i) (b' d i)
  unfold mxor
  exact (w 0).then ((w 1).then ((w 0).then ((w 1).then ((w 0).then ((w 1).then ((w 0).then ((w 1).then
    (good_nil h1 h4).pair)))))))

theorem xorConst_eq (k : Fin 6) (i : Fin 2) (C : U32) : xorConst k i C = xorShare 0 k i C := rfl

theorem pair_step {n : Nat} (h2 : 2 ≤ n) (h4 : n ≤ 4) {a a' : Step} (hf : a.Fits n) (h : a.shape = a'.shape) :
    Pair n (a.op n) (a'.op n) := by
  cases a <;> cases a' <;> simp only [Step.shape, Step.absorb.injEq, Step.const.injEq, Step.reuse.injEq, Step.perm.injEq,
    reduceCtorEq] at h
  case absorb ns k b ns' k' b' =>
    obtain ⟨rfl, rfl, -⟩ := h
    exact pair_mxor h2 h4 hf k b b'
  case const k i C k' i' C' =>
    obtain ⟨rfl, rfl, -⟩ := h
    show Pair n (xorConst k i C) (xorConst k i C')
    rw [xorConst_eq, xorConst_eq]
    exact pair_xorShare h2 h4 (by omega) k i C C'
  case reuse k k' =>
    subst h
    exact (good_reuse h2 h4 k).pair
  case perm nr nr' =>
    subst h
    exact (good_perm h2 h4 nr).pair

theorem pair_steps {n : Nat} (h2 : 2 ≤ n) (h4 : n ≤ 4) : ∀ (l l' : List Step), (∀ a ∈ l, a.Fits n) →
    l.map Step.shape = l'.map Step.shape → Pair n (steps n l) (steps n l')
  | [], [], _, _ => (good_nil (by omega) h4).pair
  | a :: l, a' :: l', hf, h => by
    rw [List.map_cons, List.map_cons, List.cons.injEq] at h
    exact (pair_step h2 h4 (hf a (List.mem_cons_self ..)) h.1).then
      (pair_steps h2 h4 l l' (fun b hb => hf b (List.mem_cons_of_mem _ hb)) h.2)
  | [], _ :: _, _, h => by simp at h
  | _ :: _, [], _, h => by simp at h

/-! ## The code computes these states -/

/-- The shares of a word. -/
def ofWord (w : word_t) : Nat → Fin 2 → U32 := fun d i => w.get d i.val

theorem steps_cons (n : Nat) (a : Step) (l : List Step) (s : St) : (steps n (a :: l) s).1 = (steps n l (a.op n s).1).1 := rfl
theorem steps_nil (n : Nat) (s : St) : (steps n [] s).1 = s := rfl
theorem steps_append (n : Nat) (l l' : List Step) (s : St) : (steps n (l ++ l') s).1 = (steps n l' (steps n l s).1).1 := by
  unfold steps
  rw [List.map_append, seq_append]; rfl

theorem link_share (s : MState) (d : Nat) (i : Fin 2) (v : U32) :
    (xorShare d 0 i v (toSt s)).1 = toSt { s with x0 := s.x0.xor d i.val v } ∧
    (xorShare d 1 i v (toSt s)).1 = toSt { s with x1 := s.x1.xor d i.val v } ∧
    (xorShare d 2 i v (toSt s)).1 = toSt { s with x2 := s.x2.xor d i.val v } ∧
    (xorShare d 3 i v (toSt s)).1 = toSt { s with x3 := s.x3.xor d i.val v } ∧
    (xorShare d 4 i v (toSt s)).1 = toSt { s with x4 := s.x4.xor d i.val v } := by
  unfold xorShare
  simp only [put0, put1, put2, put3, put4]
  exact ⟨rfl, rfl, rfl, rfl, rfl⟩

theorem link_mxor (s : MState) (ns : Nat) (w : word_t) :
    (mxor ns 0 (ofWord w) (toSt s)).1 = toSt { s with x0 := MXOR s.x0 w ns } ∧
    (mxor ns 1 (ofWord w) (toSt s)).1 = toSt { s with x1 := MXOR s.x1 w ns } ∧
    (mxor ns 2 (ofWord w) (toSt s)).1 = toSt { s with x2 := MXOR s.x2 w ns } ∧
    (mxor ns 3 (ofWord w) (toSt s)).1 = toSt { s with x3 := MXOR s.x3 w ns } ∧
    (mxor ns 4 (ofWord w) (toSt s)).1 = toSt { s with x4 := MXOR s.x4 w ns } := by
  have h := fun s d i v => link_share s d i v
  unfold mxor MXOR
  by_cases h1 : ns ≥ 1 <;> by_cases h2 : ns ≥ 2 <;> by_cases h3 : ns ≥ 3 <;> by_cases h4 : ns ≥ 4 <;>
    simp only [seq_cons, seq_nil, when_fst, h1, h2, h3, h4, if_true, if_false, (h _ _ _ _).1, (h _ _ _ _).2.1, (h _ _ _ _).2.2.1,
      (h _ _ _ _).2.2.2.1, (h _ _ _ _).2.2.2.2] <;> (refine ⟨?_, ?_, ?_, ?_, ?_⟩ <;> first | trivial | rfl)

theorem link_consts (s : MState) (i : Fin 2) (C : U32) :
    (xorConst 0 i C (toSt s)).1 = toSt { s with x0 := s.x0.xor 0 i.val C } ∧
    (xorConst 1 i C (toSt s)).1 = toSt { s with x1 := s.x1.xor 0 i.val C } ∧
    (xorConst 3 i C (toSt s)).1 = toSt { s with x3 := s.x3.xor 0 i.val C } ∧
    (xorConst 4 i C (toSt s)).1 = toSt { s with x4 := s.x4.xor 0 i.val C } := by
  have h := link_share s 0 i C
  simp only [xorConst_eq]
  exact ⟨h.1, h.2.1, h.2.2.2.1, h.2.2.2.2⟩

theorem link_reuses (n : Nat) (s : MState) :
    (Probe.reuse n 0 (toSt s)).1 = toSt { s with x0 := MREUSE s.x0 0 n } ∧
    (Probe.reuse n 1 (toSt s)).1 = toSt { s with x1 := MREUSE s.x1 0 n } ∧
    (Probe.reuse n 2 (toSt s)).1 = toSt { s with x2 := MREUSE s.x2 0 n } := by
  refine ⟨?_, ?_, ?_⟩
  · rw [reuse_word, (putw_toSt s _).1]; rfl
  · rw [reuse_word, (putw_toSt s _).2.1]; rfl
  · rw [reuse_word]
    funext d k i
    revert k
    refine six ?_ ?_ ?_ ?_ ?_ ?_ <;> simp [putw, toSt, word] <;> rfl

theorem run_xorPad {s : MState} {i len : Nat} (h : len < 8) (mem : Mem) :
    run (xorPad s i len) mem = some (s.setX i (word_t.xor (s.getX i) 0 0 ((0x01 : U32) <<< (len * 4))), mem) := by
  unfold xorPad
  rw [require_bind_of (decide_eq_true (by omega))]
  rfl

theorem link_adFinal {g : Cfg} (h2 : 2 ≤ g.AD) (h4 : g.AD ≤ 4) (e : Endian) (mem : Mem) (W : Nat → word_t) (j p len : Nat)
    (hl : len < 16) (s : MState)
    (hW : ∀ i, 8 * i < len → run (MLOAD g.EXTERN_BI e (p + 8 * g.AD * i) g.AD) mem = some (W (j + i), mem)) :
    ∃ s', run (adFinal g e (s, p, len)) mem = some (s', mem) ∧
      toSt s' = (steps g.AD (adBlocks g.AD (fun j => ofWord (W j)) j len) (toSt s)).1 := by
  unfold adFinal
  rw [adBlocks, dif_neg (show ¬ len ≥ 16 by omega)]
  simp only []
  by_cases h8 : len ≥ 8
  · have r0 := hW 0 (by omega)
    rw [Nat.mul_zero, Nat.add_zero, Nat.add_zero] at r0
    rw [if_pos h8, run_bind, run_ifc, if_pos (decide_eq_true h8), run_bind_of r0]
    show ∃ s', run (xorPad _ 1 (len - 8) >>= _) mem = _ ∧ _
    rw [run_bind_of (run_xorPad (by omega) mem)]
    by_cases h0 : len - 8 ≠ 0
    · have r1 := hW 1 (by omega)
      rw [Nat.mul_one] at r1
      rw [if_pos h0, run_bind, run_ifc, if_pos (decide_eq_true h0), run_bind_of r1]
      simp only [run_pure]
      obtain ⟨s', e', r'⟩ := link_P h2 h4 (nr := 8) (by omega) (by omega) (MState.setX
        (MState.setX { s with x0 := MXOR s.x0 (W j) g.AD } 1 (word_t.xor s.x1 0 0 ((0x01 : U32) <<< ((len - 8) * 4)))) 1
          (MXOR (word_t.xor s.x1 0 0 ((0x01 : U32) <<< ((len - 8) * 4))) (W (j + 1)) g.AD)) mem
      refine ⟨s', r', ?_⟩
      rw [e']
      simp only [List.cons_append, List.nil_append, steps_cons, steps_nil, Step.op, (link_mxor _ _ _).1, (link_mxor _ _ _).2.1,
        (link_consts _ _ _).2.1]
      rfl
    · rw [if_neg h0, run_bind, run_ifc, if_neg (by simpa using h0)]
      simp only [run_pure]
      obtain ⟨s', e', r'⟩ := link_P h2 h4 (nr := 8) (by omega) (by omega)
        (MState.setX { s with x0 := MXOR s.x0 (W j) g.AD } 1 (word_t.xor s.x1 0 0 ((0x01 : U32) <<< ((len - 8) * 4)))) mem
      refine ⟨s', r', ?_⟩
      rw [e']
      simp only [List.cons_append, List.nil_append, steps_cons, steps_nil, Step.op, (link_mxor _ _ _).1, (link_consts _ _ _).2.1]
      rfl
  · rw [if_neg h8, run_bind, run_ifc, if_neg (by simpa using h8)]
    show ∃ s', run (xorPad _ 0 len >>= _) mem = _ ∧ _
    rw [run_bind_of (run_xorPad (by omega) mem)]
    by_cases h0 : len ≠ 0
    · have r0 := hW 0 (by omega)
      rw [Nat.mul_zero, Nat.add_zero, Nat.add_zero] at r0
      rw [if_pos h0, run_bind, run_ifc, if_pos (decide_eq_true h0), run_bind_of r0]
      simp only [run_pure]
      obtain ⟨s', e', r'⟩ := link_P h2 h4 (nr := 8) (by omega) (by omega) (MState.setX
        (MState.setX s 0 (word_t.xor s.x0 0 0 ((0x01 : U32) <<< (len * 4)))) 0
          (MXOR (word_t.xor s.x0 0 0 ((0x01 : U32) <<< (len * 4))) (W j) g.AD)) mem
      refine ⟨s', r', ?_⟩
      rw [e']
      simp only [List.cons_append, List.nil_append, steps_cons, steps_nil, Step.op, (link_mxor _ _ _).1, (link_consts _ _ _).1]
      rfl
    · rw [if_neg h0, run_bind, run_ifc, if_neg (by simpa using h0)]
      simp only [run_pure]
      obtain ⟨s', e', r'⟩ := link_P h2 h4 (nr := 8) (by omega) (by omega)
        (MState.setX s 0 (word_t.xor s.x0 0 0 ((0x01 : U32) <<< (len * 4)))) mem
      refine ⟨s', r', ?_⟩
      rw [e']
      simp only [List.cons_append, List.nil_append, steps_cons, steps_nil, Step.op, (link_consts _ _ _).1]
      rfl

theorem link_adLoop {g : Cfg} (h2 : 2 ≤ g.AD) (h4 : g.AD ≤ 4) (e : Endian) (mem : Mem) (W : Nat → word_t) (fuel : Nat) :
    ∀ (j p len : Nat) (_ : len < fuel) (s : MState)
    (_ : ∀ i, 8 * i < len → run (MLOAD g.EXTERN_BI e (p + 8 * g.AD * i) g.AD) mem = some (W (j + i), mem)),
    ∃ s', run (loop fuel (fun (_, _, adlen) => decide (adlen ≥ 16)) (adStep g e) (s, p, len) >>= adFinal g e) mem = some (s', mem) ∧
      toSt s' = (steps g.AD (adBlocks g.AD (fun j => ofWord (W j)) j len) (toSt s)).1 := by
  induction fuel with
  | zero => intro j p len h; omega
  | succ f ih =>
    intro j p len hf s hW
    unfold loop
    by_cases h : len ≥ 16
    · have r0 := hW 0 (by omega)
      have r1 := hW 1 (by omega)
      rw [Nat.mul_zero, Nat.add_zero, Nat.add_zero] at r0
      rw [Nat.mul_one] at r1
      rw [run_bind, run_ifc, if_pos (decide_eq_true h), ← run_bind, bind_assoc']
      obtain ⟨s1, e1, p1⟩ := link_P h2 h4 (nr := 8) (by omega) (by omega)
        { s with x0 := MXOR s.x0 (W j) g.AD, x1 := MXOR s.x1 (W (j + 1)) g.AD } mem
      have hb : run (adStep g e (s, p, len)) mem = some ((s1, p + 16 * g.AD, len - 16), mem) := by
        unfold adStep
        simp only []
        rw [run_bind_of r0, run_bind_of r1, run_bind_of p1]
        rfl
      rw [run_bind_of hb]
      obtain ⟨s2, r2, e2⟩ := ih (j + 2) (p + 16 * g.AD) (len - 16) (by omega) s1 fun i hi => by
        have := hW (i + 2) (by omega)
        rw [show p + 8 * g.AD * (i + 2) = p + 16 * g.AD + 8 * g.AD * i by rw [Nat.mul_add]; omega,
          show j + (i + 2) = j + 2 + i by omega] at this
        exact this
      refine ⟨s2, r2, ?_⟩
      rw [e2, adBlocks.eq_1 g.AD _ j len, dif_pos h]
      simp only [List.cons_append, List.nil_append, steps_cons, Step.op, (link_mxor _ _ _).1, (link_mxor _ _ _).2.1]
      rw [← e1]
    · rw [run_bind, run_ifc, if_neg (by simpa using h), ← run_bind]
      show ∃ s', run (adFinal g e (s, p, len)) mem = _ ∧ _
      exact link_adFinal h2 h4 e mem W j p len (by omega) s hW

theorem link_adata {g : Cfg} (h2 : 2 ≤ g.AD) (h4 : g.AD ≤ 4) (e : Endian) (mem : Mem) (W : Nat → word_t) (ad adlen : Nat)
    (s : MState) (hW : ∀ j, 8 * j < adlen → run (MLOAD g.EXTERN_BI e (ad + 8 * g.AD * j) g.AD) mem = some (W j, mem)) :
    ∃ s', run (ascon_adata g e s ad adlen) mem = some (s', mem) ∧
      toSt s' = (steps g.AD (adSteps g.AD (fun j => ofWord (W j)) adlen) (toSt s)).1 := by
  unfold ascon_adata adSteps
  rw [steps_append]
  by_cases h0 : adlen ≠ 0
  · obtain ⟨s1, r1, e1⟩ := link_adLoop h2 h4 e mem W (adlen + 1) 0 ad adlen (by omega) s fun i hi => by
      rw [Nat.zero_add]; exact hW i hi
    rw [run_bind, run_ifc, if_pos (decide_eq_true h0), r1, if_pos h0, ← e1]
    refine ⟨_, rfl, ?_⟩
    simp only [steps_cons, steps_nil, Step.op, (link_consts _ _ _).2.2.2]
    rfl
  · rw [run_bind, run_ifc, if_neg (by simpa using h0), if_neg h0]
    refine ⟨_, rfl, ?_⟩
    simp only [steps_cons, steps_nil, Step.op, (link_consts _ _ _).2.2.2]
    rfl

theorem link_final {g : Cfg} (h2 : 2 ≤ g.KEY) (h4 : g.KEY ≤ 4) (e : Endian) (mem : Mem) (K1 K2 : word_t) (k : Nat) (s : MState)
    (h1 : run (MLOAD g.EXTERN_BI e k g.KEY) mem = some (K1, mem))
    (h3 : run (MLOAD g.EXTERN_BI e (k + 8 * g.KEY) g.KEY) mem = some (K2, mem)) :
    ∃ s', run (ascon_final g e s k) mem = some (s', mem) ∧
      toSt s' = (steps g.KEY (finalSteps g.KEY (ofWord K1) (ofWord K2)) (toSt s)).1 := by
  obtain ⟨s1, e1, p1⟩ := link_P h2 h4 (nr := 12) (by omega) (by omega)
    { s with x2 := MXOR s.x2 K1 g.KEY, x3 := MXOR s.x3 K2 g.KEY } mem
  refine ⟨{ s1 with x3 := MXOR s1.x3 K1 g.KEY, x4 := MXOR s1.x4 K2 g.KEY }, ?_, ?_⟩
  · unfold ascon_final
    simp only []
    rw [run_bind_of h1, run_bind_of h3, run_bind_of p1]
    rfl
  · unfold finalSteps
    simp only [steps_cons, steps_nil, Step.op, (link_mxor _ _ _).2.2.1, (link_mxor _ _ _).2.2.2.1]
    rw [← e1]
    simp only [(link_mxor _ _ _).2.2.2.1, (link_mxor _ _ _).2.2.2.2]

theorem link_xortag {g : Cfg} (h2 : 2 ≤ g.KEY) (h4 : g.KEY ≤ 4) (e : Endian) (mem : Mem) (t0 t1 : word_t) (t : Nat) (s : MState)
    (h1 : run (MLOAD g.EXTERN_BI e t g.C) mem = some (t0, mem))
    (h3 : run (MLOAD g.EXTERN_BI e (t + 8 * g.C) g.C) mem = some (t1, mem)) :
    ∃ s', run (ascon_xortag g e s t) mem = some (s', mem) ∧
      toSt s' = (steps g.KEY (xortagSteps g.C (ofWord t0) (ofWord t1)) (toSt s)).1 := by
  obtain ⟨s1, e1, p1⟩ := link_P h2 h4 (nr := 8) (by omega) (by omega)
    { s with x0 := MREUSE s.x0 0 g.KEY, x1 := MREUSE s.x1 0 g.KEY, x2 := MREUSE s.x2 0 g.KEY, x3 := MXOR s.x3 t0 g.C,
             x4 := MXOR s.x4 t1 g.C } mem
  refine ⟨{ s1 with x3 := word_t.xor (word_t.xor s1.x3 0 0 0xc7c72006) 0 1 0xc3bfab9c,
                    x4 := word_t.xor (word_t.xor s1.x4 0 0 0x18213f82) 0 1 0x0653ed71 }, ?_, ?_⟩
  · unfold ascon_xortag
    simp only []
    rw [run_bind_of h1, run_bind_of h3, run_bind_of p1]
    rfl
  · unfold xortagSteps
    simp only [steps_cons, steps_nil, Step.op, (link_mxor _ _ _).2.2.2.1, (link_mxor _ _ _).2.2.2.2, (link_reuses _ _).1,
      (link_reuses _ _).2.1, (link_reuses _ _).2.2]
    rw [← e1]
    simp only [(link_consts _ _ _).2.2.1, (link_consts _ _ _).2.2.2]
    rfl

/-! ## Encryption -/

/-- The program changes no memory and looks only at `[lo, lo + n)`. -/
def Reads {α : Type} (lo n : Nat) (p : Prog α) : Prop := ∀ mem a m, run p mem = some (a, m) → m = mem ∧
  ∀ mem' : Mem, (∀ x, lo ≤ x → x < lo + n → mem' x = mem x) → run p mem' = some (a, mem')

theorem reads_pure {α : Type} (lo n : Nat) (a : α) : Reads lo n (pure a : Prog α) := by
  intro mem b m h
  injection h with h
  rw [Prod.mk.injEq] at h
  obtain ⟨rfl, rfl⟩ := h
  exact ⟨rfl, fun _ _ => rfl⟩

theorem reads_bind {α β : Type} {lo n : Nat} {p : Prog α} {f : α → Prog β} (hp : Reads lo n p) (hf : ∀ a, Reads lo n (f a)) :
    Reads lo n (p >>= f) := by
  intro mem b m h
  obtain ⟨a, m1, h1, h2⟩ := run_bind_some h
  obtain ⟨rfl, p2⟩ := hp _ _ _ h1
  obtain ⟨rfl, f2⟩ := hf a _ _ _ h2
  exact ⟨rfl, fun mem' hm => by rw [run_bind_of (p2 mem' hm)]; exact f2 mem' hm⟩

theorem reads_ite {α : Type} {lo n : Nat} {c : Prop} [Decidable c] {p q : Prog α} (hp : c → Reads lo n p) (hq : Reads lo n q) :
    Reads lo n (if c then p else q) := by
  split
  · exact hp ‹_›
  · exact hq

theorem reads_loadN {lo n : Nat} (k : Nat) : ∀ p : Nat, lo ≤ p → p + k ≤ lo + n → Reads lo n (Prog.loadN p k) := by
  induction k with
  | zero => intro p _ _; exact reads_pure lo n []
  | succ k ih =>
    intro p h1 h2 mem b m h
    unfold Prog.loadN at h ⊢
    cases hb : (mem p).byte with
    | none => simp only [run, hb] at h; cases h
    | some v =>
      simp only [run, hb] at h
      obtain ⟨e, r⟩ := reads_bind (ih (p + 1) (by omega) (by omega)) (fun bs => reads_pure lo n (v :: bs)) _ _ _ h
      refine ⟨e, fun mem' hm => ?_⟩
      simp only [run, hm p h1 (by omega), hb]
      exact r mem' hm

theorem reads_LOADSHARE {lo n : Nat} (bi : Bool) (e : Endian) (p ns : Nat) (h1 : lo ≤ p) (h2 : p + 4 * ns + 4 ≤ lo + n) :
    Reads lo n (LOADSHARE bi e p ns) := by
  have l : ∀ q, lo ≤ q → q + 4 ≤ lo + n → Reads lo n (Masked.load32 e q) := fun q a b =>
    reads_bind (reads_loadN 4 q a b) fun _ => reads_pure _ _ _
  unfold LOADSHARE
  refine reads_bind (l _ h1 (by omega)) fun _ => reads_bind (l _ (by omega) h2) fun _ => ?_
  split <;> exact reads_pure _ _ _

theorem reads_MLOAD (bi : Bool) (e : Endian) (p ns : Nat) : Reads p (8 * ns) (MLOAD bi e p ns) := by
  rw [MLOAD_eq]
  have l : ∀ d (w : word_t), d < ns → Reads p (8 * ns) (LOADSHARE bi e (p + 4 * d) ns) := fun d _ hd =>
    reads_LOADSHARE _ _ _ _ (by omega) (by omega)
  refine reads_bind (reads_ite (fun h => reads_bind (l 0 (fun _ => ⟨0, 0⟩) (by omega)) fun _ => reads_pure _ _ _) (reads_pure _ _ _)) fun _ => ?_
  refine reads_bind (reads_ite (fun h => reads_bind (l 1 (fun _ => ⟨0, 0⟩) (by omega)) fun _ => reads_pure _ _ _) (reads_pure _ _ _)) fun _ => ?_
  refine reads_bind (reads_ite (fun h => reads_bind (l 2 (fun _ => ⟨0, 0⟩) (by omega)) fun _ => reads_pure _ _ _) (reads_pure _ _ _)) fun _ => ?_
  exact reads_ite (fun h => reads_bind (l 3 (fun _ => ⟨0, 0⟩) (by omega)) fun _ => reads_pure _ _ _) (reads_pure _ _ _)

theorem MREDUCE_self (w : word_t) (n : Nat) : MREDUCE w n n = w := by
  unfold MREDUCE MREMASK
  simp only []
  rw [if_neg (by omega), if_neg (by omega), if_neg (by omega), if_neg (by omega), if_neg (by omega), if_neg (by omega)]

theorem store_word {bi : Bool} {mem : Mem} {p n : Nat} (h1 : 1 ≤ n) (h4 : n ≤ 4) (w : word_t) (hw : mem.Writable p (8 * n)) :
    ∃ mem', Fr mem mem' p (8 * n) ∧ run (MSTORE bi .little p w n) mem = some ((), mem') := by
  obtain ⟨mem', a, -, c⟩ := run_MSTORE (bi := bi) ⟨h1, h4⟩ w (enc_dec (PV n w)).symm hw
  exact ⟨mem', a, c⟩

/-- Words of the message survive the writing of ciphertext elsewhere. -/
theorem keep_word {bi : Bool} {mem mem' : Mem} {p n q L : Nat} {w : word_t} (h : run (MLOAD bi .little p n) mem = some (w, mem))
    (hf : Fr mem mem' q L) (hd : p + 8 * n ≤ q ∨ q + L ≤ p) : run (MLOAD bi .little p n) mem' = some (w, mem') :=
  ((reads_MLOAD bi .little p n) _ _ _ h).2 mem' fun x h1 h2 => hf.1 x (by omega)

theorem link_encFinal {g : Cfg} (h2 : 2 ≤ g.M) (h4 : g.M ≤ 4) (hC : g.C = g.M) (mem : Mem) (W : Nat → word_t) (j c p len : Nat)
    (hl : len < 16) (s : MState) (hw : mem.Writable c (8 * g.M * ((len + 7) / 8)))
    (hd : Disjoint p (8 * g.M * ((len + 7) / 8)) c (8 * g.M * ((len + 7) / 8)))
    (hW : ∀ i, 8 * i < len → run (MLOAD g.EXTERN_BI .little (p + 8 * g.M * i) g.M) mem = some (W (j + i), mem)) :
    ∃ s' mem', run (encFinal g .little (s, c, p, len)) mem = some (s', mem') ∧ Fr mem mem' c (8 * g.M * ((len + 7) / 8)) ∧
      toSt s' = (steps g.M (encSteps g.M (fun j => ofWord (W j)) j len) (toSt s)).1 := by
  unfold encFinal
  rw [encSteps, dif_neg (show ¬ len ≥ 16 by omega), hC]
  simp only [MREDUCE_self]
  by_cases h8 : len ≥ 8
  · have r0 := hW 0 (by omega)
    rw [Nat.mul_zero, Nat.add_zero, Nat.add_zero] at r0
    by_cases h0 : len - 8 ≠ 0
    · have e2 : 8 * g.M * ((len + 7) / 8) = 8 * g.M + 8 * g.M := by rw [show (len + 7) / 8 = 2 by omega]; omega
      rw [e2] at hw hd ⊢
      unfold Disjoint at hd
      obtain ⟨m1, f1, q1⟩ := store_word (bi := g.EXTERN_BI) (n := g.M) (by omega) h4 (MXOR s.x0 (W j) g.M) (hw.mono (Nat.le_refl _) (by omega))
      have r1 := hW 1 (by omega)
      rw [Nat.mul_one] at r1
      have r1' := keep_word r1 f1 (by omega)
      obtain ⟨m2, f2, q2⟩ := store_word (bi := g.EXTERN_BI) (n := g.M) (p := c + 8 * g.M) (mem := m1) (by omega) h4
        (MXOR (word_t.xor s.x1 0 0 ((0x01 : U32) <<< ((len - 8) * 4))) (W (j + 1)) g.M)
        (fun i hi => f1.2 _ (hw.mono (q := c + 8 * g.M) (by omega) (by omega) i hi))
      rw [if_pos h8, run_bind, run_ifc, if_pos (decide_eq_true h8), run_bind_of r0, run_bind_of q1]
      show ∃ s' mem', run (xorPad _ 1 (len - 8) >>= _) m1 = _ ∧ _
      rw [run_bind_of (run_xorPad (by omega) m1), if_pos h0, run_ifc, if_pos (decide_eq_true h0), run_bind_of r1']
      refine ⟨_, m2, run_bind_of q2, f1.trans f2 ⟨by omega, by omega⟩ ⟨by omega, by omega⟩, ?_⟩
      simp only [List.cons_append, List.nil_append, steps_cons, steps_nil, Step.op, (link_mxor _ _ _).1, (link_mxor _ _ _).2.1,
        (link_consts _ _ _).2.1]
      rfl
    · have e2 : 8 * g.M * ((len + 7) / 8) = 8 * g.M := by rw [show (len + 7) / 8 = 1 by omega]; omega
      rw [e2] at hw hd ⊢
      obtain ⟨m1, f1, q1⟩ := store_word (bi := g.EXTERN_BI) (n := g.M) (by omega) h4 (MXOR s.x0 (W j) g.M) hw
      rw [if_pos h8, run_bind, run_ifc, if_pos (decide_eq_true h8), run_bind_of r0, run_bind_of q1]
      show ∃ s' mem', run (xorPad _ 1 (len - 8) >>= _) m1 = _ ∧ _
      rw [run_bind_of (run_xorPad (by omega) m1), if_neg h0, run_ifc, if_neg (by simpa using h0)]
      refine ⟨_, m1, rfl, f1, ?_⟩
      simp only [List.cons_append, List.nil_append, steps_cons, steps_nil, Step.op, (link_mxor _ _ _).1, (link_consts _ _ _).2.1]
      rfl
  · rw [if_neg h8, run_bind, run_ifc, if_neg (by simpa using h8)]
    show ∃ s' mem', run (xorPad _ 0 len >>= _) mem = _ ∧ _
    rw [run_bind_of (run_xorPad (by omega) mem)]
    by_cases h0 : len ≠ 0
    · have e2 : 8 * g.M * ((len + 7) / 8) = 8 * g.M := by rw [show (len + 7) / 8 = 1 by omega]; omega
      rw [e2] at hw hd ⊢
      have r0 := hW 0 (by omega)
      rw [Nat.mul_zero, Nat.add_zero, Nat.add_zero] at r0
      obtain ⟨m1, f1, q1⟩ := store_word (bi := g.EXTERN_BI) (n := g.M) (by omega) h4
        (MXOR (word_t.xor s.x0 0 0 ((0x01 : U32) <<< (len * 4))) (W j) g.M) hw
      rw [if_pos h0, run_ifc, if_pos (decide_eq_true h0), run_bind_of r0]
      refine ⟨_, m1, run_bind_of q1, f1, ?_⟩
      simp only [List.cons_append, List.nil_append, steps_cons, steps_nil, Step.op, (link_mxor _ _ _).1, (link_consts _ _ _).1]
      rfl
    · rw [if_neg h0, run_ifc, if_neg (by simpa using h0)]
      refine ⟨_, mem, rfl, Fr.refl _ _ _, ?_⟩
      simp only [List.cons_append, List.nil_append, steps_cons, steps_nil, Step.op, (link_consts _ _ _).1]
      rfl

theorem link_encLoop {g : Cfg} (h2 : 2 ≤ g.M) (h4 : g.M ≤ 4) (hC : g.C = g.M) (W : Nat → word_t) (fuel : Nat) :
    ∀ (mem : Mem) (j c p len : Nat) (_ : len < fuel) (s : MState) (_ : mem.Writable c (8 * g.M * ((len + 7) / 8)))
    (_ : Disjoint p (8 * g.M * ((len + 7) / 8)) c (8 * g.M * ((len + 7) / 8)))
    (_ : ∀ i, 8 * i < len → run (MLOAD g.EXTERN_BI .little (p + 8 * g.M * i) g.M) mem = some (W (j + i), mem)),
    ∃ s' mem', run (loop fuel (fun (_, _, _, mlen) => decide (mlen ≥ 16)) (encStep g .little) (s, c, p, len) >>= encFinal g .little) mem =
        some (s', mem') ∧ Fr mem mem' c (8 * g.M * ((len + 7) / 8)) ∧
      toSt s' = (steps g.M (encSteps g.M (fun j => ofWord (W j)) j len) (toSt s)).1 := by
  induction fuel with
  | zero => intro mem j c p len h; omega
  | succ f ih =>
    intro mem j c p len hf s hw hd hW
    unfold loop
    by_cases h : len ≥ 16
    · have r0 := hW 0 (by omega)
      have r1 := hW 1 (by omega)
      rw [Nat.mul_zero, Nat.add_zero, Nat.add_zero] at r0
      rw [Nat.mul_one] at r1
      have e2 : 8 * g.M * ((len + 7) / 8) = 16 * g.M + 8 * g.M * ((len - 16 + 7) / 8) := by
        rw [show (len + 7) / 8 = (len - 16 + 7) / 8 + 2 by omega, Nat.mul_add]; omega
      rw [e2] at hw hd ⊢
      have hd' := hd
      unfold Disjoint at hd'
      obtain ⟨m1, f1, q1⟩ := store_word (bi := g.EXTERN_BI) (n := g.M) (p := c) (by omega) h4 (MXOR s.x0 (W j) g.M)
        (hw.mono (Nat.le_refl _) (by omega))
      have r1' := keep_word r1 f1 (by omega)
      obtain ⟨m2, f2, q2⟩ := store_word (bi := g.EXTERN_BI) (n := g.M) (p := c + 8 * g.M) (mem := m1) (by omega) h4
        (MXOR s.x1 (W (j + 1)) g.M) (fun i hi => f1.2 _ (hw.mono (q := c + 8 * g.M) (by omega) (by omega) i hi))
      have f12 : Fr mem m2 c (16 * g.M) := f1.trans f2 ⟨by omega, by omega⟩ ⟨by omega, by omega⟩
      rw [run_bind, run_ifc, if_pos (decide_eq_true h), ← run_bind, bind_assoc']
      obtain ⟨s1, e1, p1⟩ := link_P h2 h4 (nr := 8) (by omega) (by omega)
        { s with x0 := MXOR s.x0 (W j) g.M, x1 := MXOR s.x1 (W (j + 1)) g.M } m2
      have hb : run (encStep g .little (s, c, p, len)) mem = some ((s1, c + 16 * g.M, p + 16 * g.M, len - 16), m2) := by
        unfold encStep
        simp only [hC, MREDUCE_self]
        rw [run_bind_of r0, run_bind_of q1, run_bind_of r1', run_bind_of q2, run_bind_of p1]
        rfl
      rw [run_bind_of hb]
      have hds : Disjoint (p + 16 * g.M) (8 * g.M * ((len - 16 + 7) / 8)) (c + 16 * g.M) (8 * g.M * ((len - 16 + 7) / 8)) := by
        unfold Disjoint; omega
      obtain ⟨s2, m3, r2, f3, e3⟩ := ih m2 (j + 2) (c + 16 * g.M) (p + 16 * g.M) (len - 16) (by omega) s1
        (fun i hi => f12.2 _ (hw.mono (q := c + 16 * g.M) (by omega) (by omega) i hi)) hds fun i hi => by
          have := hW (i + 2) (by omega)
          rw [show p + 8 * g.M * (i + 2) = p + 16 * g.M + 8 * g.M * i by rw [Nat.mul_add]; omega,
            show j + (i + 2) = j + 2 + i by omega] at this
          have hi2 : 8 * g.M * i + 8 * g.M ≤ 8 * g.M * ((len - 16 + 7) / 8) := by
            rw [show 8 * g.M * i + 8 * g.M = 8 * g.M * (i + 1) by rw [Nat.mul_add]; omega]
            exact Nat.mul_le_mul_left _ (by omega)
          exact keep_word this f12 (by omega)
      refine ⟨s2, m3, r2, f12.trans f3 ⟨by omega, by omega⟩ ⟨by omega, by omega⟩, ?_⟩
      rw [e3, encSteps.eq_1 g.M _ j len, dif_pos h]
      simp only [List.cons_append, List.nil_append, steps_cons, Step.op, (link_mxor _ _ _).1, (link_mxor _ _ _).2.1]
      rw [← e1]
    · rw [run_bind, run_ifc, if_neg (by simpa using h), ← run_bind]
      exact link_encFinal h2 h4 hC mem W j c p len (by omega) s hw hd hW

theorem link_encrypt {g : Cfg} (h2 : 2 ≤ g.M) (h4 : g.M ≤ 4) (hC : g.C = g.M) (mem : Mem) (W : Nat → word_t) (c m mlen : Nat)
    (s : MState) (hw : mem.Writable c (8 * g.M * ((mlen + 7) / 8)))
    (hd : Disjoint m (8 * g.M * ((mlen + 7) / 8)) c (8 * g.M * ((mlen + 7) / 8)))
    (hW : ∀ j, 8 * j < mlen → run (MLOAD g.EXTERN_BI .little (m + 8 * g.M * j) g.M) mem = some (W j, mem)) :
    ∃ s' mem', run (ascon_encrypt g .little s c m mlen) mem = some (s', mem') ∧ Fr mem mem' c (8 * g.M * ((mlen + 7) / 8)) ∧
      toSt s' = (steps g.M (encSteps g.M (fun j => ofWord (W j)) 0 mlen) (toSt s)).1 := by
  unfold ascon_encrypt
  exact link_encLoop h2 h4 hC W (mlen + 1) mem 0 c m mlen (by omega) s hw hd fun i hi => by rw [Nat.zero_add]; exact hW i hi

end Ascon.MaskedN.Probe
