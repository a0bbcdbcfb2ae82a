import Verif.Proof.MaskedNMem
/-!
# The masked AEAD (aead.c of protected_bi32_armv6_leveled) on shared buffers, for any supported configuration
-/

namespace Ascon.MaskedN

open Ascon.Spec Ascon.C
open Ascon.Gen hiding ROR32 ROR64
open Ascon.C.Prog (require ifc loop forUp loadB storeB loadN storeN store64 load64)
open Ascon.Masked

attribute [local irreducible] perm deinterleave32 interleave32

theorem SH.drop1 {mem : Mem} {bi : Bool} {n p : Nat} {D : List Byte} (h : SH mem bi n p D) :
    SH mem bi n (p + 8 * n) (D.drop 8) := by
  have := h.drop 1
  rw [Nat.mul_one, Nat.mul_one] at this; exact this

theorem SH.drop2 {mem : Mem} {bi : Bool} {n p : Nat} {D : List Byte} (h : SH mem bi n p D) :
    SH mem bi n (p + 16 * n) (D.drop 16) := by
  have := h.drop 2
  rw [show 8 * (n * 2) = 16 * n by omega] at this; exact this

theorem SH.last {mem : Mem} {bi : Bool} {n p : Nat} {D : List Byte} (h : SH mem bi n p D) :
    SH mem bi n (p + 16 * (n * (D.length / 16))) (lastBlock 16 D) := by
  have := h.drop (2 * (D.length / 16))
  have e : n * (2 * (D.length / 16)) = 2 * (n * (D.length / 16)) := Nat.mul_left_comm ..
  rw [show 8 * (n * (2 * (D.length / 16))) = 16 * (n * (D.length / 16)) by omega,
    show 8 * (2 * (D.length / 16)) = 16 * (D.length / 16) by omega] at this
  exact this

/-! ### Associated data -/

theorem rel_set0 {ns : Nat} {s : MState} {t : State} (h : Rel ns s t) {w : word_t} {a : Word} (hw : PV ns w = enc a) :
    Rel ns { s with x0 := w } { t with x0 := a } := by
  obtain ⟨⟨e0, e1, e2, e3, e4⟩, hz⟩ := rel_iff.1 h
  exact rel_iff.2 ⟨⟨hw, e1, e2, e3, e4⟩, hz⟩

theorem rel_set1 {ns : Nat} {s : MState} {t : State} (h : Rel ns s t) {w : word_t} {a : Word} (hw : PV ns w = enc a) :
    Rel ns { s with x1 := w } { t with x1 := a } := by
  obtain ⟨⟨e0, e1, e2, e3, e4⟩, hz⟩ := rel_iff.1 h
  exact rel_iff.2 ⟨⟨e0, hw, e2, e3, e4⟩, hz⟩

theorem rel_getX {ns : Nat} {s : MState} {t : State} (h : Rel ns s t) (i : Nat) :
    PV ns (s.getX i) = enc (wordS t i) := by
  obtain ⟨⟨e0, e1, e2, e3, e4⟩, hz⟩ := rel_iff.1 h
  unfold MState.getX wordS
  by_cases hi : i = 0
  · rw [if_pos hi, if_pos hi]; exact e0
  · rw [if_neg hi, if_neg hi]; exact e1

/-- Set word 0 or 1. -/
def setS (t : State) (i : Nat) (a : Word) : State := if i = 0 then { t with x0 := a } else { t with x1 := a }

theorem setS_xorS (t : State) (i : Nat) (a : Word) : setS t i (wordS t i ^^^ a) = xorS t i a := by
  unfold setS wordS xorS; by_cases h : i = 0 <;> simp [h]

theorem setS_setS (t : State) (i : Nat) (a b : Word) : setS (setS t i a) i b = setS t i b := by
  unfold setS; by_cases h : i = 0 <;> simp [h]

theorem wordS_setS (t : State) (i : Nat) (a : Word) : wordS (setS t i a) i = a := by
  unfold setS wordS; by_cases h : i = 0 <;> simp [h]

theorem rel_setX {ns : Nat} {s : MState} {t : State} (h : Rel ns s t) (i : Nat) {w : word_t} {a : Word}
    (hw : PV ns w = enc a) : Rel ns (s.setX i w) (setS t i a) := by
  unfold MState.setX setS
  by_cases hi : i = 0
  · rw [if_pos hi, if_pos hi]; exact rel_set0 h hw
  · rw [if_neg hi, if_neg hi]; exact rel_set1 h hw

theorem rel_xorX {ns n' : Nat} (hns : Ns ns) (h' : n' ≤ ns) {s : MState} {t : State} (h : Rel ns s t) (i : Nat) {w : word_t}
    {a : Word} (hw : PV n' w = enc a) : Rel ns (s.setX i (MXOR (s.getX i) w n')) (xorS t i a) := by
  rw [← setS_xorS]
  apply rel_setX h
  rw [PV_MXOR h' hns.2, rel_getX h, hw, enc_xor]

theorem PV_xor0 {ns n' : Nat} (hns : Ns ns) (h' : n' ≤ ns) {a b : word_t} {x y : Word} (ha : PV ns a = enc x)
    (hb : PV n' b = enc y) : PV ns (MXOR a b n') = enc (x ^^^ y) := by
  rw [PV_MXOR h' hns.2, ha, hb, enc_xor]

theorem run_xorPad {ns : Nat} (hns : Ns ns) {mem : Mem} {s : MState} {t : State} (h : Rel ns s t) {i n : Nat} (hn : n < 8) :
    ∃ s', Rel ns s' (xorS t i ((1 : Word) <<< (8 * n))) ∧ run (xorPad s i n) mem = some (s', mem) := by
  have ht := pad_table ⟨n, hn⟩
  refine ⟨s.setX i (word_t.xor (s.getX i) 0 0 ((0x01 : U32) <<< (n * 4))), ?_, ?_⟩
  · rw [← setS_xorS]
    apply rel_setX h
    rw [PV_xor00 hns, ht, rel_getX h, enc_xor]
  · unfold xorPad
    rw [require_bind_of (by simpa using (by omega : n * 4 < 31))]
    rfl

theorem run_adStep {g : Cfg} (hn : Ns g.AD) {mem : Mem} {s : MState} {t : State} (h : Rel g.AD s t) {p n : Nat} {D : List Byte}
    (hp : SH mem g.EXTERN_BI g.AD p D) (h16 : 16 ≤ D.length) :
    ∃ s', Rel g.AD s' (perm 8 (xorIn t (D.take 16))) ∧
      run (adStep g .little (s, p, n)) mem = some ((s', p + 16 * g.AD, n - 16), mem) := by
  obtain ⟨w0, hw0, r0⟩ := run_MLOAD hn (hp.first (ne_nil_of_le h16 (by omega)))
  obtain ⟨w1, hw1, r1⟩ := run_MLOAD hn (hp.drop1.first (ne_nil_of_le (k := 8) (by simp; omega) (by omega)))
  obtain ⟨⟨e0, e1, -⟩, -⟩ := rel_iff.1 h
  obtain ⟨s', hs', hr⟩ := run_P hn (nr := 8) (by decide) (by decide)
    (rel_set1 (rel_set0 h (PV_xor0 hn (Nat.le_refl _) e0 (hw0 _ (Nat.le_refl _))))
      (PV_xor0 hn (Nat.le_refl _) e1 (hw1 _ (Nat.le_refl _)))) mem
  refine ⟨s', ?_, ?_⟩
  · rw [xorIn_take16 t D h16]; exact hs'
  · unfold adStep
    refine (run_bind_of r0).trans ?_
    refine (run_bind_of r1).trans ?_
    exact (run_bind_of hr).trans rfl

theorem ptr_step (p n l : Nat) (h : 16 ≤ l) : p + 16 * n + 16 * (n * ((l - 16) / 16)) = p + 16 * (n * (l / 16)) := by
  rw [show l / 16 = (l - 16) / 16 + 1 by omega, Nat.mul_succ]; omega

theorem run_adLoop {g : Cfg} (hn : Ns g.AD) {mem : Mem} (f : Nat) {s : MState} {t : State} (h : Rel g.AD s t) {p : Nat} {D : List Byte}
    (hp : SH mem g.EXTERN_BI g.AD p D) (hf : D.length < f) :
    ∃ s', Rel g.AD s' (absorb 8 t (fullBlocks 16 D)) ∧
      run (loop f (fun (_, _, adlen) => decide (adlen ≥ 16)) (adStep g .little) (s, p, D.length)) mem =
        some ((s', p + 16 * (g.AD * (D.length / 16)), D.length % 16), mem) := by
  induction f generalizing s t p D with
  | zero => omega
  | succ f ih =>
    by_cases h16 : 16 ≤ D.length
    · obtain ⟨s1, hs1, hr1⟩ := run_adStep hn (n := D.length) h hp h16
      obtain ⟨s2, hs2, hr2⟩ := ih hs1 hp.drop2 (by simp; omega)
      refine ⟨s2, ?_, ?_⟩
      · rw [fullBlocks_of_ge 16 D (by omega) h16]; exact hs2
      · rw [run_loop_step (by simpa using h16) hr1, ← List.length_drop (i := 16) (l := D), hr2]
        simp only [List.length_drop]
        rw [ptr_step _ _ _ h16, show (D.length - 16) % 16 = D.length % 16 by omega]
    · refine ⟨s, ?_, ?_⟩
      · rw [fullBlocks_of_lt 16 D (by omega)]; exact h
      · rw [run_loop_done (by simpa using h16), Nat.mod_eq_of_lt (by omega), Nat.div_eq_of_lt (by omega)]
        rfl

/-- The common tail of associated data processing: padding, then the remaining (fewer than 8) bytes. -/
theorem run_adTail {g : Cfg} (hns : Ns g.AD) {mem : Mem} {s : MState} {t : State} (h : Rel g.AD s t) {i p n : Nat} {l : List Byte}
    (hn : n = l.length) (hp : SH mem g.EXTERN_BI g.AD p l) (h8 : l.length < 8) :
    ∃ s', Rel g.AD s' (perm 8 (xorS (xorS t i ((1 : Word) <<< (8 * l.length))) i (le64 l))) ∧
      run (do
        let s ← xorPad s i n
        let s ← ifc (decide (n ≠ 0))
          (do
            let as ← MLOAD g.EXTERN_BI .little p g.AD
            pure (s.setX i (MXOR (s.getX i) as g.AD)))
          (pure s)
        P s 8 g.AD) mem = some (s', mem) := by
  subst hn
  obtain ⟨s1, hs1, hr1⟩ := run_xorPad hns (mem := mem) (i := i) h h8
  by_cases h0 : l = []
  · subst h0
    obtain ⟨s2, hs2, hr2⟩ := run_P hns (nr := 8) (by decide) (by decide) hs1 mem
    refine ⟨s2, ?_, ?_⟩
    · rw [le64_nil, xorS_zero]; exact hs2
    · refine (run_bind_of hr1).trans ?_
      refine (run_bind_of (a := s1) (mem' := mem) ?_).trans hr2
      rw [run_ifc_neg (by simp)]; rfl
  · obtain ⟨w, hw, rw⟩ := run_MLOAD hns (hp.first h0)
    obtain ⟨s2, hs2, hr2⟩ := run_P hns (nr := 8) (by decide) (by decide)
      (rel_xorX hns (Nat.le_refl _) hs1 i (hw _ (Nat.le_refl _))) mem
    refine ⟨s2, hs2, ?_⟩
    refine (run_bind_of hr1).trans ?_
    refine (run_bind_of (mem' := mem) ?_).trans hr2
    rw [run_ifc_pos (by simpa using h0)]
    exact (run_bind_of rw).trans rfl

theorem run_adFinal {g : Cfg} (hns : Ns g.AD) {mem : Mem} {s : MState} {t : State} (h : Rel g.AD s t) {p : Nat} {l : List Byte}
    (hp : SH mem g.EXTERN_BI g.AD p l) (h16 : l.length < 16) :
    ∃ s', Rel g.AD s' (perm 8 (xorIn t (pad 16 l))) ∧
      run (adFinal g .little (s, p, l.length)) mem = some (s', mem) := by
  unfold adFinal
  by_cases h8 : 8 ≤ l.length
  · obtain ⟨w, hw, rw⟩ := run_MLOAD hns (hp.first (ne_nil_of_le h8 (by omega)))
    have h1 := rel_set0 h (PV_xor0 hns (Nat.le_refl _) (rel_iff.1 h).1.1 (hw _ (Nat.le_refl _)))
    obtain ⟨s', hs', hr⟩ := run_adTail hns h1 (i := 1) (n := l.length - 8) (by simp) hp.drop1 (by simp; omega)
    refine ⟨s', ?_, ?_⟩
    · rw [xorIn_pad_xorS_ge t l h8 h16]; exact hs'
    · refine (run_bind_of (a := ({ s with x0 := MXOR s.x0 w g.AD }, 1, p + 8 * g.AD, l.length - 8)) (mem' := mem)
        ?_).trans ?_
      rotate_left
      · exact hr
      rw [run_ifc_pos (by simpa using h8)]
      exact (run_bind_of rw).trans rfl
  · obtain ⟨s', hs', hr⟩ := run_adTail hns h (i := 0) rfl hp (by omega)
    refine ⟨s', ?_, ?_⟩
    · rw [xorIn_pad_xorS_lt t l (by omega)]; exact hs'
    · refine (run_bind_of (a := (s, 0, p, l.length)) (mem' := mem) ?_).trans hr
      rw [run_ifc_neg (by simpa using h8)]; rfl

theorem run_ascon_adata {g : Cfg} (hns : Ns g.AD) {mem : Mem} {s : MState} {t : State} (h : Rel g.AD s t) {p : Nat} {A : List Byte}
    (hp : SH mem g.EXTERN_BI g.AD p A) :
    ∃ s', Rel g.AD s' (aeadAd A t) ∧ run (ascon_adata g .little s p A.length) mem = some (s', mem) := by
  have hx : ∀ {s : MState} {t : State}, Rel g.AD s t →
      Rel g.AD { s with x4 := s.x4.xor 0 1 0x80000000 } { t with x4 := t.x4 ^^^ 0x8000000000000000 } := by
    intro s t h
    obtain ⟨⟨e0, e1, e2, e3, e4⟩, hz⟩ := rel_iff.1 h
    refine rel_iff.2 ⟨⟨e0, e1, e2, e3, ?_⟩, hz⟩
    rw [PV_xor01 hns, enc_xor, e4, dsep_ok]
  unfold ascon_adata aeadAd
  by_cases hA : A = []
  · subst hA
    refine ⟨_, hx h, ?_⟩
    refine (run_bind_of (a := s) (mem' := mem) ?_).trans rfl
    rw [run_ifc_neg (by simp)]; rfl
  · obtain ⟨s1, hs1, hr1⟩ := run_adLoop hns (A.length + 1) h hp (by omega)
    obtain ⟨s2, hs2, hr2⟩ := run_adFinal hns hs1 hp.last (by rw [length_lastBlock]; omega)
    refine ⟨{ s2 with x4 := s2.x4.xor 0 1 0x80000000 }, ?_, ?_⟩
    · rw [if_neg hA, fullBlocks_pad 16 A (by omega)]
      unfold absorb
      rw [List.foldl_append]
      exact hx hs2
    · refine (run_bind_of (a := s2) (mem' := mem) ?_).trans rfl
      rw [run_ifc_pos (by simpa using hA)]
      refine (run_bind_of hr1).trans ?_
      rw [length_lastBlock] at hr2
      exact hr2

/-! ### Plaintext -/

theorem sz_ge16 (n len : Nat) (h : 16 ≤ len) : sz n len = 16 * n + sz n (len - 16) := by
  unfold sz
  rw [show (len + 7) / 8 = (len - 16 + 7) / 8 + 2 by omega, Nat.mul_add]; omega

theorem sz_ge8 (n len : Nat) (h : 8 ≤ len) : sz n len = 8 * n + sz n (len - 8) := by
  unfold sz
  rw [show (len + 7) / 8 = (len - 8 + 7) / 8 + 1 by omega, Nat.mul_add]; omega

theorem sz_split (n len : Nat) : sz n len = 16 * (n * (len / 16)) + sz n (len % 16) := by
  unfold sz
  rw [show (len + 7) / 8 = 2 * (len / 16) + (len % 16 + 7) / 8 by omega, Nat.mul_add, Nat.mul_left_comm]; omega

theorem sz_lt8 (n len : Nat) (h : 0 < len) (h8 : len ≤ 8) : sz n len = 8 * n := by
  unfold sz
  rw [show (len + 7) / 8 = 1 by omega, Nat.mul_one]

theorem sz_mult (n len : Nat) (h : len % 8 = 0) : sz n len = n * len := by
  unfold sz
  rw [show (len + 7) / 8 = len / 8 by omega, ← Nat.mul_assoc, Nat.mul_comm 8 n, Nat.mul_assoc]
  congr 1; omega

theorem run_encStep {g : Cfg} (hM : Ns g.M) (hC : Ns g.C) (hCM : g.C ≤ g.M) {mem : Mem} {s : MState} {t : State} (h : Rel g.M s t)
    {c p n : Nat} {D : List Byte} (hp : SH mem g.EXTERN_BI g.M p D) (h16 : 16 ≤ D.length) (hw : mem.Writable c (16 * g.C))
    (hd : Disjoint c (16 * g.C) p (sz g.M D.length)) :
    ∃ s' mem', Rel g.M s' (perm 8 (xorIn t (D.take 16))) ∧ Fr mem mem' c (16 * g.C) ∧
      SH mem' g.EXTERN_BI g.C c (rate 16 (xorIn t (D.take 16))) ∧
      run (encStep g .little (s, c, p, n)) mem = some ((s', c + 16 * g.C, p + 16 * g.M, n - 16), mem') := by
  have hMp := hM.1
  have hCp := hC.1
  obtain ⟨⟨e0, e1, -⟩, -⟩ := rel_iff.1 h
  obtain ⟨w0, hw0, r0⟩ := run_MLOAD hM (hp.first (ne_nil_of_le h16 (by omega)))
  have f0 := PV_xor0 hM (Nat.le_refl _) e0 (hw0 _ (Nat.le_refl _))
  obtain ⟨m1, fr1, sw1, q1⟩ := run_MSTORE (bi := g.EXTERN_BI) (p := c) hC (MREDUCE (MXOR s.x0 w0 g.M) g.M g.C)
    ((PV_MREDUCE hC.1 hCM hM.2 _).trans f0) (hw.mono (by omega) (by omega))
  have hszD := sz_ge16 g.M D.length h16
  have hp' := fr1.sh hp (by unfold Disjoint at *; omega)
  obtain ⟨w1, hw1, r1⟩ := run_MLOAD hM (hp'.drop1.first (ne_nil_of_le (k := 8) (by simp; omega) (by omega)))
  have f1 := PV_xor0 hM (Nat.le_refl _) e1 (hw1 _ (Nat.le_refl _))
  obtain ⟨m2, fr2, sw2, q2⟩ := run_MSTORE (bi := g.EXTERN_BI) (p := c + 8 * g.C) hC (MREDUCE (MXOR s.x1 w1 g.M) g.M g.C)
    ((PV_MREDUCE hC.1 hCM hM.2 _).trans f1) ((fr1.writable hw).mono (by omega) (by omega))
  obtain ⟨s', hs', hr⟩ := run_P hM (nr := 8) (by decide) (by decide) (rel_set1 (rel_set0 h f0) f1) m2
  refine ⟨s', m2, ?_, fr1.trans fr2 (by omega) (by omega), ?_, ?_⟩
  · rw [xorIn_take16 t D h16]; exact hs'
  · rw [rate16_take t D h16]
    refine SH.append (k := 1) (SH.word (fr2.sw sw1 (by unfold Disjoint; omega))) (by rw [length_bytes64]) ?_
    rw [Nat.mul_one]
    exact SH.word sw2
  · unfold encStep
    refine (run_bind_of r0).trans ?_
    refine (run_bind_of q1).trans ?_
    refine (run_bind_of r1).trans ?_
    refine (run_bind_of q2).trans ?_
    exact (run_bind_of hr).trans rfl

theorem run_encLoop {g : Cfg} (hM : Ns g.M) (hC : Ns g.C) (hCM : g.C ≤ g.M) (f : Nat) {mem : Mem} {s : MState} {t : State}
    (h : Rel g.M s t) {c p : Nat} {D : List Byte} (hp : SH mem g.EXTERN_BI g.M p D) (hw : mem.Writable c (sz g.C D.length))
    (hd : Disjoint c (sz g.C D.length) p (sz g.M D.length)) (hf : D.length < f) :
    ∃ s' mem', Rel g.M s' (encBlocks t (fullBlocks 16 D)).1 ∧ Fr mem mem' c (16 * (g.C * (D.length / 16))) ∧
      SH mem' g.EXTERN_BI g.C c (encBlocks t (fullBlocks 16 D)).2 ∧
      run (loop f (fun (_, _, _, mlen) => decide (mlen ≥ 16)) (encStep g .little) (s, c, p, D.length)) mem =
        some ((s', c + 16 * (g.C * (D.length / 16)), p + 16 * (g.M * (D.length / 16)), D.length % 16), mem') := by
  induction f generalizing mem s t c p D with
  | zero => omega
  | succ f ih =>
    have hMp := hM.1
    have hCp := hC.1
    by_cases h16 : 16 ≤ D.length
    · have z1 := sz_ge16 g.M D.length h16
      have z2 := sz_ge16 g.C D.length h16
      obtain ⟨s1, m1, hs1, fr1, sh1, hr1⟩ := run_encStep hM hC hCM (c := c) (n := D.length) h hp h16 (hw.mono (by omega) (by omega))
        (by unfold Disjoint at *; omega)
      have hr16 : (rate 16 (xorIn t (D.take 16))).length = 16 := length_rate _ _ (by omega)
      obtain ⟨s2, m2, hs2, fr2, sh2, hr2⟩ := ih (mem := m1) (c := c + 16 * g.C) (p := p + 16 * g.M) (D := D.drop 16) hs1
        (fr1.sh hp (by unfold Disjoint at *; omega)).drop2
        ((fr1.writable hw).mono (by omega) (by rw [List.length_drop]; omega))
        (by rw [List.length_drop]; unfold Disjoint at *; omega) (by simp; omega)
      have e1 := ptr_step c g.C D.length h16
      rw [List.length_drop] at fr2
      refine ⟨s2, m2, ?_, fr1.trans fr2 (by omega) (by omega), ?_, ?_⟩
      · rw [fullBlocks_of_ge 16 D (by omega) h16]; exact hs2
      · rw [fullBlocks_of_ge 16 D (by omega) h16]
        refine SH.append (k := 2) (fr2.sh sh1 (by rw [hr16, sz_mult _ _ (by omega), Nat.mul_comm]; unfold Disjoint; omega)) hr16 ?_
        rw [show c + 8 * (g.C * 2) = c + 16 * g.C by omega]
        exact sh2
      · rw [run_loop_step (by simpa using h16) hr1, ← List.length_drop (i := 16) (l := D), hr2]
        simp only [List.length_drop]
        rw [e1, ptr_step _ _ _ h16, show (D.length - 16) % 16 = D.length % 16 by omega]
    · refine ⟨s, mem, ?_, Fr.refl _ _ _, ?_, ?_⟩
      · rw [fullBlocks_of_lt 16 D (by omega)]; exact h
      · rw [fullBlocks_of_lt 16 D (by omega)]; exact SH.nil
      · rw [run_loop_done (by simpa using h16), Nat.mod_eq_of_lt (by omega), Nat.div_eq_of_lt (by omega)]
        rfl

/-- The common tail of encryption. -/
theorem run_encTail {g : Cfg} (hM : Ns g.M) (hC : Ns g.C) (hCM : g.C ≤ g.M) {mem : Mem} {s : MState} {t : State} (h : Rel g.M s t)
    {i c p n : Nat} {l : List Byte} (hn : n = l.length)
    (hp : SH mem g.EXTERN_BI g.M p l) (h8 : l.length < 8) (hw : mem.Writable c (sz g.C l.length)) :
    ∃ s' mem' X, Rel g.M s' (xorS (xorS t i ((1 : Word) <<< (8 * l.length))) i (le64 l)) ∧
      Fr mem mem' c (sz g.C l.length) ∧ SH mem' g.EXTERN_BI g.C c X ∧
      X.length = 8 * ((l.length + 7) / 8) ∧
      X.take l.length = (bytes64 (wordS (xorS (xorS t i ((1 : Word) <<< (8 * l.length))) i (le64 l)) i)).take l.length ∧
      run (do
        let s ← xorPad s i n
        ifc (decide (n ≠ 0))
          (do
            let ms ← MLOAD g.EXTERN_BI .little p g.M
            let s := s.setX i (MXOR (s.getX i) ms g.M)
            let cx := MREDUCE (s.getX i) g.M g.C
            MSTORE g.EXTERN_BI .little c cx g.C
            pure s)
          (pure s)) mem = some (s', mem') := by
  subst hn
  obtain ⟨s1, hs1, hr1⟩ := run_xorPad hM (mem := mem) (i := i) h h8
  by_cases h0 : l = []
  · subst h0
    refine ⟨s1, mem, [], ?_, Fr.refl _ _ _, SH.nil, rfl, rfl, ?_⟩
    · rw [le64_nil, xorS_zero]; exact hs1
    · refine (run_bind_of hr1).trans ?_
      rw [run_ifc_neg (by simp)]; rfl
  · have hpos : 0 < l.length := List.length_pos_iff.2 h0
    obtain ⟨w, hw', rw'⟩ := run_MLOAD hM (hp.first h0)
    have hs2 := rel_xorX hM (Nat.le_refl _) hs1 i (hw' _ (Nat.le_refl _))
    have e := rel_getX hs2 i
    rw [sz_lt8 _ _ hpos (by omega)] at hw ⊢
    obtain ⟨m1, fr1, sw1, q1⟩ := run_MSTORE (bi := g.EXTERN_BI) (p := c) hC _ ((PV_MREDUCE hC.1 hCM hM.2 _).trans e) hw
    refine ⟨_, m1, _, hs2, fr1, SH.word sw1, ?_, rfl, ?_⟩
    · rw [length_bytes64]; omega
    · refine (run_bind_of hr1).trans ?_
      rw [run_ifc_pos (by simpa using h0)]
      refine (run_bind_of rw').trans ?_
      exact (run_bind_of q1).trans rfl

theorem run_encFinal {g : Cfg} (hM : Ns g.M) (hC : Ns g.C) (hCM : g.C ≤ g.M) {mem : Mem} {s : MState} {t : State} (h : Rel g.M s t)
    {c p : Nat} {l : List Byte} (hp : SH mem g.EXTERN_BI g.M p l) (h16 : l.length < 16) (hw : mem.Writable c (sz g.C l.length))
    (hd : Disjoint c (sz g.C l.length) p (sz g.M l.length)) :
    ∃ s' mem' X, Rel g.M s' (xorIn t (pad 16 l)) ∧ Fr mem mem' c (sz g.C l.length) ∧ SH mem' g.EXTERN_BI g.C c X ∧
      X.length = 8 * ((l.length + 7) / 8) ∧ X.take l.length = rate l.length (xorIn t (pad 16 l)) ∧
      run (encFinal g .little (s, c, p, l.length)) mem = some (s', mem') := by
  unfold encFinal
  have hMp := hM.1
  have hCp := hC.1
  by_cases h8 : 8 ≤ l.length
  · have z1 := sz_ge8 g.M l.length h8
    have z2 := sz_ge8 g.C l.length h8
    obtain ⟨w, hw', rw'⟩ := run_MLOAD hM (hp.first (ne_nil_of_le h8 (by omega)))
    have f0 := PV_xor0 hM (Nat.le_refl _) (rel_iff.1 h).1.1 (hw' _ (Nat.le_refl _))
    have h1 := rel_set0 h f0
    obtain ⟨m1, fr1, sw1, q1⟩ := run_MSTORE (bi := g.EXTERN_BI) (p := c) hC (MREDUCE (MXOR s.x0 w g.M) g.M g.C)
      ((PV_MREDUCE hC.1 hCM hM.2 _).trans f0) (hw.mono (by omega) (by omega))
    obtain ⟨s', m2, X, hs', fr2, sh2, hX, hX', hr⟩ := run_encTail hM hC hCM (mem := m1) (c := c + 8 * g.C) h1
      (i := 1) (n := l.length - 8) (by simp)
      (fr1.sh hp (by unfold Disjoint at *; omega)).drop1 (by simp; omega)
      ((fr1.writable hw).mono (by omega) (by rw [List.length_drop]; omega))
    rw [List.length_drop] at fr2
    refine ⟨s', m2, bytes64 (t.x0 ^^^ le64 l) ++ X, ?_, fr1.trans fr2 (by omega) (by omega), ?_, ?_, ?_, ?_⟩
    · rw [xorIn_pad_xorS_ge t l h8 h16]; exact hs'
    · refine SH.append (k := 1) (SH.word (fr2.sw sw1 (by unfold Disjoint; omega))) (by rw [length_bytes64]) ?_
      rw [Nat.mul_one]
      exact sh2
    · rw [List.length_append, length_bytes64, hX, List.length_drop]; omega
    · rw [rate_le16 _ _ h8 (by omega), xorIn_pad_xorS_ge t l h8 h16, List.take_append,
        List.take_of_length_le (by rw [length_bytes64]; omega), length_bytes64]
      rw [List.length_drop] at hX'
      rw [hX', List.length_drop]
      rfl
    · refine (run_bind_of (a := ({ s with x0 := MXOR s.x0 w g.M }, 1, c + 8 * g.C, p + 8 * g.M, l.length - 8))
        (mem' := m1) ?_).trans ?_
      rotate_left
      · exact hr
      rw [run_ifc_pos (by simpa using h8)]
      refine (run_bind_of rw').trans ?_
      exact (run_bind_of q1).trans rfl
  · obtain ⟨s', m2, X, hs', fr2, sh2, hX, hX', hr⟩ := run_encTail hM hC hCM h (c := c) (i := 0) rfl hp (by omega) hw
    refine ⟨s', m2, X, ?_, fr2, sh2, hX, ?_, ?_⟩
    · rw [xorIn_pad_xorS_lt t l (by omega)]; exact hs'
    · rw [hX', wordS_0 _ _ (by omega), xorIn_pad_xorS_lt t l (by omega)]
    · refine (run_bind_of (a := (s, 0, c, p, l.length)) (mem' := mem) ?_).trans hr
      rw [run_ifc_neg (by simpa using h8)]; rfl

theorem run_ascon_encrypt {g : Cfg} (hM : Ns g.M) (hC : Ns g.C) (hCM : g.C ≤ g.M) {mem : Mem} {s : MState} {t : State}
    (h : Rel g.M s t) {c p : Nat} {D : List Byte} (hp : SH mem g.EXTERN_BI g.M p D) (hw : mem.Writable c (sz g.C D.length))
    (hd : Disjoint c (sz g.C D.length) p (sz g.M D.length)) :
    ∃ s' mem' X, Rel g.M s' (encBody t D).1 ∧ Fr mem mem' c (sz g.C D.length) ∧ SH mem' g.EXTERN_BI g.C c X ∧
      X.length = 8 * ((D.length + 7) / 8) ∧ X.take D.length = (encBody t D).2 ∧
      run (ascon_encrypt g .little s c p D.length) mem = some (s', mem') := by
  obtain ⟨s1, m1, hs1, fr1, sh1, hr1⟩ := run_encLoop hM hC hCM (D.length + 1) h hp hw hd (by omega)
  have hlen := Ref.length_encBlocks t (fullBlocks 16 D)
  rw [Ref.length_fullBlocks] at hlen
  have hll := length_lastBlock 16 D
  have z1 := sz_split g.M D.length
  have z2 := sz_split g.C D.length
  obtain ⟨s2, m2, X, hs2, fr2, sh2, hX, hX', hr2⟩ := run_encFinal hM hC hCM (mem := m1)
    (c := c + 16 * (g.C * (D.length / 16))) (p := p + 16 * (g.M * (D.length / 16))) hs1
    (fr1.sh hp (by unfold Disjoint at *; omega)).last (by omega)
    ((fr1.writable hw).mono (by omega) (by rw [hll]; omega)) (by rw [hll]; unfold Disjoint at *; omega)
  rw [hll] at fr2
  refine ⟨s2, m2, (encBlocks t (fullBlocks 16 D)).2 ++ X, hs2, fr1.trans fr2 (by omega) (by omega), ?_, ?_, ?_, ?_⟩
  · have ec : g.C * (16 * (D.length / 16)) = 16 * (g.C * (D.length / 16)) := Nat.mul_left_comm ..
    have ec2 : g.C * (2 * (D.length / 16)) = 2 * (g.C * (D.length / 16)) := Nat.mul_left_comm ..
    refine SH.append (k := 2 * (D.length / 16)) (fr2.sh sh1 ?_) (by rw [hlen]; omega) ?_
    · rw [hlen, sz_mult _ (16 * (D.length / 16)) (by omega), ec]; unfold Disjoint; omega
    · rw [show c + 8 * (g.C * (2 * (D.length / 16))) = c + 16 * (g.C * (D.length / 16)) by omega]
      exact sh2
  · rw [List.length_append]; omega
  · unfold encBody
    simp only []
    rw [List.take_append, List.take_of_length_le (by omega), ← hX']
    congr 2; omega
  · unfold ascon_encrypt
    refine (run_bind_of hr1).trans ?_
    rw [← hll]
    exact hr2

end Ascon.MaskedN
