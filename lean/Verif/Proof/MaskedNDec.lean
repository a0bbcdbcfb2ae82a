import Verif.Proof.MaskedNAead
/-!
# Decryption and the key-dependent parts of the masked AEAD, for any supported configuration
-/

namespace Ascon.MaskedN

open Ascon.Spec Ascon.C
open Ascon.Gen hiding ROR32 ROR64
open Ascon.C.Prog (require ifc loop forUp loadB storeB loadN storeN store64 load64)
open Ascon.Masked

attribute [local irreducible] perm deinterleave32 interleave32

/-! ### Ciphertext -/

theorem SH.bytes {mem : Mem} {bi : Bool} {n p : Nat} {x y : Word} (h0 : SW mem bi n p x) (h1 : SW mem bi n (p + 8 * n) y) :
    SH mem bi n p (bytes64 x ++ bytes64 y) := by
  refine SH.append (k := 1) (SH.word h0) (by rw [length_bytes64]) ?_
  rw [Nat.mul_one]
  exact SH.word h1

theorem run_decStep {g : Cfg} (hM : Ns g.M) (hC : Ns g.C) (hCM : g.C ≤ g.M) {mem : Mem} {s : MState} {t : State} (h : Rel g.M s t)
    {m p n : Nat} {D : List Byte} (hp : SH mem g.EXTERN_BI g.C p D) (h16 : 16 ≤ D.length) (hw : mem.Writable m (16 * g.M))
    (hd : Disjoint m (16 * g.M) p (sz g.C D.length)) :
    ∃ s' mem', Rel g.M s' (perm 8 (xorIn t (xorBytes (rate 16 t) (D.take 16)))) ∧ Fr mem mem' m (16 * g.M) ∧
      SH mem' g.EXTERN_BI g.M m (xorBytes (rate 16 t) (D.take 16)) ∧
      run (decStep g .little (s, m, p, n)) mem = some ((s', m + 16 * g.M, p + 16 * g.C, n - 16), mem') := by
  have hMp := hM.1
  have hCp := hC.1
  obtain ⟨⟨e0, e1, -⟩, -⟩ := rel_iff.1 h
  obtain ⟨w0, hw0, r0⟩ := run_MLOAD hC (hp.first (ne_nil_of_le h16 (by omega)))
  have f0 := PV_xor0 hM hCM e0 (hw0 _ (Nat.le_refl _))
  obtain ⟨m1, fr1, sw1, q1⟩ := run_MSTORE (bi := g.EXTERN_BI) (p := m) hM (MXOR s.x0 w0 g.C) f0
    (hw.mono (by omega) (by omega))
  have hszD := sz_ge16 g.C D.length h16
  have hp' := fr1.sh hp (by unfold Disjoint at *; omega)
  obtain ⟨w1, hw1, r1⟩ := run_MLOAD hC (hp'.drop1.first (ne_nil_of_le (k := 8) (by simp; omega) (by omega)))
  have f1 := PV_xor0 hM hCM e1 (hw1 _ (Nat.le_refl _))
  obtain ⟨m2, fr2, sw2, q2⟩ := run_MSTORE (bi := g.EXTERN_BI) (p := m + 8 * g.M) hM (MXOR s.x1 w1 g.C) f1
    ((fr1.writable hw).mono (by omega) (by omega))
  obtain ⟨s', hs', hr⟩ := run_P hM (nr := 8) (by decide) (by decide)
    (rel_set1 (rel_set0 h ((PV_MEXPAND hC.1 hCM hM.2 w0).trans (hw0 _ (Nat.le_refl _))))
      ((PV_MEXPAND hC.1 hCM hM.2 w1).trans (hw1 _ (Nat.le_refl _)))) m2
  refine ⟨s', m2, ?_, fr1.trans fr2 (by omega) (by omega), ?_, ?_⟩
  · rw [xorIn_dec16 t D h16]; exact hs'
  · rw [xorBytes_take16 t D h16]
    exact SH.bytes (fr2.sw sw1 (by unfold Disjoint; omega)) sw2
  · unfold decStep
    refine (run_bind_of r0).trans ?_
    refine (run_bind_of q1).trans ?_
    refine (run_bind_of r1).trans ?_
    refine (run_bind_of q2).trans ?_
    exact (run_bind_of hr).trans rfl

theorem run_decLoop {g : Cfg} (hM : Ns g.M) (hC : Ns g.C) (hCM : g.C ≤ g.M) (f : Nat) {mem : Mem} {s : MState} {t : State}
    (h : Rel g.M s t) {m p : Nat} {D : List Byte} (hp : SH mem g.EXTERN_BI g.C p D) (hw : mem.Writable m (sz g.M D.length))
    (hd : Disjoint m (sz g.M D.length) p (sz g.C D.length)) (hf : D.length < f) :
    ∃ s' mem', Rel g.M s' (decBlocks t (fullBlocks 16 D)).1 ∧ Fr mem mem' m (16 * (g.M * (D.length / 16))) ∧
      SH mem' g.EXTERN_BI g.M m (decBlocks t (fullBlocks 16 D)).2 ∧
      run (loop f (fun (_, _, _, clen) => decide (clen ≥ 16)) (decStep g .little) (s, m, p, D.length)) mem =
        some ((s', m + 16 * (g.M * (D.length / 16)), p + 16 * (g.C * (D.length / 16)), D.length % 16), mem') := by
  induction f generalizing mem s t m p D with
  | zero => omega
  | succ f ih =>
    have hMp := hM.1
    have hCp := hC.1
    by_cases h16 : 16 ≤ D.length
    · have z1 := sz_ge16 g.M D.length h16
      have z2 := sz_ge16 g.C D.length h16
      obtain ⟨s1, m1, hs1, fr1, sh1, hr1⟩ := run_decStep hM hC hCM (m := m) (n := D.length) h hp h16
        (hw.mono (by omega) (by omega)) (by unfold Disjoint at *; omega)
      have hr16 : (xorBytes (rate 16 t) (D.take 16)).length = 16 := by
        rw [length_xorBytes, length_rate _ _ (by omega)]; simp; omega
      obtain ⟨s2, m2, hs2, fr2, sh2, hr2⟩ := ih (mem := m1) (m := m + 16 * g.M) (p := p + 16 * g.C) (D := D.drop 16) hs1
        (fr1.sh hp (by unfold Disjoint at *; omega)).drop2
        ((fr1.writable hw).mono (by omega) (by rw [List.length_drop]; omega))
        (by rw [List.length_drop]; unfold Disjoint at *; omega) (by simp; omega)
      have e1 := ptr_step m g.M D.length h16
      rw [List.length_drop] at fr2
      refine ⟨s2, m2, ?_, fr1.trans fr2 (by omega) (by omega), ?_, ?_⟩
      · rw [fullBlocks_of_ge 16 D (by omega) h16]; exact hs2
      · rw [fullBlocks_of_ge 16 D (by omega) h16]
        refine SH.append (k := 2) (fr2.sh sh1 (by rw [hr16, sz_mult _ _ (by omega), Nat.mul_comm]; unfold Disjoint; omega)) hr16 ?_
        rw [show m + 8 * (g.M * 2) = m + 16 * g.M by omega]
        exact sh2
      · rw [run_loop_step (by simpa using h16) hr1, ← List.length_drop (i := 16) (l := D), hr2]
        simp only [List.length_drop]
        rw [e1, ptr_step _ _ _ h16, show (D.length - 16) % 16 = D.length % 16 by omega]
    · refine ⟨s, mem, ?_, Fr.refl _ _ _, ?_, ?_⟩
      · rw [fullBlocks_of_lt 16 D (by omega)]; exact h
      · rw [fullBlocks_of_lt 16 D (by omega)]; exact SH.nil
      · rw [run_loop_done (by simpa using h16), Nat.mod_eq_of_lt (by omega), Nat.div_eq_of_lt (by omega)]
        rfl

theorem PV_MXORAND {ns : Nat} (hns : Ns ns) (c a b : word_t) : PV ns (MXORAND c a b ns) = PV ns c ^^^ (PV ns a &&& PV ns b) := by
  have n01 : ((0 : Nat) = 0) ≠ ((1 : Nat) = 0) := by simp
  have n10 : ((1 : Nat) = 0) ≠ ((0 : Nat) = 0) := by simp
  have hb : ∀ j, j = 0 ∨ j = 1 → V ns ((b.set 0 0 (~~~(b.get 0 0))).set 0 1
      (~~~((b.set 0 0 (~~~(b.get 0 0))).get 0 1))) j = ~~~(V ns b j) := by
    rintro j (rfl | rfl)
    · rw [V_half _ _ _ n10, V_not hns]
    · rw [V_not hns, V_half _ _ _ n01]
  unfold PV SV MXORAND
  simp only []
  rw [V_MXORBIC_other ns ns n10, V_MXORBIC hns, hb 0 (Or.inl rfl), BitVec.not_not, V_MXORBIC hns, V_MXORBIC_other ns ns n01,
    hb 1 (Or.inr rfl), BitVec.not_not, pk_xor', pk_and']

theorem PV_add {ns : Nat} (hns : Ns ns) (w : word_t) (a b : U32) :
    PV ns ((w.xor 0 0 a).xor 0 1 b) = PV ns w ^^^ pk ⟨a, b⟩ := by
  rw [PV_xor01 hns, PV_xor00 hns, BitVec.xor_assoc, ← pk_xor']
  have z : ∀ x : U32, x ^^^ 0 = x := fun x => BitVec.xor_zero
  have z' : ∀ x : U32, 0 ^^^ x = x := fun x => BitVec.zero_xor
  rw [z, z']

theorem run_MMASK {ns : Nat} (hns : Ns ns) {mem : Mem} {w : word_t} (hz : PV ns w = 0) {n : Nat} (hn : n < 8) :
    ∃ w', PV ns w' = enc (BitVec.allOnes 64 <<< (8 * n)) ∧ run (MMASK w n) mem = some (w', mem) := by
  refine ⟨(w.xor 0 0 ((0xffffffff : U32) <<< (n * 4))).xor 0 1 ((0xffffffff : U32) <<< (n * 4)), ?_, ?_⟩
  · rw [PV_add hns, hz, zx]
    exact mask_table ⟨n, hn⟩
  · unfold MMASK
    rw [require_bind_of (by simpa using (by omega : n * 4 < 32))]
    rfl

theorem rel_x5 {ns : Nat} (hns : Ns ns) {s : MState} {t : State} (h : Rel ns s t) :
    Rel ns { s with x5 := MREUSE s.x5 0 ns } t := by
  obtain ⟨hh, hz⟩ := rel_iff.1 h
  exact rel_iff.2 ⟨hh, PV_MREUSE0 hns _⟩

theorem setS_dec (t : State) (i : Nat) (a b x : Word) :
    setS (xorS (xorS t i a) i b) i (wordS t i ^^^ a ^^^ x) = xorS (xorS t i a) i x := by
  unfold setS xorS wordS; by_cases h : i = 0 <;> simp [h]

/-- The common tail of decryption. -/
theorem run_decTail {g : Cfg} (hM : Ns g.M) (hC : Ns g.C) (hCM : g.C ≤ g.M) {mem : Mem} {s : MState} {t : State} (h : Rel g.M s t)
    {i m p n : Nat} {l : List Byte} (hn : n = l.length)
    (hp : SH mem g.EXTERN_BI g.C p l) (h8 : l.length < 8) (hw : mem.Writable m (sz g.M l.length)) :
    ∃ s' mem' X, Rel g.M s' (xorS (xorS t i ((1 : Word) <<< (8 * l.length))) i
        (le64 (xorBytes ((bytes64 (wordS t i)).take l.length) l))) ∧
      Fr mem mem' m (sz g.M l.length) ∧ SH mem' g.EXTERN_BI g.M m X ∧
      X.length = 8 * ((l.length + 7) / 8) ∧
      X.take l.length = xorBytes ((bytes64 (wordS t i)).take l.length) l ∧
      run (do
        let s ← xorPad s i n
        ifc (decide (n ≠ 0))
          (do
            let cx ← MLOAD g.EXTERN_BI .little p g.C
            let s := s.setX i (MXOR (s.getX i) cx g.C)
            MSTORE g.EXTERN_BI .little m (s.getX i) g.M
            let mask ← MMASK s.x5 n
            let cx := MEXPAND cx g.C g.M
            let s := s.setX i (MXORAND cx mask (s.getX i) g.M)
            pure { s with x5 := MREUSE s.x5 0 g.M })
          (pure s)) mem = some (s', mem') := by
  subst hn
  obtain ⟨s1, hs1, hr1⟩ := run_xorPad hM (mem := mem) (i := i) h h8
  by_cases h0 : l = []
  · subst h0
    refine ⟨s1, mem, [], ?_, Fr.refl _ _ _, SH.nil, rfl, by simp [xorBytes], ?_⟩
    · rw [show le64 (xorBytes ((bytes64 (wordS t i)).take ([] : List Byte).length) []) = 0 by simp [xorBytes, le64],
        xorS_zero]
      exact hs1
    · refine (run_bind_of hr1).trans ?_
      rw [run_ifc_neg (by simp)]; rfl
  · have hpos : 0 < l.length := List.length_pos_iff.2 h0
    obtain ⟨w, hw', rw'⟩ := run_MLOAD hC (hp.first h0)
    have hs2 := rel_xorX hM hCM hs1 i (hw' _ (Nat.le_refl _))
    have e := rel_getX hs2 i
    rw [wordS_xorS, wordS_xorS] at e
    rw [sz_lt8 _ _ hpos (by omega)] at hw ⊢
    obtain ⟨m1, fr1, sw1, q1⟩ := run_MSTORE (bi := g.EXTERN_BI) (p := m) hM _ e hw
    obtain ⟨mk, hmk, hrw⟩ := run_MMASK hM (mem := m1) (rel_iff.1 hs2).2 h8
    have hs3 := rel_setX hs2 i (w := MXORAND (MEXPAND w g.C g.M) mk
        ((s1.setX i (MXOR (s1.getX i) w g.C)).getX i) g.M)
        (a := le64 l ^^^ ((BitVec.allOnes 64 <<< (8 * l.length)) &&& (wordS t i ^^^ (1 : Word) <<< (8 * l.length) ^^^ le64 l)))
        (by rw [PV_MXORAND hM, PV_MEXPAND hC.1 hCM hM.2, hw' _ (Nat.le_refl _), hmk, e, ← enc_and, ← enc_xor])
    rw [decWord _ l h8, setS_dec] at hs3
    refine ⟨_, m1, _, rel_x5 hM hs3, fr1, SH.word sw1, ?_, take_bytes64_dec _ l h8, ?_⟩
    rotate_left
    · refine (run_bind_of hr1).trans ?_
      rw [run_ifc_pos (by simpa using h0)]
      refine (run_bind_of rw').trans ?_
      refine (run_bind_of q1).trans ?_
      exact (run_bind_of hrw).trans rfl
    · rw [length_bytes64]; omega

theorem run_decFinal {g : Cfg} (hM : Ns g.M) (hC : Ns g.C) (hCM : g.C ≤ g.M) {mem : Mem} {s : MState} {t : State} (h : Rel g.M s t)
    {m p : Nat} {l : List Byte} (hp : SH mem g.EXTERN_BI g.C p l) (h16 : l.length < 16) (hw : mem.Writable m (sz g.M l.length))
    (hd : Disjoint m (sz g.M l.length) p (sz g.C l.length)) :
    ∃ s' mem' X, Rel g.M s' (xorIn t (pad 16 (xorBytes (rate l.length t) l))) ∧ Fr mem mem' m (sz g.M l.length) ∧
      SH mem' g.EXTERN_BI g.M m X ∧
      X.length = 8 * ((l.length + 7) / 8) ∧ X.take l.length = xorBytes (rate l.length t) l ∧
      run (decFinal g .little (s, m, p, l.length)) mem = some (s', mem') := by
  unfold decFinal
  have hMp := hM.1
  have hCp := hC.1
  have hlx : (xorBytes (rate l.length t) l).length = l.length := by
    rw [length_xorBytes, length_rate _ _ (by omega)]; omega
  by_cases h8 : 8 ≤ l.length
  · have z1 := sz_ge8 g.M l.length h8
    have z2 := sz_ge8 g.C l.length h8
    obtain ⟨w, hw', rw'⟩ := run_MLOAD hC (hp.first (ne_nil_of_le h8 (by omega)))
    have f0 := PV_xor0 hM hCM (rel_iff.1 h).1.1 (hw' _ (Nat.le_refl _))
    have h1 := rel_set0 h ((PV_MEXPAND hC.1 hCM hM.2 w).trans (hw' _ (Nat.le_refl _)))
    obtain ⟨m1, fr1, sw1, q1⟩ := run_MSTORE (bi := g.EXTERN_BI) (p := m) hM (MXOR s.x0 w g.C) f0
      (hw.mono (by omega) (by omega))
    obtain ⟨s', m2, X, hs', fr2, sh2, hX, hX', hr⟩ := run_decTail hM hC hCM (mem := m1) (m := m + 8 * g.M) h1
      (i := 1) (n := l.length - 8) (by simp)
      (fr1.sh hp (by unfold Disjoint at *; omega)).drop1 (by simp; omega)
      ((fr1.writable hw).mono (by omega) (by rw [List.length_drop]; omega))
    rw [List.length_drop] at fr2
    refine ⟨s', m2, bytes64 (t.x0 ^^^ le64 l) ++ X, ?_, fr1.trans fr2 (by omega) (by omega), ?_, ?_, ?_, ?_⟩
    · rw [xorIn_pad_xorS_ge t _ (by omega) (by omega), xorIn_dec_ge t l h8 h16, drop8_bytes64_append,
        ← le64_take8 (_ ++ _), take8_bytes64_append, le64_bytes64, ← BitVec.xor_assoc, BitVec.xor_self, BitVec.zero_xor]
      have hl2 : (xorBytes ((bytes64 t.x1).take (l.drop 8).length) (l.drop 8)).length = (l.drop 8).length := by
        rw [length_xorBytes, List.length_take, length_bytes64, List.length_drop]; omega
      rw [hl2]
      exact hs'
    · refine SH.append (k := 1) (SH.word (fr2.sw sw1 (by unfold Disjoint; omega))) (by rw [length_bytes64]) ?_
      rw [Nat.mul_one]
      exact sh2
    · rw [List.length_append, length_bytes64, hX, List.length_drop]; omega
    · rw [xorIn_dec_ge t l h8 h16, List.take_append, List.take_of_length_le (by rw [length_bytes64]; omega),
        length_bytes64]
      rw [List.length_drop] at hX'
      rw [hX', List.length_drop]
      rfl
    · refine (run_bind_of (a := ({ s with x0 := MEXPAND w g.C g.M }, 1, m + 8 * g.M, p + 8 * g.C, l.length - 8))
        (mem' := m1) ?_).trans ?_
      rotate_left
      · exact hr
      rw [run_ifc_pos (by simpa using h8)]
      refine (run_bind_of rw').trans ?_
      exact (run_bind_of q1).trans rfl
  · obtain ⟨s', m2, X, hs', fr2, sh2, hX, hX', hr⟩ := run_decTail hM hC hCM h (m := m) (i := 0) rfl hp (by omega) hw
    rw [wordS_0 t _ (by omega)] at hs' hX'
    refine ⟨s', m2, X, ?_, fr2, sh2, hX, hX', ?_⟩
    · rw [xorIn_pad_xorS_lt t _ (by omega), hlx]; exact hs'
    · refine (run_bind_of (a := (s, 0, m, p, l.length)) (mem' := mem) ?_).trans hr
      rw [run_ifc_neg (by simpa using h8)]; rfl

theorem run_ascon_decrypt {g : Cfg} (hM : Ns g.M) (hC : Ns g.C) (hCM : g.C ≤ g.M) {mem : Mem} {s : MState} {t : State}
    (h : Rel g.M s t) {m p : Nat} {D : List Byte} (hp : SH mem g.EXTERN_BI g.C p D) (hw : mem.Writable m (sz g.M D.length))
    (hd : Disjoint m (sz g.M D.length) p (sz g.C D.length)) :
    ∃ s' mem' X, Rel g.M s' (decBody t D).1 ∧ Fr mem mem' m (sz g.M D.length) ∧ SH mem' g.EXTERN_BI g.M m X ∧
      X.length = 8 * ((D.length + 7) / 8) ∧ X.take D.length = (decBody t D).2 ∧
      run (ascon_decrypt g .little s m p D.length) mem = some (s', mem') := by
  obtain ⟨s1, m1, hs1, fr1, sh1, hr1⟩ := run_decLoop hM hC hCM (D.length + 1) h hp hw hd (by omega)
  have hlen := length_decBlocks t (fullBlocks 16 D) (fun b hb => mem_fullBlocks_length hb)
  rw [Ref.length_fullBlocks] at hlen
  have hll := length_lastBlock 16 D
  have z1 := sz_split g.M D.length
  have z2 := sz_split g.C D.length
  obtain ⟨s2, m2, X, hs2, fr2, sh2, hX, hX', hr2⟩ := run_decFinal hM hC hCM (mem := m1)
    (m := m + 16 * (g.M * (D.length / 16))) (p := p + 16 * (g.C * (D.length / 16))) hs1
    (fr1.sh hp (by unfold Disjoint at *; omega)).last (by omega)
    ((fr1.writable hw).mono (by omega) (by rw [hll]; omega)) (by rw [hll]; unfold Disjoint at *; omega)
  rw [hll] at fr2
  refine ⟨s2, m2, (decBlocks t (fullBlocks 16 D)).2 ++ X, hs2, fr1.trans fr2 (by omega) (by omega), ?_, ?_, ?_, ?_⟩
  · have ec : g.M * (16 * (D.length / 16)) = 16 * (g.M * (D.length / 16)) := Nat.mul_left_comm ..
    have ec2 : g.M * (2 * (D.length / 16)) = 2 * (g.M * (D.length / 16)) := Nat.mul_left_comm ..
    refine SH.append (k := 2 * (D.length / 16)) (fr2.sh sh1 ?_) (by rw [hlen]; omega) ?_
    · rw [hlen, sz_mult _ (16 * (D.length / 16)) (by omega), ec]; unfold Disjoint; omega
    · rw [show m + 8 * (g.M * (2 * (D.length / 16))) = m + 16 * (g.M * (D.length / 16)) by omega]
      exact sh2
  · rw [List.length_append]; omega
  · unfold decBody
    simp only []
    rw [List.take_append, List.take_of_length_le (by omega), ← hX']
    congr 2; omega
  · unfold ascon_decrypt
    refine (run_bind_of hr1).trans ?_
    rw [← hll]
    exact hr2

/-! ### Key, nonce and tag -/

theorem SH.second {mem : Mem} {bi : Bool} {n p : Nat} {D : List Byte} (h : SH mem bi n p D) (hD : D.length = 16) :
    SW mem bi n (p + 8 * n) (le64 (D.drop 8)) :=
  h.drop1.first (ne_nil_of_le (k := 8) (by simp; omega) (by omega))

theorem rel_addKeyLast {ns : Nat} (hns : Ns ns) {s : MState} {t : State} (h : Rel ns s t) {w1 w2 : word_t} {K : List Byte}
    (h1 : PV ns w1 = enc (le64 (K.take 8))) (h2 : PV ns w2 = enc (le64 (K.drop 8))) :
    Rel ns { s with x3 := MXOR s.x3 w1 ns, x4 := MXOR s.x4 w2 ns } (addKeyLast K t) := by
  obtain ⟨⟨e0, e1, e2, e3, e4⟩, hz⟩ := rel_iff.1 h
  exact rel_iff.2 ⟨⟨e0, e1, e2, PV_xor0 hns (Nat.le_refl _) e3 h1, PV_xor0 hns (Nat.le_refl _) e4 h2⟩, hz⟩

theorem rel_addKeyMid {ns : Nat} (hns : Ns ns) {s : MState} {t : State} (h : Rel ns s t) {w1 w2 : word_t} {K : List Byte}
    (h1 : PV ns w1 = enc (le64 (K.take 8))) (h2 : PV ns w2 = enc (le64 (K.drop 8))) :
    Rel ns { s with x2 := MXOR s.x2 w1 ns, x3 := MXOR s.x3 w2 ns } (addKeyMid K t) := by
  obtain ⟨⟨e0, e1, e2, e3, e4⟩, hz⟩ := rel_iff.1 h
  exact rel_iff.2 ⟨⟨e0, e1, PV_xor0 hns (Nat.le_refl _) e2 h1, PV_xor0 hns (Nat.le_refl _) e3 h2, e4⟩, hz⟩

theorem PV_initX0 {g : Cfg} (hK : Ns g.KEY) (r : Nat → Word) : PV g.KEY (initX0 g r) = enc ivAead := by
  unfold initX0
  simp only []
  rw [PV_add hK, PV_MZERO hK, iv_ok]
  exact zx _

theorem PV_initN {g : Cfg} (hK : Ns g.KEY) (r : Nat → Word) {N : word_t} {x : Word} (hN : PV g.KEY N = enc x) :
    PV g.KEY (initN g r N) = enc x := by
  unfold initN
  split
  · exact hN
  · rw [PV_MXOR (Nat.le_refl _) hK.2, hN, PV_MZERO hK, xz]

theorem run_ascon_initaead {g : Cfg} (hK : Ns g.KEY) (hN : Ns g.NPUB) (hNK : g.NPUB ≤ g.KEY) {ρ : Nat → Nat → Word} {mem : Mem}
    {k n : Nat} {K N : List Byte} (hk : SH mem g.EXTERN_BI g.KEY k K) (hn : SH mem g.EXTERN_BI g.NPUB n N)
    (hKl : K.length = 16) (hNl : N.length = 16) :
    ∃ s, Rel g.KEY s (aeadInit K N) ∧ run (ascon_initaead g .little ρ k n) mem = some (s, mem) := by
  obtain ⟨n0, hn0, rn0⟩ := run_MLOAD hN (hn.first (ne_nil_of_le (k := 16) (by omega) (by omega)))
  obtain ⟨n1, hn1, rn1⟩ := run_MLOAD hN (hn.second hNl)
  obtain ⟨k0, hk0, rk0⟩ := run_MLOAD hK (hk.first (ne_nil_of_le (k := 16) (by omega) (by omega)))
  obtain ⟨k1, hk1, rk1⟩ := run_MLOAD hK (hk.second hKl)
  have h1 := hk0 _ (Nat.le_refl _)
  have h2 := hk1 _ (Nat.le_refl _)
  rw [← le64_take8] at h1
  have hrel : Rel g.KEY ⟨initX0 g (ρ 1), k0, k1, initN g (ρ 2) n0, initN g (ρ 3) n1, MZERO (ρ 0) g.KEY⟩
      { x0 := ivAead, x1 := le64 (K.take 8), x2 := le64 (K.drop 8), x3 := le64 (N.take 8), x4 := le64 (N.drop 8) } := by
    refine rel_iff.2 ⟨⟨PV_initX0 hK _, h1, h2, ?_, ?_⟩, PV_MZERO hK _⟩
    · have := PV_initN hK (ρ 2) (hn0 _ hNK)
      rw [← le64_take8] at this; exact this
    · exact PV_initN hK _ (hn1 _ hNK)
  obtain ⟨s', hs', hrP⟩ := run_P hK (nr := 12) (by decide) (by decide) hrel mem
  unfold aeadInit
  generalize perm 12 _ = t at *
  refine ⟨{ s' with x3 := MXOR s'.x3 k0 g.KEY, x4 := MXOR s'.x4 k1 g.KEY }, rel_addKeyLast hK hs' h1 h2, ?_⟩
  unfold ascon_initaead
  rw [run_bind_of rn0, run_bind_of rn1, run_bind_of rk0, run_bind_of rk1, run_bind_of hrP]
  rfl

theorem rel_level_adata {g : Cfg} (hA : 1 ≤ g.AD) (hAK : g.AD ≤ g.KEY) (hK : g.KEY ≤ 4) {s : MState} {t : State} (h : Rel g.KEY s t) :
    Rel g.AD (ascon_level_adata g s) t := by
  unfold ascon_level_adata
  split
  · obtain ⟨⟨e0, e1, e2, e3, e4⟩, hz⟩ := rel_iff.1 h
    refine rel_iff.2 ⟨⟨?_, ?_, ?_, ?_, ?_⟩, ?_⟩
    · rw [← e0]; exact PV_MREDUCE hA hAK hK _
    · rw [← e1]; exact PV_MREDUCE hA hAK hK _
    · rw [← e2]; exact PV_MREDUCE hA hAK hK _
    · rw [← e3]; exact PV_MREDUCE hA hAK hK _
    · rw [← e4]; exact PV_MREDUCE hA hAK hK _
    · exact (PV_MREDUCE hA hAK hK _).trans hz
  · rename_i h'
    rw [show g.AD = g.KEY by omega]; exact h

theorem rel_levelUp {a b : Nat} (ha : 1 ≤ a) (hab : a ≤ b) (hb : b ≤ 4) (ρ : Nat → Nat → Word) {s : MState} {t : State}
    (h : Rel a s t) : Rel b (levelUp a b ρ s) t := by
  have hnb : Ns b := ⟨by omega, hb⟩
  obtain ⟨⟨e0, e1, e2, e3, e4⟩, hz⟩ := rel_iff.1 h
  unfold levelUp
  simp only []
  split
  · refine rel_iff.2 ⟨⟨?_, ?_, ?_, ?_, ?_⟩, ?_⟩ <;> simp only [PV_MREFRESH hnb, PV_MEXPAND ha hab hb, *]
  · refine rel_iff.2 ⟨⟨?_, ?_, ?_, ?_, ?_⟩, ?_⟩ <;> simp only [PV_MEXPAND ha hab hb, *]

theorem rel_level_encdec {g : Cfg} (hA : 1 ≤ g.AD) (hAM : g.AD ≤ g.M) (hM : g.M ≤ 4) (ρ : Nat → Nat → Word) {s : MState} {t : State}
    (h : Rel g.AD s t) : Rel g.M (ascon_level_encdec g ρ s) t := by
  unfold ascon_level_encdec
  split
  · exact rel_levelUp hA hAM hM ρ h
  · rename_i h'
    rw [show g.M = g.AD by omega]; exact h

theorem rel_level_final {g : Cfg} (hA : 1 ≤ g.M) (hAM : g.M ≤ g.KEY) (hM : g.KEY ≤ 4) (ρ : Nat → Nat → Word) {s : MState} {t : State}
    (h : Rel g.M s t) : Rel g.KEY (ascon_level_final g ρ s) t := by
  unfold ascon_level_final
  split
  · exact rel_levelUp hA hAM hM ρ h
  · rename_i h'
    rw [show g.KEY = g.M by omega]; exact h

theorem run_ascon_final {g : Cfg} (hK : Ns g.KEY) {mem : Mem} {s : MState} {t : State} (h : Rel g.KEY s t) {k : Nat} {K : List Byte}
    (hk : SH mem g.EXTERN_BI g.KEY k K) (hKl : K.length = 16) :
    ∃ s', Rel g.KEY s' (finState K t) ∧ run (ascon_final g .little s k) mem = some (s', mem) := by
  obtain ⟨k0, hk0, rk0⟩ := run_MLOAD hK (hk.first (ne_nil_of_le (k := 16) (by omega) (by omega)))
  obtain ⟨k1, hk1, rk1⟩ := run_MLOAD hK (hk.second hKl)
  have h1 := hk0 _ (Nat.le_refl _)
  have h2 := hk1 _ (Nat.le_refl _)
  rw [← le64_take8] at h1
  obtain ⟨s', hs', hrP⟩ := run_P hK (nr := 12) (by decide) (by decide) (rel_addKeyMid hK h h1 h2) mem
  refine ⟨{ s' with x3 := MXOR s'.x3 k0 g.KEY, x4 := MXOR s'.x4 k1 g.KEY }, rel_addKeyLast hK hs' h1 h2, ?_⟩
  unfold ascon_final
  refine (run_bind_of rk0).trans ?_
  refine (run_bind_of rk1).trans ?_
  exact (run_bind_of hrP).trans rfl

theorem run_ascon_settag {g : Cfg} (hC : Ns g.C) (hCK : g.C ≤ g.KEY) (hK : g.KEY ≤ 4) {mem : Mem} {s : MState} {t : State}
    {K : List Byte} (h : Rel g.KEY s (finState K t)) {p : Nat} (hw : mem.Writable p (16 * g.C)) :
    ∃ mem', Fr mem mem' p (16 * g.C) ∧ SH mem' g.EXTERN_BI g.C p (aeadTag K t) ∧
      run (ascon_settag g .little s p) mem = some ((), mem') := by
  have hCp := hC.1
  obtain ⟨⟨e0, e1, e2, e3, e4⟩, hz⟩ := rel_iff.1 h
  obtain ⟨m1, fr1, sw1, q1⟩ := run_MSTORE (bi := g.EXTERN_BI) (p := p) hC (MREDUCE s.x3 g.KEY g.C)
    ((PV_MREDUCE hC.1 hCK hK _).trans e3) (hw.mono (by omega) (by omega))
  obtain ⟨m2, fr2, sw2, q2⟩ := run_MSTORE (bi := g.EXTERN_BI) (p := p + 8 * g.C) hC (MREDUCE s.x4 g.KEY g.C)
    ((PV_MREDUCE hC.1 hCK hK _).trans e4) ((fr1.writable hw).mono (by omega) (by omega))
  refine ⟨m2, fr1.trans fr2 (by omega) (by omega), ?_, ?_⟩
  · exact SH.bytes (fr2.sw sw1 (by unfold Disjoint; omega)) sw2
  · unfold ascon_settag
    refine (run_bind_of q1).trans ?_
    exact q2

theorem run_ascon_xortag {g : Cfg} (hK : Ns g.KEY) (hC : Ns g.C) (hCK : g.C ≤ g.KEY) {mem : Mem} {s : MState} {t : State}
    (h : Rel g.KEY s t) {p : Nat} {T : List Byte} (hp : SH mem g.EXTERN_BI g.C p T) (hT : T.length = 16) :
    ∃ s', (PV g.KEY s'.x3 = enc (perm 8 (tagDiff t T)).x3 ^^^ pk ⟨0xc7c72006, 0xc3bfab9c⟩ ∧
      PV g.KEY s'.x4 = enc (perm 8 (tagDiff t T)).x4 ^^^ pk ⟨0x18213f82, 0x0653ed71⟩) ∧
      run (ascon_xortag g .little s p) mem = some (s', mem) := by
  obtain ⟨⟨e0, e1, e2, e3, e4⟩, hz⟩ := rel_iff.1 h
  obtain ⟨t0, ht0, rt0⟩ := run_MLOAD hC (hp.first (ne_nil_of_le (k := 16) (by omega) (by omega)))
  obtain ⟨t1, ht1, rt1⟩ := run_MLOAD hC (hp.second hT)
  have hrel : Rel g.KEY ⟨MREUSE s.x0 0 g.KEY, MREUSE s.x1 0 g.KEY, MREUSE s.x2 0 g.KEY, MXOR s.x3 t0 g.C, MXOR s.x4 t1 g.C,
      s.x5⟩ (tagDiff t T) := by
    refine rel_iff.2 ⟨⟨?_, ?_, ?_, ?_, ?_⟩, hz⟩
    · exact (PV_MREUSE0 hK _).trans enc_zero.symm
    · exact (PV_MREUSE0 hK _).trans enc_zero.symm
    · exact (PV_MREUSE0 hK _).trans enc_zero.symm
    · have := PV_xor0 hK hCK e3 (ht0 _ (Nat.le_refl _))
      rw [← le64_take8] at this; exact this
    · exact PV_xor0 hK hCK e4 (ht1 _ (Nat.le_refl _))
  obtain ⟨s', hs', hrP⟩ := run_P hK (nr := 8) (by decide) (by decide) hrel mem
  obtain ⟨⟨-, -, -, f3, f4⟩, -⟩ := rel_iff.1 hs'
  refine ⟨{ s' with
      x3 := (s'.x3.xor 0 0 0xc7c72006).xor 0 1 0xc3bfab9c
      x4 := (s'.x4.xor 0 0 0x18213f82).xor 0 1 0x0653ed71 }, ⟨?_, ?_⟩, ?_⟩
  · rw [← f3]; exact PV_add hK _ _ _
  · rw [← f4]; exact PV_add hK _ _ _
  · unfold ascon_xortag
    refine (run_bind_of rt0).trans ?_
    refine (run_bind_of rt1).trans ?_
    exact (run_bind_of hrP).trans rfl

end Ascon.MaskedN
