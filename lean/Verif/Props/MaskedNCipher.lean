import Verif.Props.MaskedNSteps
import Verif.C.Keeps
/-!
# C79: with fewer shares of the ciphertext than of the message, one probe in decryption learns the state

config.h of protected_bi32_armv6_leveled accepts `NUM_SHARES_C < NUM_SHARES_M`.  `ascon_decrypt` then replaces the words `x[0]`,
`x[1]` of the state by the ciphertext with the shares that it has, and the permutation follows.
-/

namespace Ascon.Props

open Ascon.Spec Ascon.C Ascon.MaskedN Ascon.MaskedN.Probe
open Ascon.Masked (U32 ROR32 ROR32_xor constants)
open Ascon.Masked.Probe (Val two)

/-- The state with `x[0]`, `x[1]` replaced by `c0`, `c1`, not shared: share 0 is the word, the other shares are zero. -/
def publicWords (c0 c1 : Fin 2 → U32) (s : St) : St := fun d k i =>
  if k = 0 then (if d = 0 then c0 i else 0) else if k = 1 then (if d = 0 then c1 i else 0) else s d k i

/-- Two shares: what the gate does to share 0. -/
theorem gate2_share0 {c a b : Fin 6} (ha : a ≠ c) (hb : b ≠ c) (i : Fin 2) (s : St) :
    (mxorbic 2 c a b i s).1 0 c i = s 0 c i ^^^ (s 0 a i &&& ~~~(val 2 s b i)) := by
  rw [mx2]
  unfold mxorbic2
  simp only [seq_cons, seq_nil, eorRor, put]
  simp only [ha, hb, and_true, and_false, and_self, if_true, if_false, show ¬ (0 : Nat) = 1 by decide]
  have e : val 2 s b i = s 0 b i ^^^ ROR32 (s 1 b i) 5 := by
    show (0 : U32) ^^^ ROR32 (s 0 b i) 0 ^^^ _ = _
    rw [ROR32_0, show (0 : U32) ^^^ s 0 b i = s 0 b i from BitVec.zero_xor]
  rw [e]
  obtain ⟨r0, -, -, -, -, -, -, r1, -⟩ := rots
  rw [r0, r1, ROR32_0]
  generalize ROR32 (s 1 b i) 5 = y, s 0 a i = x, s 0 b i = u, s 0 c i = v
  apply BitVec.eq_of_getLsbD_eq; intro j hj
  simp only [BitVec.getLsbD_xor, BitVec.getLsbD_and, BitVec.getLsbD_not, hj, decide_true, Bool.true_and]
  generalize x.getLsbD j = x, y.getLsbD j = y, u.getLsbD j = u, v.getLsbD j = v
  revert x y u v; decide +kernel

/-- The first round up to the second gate. -/
def pre2 (C : U32) : Op :=
  seq [xorConst 2 0 C, Probe.affine1 0 0, Probe.affine1 0 1, mxorbic 2 5 4 3 0, mxorbic 2 4 1 0 0]

theorem pre2_state (C : U32) (s : St) : (pre2 C s).1 0 1 0 = s 0 1 0 ∧ (pre2 C s).1 0 3 0 = s 0 3 0 ∧
    val 2 (pre2 C s).1 2 0 = val 2 s 2 0 ^^^ C ^^^ val 2 s 1 0 := by
  have e : (pre2 C s).1 = (mxorbic 2 4 1 0 0 (mxorbic 2 5 4 3 0
      (seq [xorConst 2 0 C, Probe.affine1 0 0, Probe.affine1 0 1] s).1).1).1 := by
    unfold pre2
    simp only [seq_cons, seq_nil]
  have hv : ∀ s : St, ∀ k, val 2 s k 0 = s 0 k 0 ^^^ ROR32 (s 1 k 0) 5 := by
    intro s k
    show (0 : U32) ^^^ ROR32 (s 0 k 0) 0 ^^^ _ = _
    rw [ROR32_0, show (0 : U32) ^^^ s 0 k 0 = s 0 k 0 from BitVec.zero_xor]
  have hs : ∀ d, d < 2 → ∀ t, t = (seq [xorConst 2 0 C, Probe.affine1 0 0, Probe.affine1 0 1] s).1 →
      t d 1 0 = s d 1 0 ∧ t d 2 0 = (if d = 0 then s d 2 0 ^^^ C else s d 2 0) ^^^ s d 1 0 ∧ t d 3 0 = s d 3 0 := by
    intro d hd t ht
    subst ht
    unfold Probe.affine1
    simp only [seq_cons, seq_nil, xorInto, xorConst]
    obtain rfl | rfl : d = 0 ∨ d = 1 := by omega
    all_goals simp [put]
  have gn := fun {c a b : Fin 6} (ha : a ≠ c) (hb : b ≠ c) (hab : a ≠ b) (s : St) (d : Nat) {k : Fin 6} (hk : k ≠ c) =>
    gate_ne (n := 2) (by omega) (by omega) ha hb hab 0 s d hk 0
  rw [e]
  generalize ht : (seq [xorConst 2 0 C, Probe.affine1 0 0, Probe.affine1 0 1] s).1 = t
  obtain ⟨a1, a2, a3⟩ := hs 0 (by omega) t ht.symm
  obtain ⟨b1, b2, b3⟩ := hs 1 (by omega) t ht.symm
  have g : ∀ d, ∀ k : Fin 6, k ≠ 4 → k ≠ 5 → (mxorbic 2 4 1 0 0 (mxorbic 2 5 4 3 0 t).1).1 d k 0 = t d k 0 := by
    intro d k h4 h5
    rw [gn (by decide) (by decide) (by decide) _ _ h4, gn (by decide) (by decide) (by decide) _ _ h5]
  refine ⟨?_, ?_, ?_⟩
  · rw [g _ _ (by decide) (by decide), a1]
  · rw [g _ _ (by decide) (by decide), a3]
  · rw [hv, g _ _ (by decide) (by decide), g _ _ (by decide) (by decide), hv, hv, a2, b2, if_pos rfl, if_neg (by decide),
      ROR32_xor _ _ _ (by omega)]
    generalize s 0 2 0 = x, s 0 1 0 = y, ROR32 (s 1 2 0) 5 = u, ROR32 (s 1 1 0) 5 = v
    apply BitVec.eq_of_getLsbD_eq; intro j hj
    simp only [BitVec.getLsbD_xor]
    generalize x.getLsbD j = x, y.getLsbD j = y, u.getLsbD j = u, v.getLsbD j = v, C.getLsbD j = c
    revert x y u v c; decide +kernel

/-- Value number 42 of the permutation with two shares: share 0 of `x[1]` after its gate, in the first half of the first round. -/
theorem probe42 (nr : Nat) (s : St) {C : U32} (hC : C = (constants.getD (2 * (12 - (nr + 1))) 0).setWidth 32) :
    (Probe.perm 2 (nr + 1) s).2[42]? = some (s 0 1 0 ^^^ (s 0 3 0 &&& ~~~(val 2 s 2 0 ^^^ C ^^^ val 2 s 1 0))) := by
  unfold Probe.perm
  rw [MaskedN.Probe.rounds_cons]
  generalize hCo : (constants.getD (2 * (12 - (nr + 1)) + 1) 0) = Co
  generalize hCe : (constants.getD (2 * (12 - (nr + 1))) 0) = Ce
  generalize rounds 2 (12 - (nr + 1) + 1) nr = rest
  rw [hCe] at hC
  have w1 : ∀ f, when (2 ≥ 1) f = f := fun _ => if_pos (by decide)
  have w2 : ∀ f, when (2 ≥ 2) f = f := fun _ => if_pos (by decide)
  have w3 : ∀ f, when (2 ≥ 3) f = seq [] := fun _ => if_neg (by decide)
  have w4 : ∀ f, when (2 ≥ 4) f = seq [] := fun _ => if_neg (by decide)
  have sc : ∀ (f : Op) (l : List Op), seq (f :: l) = f.then (seq l) := fun _ _ => by rw [seq]
  obtain ⟨tl, ht⟩ : ∃ tl : Op, (Probe.round 2 Co Ce).then rest = (pre2 C).then ((mxorbic 2 1 3 2 0).then tl) := by
    have e : ∃ q : Op, Probe.sbox 2 0 = (seq [Probe.affine1 0 0, Probe.affine1 0 1, mxorbic 2 5 4 3 0,
        mxorbic 2 4 1 0 0]).then ((mxorbic 2 1 3 2 0).then q) := by
      unfold Probe.sbox
      rw [w1, w2, w3, w4, w1]
      generalize mxorbic 2 5 4 3 0 = g1, mxorbic 2 4 1 0 0 = g2, mxorbic 2 1 3 2 0 = g3, mxorbic 2 3 0 4 0 = g4,
        mxorbic 2 0 2 1 0 = g5, Probe.affine1 0 0 = f1, Probe.affine1 0 1 = f2
      simp only [sc, then_assoc, nil_then, then_nil]
      exact ⟨_, rfl⟩
    obtain ⟨q, e⟩ := e
    have e' : pre2 C = (xorConst 2 0 C).then (seq [Probe.affine1 0 0, Probe.affine1 0 1, mxorbic 2 5 4 3 0, mxorbic 2 4 1 0 0]) := by
      unfold pre2
      rw [sc]
    have e2 : ∀ l, seq (xorConst 2 0 (Ce.setWidth 32) :: Probe.sbox 2 0 :: l) = (xorConst 2 0 C).then ((Probe.sbox 2 0).then (seq l)) := by
      intro l
      rw [sc, sc, hC]
    unfold Probe.round
    rw [e2, e', e]
    generalize seq [xorConst 2 1 (BitVec.setWidth 32 Co), Probe.sbox 2 1, reuse 2 5, when (2 ≥ 4) (Probe.linear 3),
      when (2 ≥ 3) (Probe.linear 2), when (2 ≥ 2) (Probe.linear 1), when (2 ≥ 1) (Probe.linear 0)] = u
    exact ⟨(q.then u).then rest, by simp only [then_assoc]⟩
  have hl : (pre2 C s).2.length = 31 := by
    have cons : ∀ (f : Op) (l : List Op) (s : St), (seq (f :: l) s).2.length = (f s).2.length + (seq l (f s).1).2.length :=
      fun f l s => List.length_append
    have nil : ∀ s : St, (seq [] s).2.length = 0 := fun _ => rfl
    have h1 : ∀ d k k' i s, (xorInto d k k' i s).2.length = 1 := fun _ _ _ _ _ => rfl
    have h2 : ∀ k i C s, (xorConst k i C s).2.length = 1 := fun _ _ _ _ => rfl
    have h4 : ∀ g dc c da a db b i r s, (eorRor g dc c da a db b i r s).2.length = 3 := fun _ _ _ _ _ _ _ _ _ _ => rfl
    simp only [pre2, mx2, mxorbic2, Probe.affine1, cons, nil, h1, h2, h4]
  have e : ∀ t : St, (mxorbic 2 1 3 2 0 t).2[11]? = some ((mxorbic 2 1 3 2 0 t).1 0 1 0) := by
    intro t
    rw [mx2]
    unfold mxorbic2
    simp only [csnd, nsnd, seq_cons, seq_nil, eorRor, put]
    simp
  obtain ⟨p1, p3, p2⟩ := pre2_state C s
  have el : (mxorbic 2 1 3 2 0 (pre2 C s).1).2.length = 12 := by
    rw [mx2]
    rfl
  rw [ht, then_snd, then_snd, List.getElem?_append_right (by rw [hl]; decide), hl,
    List.getElem?_append_left (by rw [el]; decide), e, gate2_share0 (by decide) (by decide), p1, p2, p3]

/-- Two shares.  The state is uniformly shared and `x[0]`, `x[1]` are replaced by public words: value number 42 of the permutation
that follows (the result of the gate `x[1] ^= x[3] & ~x[2]` in share 0) has a distribution that depends on the word `x[2]`.
By C74 this is so for no value if `x[0]` and `x[1]` are uniformly shared as well. -/
theorem C79_public_words_leak (nr : Nat) (h0 : 0 < nr) (R : St) (c0 c1 : Fin 2 → U32) : ∃ S S' : Val,
    (∀ k i, k ≠ 2 → S k i = S' k i) ∧ ¬ SameDist
      (fun μ : Fin 1 → Val => (Probe.perm 2 nr (publicWords c0 c1 (nShare R S μ))).2[42]?)
      (fun μ => (Probe.perm 2 nr (publicWords c0 c1 (nShare R S' μ))).2[42]?) := by
  obtain ⟨nr, rfl⟩ : ∃ k, nr = k + 1 := ⟨nr - 1, by omega⟩
  have hp := fun s => probe42 nr s rfl
  generalize (constants.getD (2 * (12 - (nr + 1))) 0).setWidth 32 = C at hp
  have hv : ∀ s : St, ∀ k, val 2 s k 0 = s 0 k 0 ^^^ ROR32 (s 1 k 0) 5 := by
    intro s k
    show (0 : U32) ^^^ ROR32 (s 0 k 0) 0 ^^^ _ = _
    rw [ROR32_0, show (0 : U32) ^^^ s 0 k 0 = s 0 k 0 from BitVec.zero_xor]
  have v1 : ∀ s : St, val 2 (publicWords c0 c1 s) 1 0 = c1 0 := by
    intro s
    rw [hv]
    show c1 0 ^^^ ROR32 0 5 = c1 0
    rw [show ROR32 0 5 = 0 by decide]
    exact BitVec.xor_zero
  have v2 : ∀ (S : Val) (μ : Fin 1 → Val), val 2 (publicWords c0 c1 (nShare R S μ)) 2 0 = S 2 0 := by
    intro S μ
    exact (val_congr (n := 2) (s' := nShare R S μ) fun d _ => rfl).trans (congrFun (congrFun (in_nShare (m := 1) (by omega) R S μ).1 2) 0)
  have s0 : ∀ (S : Val) (μ : Fin 1 → Val), nShare R S μ 0 3 0 = S 3 0 ^^^ ROR32 (μ 0 3 0) 5 := by
    intro S μ
    have h := congrFun (congrFun (in_nShare (m := 1) (by omega) R S μ).1 3) 0
    rw [hv, show nShare R S μ 1 3 0 = μ 0 3 0 from rfl] at h
    rw [← h, BitVec.xor_assoc, BitVec.xor_self, BitVec.xor_zero]
  let S : Val := fun k _ => if k = 2 then ~~~(C ^^^ c1 0) else 0
  let S' : Val := fun k _ => if k = 2 then C ^^^ c1 0 else 0
  refine ⟨S, S', fun k i hk => ?_, not_sameDist (fun v => v = some (c1 0)) (fun μ => ?_)
    (m := fun _ _ _ => ROR32 1 27) ?_⟩
  · show (if k = 2 then _ else _) = if k = 2 then _ else _
    rw [if_neg hk, if_neg hk]
  · show (Probe.perm 2 (nr + 1) (publicWords c0 c1 (nShare R S μ))).2[42]? = some (c1 0)
    rw [hp, v1, v2]
    congr 1
    show c1 0 ^^^ (_ &&& ~~~(~~~(C ^^^ c1 0) ^^^ C ^^^ c1 0)) = c1 0
    generalize publicWords c0 c1 (nShare R S μ) 0 3 0 = x, c1 0 = c
    apply BitVec.eq_of_getLsbD_eq; intro j hj
    simp only [BitVec.getLsbD_xor, BitVec.getLsbD_and, BitVec.getLsbD_not, hj, decide_true, Bool.true_and]
    generalize x.getLsbD j = x, c.getLsbD j = c, C.getLsbD j = d
    revert x c d; decide +kernel
  · show ¬ (Probe.perm 2 (nr + 1) (publicWords c0 c1 (nShare R S' fun _ _ _ => ROR32 1 27))).2[42]? = some (c1 0)
    rw [hp, v1, v2]
    show ¬ some (c1 0 ^^^ (nShare R S' (fun _ _ _ => ROR32 1 27) 0 3 0 &&& ~~~((C ^^^ c1 0) ^^^ C ^^^ c1 0))) = some (c1 0)
    rw [s0]
    show ¬ some (c1 0 ^^^ (((0 : U32) ^^^ ROR32 (ROR32 1 27) 5) &&& ~~~((C ^^^ c1 0) ^^^ C ^^^ c1 0))) = some (c1 0)
    rw [show (0 : U32) ^^^ ROR32 (ROR32 1 27) 5 = 1 by decide]
    intro h
    have h := congrArg (fun x : U32 => x.getLsbD 0) (Option.some.inj h)
    simp only [BitVec.getLsbD_xor, BitVec.getLsbD_and, BitVec.getLsbD_not] at h
    generalize (c1 0).getLsbD 0 = c, C.getLsbD 0 = d at h
    revert c d; decide

/-! ## That is what the code does -/

/-- The shares that are not loaded are zero. -/
theorem load1_zero {bi : Bool} {p : Nat} {mem : Mem} {w : word_t} (h : run (MLOAD bi .little p 1) mem = some (w, mem)) (d : Nat)
    (hd : d ≠ 0) : w d = ⟨0, 0⟩ := by
  rw [MLOAD_eq, if_pos (by decide)] at h
  obtain ⟨w0, m0, h0, h⟩ := run_bind_some h
  obtain ⟨s, m1, -, h0⟩ := run_bind_some h0
  rw [if_neg (by decide)] at h
  simp only [show ¬ (1 : Nat) ≥ 3 by decide, show ¬ (1 : Nat) ≥ 4 by decide, if_false] at h
  cases h
  cases h0
  unfold word_t.setShare
  rw [if_neg hd]

/-- `MEXPAND` of a word whose further shares are zero changes nothing. -/
theorem MEXPAND_zero {w : word_t} (hw : ∀ d, d ≠ 0 → w d = ⟨0, 0⟩) : MEXPAND w 1 2 = w := by
  have z : ∀ (w : word_t) (i : Nat), w.xor 0 i 0 = w := by
    intro w i
    funext d
    unfold word_t.xor word_t.set word_t.get
    by_cases h : d = 0
    · subst h
      rw [if_pos rfl]
      unfold Masked.share_t.set Masked.share_t.get
      by_cases hi : i = 0 <;> simp [hi]
    · rw [if_neg h]
  have g : ∀ i, ROR32 (w.get 1 i) (Masked.ROT 1) = 0 := by
    intro i
    unfold word_t.get
    rw [hw 1 (by decide)]
    unfold Masked.share_t.get
    split <;> decide
  unfold MEXPAND MREMASK
  simp [g]
  rw [show (0#32) = (0 : U32) from rfl, z, z]

/-- A full block of ciphertext in `ascon_decrypt` (aead.c:128-144) with two shares of the message and one of the ciphertext: the
permutation is applied to the state with the words `x[0]`, `x[1]` replaced by those of the ciphertext, not shared. -/
theorem C79_decrypt_states {g : Cfg} (hM : g.M = 2) (hC : g.C = 1) (mem : Mem) (s : MState) (w0 w1 : word_t) (m c clen : Nat)
    (hw : mem.Writable m 32) (d : Disjoint c 16 m 32) (l0 : run (MLOAD g.EXTERN_BI .little c 1) mem = some (w0, mem))
    (l1 : run (MLOAD g.EXTERN_BI .little (c + 8) 1) mem = some (w1, mem)) :
    ∃ s' mem', run (decStep g .little (s, m, c, clen)) mem = some ((s', m + 32, c + 16, clen - 16), mem') ∧
      toSt s' = (Probe.perm 2 8 (publicWords (fun i => w0.get 0 i.val) (fun i => w1.get 0 i.val) (toSt s))).1 := by
  obtain ⟨KEY, NPUB, AD, M, C, bi⟩ := g
  simp only at hM hC l0 l1
  subst hM hC
  obtain ⟨m1, f1, r1⟩ := store_word (bi := bi) (n := 2) (by decide) (by decide) (MXOR s.x0 w0 1) (hw.mono (Nat.le_refl _) (by omega))
  unfold Disjoint at d
  have l1' := keep_word l1 f1 (by omega)
  have hw1 : m1.Writable (m + 8 * 2) (8 * 2) := fun i hi => by
    rw [f1.1 _ (by omega), Nat.add_assoc]; exact hw (16 + i) (by omega)
  obtain ⟨m2, f2, r2⟩ := store_word (bi := bi) (n := 2) (by decide) (by decide) (MXOR s.x1 w1 1) hw1
  obtain ⟨s', e, rp⟩ := link_P (n := 2) (by decide) (by decide) (nr := 8) (by decide) (by decide)
    { s with x0 := MEXPAND w0 1 2, x1 := MEXPAND w1 1 2 } m2
  refine ⟨s', m2, ?_, ?_⟩
  · unfold decStep
    simp only
    rw [run_bind_of l0, run_bind_of r1, run_bind_of l1', run_bind_of r2, run_bind_of rp]
    rfl
  · rw [e]
    congr 2
    rw [MEXPAND_zero (load1_zero l0), MEXPAND_zero (load1_zero l1)]
    have hz : ∀ (w : word_t), (∀ d, d ≠ 0 → w d = ⟨0, 0⟩) → ∀ (d : Nat) (i : Fin 2), w.get d i.val = if d = 0 then w.get 0 i.val else 0 := by
      intro w hw d i
      by_cases h : d = 0
      · subst h; rw [if_pos rfl]
      · rw [if_neg h]; unfold word_t.get; rw [hw d h]; unfold Masked.share_t.get; split <;> rfl
    funext d k i
    have a0 := hz w0 (load1_zero l0) d i
    have a1 := hz w1 (load1_zero l1) d i
    revert k
    exact Masked.Probe.six a0 a1 rfl rfl rfl rfl

/-- Two shares of key, associated data and message, one of the ciphertext: config.h accepts it. -/
def cfgCipher : Cfg := ⟨2, 1, 2, 2, 1, false⟩

example : cfgCipher.Supported := by unfold Cfg.Supported; decide

/-- 16 bytes of ciphertext at 0, the message at 256. -/
example (s : MState) : ∃ s' mem', run (decStep cfgCipher .little (s, 256, 0, 40)) zeroMem = some ((s', 288, 16, 24), mem') := by
  obtain ⟨w, hw⟩ : ∃ w, ∀ p, run (MLOAD cfgCipher.EXTERN_BI .little p 1) zeroMem = some (w, zeroMem) := ⟨_, fun _ => rfl⟩
  obtain ⟨s', mem', h, -⟩ := C79_decrypt_states (g := cfgCipher) rfl rfl zeroMem s w w 256 0 40 (fun _ _ => rfl)
    (by unfold Disjoint; omega) (hw _) (hw _)
  exact ⟨s', mem', h⟩

/-! ## Four shares do not resist two probes (C74) -/

/-- Four shares: what the gate does to share 0, and where the result appears. -/
theorem gate4_share0 {c a b : Fin 6} (ha : a ≠ c) (hb : b ≠ c) (i : Fin 2) (s : St) :
    (mxorbic 4 c a b i s).2[41]? = some (s 0 c i ^^^ (s 0 a i &&& ~~~(val 4 s b i))) := by
  rw [mx4]
  unfold mxorbic4
  have e : val 4 s b i = s 0 b i ^^^ ROR32 (s 1 b i) 5 ^^^ ROR32 (s 2 b i) 10 ^^^ ROR32 (s 3 b i) 15 := by
    show (0 : U32) ^^^ ROR32 (s 0 b i) 0 ^^^ _ ^^^ _ ^^^ _ = _
    rw [ROR32_0, show (0 : U32) ^^^ s 0 b i = s 0 b i from BitVec.zero_xor]
  rw [e]
  simp only [csnd, nsnd, seq_cons, seq_nil, eorRor, put]
  simp only [ha, hb, and_true, and_false, and_self, if_true, if_false]
  simp only [List.cons_append, List.nil_append, List.getElem?_cons_succ, List.getElem?_cons_zero]
  obtain ⟨r0, -, -, -, -, -, -, r1, -, -, r2, -, -, r3, -⟩ := rots
  simp only [show ¬ (0 : Nat) = 1 by decide, show ¬ (0 : Nat) = 2 by decide, show ¬ (0 : Nat) = 3 by decide, if_false, if_true]
  rw [r0, r1, r2, r3, ROR32_0]
  congr 1
  generalize ROR32 (s 1 b i) 5 = y, ROR32 (s 2 b i) 10 = z, ROR32 (s 3 b i) 15 = w, s 0 a i = x, s 0 b i = u, s 0 c i = v
  apply BitVec.eq_of_getLsbD_eq; intro j hj
  simp only [BitVec.getLsbD_xor, BitVec.getLsbD_and, BitVec.getLsbD_not, hj, decide_true, Bool.true_and]
  generalize x.getLsbD j = x, y.getLsbD j = y, z.getLsbD j = z, w.getLsbD j = w, u.getLsbD j = u, v.getLsbD j = v
  revert x y z w u v; decide +kernel

/-- The first round up to the first gate. -/
def pre4 (C : U32) : Op :=
  seq [xorConst 2 0 C, Probe.affine1 0 0, Probe.affine1 0 1, Probe.affine1 0 2, Probe.affine1 0 3]

/-- The state before the first gate. -/
theorem pre4_state (C : U32) (s : St) : (pre4 C s).1 0 5 0 = s 0 5 0 ∧ (pre4 C s).1 0 4 0 = s 0 4 0 ^^^ s 0 3 0 ∧
    ∀ d, d < 4 → (pre4 C s).1 d 3 0 = s d 3 0 := by
  have a : ∀ (d : Nat) (t : St) (e : Nat), (Probe.affine1 0 d t).1 e 5 0 = t e 5 0 ∧ (Probe.affine1 0 d t).1 e 3 0 = t e 3 0 ∧
      (Probe.affine1 0 d t).1 e 4 0 = if e = d then t d 4 0 ^^^ t d 3 0 else t e 4 0 := by
    intro d t e
    unfold Probe.affine1
    simp only [seq_cons, seq_nil, xorInto]
    by_cases h : e = d <;> simp [put, h]
  have c : ∀ t : St, ∀ e, ∀ k : Fin 6, k ≠ 2 → (xorConst 2 0 C t).1 e k 0 = t e k 0 := by
    intro t e k hk
    simp [xorConst, put, hk]
  unfold pre4
  simp only [seq_cons, seq_nil]
  refine ⟨?_, ?_, fun d _ => ?_⟩
  · rw [(a _ _ _).1, (a _ _ _).1, (a _ _ _).1, (a _ _ _).1, c _ _ _ (by decide)]
  · rw [(a _ _ _).2.2, if_neg (by decide), (a _ _ _).2.2, if_neg (by decide), (a _ _ _).2.2, if_neg (by decide), (a _ _ _).2.2,
      if_pos rfl, c _ _ _ (by decide), c _ _ _ (by decide)]
  · rw [(a _ _ _).2.1, (a _ _ _).2.1, (a _ _ _).2.1, (a _ _ _).2.1, c _ _ _ (by decide)]

theorem probe54 (nr : Nat) (s : St) :
    (Probe.perm 4 (nr + 1) s).2[54]? = some (s 0 5 0 ^^^ ((s 0 4 0 ^^^ s 0 3 0) &&& ~~~(val 4 s 3 0))) := by
  unfold Probe.perm
  rw [MaskedN.Probe.rounds_cons]
  generalize hCo : (constants.getD (2 * (12 - (nr + 1)) + 1) 0) = Co
  generalize hCe : (constants.getD (2 * (12 - (nr + 1))) 0) = Ce
  generalize rounds 4 (12 - (nr + 1) + 1) nr = rest
  generalize hC : (Ce.setWidth 32 : U32) = C
  have w1 : ∀ f, when (4 ≥ 1) f = f := fun _ => if_pos (by decide)
  have w2 : ∀ f, when (4 ≥ 2) f = f := fun _ => if_pos (by decide)
  have w3 : ∀ f, when (4 ≥ 3) f = f := fun _ => if_pos (by decide)
  have w4 : ∀ f, when (4 ≥ 4) f = f := fun _ => if_pos (by decide)
  have sc : ∀ (f : Op) (l : List Op), seq (f :: l) = f.then (seq l) := fun _ _ => by rw [seq]
  obtain ⟨tl, ht⟩ : ∃ tl : Op, (Probe.round 4 Co Ce).then rest = (pre4 C).then ((mxorbic 4 5 4 3 0).then tl) := by
    have e : ∃ q : Op, Probe.sbox 4 0 = (seq [Probe.affine1 0 0, Probe.affine1 0 1, Probe.affine1 0 2,
        Probe.affine1 0 3]).then ((mxorbic 4 5 4 3 0).then q) := by
      unfold Probe.sbox
      rw [w1, w2, w3, w4, w1]
      generalize mxorbic 4 5 4 3 0 = g1, mxorbic 4 4 1 0 0 = g2, mxorbic 4 1 3 2 0 = g3, mxorbic 4 3 0 4 0 = g4,
        mxorbic 4 0 2 1 0 = g5, Probe.affine1 0 0 = f1, Probe.affine1 0 1 = f2, Probe.affine1 0 2 = f3, Probe.affine1 0 3 = f4
      simp only [sc, then_assoc, nil_then, then_nil]
      exact ⟨_, rfl⟩
    obtain ⟨q, e⟩ := e
    have e' : pre4 C = (xorConst 2 0 C).then (seq [Probe.affine1 0 0, Probe.affine1 0 1, Probe.affine1 0 2, Probe.affine1 0 3]) := by
      unfold pre4
      rw [sc]
    have e2 : ∀ l, seq (xorConst 2 0 (Ce.setWidth 32) :: Probe.sbox 4 0 :: l) = (xorConst 2 0 C).then ((Probe.sbox 4 0).then (seq l)) := by
      intro l
      rw [sc, sc, hC]
    unfold Probe.round
    rw [e2, e', e]
    generalize seq [xorConst 2 1 (BitVec.setWidth 32 Co), Probe.sbox 4 1, reuse 4 5, when (4 ≥ 4) (Probe.linear 3),
      when (4 ≥ 3) (Probe.linear 2), when (4 ≥ 2) (Probe.linear 1), when (4 ≥ 1) (Probe.linear 0)] = u
    exact ⟨(q.then u).then rest, by simp only [then_assoc]⟩
  have cons : ∀ (f : Op) (l : List Op) (s : St), (seq (f :: l) s).2.length = (f s).2.length + (seq l (f s).1).2.length :=
    fun f l s => List.length_append
  have nil : ∀ s : St, (seq [] s).2.length = 0 := fun _ => rfl
  have h1 : ∀ d k k' i s, (xorInto d k k' i s).2.length = 1 := fun _ _ _ _ _ => rfl
  have h2 : ∀ k i C s, (xorConst k i C s).2.length = 1 := fun _ _ _ _ => rfl
  have h4 : ∀ g dc c da a db b i r s, (eorRor g dc c da a db b i r s).2.length = 3 := fun _ _ _ _ _ _ _ _ _ _ => rfl
  have hl : (pre4 C s).2.length = 13 := by simp only [pre4, Probe.affine1, cons, nil, h1, h2]
  have el : ∀ t, (mxorbic 4 5 4 3 0 t).2.length = 48 := by
    intro t
    simp only [mx4, mxorbic4, cons, nil, h4]
  have hs := pre4_state C s
  have hv : val 4 (pre4 C s).1 3 0 = val 4 s 3 0 := val_congr hs.2.2
  have hg := fun t => gate4_share0 (c := 5) (a := 4) (b := 3) (by decide) (by decide) 0 t
  rw [ht, then_snd, then_snd]
  clear ht
  generalize pre4 C s = p at hl hs hv ⊢
  have e1 := hg p.1
  have e2 := el p.1
  generalize (mxorbic 4 5 4 3 0 p.1) = q at e1 e2 ⊢
  rw [List.getElem?_append_right (by rw [hl]; decide), hl,
    List.getElem?_append_left (Nat.lt_of_lt_of_eq (by decide : 54 - 13 < 48) e2.symm)]
  refine e1.trans ?_
  rw [hs.1, hs.2.1, hv]

/-- Four shares: share 0 of the auxiliary word `x[5]` when the permutation is called, and the value number 54 (the same share after
the first gate), have a joint distribution that depends on the shared state. -/
theorem C74_four_shares_two_probes (nr : Nat) (h0 : 0 < nr) (R : St) : ∃ S S' : Val, ¬ SameDist
    (fun μ : Fin 3 → Val => (nShare R S μ 0 5 0, (Probe.perm 4 nr (nShare R S μ)).2[54]?))
    (fun μ => (nShare R S' μ 0 5 0, (Probe.perm 4 nr (nShare R S' μ)).2[54]?)) := by
  obtain ⟨nr, rfl⟩ : ∃ k, nr = k + 1 := ⟨nr - 1, by omega⟩
  have hp := fun s => probe54 nr s
  let S : Val := fun k _ => if k = 3 then ~~~0 else 0
  let S' : Val := fun k _ => if k = 4 then 1 else 0
  refine ⟨S, S', not_sameDist (fun v => v.2 = some v.1) (fun μ => ?_) (m := fun _ _ _ => 0) ?_⟩
  · show (Probe.perm 4 (nr + 1) (nShare R S μ)).2[54]? = some (nShare R S μ 0 5 0)
    rw [hp, (in_nShare (m := 3) (by omega) R S μ).1]
    show some (_ ^^^ (_ &&& ~~~(~~~(0 : U32)))) = _
    generalize nShare R S μ 0 5 0 = x, nShare R S μ 0 4 0 ^^^ nShare R S μ 0 3 0 = y
    rw [BitVec.not_not]
    congr 1
    rw [show y &&& (0 : U32) = 0 from BitVec.and_zero]
    exact BitVec.xor_zero
  · show ¬ (Probe.perm 4 (nr + 1) (nShare R S' fun _ _ _ => 0)).2[54]? = some (nShare R S' (fun _ _ _ => 0) 0 5 0)
    rw [hp, (in_nShare (m := 3) (by omega) R S' _).1]
    have hz : ∀ k : Fin 6, nShare (m := 3) R S' (fun _ _ _ => 0) 0 k 0 = if k = 4 then 1 else 0 := by
      intro k
      show (if k = 4 then (1 : U32) else 0) ^^^ ((0 : U32) ^^^ ROR32 0 0 ^^^ ROR32 0 5 ^^^ ROR32 0 10 ^^^ ROR32 0 15) = _
      revert k
      decide +kernel
    rw [hz, hz, hz]
    show ¬ some ((0 : U32) ^^^ ((1 ^^^ 0) &&& ~~~(0 : U32))) = some 0
    decide

end Ascon.Props
