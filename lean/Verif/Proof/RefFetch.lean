import Verif.C.Fetch
import Verif.Model.RefAead
import Verif.Model.RefHash
import Verif.Model.RefPrf
/-!
# The reference code reads and writes every byte once
-/

namespace Ascon.Ref

open Ascon.C

theorem acc_SETBYTE {b : Byte} {i : Nat} : Acc Any1 (SETBYTE b i) [] [] :=
  Acc.require.bind0 fun _ _ => .ret trivial

theorem acc_GETBYTE {x : Word} {i : Nat} : Acc Any1 (GETBYTE x i) [] [] :=
  Acc.require.bind0 fun _ _ => .ret trivial

theorem acc_PAD {i : Nat} : Acc Any1 (PAD i) [] [] := acc_SETBYTE

theorem acc_DSEP : Acc Any1 DSEP [] [] := acc_SETBYTE

theorem acc_LOADBYTES {p n : Nat} : Acc Any1 (LOADBYTES p n) (List.range' p n) [] := by
  unfold LOADBYTES
  have := Acc.forBlocks (At := fun _ _ => True) (q := n) (pr := p) (pw := 0) (Rr := 1) (Rw := 0)
    (body := fun i (x : Word) => do
      let b ← Prog.loadB (p + i)
      let y ← SETBYTE b i
      pure (x ||| y)) (s := 0) trivial (fun i s _ _ => by
        rw [Nat.mul_one]
        exact Acc.bind (r1 := [p + i]) (r2 := []) (w1 := []) (w2 := []) Acc.loadB fun _ _ =>
          acc_SETBYTE.bind0 fun _ _ => Acc.pure trivial)
  simpa using this.any

theorem acc_STOREBYTES {p n : Nat} {x : Word} : Acc Any1 (STOREBYTES p x n) [] (List.range' p n) := by
  unfold STOREBYTES
  have := Acc.forBlocks (At := fun _ _ => True) (q := n) (pr := 0) (pw := p) (Rr := 0) (Rw := 1)
    (body := fun i (_ : Unit) => do
      let b ← GETBYTE x i
      Prog.storeB (p + i) b) (s := ()) trivial (fun i s _ _ => by
        rw [Nat.mul_one]
        exact acc_GETBYTE.bind0 fun _ _ => Acc.storeB.mono fun _ _ => trivial)
  simpa using this.any

theorem acc_CLEARBYTES {n : Nat} {x : Word} : Acc Any1 (CLEARBYTES x n) [] [] := by
  unfold CLEARBYTES
  have := Acc.forBlocks (At := fun _ _ => True) (q := n) (pr := 0) (pw := 0) (Rr := 0) (Rw := 0)
    (body := fun i (x : Word) => do
      let y ← SETBYTE 0xff i
      pure (x &&& ~~~y)) (s := x) trivial (fun i s _ _ =>
        acc_SETBYTE.bind0 fun _ _ => Acc.pure trivial)
  simpa using this.any

/-- The rule for one statement of the reference code. -/
macro "acc_step" : tactic => `(tactic| first
  | exact acc_LOADBYTES | exact acc_STOREBYTES | exact acc_PAD | exact acc_DSEP | exact acc_CLEARBYTES
  | exact Acc.loadB | exact Acc.store64 | exact Acc.load64
  | exact .alloc (.ret trivial) | exact .free (.ret trivial))

/-- Straight-line code. -/
macro "acc_seq" : tactic => `(tactic|
  repeat (first
    | exact Acc.pure trivial
    | exact Acc.pure rfl
    | acc_step
    | (apply Acc.bind (R := Any1)
       focus acc_step
       intro _ _)))

/-- Tidy a list of addresses. -/
macro "acc_list" : tactic => `(tactic| (
  try simp only [List.append_nil, List.nil_append, List.append_assoc, List.range'_zero]
  try first
    | rfl
    | (refine range'_join ?_ ?_ <;> omega)))

theorem acc_initAead {npub k : Nat} :
    Acc Any1 (initAead npub k) (List.range' k 16 ++ List.range' npub 16) [] := by
  unfold initAead
  refine Acc.cast (by acc_seq) ?_ (by acc_list)
  rw [range'_split k 8 8, range'_split npub 8 8]
  acc_list

theorem acc_adLoop (s : State) (ad n : Nat) :
    Acc (fun r => r.2 = (ad + n / 16 * 16, n - n / 16 * 16)) (adLoop s ad n) (List.range' ad (n / 16 * 16)) [] := by
  unfold adLoop
  refine (Acc.blocks (At := fun i (r : State × Nat × Nat) => r.2 = (ad + i * 16, n - i * 16)) (q := n / 16) (pr := ad) (pw := 0) (Rr := 16)
    (Rw := 0) (by simp) ?_ ?_ (by omega)).cast rfl (by acc_list)
  · rintro i ⟨s, a, b⟩ hi h
    simp only [Prod.mk.injEq] at h
    obtain ⟨rfl, rfl⟩ := h
    simp only [decide_eq_decide]
    omega
  · rintro i ⟨s, a, b⟩ hi h
    simp only [Prod.mk.injEq] at h
    obtain ⟨rfl, rfl⟩ := h
    unfold adStep
    refine Acc.cast (Acc.bind (by acc_step) fun _ _ => Acc.bind (by acc_step) fun _ _ => Acc.pure ?_) ?_ (by acc_list)
    · simp only [Prod.mk.injEq]; omega
    · acc_list

theorem acc_absorbAd (s : State) (ad n : Nat) : Acc Any1 (absorbAd s ad n) (List.range' ad n) [] := by
  unfold absorbAd
  refine Acc.ifc (fun _ => ?_) (fun h => ?_)
  · refine Acc.bind' (acc_adLoop s ad n) (r2 := List.range' (ad + n / 16 * 16) (n - n / 16 * 16)) (w2 := []) ?_ ?_ rfl
    · rintro ⟨s, a, b⟩ h
      simp only [Prod.mk.injEq] at h
      obtain ⟨rfl, rfl⟩ := h
      refine Acc.then0 (R := Any1) (Acc.ifc (fun h => ?_) (fun h => ?_)) fun _ _ => Acc.pure trivial
      · have := of_decide_eq_true h
        refine Acc.cast (by acc_seq) ?_ (by acc_list)
        acc_list
      · refine Acc.cast (by acc_seq) ?_ (by acc_list)
        acc_list
    · exact (range'_join rfl (by omega)).symm
  · have : n = 0 := by simpa using h
    subst this
    exact Acc.pure trivial

theorem acc_encLoop (s : State) (c m n : Nat) :
    Acc (fun r => r.2 = (c + n / 16 * 16, m + n / 16 * 16, n - n / 16 * 16)) (encLoop s c m n)
      (List.range' m (n / 16 * 16)) (List.range' c (n / 16 * 16)) := by
  unfold encLoop
  refine Acc.blocks (At := fun i (r : State × Nat × Nat × Nat) => r.2 = (c + i * 16, m + i * 16, n - i * 16)) (q := n / 16) (pr := m) (pw := c)
    (Rr := 16) (Rw := 16) (by simp) ?_ ?_ (by omega)
  · rintro i ⟨s, a, b, d⟩ hi h
    simp only [Prod.mk.injEq] at h
    obtain ⟨rfl, rfl, rfl⟩ := h
    simp only [decide_eq_decide]
    omega
  · rintro i ⟨s, a, b, d⟩ hi h
    simp only [Prod.mk.injEq] at h
    obtain ⟨rfl, rfl, rfl⟩ := h
    unfold encStep
    refine Acc.cast (Acc.bind (by acc_step) fun _ _ => Acc.bind (by acc_step) fun _ _ =>
      Acc.bind (by acc_step) fun _ _ => Acc.bind (by acc_step) fun _ _ => Acc.pure ?_) ?_ ?_
    · simp only [Prod.mk.injEq]; omega
    · acc_list
    · acc_list

theorem acc_encFinal (s : State) (c m n : Nat) :
    Acc (fun r => r.2 = c + n) (encFinal s c m n) (List.range' m n) (List.range' c n) := by
  unfold encFinal
  refine Acc.then0 (R := Any1) (Acc.ifc (fun h => ?_) (fun h => ?_)) fun _ _ => Acc.pure rfl
  · have := of_decide_eq_true h
    refine Acc.cast (by acc_seq) ?_ ?_
    · acc_list
    · acc_list
  · refine Acc.cast (by acc_seq) ?_ ?_
    · acc_list
    · acc_list

theorem acc_encrypt (e : Endian) (sp c clen m mlen ad adlen nsec npub k : Nat) :
    Acc Any1 (crypto_aead_encrypt e sp c clen m mlen ad adlen nsec npub k)
      (List.range' k 16 ++ List.range' npub 16 ++ List.range' ad adlen ++ List.range' m mlen)
      (List.range' clen 8 ++ List.range' c (mlen + 16)) := by
  unfold crypto_aead_encrypt
  refine Acc.bind' (r1 := []) (w1 := List.range' clen 8) (w2 := List.range' c (mlen + 16)) (Acc.store64) (fun _ _ => ?_)
    (List.nil_append _).symm rfl
  rw [List.append_assoc]
  refine Acc.bind' (w1 := []) acc_initAead (fun _ _ => ?_) rfl (List.nil_append _).symm
  refine Acc.bind' (w1 := []) (acc_absorbAd _ ad adlen) (fun _ _ => ?_) rfl (List.nil_append _).symm
  refine Acc.bind0 acc_DSEP fun _ _ => ?_
  refine Acc.bind' (acc_encLoop _ c m mlen) (r2 := List.range' (m + mlen / 16 * 16) (mlen - mlen / 16 * 16))
    (w2 := List.range' (c + mlen / 16 * 16) (mlen - mlen / 16 * 16 + 16)) ?_ (range'_join rfl (by omega)).symm
    (range'_join rfl (by omega)).symm
  rintro ⟨s, a, b, d⟩ h
  simp only [Prod.mk.injEq] at h
  obtain ⟨rfl, rfl, rfl⟩ := h
  refine Acc.bind' (acc_encFinal _ _ _ _) (r2 := [])
    (w2 := List.range' (c + mlen / 16 * 16 + (mlen - mlen / 16 * 16)) 16) ?_ (by simp) (range'_join rfl rfl).symm
  rintro ⟨s, a⟩ h
  simp only at h
  subst h
  refine Acc.cast (by acc_seq) (by acc_list) (by acc_list)

theorem acc_decLoop (s : State) (c m n : Nat) :
    Acc (fun r => r.2 = (m + n / 16 * 16, c + n / 16 * 16, n - n / 16 * 16)) (decLoop s m c n)
      (List.range' c (n / 16 * 16)) (List.range' m (n / 16 * 16)) := by
  unfold decLoop
  refine Acc.blocks (At := fun i (r : State × Nat × Nat × Nat) => r.2 = (m + i * 16, c + i * 16, n - i * 16)) (q := n / 16) (pr := c) (pw := m)
    (Rr := 16) (Rw := 16) (by simp) ?_ ?_ (by omega)
  · rintro i ⟨s, a, b, d⟩ hi h
    simp only [Prod.mk.injEq] at h
    obtain ⟨rfl, rfl, rfl⟩ := h
    simp only [decide_eq_decide]
    omega
  · rintro i ⟨s, a, b, d⟩ hi h
    simp only [Prod.mk.injEq] at h
    obtain ⟨rfl, rfl, rfl⟩ := h
    unfold decStep
    refine Acc.cast (Acc.bind (by acc_step) fun _ _ => Acc.bind (by acc_step) fun _ _ =>
      Acc.bind (by acc_step) fun _ _ => Acc.bind (by acc_step) fun _ _ => Acc.pure ?_) ?_ ?_
    · simp only [Prod.mk.injEq]; omega
    · acc_list
    · acc_list

theorem acc_decFinal (s : State) (m c n : Nat) :
    Acc (fun r => r.2 = c + n) (decFinal s m c n) (List.range' c n) (List.range' m n) := by
  unfold decFinal
  refine Acc.then0 (R := Any1) (Acc.ifc (fun h => ?_) (fun h => ?_)) fun _ _ => Acc.pure rfl
  · have := of_decide_eq_true h
    refine Acc.cast (by acc_seq) ?_ ?_
    · acc_list
    · acc_list
  · refine Acc.cast (by acc_seq) ?_ ?_
    · acc_list
    · acc_list

/-- `p, q, p + 1, q + 1, …` -/
def zipped (p q : Nat) : Nat → List Nat
  | 0 => []
  | n + 1 => p :: q :: zipped (p + 1) (q + 1) n

theorem outside_zipped {p q sp k : Nat} (n : Nat) (h1 : Disjoint sp k p n) (h2 : sp ≤ q) (h3 : q + n ≤ sp + k) :
    outside sp k (zipped p q n) = List.range' p n := by
  induction n generalizing p q with
  | zero => rfl
  | succ n ih =>
    have ih' := ih (p := p + 1) (q := q + 1) (by unfold Disjoint at *; omega) (by omega) (by omega)
    rw [zipped]
    unfold outside at ih' ⊢
    unfold Disjoint at h1
    rw [List.filter_cons_of_pos (by simp; omega), List.filter_cons_of_neg (by simp; omega), ih', List.range'_succ]

theorem acc_zipped {σ : Type} {p q n : Nat} {body : Nat → σ → Prog σ}
    (hb : ∀ i s, Acc Any1 (body i s) [p + i, q + i] []) (s : σ) :
    Acc Any1 (Prog.forUp body n 0 s) (zipped p q n) [] := by
  have := Acc.forUp (At := fun _ _ => True) (rf := fun i => zipped (p + i) (q + i) (n - i)) (wf := fun _ => [])
    (body := body) (q := n) (fun i s hi _ => ⟨_, _, (hb i s), by
      rw [show n - i = (n - (i + 1)) + 1 by omega]; rfl, rfl⟩) (by simp [zipped]) rfl n 0 s (by omega) trivial
  simpa using this.any

theorem acc_verifyTag (c t : Nat) : Acc Any1 (verifyTag c t) (zipped c t 16) [] := by
  unfold verifyTag
  refine Acc.then0 (acc_zipped (fun i s => ?_) _) fun _ _ => Acc.pure trivial
  exact Acc.bind (r1 := [c + i]) (r2 := [t + i]) (w1 := []) (w2 := []) Acc.loadB fun _ _ =>
    Acc.loadB.then0 fun _ _ => Acc.pure trivial

theorem acc_decrypt (e : Endian) (sp m mlen nsec c clen ad adlen npub k : Nat) (hc : 16 ≤ clen) :
    Acc Any1 (crypto_aead_decrypt e sp m mlen nsec c clen ad adlen npub k)
      (List.range' k 16 ++ (List.range' npub 16 ++ (List.range' ad adlen ++
        (List.range' c (clen - 16) ++ zipped (c + (clen - 16)) sp 16))))
      (List.range' mlen 8 ++ (List.range' m (clen - 16) ++ List.range' sp 16)) := by
  unfold crypto_aead_decrypt
  refine Acc.ifc (fun h => ?_) (fun _ => ?_)
  · have := of_decide_eq_true h; omega
  refine Acc.bind' (r1 := []) (Acc.store64) (fun _ _ => ?_) (List.nil_append _).symm rfl
  rw [← List.append_assoc]
  refine Acc.bind' (w1 := []) acc_initAead (fun _ _ => ?_) rfl (List.nil_append _).symm
  refine Acc.bind' (w1 := []) (acc_absorbAd _ ad adlen) (fun _ _ => ?_) rfl (List.nil_append _).symm
  refine Acc.bind0 acc_DSEP fun _ _ => ?_
  generalize clen - 16 = n
  refine Acc.bind' (acc_decLoop _ c m n)
    (r2 := List.range' (c + n / 16 * 16) (n - n / 16 * 16) ++ zipped (c + n) sp 16)
    (w2 := List.range' (m + n / 16 * 16) (n - n / 16 * 16) ++ List.range' sp 16) ?_ ?_ ?_
  · rintro ⟨s, a, b, d⟩ h
    simp only [Prod.mk.injEq] at h
    obtain ⟨rfl, rfl, rfl⟩ := h
    refine Acc.bind (acc_decFinal _ _ _ _) ?_
    rintro ⟨s, a⟩ h
    simp only at h
    subst h
    refine Acc.bind0 (R := Any1) (.alloc (.ret trivial)) fun _ _ => ?_
    refine Acc.bind' (r1 := []) (by acc_step) (fun _ _ => ?_) (List.nil_append _).symm (range'_split sp 8 8)
    refine Acc.bind' (r1 := []) (w2 := []) (by acc_step) (fun _ _ => ?_) (List.nil_append _).symm (List.append_nil _).symm
    rw [show c + n / 16 * 16 + (n - n / 16 * 16) = c + n by omega]
    refine Acc.then0 (acc_verifyTag _ _) fun _ _ => ?_
    refine Acc.cast (by acc_seq) rfl rfl
  · rw [← List.append_assoc, range'_join (k := n) rfl (by omega)]
  · rw [← List.append_assoc, range'_join (k := n) rfl (by omega)]

/-! ## Hash -/

theorem acc_hashAbsorb (s : State) (p n : Nat) : Acc Any1 (hashAbsorb s p n) (List.range' p n) [] := by
  unfold hashAbsorb
  refine Acc.bind' (R := fun r => r.2 = (p + n / 8 * 8, n - n / 8 * 8)) (r1 := List.range' p (n / 8 * 8)) (w1 := [])
    (w2 := []) (r2 := List.range' (p + n / 8 * 8) (n - n / 8 * 8)) ?_ ?_ (range'_join rfl (by omega)).symm rfl
  · refine (Acc.blocks (At := fun i (r : State × Nat × Nat) => r.2 = (p + i * 8, n - i * 8)) (q := n / 8) (pr := p) (pw := 0) (Rr := 8)
      (Rw := 0) (by simp) ?_ ?_ (by omega)).cast rfl (by acc_list)
    · rintro i ⟨s, a, b⟩ hi h
      simp only [Prod.mk.injEq] at h
      obtain ⟨rfl, rfl⟩ := h
      simp only [decide_eq_decide]
      omega
    · rintro i ⟨s, a, b⟩ hi h
      simp only [Prod.mk.injEq] at h
      obtain ⟨rfl, rfl⟩ := h
      unfold hashAbsorbStep
      refine Acc.cast (Acc.bind (by acc_step) fun _ _ => Acc.pure ?_) (by acc_list) (by acc_list)
      simp only [Prod.mk.injEq]; omega
  · rintro ⟨s, a, b⟩ h
    simp only [Prod.mk.injEq] at h
    obtain ⟨rfl, rfl⟩ := h
    refine Acc.cast (by acc_seq) (by acc_list) (by acc_list)

theorem acc_hashSqueeze (s : State) (p n : Nat) : Acc Any1 (hashSqueeze s p n) [] (List.range' p n) := by
  unfold hashSqueeze
  refine Acc.bind' (R := fun r => r.2 = (p + (n - 1) / 8 * 8, n - (n - 1) / 8 * 8)) (r1 := []) (r2 := [])
    (w1 := List.range' p ((n - 1) / 8 * 8))
    (w2 := List.range' (p + (n - 1) / 8 * 8) (n - (n - 1) / 8 * 8)) ?_ ?_ rfl (range'_join rfl (by omega)).symm
  · refine (Acc.blocks (At := fun i (r : State × Nat × Nat) => r.2 = (p + i * 8, n - i * 8)) (q := (n - 1) / 8) (pr := 0) (pw := p) (Rr := 0)
      (Rw := 8) (by simp) ?_ ?_ (by omega)).cast (by acc_list) rfl
    · rintro i ⟨s, a, b⟩ hi h
      simp only [Prod.mk.injEq] at h
      obtain ⟨rfl, rfl⟩ := h
      simp only [decide_eq_decide]
      omega
    · rintro i ⟨s, a, b⟩ hi h
      simp only [Prod.mk.injEq] at h
      obtain ⟨rfl, rfl⟩ := h
      unfold hashSqueezeStep
      refine Acc.cast (Acc.bind (by acc_step) fun _ _ => Acc.pure ?_) (by acc_list) (by acc_list)
      simp only [Prod.mk.injEq]; omega
  · rintro ⟨s, a, b⟩ h
    simp only [Prod.mk.injEq] at h
    obtain ⟨rfl, rfl⟩ := h
    exact acc_STOREBYTES

theorem acc_crypto_hash (iv : Word) (n : Nat) (e : Endian) (sp out inp len : Nat) :
    Acc Any1 (crypto_hash_with iv n e sp out inp len) (List.range' inp len) (List.range' out n) := by
  unfold crypto_hash_with
  refine Acc.bind' (acc_hashAbsorb _ _ _) (fun _ _ => ?_) (List.append_nil _).symm (List.nil_append _).symm
  exact (acc_hashSqueeze _ _ _).then0 fun _ _ => Acc.pure trivial

theorem acc_cxof (e : Endian) (sp out outlen inp inlen cs cslen : Nat) :
    Acc Any1 (crypto_cxof e sp out outlen inp inlen cs cslen) (List.range' cs cslen ++ List.range' inp inlen)
      (List.range' out outlen) := by
  unfold crypto_cxof
  refine Acc.bind' (acc_hashAbsorb _ _ _) (fun _ _ => ?_) rfl (List.nil_append _).symm
  refine Acc.bind' (acc_hashAbsorb _ _ _) (fun _ _ => ?_) (List.append_nil _).symm (List.nil_append _).symm
  exact (acc_hashSqueeze _ _ _).then0 fun _ _ => Acc.pure trivial

/-! ## MAC and PRF -/

theorem acc_getX (s : State) (i : Nat) : Acc Any1 (getX s i) [] [] := by
  unfold getX; split <;> first | exact .ret trivial | exact .ub

theorem acc_xorX (s : State) (i : Nat) (w : Word) : Acc Any1 (xorX s i w) [] [] := by
  unfold xorX; split <;> first | exact .ret trivial | exact .ub

theorem acc_prfAbsorb (s : State) (p n : Nat) : Acc Any1 (prfAbsorb s p n) (List.range' p n) [] := by
  unfold prfAbsorb
  refine Acc.bind' (R := fun r => r.2.2 = (p + n / 8 * 8, n - n / 8 * 8)) (r1 := List.range' p (n / 8 * 8)) (w1 := [])
    (w2 := []) (r2 := List.range' (p + n / 8 * 8) (n - n / 8 * 8)) ?_ ?_ (range'_join rfl (by omega)).symm rfl
  · refine (Acc.blocks (At := fun i (r : State × Nat × Nat × Nat) => r.2.2 = (p + i * 8, n - i * 8)) (q := n / 8) (pr := p) (pw := 0) (Rr := 8)
      (Rw := 0) (by simp) ?_ ?_ (by omega)).cast rfl (by acc_list)
    · rintro i ⟨s, j, a, b⟩ hi h
      simp only [Prod.mk.injEq] at h
      obtain ⟨rfl, rfl⟩ := h
      simp only [decide_eq_decide]
      omega
    · rintro i ⟨s, j, a, b⟩ hi h
      simp only [Prod.mk.injEq] at h
      obtain ⟨rfl, rfl⟩ := h
      unfold prfAbsorbStep
      refine Acc.then0 acc_LOADBYTES fun _ _ => (acc_xorX _ _ _).bind0 fun _ _ => ?_
      refine Acc.bind0 (R := Any1) (Acc.ifc (fun _ => Acc.pure trivial) (fun _ => Acc.pure trivial)) fun _ _ => ?_
      refine Acc.bind0 (R := Any1) (Acc.ifc (fun _ => Acc.pure trivial) (fun _ => Acc.pure trivial)) fun _ _ => ?_
      refine Acc.pure ?_
      simp only [Prod.mk.injEq]; omega
  · rintro ⟨s, j, a, b⟩ h
    simp only [Prod.mk.injEq] at h
    obtain ⟨rfl, rfl⟩ := h
    refine Acc.then0 acc_LOADBYTES fun _ _ => (acc_xorX _ _ _).bind0 fun _ _ => acc_PAD.bind0 fun _ _ =>
      (acc_xorX _ _ _).bind0 fun _ _ => acc_DSEP.bind0 fun _ _ => Acc.pure trivial

theorem acc_prfSqueeze (s : State) (p n : Nat) : Acc Any1 (prfSqueeze s p n) [] (List.range' p n) := by
  unfold prfSqueeze
  refine Acc.bind' (R := fun r => r.2.2 = (p + (n - 1) / 8 * 8, n - (n - 1) / 8 * 8)) (r1 := []) (r2 := [])
    (w1 := List.range' p ((n - 1) / 8 * 8))
    (w2 := List.range' (p + (n - 1) / 8 * 8) (n - (n - 1) / 8 * 8)) ?_ ?_ rfl (range'_join rfl (by omega)).symm
  · refine (Acc.blocks (At := fun i (r : State × Nat × Nat × Nat) => r.2.2 = (p + i * 8, n - i * 8)) (q := (n - 1) / 8) (pr := 0) (pw := p) (Rr := 0)
      (Rw := 8) (by simp) ?_ ?_ (by omega)).cast (by acc_list) rfl
    · rintro i ⟨s, j, a, b⟩ hi h
      simp only [Prod.mk.injEq] at h
      obtain ⟨rfl, rfl⟩ := h
      simp only [decide_eq_decide]
      omega
    · rintro i ⟨s, j, a, b⟩ hi h
      simp only [Prod.mk.injEq] at h
      obtain ⟨rfl, rfl⟩ := h
      unfold prfSqueezeStep
      refine (acc_getX _ _).bind0 fun _ _ => Acc.then0 acc_STOREBYTES fun _ _ => ?_
      refine Acc.bind0 (R := Any1) (Acc.ifc (fun _ => Acc.pure trivial) (fun _ => Acc.pure trivial)) fun _ _ => ?_
      refine Acc.bind0 (R := Any1) (Acc.ifc (fun _ => Acc.pure trivial) (fun _ => Acc.pure trivial)) fun _ _ => ?_
      refine Acc.pure ?_
      simp only [Prod.mk.injEq]; omega
  · rintro ⟨s, j, a, b⟩ h
    simp only [Prod.mk.injEq] at h
    obtain ⟨rfl, rfl⟩ := h
    exact (acc_getX _ _).bind0 fun _ _ => acc_STOREBYTES

theorem acc_crypto_prf (iv : Word) (n : Nat) (e : Endian) (sp out outlen inp inlen k : Nat) (hn : n ≠ 0 → outlen ≤ n) :
    Acc Any1 (crypto_prf_with iv n e sp out outlen inp inlen k) (List.range' k 16 ++ List.range' inp inlen)
      (List.range' out outlen) := by
  unfold crypto_prf_with
  refine Acc.ifc (fun h => ?_) (fun _ => ?_)
  · have := of_decide_eq_true h; omega
  rw [range'_split k 8 8, List.append_assoc]
  refine Acc.bind' acc_LOADBYTES (fun _ _ => ?_) rfl (List.nil_append _).symm
  refine Acc.bind' acc_LOADBYTES (fun _ _ => ?_) rfl (List.nil_append _).symm
  refine Acc.bind' (acc_prfAbsorb _ _ _) (fun _ _ => ?_) (List.append_nil _).symm (List.nil_append _).symm
  exact (acc_prfSqueeze _ _ _).then0 fun _ _ => Acc.pure trivial

theorem acc_tagDiff (n h t : Nat) : Acc Any1 (tagDiff n h t) (zipped h t n) [] := by
  unfold tagDiff
  refine Acc.then0 (acc_zipped (fun i s => ?_) _) fun _ _ => Acc.pure trivial
  exact Acc.bind (r1 := [h + i]) (r2 := [t + i]) (w1 := []) (w2 := []) Acc.loadB fun _ _ =>
    Acc.loadB.then0 fun _ _ => Acc.pure trivial

theorem acc_auth_verify (iv : Word) (n : Nat) (e : Endian) (sp h inp len k : Nat) :
    Acc Any1 (crypto_auth_verify_with iv n e sp h inp len k)
      (List.range' k 16 ++ List.range' inp len ++ zipped h sp n) (List.range' sp n) := by
  unfold crypto_auth_verify_with
  refine Acc.bind0 (R := Any1) (.alloc (.ret trivial)) fun _ _ => ?_
  refine Acc.bind' (acc_crypto_prf _ _ _ _ _ _ _ _ _ (by omega)) (fun _ _ => ?_) rfl (List.append_nil _).symm
  refine Acc.then0 (acc_tagDiff _ _ _) fun _ _ => Acc.bind0 (R := Any1) (.free (.ret trivial)) fun _ _ => Acc.pure trivial

theorem acc_prfs_crypto_prf (e : Endian) (sp out outlen inp inlen k : Nat) (hi : inlen ≤ 16) (ho : outlen ≤ 16) :
    Acc Any1 (prfs_crypto_prf e sp out outlen inp inlen k) (List.range' k 16 ++ List.range' inp inlen)
      (List.range' out outlen) := by
  unfold prfs_crypto_prf
  refine Acc.ifc (fun h => ?_) (fun _ => ?_)
  · have := of_decide_eq_true h; omega
  rw [range'_split k 8 8, List.append_assoc]
  refine Acc.bind' acc_LOADBYTES (fun _ _ => ?_) rfl (List.nil_append _).symm
  refine Acc.bind' acc_LOADBYTES (fun _ _ => ?_) rfl (List.nil_append _).symm
  refine Acc.bind' (R := Any1) (r1 := List.range' inp inlen) (w1 := []) ?_ (fun _ _ => ?_) (List.append_nil _).symm
    (List.nil_append _).symm
  · refine Acc.ifc (fun h => ?_) (fun h => ?_)
    · have := of_decide_eq_true h
      refine Acc.cast (by acc_seq) ?_ (by acc_list)
      acc_list
    · refine Acc.ifc (fun h => ?_) (fun h => ?_)
      · refine Acc.cast (by acc_seq) (by acc_list) (by acc_list)
      · have : inlen = 0 := by simpa using h
        subst this
        exact Acc.pure trivial
  · refine Acc.then0 (R := Any1) (Acc.ifc (fun h => ?_) (fun h => ?_)) fun _ _ => Acc.pure trivial
    · have := of_decide_eq_true h
      refine Acc.cast (by acc_seq) (by acc_list) ?_
      acc_list
    · refine Acc.ifc (fun h => ?_) (fun h => ?_)
      · exact acc_STOREBYTES
      · have : outlen = 0 := by simpa using h
        subst this
        exact Acc.pure trivial

theorem acc_prfs_auth_verify (e : Endian) (sp h inp len k : Nat) (hl : len ≤ 16) :
    Acc Any1 (prfs_crypto_auth_verify e sp h inp len k)
      (List.range' k 16 ++ List.range' inp len ++ zipped h sp 16) (List.range' sp 16) := by
  unfold prfs_crypto_auth_verify
  refine Acc.ifc (fun h => ?_) (fun _ => ?_)
  · have := of_decide_eq_true h; omega
  refine Acc.bind0 (R := Any1) (.alloc (.ret trivial)) fun _ _ => ?_
  refine Acc.bind' (acc_prfs_crypto_prf _ _ _ _ _ _ _ hl (by omega)) (fun _ _ => ?_) rfl (List.append_nil _).symm
  refine Acc.then0 (acc_tagDiff _ _ _) fun _ _ => Acc.bind0 (R := Any1) (.free (.ret trivial)) fun _ _ => Acc.pure trivial

end Ascon.Ref
