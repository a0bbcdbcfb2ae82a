import Verif.Proof.RefFetch
import Verif.Proof.Opt8CT
import Verif.Proof.Opt8Perm
/-!
# The byte-oriented code reads and writes every byte once
-/

namespace Ascon.Opt8

open Ascon.C
open Ascon.Ref (acc_tagDiff zipped)

variable {V : Perms} {e : Endian}

/-- The permutation does not access memory. -/
structure Perms.Silent (V : Perms) (e : Endian) : Prop where
  p12 : ∀ s, Acc Any1 (V.P12 e s) [] []
  p8 : ∀ s, Acc Any1 (V.P8 e s) [] []

theorem Perms.Silent.of (h : V.Ok) : V.Silent .little where
  p12 s := Acc.of_silent _ fun mem => ⟨_, h.p12 s mem⟩
  p8 s := Acc.of_silent _ fun mem => ⟨_, h.p8 s mem⟩

theorem acc_getB {s : State} {p : Nat} : Acc Any1 (getB e s p) [] [] :=
  Acc.require.bind0 fun _ _ => Acc.pure trivial

theorem acc_setB {s : State} {p : Nat} {b : Byte} : Acc Any1 (setB e s p b) [] [] :=
  Acc.require.bind0 fun _ _ => Acc.pure trivial

theorem acc_xorB {s : State} {p : Nat} {b : Byte} : Acc Any1 (xorB e s p b) [] [] :=
  acc_getB.bind0 fun _ _ => acc_setB

theorem acc_memxor {s key : State} {dst src n : Nat} : Acc Any1 (memxor e s key dst src n) [] [] := by
  unfold memxor
  refine Acc.then0 ((Acc.blocks (At := fun i (r : State × Nat × Nat × Nat) => r.2.2.2 = n - i) (q := n) (pr := 0) (pw := 0)
    (Rr := 0) (Rw := 0) rfl ?_ ?_ (by omega)).cast (by simp) (by simp)) fun _ _ => Acc.pure trivial
  · rintro i ⟨s, a, b, d⟩ hi h
    simp only at h
    subst h
    simp only [decide_eq_decide]; omega
  · rintro i ⟨s, a, b, d⟩ hi h
    simp only at h
    subst h
    refine acc_getB.bind0 fun _ _ => acc_xorB.bind0 fun _ _ => Acc.pure ?_
    simp only; omega

theorem acc_INSERT {s : State} {p d n : Nat} : Acc Any1 (INSERT e s p d n) (List.range' d n) [] := by
  unfold INSERT
  refine Acc.then0 ((Acc.blocks (At := fun i (r : State × Nat × Nat × Nat) => r.2.2 = (d + i, n - i)) (q := n) (pr := d)
    (pw := 0) (Rr := 1) (Rw := 0) rfl ?_ ?_ (by omega)).cast (by simp) (by simp)) fun _ _ => Acc.pure trivial
  · rintro i ⟨s, a, b, d⟩ hi h
    simp only [Prod.mk.injEq] at h
    obtain ⟨rfl, rfl⟩ := h
    simp only [decide_eq_decide]; omega
  · rintro i ⟨s, a, b, d⟩ hi h
    simp only [Prod.mk.injEq] at h
    obtain ⟨rfl, rfl⟩ := h
    rw [Nat.mul_one]
    refine Acc.then0 (Acc.loadB) fun _ _ => acc_setB.bind0 fun _ _ => Acc.pure ?_
    simp only [Prod.mk.injEq]; omega

theorem acc_ABSORB {s : State} {p d n : Nat} : Acc Any1 (ABSORB e s p d n) (List.range' d n) [] := by
  unfold ABSORB
  refine Acc.then0 ((Acc.blocks (At := fun i (r : State × Nat × Nat × Nat) => r.2.2 = (d + i, n - i)) (q := n) (pr := d)
    (pw := 0) (Rr := 1) (Rw := 0) rfl ?_ ?_ (by omega)).cast (by simp) (by simp)) fun _ _ => Acc.pure trivial
  · rintro i ⟨s, a, b, d⟩ hi h
    simp only [Prod.mk.injEq] at h
    obtain ⟨rfl, rfl⟩ := h
    simp only [decide_eq_decide]; omega
  · rintro i ⟨s, a, b, d⟩ hi h
    simp only [Prod.mk.injEq] at h
    obtain ⟨rfl, rfl⟩ := h
    rw [Nat.mul_one]
    refine Acc.then0 (Acc.loadB) fun _ _ => acc_xorB.bind0 fun _ _ => Acc.pure ?_
    simp only [Prod.mk.injEq]; omega

theorem acc_SQUEEZE {s : State} {p d n : Nat} : Acc Any1 (SQUEEZE e d s p n) [] (List.range' d n) := by
  unfold SQUEEZE
  refine Acc.then0 ((Acc.blocks (At := fun i (r : Nat × Nat × Nat) => r.1 = d + i ∧ r.2.2 = n - i) (q := n) (pr := 0)
    (pw := d) (Rr := 0) (Rw := 1) ⟨rfl, rfl⟩ ?_ ?_ (by omega)).cast (by simp) (by simp)) fun _ _ => Acc.pure trivial
  · rintro i ⟨a, b, d⟩ hi h
    simp only at h
    obtain ⟨rfl, rfl⟩ := h
    simp only [decide_eq_decide]; omega
  · rintro i ⟨a, b, d⟩ hi h
    simp only at h
    obtain ⟨rfl, rfl⟩ := h
    rw [Nat.mul_one]
    refine acc_getB.bind0 fun _ _ => Acc.then0 (Acc.storeB) fun _ _ => Acc.pure ?_
    simp only; omega

theorem acc_ENCRYPT {s : State} {p c m n : Nat} :
    Acc Any1 (ENCRYPT e s p c m n) (List.range' m n) (List.range' c n) := by
  unfold ENCRYPT
  refine Acc.then0 ((Acc.blocks (At := fun i (r : State × Nat × Nat × Nat × Nat) => r.2.2 = (c + i, m + i, n - i)) (q := n)
    (pr := m) (pw := c) (Rr := 1) (Rw := 1) rfl ?_ ?_ (by omega)).cast (by simp) (by simp)) fun _ _ => Acc.pure trivial
  · rintro i ⟨s, a, b, d, k⟩ hi h
    simp only [Prod.mk.injEq] at h
    obtain ⟨rfl, rfl, rfl⟩ := h
    simp only [decide_eq_decide]; omega
  · rintro i ⟨s, a, b, d, k⟩ hi h
    simp only [Prod.mk.injEq] at h
    obtain ⟨rfl, rfl, rfl⟩ := h
    rw [Nat.mul_one]
    refine Acc.bind (r1 := [m + i]) (r2 := []) (w1 := []) (w2 := [c + i]) Acc.loadB fun _ _ => acc_xorB.bind0 fun _ _ =>
      acc_getB.bind0 fun _ _ => Acc.then0 Acc.storeB fun _ _ => Acc.pure ?_
    simp only [Prod.mk.injEq]; omega

theorem acc_DECRYPT {s : State} {p c m n : Nat} :
    Acc Any1 (DECRYPT e s p m c n) (List.range' c n) (List.range' m n) := by
  unfold DECRYPT
  refine Acc.then0 ((Acc.blocks (At := fun i (r : State × Nat × Nat × Nat × Nat) => r.2.2 = (m + i, c + i, n - i)) (q := n)
    (pr := c) (pw := m) (Rr := 1) (Rw := 1) rfl ?_ ?_ (by omega)).cast (by simp) (by simp)) fun _ _ => Acc.pure trivial
  · rintro i ⟨s, a, b, d, k⟩ hi h
    simp only [Prod.mk.injEq] at h
    obtain ⟨rfl, rfl, rfl⟩ := h
    simp only [decide_eq_decide]; omega
  · rintro i ⟨s, a, b, d, k⟩ hi h
    simp only [Prod.mk.injEq] at h
    obtain ⟨rfl, rfl, rfl⟩ := h
    rw [Nat.mul_one]
    refine Acc.bind (r1 := [c + i]) (r2 := []) (w1 := []) (w2 := [m + i]) Acc.loadB fun _ _ =>
      acc_getB.bind0 fun _ _ => Acc.then0 Acc.storeB fun _ _ => acc_setB.bind0 fun _ _ => Acc.pure ?_
    simp only [Prod.mk.injEq]; omega

theorem acc_VERIFY {s : State} {p d n : Nat} : Acc Any1 (VERIFY e s p d n) (List.range' d n) [] := by
  unfold VERIFY
  refine Acc.then0 ((Acc.blocks (At := fun i (r : Byte × Nat × Nat × Nat) => r.2.2 = (d + i, n - i)) (q := n) (pr := d)
    (pw := 0) (Rr := 1) (Rw := 0) rfl ?_ ?_ (by omega)).cast (by simp) (by simp)) fun _ _ => Acc.pure trivial
  · rintro i ⟨s, a, b, d⟩ hi h
    simp only [Prod.mk.injEq] at h
    obtain ⟨rfl, rfl⟩ := h
    simp only [decide_eq_decide]; omega
  · rintro i ⟨s, a, b, d⟩ hi h
    simp only [Prod.mk.injEq] at h
    obtain ⟨rfl, rfl⟩ := h
    rw [Nat.mul_one]
    refine acc_getB.bind0 fun _ _ => Acc.then0 (Acc.loadB) fun _ _ => Acc.pure ?_
    simp only [Prod.mk.injEq]; omega

/-- The rule for one statement. -/
macro "oacc_step" : tactic => `(tactic| first
  | exact acc_INSERT | exact acc_ABSORB | exact acc_SQUEEZE | exact acc_ENCRYPT | exact acc_DECRYPT | exact acc_VERIFY
  | exact acc_memxor | exact acc_xorB
  | exact Perms.Silent.p12 (by assumption) _ | exact Perms.Silent.p8 (by assumption) _
  | exact Acc.store64 | exact Acc.load64
  | exact .alloc (.ret trivial) | exact .free (.ret trivial))

/-- Straight-line code. -/
macro "oacc_seq" : tactic => `(tactic|
  repeat (first
    | exact Acc.pure trivial
    | exact Acc.pure rfl
    | oacc_step
    | (apply Acc.bind (R := Any1)
       focus oacc_step
       intro _ _)))

/-- Tidy a list of addresses. -/
macro "oacc_list" : tactic => `(tactic| (
  try simp only [List.append_nil, List.nil_append, List.append_assoc, List.range'_zero]
  try first
    | rfl
    | (refine range'_join ?_ ?_ <;> omega)))

theorem acc_loadkey (k : Nat) : Acc Any1 (ascon_loadkey e k) (List.range' k 16) [] := by
  unfold ascon_loadkey
  refine Acc.cast (by oacc_seq) ?_ (by oacc_list)
  oacc_list

theorem acc_initaead (h : V.Silent e) (key : State) (n : Nat) :
    Acc Any1 (ascon_initaead V e key n) (List.range' n 16) [] := by
  unfold ascon_initaead
  refine Acc.cast (by oacc_seq) ?_ (by oacc_list)
  oacc_list

theorem acc_adFinal (s : State) (p n : Nat) : Acc Any1 (adFinal e s p n) (List.range' p n) [] := by
  unfold adFinal
  let m := if n ≥ 8 then 8 else 0
  have hm : m = 8 ∧ n ≥ 8 ∨ m = 0 ∧ n < 8 := by simp only [m]; split <;> omega
  refine Acc.bind' (R := fun r => r.2.2 = (p + m, n - m)) (r1 := List.range' p m)
    (r2 := List.range' (p + m) (n - m)) (w1 := []) (w2 := []) ?_ ?_ (range'_join rfl (by omega)).symm rfl
  · refine Acc.ifc (fun h => ?_) (fun h => ?_)
    · have := of_decide_eq_true h
      have : m = 8 := by omega
      rw [this]
      exact Acc.then0 acc_ABSORB fun _ _ => Acc.pure rfl
    · have := of_decide_eq_false h
      have : m = 0 := by omega
      rw [this]
      exact Acc.pure rfl
  · rintro ⟨s, px, a, b⟩ h'
    simp only [Prod.mk.injEq] at h'
    obtain ⟨rfl, rfl⟩ := h'
    exact Acc.then0 acc_ABSORB fun _ _ => acc_xorB

theorem acc_adata (h : V.Silent e) (s : State) (p n : Nat) : Acc Any1 (ascon_adata V e s p n) (List.range' p n) [] := by
  unfold ascon_adata
  refine Acc.then0 (R := Any1) (Acc.ifc (fun _ => ?_) (fun h => ?_)) fun _ _ => acc_xorB
  · refine Acc.bind' (R := fun r => r.2 = (p + n / 16 * 16, n - n / 16 * 16)) (r1 := List.range' p (n / 16 * 16)) (w1 := [])
      (r2 := List.range' (p + n / 16 * 16) (n - n / 16 * 16)) (w2 := []) ?_ ?_ (range'_join rfl (by omega)).symm rfl
    · refine (Acc.blocks (At := fun i (r : State × Nat × Nat) => r.2 = (p + i * 16, n - i * 16)) (q := n / 16) (pr := p)
        (pw := 0) (Rr := 16) (Rw := 0) (by simp) ?_ ?_ (by omega)).cast rfl (by oacc_list)
      · rintro i ⟨s, a, b⟩ hi h
        simp only [Prod.mk.injEq] at h
        obtain ⟨rfl, rfl⟩ := h
        simp only [decide_eq_decide]
        omega
      · rintro i ⟨s, a, b⟩ hi h'
        simp only [Prod.mk.injEq] at h'
        obtain ⟨rfl, rfl⟩ := h'
        unfold adStep
        refine Acc.cast (Acc.bind (by oacc_step) fun _ _ => Acc.bind (by oacc_step) fun _ _ =>
          Acc.bind (by oacc_step) fun _ _ => Acc.pure ?_) ?_ (by oacc_list)
        · simp only [Prod.mk.injEq]; omega
        · oacc_list
    · rintro ⟨s, a, b⟩ h'
      simp only [Prod.mk.injEq] at h'
      obtain ⟨rfl, rfl⟩ := h'
      exact Acc.then0 (acc_adFinal _ _ _) fun _ _ => h.p8 _
  · have : n = 0 := by simpa using h
    subst this
    exact Acc.pure trivial

theorem acc_encFinal (s : State) (c m n : Nat) :
    Acc Any1 (encFinal e s c m n) (List.range' m n) (List.range' c n) := by
  unfold encFinal
  let k := if n ≥ 8 then 8 else 0
  have hm : k = 8 ∧ n ≥ 8 ∨ k = 0 ∧ n < 8 := by simp only [k]; split <;> omega
  refine Acc.bind' (R := fun r => r.2.2 = (m + k, c + k, n - k)) (r1 := List.range' m k)
    (r2 := List.range' (m + k) (n - k)) (w1 := List.range' c k) (w2 := List.range' (c + k) (n - k)) ?_ ?_
    (range'_join rfl (by omega)).symm (range'_join rfl (by omega)).symm
  · refine Acc.ifc (fun h => ?_) (fun h => ?_)
    · have := of_decide_eq_true h
      have : k = 8 := by omega
      rw [this]
      exact Acc.then0 acc_ENCRYPT fun _ _ => Acc.pure rfl
    · have := of_decide_eq_false h
      have : k = 0 := by omega
      rw [this]
      exact Acc.pure rfl
  · rintro ⟨s, px, a, b, d⟩ h'
    simp only [Prod.mk.injEq] at h'
    obtain ⟨rfl, rfl, rfl⟩ := h'
    exact Acc.then0 acc_ENCRYPT fun _ _ => acc_xorB

theorem acc_encrypt_body (h : V.Silent e) (s : State) (c m n : Nat) :
    Acc Any1 (ascon_encrypt V e s c m n) (List.range' m n) (List.range' c n) := by
  unfold ascon_encrypt
  refine Acc.bind' (R := fun r => r.2 = (c + n / 16 * 16, m + n / 16 * 16, n - n / 16 * 16))
    (r1 := List.range' m (n / 16 * 16)) (w1 := List.range' c (n / 16 * 16))
    (r2 := List.range' (m + n / 16 * 16) (n - n / 16 * 16)) (w2 := List.range' (c + n / 16 * 16) (n - n / 16 * 16)) ?_ ?_
    (range'_join rfl (by omega)).symm (range'_join rfl (by omega)).symm
  · refine Acc.blocks (At := fun i (r : State × Nat × Nat × Nat) => r.2 = (c + i * 16, m + i * 16, n - i * 16))
      (q := n / 16) (pr := m) (pw := c) (Rr := 16) (Rw := 16) (by simp) ?_ ?_ (by omega)
    · rintro i ⟨s, a, b, d⟩ hi h
      simp only [Prod.mk.injEq] at h
      obtain ⟨rfl, rfl, rfl⟩ := h
      simp only [decide_eq_decide]
      omega
    · rintro i ⟨s, a, b, d⟩ hi h'
      simp only [Prod.mk.injEq] at h'
      obtain ⟨rfl, rfl, rfl⟩ := h'
      unfold encStep
      refine Acc.cast (Acc.bind (by oacc_step) fun _ _ => Acc.bind (by oacc_step) fun _ _ =>
        Acc.bind (by oacc_step) fun _ _ => Acc.pure ?_) ?_ ?_
      · simp only [Prod.mk.injEq]; omega
      · oacc_list
      · oacc_list
  · rintro ⟨s, a, b, d⟩ h'
    simp only [Prod.mk.injEq] at h'
    obtain ⟨rfl, rfl, rfl⟩ := h'
    exact acc_encFinal _ _ _ _

theorem acc_decFinal (s : State) (m c n : Nat) :
    Acc Any1 (decFinal e s m c n) (List.range' c n) (List.range' m n) := by
  unfold decFinal
  let k := if n ≥ 8 then 8 else 0
  have hm : k = 8 ∧ n ≥ 8 ∨ k = 0 ∧ n < 8 := by simp only [k]; split <;> omega
  refine Acc.bind' (R := fun r => r.2.2 = (m + k, c + k, n - k)) (r1 := List.range' c k)
    (r2 := List.range' (c + k) (n - k)) (w1 := List.range' m k) (w2 := List.range' (m + k) (n - k)) ?_ ?_
    (range'_join rfl (by omega)).symm (range'_join rfl (by omega)).symm
  · refine Acc.ifc (fun h => ?_) (fun h => ?_)
    · have := of_decide_eq_true h
      have : k = 8 := by omega
      rw [this]
      exact Acc.then0 acc_DECRYPT fun _ _ => Acc.pure rfl
    · have := of_decide_eq_false h
      have : k = 0 := by omega
      rw [this]
      exact Acc.pure rfl
  · rintro ⟨s, px, a, b, d⟩ h'
    simp only [Prod.mk.injEq] at h'
    obtain ⟨rfl, rfl, rfl⟩ := h'
    exact Acc.then0 acc_DECRYPT fun _ _ => acc_xorB

theorem acc_decrypt_body (h : V.Silent e) (s : State) (m c n : Nat) :
    Acc Any1 (ascon_decrypt V e s m c n) (List.range' c n) (List.range' m n) := by
  unfold ascon_decrypt
  refine Acc.bind' (R := fun r => r.2 = (m + n / 16 * 16, c + n / 16 * 16, n - n / 16 * 16))
    (r1 := List.range' c (n / 16 * 16)) (w1 := List.range' m (n / 16 * 16))
    (r2 := List.range' (c + n / 16 * 16) (n - n / 16 * 16)) (w2 := List.range' (m + n / 16 * 16) (n - n / 16 * 16)) ?_ ?_
    (range'_join rfl (by omega)).symm (range'_join rfl (by omega)).symm
  · refine Acc.blocks (At := fun i (r : State × Nat × Nat × Nat) => r.2 = (m + i * 16, c + i * 16, n - i * 16))
      (q := n / 16) (pr := c) (pw := m) (Rr := 16) (Rw := 16) (by simp) ?_ ?_ (by omega)
    · rintro i ⟨s, a, b, d⟩ hi h
      simp only [Prod.mk.injEq] at h
      obtain ⟨rfl, rfl, rfl⟩ := h
      simp only [decide_eq_decide]
      omega
    · rintro i ⟨s, a, b, d⟩ hi h'
      simp only [Prod.mk.injEq] at h'
      obtain ⟨rfl, rfl, rfl⟩ := h'
      unfold decStep
      refine Acc.cast (Acc.bind (by oacc_step) fun _ _ => Acc.bind (by oacc_step) fun _ _ =>
        Acc.bind (by oacc_step) fun _ _ => Acc.pure ?_) ?_ ?_
      · simp only [Prod.mk.injEq]; omega
      · oacc_list
      · oacc_list
  · rintro ⟨s, a, b, d⟩ h'
    simp only [Prod.mk.injEq] at h'
    obtain ⟨rfl, rfl, rfl⟩ := h'
    exact acc_decFinal _ _ _ _

theorem acc_final (h : V.Silent e) (s key : State) : Acc Any1 (ascon_final V e s key) [] [] := by
  unfold ascon_final
  exact acc_memxor.bind0 fun _ _ => (h.p12 _).bind0 fun _ _ => acc_memxor

theorem acc_gettag (s : State) (t : Nat) : Acc Any1 (ascon_gettag e s t) [] (List.range' t 16) := by
  unfold ascon_gettag
  refine Acc.cast (by oacc_seq) (by oacc_list) ?_
  oacc_list

theorem acc_verify (s : State) (t : Nat) : Acc Any1 (ascon_verify e s t) (List.range' t 16) [] := by
  unfold ascon_verify
  refine Acc.cast (by oacc_seq) ?_ (by oacc_list)
  oacc_list

theorem acc_encrypt (h : V.Silent e) (sp c clen m mlen ad adlen nsec npub k : Nat) :
    Acc Any1 (crypto_aead_encrypt V e sp c clen m mlen ad adlen nsec npub k)
      (List.range' k 16 ++ List.range' npub 16 ++ List.range' ad adlen ++ List.range' m mlen)
      (List.range' clen 8 ++ List.range' c (mlen + 16)) := by
  unfold crypto_aead_encrypt ascon_aead_encrypt
  refine Acc.cast (Acc.bind Acc.store64 fun _ _ => Acc.bind (acc_loadkey k) fun _ _ =>
    Acc.bind (acc_initaead h _ npub) fun _ _ => Acc.bind (acc_adata h _ ad adlen) fun _ _ =>
    Acc.bind (acc_encrypt_body h _ c m mlen) fun _ _ => Acc.bind (acc_final h _ _) fun _ _ =>
    Acc.bind (acc_gettag _ _) fun _ _ => Acc.pure trivial) ?_ ?_
  · oacc_list
  · rw [range'_split c mlen 16]
    oacc_list

theorem acc_decrypt (h : V.Silent e) (sp m mlen nsec c clen ad adlen npub k : Nat) (hc : 16 ≤ clen) :
    Acc Any1 (crypto_aead_decrypt V e sp m mlen nsec c clen ad adlen npub k)
      (List.range' k 16 ++ List.range' npub 16 ++ List.range' ad adlen ++ List.range' c clen)
      (List.range' mlen 8 ++ List.range' m (clen - 16)) := by
  unfold crypto_aead_decrypt ascon_aead_decrypt
  refine Acc.ifc (fun h => ?_) (fun _ => ?_)
  · have := of_decide_eq_true h; omega
  refine Acc.cast (Acc.bind Acc.store64 fun _ _ => Acc.bind (acc_loadkey k) fun _ _ =>
    Acc.bind (acc_initaead h _ npub) fun _ _ => Acc.bind (acc_adata h _ ad adlen) fun _ _ =>
    Acc.bind (acc_decrypt_body h _ m c (clen - 16)) fun _ _ => Acc.bind (acc_final h _ _) fun _ _ =>
    acc_verify _ _) ?_ ?_
  · rw [show List.range' c clen = List.range' c (clen - 16) ++ List.range' (c + (clen - 16)) 16 from
      (range'_join rfl (by omega)).symm]
    oacc_list
  · oacc_list

/-! ## Hash -/

theorem acc_absorb (h : V.Silent e) (padAt : Nat → Nat) (s : State) (p n : Nat) :
    Acc Any1 (ascon_absorb V padAt e s p n) (List.range' p n) [] := by
  unfold ascon_absorb
  refine Acc.bind' (R := fun r => r.2 = (p + n / 8 * 8, n - n / 8 * 8)) (r1 := List.range' p (n / 8 * 8)) (w1 := [])
    (w2 := []) (r2 := List.range' (p + n / 8 * 8) (n - n / 8 * 8)) ?_ ?_ (range'_join rfl (by omega)).symm rfl
  · refine (Acc.blocks (At := fun i (r : State × Nat × Nat) => r.2 = (p + i * 8, n - i * 8)) (q := n / 8) (pr := p)
      (pw := 0) (Rr := 8) (Rw := 0) (by simp) ?_ ?_ (by omega)).cast rfl (by oacc_list)
    · rintro i ⟨s, a, b⟩ hi h
      simp only [Prod.mk.injEq] at h
      obtain ⟨rfl, rfl⟩ := h
      simp only [decide_eq_decide]
      omega
    · rintro i ⟨s, a, b⟩ hi h'
      simp only [Prod.mk.injEq] at h'
      obtain ⟨rfl, rfl⟩ := h'
      unfold hashAbsorbStep
      refine Acc.then0 acc_ABSORB fun _ _ => Acc.bind0 (h.p12 _) fun _ _ => Acc.pure ?_
      simp only [Prod.mk.injEq]; omega
  · rintro ⟨s, a, b⟩ h'
    simp only [Prod.mk.injEq] at h'
    obtain ⟨rfl, rfl⟩ := h'
    exact Acc.then0 acc_ABSORB fun _ _ => acc_xorB

theorem acc_squeeze (h : V.Silent e) (s : State) (p n : Nat) :
    Acc Any1 (ascon_squeeze V e s p n) [] (List.range' p n) := by
  unfold ascon_squeeze
  refine Acc.bind0 (h.p12 _) fun _ _ => ?_
  refine Acc.bind' (R := fun r => r.2 = (p + (n - 1) / 8 * 8, n - (n - 1) / 8 * 8)) (r1 := []) (r2 := [])
    (w1 := List.range' p ((n - 1) / 8 * 8))
    (w2 := List.range' (p + (n - 1) / 8 * 8) (n - (n - 1) / 8 * 8)) ?_ ?_ rfl (range'_join rfl (by omega)).symm
  · refine (Acc.blocks (At := fun i (r : State × Nat × Nat) => r.2 = (p + i * 8, n - i * 8)) (q := (n - 1) / 8)
      (pr := 0) (pw := p) (Rr := 0) (Rw := 8) (by simp) ?_ ?_ (by omega)).cast (by oacc_list) rfl
    · rintro i ⟨s, a, b⟩ hi h
      simp only [Prod.mk.injEq] at h
      obtain ⟨rfl, rfl⟩ := h
      simp only [decide_eq_decide]
      omega
    · rintro i ⟨s, a, b⟩ hi h'
      simp only [Prod.mk.injEq] at h'
      obtain ⟨rfl, rfl⟩ := h'
      unfold hashSqueezeStep
      refine Acc.then0 acc_SQUEEZE fun _ _ => Acc.bind0 (h.p12 _) fun _ _ => Acc.pure ?_
      simp only [Prod.mk.injEq]; omega
  · rintro ⟨s, a, b⟩ h'
    simp only [Prod.mk.injEq] at h'
    obtain ⟨rfl, rfl⟩ := h'
    exact acc_SQUEEZE

theorem acc_xof (h : V.Silent e) (padAt : Nat → Nat) (ivs : State) (sp out outlen inp inlen : Nat) :
    Acc Any1 (ascon_xof V padAt ivs e sp out outlen inp inlen) (List.range' inp inlen) (List.range' out outlen) := by
  unfold ascon_xof
  refine Acc.bind' (acc_absorb h _ _ _ _) (fun _ _ => ?_) (List.append_nil _).symm (List.nil_append _).symm
  exact (acc_squeeze h _ _ _).then0 fun _ _ => Acc.pure trivial

/-! ## MAC and PRF -/

theorem acc_prfAbsorb (h : V.Silent e) (padAt : Nat → Nat) (dsepAt : Nat) (s : State) (p n : Nat) :
    Acc Any1 (prfAbsorb V padAt dsepAt e s p n) (List.range' p n) [] := by
  unfold prfAbsorb
  refine Acc.bind' (R := fun r => r.2.2 = (p + n / 8 * 8, n - n / 8 * 8)) (r1 := List.range' p (n / 8 * 8)) (w1 := [])
    (w2 := []) (r2 := List.range' (p + n / 8 * 8) (n - n / 8 * 8)) ?_ ?_ (range'_join rfl (by omega)).symm rfl
  · refine (Acc.blocks (At := fun i (r : State × Nat × Nat × Nat) => r.2.2 = (p + i * 8, n - i * 8)) (q := n / 8)
      (pr := p) (pw := 0) (Rr := 8) (Rw := 0) (by simp) ?_ ?_ (by omega)).cast rfl (by oacc_list)
    · rintro i ⟨s, j, a, b⟩ hi h
      simp only [Prod.mk.injEq] at h
      obtain ⟨rfl, rfl⟩ := h
      simp only [decide_eq_decide]
      omega
    · rintro i ⟨s, j, a, b⟩ hi h'
      simp only [Prod.mk.injEq] at h'
      obtain ⟨rfl, rfl⟩ := h'
      unfold prfAbsorbStep
      refine Acc.then0 acc_ABSORB fun _ _ => ?_
      refine Acc.bind0 (R := Any1) (Acc.ifc (fun _ => Acc.pure trivial) (fun _ => Acc.pure trivial)) fun _ _ => ?_
      refine Acc.bind0 (R := Any1) (Acc.ifc (fun _ => h.p12 _) (fun _ => Acc.pure trivial)) fun _ _ => ?_
      refine Acc.pure ?_
      simp only [Prod.mk.injEq]; omega
  · rintro ⟨s, j, a, b⟩ h'
    simp only [Prod.mk.injEq] at h'
    obtain ⟨rfl, rfl⟩ := h'
    exact Acc.then0 acc_ABSORB fun _ _ => acc_xorB.bind0 fun _ _ => acc_xorB

theorem acc_prfSqueeze (h : V.Silent e) (s : State) (p n : Nat) :
    Acc Any1 (prfSqueeze V e s p n) [] (List.range' p n) := by
  unfold prfSqueeze
  refine Acc.bind0 (h.p12 _) fun _ _ => ?_
  refine Acc.bind' (R := fun r => r.2.2 = (p + (n - 1) / 8 * 8, n - (n - 1) / 8 * 8)) (r1 := []) (r2 := [])
    (w1 := List.range' p ((n - 1) / 8 * 8))
    (w2 := List.range' (p + (n - 1) / 8 * 8) (n - (n - 1) / 8 * 8)) ?_ ?_ rfl (range'_join rfl (by omega)).symm
  · refine (Acc.blocks (At := fun i (r : State × Nat × Nat × Nat) => r.2.2 = (p + i * 8, n - i * 8)) (q := (n - 1) / 8)
      (pr := 0) (pw := p) (Rr := 0) (Rw := 8) (by simp) ?_ ?_ (by omega)).cast (by oacc_list) rfl
    · rintro i ⟨s, j, a, b⟩ hi h
      simp only [Prod.mk.injEq] at h
      obtain ⟨rfl, rfl⟩ := h
      simp only [decide_eq_decide]
      omega
    · rintro i ⟨s, j, a, b⟩ hi h'
      simp only [Prod.mk.injEq] at h'
      obtain ⟨rfl, rfl⟩ := h'
      unfold prfSqueezeStep
      refine Acc.then0 acc_SQUEEZE fun _ _ => ?_
      refine Acc.bind0 (R := Any1) (Acc.ifc (fun _ => Acc.pure trivial) (fun _ => Acc.pure trivial)) fun _ _ => ?_
      refine Acc.bind0 (R := Any1) (Acc.ifc (fun _ => h.p12 _) (fun _ => Acc.pure trivial)) fun _ _ => ?_
      refine Acc.pure ?_
      simp only [Prod.mk.injEq]; omega
  · rintro ⟨s, j, a, b⟩ h'
    simp only [Prod.mk.injEq] at h'
    obtain ⟨rfl, rfl⟩ := h'
    exact acc_SQUEEZE

theorem acc_crypto_prf (h : V.Silent e) (padAt : Nat → Nat) (dsepAt : Nat) (iv : Word) (n : Nat)
    (sp out outlen inp inlen k : Nat) (hn : n ≠ 0 → outlen ≤ n) :
    Acc Any1 (crypto_prf_with V padAt dsepAt iv n e sp out outlen inp inlen k)
      (List.range' k 16 ++ List.range' inp inlen) (List.range' out outlen) := by
  unfold crypto_prf_with
  refine Acc.ifc (fun h => ?_) (fun _ => ?_)
  · have := of_decide_eq_true h; omega
  refine Acc.cast (Acc.bind acc_INSERT fun _ _ => Acc.bind acc_INSERT fun _ _ => Acc.bind (h.p12 _) fun _ _ =>
    Acc.bind (acc_prfAbsorb h _ _ _ _ _) fun _ _ => Acc.bind (acc_prfSqueeze h _ _ _) fun _ _ => Acc.pure trivial) ?_ ?_
  · rw [range'_split k 8 8]
    oacc_list
  · oacc_list

theorem acc_verify_with {f : Endian → Nat → Nat → Nat → Nat → Nat → Nat → Prog Int} {n sp inp len k : Nat}
    {rs : List Nat} (hf : Acc Any1 (f e (sp + n) sp n inp len k) rs (List.range' sp n)) (h : Nat) :
    Acc Any1 (verify_with f n e sp h inp len k) (rs ++ zipped h sp n) (List.range' sp n) := by
  unfold verify_with
  refine Acc.bind0 (R := Any1) (.alloc (.ret trivial)) fun _ _ => ?_
  refine Acc.bind' hf (fun _ _ => ?_) rfl (List.append_nil _).symm
  refine Acc.then0 (acc_tagDiff _ _ _) fun _ _ => Acc.bind0 (R := Any1) (.free (.ret trivial)) fun _ _ => Acc.pure trivial

/-- The key is read a second time after the permutation. -/
theorem acc_prfs_crypto_prf (h : V.Silent e) (sp out outlen inp inlen k : Nat) (hi : inlen ≤ 16) (ho : outlen ≤ 16) :
    Acc Any1 (prfs_crypto_prf V e sp out outlen inp inlen k)
      (List.range' k 16 ++ List.range' inp inlen ++ List.range' k 16) (List.range' out outlen) := by
  unfold prfs_crypto_prf
  refine Acc.ifc (fun h => ?_) (fun _ => ?_)
  · have := of_decide_eq_true h; omega
  rw [range'_split k 8 8, List.append_assoc, List.append_assoc]
  refine Acc.bind' acc_INSERT (fun _ _ => ?_) rfl (List.nil_append _).symm
  refine Acc.bind' acc_INSERT (fun _ _ => ?_) rfl (List.nil_append _).symm
  refine Acc.bind' (R := Any1) (r1 := List.range' inp inlen) (w1 := []) ?_ (fun _ _ => ?_) rfl
    (List.nil_append _).symm
  · refine Acc.ifc (fun h => ?_) (fun h => ?_)
    · have := of_decide_eq_true h
      refine Acc.cast (by oacc_seq) ?_ (by oacc_list)
      oacc_list
    · refine Acc.ifc (fun h => ?_) (fun h => ?_)
      · exact acc_ABSORB
      · have : inlen = 0 := by simpa using h
        subst this
        exact Acc.pure trivial
  · refine Acc.bind0 (h.p12 _) fun _ _ => ?_
    refine Acc.bind' acc_ABSORB (fun _ _ => ?_) rfl (List.nil_append _).symm
    refine Acc.bind' (r2 := []) acc_ABSORB (fun _ _ => ?_) (List.append_nil _).symm (List.nil_append _).symm
    refine Acc.then0 (R := Any1) (Acc.ifc (fun h => ?_) (fun h => ?_)) fun _ _ => Acc.pure trivial
    · have := of_decide_eq_true h
      refine Acc.cast (by oacc_seq) (by oacc_list) ?_
      oacc_list
    · refine Acc.ifc (fun h => ?_) (fun h => ?_)
      · exact acc_SQUEEZE
      · have : outlen = 0 := by simpa using h
        subst this
        exact Acc.pure trivial

theorem acc_prfs_auth_verify (hV : V.Silent e) (sp h inp len k : Nat) (hl : len ≤ 16) :
    Acc Any1 (prfs_crypto_auth_verify V e sp h inp len k)
      (List.range' k 16 ++ List.range' inp len ++ List.range' k 16 ++ zipped h sp 16) (List.range' sp 16) := by
  unfold prfs_crypto_auth_verify
  refine Acc.ifc (fun h => ?_) (fun _ => ?_)
  · have := of_decide_eq_true h; omega
  exact acc_verify_with (acc_prfs_crypto_prf hV _ _ _ _ _ _ hl (by omega)) h

end Ascon.Opt8
