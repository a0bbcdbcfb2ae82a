import Verif.Proof.RefFetch
import Verif.Proof.GenCore
import Verif.Model.GenAead
import Verif.Model.GenHash
import Verif.Model.GenPrf
/-!
# The common mode files read and write every byte once
-/

namespace Ascon.Gen

open Ascon.C
open Ascon.Ref (getX xorX tagDiff acc_getX acc_xorX acc_tagDiff zipped)

variable {B : Backend} {e : Endian}

/-- The statements of a backend do not access memory. -/
structure Backend.Silent (B : Backend) (e : Endian) : Prop where
  pad : ∀ i, i < 8 → Acc Any1 (B.PAD i) [] []
  clear : ∀ w n, n < 8 → Acc Any1 (B.CLEAR w n) [] []
  p12 : ∀ s, Acc Any1 (B.P12 e s) [] []
  p8 : ∀ s, Acc Any1 (B.P8 e s) [] []

theorem Backend.Silent.of {enc : Word → Word} (h : B.Ok e enc) (hct : B.CT e) : B.Silent e where
  pad i hi := Acc.of_silent _ fun mem => ⟨_, h.pad i hi mem⟩
  clear w n hn := Acc.of_sim (hct.clear w (enc 0) n) (Acc.of_silent _ fun mem => ⟨_, h.clear 0 n hn mem⟩)
  p12 s := Acc.of_sim (hct.p12 s (encS enc ⟨0, 0, 0, 0, 0⟩)) (Acc.of_silent _ fun mem => ⟨_, h.p12 _ mem⟩)
  p8 s := Acc.of_sim (hct.p8 s (encS enc ⟨0, 0, 0, 0, 0⟩)) (Acc.of_silent _ fun mem => ⟨_, h.p8 _ mem⟩)

theorem acc_LOADBYTES {p n : Nat} : Acc Any1 (LOADBYTES B e p n) (List.range' p n) [] :=
  Acc.require.bind0 fun _ _ => (Acc.loadN p n).then0 fun _ _ => Acc.pure trivial

theorem acc_LOAD {p n : Nat} : Acc Any1 (LOAD B e p n) (List.range' p n) [] := acc_LOADBYTES

theorem acc_STOREBYTES {p n : Nat} {x : Word} : Acc Any1 (STOREBYTES B e p x n) [] (List.range' p n) := by
  refine Acc.require.bind0 fun _ h => ?_
  have h := of_decide_eq_true h
  refine (Acc.storeN p _).cast rfl ?_
  rw [List.length_take, length_repr64', Nat.min_eq_left h]

theorem acc_STORE {p n : Nat} {x : Word} : Acc Any1 (STORE B e p x n) [] (List.range' p n) := acc_STOREBYTES

/-- The rule for one statement of the common code. -/
macro "gacc_step" : tactic => `(tactic| first
  | exact acc_LOAD | exact acc_LOADBYTES | exact acc_STORE | exact acc_STOREBYTES
  | exact Backend.Silent.pad (by assumption) _ (by omega)
  | exact Backend.Silent.clear (by assumption) _ _ (by omega)
  | exact Backend.Silent.p12 (by assumption) _ | exact Backend.Silent.p8 (by assumption) _
  | exact Acc.store64 | exact Acc.load64
  | exact .alloc (.ret trivial) | exact .free (.ret trivial))

/-- Straight-line code. -/
macro "gacc_seq" : tactic => `(tactic|
  repeat (first
    | exact Acc.pure trivial
    | exact Acc.pure rfl
    | gacc_step
    | (apply Acc.bind (R := Any1)
       focus gacc_step
       intro _ _)))

/-- Tidy a list of addresses. -/
macro "gacc_list" : tactic => `(tactic| (
  try simp only [List.append_nil, List.nil_append, List.append_assoc, List.range'_zero]
  try first
    | rfl
    | (refine range'_join ?_ ?_ <;> omega)))

theorem acc_loadkey (k : Nat) : Acc Any1 (ascon_loadkey B e k) (List.range' k 16) [] := by
  unfold ascon_loadkey
  refine Acc.cast (by gacc_seq) ?_ (by gacc_list)
  gacc_list

theorem acc_initaead (h : B.Silent e) (key : Word × Word) (n : Nat) :
    Acc Any1 (ascon_initaead B e key n) (List.range' n 16) [] := by
  unfold ascon_initaead
  refine Acc.cast (by gacc_seq) ?_ (by gacc_list)
  gacc_list

theorem acc_adFinal (h : B.Silent e) (s : State) (p n : Nat) (hn : n < 16) :
    Acc Any1 (adFinal B e s p n) (List.range' p n) [] := by
  unfold adFinal
  let m := if n ≥ 8 then 8 else 0
  have hm : m = 8 ∧ n ≥ 8 ∨ m = 0 ∧ n < 8 := by simp only [m]; split <;> omega
  refine Acc.bind' (R := fun r => r.2.2 = (p + m, n - m)) (r1 := List.range' p m)
    (r2 := List.range' (p + m) (n - m)) (w1 := []) (w2 := []) ?_ ?_ (range'_join rfl (by omega)).symm rfl
  · refine Acc.ifc (fun h => ?_) (fun h => ?_)
    · have := of_decide_eq_true h
      have : m = 8 := by omega
      rw [this]
      exact Acc.then0 acc_LOAD fun _ _ => Acc.pure rfl
    · have := of_decide_eq_false h
      have : m = 0 := by omega
      rw [this]
      exact Acc.pure rfl
  · rintro ⟨s, px, a, b⟩ h'
    simp only [Prod.mk.injEq] at h'
    obtain ⟨rfl, rfl⟩ := h'
    refine Acc.bind0 (h.pad _ (by omega)) fun _ _ => Acc.ifc (fun _ => ?_) (fun h => ?_)
    · exact Acc.then0 acc_LOADBYTES fun _ _ => Acc.pure trivial
    · have : n - m = 0 := by simpa using h
      rw [this]
      exact Acc.pure trivial

theorem acc_adLoop (h : B.Silent e) (s : State) (p n : Nat) :
    Acc (fun r => r.2 = (p + n / 16 * 16, n - n / 16 * 16))
      (Prog.loop (n + 1) (fun (_, _, adlen) => decide (adlen ≥ 16)) (adStep B e) (s, p, n))
      (List.range' p (n / 16 * 16)) [] := by
  refine (Acc.blocks (At := fun i (r : State × Nat × Nat) => r.2 = (p + i * 16, n - i * 16)) (q := n / 16) (pr := p)
    (pw := 0) (Rr := 16) (Rw := 0) (by simp) ?_ ?_ (by omega)).cast rfl (by gacc_list)
  · rintro i ⟨s, a, b⟩ hi h
    simp only [Prod.mk.injEq] at h
    obtain ⟨rfl, rfl⟩ := h
    simp only [decide_eq_decide]
    omega
  · rintro i ⟨s, a, b⟩ hi h'
    simp only [Prod.mk.injEq] at h'
    obtain ⟨rfl, rfl⟩ := h'
    unfold adStep
    refine Acc.cast (Acc.bind (by gacc_step) fun _ _ => Acc.bind (by gacc_step) fun _ _ =>
      Acc.bind (by gacc_step) fun _ _ => Acc.pure ?_) ?_ (by gacc_list)
    · simp only [Prod.mk.injEq]; omega
    · gacc_list

theorem acc_adata (h : B.Silent e) (s : State) (p n : Nat) :
    Acc Any1 (ascon_adata B e s p n) (List.range' p n) [] := by
  unfold ascon_adata
  refine Acc.then0 (R := Any1) (Acc.ifc (fun _ => ?_) (fun h => ?_)) fun _ _ => Acc.pure trivial
  · refine Acc.bind' (acc_adLoop h s p n) (r2 := List.range' (p + n / 16 * 16) (n - n / 16 * 16)) (w2 := []) ?_
      (range'_join rfl (by omega)).symm rfl
    rintro ⟨s, a, b⟩ h'
    simp only [Prod.mk.injEq] at h'
    obtain ⟨rfl, rfl⟩ := h'
    exact Acc.then0 (acc_adFinal h _ _ _ (by omega)) fun _ _ => h.p8 _
  · have : n = 0 := by simpa using h
    subst this
    exact Acc.pure trivial

theorem acc_encFinal (h : B.Silent e) (s : State) (c m n : Nat) (hn : n < 16) :
    Acc Any1 (encFinal B e s c m n) (List.range' m n) (List.range' c n) := by
  unfold encFinal
  let k := if n ≥ 8 then 8 else 0
  have hm : k = 8 ∧ n ≥ 8 ∨ k = 0 ∧ n < 8 := by simp only [k]; split <;> omega
  refine Acc.bind' (R := fun r => r.2.2 = (m + k, c + k, n - k)) (r1 := List.range' m k)
    (r2 := List.range' (m + k) (n - k)) (w1 := List.range' c k) (w2 := List.range' (c + k) (n - k)) ?_ ?_
    (range'_join rfl (by omega)).symm (range'_join rfl (by omega)).symm
  · refine Acc.ifc (fun h => ?_) (fun h => ?_)
    · have := of_decide_eq_true h
      have : k = 8 := by omega
      rw [this]
      refine Acc.cast (Acc.bind (by gacc_step) fun _ _ => Acc.bind (by gacc_step) fun _ _ => Acc.pure rfl) ?_ ?_
      · gacc_list
      · gacc_list
    · have := of_decide_eq_false h
      have : k = 0 := by omega
      rw [this]
      exact Acc.pure rfl
  · rintro ⟨s, px, a, b, d⟩ h'
    simp only [Prod.mk.injEq] at h'
    obtain ⟨rfl, rfl, rfl⟩ := h'
    refine Acc.bind0 (h.pad _ (by omega)) fun _ _ => Acc.ifc (fun _ => ?_) (fun h => ?_)
    · refine Acc.cast (by gacc_seq) ?_ ?_
      · gacc_list
      · gacc_list
    · have : n - k = 0 := by simpa using h
      rw [this]
      exact Acc.pure trivial

theorem acc_encrypt_body (h : B.Silent e) (s : State) (c m n : Nat) :
    Acc Any1 (ascon_encrypt B e s c m n) (List.range' m n) (List.range' c n) := by
  unfold ascon_encrypt
  refine Acc.bind' (R := fun r => r.2 = (c + n / 16 * 16, m + n / 16 * 16, n - n / 16 * 16))
    (r1 := List.range' m (n / 16 * 16)) (w1 := List.range' c (n / 16 * 16))
    (r2 := List.range' (m + n / 16 * 16) (n - n / 16 * 16)) (w2 := List.range' (c + n / 16 * 16) (n - n / 16 * 16)) ?_ ?_
    (range'_join rfl (by omega)).symm (range'_join rfl (by omega)).symm
  · refine Acc.blocks (At := fun i (r : State × Nat × Nat × Nat) => r.2 = (c + i * 16, m + i * 16, n - i * 16))
      (q := n / 16) (pr := m) (pw := c) (Rr := 16) (Rw := 16) (by simp) ?_ ?_ (by omega)
    · rintro i ⟨s, a, b, d⟩ hi h
      simp only [Prod.mk.injEq] at h
      obtain ⟨rfl, rfl, rfl⟩ := h
      simp only [decide_eq_decide]
      omega
    · rintro i ⟨s, a, b, d⟩ hi h'
      simp only [Prod.mk.injEq] at h'
      obtain ⟨rfl, rfl, rfl⟩ := h'
      unfold encStep
      refine Acc.cast (Acc.bind (by gacc_step) fun _ _ => Acc.bind (by gacc_step) fun _ _ =>
        Acc.bind (by gacc_step) fun _ _ => Acc.bind (by gacc_step) fun _ _ =>
        Acc.bind (by gacc_step) fun _ _ => Acc.pure ?_) ?_ ?_
      · simp only [Prod.mk.injEq]; omega
      · gacc_list
      · gacc_list
  · rintro ⟨s, a, b, d⟩ h'
    simp only [Prod.mk.injEq] at h'
    obtain ⟨rfl, rfl, rfl⟩ := h'
    exact acc_encFinal h _ _ _ _ (by omega)

theorem acc_decFinal (h : B.Silent e) (s : State) (m c n : Nat) (hn : n < 16) :
    Acc Any1 (decFinal B e s m c n) (List.range' c n) (List.range' m n) := by
  unfold decFinal
  let k := if n ≥ 8 then 8 else 0
  have hm : k = 8 ∧ n ≥ 8 ∨ k = 0 ∧ n < 8 := by simp only [k]; split <;> omega
  refine Acc.bind' (R := fun r => r.2.2 = (m + k, c + k, n - k)) (r1 := List.range' c k)
    (r2 := List.range' (c + k) (n - k)) (w1 := List.range' m k) (w2 := List.range' (m + k) (n - k)) ?_ ?_
    (range'_join rfl (by omega)).symm (range'_join rfl (by omega)).symm
  · refine Acc.ifc (fun h => ?_) (fun h => ?_)
    · have := of_decide_eq_true h
      have : k = 8 := by omega
      rw [this]
      refine Acc.cast (Acc.bind (by gacc_step) fun _ _ => Acc.bind (by gacc_step) fun _ _ => Acc.pure rfl) ?_ ?_
      · gacc_list
      · gacc_list
    · have := of_decide_eq_false h
      have : k = 0 := by omega
      rw [this]
      exact Acc.pure rfl
  · rintro ⟨s, px, a, b, d⟩ h'
    simp only [Prod.mk.injEq] at h'
    obtain ⟨rfl, rfl, rfl⟩ := h'
    refine Acc.bind0 (h.pad _ (by omega)) fun _ _ => Acc.ifc (fun _ => ?_) (fun h => ?_)
    · refine Acc.cast (by gacc_seq) ?_ ?_
      · gacc_list
      · gacc_list
    · have : n - k = 0 := by simpa using h
      rw [this]
      exact Acc.pure trivial

theorem acc_decrypt_body (h : B.Silent e) (s : State) (m c n : Nat) :
    Acc Any1 (ascon_decrypt B e s m c n) (List.range' c n) (List.range' m n) := by
  unfold ascon_decrypt
  refine Acc.bind' (R := fun r => r.2 = (m + n / 16 * 16, c + n / 16 * 16, n - n / 16 * 16))
    (r1 := List.range' c (n / 16 * 16)) (w1 := List.range' m (n / 16 * 16))
    (r2 := List.range' (c + n / 16 * 16) (n - n / 16 * 16)) (w2 := List.range' (m + n / 16 * 16) (n - n / 16 * 16)) ?_ ?_
    (range'_join rfl (by omega)).symm (range'_join rfl (by omega)).symm
  · refine Acc.blocks (At := fun i (r : State × Nat × Nat × Nat) => r.2 = (m + i * 16, c + i * 16, n - i * 16))
      (q := n / 16) (pr := c) (pw := m) (Rr := 16) (Rw := 16) (by simp) ?_ ?_ (by omega)
    · rintro i ⟨s, a, b, d⟩ hi h
      simp only [Prod.mk.injEq] at h
      obtain ⟨rfl, rfl, rfl⟩ := h
      simp only [decide_eq_decide]
      omega
    · rintro i ⟨s, a, b, d⟩ hi h'
      simp only [Prod.mk.injEq] at h'
      obtain ⟨rfl, rfl, rfl⟩ := h'
      unfold decStep
      refine Acc.cast (Acc.bind (by gacc_step) fun _ _ => Acc.bind (by gacc_step) fun _ _ =>
        Acc.bind (by gacc_step) fun _ _ => Acc.bind (by gacc_step) fun _ _ =>
        Acc.bind (by gacc_step) fun _ _ => Acc.pure ?_) ?_ ?_
      · simp only [Prod.mk.injEq]; omega
      · gacc_list
      · gacc_list
  · rintro ⟨s, a, b, d⟩ h'
    simp only [Prod.mk.injEq] at h'
    obtain ⟨rfl, rfl, rfl⟩ := h'
    exact acc_decFinal h _ _ _ _ (by omega)

theorem acc_final (h : B.Silent e) (s : State) (key : Word × Word) : Acc Any1 (ascon_final B e s key) [] [] := by
  unfold ascon_final
  exact (h.p12 _).bind0 fun _ _ => Acc.pure trivial

theorem acc_gettag (s : State) (t : Nat) : Acc Any1 (ascon_gettag B e s t) [] (List.range' t 16) := by
  unfold ascon_gettag
  refine Acc.cast (by gacc_seq) (by gacc_list) ?_
  gacc_list

theorem acc_verify (s : State) (t : Nat) : Acc Any1 (ascon_verify B e s t) (List.range' t 16) [] := by
  unfold ascon_verify
  refine Acc.cast (by gacc_seq) ?_ (by gacc_list)
  gacc_list

theorem acc_encrypt (h : B.Silent e) (sp c clen m mlen ad adlen nsec npub k : Nat) :
    Acc Any1 (crypto_aead_encrypt B e sp c clen m mlen ad adlen nsec npub k)
      (List.range' k 16 ++ List.range' npub 16 ++ List.range' ad adlen ++ List.range' m mlen)
      (List.range' clen 8 ++ List.range' c (mlen + 16)) := by
  unfold crypto_aead_encrypt ascon_aead_encrypt
  refine Acc.cast (Acc.bind Acc.store64 fun _ _ => Acc.bind (acc_loadkey k) fun _ _ =>
    Acc.bind (acc_initaead h _ npub) fun _ _ => Acc.bind (acc_adata h _ ad adlen) fun _ _ =>
    Acc.bind (acc_encrypt_body h _ c m mlen) fun _ _ => Acc.bind (acc_final h _ _) fun _ _ =>
    Acc.bind (acc_gettag _ _) fun _ _ => Acc.pure trivial) ?_ ?_
  · gacc_list
  · rw [range'_split c mlen 16]
    gacc_list

theorem acc_decrypt (h : B.Silent e) (sp m mlen nsec c clen ad adlen npub k : Nat) (hc : 16 ≤ clen) :
    Acc Any1 (crypto_aead_decrypt B e sp m mlen nsec c clen ad adlen npub k)
      (List.range' k 16 ++ List.range' npub 16 ++ List.range' ad adlen ++ List.range' c clen)
      (List.range' mlen 8 ++ List.range' m (clen - 16)) := by
  unfold crypto_aead_decrypt ascon_aead_decrypt
  refine Acc.ifc (fun h => ?_) (fun _ => ?_)
  · have := of_decide_eq_true h; omega
  refine Acc.cast (Acc.bind Acc.store64 fun _ _ => Acc.bind (acc_loadkey k) fun _ _ =>
    Acc.bind (acc_initaead h _ npub) fun _ _ => Acc.bind (acc_adata h _ ad adlen) fun _ _ =>
    Acc.bind (acc_decrypt_body h _ m c (clen - 16)) fun _ _ => Acc.bind (acc_final h _ _) fun _ _ =>
    acc_verify _ _) ?_ ?_
  · rw [show List.range' c clen = List.range' c (clen - 16) ++ List.range' (c + (clen - 16)) 16 from
      (range'_join rfl (by omega)).symm]
    gacc_list
  · gacc_list

/-! ## Hash -/

theorem acc_absorb (h : B.Silent e) (s : State) (p n : Nat) :
    Acc Any1 (ascon_absorb B e s p n) (List.range' p n) [] := by
  unfold ascon_absorb
  refine Acc.bind' (R := fun r => r.2 = (p + n / 8 * 8, n - n / 8 * 8)) (r1 := List.range' p (n / 8 * 8)) (w1 := [])
    (w2 := []) (r2 := List.range' (p + n / 8 * 8) (n - n / 8 * 8)) ?_ ?_ (range'_join rfl (by omega)).symm rfl
  · refine (Acc.blocks (At := fun i (r : State × Nat × Nat) => r.2 = (p + i * 8, n - i * 8)) (q := n / 8) (pr := p)
      (pw := 0) (Rr := 8) (Rw := 0) (by simp) ?_ ?_ (by omega)).cast rfl (by gacc_list)
    · rintro i ⟨s, a, b⟩ hi h
      simp only [Prod.mk.injEq] at h
      obtain ⟨rfl, rfl⟩ := h
      simp only [decide_eq_decide]
      omega
    · rintro i ⟨s, a, b⟩ hi h'
      simp only [Prod.mk.injEq] at h'
      obtain ⟨rfl, rfl⟩ := h'
      unfold hashAbsorbStep
      refine Acc.then0 acc_LOAD fun _ _ => Acc.bind0 (h.p12 _) fun _ _ => Acc.pure ?_
      simp only [Prod.mk.injEq]; omega
  · rintro ⟨s, a, b⟩ h'
    simp only [Prod.mk.injEq] at h'
    obtain ⟨rfl, rfl⟩ := h'
    exact Acc.then0 acc_LOADBYTES fun _ _ => Acc.bind0 (h.pad _ (by omega)) fun _ _ => Acc.pure trivial

theorem acc_squeeze (h : B.Silent e) (s : State) (p n : Nat) :
    Acc Any1 (ascon_squeeze B e s p n) [] (List.range' p n) := by
  unfold ascon_squeeze
  refine Acc.bind0 (h.p12 _) fun _ _ => ?_
  refine Acc.bind' (R := fun r => r.2 = (p + (n - 1) / 8 * 8, n - (n - 1) / 8 * 8)) (r1 := []) (r2 := [])
    (w1 := List.range' p ((n - 1) / 8 * 8))
    (w2 := List.range' (p + (n - 1) / 8 * 8) (n - (n - 1) / 8 * 8)) ?_ ?_ rfl (range'_join rfl (by omega)).symm
  · refine (Acc.blocks (At := fun i (r : State × Nat × Nat) => r.2 = (p + i * 8, n - i * 8)) (q := (n - 1) / 8)
      (pr := 0) (pw := p) (Rr := 0) (Rw := 8) (by simp) ?_ ?_ (by omega)).cast (by gacc_list) rfl
    · rintro i ⟨s, a, b⟩ hi h
      simp only [Prod.mk.injEq] at h
      obtain ⟨rfl, rfl⟩ := h
      simp only [decide_eq_decide]
      omega
    · rintro i ⟨s, a, b⟩ hi h'
      simp only [Prod.mk.injEq] at h'
      obtain ⟨rfl, rfl⟩ := h'
      unfold hashSqueezeStep
      refine Acc.then0 acc_STORE fun _ _ => Acc.bind0 (h.p12 _) fun _ _ => Acc.pure ?_
      simp only [Prod.mk.injEq]; omega
  · rintro ⟨s, a, b⟩ h'
    simp only [Prod.mk.injEq] at h'
    obtain ⟨rfl, rfl⟩ := h'
    exact acc_STOREBYTES

theorem acc_xof (h : B.Silent e) (ivs : State) (sp out outlen inp inlen : Nat) :
    Acc Any1 (ascon_xof B ivs e sp out outlen inp inlen) (List.range' inp inlen) (List.range' out outlen) := by
  unfold ascon_xof
  refine Acc.bind' (acc_absorb h _ _ _) (fun _ _ => ?_) (List.append_nil _).symm (List.nil_append _).symm
  exact (acc_squeeze h _ _ _).then0 fun _ _ => Acc.pure trivial

/-! ## MAC and PRF -/

theorem acc_prfAbsorb (h : B.Silent e) (s : State) (p n : Nat) :
    Acc Any1 (prfAbsorb B e s p n) (List.range' p n) [] := by
  unfold prfAbsorb
  refine Acc.bind' (R := fun r => r.2.2 = (p + n / 8 * 8, n - n / 8 * 8)) (r1 := List.range' p (n / 8 * 8)) (w1 := [])
    (w2 := []) (r2 := List.range' (p + n / 8 * 8) (n - n / 8 * 8)) ?_ ?_ (range'_join rfl (by omega)).symm rfl
  · refine (Acc.blocks (At := fun i (r : State × Nat × Nat × Nat) => r.2.2 = (p + i * 8, n - i * 8)) (q := n / 8)
      (pr := p) (pw := 0) (Rr := 8) (Rw := 0) (by simp) ?_ ?_ (by omega)).cast rfl (by gacc_list)
    · rintro i ⟨s, j, a, b⟩ hi h
      simp only [Prod.mk.injEq] at h
      obtain ⟨rfl, rfl⟩ := h
      simp only [decide_eq_decide]
      omega
    · rintro i ⟨s, j, a, b⟩ hi h'
      simp only [Prod.mk.injEq] at h'
      obtain ⟨rfl, rfl⟩ := h'
      unfold prfAbsorbStep
      refine Acc.then0 acc_LOAD fun _ _ => (acc_xorX _ _ _).bind0 fun _ _ => ?_
      refine Acc.bind0 (R := Any1) (Acc.ifc (fun _ => Acc.pure trivial) (fun _ => Acc.pure trivial)) fun _ _ => ?_
      refine Acc.bind0 (R := Any1) (Acc.ifc (fun _ => h.p12 _) (fun _ => Acc.pure trivial)) fun _ _ => ?_
      refine Acc.pure ?_
      simp only [Prod.mk.injEq]; omega
  · rintro ⟨s, j, a, b⟩ h'
    simp only [Prod.mk.injEq] at h'
    obtain ⟨rfl, rfl⟩ := h'
    refine Acc.then0 (R := Any1) (Acc.ifc (fun _ => ?_) (fun h => ?_)) fun _ _ => (h.pad _ (by omega)).bind0 fun _ _ =>
      (acc_xorX _ _ _).bind0 fun _ _ => Acc.pure trivial
    · exact Acc.then0 acc_LOADBYTES fun _ _ => acc_xorX _ _ _
    · have : n - n / 8 * 8 = 0 := by simpa using h
      rw [this]
      exact Acc.pure trivial

theorem acc_prfSqueeze (h : B.Silent e) (s : State) (p n : Nat) :
    Acc Any1 (prfSqueeze B e s p n) [] (List.range' p n) := by
  unfold prfSqueeze
  refine Acc.bind0 (h.p12 _) fun _ _ => ?_
  refine Acc.bind' (R := fun r => r.2.2 = (p + (n - 1) / 8 * 8, n - (n - 1) / 8 * 8)) (r1 := []) (r2 := [])
    (w1 := List.range' p ((n - 1) / 8 * 8))
    (w2 := List.range' (p + (n - 1) / 8 * 8) (n - (n - 1) / 8 * 8)) ?_ ?_ rfl (range'_join rfl (by omega)).symm
  · refine (Acc.blocks (At := fun i (r : State × Nat × Nat × Nat) => r.2.2 = (p + i * 8, n - i * 8)) (q := (n - 1) / 8)
      (pr := 0) (pw := p) (Rr := 0) (Rw := 8) (by simp) ?_ ?_ (by omega)).cast (by gacc_list) rfl
    · rintro i ⟨s, j, a, b⟩ hi h
      simp only [Prod.mk.injEq] at h
      obtain ⟨rfl, rfl⟩ := h
      simp only [decide_eq_decide]
      omega
    · rintro i ⟨s, j, a, b⟩ hi h'
      simp only [Prod.mk.injEq] at h'
      obtain ⟨rfl, rfl⟩ := h'
      unfold prfSqueezeStep
      refine (acc_getX _ _).bind0 fun _ _ => Acc.then0 acc_STORE fun _ _ => ?_
      refine Acc.bind0 (R := Any1) (Acc.ifc (fun _ => Acc.pure trivial) (fun _ => Acc.pure trivial)) fun _ _ => ?_
      refine Acc.bind0 (R := Any1) (Acc.ifc (fun _ => h.p12 _) (fun _ => Acc.pure trivial)) fun _ _ => ?_
      refine Acc.pure ?_
      simp only [Prod.mk.injEq]; omega
  · rintro ⟨s, j, a, b⟩ h'
    simp only [Prod.mk.injEq] at h'
    obtain ⟨rfl, rfl⟩ := h'
    exact (acc_getX _ _).bind0 fun _ _ => acc_STOREBYTES

theorem acc_crypto_prf (h : B.Silent e) (iv : Word) (n : Nat) (sp out outlen inp inlen k : Nat)
    (hn : n ≠ 0 → outlen ≤ n) :
    Acc Any1 (crypto_prf_with B iv n e sp out outlen inp inlen k) (List.range' k 16 ++ List.range' inp inlen)
      (List.range' out outlen) := by
  unfold crypto_prf_with
  refine Acc.ifc (fun h => ?_) (fun _ => ?_)
  · have := of_decide_eq_true h; omega
  refine Acc.cast (Acc.bind acc_LOAD fun _ _ => Acc.bind acc_LOAD fun _ _ => Acc.bind (h.p12 _) fun _ _ =>
    Acc.bind (acc_prfAbsorb h _ _ _) fun _ _ => Acc.bind (acc_prfSqueeze h _ _ _) fun _ _ => Acc.pure trivial) ?_ ?_
  · rw [range'_split k 8 8]
    gacc_list
  · gacc_list

theorem acc_auth_verify (hB : B.Silent e) (iv : Word) (n : Nat) (sp h inp len k : Nat) :
    Acc Any1 (crypto_auth_verify_with B iv n e sp h inp len k)
      (List.range' k 16 ++ List.range' inp len ++ zipped h sp n) (List.range' sp n) := by
  unfold crypto_auth_verify_with
  refine Acc.bind0 (R := Any1) (.alloc (.ret trivial)) fun _ _ => ?_
  refine Acc.bind' (acc_crypto_prf hB _ _ _ _ _ _ _ _ (by omega)) (fun _ _ => ?_) rfl (List.append_nil _).symm
  refine Acc.then0 (acc_tagDiff _ _ _) fun _ _ => Acc.bind0 (R := Any1) (.free (.ret trivial)) fun _ _ => Acc.pure trivial

theorem acc_prfs_crypto_prf (h : B.Silent e) (sp out outlen inp inlen k : Nat) (hi : inlen ≤ 16) (ho : outlen ≤ 16) :
    Acc Any1 (prfs_crypto_prf B e sp out outlen inp inlen k) (List.range' k 16 ++ List.range' inp inlen)
      (List.range' out outlen) := by
  unfold prfs_crypto_prf
  refine Acc.ifc (fun h => ?_) (fun _ => ?_)
  · have := of_decide_eq_true h; omega
  rw [range'_split k 8 8, List.append_assoc]
  refine Acc.bind' acc_LOAD (fun _ _ => ?_) rfl (List.nil_append _).symm
  refine Acc.bind' acc_LOAD (fun _ _ => ?_) rfl (List.nil_append _).symm
  refine Acc.bind' (R := Any1) (r1 := List.range' inp inlen) (w1 := []) ?_ (fun _ _ => ?_) (List.append_nil _).symm
    (List.nil_append _).symm
  · refine Acc.ifc (fun h => ?_) (fun h => ?_)
    · have := of_decide_eq_true h
      refine Acc.cast (by gacc_seq) ?_ (by gacc_list)
      gacc_list
    · refine Acc.ifc (fun h => ?_) (fun h => ?_)
      · refine Acc.cast (by gacc_seq) (by gacc_list) (by gacc_list)
      · have : inlen = 0 := by simpa using h
        subst this
        exact Acc.pure trivial
  · refine Acc.bind0 (h.p12 _) fun _ _ => ?_
    refine Acc.then0 (R := Any1) (Acc.ifc (fun h => ?_) (fun h => ?_)) fun _ _ => Acc.pure trivial
    · have := of_decide_eq_true h
      refine Acc.cast (by gacc_seq) (by gacc_list) ?_
      gacc_list
    · refine Acc.ifc (fun h => ?_) (fun h => ?_)
      · exact acc_STOREBYTES
      · have : outlen = 0 := by simpa using h
        subst this
        exact Acc.pure trivial

theorem acc_prfs_auth_verify (hB : B.Silent e) (sp h inp len k : Nat) (hl : len ≤ 16) :
    Acc Any1 (prfs_crypto_auth_verify B e sp h inp len k)
      (List.range' k 16 ++ List.range' inp len ++ zipped h sp 16) (List.range' sp 16) := by
  unfold prfs_crypto_auth_verify
  refine Acc.ifc (fun h => ?_) (fun _ => ?_)
  · have := of_decide_eq_true h; omega
  refine Acc.bind0 (R := Any1) (.alloc (.ret trivial)) fun _ _ => ?_
  refine Acc.bind' (acc_prfs_crypto_prf hB _ _ _ _ _ _ hl (by omega)) (fun _ _ => ?_) rfl (List.append_nil _).symm
  refine Acc.then0 (acc_tagDiff _ _ _) fun _ _ => Acc.bind0 (R := Any1) (.free (.ret trivial)) fun _ _ => Acc.pure trivial

end Ascon.Gen
