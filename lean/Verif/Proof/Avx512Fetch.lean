import Verif.Proof.GenFetch
import Verif.Proof.Avx512CT
/-!
# src/avx512 reads and writes every byte once
-/

namespace Ascon.Avx512

open Ascon.C
open Ascon.Gen (opt64 opt64_ct opt64_ok acc_LOAD acc_LOADBYTES acc_STORE acc_STOREBYTES acc_loadkey acc_adFinal acc_encFinal
  acc_decFinal acc_gettag acc_verify Backend.Silent)

variable {e : Endian}

theorem silent (e : Endian) : opt64.Silent e := .of (opt64_ok e) (opt64_ct e)

theorem acc_maskzLoad (mask : BitVec 64) (p : Nat) (i n : Nat) :
    Acc Any1 (maskzLoad mask p i n) (((List.range' i n).filter fun i => mask.getLsbD i).map (p + ·)) [] := by
  induction n generalizing i with
  | zero => exact .ret trivial
  | succ n ih =>
    unfold maskzLoad
    rw [List.range'_succ, List.filter_cons]
    split
    · exact .load fun _ => (ih _).then0 fun _ _ => .ret trivial
    · exact (ih _).then0 fun _ _ => .ret trivial

theorem acc_maskStore (mask : BitVec 64) (p : Nat) (i : Nat) (a : List Byte) :
    Acc Any1 (maskStore mask p i a) [] (((List.range' i a.length).filter fun i => mask.getLsbD i).map (p + ·)) := by
  induction a generalizing i with
  | nil => exact .ret trivial
  | cons x xs ih =>
    unfold maskStore
    rw [List.length_cons, List.range'_succ, List.filter_cons]
    split
    · exact .store (ih _)
    · exact ih _

theorem filter16 : ((List.range' 0 64).filter fun i => mask16.getLsbD i) = List.range' 0 16 := by decide +kernel

theorem filter8 : ((List.range' 0 64).filter fun i => (0xff : BitVec 64).getLsbD i) = List.range' 0 8 := by decide +kernel

theorem length_toBytes (v : V) : (toBytes v).length = 64 := by
  simp [toBytes, List.range, List.range.loop, Spec.bytes64]

theorem acc_load16 {p : Nat} : Acc Any1 (maskz_loadu_epi8 mask16 p) (List.range' p 16) [] := by
  refine Acc.cast ((acc_maskzLoad mask16 p 0 64).then0 fun _ _ => Acc.pure trivial) ?_ rfl
  rw [filter16, List.map_add_range']
  rfl

theorem acc_load8 {p : Nat} : Acc Any1 (maskz_loadu_epi8 0xff p) (List.range' p 8) [] := by
  refine Acc.cast ((acc_maskzLoad 0xff p 0 64).then0 fun _ _ => Acc.pure trivial) ?_ rfl
  rw [filter8, List.map_add_range']
  rfl

theorem acc_store16 {p : Nat} {v : V} : Acc Any1 (mask_storeu_epi8 p mask16 v) [] (List.range' p 16) := by
  refine Acc.cast (acc_maskStore mask16 p 0 _) rfl ?_
  rw [length_toBytes, filter16, List.map_add_range']
  rfl

theorem acc_store8 {p : Nat} {v : V} : Acc Any1 (mask_storeu_epi8 p 0xff v) [] (List.range' p 8) := by
  refine Acc.cast (acc_maskStore 0xff p 0 _) rfl ?_
  rw [length_toBytes, filter8, List.map_add_range']
  rfl

theorem acc_initaead (junk : Z) (key : Word × Word) (n : Nat) :
    Acc Any1 (ascon_initaead e junk key n) (List.range' n 16) [] := by
  unfold ascon_initaead
  refine Acc.cast (Acc.bind acc_LOAD fun _ _ => Acc.bind acc_LOAD fun _ _ => Acc.pure trivial) ?_ rfl
  gacc_list

theorem acc_adata (s : Z) (p n : Nat) : Acc Any1 (ascon_adata e s p n) (List.range' p n) [] := by
  unfold ascon_adata
  refine Acc.then0 (R := Any1) (Acc.ifc (fun _ => ?_) (fun h => ?_)) fun _ _ => Acc.pure trivial
  · refine Acc.bind' (R := fun r => r.2 = (p + n / 16 * 16, n - n / 16 * 16)) (r1 := List.range' p (n / 16 * 16)) (w1 := [])
      (r2 := List.range' (p + n / 16 * 16) (n - n / 16 * 16)) (w2 := []) ?_ ?_ (range'_join rfl (by omega)).symm rfl
    · refine (Acc.blocks (At := fun i (r : Z × Nat × Nat) => r.2 = (p + i * 16, n - i * 16)) (q := n / 16) (pr := p)
        (pw := 0) (Rr := 16) (Rw := 0) (by simp) ?_ ?_ (by omega)).cast rfl (by gacc_list)
      · rintro i ⟨s, a, b⟩ hi h
        simp only [Prod.mk.injEq] at h
        obtain ⟨rfl, rfl⟩ := h
        simp only [decide_eq_decide]
        omega
      · rintro i ⟨s, a, b⟩ hi h'
        simp only [Prod.mk.injEq] at h'
        obtain ⟨rfl, rfl⟩ := h'
        unfold adStep
        refine Acc.then0 acc_load16 fun _ _ => Acc.pure ?_
        simp only [Prod.mk.injEq]; omega
    · rintro ⟨s, a, b⟩ h'
      simp only [Prod.mk.injEq] at h'
      obtain ⟨rfl, rfl⟩ := h'
      exact Acc.then0 (acc_adFinal (silent e) _ _ _ (by omega)) fun _ _ => Acc.pure trivial
  · have : n = 0 := by simpa using h
    subst this
    exact Acc.pure trivial

theorem acc_encrypt_body (s : Z) (c m n : Nat) :
    Acc Any1 (ascon_encrypt e s c m n) (List.range' m n) (List.range' c n) := by
  unfold ascon_encrypt
  refine Acc.bind' (R := fun r => r.2 = (c + n / 16 * 16, m + n / 16 * 16, n - n / 16 * 16))
    (r1 := List.range' m (n / 16 * 16)) (w1 := List.range' c (n / 16 * 16))
    (r2 := List.range' (m + n / 16 * 16) (n - n / 16 * 16)) (w2 := List.range' (c + n / 16 * 16) (n - n / 16 * 16)) ?_ ?_
    (range'_join rfl (by omega)).symm (range'_join rfl (by omega)).symm
  · refine Acc.blocks (At := fun i (r : Z × Nat × Nat × Nat) => r.2 = (c + i * 16, m + i * 16, n - i * 16))
      (q := n / 16) (pr := m) (pw := c) (Rr := 16) (Rw := 16) (by simp) ?_ ?_ (by omega)
    · rintro i ⟨s, a, b, d⟩ hi h
      simp only [Prod.mk.injEq] at h
      obtain ⟨rfl, rfl, rfl⟩ := h
      simp only [decide_eq_decide]
      omega
    · rintro i ⟨s, a, b, d⟩ hi h'
      simp only [Prod.mk.injEq] at h'
      obtain ⟨rfl, rfl, rfl⟩ := h'
      unfold encStep
      refine Acc.bind' acc_load16 (fun _ _ => Acc.then0 acc_store16 fun _ _ => Acc.pure ?_) (List.append_nil _).symm rfl
      simp only [Prod.mk.injEq]; omega
  · rintro ⟨s, a, b, d⟩ h'
    simp only [Prod.mk.injEq] at h'
    obtain ⟨rfl, rfl, rfl⟩ := h'
    exact (acc_encFinal (silent e) _ _ _ _ (by omega)).then0 fun _ _ => Acc.pure trivial

theorem acc_decrypt_body (s : Z) (m c n : Nat) :
    Acc Any1 (ascon_decrypt e s m c n) (List.range' c n) (List.range' m n) := by
  unfold ascon_decrypt
  refine Acc.bind' (R := fun r => r.2 = (m + n / 16 * 16, c + n / 16 * 16, n - n / 16 * 16))
    (r1 := List.range' c (n / 16 * 16)) (w1 := List.range' m (n / 16 * 16))
    (r2 := List.range' (c + n / 16 * 16) (n - n / 16 * 16)) (w2 := List.range' (m + n / 16 * 16) (n - n / 16 * 16)) ?_ ?_
    (range'_join rfl (by omega)).symm (range'_join rfl (by omega)).symm
  · refine Acc.blocks (At := fun i (r : Z × Nat × Nat × Nat) => r.2 = (m + i * 16, c + i * 16, n - i * 16))
      (q := n / 16) (pr := c) (pw := m) (Rr := 16) (Rw := 16) (by simp) ?_ ?_ (by omega)
    · rintro i ⟨s, a, b, d⟩ hi h
      simp only [Prod.mk.injEq] at h
      obtain ⟨rfl, rfl, rfl⟩ := h
      simp only [decide_eq_decide]
      omega
    · rintro i ⟨s, a, b, d⟩ hi h'
      simp only [Prod.mk.injEq] at h'
      obtain ⟨rfl, rfl, rfl⟩ := h'
      unfold decStep
      refine Acc.bind' acc_load16 (fun _ _ => Acc.then0 acc_store16 fun _ _ => Acc.pure ?_) (List.append_nil _).symm rfl
      simp only [Prod.mk.injEq]; omega
  · rintro ⟨s, a, b, d⟩ h'
    simp only [Prod.mk.injEq] at h'
    obtain ⟨rfl, rfl, rfl⟩ := h'
    exact (acc_decFinal (silent e) _ _ _ _ (by omega)).then0 fun _ _ => Acc.pure trivial

theorem acc_encrypt (junk : Z) (sp c clen m mlen ad adlen nsec npub k : Nat) :
    Acc Any1 (crypto_aead_encrypt junk e sp c clen m mlen ad adlen nsec npub k)
      (List.range' k 16 ++ List.range' npub 16 ++ List.range' ad adlen ++ List.range' m mlen)
      (List.range' clen 8 ++ List.range' c (mlen + 16)) := by
  unfold crypto_aead_encrypt ascon_aead_encrypt
  refine Acc.cast (Acc.bind Acc.store64 fun _ _ => Acc.bind (acc_loadkey k) fun _ _ =>
    Acc.bind (acc_initaead _ _ npub) fun _ _ => Acc.bind (acc_adata _ ad adlen) fun _ _ =>
    Acc.bind (acc_encrypt_body _ c m mlen) fun _ _ =>
    Acc.bind (acc_gettag _ _) fun _ _ => Acc.pure trivial) ?_ ?_
  · gacc_list
  · rw [range'_split c mlen 16]
    gacc_list

theorem acc_decrypt (junk : Z) (sp m mlen nsec c clen ad adlen npub k : Nat) (hc : 16 ≤ clen) :
    Acc Any1 (crypto_aead_decrypt junk e sp m mlen nsec c clen ad adlen npub k)
      (List.range' k 16 ++ List.range' npub 16 ++ List.range' ad adlen ++ List.range' c clen)
      (List.range' mlen 8 ++ List.range' m (clen - 16)) := by
  unfold crypto_aead_decrypt ascon_aead_decrypt
  refine Acc.ifc (fun h => ?_) (fun _ => ?_)
  · have := of_decide_eq_true h; omega
  refine Acc.cast (Acc.bind Acc.store64 fun _ _ => Acc.bind (acc_loadkey k) fun _ _ =>
    Acc.bind (acc_initaead _ _ npub) fun _ _ => Acc.bind (acc_adata _ ad adlen) fun _ _ =>
    Acc.bind (acc_decrypt_body _ m c (clen - 16)) fun _ _ =>
    acc_verify _ _) ?_ ?_
  · rw [show List.range' c clen = List.range' c (clen - 16) ++ List.range' (c + (clen - 16)) 16 from
      (range'_join rfl (by omega)).symm]
    gacc_list
  · gacc_list

theorem acc_absorb (s : Z) (p n : Nat) : Acc Any1 (ascon_absorb e s p n) (List.range' p n) [] := by
  unfold ascon_absorb
  refine Acc.bind' (R := fun r => r.2 = (p + n / 8 * 8, n - n / 8 * 8)) (r1 := List.range' p (n / 8 * 8)) (w1 := [])
    (w2 := []) (r2 := List.range' (p + n / 8 * 8) (n - n / 8 * 8)) ?_ ?_ (range'_join rfl (by omega)).symm rfl
  · refine (Acc.blocks (At := fun i (r : Z × Nat × Nat) => r.2 = (p + i * 8, n - i * 8)) (q := n / 8) (pr := p)
      (pw := 0) (Rr := 8) (Rw := 0) (by simp) ?_ ?_ (by omega)).cast rfl (by gacc_list)
    · rintro i ⟨s, a, b⟩ hi h
      simp only [Prod.mk.injEq] at h
      obtain ⟨rfl, rfl⟩ := h
      simp only [decide_eq_decide]
      omega
    · rintro i ⟨s, a, b⟩ hi h'
      simp only [Prod.mk.injEq] at h'
      obtain ⟨rfl, rfl⟩ := h'
      unfold hashAbsorbStep
      refine Acc.then0 acc_load8 fun _ _ => Acc.pure ?_
      simp only [Prod.mk.injEq]; omega
  · rintro ⟨s, a, b⟩ h'
    simp only [Prod.mk.injEq] at h'
    obtain ⟨rfl, rfl⟩ := h'
    exact Acc.then0 acc_LOADBYTES fun _ _ => Acc.bind0 ((silent e).pad _ (by omega)) fun _ _ => Acc.pure trivial

theorem acc_squeeze (s : Z) (p n : Nat) : Acc Any1 (ascon_squeeze e s p n) [] (List.range' p n) := by
  unfold ascon_squeeze
  refine Acc.bind' (R := fun r => r.2 = (p + (n - 1) / 8 * 8, n - (n - 1) / 8 * 8)) (r1 := []) (r2 := [])
    (w1 := List.range' p ((n - 1) / 8 * 8))
    (w2 := List.range' (p + (n - 1) / 8 * 8) (n - (n - 1) / 8 * 8)) ?_ ?_ rfl (range'_join rfl (by omega)).symm
  · refine (Acc.blocks (At := fun i (r : Z × Nat × Nat) => r.2 = (p + i * 8, n - i * 8)) (q := (n - 1) / 8)
      (pr := 0) (pw := p) (Rr := 0) (Rw := 8) (by simp) ?_ ?_ (by omega)).cast (by gacc_list) rfl
    · rintro i ⟨s, a, b⟩ hi h
      simp only [Prod.mk.injEq] at h
      obtain ⟨rfl, rfl⟩ := h
      simp only [decide_eq_decide]
      omega
    · rintro i ⟨s, a, b⟩ hi h'
      simp only [Prod.mk.injEq] at h'
      obtain ⟨rfl, rfl⟩ := h'
      unfold hashSqueezeStep
      refine Acc.then0 acc_store8 fun _ _ => Acc.pure ?_
      simp only [Prod.mk.injEq]; omega
  · rintro ⟨s, a, b⟩ h'
    simp only [Prod.mk.injEq] at h'
    obtain ⟨rfl, rfl⟩ := h'
    exact acc_STOREBYTES

theorem acc_xof (ivs : State) (sp out outlen inp inlen : Nat) :
    Acc Any1 (ascon_xof ivs e sp out outlen inp inlen) (List.range' inp inlen) (List.range' out outlen) := by
  unfold ascon_xof
  refine Acc.bind' (acc_absorb _ _ _) (fun _ _ => ?_) (List.append_nil _).symm (List.nil_append _).symm
  exact (acc_squeeze _ _ _).then0 fun _ _ => Acc.pure trivial

end Ascon.Avx512
