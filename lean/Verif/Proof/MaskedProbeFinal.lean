import Verif.Proof.MaskedProbe
/-!
# First-order probing security of the final phase of the masked code: proof

The same invariant for code that also uses shares of other values (the key), whatever those shares are.
-/

namespace Ascon.Masked.Probe

open Ascon.Masked Ascon.Spec

/-- Pieces of code `f θ`: each turns uniform sharings into uniform sharings, and no single value that appears depends on
the secret or on `θ`. -/
structure Fam {Θ : Type} (f : Θ → Op) : Prop where
  ex : ∃ (F : Θ → Val → Val) (π π' : Θ → Val → Val → Val), (∀ θ S m, (f θ (share S m)).1 = share (F θ S) (π θ S m)) ∧
    (∀ θ S m, π' θ S (π θ S m) = m) ∧ ∀ θ S m, π θ S (π' θ S m) = m
  len : ∃ n, ∀ θ s, (f θ s).2.length = n
  probe : ∀ (θ θ' : Θ) (S S' : Val) (j : Nat),
    SameDist (fun m => (f θ (share S m)).2[j]?) (fun m => (f θ' (share S' m)).2[j]?)

theorem Good.fam {Θ : Type} {f : Op} (h : Good f) : Fam (fun _ : Θ => f) := by
  obtain ⟨F, π, π', h1, h2, h3⟩ := h.ex
  obtain ⟨n, hn⟩ := h.len
  exact ⟨⟨fun _ => F, fun _ => π, fun _ => π', fun _ => h1, fun _ => h2, fun _ => h3⟩, ⟨n, fun _ => hn⟩,
    fun _ _ => h.probe⟩

theorem Fam.then {Θ : Type} {f g : Θ → Op} (hf : Fam f) (hg : Fam g) : Fam (fun θ => (f θ).then (g θ)) := by
  obtain ⟨F, π, π', h1, h2, h3⟩ := hf.ex
  obtain ⟨F2, π2, π2', k1, k2, k3⟩ := hg.ex
  obtain ⟨n, hn⟩ := hf.len
  obtain ⟨n2, hn2⟩ := hg.len
  have e1 : ∀ θ s, ((f θ).then (g θ) s).1 = (g θ (f θ s).1).1 := fun _ s => rfl
  have e2 : ∀ θ s, ((f θ).then (g θ) s).2 = (f θ s).2 ++ (g θ (f θ s).1).2 := fun _ s => rfl
  refine ⟨⟨fun θ S => F2 θ (F θ S), fun θ S m => π2 θ (F θ S) (π θ S m), fun θ S m => π' θ S (π2' θ (F θ S) m),
    fun θ S m => ?_, fun θ S m => ?_, fun θ S m => ?_⟩, ⟨n + n2, fun θ s => ?_⟩, fun θ θ' S S' j => ?_⟩
  · rw [e1, h1, k1]
  · simp only [k2, h2]
  · simp only [h3, k3]
  · rw [e2, List.length_append, hn, hn2]
  · by_cases hj : j < n
    · obtain ⟨φ, ψ, p1, p2, p3⟩ := hf.probe θ θ' S S' j
      refine ⟨φ, ψ, p1, p2, fun m => ?_⟩
      simp only [e2]
      rw [List.getElem?_append_left (by rw [hn]; exact hj), List.getElem?_append_left (by rw [hn]; exact hj)]
      exact p3 m
    · obtain ⟨φ, ψ, p1, p2, p3⟩ := hg.probe θ θ' (F θ S) (F θ' S') (j - n)
      refine ⟨fun m => π' θ' S' (φ (π θ S m)), fun m => π' θ S (ψ (π θ' S' m)), fun m => ?_, fun m => ?_, fun m => ?_⟩
      · simp only [h3, p1, h2]
      · simp only [h3, p2, h2]
      · simp only [e2]
        rw [List.getElem?_append_right (by rw [hn]; omega), List.getElem?_append_right (by rw [hn]; omega), hn, hn,
          h1, h1, h3]
        exact p3 _

theorem fam_nil {Θ : Type} : Fam (fun _ : Θ => seq []) := good_nil.fam

/-- Values blinded by the mask of `c`, in two programs. -/
theorem blind2 {V : Type} (c : Fin 6) (i : Fin 2) (d d' : U32) (h : U32 → V) (p p' : Val → V)
    (hp : ∀ m, p m = h (m c i ^^^ d)) (hp' : ∀ m, p' m = h (m c i ^^^ d')) : SameDist p p' := by
  have inv : ∀ d d' m, upd (upd m c i (m c i ^^^ (d ^^^ d'))) c i
      (upd m c i (m c i ^^^ (d ^^^ d')) c i ^^^ (d' ^^^ d)) = m := by
    intro d d' m
    rw [upd_upd, upd_same, BitVec.xor_comm d', xx', upd_self]
  refine ⟨fun m => upd m c i (m c i ^^^ (d ^^^ d')), fun m => upd m c i (m c i ^^^ (d' ^^^ d)), inv d d', inv d' d,
    fun m => ?_⟩
  simp only [hp, hp', upd_same]
  rw [← BitVec.xor_assoc, xx']

theorem fam_xorShare {Θ : Type} (d : Fin 2) (k : Fin 6) (i : Fin 2) (v : Θ → U32) :
    Fam (fun θ => xorShare d k i (v θ)) := by
  revert d
  refine two ?_ ?_
  · refine ⟨⟨fun θ S => upd S k i (S k i ^^^ v θ), fun _ _ m => m, fun _ _ m => m, fun θ S m => ?_, fun _ _ _ => rfl,
      fun _ _ _ => rfl⟩, ⟨1, fun _ _ => rfl⟩, fun θ θ' S S' j => ?_⟩
    · have e := hom_put0 k i (· ^^^ v θ) (fun x y => xorc (v θ) x y) S m
      refine st_ext ?_ ?_
      · rw [share0, ← e]
        funext a b
        show put (share S m) 0 k i _ 0 a b = _
        unfold put upd
        simp [share0]
      · funext a b
        show put (share S m) 0 k i (share S m 0 k i ^^^ v θ) 1 a b = _
        simp [put, share1]
    · match j with
      | 0 =>
        refine blind2 k i (ROR32 (S k i ^^^ v θ) 27) (ROR32 (S' k i ^^^ v θ') 27) (fun x => some (ROR32 x 5)) _ _
          (fun m => ?_) (fun m => ?_)
        · show some ((S k i ^^^ ROR32 (m k i) 5) ^^^ v θ) = _
          rw [ROR32_xor _ _ _ (by omega), ROR32_27_5, xorc, BitVec.xor_comm]
        · show some ((S' k i ^^^ ROR32 (m k i) 5) ^^^ v θ') = _
          rw [ROR32_xor _ _ _ (by omega), ROR32_27_5, xorc, BitVec.xor_comm]
      | j + 1 => exact sameDist_refl fun _ => rfl
  · have up : ∀ (w : U32) m, upd (upd m k i (m k i ^^^ w)) k i (upd m k i (m k i ^^^ w) k i ^^^ w) = m := by
      intro w m
      rw [upd_upd, upd_same, xx', upd_self]
    refine ⟨⟨fun θ S => upd S k i (S k i ^^^ ROR32 (v θ) 5), fun θ _ m => upd m k i (m k i ^^^ v θ),
      fun θ _ m => upd m k i (m k i ^^^ v θ), fun θ S m => ?_, fun θ _ m => up (v θ) m,
      fun θ _ m => up (v θ) m⟩, ⟨1, fun _ _ => rfl⟩, fun θ θ' S S' j => ?_⟩
    · refine st_ext ?_ ?_
      · funext a b
        show put (share S m) 1 k i (share S m 1 k i ^^^ v θ) 0 a b = _
        by_cases hab : a = k ∧ b = i
        · simp only [put, share0, xr, upd, hab, and_self, if_true]
          rw [if_neg (by simp), ROR32_xor _ _ _ (by omega)]
          generalize ROR32 (m k i) 5 = x, ROR32 (v θ) 5 = y
          rw [BitVec.xor_comm x, ← BitVec.xor_assoc, xx']
        · simp [put, share0, xr, upd, hab]
      · funext a b
        show put (share S m) 1 k i (share S m 1 k i ^^^ v θ) 1 a b = _
        simp [put, share1, upd]
    · match j with
      | 0 => exact blind2 k i (v θ) (v θ') some _ _ (fun m => rfl) (fun m => rfl)
      | j + 1 => exact sameDist_refl fun _ => rfl

theorem xorConst_eq (k : Fin 6) (i : Fin 2) (C : U32) : xorConst k i C = xorShare 0 k i C := rfl

theorem fam_cons {Θ : Type} {f : Θ → Op} {l : Θ → List Op} (hf : Fam f) (hg : Fam (fun θ => seq (l θ))) :
    Fam (fun θ => seq (f θ :: l θ)) := hf.then hg

attribute [local irreducible] perm xorConst reuse

theorem fam_mxor {Θ : Type} (k : Fin 6) (w : Θ → Fin 2 → Fin 2 → U32) : Fam (fun θ => mxor k (w θ)) := by
  unfold mxor
  exact fam_cons (fam_xorShare 0 k 0 fun θ => w θ 0 0) (fam_cons (fam_xorShare 0 k 1 fun θ => w θ 0 1)
    (fam_cons (fam_xorShare 1 k 0 fun θ => w θ 1 0) (fam_cons (fam_xorShare 1 k 1 fun θ => w θ 1 1) fam_nil)))

theorem fam_final {Θ : Type} (K1 K2 : Θ → Fin 2 → Fin 2 → U32) : Fam (fun θ => final (K1 θ) (K2 θ)) := by
  unfold final
  exact fam_cons (fam_mxor 2 K1) (fam_cons (fam_mxor 3 K2) (fam_cons (good_perm 12).fam (fam_cons (fam_mxor 3 K1)
    (fam_cons (fam_mxor 4 K2) fam_nil))))

theorem fam_xortag {Θ : Type} (t0 t1 : Θ → Fin 2 → U32) : Fam (fun θ => xortag (t0 θ) (t1 θ)) := by
  unfold xortag
  simp only [xorConst_eq]
  exact fam_cons (good_reuse 0).fam (fam_cons (good_reuse 1).fam (fam_cons (good_reuse 2).fam
    (fam_cons (fam_xorShare 0 3 0 fun θ => t0 θ 0) (fam_cons (fam_xorShare 0 3 1 fun θ => t0 θ 1)
    (fam_cons (fam_xorShare 0 4 0 fun θ => t1 θ 0) (fam_cons (fam_xorShare 0 4 1 fun θ => t1 θ 1)
    (fam_cons (good_perm 8).fam (fam_cons (fam_xorShare _ _ _ _) (fam_cons (fam_xorShare _ _ _ _)
    (fam_cons (fam_xorShare _ _ _ _) (fam_cons (fam_xorShare _ _ _ _) fam_nil)))))))))))

end Ascon.Masked.Probe
