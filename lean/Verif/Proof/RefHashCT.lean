import Verif.Model.RefHash
import Verif.Model.RefPrf
import Verif.Proof.RefAeadCT
/-!
# The reference hash and PRF code is constant time
-/

namespace Ascon.Ref

open Ascon.C

theorem sim_hashAbsorb (s s' : State) (p n : Nat) : Sim Any (hashAbsorb s p n) (hashAbsorb s' p n) := by
  unfold hashAbsorb
  refine Sim.bind (R := fun a b => a.2 = b.2) (Sim.loop ?_ ?_ _ rfl) ?_
  · rintro ⟨_, _, _⟩ ⟨_, _, _⟩ h; simp at h; simp [h]
  · rintro ⟨a, p, q⟩ ⟨b, p', q'⟩ h
    simp at h; obtain ⟨rfl, rfl⟩ := h
    unfold hashAbsorbStep
    refine Sim.bind (R := Any) (by ct_step) fun _ _ _ => ?_
    exact Sim.pure rfl
  · rintro ⟨a, p, q⟩ ⟨b, p', q'⟩ h
    simp at h; obtain ⟨rfl, rfl⟩ := h
    simp only
    ct_seq

theorem sim_hashSqueeze (s s' : State) (p n : Nat) : Sim Any (hashSqueeze s p n) (hashSqueeze s' p n) := by
  unfold hashSqueeze
  refine Sim.bind (R := fun a b => a.2 = b.2) (Sim.loop ?_ ?_ _ rfl) ?_
  · rintro ⟨_, _, _⟩ ⟨_, _, _⟩ h; simp at h; simp [h]
  · rintro ⟨a, p, q⟩ ⟨b, p', q'⟩ h
    simp at h; obtain ⟨rfl, rfl⟩ := h
    unfold hashSqueezeStep
    refine Sim.bind (R := Any) (by ct_step) fun _ _ _ => ?_
    exact Sim.pure rfl
  · rintro ⟨a, p, q⟩ ⟨b, p', q'⟩ h
    simp at h; obtain ⟨rfl, rfl⟩ := h
    simp only
    ct_seq

theorem sim_hash_with (iv : Word) (n : Nat) (e : Endian) (sp out inp len : Nat) :
    Sim Any (crypto_hash_with iv n e sp out inp len) (crypto_hash_with iv n e sp out inp len) := by
  unfold crypto_hash_with
  refine Sim.bind (sim_hashAbsorb _ _ _ _) fun _ _ _ => ?_
  exact Sim.bind (sim_hashSqueeze _ _ _ _) fun _ _ _ => Sim.pure trivial

theorem sim_cxof (e : Endian) (sp out outlen inp inlen cs cslen : Nat) :
    Sim Any (crypto_cxof e sp out outlen inp inlen cs cslen) (crypto_cxof e sp out outlen inp inlen cs cslen) := by
  unfold crypto_cxof
  refine Sim.bind (sim_hashAbsorb _ _ _ _) fun _ _ _ => ?_
  refine Sim.bind (sim_hashAbsorb _ _ _ _) fun _ _ _ => ?_
  exact Sim.bind (sim_hashSqueeze _ _ _ _) fun _ _ _ => Sim.pure trivial

theorem sim_xorX (s s' : State) (i : Nat) (w w' : Word) : Sim Any (xorX s i w) (xorX s' i w') := by
  match i with
  | 0 | 1 | 2 | 3 | 4 => exact .ret trivial
  | _ + 5 => exact .ub

theorem sim_getX (s s' : State) (i : Nat) : Sim Any (getX s i) (getX s' i) := by
  match i with
  | 0 | 1 | 2 | 3 | 4 => exact .ret trivial
  | _ + 5 => exact .ub

theorem sim_prfAbsorb (s s' : State) (p n : Nat) : Sim Any (prfAbsorb s p n) (prfAbsorb s' p n) := by
  unfold prfAbsorb
  refine Sim.bind (R := fun a b => a.2 = b.2) (Sim.loop ?_ ?_ _ rfl) ?_
  · rintro ⟨_, _, _, _⟩ ⟨_, _, _, _⟩ h; simp at h; simp [h]
  · rintro ⟨a, i, p, q⟩ ⟨b, i', p', q'⟩ h
    simp at h; obtain ⟨rfl, rfl, rfl⟩ := h
    unfold prfAbsorbStep
    refine Sim.bind (R := Any) (by ct_step) fun _ _ _ => ?_
    refine Sim.bind (sim_xorX _ _ _ _ _) fun _ _ _ => ?_
    refine Sim.bind (R := Eq) (Sim.ifc (Sim.pure rfl) (Sim.pure rfl)) fun _ _ h => ?_
    subst h
    refine Sim.bind (R := Any) (Sim.ifc (Sim.pure trivial) (Sim.pure trivial)) fun _ _ _ => ?_
    exact Sim.pure rfl
  · rintro ⟨a, i, p, q⟩ ⟨b, i', p', q'⟩ h
    simp at h; obtain ⟨rfl, rfl, rfl⟩ := h
    simp only
    refine Sim.bind (R := Any) (by ct_step) fun _ _ _ => ?_
    refine Sim.bind (sim_xorX _ _ _ _ _) fun _ _ _ => ?_
    refine Sim.bind (R := Any) (by ct_step) fun _ _ _ => ?_
    refine Sim.bind (sim_xorX _ _ _ _ _) fun _ _ _ => ?_
    ct_seq

theorem sim_prfSqueeze (s s' : State) (p n : Nat) : Sim Any (prfSqueeze s p n) (prfSqueeze s' p n) := by
  unfold prfSqueeze
  refine Sim.bind (R := fun a b => a.2 = b.2) (Sim.loop ?_ ?_ _ rfl) ?_
  · rintro ⟨_, _, _, _⟩ ⟨_, _, _, _⟩ h; simp at h; simp [h]
  · rintro ⟨a, i, p, q⟩ ⟨b, i', p', q'⟩ h
    simp at h; obtain ⟨rfl, rfl, rfl⟩ := h
    unfold prfSqueezeStep
    refine Sim.bind (sim_getX _ _ _) fun _ _ _ => ?_
    refine Sim.bind (R := Any) (by ct_step) fun _ _ _ => ?_
    refine Sim.bind (R := Eq) (Sim.ifc (Sim.pure rfl) (Sim.pure rfl)) fun _ _ h => ?_
    subst h
    refine Sim.bind (R := Any) (Sim.ifc (Sim.pure trivial) (Sim.pure trivial)) fun _ _ _ => ?_
    exact Sim.pure rfl
  · rintro ⟨a, i, p, q⟩ ⟨b, i', p', q'⟩ h
    simp at h; obtain ⟨rfl, rfl, rfl⟩ := h
    simp only
    refine Sim.bind (sim_getX _ _ _) fun _ _ _ => ?_
    ct_seq

theorem sim_prf_with (iv : Word) (n : Nat) (e : Endian) (sp out outlen inp inlen k : Nat) :
    Sim Any (crypto_prf_with iv n e sp out outlen inp inlen k)
      (crypto_prf_with iv n e sp out outlen inp inlen k) := by
  unfold crypto_prf_with
  refine Sim.ifc (Sim.pure trivial) ?_
  refine Sim.bind (R := Any) (by ct_step) fun _ _ _ => ?_
  refine Sim.bind (R := Any) (by ct_step) fun _ _ _ => ?_
  refine Sim.bind (sim_prfAbsorb _ _ _ _) fun _ _ _ => ?_
  exact Sim.bind (sim_prfSqueeze _ _ _ _) fun _ _ _ => Sim.pure trivial

theorem sim_tagDiff (n h t : Nat) : Sim Any (tagDiff n h t) (tagDiff n h t) := by
  unfold tagDiff
  refine Sim.bind (R := Any) (Sim.forUp (fun _ _ _ _ => ?_) _ _ trivial) fun _ _ _ => Sim.pure trivial
  ct_seq

theorem sim_verify_with (iv : Word) (n : Nat) (e : Endian) (sp h inp len k : Nat) :
    Sim Any (crypto_auth_verify_with iv n e sp h inp len k)
      (crypto_auth_verify_with iv n e sp h inp len k) := by
  unfold crypto_auth_verify_with
  refine Sim.bind (R := Any) (by ct_step) fun _ _ _ => ?_
  refine Sim.bind (sim_prf_with _ _ _ _ _ _ _ _ _) fun _ _ _ => ?_
  refine Sim.bind (sim_tagDiff _ _ _) fun _ _ _ => ?_
  ct_seq

theorem sim_prfs (e : Endian) (sp out outlen inp inlen k : Nat) :
    Sim Any (prfs_crypto_prf e sp out outlen inp inlen k) (prfs_crypto_prf e sp out outlen inp inlen k) := by
  unfold prfs_crypto_prf
  refine Sim.ifc (Sim.pure trivial) ?_
  refine Sim.bind (R := Any) (by ct_step) fun _ _ _ => ?_
  refine Sim.bind (R := Any) (by ct_step) fun _ _ _ => ?_
  refine Sim.bind (R := Any) (Sim.ifc (by ct_seq) (Sim.ifc (by ct_seq) (Sim.pure trivial))) fun _ _ _ => ?_
  refine Sim.bind (R := Any) (Sim.ifc (by ct_seq) (Sim.ifc (by ct_seq) (Sim.pure trivial))) fun _ _ _ => ?_
  exact Sim.pure trivial

theorem sim_prfs_verify (e : Endian) (sp h inp len k : Nat) :
    Sim Any (prfs_crypto_auth_verify e sp h inp len k) (prfs_crypto_auth_verify e sp h inp len k) := by
  unfold prfs_crypto_auth_verify
  refine Sim.ifc (Sim.pure trivial) ?_
  refine Sim.bind (R := Any) (by ct_step) fun _ _ _ => ?_
  refine Sim.bind (sim_prfs _ _ _ _ _ _ _) fun _ _ _ => ?_
  refine Sim.bind (sim_tagDiff _ _ _) fun _ _ _ => ?_
  ct_seq

end Ascon.Ref
