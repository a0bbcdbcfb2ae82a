import Verif.Model.GenAead
import Verif.Proof.GenHash
import Verif.Proof.RefHashCT
/-!
# The common mode files are constant time over every constant-time backend
-/

namespace Ascon.Gen

open Ascon.C
open Ascon.Ref (getX xorX tagDiff sim_xorX sim_getX sim_tagDiff)

variable {B : Backend} {e : Endian}

theorem length_repr64 (e : Endian) (w : Word) : (repr64 e w).length = 8 := by
  cases e <;> simp [repr64, Spec.bytes64]

theorem sim_LOADBYTES {p n : Nat} : Sim Any (LOADBYTES B e p n) (LOADBYTES B e p n) :=
  Sim.bind Sim.require fun _ _ _ => Sim.bind (Sim.loadN _ _) fun _ _ _ => Sim.pure trivial

theorem sim_LOAD {p n : Nat} : Sim Any (LOAD B e p n) (LOAD B e p n) := sim_LOADBYTES

theorem sim_STOREBYTES {p n : Nat} {x y : Word} : Sim Any (STOREBYTES B e p x n) (STOREBYTES B e p y n) :=
  Sim.bind Sim.require fun _ _ _ => Sim.storeN _ (by simp [length_repr64])

theorem sim_STORE {p n : Nat} {x y : Word} : Sim Any (STORE B e p x n) (STORE B e p y n) := sim_STOREBYTES

/-- Apply the rule for one statement of the common code. -/
macro "gct_step" : tactic => `(tactic| first
  | exact sim_LOAD | exact sim_LOADBYTES | exact sim_STORE | exact sim_STOREBYTES
  | exact Backend.CT.pad (by assumption) _ | exact Backend.CT.clear (by assumption) _ _ _
  | exact Backend.CT.p12 (by assumption) _ _ | exact Backend.CT.p8 (by assumption) _ _
  | exact Sim.store64 | exact Sim.load64
  | exact .alloc (.ret trivial) | exact .free (.ret trivial))

/-- Straight-line code with secret results. -/
macro "gct_seq" : tactic => `(tactic|
  repeat (first
    | exact Sim.pure trivial
    | exact Sim.pure rfl
    | (refine Sim.bind (R := Any) (by gct_step) fun _ _ _ => ?_)
    | gct_step))

theorem sim_loadkey (k : Nat) : Sim Any (ascon_loadkey B e k) (ascon_loadkey B e k) := by
  unfold ascon_loadkey; gct_seq

theorem sim_initaead (h : B.CT e) (key key' : Word × Word) (n : Nat) :
    Sim Any (ascon_initaead B e key n) (ascon_initaead B e key' n) := by
  unfold ascon_initaead; gct_seq

theorem sim_adFinal (h : B.CT e) (s s' : State) (p n : Nat) :
    Sim Any (adFinal B e s p n) (adFinal B e s' p n) := by
  unfold adFinal
  refine Sim.bind (R := fun a b => a.2 = b.2) (Sim.ifc (by gct_seq) (Sim.pure rfl)) ?_
  rintro ⟨a, x, p, q⟩ ⟨b, x', p', q'⟩ h
  simp at h; obtain ⟨rfl, rfl, rfl⟩ := h
  simp only
  refine Sim.bind (R := Any) (by gct_step) fun _ _ _ => Sim.ifc ?_ (Sim.pure trivial)
  gct_seq

theorem sim_adata (h : B.CT e) (s s' : State) (p n : Nat) :
    Sim Any (ascon_adata B e s p n) (ascon_adata B e s' p n) := by
  unfold ascon_adata
  refine Sim.bind (R := Any) (Sim.ifc ?_ (Sim.pure trivial)) fun _ _ _ => Sim.pure trivial
  refine Sim.bind (R := fun a b => a.2 = b.2) (Sim.loop ?_ ?_ _ rfl) ?_
  · rintro ⟨_, _, _⟩ ⟨_, _, _⟩ h; simp at h; simp [h]
  · rintro ⟨a, p, q⟩ ⟨b, p', q'⟩ h
    simp at h; obtain ⟨rfl, rfl⟩ := h
    unfold adStep
    gct_seq
  · rintro ⟨a, p, q⟩ ⟨b, p', q'⟩ h
    simp at h; obtain ⟨rfl, rfl⟩ := h
    simp only
    exact Sim.bind (sim_adFinal (by assumption) _ _ _ _) fun _ _ _ => by gct_step

theorem sim_encFinal (h : B.CT e) (s s' : State) (c p n : Nat) :
    Sim Any (encFinal B e s c p n) (encFinal B e s' c p n) := by
  unfold encFinal
  refine Sim.bind (R := fun a b => a.2 = b.2) (Sim.ifc (by gct_seq) (Sim.pure rfl)) ?_
  rintro ⟨a, x, p, q, r⟩ ⟨b, x', p', q', r'⟩ h
  simp at h; obtain ⟨rfl, rfl, rfl, rfl⟩ := h
  simp only
  refine Sim.bind (R := Any) (by gct_step) fun _ _ _ => Sim.ifc ?_ (Sim.pure trivial)
  gct_seq

theorem sim_encrypt (h : B.CT e) (s s' : State) (c p n : Nat) :
    Sim Any (ascon_encrypt B e s c p n) (ascon_encrypt B e s' c p n) := by
  unfold ascon_encrypt
  refine Sim.bind (R := fun a b => a.2 = b.2) (Sim.loop ?_ ?_ _ rfl) ?_
  · rintro ⟨_, _, _, _⟩ ⟨_, _, _, _⟩ h; simp at h; simp [h]
  · rintro ⟨a, p, q, r⟩ ⟨b, p', q', r'⟩ h
    simp at h; obtain ⟨rfl, rfl, rfl⟩ := h
    unfold encStep
    gct_seq
  · rintro ⟨a, p, q, r⟩ ⟨b, p', q', r'⟩ h
    simp at h; obtain ⟨rfl, rfl, rfl⟩ := h
    exact sim_encFinal (by assumption) _ _ _ _ _

theorem sim_decFinal (h : B.CT e) (s s' : State) (c p n : Nat) :
    Sim Any (decFinal B e s c p n) (decFinal B e s' c p n) := by
  unfold decFinal
  refine Sim.bind (R := fun a b => a.2 = b.2) (Sim.ifc (by gct_seq) (Sim.pure rfl)) ?_
  rintro ⟨a, x, p, q, r⟩ ⟨b, x', p', q', r'⟩ h
  simp at h; obtain ⟨rfl, rfl, rfl, rfl⟩ := h
  simp only
  refine Sim.bind (R := Any) (by gct_step) fun _ _ _ => Sim.ifc ?_ (Sim.pure trivial)
  gct_seq

theorem sim_decrypt (h : B.CT e) (s s' : State) (m c n : Nat) :
    Sim Any (ascon_decrypt B e s m c n) (ascon_decrypt B e s' m c n) := by
  unfold ascon_decrypt
  refine Sim.bind (R := fun a b => a.2 = b.2) (Sim.loop ?_ ?_ _ rfl) ?_
  · rintro ⟨_, _, _, _⟩ ⟨_, _, _, _⟩ h; simp at h; simp [h]
  · rintro ⟨a, p, q, r⟩ ⟨b, p', q', r'⟩ h
    simp at h; obtain ⟨rfl, rfl, rfl⟩ := h
    unfold decStep
    gct_seq
  · rintro ⟨a, p, q, r⟩ ⟨b, p', q', r'⟩ h
    simp at h; obtain ⟨rfl, rfl, rfl⟩ := h
    exact sim_decFinal (by assumption) _ _ _ _ _

theorem sim_final (h : B.CT e) (s s' : State) (key key' : Word × Word) :
    Sim Any (ascon_final B e s key) (ascon_final B e s' key') := by
  unfold ascon_final; gct_seq

theorem sim_aead_encrypt (h : B.CT e) (sp c clen m mlen ad adlen nsec npub k : Nat) :
    Sim Any (crypto_aead_encrypt B e sp c clen m mlen ad adlen nsec npub k)
      (crypto_aead_encrypt B e sp c clen m mlen ad adlen nsec npub k) := by
  unfold crypto_aead_encrypt ascon_aead_encrypt
  refine Sim.bind (R := Any) (by gct_step) fun _ _ _ => ?_
  refine Sim.bind (sim_loadkey k) fun _ _ _ => ?_
  refine Sim.bind (sim_initaead h _ _ npub) fun _ _ _ => ?_
  refine Sim.bind (sim_adata h _ _ _ _) fun _ _ _ => ?_
  refine Sim.bind (sim_encrypt h _ _ _ _ _) fun _ _ _ => ?_
  refine Sim.bind (sim_final h _ _ _ _) fun _ _ _ => ?_
  refine Sim.bind (R := Any) ?_ fun _ _ _ => Sim.pure trivial
  unfold ascon_gettag
  gct_seq

theorem sim_aead_decrypt (h : B.CT e) (sp m mlen nsec c clen ad adlen npub k : Nat) :
    Sim Any (crypto_aead_decrypt B e sp m mlen nsec c clen ad adlen npub k)
      (crypto_aead_decrypt B e sp m mlen nsec c clen ad adlen npub k) := by
  unfold crypto_aead_decrypt ascon_aead_decrypt
  refine Sim.ifc (Sim.pure trivial) ?_
  refine Sim.bind (R := Any) (by gct_step) fun _ _ _ => ?_
  refine Sim.bind (sim_loadkey k) fun _ _ _ => ?_
  refine Sim.bind (sim_initaead h _ _ npub) fun _ _ _ => ?_
  refine Sim.bind (sim_adata h _ _ _ _) fun _ _ _ => ?_
  refine Sim.bind (sim_decrypt h _ _ _ _ _) fun _ _ _ => ?_
  refine Sim.bind (sim_final h _ _ _ _) fun _ _ _ => ?_
  unfold ascon_verify
  gct_seq

theorem sim_absorb (h : B.CT e) (s s' : State) (p n : Nat) :
    Sim Any (ascon_absorb B e s p n) (ascon_absorb B e s' p n) := by
  unfold ascon_absorb
  refine Sim.bind (R := fun a b => a.2 = b.2) (Sim.loop ?_ ?_ _ rfl) ?_
  · rintro ⟨_, _, _⟩ ⟨_, _, _⟩ h; simp at h; simp [h]
  · rintro ⟨a, p, q⟩ ⟨b, p', q'⟩ h
    simp at h; obtain ⟨rfl, rfl⟩ := h
    unfold hashAbsorbStep
    gct_seq
  · rintro ⟨a, p, q⟩ ⟨b, p', q'⟩ h
    simp at h; obtain ⟨rfl, rfl⟩ := h
    simp only
    gct_seq

theorem sim_squeeze (h : B.CT e) (s s' : State) (p n : Nat) :
    Sim Any (ascon_squeeze B e s p n) (ascon_squeeze B e s' p n) := by
  unfold ascon_squeeze
  refine Sim.bind (R := Any) (by gct_step) fun _ _ _ => ?_
  refine Sim.bind (R := fun a b => a.2 = b.2) (Sim.loop ?_ ?_ _ rfl) ?_
  · rintro ⟨_, _, _⟩ ⟨_, _, _⟩ h; simp at h; simp [h]
  · rintro ⟨a, p, q⟩ ⟨b, p', q'⟩ h
    simp at h; obtain ⟨rfl, rfl⟩ := h
    unfold hashSqueezeStep
    gct_seq
  · rintro ⟨a, p, q⟩ ⟨b, p', q'⟩ h
    simp at h; obtain ⟨rfl, rfl⟩ := h
    simp only
    gct_seq

theorem sim_xof (h : B.CT e) (ivs : State) (sp out outlen inp inlen : Nat) :
    Sim Any (ascon_xof B ivs e sp out outlen inp inlen) (ascon_xof B ivs e sp out outlen inp inlen) := by
  unfold ascon_xof
  refine Sim.bind (sim_absorb h _ _ _ _) fun _ _ _ => ?_
  exact Sim.bind (sim_squeeze h _ _ _ _) fun _ _ _ => Sim.pure trivial

theorem sim_prfAbsorb (h : B.CT e) (s s' : State) (p n : Nat) :
    Sim Any (prfAbsorb B e s p n) (prfAbsorb B e s' p n) := by
  unfold prfAbsorb
  refine Sim.bind (R := fun a b => a.2 = b.2) (Sim.loop ?_ ?_ _ rfl) ?_
  · rintro ⟨_, _, _, _⟩ ⟨_, _, _, _⟩ h; simp at h; simp [h]
  · rintro ⟨a, i, p, q⟩ ⟨b, i', p', q'⟩ h
    simp at h; obtain ⟨rfl, rfl, rfl⟩ := h
    unfold prfAbsorbStep
    refine Sim.bind (R := Any) (by gct_step) fun _ _ _ => ?_
    refine Sim.bind (sim_xorX _ _ _ _ _) fun _ _ _ => ?_
    refine Sim.bind (R := Eq) (Sim.ifc (Sim.pure rfl) (Sim.pure rfl)) fun _ _ h => ?_
    subst h
    refine Sim.bind (R := Any) (Sim.ifc (by gct_step) (Sim.pure trivial)) fun _ _ _ => ?_
    exact Sim.pure rfl
  · rintro ⟨a, i, p, q⟩ ⟨b, i', p', q'⟩ h
    simp at h; obtain ⟨rfl, rfl, rfl⟩ := h
    simp only
    refine Sim.bind (R := Any) (Sim.ifc ?_ (Sim.pure trivial)) fun _ _ _ => ?_
    · refine Sim.bind (R := Any) (by gct_step) fun _ _ _ => ?_
      exact sim_xorX _ _ _ _ _
    refine Sim.bind (R := Any) (by gct_step) fun _ _ _ => ?_
    refine Sim.bind (sim_xorX _ _ _ _ _) fun _ _ _ => ?_
    gct_seq

theorem sim_prfSqueeze (h : B.CT e) (s s' : State) (p n : Nat) :
    Sim Any (prfSqueeze B e s p n) (prfSqueeze B e s' p n) := by
  unfold prfSqueeze
  refine Sim.bind (R := Any) (by gct_step) fun _ _ _ => ?_
  refine Sim.bind (R := fun a b => a.2 = b.2) (Sim.loop ?_ ?_ _ rfl) ?_
  · rintro ⟨_, _, _, _⟩ ⟨_, _, _, _⟩ h; simp at h; simp [h]
  · rintro ⟨a, i, p, q⟩ ⟨b, i', p', q'⟩ h
    simp at h; obtain ⟨rfl, rfl, rfl⟩ := h
    unfold prfSqueezeStep
    refine Sim.bind (sim_getX _ _ _) fun _ _ _ => ?_
    refine Sim.bind (R := Any) (by gct_step) fun _ _ _ => ?_
    refine Sim.bind (R := Eq) (Sim.ifc (Sim.pure rfl) (Sim.pure rfl)) fun _ _ h => ?_
    subst h
    refine Sim.bind (R := Any) (Sim.ifc (by gct_step) (Sim.pure trivial)) fun _ _ _ => ?_
    exact Sim.pure rfl
  · rintro ⟨a, i, p, q⟩ ⟨b, i', p', q'⟩ h
    simp at h; obtain ⟨rfl, rfl, rfl⟩ := h
    simp only
    refine Sim.bind (sim_getX _ _ _) fun _ _ _ => ?_
    gct_seq

theorem sim_prf_with (h : B.CT e) (iv : Word) (n : Nat) (sp out outlen inp inlen k : Nat) :
    Sim Any (crypto_prf_with B iv n e sp out outlen inp inlen k)
      (crypto_prf_with B iv n e sp out outlen inp inlen k) := by
  unfold crypto_prf_with
  refine Sim.ifc (Sim.pure trivial) ?_
  refine Sim.bind (R := Any) (by gct_step) fun _ _ _ => ?_
  refine Sim.bind (R := Any) (by gct_step) fun _ _ _ => ?_
  refine Sim.bind (R := Any) (by gct_step) fun _ _ _ => ?_
  refine Sim.bind (sim_prfAbsorb h _ _ _ _) fun _ _ _ => ?_
  exact Sim.bind (sim_prfSqueeze h _ _ _ _) fun _ _ _ => Sim.pure trivial

theorem sim_verify_with (h : B.CT e) (iv : Word) (n : Nat) (sp p inp len k : Nat) :
    Sim Any (crypto_auth_verify_with B iv n e sp p inp len k)
      (crypto_auth_verify_with B iv n e sp p inp len k) := by
  unfold crypto_auth_verify_with
  refine Sim.bind (R := Any) (by gct_step) fun _ _ _ => ?_
  refine Sim.bind (sim_prf_with h _ _ _ _ _ _ _ _) fun _ _ _ => ?_
  refine Sim.bind (sim_tagDiff _ _ _) fun _ _ _ => ?_
  gct_seq

theorem sim_prfs (h : B.CT e) (sp out outlen inp inlen k : Nat) :
    Sim Any (prfs_crypto_prf B e sp out outlen inp inlen k) (prfs_crypto_prf B e sp out outlen inp inlen k) := by
  unfold prfs_crypto_prf
  refine Sim.ifc (Sim.pure trivial) ?_
  refine Sim.bind (R := Any) (by gct_step) fun _ _ _ => ?_
  refine Sim.bind (R := Any) (by gct_step) fun _ _ _ => ?_
  refine Sim.bind (R := Any) (Sim.ifc (by gct_seq) (Sim.ifc (by gct_seq) (Sim.pure trivial))) fun _ _ _ => ?_
  refine Sim.bind (R := Any) (by gct_step) fun _ _ _ => ?_
  refine Sim.bind (R := Any) (Sim.ifc (by gct_seq) (Sim.ifc (by gct_seq) (Sim.pure trivial))) fun _ _ _ => ?_
  exact Sim.pure trivial

theorem sim_prfs_verify (h : B.CT e) (sp p inp len k : Nat) :
    Sim Any (prfs_crypto_auth_verify B e sp p inp len k) (prfs_crypto_auth_verify B e sp p inp len k) := by
  unfold prfs_crypto_auth_verify
  refine Sim.ifc (Sim.pure trivial) ?_
  refine Sim.bind (R := Any) (by gct_step) fun _ _ _ => ?_
  refine Sim.bind (sim_prfs h _ _ _ _ _ _) fun _ _ _ => ?_
  refine Sim.bind (sim_tagDiff _ _ _) fun _ _ _ => ?_
  gct_seq

end Ascon.Gen
