import Verif.Proof.Avx512
import Verif.Proof.GenCT
/-!
# src/avx512 is constant time
-/

namespace Ascon.Avx512

open Ascon.C
open Ascon.Gen (opt64 opt64_ct sim_LOAD sim_LOADBYTES sim_STORE sim_STOREBYTES sim_loadkey)

variable {e : Endian}

theorem sim_maskzLoad (mask : BitVec 64) (p : Nat) (i n : Nat) :
    Sim Any (maskzLoad mask p i n) (maskzLoad mask p i n) := by
  induction n generalizing i with
  | zero => exact .ret trivial
  | succ n ih =>
    unfold maskzLoad
    split
    · exact .load fun _ _ => Sim.bind (ih _) fun _ _ _ => .ret trivial
    · exact Sim.bind (ih _) fun _ _ _ => .ret trivial

theorem sim_maskz (mask : BitVec 64) (p : Nat) : Sim Any (maskz_loadu_epi8 mask p) (maskz_loadu_epi8 mask p) :=
  Sim.bind (sim_maskzLoad _ _ _ _) fun _ _ _ => Sim.pure trivial

theorem sim_maskStore (mask : BitVec 64) (p : Nat) (i : Nat) (a b : List Byte) (h : a.length = b.length) :
    Sim Any (maskStore mask p i a) (maskStore mask p i b) := by
  induction a generalizing i b with
  | nil => cases b <;> simp_all [maskStore]; exact .ret trivial
  | cons x xs ih =>
    cases b with
    | nil => simp at h
    | cons y ys =>
      unfold maskStore
      split
      · exact .store (ih _ _ (by simpa using h))
      · exact ih _ _ (by simpa using h)

theorem sim_mask_store (mask : BitVec 64) (p : Nat) (v w : V) :
    Sim Any (mask_storeu_epi8 p mask v) (mask_storeu_epi8 p mask w) :=
  sim_maskStore _ _ _ _ _ (by simp [toBytes, List.range, List.range.loop, Spec.bytes64])

theorem ct (e : Endian) : opt64.CT e := opt64_ct e

macro "act_step" : tactic => `(tactic| first
  | exact sim_LOAD | exact sim_LOADBYTES | exact sim_STORE | exact sim_STOREBYTES
  | exact (ct .little).pad _ | exact Sim.store64 | exact sim_maskz _ _ | exact sim_mask_store _ _ _ _
  | exact sim_loadkey _)

macro "act_seq" : tactic => `(tactic|
  repeat (first
    | exact Sim.pure trivial
    | exact Sim.pure rfl
    | (refine Sim.bind (R := Any) (by act_step) fun _ _ _ => ?_)
    | act_step))

theorem sim_initaead (junk : Z) (key key' : Word × Word) (n : Nat) :
    Sim Any (ascon_initaead e junk key n) (ascon_initaead e junk key' n) := by
  unfold ascon_initaead; act_seq

theorem sim_adata (s s' : Z) (p n : Nat) : Sim Any (ascon_adata e s p n) (ascon_adata e s' p n) := by
  unfold ascon_adata
  refine Sim.bind (R := Any) (Sim.ifc ?_ (Sim.pure trivial)) fun _ _ _ => Sim.pure trivial
  refine Sim.bind (R := fun a b => a.2 = b.2) (Sim.loop ?_ ?_ _ rfl) ?_
  · rintro ⟨_, _, _⟩ ⟨_, _, _⟩ h; simp at h; simp [h]
  · rintro ⟨a, p, q⟩ ⟨b, p', q'⟩ h
    simp at h; obtain ⟨rfl, rfl⟩ := h
    unfold adStep
    act_seq
  · rintro ⟨a, p, q⟩ ⟨b, p', q'⟩ h
    simp at h; obtain ⟨rfl, rfl⟩ := h
    simp only
    exact Sim.bind (Gen.sim_adFinal (ct e) _ _ _ _) fun _ _ _ => Sim.pure trivial

theorem sim_encrypt (s s' : Z) (c p n : Nat) : Sim Any (ascon_encrypt e s c p n) (ascon_encrypt e s' c p n) := by
  unfold ascon_encrypt
  refine Sim.bind (R := fun a b => a.2 = b.2) (Sim.loop ?_ ?_ _ rfl) ?_
  · rintro ⟨_, _, _, _⟩ ⟨_, _, _, _⟩ h; simp at h; simp [h]
  · rintro ⟨a, p, q, r⟩ ⟨b, p', q', r'⟩ h
    simp at h; obtain ⟨rfl, rfl, rfl⟩ := h
    unfold encStep
    act_seq
  · rintro ⟨a, p, q, r⟩ ⟨b, p', q', r'⟩ h
    simp at h; obtain ⟨rfl, rfl, rfl⟩ := h
    exact Sim.bind (Gen.sim_encFinal (ct e) _ _ _ _ _) fun _ _ _ => Sim.pure trivial

theorem sim_decrypt (s s' : Z) (m c n : Nat) : Sim Any (ascon_decrypt e s m c n) (ascon_decrypt e s' m c n) := by
  unfold ascon_decrypt
  refine Sim.bind (R := fun a b => a.2 = b.2) (Sim.loop ?_ ?_ _ rfl) ?_
  · rintro ⟨_, _, _, _⟩ ⟨_, _, _, _⟩ h; simp at h; simp [h]
  · rintro ⟨a, p, q, r⟩ ⟨b, p', q', r'⟩ h
    simp at h; obtain ⟨rfl, rfl, rfl⟩ := h
    unfold decStep
    act_seq
  · rintro ⟨a, p, q, r⟩ ⟨b, p', q', r'⟩ h
    simp at h; obtain ⟨rfl, rfl, rfl⟩ := h
    exact Sim.bind (Gen.sim_decFinal (ct e) _ _ _ _ _) fun _ _ _ => Sim.pure trivial

theorem sim_aead_encrypt (junk : Z) (sp c clen m mlen ad adlen nsec npub k : Nat) :
    Sim Any (crypto_aead_encrypt junk e sp c clen m mlen ad adlen nsec npub k)
      (crypto_aead_encrypt junk e sp c clen m mlen ad adlen nsec npub k) := by
  unfold crypto_aead_encrypt ascon_aead_encrypt
  refine Sim.bind (R := Any) (by act_step) fun _ _ _ => ?_
  refine Sim.bind (sim_loadkey k) fun _ _ _ => ?_
  refine Sim.bind (sim_initaead junk _ _ npub) fun _ _ _ => ?_
  refine Sim.bind (sim_adata _ _ _ _) fun _ _ _ => ?_
  refine Sim.bind (sim_encrypt _ _ _ _ _) fun _ _ _ => ?_
  refine Sim.bind (R := Any) ?_ fun _ _ _ => Sim.pure trivial
  unfold Gen.ascon_gettag
  act_seq

theorem sim_aead_decrypt (junk : Z) (sp m mlen nsec c clen ad adlen npub k : Nat) :
    Sim Any (crypto_aead_decrypt junk e sp m mlen nsec c clen ad adlen npub k)
      (crypto_aead_decrypt junk e sp m mlen nsec c clen ad adlen npub k) := by
  unfold crypto_aead_decrypt ascon_aead_decrypt
  refine Sim.ifc (Sim.pure trivial) ?_
  refine Sim.bind (R := Any) (by act_step) fun _ _ _ => ?_
  refine Sim.bind (sim_loadkey k) fun _ _ _ => ?_
  refine Sim.bind (sim_initaead junk _ _ npub) fun _ _ _ => ?_
  refine Sim.bind (sim_adata _ _ _ _) fun _ _ _ => ?_
  refine Sim.bind (sim_decrypt _ _ _ _ _) fun _ _ _ => ?_
  unfold Gen.ascon_verify
  act_seq

theorem sim_absorb (s s' : Z) (p n : Nat) : Sim Any (ascon_absorb e s p n) (ascon_absorb e s' p n) := by
  unfold ascon_absorb
  refine Sim.bind (R := fun a b => a.2 = b.2) (Sim.loop ?_ ?_ _ rfl) ?_
  · rintro ⟨_, _, _⟩ ⟨_, _, _⟩ h; simp at h; simp [h]
  · rintro ⟨a, p, q⟩ ⟨b, p', q'⟩ h
    simp at h; obtain ⟨rfl, rfl⟩ := h
    unfold hashAbsorbStep
    act_seq
  · rintro ⟨a, p, q⟩ ⟨b, p', q'⟩ h
    simp at h; obtain ⟨rfl, rfl⟩ := h
    simp only
    act_seq

theorem sim_squeeze (s s' : Z) (p n : Nat) : Sim Any (ascon_squeeze e s p n) (ascon_squeeze e s' p n) := by
  unfold ascon_squeeze
  refine Sim.bind (R := fun a b => a.2 = b.2) (Sim.loop ?_ ?_ _ rfl) ?_
  · rintro ⟨_, _, _⟩ ⟨_, _, _⟩ h; simp at h; simp [h]
  · rintro ⟨a, p, q⟩ ⟨b, p', q'⟩ h
    simp at h; obtain ⟨rfl, rfl⟩ := h
    unfold hashSqueezeStep
    act_seq
  · rintro ⟨a, p, q⟩ ⟨b, p', q'⟩ h
    simp at h; obtain ⟨rfl, rfl⟩ := h
    simp only
    act_seq

theorem sim_xof (ivs : State) (sp out outlen inp inlen : Nat) :
    Sim Any (ascon_xof ivs e sp out outlen inp inlen) (ascon_xof ivs e sp out outlen inp inlen) := by
  unfold ascon_xof
  refine Sim.bind (sim_absorb _ _ _ _) fun _ _ _ => ?_
  exact Sim.bind (sim_squeeze _ _ _ _) fun _ _ _ => Sim.pure trivial

end Ascon.Avx512
