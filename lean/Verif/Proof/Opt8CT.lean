import Verif.Model.Opt8
import Verif.Proof.GenCT
/-!
# The byte-oriented code is constant time
-/

namespace Ascon.Opt8

open Ascon.C
open Ascon.Ref (sim_tagDiff)

variable {V : Perms} {e : Endian}

/-- The permutation leaks nothing about the state. -/
structure Perms.CT (V : Perms) (e : Endian) : Prop where
  p12 : ∀ s s', Sim Any (V.P12 e s) (V.P12 e s')
  p8 : ∀ s s', Sim Any (V.P8 e s) (V.P8 e s')

/-! ## The permutation of src/opt8/round.h -/

theorem sim_ROUND (s s' : State) (C : Byte) : Sim Any (ROUND e s C) (ROUND e s' C) := by
  unfold ROUND
  refine Sim.bind (R := Any) (Sim.forUp (fun _ _ _ _ => Sim.pure trivial) _ _ trivial) fun _ _ _ => ?_
  exact Sim.pure trivial

theorem sim_roundStep (q q' : Int × State) (h : q.1 = q'.1) :
    Sim (fun a b => a.1 = b.1) (roundStep e q) (roundStep e q') := by
  unfold roundStep
  rw [h]
  exact Sim.bind (sim_ROUND _ _ _) fun _ _ _ => Sim.pure rfl

theorem sim_PROUNDS (nr : Nat) (s s' : State) : Sim Any (PROUNDS e nr s) (PROUNDS e nr s') := by
  unfold PROUNDS
  refine Sim.bind (sim_roundStep _ _ rfl) fun a b h => ?_
  refine Sim.bind (Sim.loop (R := fun a b => a.1 = b.1) (fun a b h => by simp [h])
    (fun a b h => sim_roundStep a b h) _ h) fun _ _ _ => Sim.pure trivial

theorem perms_ct (e : Endian) : perms.CT e := ⟨fun s s' => sim_PROUNDS 12 s s', fun s s' => sim_PROUNDS 8 s s'⟩

/-! ## Bytes of the state -/

/-- `Sim.loop` for two bodies. -/
theorem sim_loop {σ : Type} {R : σ → σ → Prop} {cond : σ → Bool} {body body' : σ → Prog σ}
    (hc : ∀ a b, R a b → cond a = cond b) (hb : ∀ a b, R a b → Sim R (body a) (body' b)) :
    ∀ (fuel : Nat) {a b : σ}, R a b → Sim R (Prog.loop fuel cond body a) (Prog.loop fuel cond body' b)
  | 0, _, _, _ => by unfold Prog.loop; exact .ub
  | n + 1, a, b, h => by
    unfold Prog.loop
    rw [hc a b h]
    exact Sim.ifc (Sim.bind (hb a b h) fun a b h => sim_loop hc hb n h) (Sim.pure h)

theorem sim_getB (s s' : State) (p : Nat) : Sim Any (getB e s p) (getB e s' p) :=
  Sim.bind Sim.require fun _ _ _ => Sim.pure trivial

theorem sim_setB (s s' : State) (p : Nat) (b b' : Byte) : Sim Any (setB e s p b) (setB e s' p b') :=
  Sim.bind Sim.require fun _ _ _ => Sim.pure trivial

theorem sim_xorB (s s' : State) (p : Nat) (b b' : Byte) : Sim Any (xorB e s p b) (xorB e s' p b') :=
  Sim.bind (sim_getB _ _ _) fun _ _ _ => sim_setB _ _ _ _ _

theorem sim_memxor (s s' k k' : State) (d p n : Nat) : Sim Any (memxor e s k d p n) (memxor e s' k' d p n) := by
  unfold memxor
  refine Sim.bind (R := fun a b => a.2 = b.2) (sim_loop ?_ ?_ _ rfl) fun _ _ _ => Sim.pure trivial
  · rintro ⟨_, _, _, _⟩ ⟨_, _, _, _⟩ h; simp at h; simp [h]
  · rintro ⟨a, p, q, r⟩ ⟨b, p', q', r'⟩ h
    simp at h; obtain ⟨rfl, rfl, rfl⟩ := h
    unfold memxorByte
    exact Sim.bind (sim_getB _ _ _) fun _ _ _ => Sim.bind (sim_xorB _ _ _ _ _) fun _ _ _ => Sim.pure rfl

theorem sim_INSERT (s s' : State) (p d n : Nat) : Sim Any (INSERT e s p d n) (INSERT e s' p d n) := by
  unfold INSERT
  refine Sim.bind (R := fun a b => a.2 = b.2) (Sim.loop ?_ ?_ _ rfl) fun _ _ _ => Sim.pure trivial
  · rintro ⟨_, _, _, _⟩ ⟨_, _, _, _⟩ h; simp at h; simp [h]
  · rintro ⟨a, p, q, r⟩ ⟨b, p', q', r'⟩ h
    simp at h; obtain ⟨rfl, rfl, rfl⟩ := h
    unfold insertByte
    exact Sim.bind Sim.loadB fun _ _ _ => Sim.bind (sim_setB _ _ _ _ _) fun _ _ _ => Sim.pure rfl

theorem sim_SQUEEZE (s s' : State) (d p n : Nat) : Sim Any (SQUEEZE e d s p n) (SQUEEZE e d s' p n) := by
  unfold SQUEEZE
  refine Sim.bind (sim_loop (R := Eq) ?_ ?_ _ rfl) fun _ _ _ => Sim.pure trivial
  · rintro a _ rfl; rfl
  · rintro ⟨d, p, n⟩ _ rfl
    unfold squeezeByte
    exact Sim.bind (sim_getB _ _ _) fun _ _ _ => Sim.bind Sim.storeB fun _ _ _ => Sim.pure rfl

theorem sim_ABSORB (s s' : State) (p d n : Nat) : Sim Any (ABSORB e s p d n) (ABSORB e s' p d n) := by
  unfold ABSORB
  refine Sim.bind (R := fun a b => a.2 = b.2) (Sim.loop ?_ ?_ _ rfl) fun _ _ _ => Sim.pure trivial
  · rintro ⟨_, _, _, _⟩ ⟨_, _, _, _⟩ h; simp at h; simp [h]
  · rintro ⟨a, p, q, r⟩ ⟨b, p', q', r'⟩ h
    simp at h; obtain ⟨rfl, rfl, rfl⟩ := h
    unfold absorbByte
    exact Sim.bind Sim.loadB fun _ _ _ => Sim.bind (sim_xorB _ _ _ _ _) fun _ _ _ => Sim.pure rfl

theorem sim_ENCRYPT (s s' : State) (p c m n : Nat) : Sim Any (ENCRYPT e s p c m n) (ENCRYPT e s' p c m n) := by
  unfold ENCRYPT
  refine Sim.bind (R := fun a b => a.2 = b.2) (Sim.loop ?_ ?_ _ rfl) fun _ _ _ => Sim.pure trivial
  · rintro ⟨_, _, _, _, _⟩ ⟨_, _, _, _, _⟩ h; simp at h; simp [h]
  · rintro ⟨a, p, q, r, t⟩ ⟨b, p', q', r', t'⟩ h
    simp at h; obtain ⟨rfl, rfl, rfl, rfl⟩ := h
    unfold encryptByte
    exact Sim.bind Sim.loadB fun _ _ _ => Sim.bind (sim_xorB _ _ _ _ _) fun _ _ _ =>
      Sim.bind (sim_getB _ _ _) fun _ _ _ => Sim.bind Sim.storeB fun _ _ _ => Sim.pure rfl

theorem sim_DECRYPT (s s' : State) (p m c n : Nat) : Sim Any (DECRYPT e s p m c n) (DECRYPT e s' p m c n) := by
  unfold DECRYPT
  refine Sim.bind (R := fun a b => a.2 = b.2) (Sim.loop ?_ ?_ _ rfl) fun _ _ _ => Sim.pure trivial
  · rintro ⟨_, _, _, _, _⟩ ⟨_, _, _, _, _⟩ h; simp at h; simp [h]
  · rintro ⟨a, p, q, r, t⟩ ⟨b, p', q', r', t'⟩ h
    simp at h; obtain ⟨rfl, rfl, rfl, rfl⟩ := h
    unfold decryptByte
    exact Sim.bind Sim.loadB fun _ _ _ => Sim.bind (sim_getB _ _ _) fun _ _ _ =>
      Sim.bind Sim.storeB fun _ _ _ => Sim.bind (sim_setB _ _ _ _ _) fun _ _ _ => Sim.pure rfl

theorem sim_VERIFY (s s' : State) (p d n : Nat) : Sim Any (VERIFY e s p d n) (VERIFY e s' p d n) := by
  unfold VERIFY
  refine Sim.bind (sim_loop (R := fun a b => a.2 = b.2) ?_ ?_ _ rfl) fun _ _ _ => Sim.pure trivial
  · rintro ⟨_, _, _, _⟩ ⟨_, _, _, _⟩ h; simp at h; simp [h]
  · rintro ⟨r, p, d, n⟩ ⟨r', p', d', n'⟩ h
    simp at h; obtain ⟨rfl, rfl, rfl⟩ := h
    unfold verifyByte
    exact Sim.bind (sim_getB _ _ _) fun _ _ _ => Sim.bind Sim.loadB fun _ _ _ => Sim.pure rfl

/-- Apply the rule for one statement. -/
macro "oct_step" : tactic => `(tactic| with_reducible first
  | exact sim_memxor _ _ _ _ _ _ _ | exact sim_INSERT _ _ _ _ _ | exact sim_SQUEEZE _ _ _ _ _
  | exact sim_ABSORB _ _ _ _ _ | exact sim_ENCRYPT _ _ _ _ _ _ | exact sim_DECRYPT _ _ _ _ _ _
  | exact sim_VERIFY _ _ _ _ _ | exact sim_xorB _ _ _ _ _
  | exact Perms.CT.p12 (by assumption) _ _ | exact Perms.CT.p8 (by assumption) _ _
  | exact Sim.store64 | exact Sim.load64
  | exact .alloc (.ret trivial) | exact .free (.ret trivial))

/-- Straight-line code with secret results. -/
macro "oct_seq" : tactic => `(tactic|
  repeat (first
    | exact Sim.pure trivial
    | exact Sim.pure rfl
    | (refine Sim.bind (R := Any) (by oct_step) fun _ _ _ => ?_)
    | oct_step))

/-! ## AEAD -/

theorem sim_loadkey (k : Nat) : Sim Any (ascon_loadkey e k) (ascon_loadkey e k) := by
  unfold ascon_loadkey; oct_seq

theorem sim_initaead (h : V.CT e) (key key' : State) (n : Nat) :
    Sim Any (ascon_initaead V e key n) (ascon_initaead V e key' n) := by
  unfold ascon_initaead; oct_seq

theorem sim_adFinal (s s' : State) (p n : Nat) : Sim Any (adFinal e s p n) (adFinal e s' p n) := by
  unfold adFinal
  refine Sim.bind (R := fun a b => a.2 = b.2) (Sim.ifc (by oct_seq) (Sim.pure rfl)) ?_
  rintro ⟨a, x, p, q⟩ ⟨b, x', p', q'⟩ h
  simp at h; obtain ⟨rfl, rfl, rfl⟩ := h
  simp only
  oct_seq

theorem sim_adata (h : V.CT e) (s s' : State) (p n : Nat) :
    Sim Any (ascon_adata V e s p n) (ascon_adata V e s' p n) := by
  unfold ascon_adata
  refine Sim.bind (R := Any) (Sim.ifc ?_ (Sim.pure trivial)) fun _ _ _ => sim_xorB _ _ _ _ _
  refine Sim.bind (R := fun a b => a.2 = b.2) (Sim.loop ?_ ?_ _ rfl) ?_
  · rintro ⟨_, _, _⟩ ⟨_, _, _⟩ h; simp at h; simp [h]
  · rintro ⟨a, p, q⟩ ⟨b, p', q'⟩ h
    simp at h; obtain ⟨rfl, rfl⟩ := h
    unfold adStep
    oct_seq
  · rintro ⟨a, p, q⟩ ⟨b, p', q'⟩ h
    simp at h; obtain ⟨rfl, rfl⟩ := h
    simp only
    exact Sim.bind (sim_adFinal _ _ _ _) fun _ _ _ => by oct_step

theorem sim_encFinal (s s' : State) (c p n : Nat) : Sim Any (encFinal e s c p n) (encFinal e s' c p n) := by
  unfold encFinal
  refine Sim.bind (R := fun a b => a.2 = b.2) (Sim.ifc (by oct_seq) (Sim.pure rfl)) ?_
  rintro ⟨a, x, p, q, r⟩ ⟨b, x', p', q', r'⟩ h
  simp at h; obtain ⟨rfl, rfl, rfl, rfl⟩ := h
  simp only
  oct_seq

theorem sim_encrypt (h : V.CT e) (s s' : State) (c p n : Nat) :
    Sim Any (ascon_encrypt V e s c p n) (ascon_encrypt V e s' c p n) := by
  unfold ascon_encrypt
  refine Sim.bind (R := fun a b => a.2 = b.2) (Sim.loop ?_ ?_ _ rfl) ?_
  · rintro ⟨_, _, _, _⟩ ⟨_, _, _, _⟩ h; simp at h; simp [h]
  · rintro ⟨a, p, q, r⟩ ⟨b, p', q', r'⟩ h
    simp at h; obtain ⟨rfl, rfl, rfl⟩ := h
    unfold encStep
    oct_seq
  · rintro ⟨a, p, q, r⟩ ⟨b, p', q', r'⟩ h
    simp at h; obtain ⟨rfl, rfl, rfl⟩ := h
    exact sim_encFinal _ _ _ _ _

theorem sim_decFinal (s s' : State) (c p n : Nat) : Sim Any (decFinal e s c p n) (decFinal e s' c p n) := by
  unfold decFinal
  refine Sim.bind (R := fun a b => a.2 = b.2) (Sim.ifc (by oct_seq) (Sim.pure rfl)) ?_
  rintro ⟨a, x, p, q, r⟩ ⟨b, x', p', q', r'⟩ h
  simp at h; obtain ⟨rfl, rfl, rfl, rfl⟩ := h
  simp only
  oct_seq

theorem sim_decrypt (h : V.CT e) (s s' : State) (m c n : Nat) :
    Sim Any (ascon_decrypt V e s m c n) (ascon_decrypt V e s' m c n) := by
  unfold ascon_decrypt
  refine Sim.bind (R := fun a b => a.2 = b.2) (Sim.loop ?_ ?_ _ rfl) ?_
  · rintro ⟨_, _, _, _⟩ ⟨_, _, _, _⟩ h; simp at h; simp [h]
  · rintro ⟨a, p, q, r⟩ ⟨b, p', q', r'⟩ h
    simp at h; obtain ⟨rfl, rfl, rfl⟩ := h
    unfold decStep
    oct_seq
  · rintro ⟨a, p, q, r⟩ ⟨b, p', q', r'⟩ h
    simp at h; obtain ⟨rfl, rfl, rfl⟩ := h
    exact sim_decFinal _ _ _ _ _

theorem sim_final (h : V.CT e) (s s' : State) (key key' : State) :
    Sim Any (ascon_final V e s key) (ascon_final V e s' key') := by
  unfold ascon_final; oct_seq

theorem sim_gettag (s s' : State) (t : Nat) : Sim Any (ascon_gettag e s t) (ascon_gettag e s' t) := by
  unfold ascon_gettag; oct_seq

theorem sim_verify (s s' : State) (t : Nat) : Sim Any (ascon_verify e s t) (ascon_verify e s' t) := by
  unfold ascon_verify; oct_seq

theorem sim_aead_encrypt (h : V.CT e) (sp c clen m mlen ad adlen nsec npub k : Nat) :
    Sim Any (crypto_aead_encrypt V e sp c clen m mlen ad adlen nsec npub k)
      (crypto_aead_encrypt V e sp c clen m mlen ad adlen nsec npub k) := by
  unfold crypto_aead_encrypt ascon_aead_encrypt
  refine Sim.bind (R := Any) (by oct_step) fun _ _ _ => ?_
  refine Sim.bind (sim_loadkey k) fun _ _ _ => ?_
  refine Sim.bind (sim_initaead h _ _ npub) fun _ _ _ => ?_
  refine Sim.bind (sim_adata h _ _ _ _) fun _ _ _ => ?_
  refine Sim.bind (sim_encrypt h _ _ _ _ _) fun _ _ _ => ?_
  refine Sim.bind (sim_final h _ _ _ _) fun _ _ _ => ?_
  exact Sim.bind (sim_gettag _ _ _) fun _ _ _ => Sim.pure trivial

theorem sim_aead_decrypt (h : V.CT e) (sp m mlen nsec c clen ad adlen npub k : Nat) :
    Sim Any (crypto_aead_decrypt V e sp m mlen nsec c clen ad adlen npub k)
      (crypto_aead_decrypt V e sp m mlen nsec c clen ad adlen npub k) := by
  unfold crypto_aead_decrypt ascon_aead_decrypt
  refine Sim.ifc (Sim.pure trivial) ?_
  refine Sim.bind (R := Any) (by oct_step) fun _ _ _ => ?_
  refine Sim.bind (sim_loadkey k) fun _ _ _ => ?_
  refine Sim.bind (sim_initaead h _ _ npub) fun _ _ _ => ?_
  refine Sim.bind (sim_adata h _ _ _ _) fun _ _ _ => ?_
  refine Sim.bind (sim_decrypt h _ _ _ _ _) fun _ _ _ => ?_
  refine Sim.bind (sim_final h _ _ _ _) fun _ _ _ => ?_
  exact sim_verify _ _ _

/-! ## Hash -/

theorem sim_absorb (h : V.CT e) (padAt : Nat → Nat) (s s' : State) (p n : Nat) :
    Sim Any (ascon_absorb V padAt e s p n) (ascon_absorb V padAt e s' p n) := by
  unfold ascon_absorb
  refine Sim.bind (R := fun a b => a.2 = b.2) (Sim.loop ?_ ?_ _ rfl) ?_
  · rintro ⟨_, _, _⟩ ⟨_, _, _⟩ h; simp at h; simp [h]
  · rintro ⟨a, p, q⟩ ⟨b, p', q'⟩ h
    simp at h; obtain ⟨rfl, rfl⟩ := h
    unfold hashAbsorbStep
    oct_seq
  · rintro ⟨a, p, q⟩ ⟨b, p', q'⟩ h
    simp at h; obtain ⟨rfl, rfl⟩ := h
    simp only
    oct_seq

theorem sim_squeeze (h : V.CT e) (s s' : State) (p n : Nat) :
    Sim Any (ascon_squeeze V e s p n) (ascon_squeeze V e s' p n) := by
  unfold ascon_squeeze
  refine Sim.bind (R := Any) (by oct_step) fun _ _ _ => ?_
  refine Sim.bind (R := fun a b => a.2 = b.2) (Sim.loop ?_ ?_ _ rfl) ?_
  · rintro ⟨_, _, _⟩ ⟨_, _, _⟩ h; simp at h; simp [h]
  · rintro ⟨a, p, q⟩ ⟨b, p', q'⟩ h
    simp at h; obtain ⟨rfl, rfl⟩ := h
    unfold hashSqueezeStep
    oct_seq
  · rintro ⟨a, p, q⟩ ⟨b, p', q'⟩ h
    simp at h; obtain ⟨rfl, rfl⟩ := h
    simp only
    oct_seq

theorem sim_xof (h : V.CT e) (padAt : Nat → Nat) (ivs : State) (sp out outlen inp inlen : Nat) :
    Sim Any (ascon_xof V padAt ivs e sp out outlen inp inlen) (ascon_xof V padAt ivs e sp out outlen inp inlen) := by
  unfold ascon_xof
  refine Sim.bind (sim_absorb h _ _ _ _ _) fun _ _ _ => ?_
  exact Sim.bind (sim_squeeze h _ _ _ _) fun _ _ _ => Sim.pure trivial

/-! ## PRF and MAC -/

theorem sim_prfAbsorb (h : V.CT e) (padAt : Nat → Nat) (d : Nat) (s s' : State) (p n : Nat) :
    Sim Any (prfAbsorb V padAt d e s p n) (prfAbsorb V padAt d e s' p n) := by
  unfold prfAbsorb
  refine Sim.bind (R := fun a b => a.2 = b.2) (Sim.loop ?_ ?_ _ rfl) ?_
  · rintro ⟨_, _, _, _⟩ ⟨_, _, _, _⟩ h; simp at h; simp [h]
  · rintro ⟨a, i, p, q⟩ ⟨b, i', p', q'⟩ h
    simp at h; obtain ⟨rfl, rfl, rfl⟩ := h
    unfold prfAbsorbStep
    refine Sim.bind (R := Any) (by oct_step) fun _ _ _ => ?_
    refine Sim.bind (R := Eq) (Sim.ifc (Sim.pure rfl) (Sim.pure rfl)) fun _ _ h => ?_
    subst h
    refine Sim.bind (R := Any) (Sim.ifc (by oct_step) (Sim.pure trivial)) fun _ _ _ => Sim.pure rfl
  · rintro ⟨a, i, p, q⟩ ⟨b, i', p', q'⟩ h
    simp at h; obtain ⟨rfl, rfl, rfl⟩ := h
    simp only
    oct_seq

theorem sim_prfSqueeze (h : V.CT e) (s s' : State) (p n : Nat) :
    Sim Any (prfSqueeze V e s p n) (prfSqueeze V e s' p n) := by
  unfold prfSqueeze
  refine Sim.bind (R := Any) (by oct_step) fun _ _ _ => ?_
  refine Sim.bind (R := fun a b => a.2 = b.2) (Sim.loop ?_ ?_ _ rfl) ?_
  · rintro ⟨_, _, _, _⟩ ⟨_, _, _, _⟩ h; simp at h; simp [h]
  · rintro ⟨a, i, p, q⟩ ⟨b, i', p', q'⟩ h
    simp at h; obtain ⟨rfl, rfl, rfl⟩ := h
    unfold prfSqueezeStep
    refine Sim.bind (R := Any) (by oct_step) fun _ _ _ => ?_
    refine Sim.bind (R := Eq) (Sim.ifc (Sim.pure rfl) (Sim.pure rfl)) fun _ _ h => ?_
    subst h
    refine Sim.bind (R := Any) (Sim.ifc (by oct_step) (Sim.pure trivial)) fun _ _ _ => Sim.pure rfl
  · rintro ⟨a, i, p, q⟩ ⟨b, i', p', q'⟩ h
    simp at h; obtain ⟨rfl, rfl, rfl⟩ := h
    simp only
    oct_seq

theorem sim_prf_with (h : V.CT e) (padAt : Nat → Nat) (d : Nat) (iv : Word) (n sp out outlen inp inlen k : Nat) :
    Sim Any (crypto_prf_with V padAt d iv n e sp out outlen inp inlen k)
      (crypto_prf_with V padAt d iv n e sp out outlen inp inlen k) := by
  unfold crypto_prf_with
  refine Sim.ifc (Sim.pure trivial) ?_
  refine Sim.bind (R := Any) (by oct_step) fun _ _ _ => ?_
  refine Sim.bind (R := Any) (by oct_step) fun _ _ _ => ?_
  refine Sim.bind (R := Any) (by oct_step) fun _ _ _ => ?_
  refine Sim.bind (sim_prfAbsorb h _ _ _ _ _ _) fun _ _ _ => ?_
  exact Sim.bind (sim_prfSqueeze h _ _ _ _) fun _ _ _ => Sim.pure trivial

theorem sim_verify_with {f : Endian → Nat → Nat → Nat → Nat → Nat → Nat → Prog Int} {n : Nat}
    (hf : ∀ sp out outlen inp len k, Sim Any (f e sp out outlen inp len k) (f e sp out outlen inp len k))
    (sp h inp len k : Nat) : Sim Any (verify_with f n e sp h inp len k) (verify_with f n e sp h inp len k) := by
  unfold verify_with
  refine Sim.bind (R := Any) (.alloc (.ret trivial)) fun _ _ _ => ?_
  refine Sim.bind (hf _ _ _ _ _ _) fun _ _ _ => ?_
  refine Sim.bind (sim_tagDiff _ _ _) fun _ _ _ => ?_
  exact Sim.bind (R := Any) (.free (.ret trivial)) fun _ _ _ => Sim.pure trivial

theorem sim_prfs (h : V.CT e) (sp out outlen inp inlen k : Nat) :
    Sim Any (prfs_crypto_prf V e sp out outlen inp inlen k) (prfs_crypto_prf V e sp out outlen inp inlen k) := by
  unfold prfs_crypto_prf
  refine Sim.ifc (Sim.pure trivial) ?_
  refine Sim.bind (R := Any) (by oct_step) fun _ _ _ => ?_
  refine Sim.bind (R := Any) (by oct_step) fun _ _ _ => ?_
  refine Sim.bind (R := Any) (Sim.ifc (by oct_seq) (Sim.ifc (by oct_step) (Sim.pure trivial))) fun _ _ _ => ?_
  refine Sim.bind (R := Any) (by oct_step) fun _ _ _ => ?_
  refine Sim.bind (R := Any) (by oct_step) fun _ _ _ => ?_
  refine Sim.bind (R := Any) (by oct_step) fun _ _ _ => ?_
  exact Sim.bind (R := Any) (Sim.ifc (by oct_seq) (Sim.ifc (by oct_step) (Sim.pure trivial)))
    fun _ _ _ => Sim.pure trivial

theorem sim_prfs_verify (h : V.CT e) (sp t inp len k : Nat) :
    Sim Any (prfs_crypto_auth_verify V e sp t inp len k) (prfs_crypto_auth_verify V e sp t inp len k) := by
  unfold prfs_crypto_auth_verify
  exact Sim.ifc (Sim.pure trivial) (sim_verify_with (fun _ _ _ _ _ _ => sim_prfs h _ _ _ _ _ _) _ _ _ _ _)

/-! ## src/opt8_lowsize -/

theorem sim_permNr (h : V.CT e) (nr : Nat) (s s' : State) : Sim Any (permNr V e nr s) (permNr V e nr s') := by
  unfold permNr
  split
  · exact h.p12 _ _
  · exact h.p8 _ _

theorem sim_when {c : Bool} {s s' : State} {t t' : Prog State} (h : Sim Any t t') :
    Sim Any (when c s t) (when c s' t') := Sim.ifc h (Sim.pure trivial)

theorem sim_whenU {c : Bool} {t t' : Prog Unit} (h : Sim Any t t') : Sim Any (whenU c t) (whenU c t') :=
  Sim.ifc h (Sim.pure trivial)

theorem sim_nrRate (cfg : Cfg) (mode : Nat) : Sim Eq (nrRate cfg mode) (nrRate cfg mode) := by
  cases cfg
  · exact Sim.pure rfl
  · exact Sim.pure rfl
  · unfold nrRate
    refine Sim.bind (R := Eq) (Sim.ifc (Sim.pure rfl) (Sim.pure rfl)) fun _ _ h => ?_
    subst h
    refine Sim.bind (R := Eq) (Sim.ifc (Sim.pure rfl) (Sim.pure rfl)) fun _ _ h => ?_
    subst h
    exact Sim.pure rfl

theorem sim_updStep (h : V.CT e) (cfg : Cfg) (mode nr rate : Nat) (s s' : State) (q : Nat × Nat × Nat) :
    Sim (fun a b => a.2 = b.2) (updStep V cfg mode nr rate e (s, q)) (updStep V cfg mode nr rate e (s', q)) := by
  obtain ⟨c, m, mlen⟩ := q
  unfold updStep
  refine Sim.bind (sim_when (sim_ABSORB _ _ _ _ _)) fun a a' _ => ?_
  cases cfg <;> simp only [Cfg.hasHash, Cfg.hasAead, Bool.false_eq_true, if_false, if_true]
  · refine Sim.bind (sim_when (sim_ENCRYPT _ _ _ _ _ _)) fun _ _ _ => ?_
    refine Sim.bind (sim_when (sim_DECRYPT _ _ _ _ _ _)) fun _ _ _ => ?_
    refine Sim.bind (sim_when (sim_ABSORB _ _ _ _ _)) fun _ _ _ => ?_
    refine Sim.bind (sim_when (sim_ENCRYPT _ _ _ _ _ _)) fun _ _ _ => ?_
    refine Sim.bind (sim_when (sim_DECRYPT _ _ _ _ _ _)) fun _ _ _ => ?_
    exact Sim.bind (sim_permNr h _ _ _) fun _ _ _ => Sim.pure rfl
  · refine Sim.bind (sim_whenU (sim_SQUEEZE _ _ _ _ _)) fun _ _ _ => ?_
    refine Sim.bind (R := Any) (Sim.pure trivial) fun _ _ _ => ?_
    exact Sim.bind (sim_when (sim_permNr h _ _ _)) fun _ _ _ => Sim.pure rfl
  · refine Sim.bind (sim_whenU (sim_SQUEEZE _ _ _ _ _)) fun _ _ _ => ?_
    refine Sim.bind (sim_when (sim_ENCRYPT _ _ _ _ _ _)) fun _ _ _ => ?_
    refine Sim.bind (sim_when (sim_DECRYPT _ _ _ _ _ _)) fun _ _ _ => ?_
    refine Sim.bind (sim_when (sim_ABSORB _ _ _ _ _)) fun _ _ _ => ?_
    refine Sim.bind (sim_when (sim_ENCRYPT _ _ _ _ _ _)) fun _ _ _ => ?_
    refine Sim.bind (sim_when (sim_DECRYPT _ _ _ _ _ _)) fun _ _ _ => ?_
    exact Sim.bind (sim_when (sim_permNr h _ _ _)) fun _ _ _ => Sim.pure rfl

theorem sim_updTail (cfg : Cfg) (mode : Nat) (s s' : State) (i c m mlen : Nat) :
    Sim Any
      (do
        let s ← when (decide (mode = 1 ∨ mode = 9)) s (ABSORB e s (8 * i) m mlen)
        if cfg.hasHash then
          whenU (decide (mode = 2 ∨ mode = 10)) (SQUEEZE e c s 0 mlen)
        xorB e s (8 * i + mlen) PAD)
      (do
        let s ← when (decide (mode = 1 ∨ mode = 9)) s' (ABSORB e s' (8 * i) m mlen)
        if cfg.hasHash then
          whenU (decide (mode = 2 ∨ mode = 10)) (SQUEEZE e c s 0 mlen)
        xorB e s (8 * i + mlen) PAD) := by
  refine Sim.bind (sim_when (sim_ABSORB _ _ _ _ _)) fun _ _ _ => ?_
  cases cfg.hasHash <;> simp only [Bool.false_eq_true, if_false, if_true]
  · exact sim_xorB _ _ _ _ _
  · exact Sim.bind (sim_whenU (sim_SQUEEZE _ _ _ _ _)) fun _ _ _ => sim_xorB _ _ _ _ _

theorem sim_updFinal (cfg : Cfg) (mode : Nat) (s s' : State) (q : Nat × Nat × Nat) :
    Sim Any (updFinal cfg mode e (s, q)) (updFinal cfg mode e (s', q)) := by
  obtain ⟨c, m, mlen⟩ := q
  unfold updFinal
  cases cfg.hasAead <;> simp only [Bool.false_eq_true, if_false, if_true]
  · first
      | exact sim_updTail cfg mode s s' 0 c m mlen
      | exact Sim.bind (R := fun a b => a.2 = b.2) (Sim.pure rfl) (by
          rintro ⟨a, x, p, q, r⟩ ⟨b, x', p', q', r'⟩ h
          simp at h; obtain ⟨rfl, rfl, rfl, rfl⟩ := h
          exact sim_updTail cfg mode _ _ _ _ _ _)
  · refine Sim.bind (R := fun a b => a.2 = b.2) (Sim.ifc ?_ (Sim.pure rfl)) ?_
    · exact Sim.bind (sim_when (sim_ABSORB _ _ _ _ _)) fun _ _ _ =>
        Sim.bind (sim_when (sim_ENCRYPT _ _ _ _ _ _)) fun _ _ _ =>
        Sim.bind (sim_when (sim_DECRYPT _ _ _ _ _ _)) fun _ _ _ => Sim.pure rfl
    · rintro ⟨a, x, p, q, r⟩ ⟨b, x', p', q', r'⟩ h
      simp at h; obtain ⟨rfl, rfl, rfl, rfl⟩ := h
      simp only
      refine Sim.bind (sim_when (sim_ENCRYPT _ _ _ _ _ _)) fun _ _ _ => ?_
      refine Sim.bind (sim_when (sim_DECRYPT _ _ _ _ _ _)) fun _ _ _ => ?_
      first
        | exact sim_updTail cfg mode _ _ _ _ _ _
        | exact Sim.bind (R := fun a b => a.2 = b.2) (Sim.pure rfl) (by
            rintro ⟨a, x, p, q, r⟩ ⟨b, x', p', q', r'⟩ h
            simp at h; obtain ⟨rfl, rfl, rfl, rfl⟩ := h
            exact sim_updTail cfg mode _ _ _ _ _ _)

theorem sim_update (h : V.CT e) (cfg : Cfg) (s s' : State) (c m mlen mode : Nat) :
    Sim Any (ascon_update V cfg e s c m mlen mode) (ascon_update V cfg e s' c m mlen mode) := by
  unfold ascon_update
  refine Sim.bind (sim_nrRate cfg mode) ?_
  rintro ⟨nr, rate⟩ _ rfl
  simp only
  refine Sim.bind (R := fun a b => a.2 = b.2) (Sim.loop ?_ ?_ _ rfl) ?_
  · rintro ⟨_, _, _, _⟩ ⟨_, _, _, _⟩ h; simp at h; simp [h]
  · rintro ⟨a, q⟩ ⟨b, q'⟩ h
    simp only at h; subst h
    exact sim_updStep (by assumption) _ _ _ _ _ _ _
  · rintro ⟨a, q⟩ ⟨b, q'⟩ h
    simp only at h; subst h
    exact sim_updFinal _ _ _ _ _

theorem sim_lowAdata (h : V.CT e) (cfg : Cfg) (s s' : State) (p n : Nat) :
    Sim Any (lowAdata V cfg e s p n) (lowAdata V cfg e s' p n) := by
  unfold lowAdata
  refine Sim.bind (R := Any) (Sim.ifc ?_ (Sim.pure trivial)) fun _ _ _ => sim_xorB _ _ _ _ _
  exact Sim.bind (sim_update h _ _ _ _ _ _ _) fun _ _ _ => h.p8 _ _

theorem sim_low_aead_encrypt (h : V.CT e) (cfg : Cfg) (sp c clen m mlen ad adlen nsec npub k : Nat) :
    Sim Any (low_crypto_aead_encrypt V cfg e sp c clen m mlen ad adlen nsec npub k)
      (low_crypto_aead_encrypt V cfg e sp c clen m mlen ad adlen nsec npub k) := by
  unfold low_crypto_aead_encrypt low_ascon_aead_encrypt
  refine Sim.bind (R := Any) (by oct_step) fun _ _ _ => ?_
  refine Sim.bind (sim_loadkey k) fun _ _ _ => ?_
  refine Sim.bind (sim_initaead h _ _ npub) fun _ _ _ => ?_
  refine Sim.bind (sim_lowAdata h _ _ _ _ _) fun _ _ _ => ?_
  refine Sim.bind (sim_update h _ _ _ _ _ _ _) fun _ _ _ => ?_
  refine Sim.bind (sim_final h _ _ _ _) fun _ _ _ => ?_
  exact Sim.bind (sim_gettag _ _ _) fun _ _ _ => Sim.pure trivial

theorem sim_low_aead_decrypt (h : V.CT e) (cfg : Cfg) (sp m mlen nsec c clen ad adlen npub k : Nat) :
    Sim Any (low_crypto_aead_decrypt V cfg e sp m mlen nsec c clen ad adlen npub k)
      (low_crypto_aead_decrypt V cfg e sp m mlen nsec c clen ad adlen npub k) := by
  unfold low_crypto_aead_decrypt low_ascon_aead_decrypt
  refine Sim.ifc (Sim.pure trivial) ?_
  refine Sim.bind (R := Any) (by oct_step) fun _ _ _ => ?_
  refine Sim.bind (sim_loadkey k) fun _ _ _ => ?_
  refine Sim.bind (sim_initaead h _ _ npub) fun _ _ _ => ?_
  refine Sim.bind (sim_lowAdata h _ _ _ _ _) fun _ _ _ => ?_
  refine Sim.bind (sim_update h _ _ _ _ _ _ _) fun _ _ _ => ?_
  refine Sim.bind (sim_final h _ _ _ _) fun _ _ _ => ?_
  exact sim_verify _ _ _

theorem sim_low_xof (h : V.CT e) (cfg : Cfg) (ivs : State) (sp out outlen inp inlen : Nat) :
    Sim Any (low_ascon_xof V cfg ivs e sp out outlen inp inlen)
      (low_ascon_xof V cfg ivs e sp out outlen inp inlen) := by
  unfold low_ascon_xof
  refine Sim.bind (sim_update h _ _ _ _ _ _ _) fun _ _ _ => ?_
  refine Sim.bind (h.p12 _ _) fun _ _ _ => ?_
  exact Sim.bind (sim_update h _ _ _ _ _ _ _) fun _ _ _ => Sim.pure trivial

end Ascon.Opt8
