import Verif.Proof.GenVarBackends
import Verif.Proof.GenCT
/-!
# The rate-8 configurations of src/aead.c are constant time
-/

namespace Ascon.Gen

open Ascon.C

variable {V : VBackend} {e : Endian}

/-- Every operation of the headers has a constant trace. -/
structure VBackend.CT (V : VBackend) (e : Endian) : Prop where
  base : V.B.CT e
  p6 : PermCT (V.P6 e)

/-- Apply the rule for one statement of the rate-8 code. -/
macro "vct_step" : tactic => `(tactic| first
  | exact sim_LOAD | exact sim_LOADBYTES | exact sim_STORE | exact sim_STOREBYTES
  | exact Backend.CT.pad (VBackend.CT.base (by assumption)) _
  | exact Backend.CT.clear (VBackend.CT.base (by assumption)) _ _ _
  | exact Backend.CT.p12 (VBackend.CT.base (by assumption)) _ _
  | exact VBackend.CT.p6 (by assumption) _ _
  | exact Sim.store64 | exact Sim.load64)

/-- Straight-line code with secret results. -/
macro "vct_seq" : tactic => `(tactic|
  repeat (first
    | exact Sim.pure trivial
    | exact Sim.pure rfl
    | (refine Sim.bind (R := Any) (by vct_step) fun _ _ _ => ?_)
    | vct_step))

theorem sim_v_loadkey (q : KeyCfg) (k : Nat) : Sim Any (v_loadkey V q e k) (v_loadkey V q e k) := by
  cases q <;> unfold v_loadkey <;> vct_seq

theorem sim_v_initaead (h : V.CT e) (q : KeyCfg) (key key' : Key) (n : Nat) :
    Sim Any (v_initaead V q e key n) (v_initaead V q e key' n) := by
  unfold v_initaead; vct_seq

theorem sim_v_adFinal (h : V.CT e) (s s' : State) (p n : Nat) :
    Sim Any (v_adFinal V e s p n) (v_adFinal V e s' p n) := by
  unfold v_adFinal
  refine Sim.bind (R := Any) (by vct_step) fun _ _ _ => Sim.ifc ?_ (Sim.pure trivial)
  vct_seq

theorem sim_v_adata (h : V.CT e) (s s' : State) (p n : Nat) :
    Sim Any (v_adata V e s p n) (v_adata V e s' p n) := by
  unfold v_adata
  refine Sim.bind (R := Any) (Sim.ifc ?_ (Sim.pure trivial)) fun _ _ _ => Sim.pure trivial
  refine Sim.bind (R := fun a b => a.2 = b.2) (Sim.loop ?_ ?_ _ rfl) ?_
  · rintro ⟨_, _, _⟩ ⟨_, _, _⟩ h; simp at h; simp [h]
  · rintro ⟨a, p, q⟩ ⟨b, p', q'⟩ h
    simp at h; obtain ⟨rfl, rfl⟩ := h
    unfold v_adStep
    vct_seq
  · rintro ⟨a, p, q⟩ ⟨b, p', q'⟩ h
    simp at h; obtain ⟨rfl, rfl⟩ := h
    simp only
    exact Sim.bind (sim_v_adFinal (by assumption) _ _ _ _) fun _ _ _ => by vct_step

theorem sim_v_encFinal (h : V.CT e) (s s' : State) (c p n : Nat) :
    Sim Any (v_encFinal V e s c p n) (v_encFinal V e s' c p n) := by
  unfold v_encFinal
  refine Sim.bind (R := Any) (by vct_step) fun _ _ _ => Sim.ifc ?_ (Sim.pure trivial)
  vct_seq

theorem sim_v_encrypt (h : V.CT e) (s s' : State) (c p n : Nat) :
    Sim Any (v_encrypt V e s c p n) (v_encrypt V e s' c p n) := by
  unfold v_encrypt
  refine Sim.bind (R := fun a b => a.2 = b.2) (Sim.loop ?_ ?_ _ rfl) ?_
  · rintro ⟨_, _, _, _⟩ ⟨_, _, _, _⟩ h; simp at h; simp [h]
  · rintro ⟨a, p, q, r⟩ ⟨b, p', q', r'⟩ h
    simp at h; obtain ⟨rfl, rfl, rfl⟩ := h
    unfold v_encStep
    vct_seq
  · rintro ⟨a, p, q, r⟩ ⟨b, p', q', r'⟩ h
    simp at h; obtain ⟨rfl, rfl, rfl⟩ := h
    exact sim_v_encFinal (by assumption) _ _ _ _ _

theorem sim_v_decFinal (h : V.CT e) (s s' : State) (c p n : Nat) :
    Sim Any (v_decFinal V e s c p n) (v_decFinal V e s' c p n) := by
  unfold v_decFinal
  refine Sim.bind (R := Any) (by vct_step) fun _ _ _ => Sim.ifc ?_ (Sim.pure trivial)
  vct_seq

theorem sim_v_decrypt (h : V.CT e) (s s' : State) (m c n : Nat) :
    Sim Any (v_decrypt V e s m c n) (v_decrypt V e s' m c n) := by
  unfold v_decrypt
  refine Sim.bind (R := fun a b => a.2 = b.2) (Sim.loop ?_ ?_ _ rfl) ?_
  · rintro ⟨_, _, _, _⟩ ⟨_, _, _, _⟩ h; simp at h; simp [h]
  · rintro ⟨a, p, q, r⟩ ⟨b, p', q', r'⟩ h
    simp at h; obtain ⟨rfl, rfl, rfl⟩ := h
    unfold v_decStep
    vct_seq
  · rintro ⟨a, p, q, r⟩ ⟨b, p', q', r'⟩ h
    simp at h; obtain ⟨rfl, rfl, rfl⟩ := h
    exact sim_v_decFinal (by assumption) _ _ _ _ _

theorem sim_v_final (h : V.CT e) (q : KeyCfg) (s s' : State) (key key' : Key) :
    Sim Any (v_final V q e s key) (v_final V q e s' key') := by
  unfold v_final; vct_seq

theorem sim_v_aead_encrypt (h : V.CT e) (q : KeyCfg) (sp c clen m mlen ad adlen nsec npub k : Nat) :
    Sim Any (v_crypto_aead_encrypt V q e sp c clen m mlen ad adlen nsec npub k)
      (v_crypto_aead_encrypt V q e sp c clen m mlen ad adlen nsec npub k) := by
  unfold v_crypto_aead_encrypt v_aead_encrypt
  refine Sim.bind (R := Any) (by vct_step) fun _ _ _ => ?_
  refine Sim.bind (sim_v_loadkey q k) fun _ _ _ => ?_
  refine Sim.bind (sim_v_initaead h q _ _ npub) fun _ _ _ => ?_
  refine Sim.bind (sim_v_adata h _ _ _ _) fun _ _ _ => ?_
  refine Sim.bind (sim_v_encrypt h _ _ _ _ _) fun _ _ _ => ?_
  refine Sim.bind (sim_v_final h q _ _ _ _) fun _ _ _ => ?_
  refine Sim.bind (R := Any) ?_ fun _ _ _ => Sim.pure trivial
  unfold ascon_gettag
  vct_seq

theorem sim_v_aead_decrypt (h : V.CT e) (q : KeyCfg) (sp m mlen nsec c clen ad adlen npub k : Nat) :
    Sim Any (v_crypto_aead_decrypt V q e sp m mlen nsec c clen ad adlen npub k)
      (v_crypto_aead_decrypt V q e sp m mlen nsec c clen ad adlen npub k) := by
  unfold v_crypto_aead_decrypt v_aead_decrypt
  refine Sim.ifc (Sim.pure trivial) ?_
  refine Sim.bind (R := Any) (by vct_step) fun _ _ _ => ?_
  refine Sim.bind (sim_v_loadkey q k) fun _ _ _ => ?_
  refine Sim.bind (sim_v_initaead h q _ _ npub) fun _ _ _ => ?_
  refine Sim.bind (sim_v_adata h _ _ _ _) fun _ _ _ => ?_
  refine Sim.bind (sim_v_decrypt h _ _ _ _ _) fun _ _ _ => ?_
  refine Sim.bind (sim_v_final h q _ _ _ _) fun _ _ _ => ?_
  unfold ascon_verify
  vct_seq

end Ascon.Gen

namespace Ascon.Impl

open Ascon.C Ascon.Gen Ascon.Arm

theorem Core.p6_ct (c : Core) (e : Endian) : PermCT ((Perm.core c).P6 e) := by
  cases c
  case opt64 => exact fun _ _ => Sim.pure trivial
  case opt64_lowsize => exact PROUNDS_ct
  case opt32 => exact fun _ _ => Sim.pure trivial
  case opt32_lowsize => exact PROUNDS_ct
  case bi32 => exact fun _ _ => Sim.pure trivial
  case bi32_lowreg => exact PROUNDS_ct
  case bi8 => exact PROUNDS_ct
  case armv6 => exact optUnrolled_ct check_armv6_ROUND5 check_armv6_ROUND e 6 (by omega)
  case armv6_lowsize => exact optLoop_ct (armv6_loop 6 (by omega) (by omega)) e
  case armv6m => exact optLoop_ct (armv6m_loop 6 (by omega) (by omega)) e
  case armv6m_lowsize => exact Low6m.P_ct e 6 (by omega) (by omega)
  case armv7m => exact optUnrolled_ct check_armv7m_ROUND5 check_armv7m_ROUND e 6 (by omega)
  case armv7m_small => exact optLoop_ct (armv7m_loop 6 (by omega) (by omega)) e
  case bi32_armv6 => exact biUnrolled_ct check_bi32_armv6_ROUND5 check_bi32_armv6_ROUND e 6 (by omega)
  case bi32_armv6m => exact biLoop_ct (bi32_armv6m_loop 6 (by omega) (by omega)) e
  case bi32_armv7m => exact biUnrolled_ct check_bi32_armv7m_ROUND5 check_bi32_armv7m_ROUND e 6 (by omega)
  case bi32_armv7m_small => exact biLoop_ct (bi32_armv7m_loop 6 (by omega) (by omega)) e
  case neon =>
    intro s t
    have h : ∀ u, (Perm.core .neon).P6 e u = .ret (Spec.perm 6 u) := fun u => Neon.P6_eq e u
    rw [h, h]
    exact Sim.ret trivial

theorem Core.vct (c : Core) (e : Endian) : c.vbackend.CT e := by
  have hb := c.ct e
  have h6 := c.p6_ct e
  unfold Core.vbackend
  cases c.family <;> exact ⟨hb, h6⟩

end Ascon.Impl
