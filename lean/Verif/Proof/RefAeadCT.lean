import Verif.C.Sim
import Verif.Model.RefAead
/-!
# The reference AEAD code is constant time
-/

namespace Ascon.Ref

open Ascon.C

theorem sim_SETBYTE {b b' : Byte} {i : Nat} : Sim Any (SETBYTE b i) (SETBYTE b' i) :=
  Sim.bind Sim.require fun _ _ _ => .ret trivial

theorem sim_GETBYTE {x x' : Word} {i : Nat} : Sim Any (GETBYTE x i) (GETBYTE x' i) :=
  Sim.bind Sim.require fun _ _ _ => .ret trivial

theorem sim_PAD {i : Nat} : Sim Any (PAD i) (PAD i) := sim_SETBYTE

theorem sim_DSEP : Sim Any DSEP DSEP := sim_SETBYTE

theorem sim_LOADBYTES {p n : Nat} : Sim Any (LOADBYTES p n) (LOADBYTES p n) := by
  unfold LOADBYTES
  refine Sim.forUp (fun i a b _ => ?_) _ _ trivial
  exact Sim.bind Sim.loadB fun _ _ _ => Sim.bind sim_SETBYTE fun _ _ _ => Sim.pure trivial

theorem sim_STOREBYTES {p n : Nat} {x y : Word} : Sim Any (STOREBYTES p x n) (STOREBYTES p y n) := by
  unfold STOREBYTES
  refine Sim.forUp (fun i a b _ => ?_) _ _ trivial
  exact Sim.bind sim_GETBYTE fun _ _ _ => Sim.storeB

theorem sim_CLEARBYTES {n : Nat} {x y : Word} : Sim Any (CLEARBYTES x n) (CLEARBYTES y n) := by
  unfold CLEARBYTES
  refine Sim.forUp (fun i a b _ => ?_) _ _ trivial
  exact Sim.bind sim_SETBYTE fun _ _ _ => Sim.pure trivial

/-- Apply the rule for one statement of the reference code. -/
macro "ct_step" : tactic => `(tactic| first
  | exact sim_LOADBYTES | exact sim_STOREBYTES | exact sim_PAD | exact sim_DSEP | exact sim_CLEARBYTES
  | exact Sim.loadB | exact Sim.store64 | exact Sim.load64
  | exact .alloc (.ret trivial) | exact .free (.ret trivial))

/-- Straight-line code with secret results. -/
macro "ct_seq" : tactic => `(tactic|
  repeat (first
    | exact Sim.pure trivial
    | (refine Sim.bind (R := Any) (by ct_step) fun _ _ _ => ?_)
    | ct_step))

theorem sim_adStep (s s' : State) (ad n : Nat) :
    Sim (fun a b => a.2 = b.2) (adStep (s, ad, n)) (adStep (s', ad, n)) := by
  unfold adStep
  refine Sim.bind (R := Any) (by ct_step) fun _ _ _ => ?_
  refine Sim.bind (R := Any) (by ct_step) fun _ _ _ => ?_
  exact Sim.pure rfl

theorem sim_adLoop (s s' : State) (ad n : Nat) :
    Sim (fun a b => a.2 = b.2) (adLoop s ad n) (adLoop s' ad n) := by
  unfold adLoop
  apply Sim.loop
  · rintro ⟨_, _, _⟩ ⟨_, _, _⟩ h; simp at h; simp [h]
  · rintro ⟨a, p, q⟩ ⟨b, p', q'⟩ h
    simp at h; obtain ⟨rfl, rfl⟩ := h
    exact sim_adStep a b p q
  · rfl

theorem sim_absorbAd (s s' : State) (ad n : Nat) : Sim Any (absorbAd s ad n) (absorbAd s' ad n) := by
  unfold absorbAd
  refine Sim.ifc ?_ (Sim.pure trivial)
  refine Sim.bind (sim_adLoop s s' ad n) ?_
  rintro ⟨a, p, q⟩ ⟨b, p', q'⟩ h
  simp at h; obtain ⟨rfl, rfl⟩ := h
  refine Sim.bind (R := Any) (Sim.ifc ?_ ?_) fun _ _ _ => Sim.pure trivial
  · ct_seq
  · ct_seq

theorem sim_initAead (npub k : Nat) : Sim Any (initAead npub k) (initAead npub k) := by
  unfold initAead
  ct_seq

theorem sim_encLoop (s s' : State) (c m n : Nat) :
    Sim (fun a b => a.2 = b.2) (encLoop s c m n) (encLoop s' c m n) := by
  unfold encLoop
  apply Sim.loop
  · rintro ⟨_, _, _, _⟩ ⟨_, _, _, _⟩ h; simp at h; simp [h]
  · rintro ⟨a, p, q, r⟩ ⟨b, p', q', r'⟩ h
    simp at h; obtain ⟨rfl, rfl, rfl⟩ := h
    unfold encStep
    refine Sim.bind (R := Any) (by ct_step) fun _ _ _ => ?_
    refine Sim.bind (R := Any) (by ct_step) fun _ _ _ => ?_
    refine Sim.bind (R := Any) (by ct_step) fun _ _ _ => ?_
    refine Sim.bind (R := Any) (by ct_step) fun _ _ _ => ?_
    exact Sim.pure rfl
  · rfl

theorem sim_encFinal (s s' : State) (c m n : Nat) :
    Sim (fun a b => a.2 = b.2) (encFinal s c m n) (encFinal s' c m n) := by
  unfold encFinal
  refine Sim.bind (R := Any) (Sim.ifc ?_ ?_) fun _ _ _ => Sim.pure rfl
  · ct_seq
  · ct_seq

theorem sim_encrypt (e : Endian) (sp c clen m mlen ad adlen nsec npub k : Nat) :
    Sim Any (crypto_aead_encrypt e sp c clen m mlen ad adlen nsec npub k)
      (crypto_aead_encrypt e sp c clen m mlen ad adlen nsec npub k) := by
  unfold crypto_aead_encrypt
  refine Sim.bind (R := Any) (by ct_step) fun _ _ _ => ?_
  refine Sim.bind (sim_initAead npub k) fun _ _ _ => ?_
  refine Sim.bind (sim_absorbAd _ _ ad adlen) fun _ _ _ => ?_
  refine Sim.bind (R := Any) (by ct_step) fun _ _ _ => ?_
  refine Sim.bind (sim_encLoop _ _ c m mlen) ?_
  rintro ⟨a, p, q, r⟩ ⟨b, p', q', r'⟩ h
  simp at h; obtain ⟨rfl, rfl, rfl⟩ := h
  refine Sim.bind (sim_encFinal _ _ _ _ _) ?_
  rintro ⟨a, p⟩ ⟨b, p'⟩ h
  simp at h; subst h
  ct_seq

theorem sim_decLoop (s s' : State) (m c n : Nat) :
    Sim (fun a b => a.2 = b.2) (decLoop s m c n) (decLoop s' m c n) := by
  unfold decLoop
  apply Sim.loop
  · rintro ⟨_, _, _, _⟩ ⟨_, _, _, _⟩ h; simp at h; simp [h]
  · rintro ⟨a, p, q, r⟩ ⟨b, p', q', r'⟩ h
    simp at h; obtain ⟨rfl, rfl, rfl⟩ := h
    unfold decStep
    refine Sim.bind (R := Any) (by ct_step) fun _ _ _ => ?_
    refine Sim.bind (R := Any) (by ct_step) fun _ _ _ => ?_
    refine Sim.bind (R := Any) (by ct_step) fun _ _ _ => ?_
    refine Sim.bind (R := Any) (by ct_step) fun _ _ _ => ?_
    exact Sim.pure rfl
  · rfl

theorem sim_decFinal (s s' : State) (m c n : Nat) :
    Sim (fun a b => a.2 = b.2) (decFinal s m c n) (decFinal s' m c n) := by
  unfold decFinal
  refine Sim.bind (R := Any) (Sim.ifc ?_ ?_) fun _ _ _ => Sim.pure rfl
  · ct_seq
  · ct_seq

theorem sim_verifyTag (c t : Nat) : Sim Any (verifyTag c t) (verifyTag c t) := by
  unfold verifyTag
  refine Sim.bind (R := Any) (Sim.forUp (fun _ _ _ _ => ?_) _ _ trivial) fun _ _ _ => Sim.pure trivial
  ct_seq

theorem sim_decrypt (e : Endian) (sp m mlen nsec c clen ad adlen npub k : Nat) :
    Sim Any (crypto_aead_decrypt e sp m mlen nsec c clen ad adlen npub k)
      (crypto_aead_decrypt e sp m mlen nsec c clen ad adlen npub k) := by
  unfold crypto_aead_decrypt
  refine Sim.ifc (Sim.pure trivial) ?_
  refine Sim.bind (R := Any) (by ct_step) fun _ _ _ => ?_
  refine Sim.bind (sim_initAead npub k) fun _ _ _ => ?_
  refine Sim.bind (sim_absorbAd _ _ ad adlen) fun _ _ _ => ?_
  refine Sim.bind (R := Any) (by ct_step) fun _ _ _ => ?_
  refine Sim.bind (sim_decLoop _ _ m c _) ?_
  rintro ⟨a, p, q, r⟩ ⟨b, p', q', r'⟩ h
  simp at h; obtain ⟨rfl, rfl, rfl⟩ := h
  refine Sim.bind (sim_decFinal _ _ _ _ _) ?_
  rintro ⟨a, p⟩ ⟨b, p'⟩ h
  simp at h; subst h
  refine Sim.bind (R := Any) (by ct_step) fun _ _ _ => ?_
  refine Sim.bind (R := Any) (by ct_step) fun _ _ _ => ?_
  refine Sim.bind (R := Any) (by ct_step) fun _ _ _ => ?_
  refine Sim.bind (sim_verifyTag _ _) fun _ _ _ => ?_
  ct_seq

end Ascon.Ref
