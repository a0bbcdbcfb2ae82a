import Verif.Model.LowAead
import Verif.Proof.GenCT
import Verif.Proof.RefAeadCT
/-!
# src/lowsize and src/combined are constant time over every constant-time backend
-/

namespace Ascon.Low

open Ascon.C Ascon.Gen
open Ascon.C.Prog (require ifc loop forUp loadB storeB)
open Ascon.Ref (getX xorX verifyTag sim_xorX sim_getX)

variable {B : Backend} {e : Endian}

theorem sim_setX (s s' : State) (i : Nat) (w w' : Word) : Sim Any (setX s i w) (setX s' i w') := by
  unfold setX
  split <;> first | exact Sim.pure trivial | exact .ub

theorem sim_permNr (h : B.CT e) (nr : Nat) (s s' : State) : Sim Any (permNr B e nr s) (permNr B e nr s') := by
  unfold permNr
  split
  · exact h.p12 _ _
  · exact h.p8 _ _

theorem sim_nrRate (comb : Bool) (mode : Nat) : Sim Eq (nrRate comb mode) (nrRate comb mode) := by
  unfold nrRate
  split
  · refine Sim.bind (R := Eq) (Sim.ifc (Sim.pure rfl) (Sim.pure rfl)) fun _ _ h => ?_
    refine Sim.bind (R := Eq) (Sim.ifc (Sim.pure rfl) (Sim.pure rfl)) fun _ _ h' => ?_
    subst h h'
    exact Sim.pure rfl
  · exact Sim.pure rfl

theorem sim_ifAbsorb {α : Type} {comb : Bool} {mode : Nat} {t f t' f' : Prog α} (ht : Sim Any t t')
    (hf : Sim Any f f') : Sim Any (ifAbsorb comb mode t f) (ifAbsorb comb mode t' f') := by
  unfold ifAbsorb
  split
  · exact Sim.ifc ht hf
  · exact ht

/-- Equal public part of the loop variables `(s, i, tmp, out, in, len)`. -/
def Pub (a b : State × Nat × Word × Nat × Nat × Nat) : Prop :=
  a.2.1 = b.2.1 ∧ a.2.2.2 = b.2.2.2

theorem sim_updStep (h : B.CT e) (comb : Bool) (mode nr rate : Nat) (a b : State × Nat × Word × Nat × Nat × Nat)
    (hp : Pub a b) : Sim Pub (updStep B e comb mode nr rate a) (updStep B e comb mode nr rate b) := by
  obtain ⟨s, i, tmp, out, inp, len⟩ := a
  obtain ⟨s', i', tmp', out', inp', len'⟩ := b
  simp only [Pub, Prod.mk.injEq] at hp
  obtain ⟨rfl, rfl, rfl, rfl⟩ := hp
  unfold updStep
  simp only
  refine Sim.bind (R := Any) (sim_ifAbsorb ?_ (Sim.pure trivial)) fun _ _ _ => ?_
  · refine Sim.bind (R := Any) (by gct_step) fun _ _ _ => ?_
    refine Sim.bind (sim_xorX _ _ _ _ _) fun _ _ _ => ?_
    exact Sim.pure trivial
  refine Sim.bind (R := Any) (Sim.ifc ?_ (Sim.pure trivial)) fun _ _ _ => ?_
  · refine Sim.bind (sim_getX _ _ _) fun _ _ _ => ?_
    gct_step
  refine Sim.bind (R := Any) (Sim.ifc (sim_setX _ _ _ _ _) (Sim.pure trivial)) fun _ _ _ => ?_
  refine Sim.bind (R := Eq) (Sim.ifc (Sim.pure rfl) (Sim.pure rfl)) fun _ _ h => ?_
  subst h
  refine Sim.bind (R := Any) (Sim.ifc (sim_permNr h _ _ _) (Sim.pure trivial)) fun _ _ _ => ?_
  exact Sim.pure ⟨rfl, rfl⟩

theorem sim_updFinal (h : B.CT e) (comb : Bool) (mode : Nat) (a b : State × Nat × Word × Nat × Nat × Nat)
    (hp : Pub a b) : Sim Any (updFinal B e comb mode a) (updFinal B e comb mode b) := by
  obtain ⟨s, i, tmp, out, inp, len⟩ := a
  obtain ⟨s', i', tmp', out', inp', len'⟩ := b
  simp only [Pub, Prod.mk.injEq] at hp
  obtain ⟨rfl, rfl, rfl, rfl⟩ := hp
  unfold updFinal
  simp only
  refine Sim.bind (R := Any) (sim_ifAbsorb ?_ (Sim.pure trivial)) fun _ _ _ => ?_
  · refine Sim.bind (R := Any) (by gct_step) fun _ _ _ => ?_
    refine Sim.bind (sim_xorX _ _ _ _ _) fun _ _ _ => ?_
    exact Sim.pure trivial
  refine Sim.bind (R := Any) (Sim.ifc ?_ (Sim.pure trivial)) fun _ _ _ => ?_
  · refine Sim.bind (sim_getX _ _ _) fun _ _ _ => ?_
    gct_step
  refine Sim.bind (R := Any) (Sim.ifc ?_ (Sim.pure trivial)) fun _ _ _ => ?_
  · refine Sim.bind (sim_getX _ _ _) fun _ _ _ => ?_
    refine Sim.bind (R := Any) (by gct_step) fun _ _ _ => ?_
    refine Sim.bind (sim_setX _ _ _ _ _) fun _ _ _ => ?_
    exact sim_xorX _ _ _ _ _
  refine Sim.bind (R := Any) (by gct_step) fun _ _ _ => ?_
  exact sim_xorX _ _ _ _ _

theorem sim_update (h : B.CT e) (comb : Bool) (s s' : State) (out inp len mode : Nat) :
    Sim Any (ascon_update B e comb s out inp len mode) (ascon_update B e comb s' out inp len mode) := by
  unfold ascon_update
  refine Sim.bind (sim_nrRate comb mode) fun a b hab => ?_
  subst hab
  refine Sim.bind (R := Pub) (Sim.loop ?_ (fun _ _ hp => sim_updStep h comb mode _ _ _ _ hp) _ ⟨rfl, rfl⟩)
    fun a b hp => sim_updFinal h comb mode a b hp
  rintro ⟨s, i, tmp, out, inp, len⟩ ⟨s', i', tmp', out', inp', len'⟩ hp
  simp only [Pub, Prod.mk.injEq] at hp
  simp [hp.2.2.2]

theorem sim_copyTag (tag t : Nat) : Sim Any (copyTag tag t) (copyTag tag t) := by
  unfold copyTag
  refine Sim.forUp (fun i _ _ _ => ?_) _ _ trivial
  refine Sim.bind Sim.loadB fun _ _ _ => ?_
  exact Sim.storeB

theorem sim_verifyTag (c t : Nat) : Sim Any (verifyTag c t) (verifyTag c t) := by
  unfold verifyTag
  refine Sim.bind (R := Any) (Sim.forUp (fun i _ _ _ => ?_) _ _ trivial) fun _ _ _ => Sim.pure trivial
  refine Sim.bind Sim.loadB fun _ _ _ => ?_
  refine Sim.bind Sim.loadB fun _ _ _ => ?_
  exact Sim.pure trivial

theorem sim_aead (h : B.CT e) (comb : Bool) (sp tag out inp inlen ad adlen npub k mode : Nat) :
    Sim Any (ascon_aead B e comb sp tag out inp inlen ad adlen npub k mode)
      (ascon_aead B e comb sp tag out inp inlen ad adlen npub k mode) := by
  unfold ascon_aead
  refine Sim.bind (sim_loadkey k) fun _ _ _ => ?_
  refine Sim.bind (sim_initaead h _ _ npub) fun _ _ _ => ?_
  refine Sim.bind (R := Any) (Sim.ifc ?_ (Sim.pure trivial)) fun _ _ _ => ?_
  · refine Sim.bind (sim_update h _ _ _ _ _ _ _) fun _ _ _ => ?_
    gct_step
  refine Sim.bind (sim_update h _ _ _ _ _ _ _) fun _ _ _ => ?_
  refine Sim.bind (sim_final h _ _ _ _) fun _ _ _ => ?_
  refine Sim.bind (R := Any) (by gct_step) fun _ _ _ => ?_
  refine Sim.bind (R := Any) (by gct_step) fun _ _ _ => ?_
  refine Sim.bind (R := Any) (by gct_step) fun _ _ _ => ?_
  refine Sim.bind (R := Any) (Sim.ifc ?_ (sim_verifyTag _ _)) fun _ _ _ => ?_
  · refine Sim.bind (sim_copyTag _ _) fun _ _ _ => Sim.pure trivial
  refine Sim.bind (R := Any) (by gct_step) fun _ _ _ => ?_
  exact Sim.pure trivial

theorem sim_aead_encrypt (h : B.CT e) (comb : Bool) (sp c clen m mlen ad adlen nsec npub k : Nat) :
    Sim Any (crypto_aead_encrypt B comb e sp c clen m mlen ad adlen nsec npub k)
      (crypto_aead_encrypt B comb e sp c clen m mlen ad adlen nsec npub k) := by
  unfold crypto_aead_encrypt
  refine Sim.bind (R := Any) (by gct_step) fun _ _ _ => ?_
  exact sim_aead h _ _ _ _ _ _ _ _ _ _ _

theorem sim_aead_decrypt (h : B.CT e) (comb : Bool) (sp m mlen nsec c clen ad adlen npub k : Nat) :
    Sim Any (crypto_aead_decrypt B comb e sp m mlen nsec c clen ad adlen npub k)
      (crypto_aead_decrypt B comb e sp m mlen nsec c clen ad adlen npub k) := by
  unfold crypto_aead_decrypt
  refine Sim.ifc (Sim.pure trivial) ?_
  refine Sim.bind (R := Any) (by gct_step) fun _ _ _ => ?_
  exact sim_aead h _ _ _ _ _ _ _ _ _ _ _

theorem sim_xof (h : B.CT e) (sp out outlen inp inlen : Nat) :
    Sim Any (ascon_xof B e sp out outlen inp inlen) (ascon_xof B e sp out outlen inp inlen) := by
  unfold ascon_xof
  refine Sim.bind (sim_update h _ _ _ _ _ _ _) fun _ _ _ => ?_
  refine Sim.bind (R := Any) (by gct_step) fun _ _ _ => ?_
  refine Sim.bind (sim_update h _ _ _ _ _ _ _) fun _ _ _ => ?_
  exact Sim.pure trivial

end Ascon.Low
