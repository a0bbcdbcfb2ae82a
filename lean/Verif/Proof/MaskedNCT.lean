import Verif.Proof.MaskedNTop
import Verif.Proof.MaskedCT
/-!
# Constant time of the masked implementation with any number of shares
-/

namespace Ascon.MaskedN

open Ascon.Spec Ascon.C Ascon.Gen
open Ascon.Masked (U32 share_t load32 store32 Heap malloc mfree NUM_WORDS sim_store32 sim_load32 sim_malloc sim_mfree)
open Ascon.C.Prog (require ifc loop forUp loadB storeB loadN storeN store64 load64)

local macro "sb" : tactic => `(tactic| refine Sim.bind (R := Any) ?_ fun _ _ _ => ?_)
local macro "done!" : tactic => `(tactic| exact Sim.pure trivial)

theorem sim_LOADSHARE (bi : Bool) (e : Endian) (p ns : Nat) : Sim Any (LOADSHARE bi e p ns) (LOADSHARE bi e p ns) := by
  unfold LOADSHARE
  sb; exact sim_load32 e p
  sb; exact sim_load32 e _
  split <;> done!

theorem sim_STORESHARE (bi : Bool) (e : Endian) (p ns : Nat) (s s' : share_t) :
    Sim Any (STORESHARE bi e p s ns) (STORESHARE bi e p s' ns) := by
  unfold STORESHARE
  simp only []
  sb; exact sim_store32 _ _ _ _
  exact sim_store32 _ _ _ _

theorem sim_loadIf (c : Prop) [Decidable c] (bi : Bool) (e : Endian) (p ns d : Nat) (w w' : word_t) :
    Sim Any (if c then (do let s ← LOADSHARE bi e p ns; pure (word_t.setShare w d s)) else pure w)
      (if c then (do let s ← LOADSHARE bi e p ns; pure (word_t.setShare w' d s)) else pure w') := by
  split
  · sb; exact sim_LOADSHARE _ _ _ _
    done!
  · done!

theorem MLOAD_eq (bi : Bool) (e : Endian) (data ns : Nat) : MLOAD bi e data ns =
    ((if ns ≥ 1 then (do let s ← LOADSHARE bi e data ns; pure (word_t.setShare (fun _ => ⟨0, 0⟩) 0 s)) else pure (fun _ => ⟨0, 0⟩)) >>= fun w =>
     (if ns ≥ 2 then (do let s ← LOADSHARE bi e (data + 4) ns; pure (word_t.setShare w 1 s)) else pure w) >>= fun w =>
     (if ns ≥ 3 then (do let s ← LOADSHARE bi e (data + 8) ns; pure (word_t.setShare w 2 s)) else pure w) >>= fun w =>
     (if ns ≥ 4 then (do let s ← LOADSHARE bi e (data + 12) ns; pure (word_t.setShare w 3 s)) else pure w)) := by
  unfold MLOAD
  by_cases h1 : ns ≥ 1 <;> by_cases h2 : ns ≥ 2 <;> by_cases h3 : ns ≥ 3 <;> by_cases h4 : ns ≥ 4 <;>
    simp only [h1, h2, h3, h4, if_true, if_false, Masked.ret_bind', bind_assoc']

theorem sim_MLOAD (bi : Bool) (e : Endian) (p ns : Nat) : Sim Any (MLOAD bi e p ns) (MLOAD bi e p ns) := by
  rw [MLOAD_eq]
  sb; exact sim_loadIf _ _ _ _ _ _ _ _
  sb; exact sim_loadIf _ _ _ _ _ _ _ _
  sb; exact sim_loadIf _ _ _ _ _ _ _ _
  exact sim_loadIf _ _ _ _ _ _ _ _

theorem sim_storeIf (c : Prop) [Decidable c] (bi : Bool) (e : Endian) (p ns : Nat) (s s' : share_t) :
    Sim Any (if c then STORESHARE bi e p s ns else pure ()) (if c then STORESHARE bi e p s' ns else pure ()) := by
  split
  · exact sim_STORESHARE _ _ _ _ _ _
  · done!

theorem MSTORE_eq (bi : Bool) (e : Endian) (data : Nat) (w : word_t) (ns : Nat) : MSTORE bi e data w ns =
    ((if ns ≥ 1 then STORESHARE bi e data (w 0) ns else pure ()) >>= fun _ =>
     (if ns ≥ 2 then STORESHARE bi e (data + 4) (w 1) ns else pure ()) >>= fun _ =>
     (if ns ≥ 3 then STORESHARE bi e (data + 8) (w 2) ns else pure ()) >>= fun _ =>
     (if ns ≥ 4 then STORESHARE bi e (data + 12) (w 3) ns else pure ())) := by
  unfold MSTORE
  by_cases h1 : ns ≥ 1 <;> by_cases h2 : ns ≥ 2 <;> by_cases h3 : ns ≥ 3 <;> by_cases h4 : ns ≥ 4 <;>
    simp only [h1, h2, h3, h4, if_true, if_false, Masked.ret_bind', bind_assoc']

theorem sim_MSTORE (bi : Bool) (e : Endian) (p ns : Nat) (w w' : word_t) : Sim Any (MSTORE bi e p w ns) (MSTORE bi e p w' ns) := by
  rw [MSTORE_eq, MSTORE_eq]
  sb; exact sim_storeIf _ _ _ _ _ _ _
  sb; exact sim_storeIf _ _ _ _ _ _ _
  sb; exact sim_storeIf _ _ _ _ _ _ _
  exact sim_storeIf _ _ _ _ _ _ _

/-- The loop counter is public. -/
def Cnt (a b : Nat × MState) : Prop := a.1 = b.1

theorem sim_roundStep (ns : Nat) (q q' : Nat × MState) (h : Cnt q q') : Sim Cnt (roundStep ns q) (roundStep ns q') := by
  unfold roundStep
  rw [show q.1 = q'.1 from h]
  sb; exact Sim.require
  exact Sim.pure (R := Cnt) rfl

theorem sim_P (s s' : MState) (nr ns : Nat) : Sim Any (P s nr ns) (P s' nr ns) := by
  unfold P
  split
  rotate_left
  · done!
  refine Sim.bind (sim_roundStep ns (12 - nr, s) (12 - nr, s') rfl) fun a b hab => ?_
  refine Sim.bind (Sim.loop (R := Cnt) (fun a b h => by rw [show a.1 = b.1 from h])
    (fun a b h => sim_roundStep ns a b h) 16 hab) fun _ _ _ => ?_
  done!

theorem sim_initaead (g : Cfg) (e : Endian) (ρ ρ' : Nat → Nat → Word) (k n : Nat) :
    Sim Any (ascon_initaead g e ρ k n) (ascon_initaead g e ρ' k n) := by
  unfold ascon_initaead
  sb; exact sim_MLOAD _ _ _ _
  sb; exact sim_MLOAD _ _ _ _
  sb; exact sim_MLOAD _ _ _ _
  sb; exact sim_MLOAD _ _ _ _
  sb; exact sim_P _ _ _ _
  done!

theorem sim_xorPad (s s' : MState) (i n : Nat) : Sim Any (xorPad s i n) (xorPad s' i n) := by
  unfold xorPad
  sb; exact Sim.require
  done!

/-- Pointers and lengths are public. -/
def Pub3 (a b : MState × Nat × Nat) : Prop := a.2 = b.2
def Pub4 (a b : MState × Nat × Nat × Nat) : Prop := a.2 = b.2
def Pub5 (a b : MState × Nat × Nat × Nat × Nat) : Prop := a.2 = b.2

theorem sim_adStep (g : Cfg) (e : Endian) (a b : MState × Nat × Nat) (h : Pub3 a b) : Sim Pub3 (adStep g e a) (adStep g e b) := by
  obtain ⟨s, p, n⟩ := a
  obtain ⟨s', p', n'⟩ := b
  obtain ⟨rfl, rfl⟩ : p = p' ∧ n = n' := by simpa [Pub3] using h
  unfold adStep
  sb; exact sim_MLOAD _ _ _ _
  sb; exact sim_MLOAD _ _ _ _
  sb; exact sim_P _ _ _ _
  exact Sim.pure (R := Pub3) rfl

theorem sim_adFinal (g : Cfg) (e : Endian) (a b : MState × Nat × Nat) (h : Pub3 a b) : Sim Any (adFinal g e a) (adFinal g e b) := by
  obtain ⟨s, p, n⟩ := a
  obtain ⟨s', p', n'⟩ := b
  obtain ⟨rfl, rfl⟩ : p = p' ∧ n = n' := by simpa [Pub3] using h
  unfold adFinal
  refine Sim.bind (R := Pub4) (Sim.ifc ?_ (Sim.pure (R := Pub4) rfl)) fun a b h => ?_
  · sb; exact sim_MLOAD _ _ _ _
    exact Sim.pure (R := Pub4) rfl
  obtain ⟨s, i, p, n⟩ := a
  obtain ⟨s', i', p', n'⟩ := b
  obtain ⟨rfl, rfl, rfl⟩ : i = i' ∧ p = p' ∧ n = n' := by simpa [Pub4] using h
  sb; exact sim_xorPad _ _ _ _
  sb
  · refine Sim.ifc ?_ (by done!)
    sb; exact sim_MLOAD _ _ _ _
    done!
  exact sim_P _ _ _ _

theorem sim_adata (g : Cfg) (e : Endian) (s s' : MState) (p n : Nat) : Sim Any (ascon_adata g e s p n) (ascon_adata g e s' p n) := by
  unfold ascon_adata
  sb
  · refine Sim.ifc ?_ (by done!)
    refine Sim.bind (Sim.loop (R := Pub3) (fun a b h => by
      obtain ⟨_, _, _⟩ := a; obtain ⟨_, _, _⟩ := b
      simp only [Pub3, Prod.mk.injEq] at h
      simp only [h])
      (fun a b h => sim_adStep g e a b h) _ (show Pub3 (s, p, n) (s', p, n) from rfl)) fun a b h => ?_
    exact sim_adFinal g e a b h
  done!

theorem sim_encStep (g : Cfg) (e : Endian) (a b : MState × Nat × Nat × Nat) (h : Pub4 a b) :
    Sim Pub4 (encStep g e a) (encStep g e b) := by
  obtain ⟨s, c, p, n⟩ := a
  obtain ⟨s', c', p', n'⟩ := b
  obtain ⟨rfl, rfl, rfl⟩ : c = c' ∧ p = p' ∧ n = n' := by simpa [Pub4] using h
  unfold encStep
  sb; exact sim_MLOAD _ _ _ _
  simp only []
  sb; exact sim_MSTORE _ _ _ _ _ _
  sb; exact sim_MLOAD _ _ _ _
  sb; exact sim_MSTORE _ _ _ _ _ _
  sb; exact sim_P _ _ _ _
  exact Sim.pure (R := Pub4) rfl

theorem sim_encFinal (g : Cfg) (e : Endian) (a b : MState × Nat × Nat × Nat) (h : Pub4 a b) :
    Sim Any (encFinal g e a) (encFinal g e b) := by
  obtain ⟨s, c, p, n⟩ := a
  obtain ⟨s', c', p', n'⟩ := b
  obtain ⟨rfl, rfl, rfl⟩ : c = c' ∧ p = p' ∧ n = n' := by simpa [Pub4] using h
  unfold encFinal
  refine Sim.bind (R := Pub5) (Sim.ifc ?_ (Sim.pure (R := Pub5) rfl)) fun a b h => ?_
  · sb; exact sim_MLOAD _ _ _ _
    simp only []
    sb; exact sim_MSTORE _ _ _ _ _ _
    exact Sim.pure (R := Pub5) rfl
  obtain ⟨s, i, c, p, n⟩ := a
  obtain ⟨s', i', c', p', n'⟩ := b
  obtain ⟨rfl, rfl, rfl, rfl⟩ : i = i' ∧ c = c' ∧ p = p' ∧ n = n' := by simpa [Pub5] using h
  sb; exact sim_xorPad _ _ _ _
  refine Sim.ifc ?_ (by done!)
  sb; exact sim_MLOAD _ _ _ _
  simp only []
  sb; exact sim_MSTORE _ _ _ _ _ _
  done!

theorem sim_encrypt (g : Cfg) (e : Endian) (s s' : MState) (c m n : Nat) :
    Sim Any (ascon_encrypt g e s c m n) (ascon_encrypt g e s' c m n) := by
  unfold ascon_encrypt
  refine Sim.bind (Sim.loop (R := Pub4) (fun a b h => by
      obtain ⟨_, _, _, _⟩ := a; obtain ⟨_, _, _, _⟩ := b
      simp only [Pub4, Prod.mk.injEq] at h
      simp only [h])
    (fun a b h => sim_encStep g e a b h) _ (show Pub4 (s, c, m, n) (s', c, m, n) from rfl)) fun a b h => ?_
  exact sim_encFinal g e a b h

theorem sim_decStep (g : Cfg) (e : Endian) (a b : MState × Nat × Nat × Nat) (h : Pub4 a b) :
    Sim Pub4 (decStep g e a) (decStep g e b) := by
  obtain ⟨s, c, p, n⟩ := a
  obtain ⟨s', c', p', n'⟩ := b
  obtain ⟨rfl, rfl, rfl⟩ : c = c' ∧ p = p' ∧ n = n' := by simpa [Pub4] using h
  unfold decStep
  sb; exact sim_MLOAD _ _ _ _
  simp only []
  sb; exact sim_MSTORE _ _ _ _ _ _
  sb; exact sim_MLOAD _ _ _ _
  sb; exact sim_MSTORE _ _ _ _ _ _
  sb; exact sim_P _ _ _ _
  exact Sim.pure (R := Pub4) rfl

theorem sim_MMASK (w w' : word_t) (n : Nat) : Sim Any (MMASK w n) (MMASK w' n) := by
  unfold MMASK
  sb; exact Sim.require
  done!

theorem sim_decFinal (g : Cfg) (e : Endian) (a b : MState × Nat × Nat × Nat) (h : Pub4 a b) :
    Sim Any (decFinal g e a) (decFinal g e b) := by
  obtain ⟨s, c, p, n⟩ := a
  obtain ⟨s', c', p', n'⟩ := b
  obtain ⟨rfl, rfl, rfl⟩ : c = c' ∧ p = p' ∧ n = n' := by simpa [Pub4] using h
  unfold decFinal
  refine Sim.bind (R := Pub5) (Sim.ifc ?_ (Sim.pure (R := Pub5) rfl)) fun a b h => ?_
  · sb; exact sim_MLOAD _ _ _ _
    simp only []
    sb; exact sim_MSTORE _ _ _ _ _ _
    exact Sim.pure (R := Pub5) rfl
  obtain ⟨s, i, c, p, n⟩ := a
  obtain ⟨s', i', c', p', n'⟩ := b
  obtain ⟨rfl, rfl, rfl, rfl⟩ : i = i' ∧ c = c' ∧ p = p' ∧ n = n' := by simpa [Pub5] using h
  sb; exact sim_xorPad _ _ _ _
  refine Sim.ifc ?_ (by done!)
  sb; exact sim_MLOAD _ _ _ _
  simp only []
  sb; exact sim_MSTORE _ _ _ _ _ _
  sb; exact sim_MMASK _ _ _
  done!

theorem sim_decrypt (g : Cfg) (e : Endian) (s s' : MState) (m c n : Nat) :
    Sim Any (ascon_decrypt g e s m c n) (ascon_decrypt g e s' m c n) := by
  unfold ascon_decrypt
  refine Sim.bind (Sim.loop (R := Pub4) (fun a b h => by
      obtain ⟨_, _, _, _⟩ := a; obtain ⟨_, _, _, _⟩ := b
      simp only [Pub4, Prod.mk.injEq] at h
      simp only [h])
    (fun a b h => sim_decStep g e a b h) _ (show Pub4 (s, m, c, n) (s', m, c, n) from rfl)) fun a b h => ?_
  exact sim_decFinal g e a b h

theorem sim_final (g : Cfg) (e : Endian) (s s' : MState) (k : Nat) : Sim Any (ascon_final g e s k) (ascon_final g e s' k) := by
  unfold ascon_final
  sb; exact sim_MLOAD _ _ _ _
  sb; exact sim_MLOAD _ _ _ _
  sb; exact sim_P _ _ _ _
  done!

theorem sim_settag (g : Cfg) (e : Endian) (s s' : MState) (t : Nat) : Sim Any (ascon_settag g e s t) (ascon_settag g e s' t) := by
  unfold ascon_settag
  simp only []
  sb; exact sim_MSTORE _ _ _ _ _ _
  exact sim_MSTORE _ _ _ _ _ _

theorem sim_xortag (g : Cfg) (e : Endian) (s s' : MState) (t : Nat) : Sim Any (ascon_xortag g e s t) (ascon_xortag g e s' t) := by
  unfold ascon_xortag
  simp only []
  sb; exact sim_MLOAD _ _ _ _
  sb; exact sim_MLOAD _ _ _ _
  sb; exact sim_P _ _ _ _
  done!

theorem sim_encrypt_shared (g : Cfg) (e : Endian) (ρ ρ' : Nat → Nat → Word) (cs clen ms mlen ads adlen npubs ks : Nat) :
    Sim Any (crypto_aead_encrypt_shared g e ρ cs clen ms mlen ads adlen npubs ks)
      (crypto_aead_encrypt_shared g e ρ' cs clen ms mlen ads adlen npubs ks) := by
  unfold crypto_aead_encrypt_shared
  sb; exact Sim.store64
  sb; exact sim_initaead _ _ _ _ _ _
  simp only []
  sb; exact sim_adata _ _ _ _ _ _
  sb; exact sim_encrypt _ _ _ _ _ _ _
  sb; exact sim_final _ _ _ _ _
  sb; exact sim_settag _ _ _ _ _
  done!

theorem sim_decrypt_shared (g : Cfg) (e : Endian) (ρ ρ' : Nat → Nat → Word) (ms mlen cs clen ads adlen npubs ks : Nat) :
    Sim Any (crypto_aead_decrypt_shared g e ρ ms mlen cs clen ads adlen npubs ks)
      (crypto_aead_decrypt_shared g e ρ' ms mlen cs clen ads adlen npubs ks) := by
  unfold crypto_aead_decrypt_shared
  sb; exact Sim.store64
  sb; exact sim_initaead _ _ _ _ _ _
  simp only []
  sb; exact sim_adata _ _ _ _ _ _
  sb; exact sim_decrypt _ _ _ _ _ _ _
  sb; exact sim_final _ _ _ _ _
  sb; exact sim_xortag _ _ _ _ _
  done!

theorem sim_genShare (bi : Bool) (e : Endian) (s n i d : Nat) (r r' : Word) : Sim Any (genShare bi e s n i d r) (genShare bi e s n i d r') := by
  unfold genShare
  sb; exact sim_store32 _ _ _ _
  sb; exact sim_store32 _ _ _ _
  simp only []
  sb; exact sim_load32 _ _
  sb; exact sim_store32 _ _ _ _
  sb; exact sim_load32 _ _
  exact sim_store32 _ _ _ _

theorem sim_xorData (e : Endian) (s n j : Nat) (x x' : Word) : Sim Any (xorData e s n j x) (xorData e s n j x') := by
  unfold xorData
  sb; exact sim_load32 _ _
  sb; exact sim_store32 _ _ _ _
  sb; exact sim_load32 _ _
  exact sim_store32 _ _ _ _

theorem sim_generate (bi : Bool) (e : Endian) (ρ ρ' : Nat → Word) (s n data len : Nat) :
    Sim Any (generate_shares bi e ρ s n data len) (generate_shares bi e ρ' s n data len) := by
  unfold generate_shares
  sb
  · refine Sim.forUp (R := Any) (fun j _ _ _ => ?_) _ _ trivial
    unfold genPair
    simp only []
    sb; exact sim_store32 _ _ _ _
    sb; exact sim_store32 _ _ _ _
    refine Sim.forUp (R := Any) (fun d _ _ _ => ?_) _ _ trivial
    exact sim_genShare _ _ _ _ _ _ _ _
  sb
  · refine Sim.forUp (R := Any) (fun j _ _ _ => ?_) _ _ trivial
    sb; exact Sim.load64
    exact sim_xorData _ _ _ _ _ _
  refine Sim.ifc ?_ (by done!)
  sb
  · refine Sim.forUp (R := Any) (fun j _ _ _ => ?_) _ _ trivial
    sb; exact Sim.loadB
    done!
  exact sim_xorData _ _ _ _ _ _

theorem sim_combPair (bi : Bool) (e : Endian) (s n j : Nat) : Sim Any (combPair bi e s n j) (combPair bi e s n j) := by
  unfold combPair
  refine Sim.forUp (R := Any) (fun d _ _ _ => ?_) _ _ trivial
  sb; exact sim_load32 _ _
  sb; exact sim_load32 _ _
  done!

theorem sim_combine (bi : Bool) (e : Endian) (data len s n : Nat) :
    Sim Any (combine_shares bi e data len s n) (combine_shares bi e data len s n) := by
  unfold combine_shares
  sb
  · refine Sim.forUp (R := Any) (fun j _ _ _ => ?_) _ _ trivial
    sb; exact sim_combPair _ _ _ _ _
    exact Sim.store64
  refine Sim.ifc ?_ (by done!)
  sb; exact sim_combPair _ _ _ _ _
  refine Sim.forUp (R := Any) (fun d _ _ _ => ?_) _ _ trivial
  exact Sim.storeB

theorem sim_encHead (g : Cfg) (σ σ' ρ ρ' : Nat → Nat → Word) (h : Heap) (e : Endian) (clen m mlen a alen npub k : Nat) :
    Sim Any (encHead g σ ρ h e clen m mlen a alen npub k) (encHead g σ' ρ' h e clen m mlen a alen npub k) := by
  unfold encHead
  sb; exact sim_malloc _ _
  sb; exact sim_malloc _ _
  sb; exact sim_malloc _ _
  sb; exact sim_malloc _ _
  sb; exact sim_malloc _ _
  sb; exact sim_generate _ _ _ _ _ _ _ _
  sb; exact sim_generate _ _ _ _ _ _ _ _
  sb; exact sim_generate _ _ _ _ _ _ _ _
  sb; exact sim_generate _ _ _ _ _ _ _ _
  sb; exact sim_encrypt_shared _ _ _ _ _ _ _ _ _ _ _ _
  done!

theorem sim_decHead (g : Cfg) (σ σ' ρ ρ' : Nat → Nat → Word) (h : Heap) (e : Endian) (mlen c clen a alen npub k : Nat) :
    Sim Any (decHead g σ ρ h e mlen c clen a alen npub k) (decHead g σ' ρ' h e mlen c clen a alen npub k) := by
  unfold decHead
  sb; exact sim_malloc _ _
  sb; exact sim_malloc _ _
  sb; exact sim_malloc _ _
  sb; exact sim_malloc _ _
  sb; exact sim_malloc _ _
  sb; exact sim_generate _ _ _ _ _ _ _ _
  sb; exact sim_generate _ _ _ _ _ _ _ _
  sb; exact sim_generate _ _ _ _ _ _ _ _
  sb; exact sim_generate _ _ _ _ _ _ _ _
  sb; exact sim_generate _ _ _ _ _ _ _ _
  exact sim_decrypt_shared _ _ _ _ _ _ _ _ _ _ _ _

/-- The rest of `crypto_aead_encrypt`. -/
def encTail (g : Cfg) (h : Heap) (e : Endian) (c mlen alen : Nat) (cl : Word) : Prog Int := do
  let ml := (cl - 16).toNat
  combine_shares g.EXTERN_BI e c ml h.cs g.C
  combine_shares g.EXTERN_BI e (c + ml) 16 (h.cs + 4 * (NUM_WORDS ml * g.C)) g.C
  mfree h.ks (4 * (NUM_WORDS 16 * g.KEY))
  mfree h.ns (4 * (NUM_WORDS 16 * g.NPUB))
  mfree h.as (4 * (NUM_WORDS alen * g.AD))
  mfree h.ms (4 * (NUM_WORDS mlen * g.M))
  mfree h.cs (4 * (NUM_WORDS (mlen + 16) * g.C))
  pure 0

/-- The rest of `crypto_aead_decrypt`. -/
def decTail (g : Cfg) (h : Heap) (e : Endian) (m clen alen : Nat) (result : Int) (ml : Word) : Prog Int := do
  combine_shares g.EXTERN_BI e m ml.toNat h.ms g.M
  mfree h.ks (4 * (NUM_WORDS 16 * g.KEY))
  mfree h.ns (4 * (NUM_WORDS 16 * g.NPUB))
  mfree h.as (4 * (NUM_WORDS alen * g.AD))
  mfree h.ms (4 * (NUM_WORDS (clen - 16) * g.M))
  mfree h.cs (4 * (NUM_WORDS clen * g.C))
  pure result

theorem sim_encTail (g : Cfg) (h : Heap) (e : Endian) (c mlen alen : Nat) (cl : Word) :
    Sim Any (encTail g h e c mlen alen cl) (encTail g h e c mlen alen cl) := by
  unfold encTail
  simp only []
  sb; exact sim_combine _ _ _ _ _ _
  sb; exact sim_combine _ _ _ _ _ _
  sb; exact sim_mfree _ _
  sb; exact sim_mfree _ _
  sb; exact sim_mfree _ _
  sb; exact sim_mfree _ _
  sb; exact sim_mfree _ _
  done!

theorem sim_decTail (g : Cfg) (h : Heap) (e : Endian) (m clen alen : Nat) (r r' : Int) (ml : Word) :
    Sim Any (decTail g h e m clen alen r ml) (decTail g h e m clen alen r' ml) := by
  unfold decTail
  sb; exact sim_combine _ _ _ _ _ _
  sb; exact sim_mfree _ _
  sb; exact sim_mfree _ _
  sb; exact sim_mfree _ _
  sb; exact sim_mfree _ _
  sb; exact sim_mfree _ _
  done!

theorem encrypt_split (g : Cfg) (σ ρ : Nat → Nat → Word) (h : Heap) (e : Endian) (c clen m mlen a alen npub k : Nat) :
    crypto_aead_encrypt g σ ρ h e c clen m mlen a alen npub k =
      encHead g σ ρ h e clen m mlen a alen npub k >>= fun _ => load64 e clen >>= encTail g h e c mlen alen := by
  unfold crypto_aead_encrypt encHead
  simp only [bind_assoc', Masked.ret_bind']
  rfl

theorem decrypt_split (g : Cfg) (σ ρ : Nat → Nat → Word) (h : Heap) (e : Endian) (m mlen c clen a alen npub k : Nat) :
    crypto_aead_decrypt g σ ρ h e m mlen c clen a alen npub k =
      ifc (decide (clen < 16)) (pure (-1)) (decHead g σ ρ h e mlen c clen a alen npub k >>= fun r =>
        load64 e mlen >>= decTail g h e m clen alen r) := by
  unfold crypto_aead_decrypt decHead
  simp only [bind_assoc']
  rfl

theorem encrypt_ct {g : Cfg} (ok : g.Ok) (σ σ' ρ ρ' : Nat → Nat → Word) (h : Heap) (mem mem' : Mem) (c clen m ad npub k : Nat)
    (K N A P K' N' A' P' : List Byte) (hm : SameLayout mem mem')
    (pre : EncPre g mem h c clen m ad npub k K N A P) (pre' : EncPre g mem' h c clen m ad npub k K' N' A' P')
    (hA : A'.length = A.length) (hP : P'.length = P.length) :
    trace (crypto_aead_encrypt g σ ρ h .little c clen m P.length ad A.length npub k) mem =
      trace (crypto_aead_encrypt g σ' ρ' h .little c clen m P.length ad A.length npub k) mem' := by
  obtain ⟨m5, h1, g1⟩ := (run_encrypt_aux ok σ ρ h mem c clen m ad npub k K N A P pre).1
  obtain ⟨m5', h2, g2⟩ := (run_encrypt_aux ok σ' ρ' h mem' c clen m ad npub k K' N' A' P' pre').1
  rw [hA, hP] at h2
  rw [hP] at g2
  rw [encrypt_split, encrypt_split]
  exact Masked.trace_split hm (sim_encHead _ _ _ _ _ _ _ _ _ _ _ _ _ _) Sim.load64 h1 h2 g1 g2 (sim_encTail _ _ _ _ _ _ _)

theorem decrypt_ct {g : Cfg} (ok : g.Ok) (σ σ' ρ ρ' : Nat → Nat → Word) (h : Heap) (mem mem' : Mem) (m mlen c ad npub k : Nat)
    (K N A C K' N' A' C' : List Byte) (hm : SameLayout mem mem')
    (pre : DecPre g mem h m mlen c ad npub k K N A C) (pre' : DecPre g mem' h m mlen c ad npub k K' N' A' C')
    (hA : A'.length = A.length) (hC : C'.length = C.length) :
    trace (crypto_aead_decrypt g σ ρ h .little m mlen c C.length ad A.length npub k) mem =
      trace (crypto_aead_decrypt g σ' ρ' h .little m mlen c C.length ad A.length npub k) mem' := by
  obtain ⟨r, m5, h1, g1⟩ := (run_decrypt_aux ok σ ρ h mem m mlen c ad npub k K N A C pre).1
  obtain ⟨r', m5', h2, g2⟩ := (run_decrypt_aux ok σ' ρ' h mem' m mlen c ad npub k K' N' A' C' pre').1
  rw [hA, hC] at h2
  rw [hC] at g2
  rw [decrypt_split, decrypt_split]
  have hlt : decide (C.length < 16) = false := decide_eq_false (by have := pre.ctMin; omega)
  rw [hlt]
  simp only [ifc, trace, Bool.false_eq_true, if_false]
  congr 1
  exact Masked.trace_split hm (sim_decHead _ _ _ _ _ _ _ _ _ _ _ _ _ _) Sim.load64 h1 h2 g1 g2 (sim_decTail _ _ _ _ _ _ _ _ _)

end Ascon.MaskedN
