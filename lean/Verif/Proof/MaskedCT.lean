import Verif.Proof.MaskedTop
import Verif.C.Sim
/-!
# Constant time of the masked implementation

Addresses and branches do not depend on keys, nonces, messages, tags *nor on the random masks*.
-/

namespace Ascon.C

variable {α β γ δ : Type}

/-- The observable events of `p; f`. -/
theorem trace_bind (p : Prog α) (f : α → Prog β) (mem : Mem) :
    trace (p >>= f) mem = trace p mem ++ (match run p mem with | some (a, m) => trace (f a) m | none => []) := by
  show trace (p.bind f) mem = _
  induction p generalizing mem with
  | ret a => simp [Prog.bind, trace, run]
  | load a k ih =>
    simp only [Prog.bind, trace, run]
    cases mem a <;> simp [ih]
  | store a b k ih =>
    simp only [Prog.bind, trace, run]
    cases mem a <;> simp [ih]
  | branch b k ih => simp only [Prog.bind, trace, run]; rw [ih]; rfl
  | alloc p n k ih => simp only [Prog.bind, trace, run]; rw [ih]
  | free p n k ih => simp only [Prog.bind, trace, run]; rw [ih]
  | ub => simp [Prog.bind, trace, run]

/-- Related programs end in memories of the same layout. -/
theorem Sim.layout {R : α → β → Prop} {p : Prog α} {q : Prog β} (h : Sim R p q) {m1 m2 m1' m2' : Mem} {a : α} {b : β}
    (hm : SameLayout m1 m2) (h1 : run p m1 = some (a, m1')) (h2 : run q m2 = some (b, m2')) :
    R a b ∧ SameLayout m1' m2' := by
  induction h generalizing m1 m2 with
  | ret h =>
    simp only [run, Option.some.injEq, Prod.mk.injEq] at h1 h2
    obtain ⟨rfl, rfl⟩ := h1
    obtain ⟨rfl, rfl⟩ := h2
    exact ⟨h, hm⟩
  | @load a k k' _ ih =>
    simp only [run] at h1 h2
    rcases hm.val a with ⟨x, y, e1, e2, -⟩ | ⟨e1, e2⟩ | ⟨e1, e2⟩ <;> simp only [e1, e2] at h1 h2
    · exact ih x y hm h1 h2
    · simp at h1
    · simp at h1
  | @store a v w k k' _ ih =>
    simp only [run] at h1 h2
    have e : (m1 a).rw = (m2 a).rw := by
      rcases hm.val a with ⟨b, c, -, -, h3⟩ | ⟨h1, h2⟩ | ⟨h1, h2⟩
      · exact h3
      · rw [h1, h2]
      · rw [h1, h2]
    rw [← e] at h2
    cases hr : (m1 a).rw
    · simp [hr] at h1
    · rw [hr] at h1 h2
      exact ih (hm.write a v w) h1 h2
  | branch _ ih => exact ih hm h1 h2
  | alloc _ ih => exact ih (hm.fill _ _ _) h1 h2
  | free _ ih => exact ih (hm.fill _ _ _) h1 h2
  | ub => simp [run] at h1

end Ascon.C

namespace Ascon.Masked

open Ascon.Spec Ascon.C Ascon.Gen
open Ascon.C.Prog (require ifc loop forUp loadB storeB loadN storeN store64 load64)

local macro "sb" : tactic => `(tactic| refine Sim.bind (R := Any) ?_ fun _ _ _ => ?_)
local macro "done!" : tactic => `(tactic| exact Sim.pure trivial)

theorem sim_store32 (e : Endian) (p : Nat) (v w : U32) : Sim Any (store32 e p v) (store32 e p w) :=
  Sim.storeN p (by simp)

theorem sim_load32 (e : Endian) (p : Nat) : Sim Any (load32 e p) (load32 e p) :=
  Sim.bind (Sim.loadN p 4) fun _ _ _ => .ret trivial

theorem sim_LOADSHARE (e : Endian) (p ns : Nat) : Sim Any (LOADSHARE e p ns) (LOADSHARE e p ns) := by
  unfold LOADSHARE
  sb; exact sim_load32 e p
  sb; exact sim_load32 e _
  done!

theorem sim_STORESHARE (e : Endian) (p ns : Nat) (s s' : share_t) : Sim Any (STORESHARE e p s ns) (STORESHARE e p s' ns) := by
  unfold STORESHARE
  simp only []
  sb; exact sim_store32 _ _ _ _
  exact sim_store32 _ _ _ _

theorem sim_MLOAD (e : Endian) (p ns : Nat) : Sim Any (MLOAD e p ns) (MLOAD e p ns) := by
  unfold MLOAD
  simp only []
  have h2 : ∀ w w' : word_t, Sim Any
      (if ns ≥ 2 then (do
        let w ← (do let s ← LOADSHARE e (p + 4) ns; pure ({ w with s1 := s } : word_t))
        pure w) else (do let w ← (pure w : Prog word_t); pure w))
      (if ns ≥ 2 then (do
        let w ← (do let s ← LOADSHARE e (p + 4) ns; pure ({ w' with s1 := s } : word_t))
        pure w) else (do let w ← (pure w' : Prog word_t); pure w)) := by
    intro w w'
    split
    · sb; exact sim_LOADSHARE _ _ _
      done!
    · done!
  split
  · sb
    · sb; exact sim_LOADSHARE _ _ _
      done!
    · exact h2 _ _
  · exact h2 _ _

theorem sim_MSTORE (e : Endian) (p ns : Nat) (w w' : word_t) : Sim Any (MSTORE e p w ns) (MSTORE e p w' ns) := by
  unfold MSTORE
  simp only []
  have h2 : Sim Any (if ns ≥ 2 then STORESHARE e (p + 4) w.s1 ns else pure ())
      (if ns ≥ 2 then STORESHARE e (p + 4) w'.s1 ns else pure ()) := by
    split
    · exact sim_STORESHARE _ _ _ _ _
    · done!
  split
  · sb
    · exact sim_STORESHARE _ _ _ _ _
    · exact h2
  · exact h2

/-- The loop counter is public. -/
def Cnt (a b : Nat × MState) : Prop := a.1 = b.1

theorem sim_roundStep (ns : Nat) (q q' : Nat × MState) (h : Cnt q q') : Sim Cnt (roundStep ns q) (roundStep ns q') := by
  unfold roundStep
  rw [show q.1 = q'.1 from h]
  sb; exact Sim.require
  exact Sim.pure (R := Cnt) rfl

theorem sim_P (s s' : MState) (nr ns : Nat) : Sim Any (P s nr ns) (P s' nr ns) := by
  unfold P
  refine Sim.bind (sim_roundStep ns (12 - nr, s) (12 - nr, s') rfl) fun a b hab => ?_
  refine Sim.bind (Sim.loop (R := Cnt) (fun a b h => by rw [show a.1 = b.1 from h])
    (fun a b h => sim_roundStep ns a b h) 16 hab) fun _ _ _ => ?_
  done!

theorem sim_initaead (e : Endian) (ρ ρ' : Nat → Word) (k n : Nat) :
    Sim Any (ascon_initaead e ρ k n) (ascon_initaead e ρ' k n) := by
  unfold ascon_initaead
  sb; exact sim_MLOAD _ _ _
  sb; exact sim_MLOAD _ _ _
  sb; exact sim_MLOAD _ _ _
  sb; exact sim_MLOAD _ _ _
  sb; exact sim_P _ _ _ _
  done!

theorem sim_xorPad (s s' : MState) (i n : Nat) : Sim Any (xorPad s i n) (xorPad s' i n) := by
  unfold xorPad
  sb; exact Sim.require
  simp only []
  split <;> done!

/-- Pointers and lengths are public. -/
def Pub3 (a b : MState × Nat × Nat) : Prop := a.2 = b.2
def Pub4 (a b : MState × Nat × Nat × Nat) : Prop := a.2 = b.2
def Pub5 (a b : MState × Nat × Nat × Nat × Nat) : Prop := a.2 = b.2

theorem sim_adStep (e : Endian) (a b : MState × Nat × Nat) (h : Pub3 a b) : Sim Pub3 (adStep e a) (adStep e b) := by
  obtain ⟨s, p, n⟩ := a
  obtain ⟨s', p', n'⟩ := b
  obtain ⟨rfl, rfl⟩ : p = p' ∧ n = n' := by simpa [Pub3] using h
  unfold adStep
  sb; exact sim_MLOAD _ _ _
  sb; exact sim_MLOAD _ _ _
  sb; exact sim_P _ _ _ _
  exact Sim.pure (R := Pub3) rfl

theorem sim_adFinal (e : Endian) (a b : MState × Nat × Nat) (h : Pub3 a b) : Sim Any (adFinal e a) (adFinal e b) := by
  obtain ⟨s, p, n⟩ := a
  obtain ⟨s', p', n'⟩ := b
  obtain ⟨rfl, rfl⟩ : p = p' ∧ n = n' := by simpa [Pub3] using h
  unfold adFinal
  refine Sim.bind (R := Pub4) (Sim.ifc ?_ (Sim.pure (R := Pub4) rfl)) fun a b h => ?_
  · sb; exact sim_MLOAD _ _ _
    exact Sim.pure (R := Pub4) rfl
  obtain ⟨s, i, p, n⟩ := a
  obtain ⟨s', i', p', n'⟩ := b
  obtain ⟨rfl, rfl, rfl⟩ : i = i' ∧ p = p' ∧ n = n' := by simpa [Pub4] using h
  sb; exact sim_xorPad _ _ _ _
  sb
  · refine Sim.ifc ?_ (by done!)
    sb; exact sim_MLOAD _ _ _
    done!
  exact sim_P _ _ _ _

theorem sim_adata (e : Endian) (s s' : MState) (p n : Nat) : Sim Any (ascon_adata e s p n) (ascon_adata e s' p n) := by
  unfold ascon_adata
  sb
  · refine Sim.ifc ?_ (by done!)
    refine Sim.bind (Sim.loop (R := Pub3) (fun a b h => by
      obtain ⟨_, _, _⟩ := a; obtain ⟨_, _, _⟩ := b
      simp only [Pub3, Prod.mk.injEq] at h
      simp only [h])
      (fun a b h => sim_adStep e a b h) _ (show Pub3 (s, p, n) (s', p, n) from rfl)) fun a b h => ?_
    exact sim_adFinal e a b h
  done!

theorem sim_encStep (e : Endian) (a b : MState × Nat × Nat × Nat) (h : Pub4 a b) :
    Sim Pub4 (encStep e a) (encStep e b) := by
  obtain ⟨s, c, p, n⟩ := a
  obtain ⟨s', c', p', n'⟩ := b
  obtain ⟨rfl, rfl, rfl⟩ : c = c' ∧ p = p' ∧ n = n' := by simpa [Pub4] using h
  unfold encStep
  sb; exact sim_MLOAD _ _ _
  simp only []
  sb; exact sim_MSTORE _ _ _ _ _
  sb; exact sim_MLOAD _ _ _
  sb; exact sim_MSTORE _ _ _ _ _
  sb; exact sim_P _ _ _ _
  exact Sim.pure (R := Pub4) rfl

theorem sim_encFinal (e : Endian) (a b : MState × Nat × Nat × Nat) (h : Pub4 a b) :
    Sim Any (encFinal e a) (encFinal e b) := by
  obtain ⟨s, c, p, n⟩ := a
  obtain ⟨s', c', p', n'⟩ := b
  obtain ⟨rfl, rfl, rfl⟩ : c = c' ∧ p = p' ∧ n = n' := by simpa [Pub4] using h
  unfold encFinal
  refine Sim.bind (R := Pub5) (Sim.ifc ?_ (Sim.pure (R := Pub5) rfl)) fun a b h => ?_
  · sb; exact sim_MLOAD _ _ _
    simp only []
    sb; exact sim_MSTORE _ _ _ _ _
    exact Sim.pure (R := Pub5) rfl
  obtain ⟨s, i, c, p, n⟩ := a
  obtain ⟨s', i', c', p', n'⟩ := b
  obtain ⟨rfl, rfl, rfl, rfl⟩ : i = i' ∧ c = c' ∧ p = p' ∧ n = n' := by simpa [Pub5] using h
  sb; exact sim_xorPad _ _ _ _
  refine Sim.ifc ?_ (by done!)
  sb; exact sim_MLOAD _ _ _
  simp only []
  sb; exact sim_MSTORE _ _ _ _ _
  done!

theorem sim_encrypt (e : Endian) (s s' : MState) (c m n : Nat) :
    Sim Any (ascon_encrypt e s c m n) (ascon_encrypt e s' c m n) := by
  unfold ascon_encrypt
  refine Sim.bind (Sim.loop (R := Pub4) (fun a b h => by
      obtain ⟨_, _, _, _⟩ := a; obtain ⟨_, _, _, _⟩ := b
      simp only [Pub4, Prod.mk.injEq] at h
      simp only [h])
    (fun a b h => sim_encStep e a b h) _ (show Pub4 (s, c, m, n) (s', c, m, n) from rfl)) fun a b h => ?_
  exact sim_encFinal e a b h

theorem sim_decStep (e : Endian) (a b : MState × Nat × Nat × Nat) (h : Pub4 a b) :
    Sim Pub4 (decStep e a) (decStep e b) := by
  obtain ⟨s, c, p, n⟩ := a
  obtain ⟨s', c', p', n'⟩ := b
  obtain ⟨rfl, rfl, rfl⟩ : c = c' ∧ p = p' ∧ n = n' := by simpa [Pub4] using h
  unfold decStep
  sb; exact sim_MLOAD _ _ _
  simp only []
  sb; exact sim_MSTORE _ _ _ _ _
  sb; exact sim_MLOAD _ _ _
  sb; exact sim_MSTORE _ _ _ _ _
  sb; exact sim_P _ _ _ _
  exact Sim.pure (R := Pub4) rfl

theorem sim_MMASK (w w' : word_t) (n : Nat) : Sim Any (MMASK w n) (MMASK w' n) := by
  unfold MMASK
  sb; exact Sim.require
  done!

theorem sim_decFinal (e : Endian) (a b : MState × Nat × Nat × Nat) (h : Pub4 a b) :
    Sim Any (decFinal e a) (decFinal e b) := by
  obtain ⟨s, c, p, n⟩ := a
  obtain ⟨s', c', p', n'⟩ := b
  obtain ⟨rfl, rfl, rfl⟩ : c = c' ∧ p = p' ∧ n = n' := by simpa [Pub4] using h
  unfold decFinal
  refine Sim.bind (R := Pub5) (Sim.ifc ?_ (Sim.pure (R := Pub5) rfl)) fun a b h => ?_
  · sb; exact sim_MLOAD _ _ _
    simp only []
    sb; exact sim_MSTORE _ _ _ _ _
    exact Sim.pure (R := Pub5) rfl
  obtain ⟨s, i, c, p, n⟩ := a
  obtain ⟨s', i', c', p', n'⟩ := b
  obtain ⟨rfl, rfl, rfl, rfl⟩ : i = i' ∧ c = c' ∧ p = p' ∧ n = n' := by simpa [Pub5] using h
  sb; exact sim_xorPad _ _ _ _
  refine Sim.ifc ?_ (by done!)
  sb; exact sim_MLOAD _ _ _
  simp only []
  sb; exact sim_MSTORE _ _ _ _ _
  sb; exact sim_MMASK _ _ _
  done!

theorem sim_decrypt (e : Endian) (s s' : MState) (m c n : Nat) :
    Sim Any (ascon_decrypt e s m c n) (ascon_decrypt e s' m c n) := by
  unfold ascon_decrypt
  refine Sim.bind (Sim.loop (R := Pub4) (fun a b h => by
      obtain ⟨_, _, _, _⟩ := a; obtain ⟨_, _, _, _⟩ := b
      simp only [Pub4, Prod.mk.injEq] at h
      simp only [h])
    (fun a b h => sim_decStep e a b h) _ (show Pub4 (s, m, c, n) (s', m, c, n) from rfl)) fun a b h => ?_
  exact sim_decFinal e a b h

theorem sim_final (e : Endian) (s s' : MState) (k : Nat) : Sim Any (ascon_final e s k) (ascon_final e s' k) := by
  unfold ascon_final
  sb; exact sim_MLOAD _ _ _
  sb; exact sim_MLOAD _ _ _
  sb; exact sim_P _ _ _ _
  done!

theorem sim_settag (e : Endian) (s s' : MState) (t : Nat) : Sim Any (ascon_settag e s t) (ascon_settag e s' t) := by
  unfold ascon_settag
  simp only []
  sb; exact sim_MSTORE _ _ _ _ _
  exact sim_MSTORE _ _ _ _ _

theorem sim_xortag (e : Endian) (s s' : MState) (t : Nat) : Sim Any (ascon_xortag e s t) (ascon_xortag e s' t) := by
  unfold ascon_xortag
  simp only []
  sb; exact sim_MLOAD _ _ _
  sb; exact sim_MLOAD _ _ _
  sb; exact sim_P _ _ _ _
  done!

theorem sim_encrypt_shared (e : Endian) (ρ ρ' : Nat → Word) (cs clen ms mlen ads adlen npubs ks : Nat) :
    Sim Any (crypto_aead_encrypt_shared e ρ cs clen ms mlen ads adlen npubs ks)
      (crypto_aead_encrypt_shared e ρ' cs clen ms mlen ads adlen npubs ks) := by
  unfold crypto_aead_encrypt_shared
  sb; exact Sim.store64
  sb; exact sim_initaead _ _ _ _ _
  simp only []
  sb; exact sim_adata _ _ _ _ _
  sb; exact sim_encrypt _ _ _ _ _ _
  sb; exact sim_final _ _ _ _
  sb; exact sim_settag _ _ _ _
  done!

theorem sim_decrypt_shared (e : Endian) (ρ ρ' : Nat → Word) (ms mlen cs clen ads adlen npubs ks : Nat) :
    Sim Any (crypto_aead_decrypt_shared e ρ ms mlen cs clen ads adlen npubs ks)
      (crypto_aead_decrypt_shared e ρ' ms mlen cs clen ads adlen npubs ks) := by
  unfold crypto_aead_decrypt_shared
  sb; exact Sim.store64
  sb; exact sim_initaead _ _ _ _ _
  simp only []
  sb; exact sim_adata _ _ _ _ _
  sb; exact sim_decrypt _ _ _ _ _ _
  sb; exact sim_final _ _ _ _
  sb; exact sim_xortag _ _ _ _
  done!

theorem sim_genShare (e : Endian) (s n i d : Nat) (r r' : Word) : Sim Any (genShare e s n i d r) (genShare e s n i d r') := by
  unfold genShare
  sb; exact sim_store32 _ _ _ _
  sb; exact sim_store32 _ _ _ _
  simp only []
  sb; exact sim_load32 _ _
  sb; exact sim_store32 _ _ _ _
  sb; exact sim_load32 _ _
  exact sim_store32 _ _ _ _

theorem sim_xorData (e : Endian) (s n j : Nat) (x x' : Word) : Sim Any (xorData e s n j x) (xorData e s n j x') := by
  unfold xorData
  sb; exact sim_load32 _ _
  sb; exact sim_store32 _ _ _ _
  sb; exact sim_load32 _ _
  exact sim_store32 _ _ _ _

theorem sim_generate (e : Endian) (ρ ρ' : Nat → Word) (s n data len : Nat) :
    Sim Any (generate_shares e ρ s n data len) (generate_shares e ρ' s n data len) := by
  unfold generate_shares
  sb
  · refine Sim.forUp (R := Any) (fun j _ _ _ => ?_) _ _ trivial
    unfold genPair
    simp only []
    sb; exact sim_store32 _ _ _ _
    sb; exact sim_store32 _ _ _ _
    refine Sim.forUp (R := Any) (fun d _ _ _ => ?_) _ _ trivial
    exact sim_genShare _ _ _ _ _ _ _
  sb
  · refine Sim.forUp (R := Any) (fun j _ _ _ => ?_) _ _ trivial
    sb; exact Sim.load64
    exact sim_xorData _ _ _ _ _ _
  refine Sim.ifc ?_ (by done!)
  sb
  · refine Sim.forUp (R := Any) (fun j _ _ _ => ?_) _ _ trivial
    sb; exact Sim.loadB
    done!
  exact sim_xorData _ _ _ _ _ _

theorem sim_combPair (e : Endian) (s n j : Nat) : Sim Any (combPair e s n j) (combPair e s n j) := by
  unfold combPair
  refine Sim.forUp (R := Any) (fun d _ _ _ => ?_) _ _ trivial
  sb; exact sim_load32 _ _
  sb; exact sim_load32 _ _
  done!

theorem sim_combine (e : Endian) (data len s n : Nat) :
    Sim Any (combine_shares e data len s n) (combine_shares e data len s n) := by
  unfold combine_shares
  sb
  · refine Sim.forUp (R := Any) (fun j _ _ _ => ?_) _ _ trivial
    sb; exact sim_combPair _ _ _ _
    exact Sim.store64
  refine Sim.ifc ?_ (by done!)
  sb; exact sim_combPair _ _ _ _
  refine Sim.forUp (R := Any) (fun d _ _ _ => ?_) _ _ trivial
  exact Sim.storeB

theorem sim_malloc (p n : Nat) : Sim Any (malloc p n) (malloc p n) := .alloc (.ret trivial)
theorem sim_mfree (p n : Nat) : Sim Any (mfree p n) (mfree p n) := .free (.ret trivial)

theorem sim_encHead (ρ ρ' : Nat → Word) (h : Heap) (e : Endian) (clen m mlen a alen npub k : Nat) :
    Sim Any (encHead ρ h e clen m mlen a alen npub k) (encHead ρ' h e clen m mlen a alen npub k) := by
  unfold encHead
  sb; exact sim_malloc _ _
  sb; exact sim_malloc _ _
  sb; exact sim_malloc _ _
  sb; exact sim_malloc _ _
  sb; exact sim_malloc _ _
  sb; exact sim_generate _ _ _ _ _ _ _
  sb; exact sim_generate _ _ _ _ _ _ _
  sb; exact sim_generate _ _ _ _ _ _ _
  sb; exact sim_generate _ _ _ _ _ _ _
  sb; exact sim_encrypt_shared _ _ _ _ _ _ _ _ _ _ _
  done!

theorem sim_decHead (ρ ρ' : Nat → Word) (h : Heap) (e : Endian) (mlen c clen a alen npub k : Nat) :
    Sim Any (decHead ρ h e mlen c clen a alen npub k) (decHead ρ' h e mlen c clen a alen npub k) := by
  unfold decHead
  sb; exact sim_malloc _ _
  sb; exact sim_malloc _ _
  sb; exact sim_malloc _ _
  sb; exact sim_malloc _ _
  sb; exact sim_malloc _ _
  sb; exact sim_generate _ _ _ _ _ _ _
  sb; exact sim_generate _ _ _ _ _ _ _
  sb; exact sim_generate _ _ _ _ _ _ _
  sb; exact sim_generate _ _ _ _ _ _ _
  sb; exact sim_generate _ _ _ _ _ _ _
  exact sim_decrypt_shared _ _ _ _ _ _ _ _ _ _ _

/-- The rest of `crypto_aead_encrypt`. -/
def encTail (h : Heap) (e : Endian) (c mlen alen : Nat) (cl : Word) : Prog Int := do
  let ml := (cl - 16).toNat
  combine_shares e c ml h.cs 1
  combine_shares e (c + ml) 16 (h.cs + 4 * NUM_WORDS ml) 1
  mfree h.ks (8 * NUM_WORDS 16)
  mfree h.ns (4 * NUM_WORDS 16)
  mfree h.as (4 * NUM_WORDS alen)
  mfree h.ms (4 * NUM_WORDS mlen)
  mfree h.cs (4 * NUM_WORDS (mlen + 16))
  pure 0

/-- The rest of `crypto_aead_decrypt`. -/
def decTail (h : Heap) (e : Endian) (m clen alen : Nat) (result : Int) (ml : Word) : Prog Int := do
  combine_shares e m ml.toNat h.ms 1
  mfree h.ks (8 * NUM_WORDS 16)
  mfree h.ns (4 * NUM_WORDS 16)
  mfree h.as (4 * NUM_WORDS alen)
  mfree h.ms (4 * NUM_WORDS (clen - 16))
  mfree h.cs (4 * NUM_WORDS clen)
  pure result

theorem sim_encTail (h : Heap) (e : Endian) (c mlen alen : Nat) (cl : Word) :
    Sim Any (encTail h e c mlen alen cl) (encTail h e c mlen alen cl) := by
  unfold encTail
  simp only []
  sb; exact sim_combine _ _ _ _ _
  sb; exact sim_combine _ _ _ _ _
  sb; exact sim_mfree _ _
  sb; exact sim_mfree _ _
  sb; exact sim_mfree _ _
  sb; exact sim_mfree _ _
  sb; exact sim_mfree _ _
  done!

theorem sim_decTail (h : Heap) (e : Endian) (m clen alen : Nat) (r r' : Int) (ml : Word) :
    Sim Any (decTail h e m clen alen r ml) (decTail h e m clen alen r' ml) := by
  unfold decTail
  sb; exact sim_combine _ _ _ _ _
  sb; exact sim_mfree _ _
  sb; exact sim_mfree _ _
  sb; exact sim_mfree _ _
  sb; exact sim_mfree _ _
  sb; exact sim_mfree _ _
  done!

theorem ret_bind' {α β : Type} (a : α) (f : α → Prog β) : (pure a : Prog α) >>= f = f a := rfl

theorem encrypt_split (ρ : Nat → Word) (h : Heap) (e : Endian) (c clen m mlen a alen npub k : Nat) :
    crypto_aead_encrypt ρ h e c clen m mlen a alen npub k =
      encHead ρ h e clen m mlen a alen npub k >>= fun _ => load64 e clen >>= encTail h e c mlen alen := by
  unfold crypto_aead_encrypt encHead
  simp only [bind_assoc', ret_bind']
  rfl

theorem decrypt_split (ρ : Nat → Word) (h : Heap) (e : Endian) (m mlen c clen a alen npub k : Nat) :
    crypto_aead_decrypt ρ h e m mlen c clen a alen npub k =
      ifc (decide (clen < 16)) (pure (-1)) (decHead ρ h e mlen c clen a alen npub k >>= fun r =>
        load64 e mlen >>= decTail h e m clen alen r) := by
  unfold crypto_aead_decrypt decHead
  simp only [bind_assoc']
  rfl

/-- Traces of `head; x = *p; tail(x)` when the value read is known. -/
theorem trace_split {α β γ : Type} {p p' : Prog α} {q q' : Prog β} {f f' : α → β → Prog γ} {m1 m2 : Mem}
    (hm : SameLayout m1 m2) (hp : Sim Any p p') (hq : Sim Any q q') {a a' : α} {m1' m2' : Mem} {v : β}
    (h1 : run p m1 = some (a, m1')) (h2 : run p' m2 = some (a', m2'))
    (g1 : run q m1' = some (v, m1')) (g2 : run q' m2' = some (v, m2')) (hf : Sim Any (f a v) (f' a' v)) :
    trace (p >>= fun a => q >>= f a) m1 = trace (p' >>= fun a => q' >>= f' a) m2 := by
  have hl := (hp.layout hm h1 h2).2
  rw [trace_bind, trace_bind, h1, h2, hp.trace_eq hm]
  simp only []
  rw [trace_bind, trace_bind, g1, g2, hq.trace_eq hl]
  simp only []
  rw [hf.trace_eq hl]

theorem encrypt_ct (ρ ρ' : Nat → Word) (h : Heap) (mem mem' : Mem) (c clen m ad npub k : Nat)
    (K N A P K' N' A' P' : List Byte) (hm : SameLayout mem mem')
    (pre : EncPre mem h c clen m ad npub k K N A P) (pre' : EncPre mem' h c clen m ad npub k K' N' A' P')
    (hA : A'.length = A.length) (hP : P'.length = P.length) :
    trace (crypto_aead_encrypt ρ h .little c clen m P.length ad A.length npub k) mem =
      trace (crypto_aead_encrypt ρ' h .little c clen m P.length ad A.length npub k) mem' := by
  obtain ⟨m5, h1, g1⟩ := (run_encrypt_aux ρ h mem c clen m ad npub k K N A P pre).1
  obtain ⟨m5', h2, g2⟩ := (run_encrypt_aux ρ' h mem' c clen m ad npub k K' N' A' P' pre').1
  rw [hA, hP] at h2
  rw [hP] at g2
  rw [encrypt_split, encrypt_split]
  exact trace_split hm (sim_encHead _ _ _ _ _ _ _ _ _ _ _) Sim.load64 h1 h2 g1 g2 (sim_encTail _ _ _ _ _ _)

theorem decrypt_ct (ρ ρ' : Nat → Word) (h : Heap) (mem mem' : Mem) (m mlen c ad npub k : Nat)
    (K N A C K' N' A' C' : List Byte) (hm : SameLayout mem mem')
    (pre : DecPre mem h m mlen c ad npub k K N A C) (pre' : DecPre mem' h m mlen c ad npub k K' N' A' C')
    (hA : A'.length = A.length) (hC : C'.length = C.length) :
    trace (crypto_aead_decrypt ρ h .little m mlen c C.length ad A.length npub k) mem =
      trace (crypto_aead_decrypt ρ' h .little m mlen c C.length ad A.length npub k) mem' := by
  obtain ⟨r, m5, h1, g1⟩ := (run_decrypt_aux ρ h mem m mlen c ad npub k K N A C pre).1
  obtain ⟨r', m5', h2, g2⟩ := (run_decrypt_aux ρ' h mem' m mlen c ad npub k K' N' A' C' pre').1
  rw [hA, hC] at h2
  rw [hC] at g2
  rw [decrypt_split, decrypt_split]
  have hlt : decide (C.length < 16) = false := decide_eq_false (by have := pre.ctMin; omega)
  rw [hlt]
  simp only [ifc, trace, Bool.false_eq_true, if_false]
  congr 1
  exact trace_split hm (sim_decHead _ _ _ _ _ _ _ _ _ _ _) Sim.load64 h1 h2 g1 g2 (sim_decTail _ _ _ _ _ _ _ _)

end Ascon.Masked
