import Verif.Proof.NeonTop
import Verif.Proof.GenCT
/-!
# Constant time of the neon implementation
-/

namespace Ascon.Neon

open Ascon.C Ascon.Asm Ascon.Gen
open Ascon.C.Prog (require ifc loop loadN storeN store64)

attribute [local irreducible] Spec.perm roundBody P8ROUNDS P12ROUNDS perm

theorem sim_vldm (e : Endian) (p : Nat) : Sim Any (vldm e p) (vldm e p) :=
  Sim.bind Sim.require fun _ _ _ => Sim.bind (Sim.loadN _ _) fun _ _ _ => Sim.bind (Sim.loadN _ _) fun _ _ _ =>
    Sim.pure trivial

theorem sim_vstm (e : Endian) (p : Nat) (a b a' b' : Word) : Sim Any (vstm e p a b) (vstm e p a' b') :=
  Sim.bind Sim.require fun _ _ _ => Sim.bind (Sim.storeN _ (by rw [Ref.length_repr64, Ref.length_repr64])) fun _ _ _ =>
    Sim.storeN _ (by rw [Ref.length_repr64, Ref.length_repr64])

/-- Nothing on the stack. -/
def NoStk (a b : M 64) : Prop := a.stk = [] ∧ b.stk = []

theorem sim_block {code : List (Instr 64)} {m n : M 64} (h1 : ∃ m', exec (fun _ => none) code m = some m' ∧ m'.stk = [])
    (h2 : ∃ m', exec (fun _ => none) code n = some m' ∧ m'.stk = []) : Sim NoStk (block code m) (block code n) := by
  obtain ⟨m', e1, s1⟩ := h1
  obtain ⟨n', e2, s2⟩ := h2
  unfold block
  rw [e1, e2]
  exact Sim.ret ⟨s1, s2⟩

theorem execs_P8 {m : M 64} (h : m.stk = []) : ∃ m', exec (fun _ => none) (inverted P8ROUNDS) m = some m' ∧ m'.stk = [] := by
  obtain ⟨m', a, b, _⟩ := exec_P8 h
  exact ⟨m', a, b⟩

theorem execs_append {c1 c2 : List (Instr 64)} {m m1 : M 64} (h : exec (fun _ => none) c1 m = some m1)
    (h2 : ∃ m', exec (fun _ => none) c2 m1 = some m' ∧ m'.stk = []) :
    ∃ m', exec (fun _ => none) (c1 ++ c2) m = some m' ∧ m'.stk = [] := by
  obtain ⟨m', a, b⟩ := h2
  exact ⟨m', exec_append_of h a, b⟩

/-- The public part of the loop variables. -/
def Pub {α} (a b : M 64 × α) : Prop := NoStk a.1 b.1 ∧ a.2 = b.2

theorem sim_adStep (e : Endian) (a b : M 64 × Nat × Len) (h : Pub a b) : Sim Pub (adStep e a) (adStep e b) := by
  obtain ⟨m, ad, len⟩ := a
  obtain ⟨m', ad', len'⟩ := b
  obtain ⟨⟨h1, h2⟩, h3⟩ := h
  simp only [Prod.mk.injEq] at h1 h2 h3
  obtain ⟨rfl, rfl⟩ := h3
  unfold adStep
  simp only
  refine Sim.bind (sim_vldm e ad) fun x y _ => ?_
  refine Sim.bind (sim_block (execs_append (exec_veorq _) (execs_P8 h1)) (execs_append (exec_veorq _) (execs_P8 h2))) fun m1 m2 hh => ?_
  exact Sim.pure ⟨hh, rfl⟩

theorem sim_ptStep (e : Endian) (a b : M 64 × Nat × Nat × Len) (h : Pub a b) : Sim Pub (ptStep e a) (ptStep e b) := by
  obtain ⟨m, c, p, len⟩ := a
  obtain ⟨m', c', p', len'⟩ := b
  obtain ⟨⟨h1, h2⟩, h3⟩ := h
  simp only [Prod.mk.injEq] at h1 h2 h3
  obtain ⟨rfl, rfl, rfl⟩ := h3
  unfold ptStep
  simp only
  refine Sim.bind (sim_vldm e p) fun x y _ => ?_
  refine Sim.bind (sim_block ⟨_, exec_veorq _, h1⟩ ⟨_, exec_veorq _, h2⟩) fun m1 m2 hh => ?_
  refine Sim.bind (sim_vstm e c _ _ _ _) fun _ _ _ => ?_
  refine Sim.bind (sim_block (execs_P8 hh.1) (execs_P8 hh.2)) fun m1 m2 hh => ?_
  exact Sim.pure ⟨hh, rfl⟩

theorem sim_ctStep (e : Endian) (a b : M 64 × Nat × Nat × Len) (h : Pub a b) : Sim Pub (ctStep e a) (ctStep e b) := by
  obtain ⟨m, c, p, len⟩ := a
  obtain ⟨m', c', p', len'⟩ := b
  obtain ⟨⟨h1, h2⟩, h3⟩ := h
  simp only [Prod.mk.injEq] at h1 h2 h3
  obtain ⟨rfl, rfl, rfl⟩ := h3
  unfold ctStep
  simp only
  refine Sim.bind (sim_vldm e p) fun x y _ => ?_
  refine Sim.bind (sim_block ⟨_, exec_veorq8 _, h1⟩ ⟨_, exec_veorq8 _, h2⟩) fun m1 m2 hh => ?_
  refine Sim.bind (sim_vstm e c _ _ _ _) fun _ _ _ => ?_
  refine Sim.bind (sim_block (execs_append (exec_movs _) (execs_P8 hh.1)) (execs_append (exec_movs _) (execs_P8 hh.2)))
    fun m1 m2 hh => ?_
  exact Sim.pure ⟨hh, rfl⟩

theorem sim_adata (fuel : Nat) (e : Endian) (regs regs' : Nat → Word) (s s' : State) (ad adlen : Nat) :
    Sim Any (ascon_adata fuel e regs s ad adlen) (ascon_adata fuel e regs' s' ad adlen) := by
  unfold ascon_adata
  refine Sim.bind (R := Any) (Sim.ifc ?_ (Sim.pure trivial)) fun _ _ _ => Sim.pure trivial
  refine Sim.bind (R := fun a b => a.2 = b.2) ?_ ?_
  · unfold AD
    refine Sim.bind (R := Pub) (Sim.loop ?_ (sim_adStep e) _ ⟨⟨rfl, rfl⟩, rfl⟩) ?_
    · rintro ⟨a, b, c⟩ ⟨a', b', c'⟩ ⟨_, h⟩; simp only at h; injection h with _ h; rw [h]
    · rintro ⟨a, b, c⟩ ⟨a', b', c'⟩ ⟨_, h⟩
      simp only [Prod.mk.injEq] at h
      obtain ⟨rfl, rfl⟩ := h
      exact Sim.pure rfl
  · rintro ⟨a, b, c⟩ ⟨a', b', c'⟩ h
    simp only [Prod.mk.injEq] at h
    obtain ⟨rfl, rfl⟩ := h
    refine Sim.bind (sim_adFinal (backend_ct e) _ _ _ _) fun _ _ _ => ?_
    exact (backend_ct e).p8 _ _

theorem sim_encrypt (fuel : Nat) (e : Endian) (regs regs' : Nat → Word) (s s' : State) (c m mlen : Nat) :
    Sim Any (ascon_encrypt fuel e regs s c m mlen) (ascon_encrypt fuel e regs' s' c m mlen) := by
  unfold ascon_encrypt
  refine Sim.bind (R := fun a b => a.2 = b.2) ?_ ?_
  · unfold PT
    refine Sim.bind (R := Pub) (Sim.loop ?_ (sim_ptStep e) _ ⟨⟨rfl, rfl⟩, rfl⟩) ?_
    · rintro ⟨a, b, b1, c⟩ ⟨a', b', b1', c'⟩ ⟨_, h⟩
      simp only [Prod.mk.injEq] at h
      rw [h.2.2]
    · rintro ⟨a, b, b1, c⟩ ⟨a', b', b1', c'⟩ ⟨_, h⟩
      simp only [Prod.mk.injEq] at h
      obtain ⟨rfl, rfl, rfl⟩ := h
      exact Sim.pure rfl
  · rintro ⟨a, b, b1, c⟩ ⟨a', b', b1', c'⟩ h
    simp only [Prod.mk.injEq] at h
    obtain ⟨rfl, rfl, rfl⟩ := h
    exact sim_encFinal (backend_ct e) _ _ _ _ _

theorem sim_decrypt (fuel : Nat) (e : Endian) (regs regs' : Nat → Word) (s s' : State) (m c clen : Nat) :
    Sim Any (ascon_decrypt fuel e regs s m c clen) (ascon_decrypt fuel e regs' s' m c clen) := by
  unfold ascon_decrypt
  refine Sim.bind (R := fun a b => a.2 = b.2) ?_ ?_
  · unfold CT
    refine Sim.bind (R := Pub) (Sim.loop ?_ (sim_ctStep e) _ ⟨⟨rfl, rfl⟩, rfl⟩) ?_
    · rintro ⟨a, b, b1, c⟩ ⟨a', b', b1', c'⟩ ⟨_, h⟩
      simp only [Prod.mk.injEq] at h
      rw [h.2.2]
    · rintro ⟨a, b, b1, c⟩ ⟨a', b', b1', c'⟩ ⟨_, h⟩
      simp only [Prod.mk.injEq] at h
      obtain ⟨rfl, rfl, rfl⟩ := h
      exact Sim.pure rfl
  · rintro ⟨a, b, b1, c⟩ ⟨a', b', b1', c'⟩ h
    simp only [Prod.mk.injEq] at h
    obtain ⟨rfl, rfl, rfl⟩ := h
    exact sim_decFinal (backend_ct e) _ _ _ _ _

theorem sim_aead_encrypt (fuel : Nat) (e : Endian) (regs regs' : Nat → Word) (c clen m mlen ad adlen npub k : Nat) :
    Sim Any (crypto_aead_encrypt fuel e regs c clen m mlen ad adlen npub k)
      (crypto_aead_encrypt fuel e regs' c clen m mlen ad adlen npub k) := by
  have h := backend_ct e
  unfold crypto_aead_encrypt ascon_aead_encrypt
  refine Sim.bind Sim.store64 fun _ _ _ => ?_
  refine Sim.bind (sim_loadkey k) fun _ _ _ => ?_
  refine Sim.bind (sim_initaead h _ _ npub) fun _ _ _ => ?_
  refine Sim.bind (sim_adata _ _ _ _ _ _ _ _) fun _ _ _ => ?_
  refine Sim.bind (sim_encrypt _ _ _ _ _ _ _ _ _) fun _ _ _ => ?_
  refine Sim.bind (sim_final h _ _ _ _) fun _ _ _ => ?_
  refine Sim.bind (R := Any) ?_ fun _ _ _ => Sim.pure trivial
  unfold ascon_gettag
  exact Sim.bind sim_STOREBYTES fun _ _ _ => sim_STOREBYTES

theorem sim_aead_decrypt (fuel : Nat) (e : Endian) (regs regs' : Nat → Word) (m mlen c clen ad adlen npub k : Nat) :
    Sim Any (crypto_aead_decrypt fuel e regs m mlen c clen ad adlen npub k)
      (crypto_aead_decrypt fuel e regs' m mlen c clen ad adlen npub k) := by
  have h := backend_ct e
  unfold crypto_aead_decrypt ascon_aead_decrypt
  refine Sim.ifc (Sim.pure trivial) ?_
  refine Sim.bind Sim.store64 fun _ _ _ => ?_
  refine Sim.bind (sim_loadkey k) fun _ _ _ => ?_
  refine Sim.bind (sim_initaead h _ _ npub) fun _ _ _ => ?_
  refine Sim.bind (sim_adata _ _ _ _ _ _ _ _) fun _ _ _ => ?_
  refine Sim.bind (sim_decrypt _ _ _ _ _ _ _ _ _) fun _ _ _ => ?_
  refine Sim.bind (sim_final h _ _ _ _) fun _ _ _ => ?_
  unfold ascon_verify
  exact Sim.bind sim_LOADBYTES fun _ _ _ => Sim.bind sim_LOADBYTES fun _ _ _ => Sim.pure trivial

end Ascon.Neon
