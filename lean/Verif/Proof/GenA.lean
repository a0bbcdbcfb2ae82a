import Verif.Model.GenA
import Verif.Proof.LoopsA
import Verif.Proof.GenHash
import Verif.Proof.GenCT
import Verif.Proof.GenVarBackends
/-!
# The "a" variants of src/hash.c and src/prf.c meet their contracts over every correct backend, and are constant time
-/

namespace Ascon.Gen

open Ascon.C Ascon.Spec
open Ascon.C.Prog (require ifc loop forUp loadB storeB loadN storeN store64 load64)
open Ascon.Ref (getX xorX tagDiff sim_xorX sim_getX sim_tagDiff)

attribute [local irreducible] perm

variable {B : Backend} {e : Endian} {enc : Word → Word}

theorem a_run_hashAbsorbStep (h : B.Ok e enc) {mem : Mem} (s : State) (p n : Nat) (M : List Byte)
    (hM : mem.Holds p M) (h8 : 8 ≤ M.length) :
    run (a_hashAbsorbStep B e (encS enc s, p, n)) mem =
      some ((encS enc (perm 8 (xorIn s (M.take 8))), p + 8, n - 8), mem) := by
  unfold a_hashAbsorbStep
  simp only
  rw [run_bind_of (run_LOAD h hM h8), xorIn_of_le8 _ _ (by simp; omega)]
  have h1 := h.p8 { s with x0 := s.x0 ^^^ le64 (M.take 8) } mem
  rw [← encS_xor_x0 h] at h1
  rw [run_bind_of h1]
  simp only [run_pure']

theorem a_run_absorb (h : B.Ok e enc) {mem : Mem} {s : State} {p : Nat} {M : List Byte} (hM : mem.Holds p M) :
    run (a_absorb B e (encS enc s) p M.length) mem =
      some (encS enc (xorIn (absorb 8 s (fullBlocks 8 M)) (pad 8 (lastBlock 8 M))), mem) := by
  unfold a_absorb
  have hl := run_absorbLoop (encS enc) 8 8 (by omega)
    (cond := fun (_, _, len) => decide (len ≥ 8)) (step := a_hashAbsorbStep B e) (fun _ _ _ => rfl) (mem := mem)
    (fun s p n M hM h8 => a_run_hashAbsorbStep h s p n M hM h8)
    (M.length + 1) s p M hM (by omega)
  rw [run_bind_of hl]
  simp only
  have hb := hM.lastBlock 8
  have hll := length_lastBlock 8 M
  rw [← hll, run_bind_of (run_LOADBYTES h hb rfl (by omega)), run_bind_of (h.pad _ (by omega) mem),
    Ref.xorIn_pad8 _ _ (by omega)]
  generalize absorb 8 s (fullBlocks 8 M) = t
  simp only [run_pure', encS, h.xor]

theorem a_run_squeeze (h : B.Ok e enc) {mem : Mem} {s : State} {p n : Nat} (hw : mem.Writable p n) :
    run (a_squeeze B e (encS enc s) p n) mem = some ((), mem.writes p (A.squeeze 8 (perm 12 s) n)) := by
  unfold a_squeeze
  rw [run_bind_of (h.p12 s mem)]
  refine a_run_squeezeLoop (encS enc) (fun _ _ _ => rfl) ?_ _ _ ?_ (n + 1) (perm 12 s) mem p n hw (by omega)
  · intro mem s p n hw
    unfold a_hashSqueezeStep
    simp only
    have h1 : run (STORE B e p (encS enc s).x0 8) mem = some ((), mem.writes p (bytes64 s.x0)) := run_STORE h hw
    rw [run_bind_of h1, rate_8, run_bind_of (h.p8 s _)]
    simp only [run_pure']
  · intro mem s p n hw h8
    simp only
    have h1 : run (STOREBYTES B e p (encS enc s).x0 n) mem = some ((), mem.writes p ((bytes64 s.x0).take n)) :=
      run_STOREBYTES h hw h8
    rw [h1, rate_le8 n s h8]

theorem a_xof_correct (h : B.Ok e enc) (ivs : State) (iv : Word) (hiv : ivs = encS enc (spongeInit iv)) :
    XofCorrectAt e (A.xofWith iv) (a_xof B ivs) := by
  intro mem sp out n inp M hM _ _ hw _
  unfold a_xof
  rw [hiv]
  simp only
  rw [run_bind_of (a_run_absorb h hM), run_bind_of (a_run_squeeze h hw)]
  rfl

theorem a_run_prfAbsorb (h : B.Ok e enc) {mem : Mem} {s : State} {p : Nat} {M : List Byte}
    (hM : mem.Holds p M) :
    run (a_prfAbsorb B e (encS enc s) p M.length) mem = some
      (encS enc ((fun t : State => { t with x4 := t.x4 ^^^ 0x8000000000000000 })
        (xorIn (absorb 8 s (fullBlocks 40 M)) (pad 40 (lastBlock 40 M)))), mem) := by
  unfold a_prfAbsorb
  refine a_run_prfAbsorbLoop (encS enc) (cond := fun (_, _, _, inlen) => decide (inlen ≥ 8))
    (step := a_prfAbsorbStep B e) (fun _ _ _ _ => rfl) ?_ _
    (fun t : State => encS enc { t with x4 := t.x4 ^^^ 0x8000000000000000 }) ?_ (M.length + 1) s p M hM (by omega)
  · intro s i p n M hi hM h8
    unfold a_prfAbsorbStep
    simp only
    rw [run_bind_of (run_LOAD h hM h8), run_bind_of (Ref.run_xorX (by omega)), xorAt_encS h, run_bind, run_ifc]
    by_cases h3 : i = 4
    · subst h3; simp [h.p8, run_bind, run_ifc]
    · have h4 : ¬ i + 1 = 5 := by omega
      simp [h3, run_bind, run_ifc]
  · intro s i p M hi hM h8
    simp only
    have hx : run (ifc (decide (M.length ≠ 0))
        (do
          let w ← LOADBYTES B e p M.length
          xorX (encS enc s) i w)
        (pure (encS enc s))) mem = some (encS enc (xorAt s i (le64 M)), mem) := by
      rw [run_ifc]
      by_cases h0 : M.length = 0
      · have : M = [] := by simpa using h0
        subst this
        rw [if_neg (by simp), le64_nil, ← xorAt_encS h, h.enc0]
        simp only [run_pure']
        match i with
        | 0 | 1 | 2 | 3 | _ + 4 => simp [xorAt]
      · rw [if_pos (decide_eq_true h0), run_bind_of (run_LOADBYTES h hM rfl (by omega)),
          Ref.run_xorX (by omega), xorAt_encS h]
    rw [run_bind_of hx, run_bind_of (h.pad _ h8 mem), run_bind_of (Ref.run_xorX (by omega)), xorAt_encS h,
      Ref.xorAt_xorAt, h.dsep]
    simp only [run_pure', encS, h.xor]

theorem a_run_prfSqueeze (h : B.Ok e enc) {mem : Mem} {s : State} {p n : Nat} (hw : mem.Writable p n) :
    run (a_prfSqueeze B e (encS enc s) p n) mem = some ((), mem.writes p (A.squeeze 16 (perm 12 s) n)) := by
  unfold a_prfSqueeze
  rw [run_bind_of (h.p12 s mem)]
  refine a_run_prfSqueezeLoop (encS enc) (fun _ _ _ _ => rfl) ?_ _ _ ?_ (n + 1) (perm 12 s) mem p n hw (by omega)
  · intro mem s i p n hi hw
    unfold a_prfSqueezeStep
    simp only
    rw [run_bind_of (Ref.run_getX (by omega)), wordAt_encS, run_bind_of (run_STORE h hw), run_bind, run_ifc]
    by_cases h3 : i = 1
    · subst h3; simp [h.p8, run_bind, run_ifc]
    · have h4 : ¬ i + 1 = 2 := by omega
      simp [h3, run_bind, run_ifc]
  · intro mem s i p n hi hw h8
    simp only
    rw [run_bind_of (Ref.run_getX (by omega)), wordAt_encS, run_STOREBYTES h hw h8]

theorem a_prf_with_correct (h : B.Ok e enc) (iv' iv : Word) (hiv : iv' = enc iv) (n : Nat) (hn : 0 < n) :
    PrfCorrectAt e (A.prfWith iv) (fun _ outlen => outlen ≤ n) (a_crypto_prf B iv' n) := by
  constructor
  · intro mem sp out l inp k K M hk hK hM _ hw hok
    unfold a_crypto_prf
    rw [run_ifc, if_neg (by simp; omega)]
    have e1 : (K.drop 8).take 8 = K.drop 8 := List.take_of_length_le (by simp; omega)
    rw [run_bind_of (run_LOAD h hk (by omega)), run_bind_of (run_LOAD' h hk (by omega)), e1, hiv]
    have h1 := h.p12 ⟨iv, le64 (K.take 8), le64 (K.drop 8), 0, 0⟩ mem
    rw [encS, h.enc0] at h1
    rw [run_bind_of h1, run_bind_of (a_run_prfAbsorb h hM), run_bind_of (a_run_prfSqueeze h hw)]
    rfl
  · intro mem sp out l inp inlen k hok
    have hd : decide (n ≠ 0 ∧ l > n) = true := by simp; omega
    unfold a_crypto_prf
    rw [hd]
    exact ⟨rfl, rfl⟩

theorem length_aPrfWith (iv : Word) (K M : List Byte) (n : Nat) : (A.prfWith iv K M n).length = n :=
  a_length_squeeze 16 _ n (by omega) (by omega)

theorem a_verify_correct (h : B.Ok e enc) (iv' iv : Word) (hiv : iv' = enc iv) :
    VerifyCorrectAt e (fun K M => A.prfWith iv K M 16) 16 (fun _ => True) (a_crypto_auth_verify B iv' 16) :=
  fun _ sp _ _ _ _ _ _ hk hK hM hMl hT hTl _ hs =>
    Ref.run_verify (a_prf_with_correct h iv' iv hiv 16 (by omega)) (by omega) (fun K M => length_aPrfWith _ K M 16) (sp + 16)
      hk hK hM hMl hT hTl (by simp) hs

/-! ## Constant time -/

theorem a_sim_absorb (h : B.CT e) (s s' : State) (p n : Nat) :
    Sim Any (a_absorb B e s p n) (a_absorb B e s' p n) := by
  unfold a_absorb
  refine Sim.bind (R := fun a b => a.2 = b.2) (Sim.loop ?_ ?_ _ rfl) ?_
  · rintro ⟨_, _, _⟩ ⟨_, _, _⟩ h; simp at h; simp [h]
  · rintro ⟨a, p, q⟩ ⟨b, p', q'⟩ h
    simp at h; obtain ⟨rfl, rfl⟩ := h
    unfold a_hashAbsorbStep
    gct_seq
  · rintro ⟨a, p, q⟩ ⟨b, p', q'⟩ h
    simp at h; obtain ⟨rfl, rfl⟩ := h
    simp only
    gct_seq

theorem a_sim_squeeze (h : B.CT e) (s s' : State) (p n : Nat) :
    Sim Any (a_squeeze B e s p n) (a_squeeze B e s' p n) := by
  unfold a_squeeze
  refine Sim.bind (R := Any) (by gct_step) fun _ _ _ => ?_
  refine Sim.bind (R := fun a b => a.2 = b.2) (Sim.loop ?_ ?_ _ rfl) ?_
  · rintro ⟨_, _, _⟩ ⟨_, _, _⟩ h; simp at h; simp [h]
  · rintro ⟨a, p, q⟩ ⟨b, p', q'⟩ h
    simp at h; obtain ⟨rfl, rfl⟩ := h
    unfold a_hashSqueezeStep
    gct_seq
  · rintro ⟨a, p, q⟩ ⟨b, p', q'⟩ h
    simp at h; obtain ⟨rfl, rfl⟩ := h
    simp only
    gct_seq

theorem a_sim_xof (h : B.CT e) (ivs : State) (sp out outlen inp inlen : Nat) :
    Sim Any (a_xof B ivs e sp out outlen inp inlen) (a_xof B ivs e sp out outlen inp inlen) := by
  unfold a_xof
  refine Sim.bind (a_sim_absorb h _ _ _ _) fun _ _ _ => ?_
  exact Sim.bind (a_sim_squeeze h _ _ _ _) fun _ _ _ => Sim.pure trivial

theorem a_sim_prfAbsorb (h : B.CT e) (s s' : State) (p n : Nat) :
    Sim Any (a_prfAbsorb B e s p n) (a_prfAbsorb B e s' p n) := by
  unfold a_prfAbsorb
  refine Sim.bind (R := fun a b => a.2 = b.2) (Sim.loop ?_ ?_ _ rfl) ?_
  · rintro ⟨_, _, _, _⟩ ⟨_, _, _, _⟩ h; simp at h; simp [h]
  · rintro ⟨a, i, p, q⟩ ⟨b, i', p', q'⟩ h
    simp at h; obtain ⟨rfl, rfl, rfl⟩ := h
    unfold a_prfAbsorbStep
    refine Sim.bind (R := Any) (by gct_step) fun _ _ _ => ?_
    refine Sim.bind (sim_xorX _ _ _ _ _) fun _ _ _ => ?_
    refine Sim.bind (R := Eq) (Sim.ifc (Sim.pure rfl) (Sim.pure rfl)) fun _ _ h => ?_
    subst h
    refine Sim.bind (R := Any) (Sim.ifc (by gct_step) (Sim.pure trivial)) fun _ _ _ => ?_
    exact Sim.pure rfl
  · rintro ⟨a, i, p, q⟩ ⟨b, i', p', q'⟩ h
    simp at h; obtain ⟨rfl, rfl, rfl⟩ := h
    simp only
    refine Sim.bind (R := Any) (Sim.ifc ?_ (Sim.pure trivial)) fun _ _ _ => ?_
    · refine Sim.bind (R := Any) (by gct_step) fun _ _ _ => ?_
      exact sim_xorX _ _ _ _ _
    refine Sim.bind (R := Any) (by gct_step) fun _ _ _ => ?_
    refine Sim.bind (sim_xorX _ _ _ _ _) fun _ _ _ => ?_
    gct_seq

theorem a_sim_prfSqueeze (h : B.CT e) (s s' : State) (p n : Nat) :
    Sim Any (a_prfSqueeze B e s p n) (a_prfSqueeze B e s' p n) := by
  unfold a_prfSqueeze
  refine Sim.bind (R := Any) (by gct_step) fun _ _ _ => ?_
  refine Sim.bind (R := fun a b => a.2 = b.2) (Sim.loop ?_ ?_ _ rfl) ?_
  · rintro ⟨_, _, _, _⟩ ⟨_, _, _, _⟩ h; simp at h; simp [h]
  · rintro ⟨a, i, p, q⟩ ⟨b, i', p', q'⟩ h
    simp at h; obtain ⟨rfl, rfl, rfl⟩ := h
    unfold a_prfSqueezeStep
    refine Sim.bind (sim_getX _ _ _) fun _ _ _ => ?_
    refine Sim.bind (R := Any) (by gct_step) fun _ _ _ => ?_
    refine Sim.bind (R := Eq) (Sim.ifc (Sim.pure rfl) (Sim.pure rfl)) fun _ _ h => ?_
    subst h
    refine Sim.bind (R := Any) (Sim.ifc (by gct_step) (Sim.pure trivial)) fun _ _ _ => ?_
    exact Sim.pure rfl
  · rintro ⟨a, i, p, q⟩ ⟨b, i', p', q'⟩ h
    simp at h; obtain ⟨rfl, rfl, rfl⟩ := h
    simp only
    refine Sim.bind (sim_getX _ _ _) fun _ _ _ => ?_
    gct_seq

theorem a_sim_prf_with (h : B.CT e) (iv : Word) (n : Nat) (sp out outlen inp inlen k : Nat) :
    Sim Any (a_crypto_prf B iv n e sp out outlen inp inlen k)
      (a_crypto_prf B iv n e sp out outlen inp inlen k) := by
  unfold a_crypto_prf
  refine Sim.ifc (Sim.pure trivial) ?_
  refine Sim.bind (R := Any) (by gct_step) fun _ _ _ => ?_
  refine Sim.bind (R := Any) (by gct_step) fun _ _ _ => ?_
  refine Sim.bind (R := Any) (by gct_step) fun _ _ _ => ?_
  refine Sim.bind (a_sim_prfAbsorb h _ _ _ _) fun _ _ _ => ?_
  exact Sim.bind (a_sim_prfSqueeze h _ _ _ _) fun _ _ _ => Sim.pure trivial

theorem a_sim_verify_with (h : B.CT e) (iv : Word) (n : Nat) (sp p inp len k : Nat) :
    Sim Any (a_crypto_auth_verify B iv n e sp p inp len k)
      (a_crypto_auth_verify B iv n e sp p inp len k) := by
  unfold a_crypto_auth_verify
  refine Sim.bind (R := Any) (by gct_step) fun _ _ _ => ?_
  refine Sim.bind (a_sim_prf_with h _ _ _ _ _ _ _ _) fun _ _ _ => ?_
  refine Sim.bind (sim_tagDiff _ _ _) fun _ _ _ => ?_
  gct_seq

end Ascon.Gen

namespace Ascon.Impl

open Ascon.C Ascon.Spec Ascon.Gen

/-- The precomputed constants are right, in all three word layouts. -/
theorem Core.aivs_ok (c : Core) :
    c.family.aivs.HASHA = encS c.enc (spongeInit A.ivHasha) ∧ c.family.aivs.XOFA = encS c.enc (spongeInit A.ivXofa) ∧
    c.family.aivs.PRFA = c.enc A.ivPrfa ∧ c.family.aivs.MACA = c.enc A.ivMaca := by
  cases c <;> exact ⟨by decide +kernel, by decide +kernel, by decide +kernel, by decide +kernel⟩

end Ascon.Impl
