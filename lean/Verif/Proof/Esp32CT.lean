import Verif.Proof.Esp32Top
import Verif.Proof.MaskedCT
/-!
# Constant time of the esp32 implementation
-/

namespace Ascon.Esp32

open Ascon.Spec Ascon.C Ascon.Gen
open Ascon.C.Prog (require ifc loop forUp loadB storeB loadN storeN store64 load64)
open Ascon.Masked (U32 sim_load32 sim_store32)

attribute [local irreducible] perm

local macro "sb" : tactic => `(tactic| refine Sim.bind (R := Any) ?_ fun _ _ _ => ?_)
local macro "done!" : tactic => `(tactic| exact Sim.pure trivial)

theorem sim_loadPair (e : Endian) (p : Nat) : Sim Any (loadPair 1 e p) (loadPair 1 e p) := by
  unfold loadPair
  rw [load32A_one, load32A_one]
  sb
  · exact sim_load32 _ _
  sb
  · exact sim_load32 _ _
  done!

theorem sim_storePair (e : Endian) (p : Nat) (w w' : Word) : Sim Any (storePair 1 e p w) (storePair 1 e p w') := by
  unfold storePair
  simp only [store32A_one]
  sb
  · exact sim_store32 _ _ _ _
  exact sim_store32 _ _ _ _

theorem sim_P (e : Endian) (s s' : State) (c : Byte) : Sim Any (P e s c) (P e s' c) := by
  unfold P
  refine Sim.bind (R := fun a b => a.2 = b.2) (Sim.loop ?_ ?_ _ rfl) fun _ _ _ => Sim.pure trivial
  · intro a b h; simp only [h]
  · intro a b h; exact Sim.pure (by simp only [h])

/-- The public part of `(s, out, in, len)`. -/
def Pub4 (a b : State × Nat × Nat × Nat) : Prop := a.2 = b.2
/-- The public part of `(s, in, len)`. -/
def Pub3 (a b : State × Nat × Nat) : Prop := a.2 = b.2

theorem sim_duplexStep (e : Endian) (mode : Mode) (a b : State × Nat × Nat × Nat) (h : Pub4 a b) :
    Sim Pub4 (duplexStep 1 e mode a) (duplexStep 1 e mode b) := by
  obtain ⟨s, out, inp, len⟩ := a
  obtain ⟨s', out', inp', len'⟩ := b
  simp only [Pub4, Prod.mk.injEq] at h
  obtain ⟨rfl, rfl, rfl⟩ := h
  unfold duplexStep
  simp only
  sb
  · exact sim_loadPair _ _
  sb
  · exact sim_loadPair _ _
  sb
  · refine Sim.ifc ?_ ?_
    · sb
      · exact sim_storePair _ _ _ _
      exact sim_storePair _ _ _ _
    · done!
  sb
  · exact Sim.ifc (Sim.pure trivial) (Sim.pure trivial)
  sb
  · exact sim_P _ _ _ _
  exact Sim.pure rfl

theorem sim_duplexFinal (e : Endian) (mode : Mode) (a b : State × Nat × Nat × Nat) (h : Pub4 a b) :
    Sim Any (duplexFinal e mode a) (duplexFinal e mode b) := by
  obtain ⟨s, out, inp, len⟩ := a
  obtain ⟨s', out', inp', len'⟩ := b
  simp only [Pub4, Prod.mk.injEq] at h
  obtain ⟨rfl, rfl, rfl⟩ := h
  unfold duplexFinal
  simp only
  refine Sim.bind (Sim.loadN _ _) fun bs bs' hl => ?_
  sb
  · exact Sim.require
  sb
  · refine Sim.ifc ?_ ?_
    · sb
      · exact Sim.storeN _ (by simp [Ref.length_repr64])
      done!
    · done!
  refine Sim.ifc ?_ ?_
  · sb
    · exact (Sim.loadN _ _).mono fun _ _ _ => trivial
    done!
  · done!

theorem sim_duplex (e : Endian) (mode : Mode) (s s' : State) (out inp len : Nat) :
    Sim Any (ascon_duplex 1 e s out inp len mode) (ascon_duplex 1 e s' out inp len mode) := by
  unfold ascon_duplex
  refine Sim.bind (R := Pub4) (Sim.loop ?_ (fun _ _ h => sim_duplexStep e mode _ _ h) _ rfl) fun a b h =>
    sim_duplexFinal e mode a b h
  rintro ⟨s, out, inp, len⟩ ⟨s', out', inp', len'⟩ h
  simp only [Pub4, Prod.mk.injEq] at h
  simp [h.2.2]

theorem sim_core (e : Endian) (lw out inp tlen ad adlen npub k : Nat) (mode : Mode) :
    Sim Any (ascon_core 1 e lw out inp tlen ad adlen npub k mode) (ascon_core 1 e lw out inp tlen ad adlen npub k mode) := by
  unfold ascon_core
  sb
  · exact sim_loadPair _ _
  sb
  · exact sim_loadPair _ _
  sb
  · exact sim_loadPair _ _
  sb
  · exact sim_loadPair _ _
  sb
  · exact sim_P _ _ _ _
  sb
  · refine Sim.ifc ?_ ?_
    · sb
      · exact sim_duplex _ _ _ _ _ _ _
      exact sim_P _ _ _ _
    · done!
  sb
  · exact sim_duplex _ _ _ _ _ _ _
  sb
  · exact sim_P _ _ _ _
  done!

theorem sim_encrypt (lw : Nat) (e : Endian) (sp c clen m mlen ad adlen nsec npub k : Nat) :
    Sim Any (crypto_aead_encrypt 1 lw e sp c clen m mlen ad adlen nsec npub k)
      (crypto_aead_encrypt 1 lw e sp c clen m mlen ad adlen nsec npub k) := by
  unfold crypto_aead_encrypt
  sb
  · exact Sim.store64
  sb
  · exact sim_core _ _ _ _ _ _ _ _ _ _
  sb
  · refine Sim.forUp (fun i _ _ _ => ?_) _ _ trivial
    exact Sim.storeB
  done!

theorem sim_hash (iv : State) (n lw : Nat) (e : Endian) (sp out inp inlen : Nat) :
    Sim Any (crypto_hash iv n 1 lw e sp out inp inlen) (crypto_hash iv n 1 lw e sp out inp inlen) := by
  unfold crypto_hash
  simp only
  refine Sim.bind (R := Pub3) (Sim.loop ?_ ?_ _ rfl) ?_
  · rintro ⟨s, inp, len⟩ ⟨s', inp', len'⟩ h
    simp only [Pub3, Prod.mk.injEq] at h
    simp [h.2]
  · rintro ⟨s, inp, len⟩ ⟨s', inp', len'⟩ h
    simp only [Pub3, Prod.mk.injEq] at h
    obtain ⟨rfl, rfl⟩ := h
    unfold absorbStep
    simp only
    sb
    · exact sim_loadPair _ _
    sb
    · exact sim_P _ _ _ _
    exact Sim.pure rfl
  rintro ⟨s, inp, len⟩ ⟨s', inp', len'⟩ h
  simp only [Pub3, Prod.mk.injEq] at h
  obtain ⟨rfl, rfl⟩ := h
  sb
  · unfold absorbFinal
    simp only
    sb
    · exact (Sim.loadN _ _).mono fun _ _ _ => trivial
    sb
    · exact Sim.require
    done!
  sb
  · exact sim_P _ _ _ _
  refine Sim.bind (R := Pub3) (Sim.loop ?_ ?_ _ rfl) ?_
  · rintro ⟨s, inp, len⟩ ⟨s', inp', len'⟩ h
    simp only [Pub3, Prod.mk.injEq] at h
    simp [h.2]
  · rintro ⟨s, inp, len⟩ ⟨s', inp', len'⟩ h
    simp only [Pub3, Prod.mk.injEq] at h
    obtain ⟨rfl, rfl⟩ := h
    unfold squeezeStep
    simp only
    sb
    · exact sim_storePair _ _ _ _
    sb
    · exact sim_P _ _ _ _
    exact Sim.pure rfl
  rintro ⟨s, inp, len⟩ ⟨s', inp', len'⟩ h
  simp only [Pub3, Prod.mk.injEq] at h
  obtain ⟨rfl, rfl⟩ := h
  sb
  · exact Sim.storeN _ (by simp [Ref.length_repr64])
  done!

/-! ### Decryption re-reads `*mlen` -/

/-- The body of the comparison loop. -/
def cmpBody (e : Endian) (mlen c : Nat) (s : State) (i : Nat) (result : U32) : Prog U32 := do
  let ml ← load64 e mlen
  let b ← loadB (c + (ml.toNat + i))
  pure (result ||| (b.setWidth 32 ^^^ (tagByte e s i).setWidth 32))

/-- The same with the known value of `*mlen`. -/
def cmpBodyN (e : Endian) (mlen c n : Nat) (s : State) (i : Nat) (result : U32) : Prog U32 := do
  let _ ← load64 e mlen
  let b ← loadB (c + (n + i))
  pure (result ||| (b.setWidth 32 ^^^ (tagByte e s i).setWidth 32))

theorem cmpBody_known {e : Endian} {mem : Mem} {mlen c n : Nat} (hn : n < 2 ^ 64)
    (hm : mem.Holds mlen (repr64 e (BitVec.ofNat 64 n))) (s : State) (i : Nat) (r : U32) :
    run (cmpBody e mlen c s i r) mem = run (cmpBodyN e mlen c n s i r) mem ∧
    trace (cmpBody e mlen c s i r) mem = trace (cmpBodyN e mlen c n s i r) mem ∧
    ∀ r' mem', run (cmpBodyN e mlen c n s i r) mem = some (r', mem') → mem' = mem := by
  have ht : (BitVec.ofNat 64 n).toNat = n := by rw [BitVec.toNat_ofNat, Nat.mod_eq_of_lt hn]
  refine ⟨?_, ?_, ?_⟩
  · unfold cmpBody cmpBodyN
    rw [run_bind_of (run_load64 hm), run_bind_of (run_load64 hm), ht]
  · unfold cmpBody cmpBodyN
    rw [trace_bind, trace_bind, run_load64 hm]
    simp only [ht]
  · intro r' mem' h
    unfold cmpBodyN at h
    rw [run_bind_of (run_load64 hm)] at h
    show mem' = mem
    simp only [loadB] at h
    change run (Prog.load _ fun b => _) mem = _ at h
    simp only [run] at h
    split at h
    · simp only [Prog.bind] at h
      change some (_, mem) = _ at h
      simp only [Option.some.injEq, Prod.mk.injEq] at h
      exact h.2.symm
    · cases h

theorem trace_cmpLoop {e : Endian} {mem : Mem} {mlen c n : Nat} (hn : n < 2 ^ 64)
    (hm : mem.Holds mlen (repr64 e (BitVec.ofNat 64 n))) (s : State) (cnt i : Nat) (r : U32) :
    trace (forUp (cmpBody e mlen c s) cnt i r) mem = trace (forUp (cmpBodyN e mlen c n s) cnt i r) mem := by
  induction cnt generalizing i r with
  | zero => rfl
  | succ cnt ih =>
    obtain ⟨h1, h2, h3⟩ := cmpBody_known (c := c) hn hm s i r
    have e1 : ∀ b : Nat → U32 → Prog U32, forUp b (cnt + 1) i r =
        .branch true (b i r >>= forUp b cnt (i + 1)) := fun _ => rfl
    rw [e1, e1]
    simp only [trace]
    rw [trace_bind, trace_bind, h1, h2]
    congr 1
    congr 1
    cases h : run (cmpBodyN e mlen c n s i r) mem with
    | none => rfl
    | some q =>
      obtain ⟨r', mem'⟩ := q
      have := h3 r' mem' h
      subst this
      exact ih _ _

theorem sim_cmpLoop (e : Endian) (mlen c n : Nat) (s s' : State) (cnt i : Nat) (r r' : U32) :
    Sim Any (forUp (cmpBodyN e mlen c n s) cnt i r) (forUp (cmpBodyN e mlen c n s') cnt i r') := by
  refine Sim.forUp (fun i _ _ _ => ?_) _ _ trivial
  unfold cmpBodyN
  sb
  · exact Sim.load64
  sb
  · exact Sim.loadB
  done!

/-- Lines 9 and 11 of decrypt.c and `ascon_core`. -/
def decHead (lw : Nat) (e : Endian) (m mlen c clen ad adlen npub k : Nat) : Prog State := do
  store64 e mlen (BitVec.ofNat 64 (clen - 16))
  let ml ← load64 e mlen
  ascon_core 1 e lw m c ml.toNat ad adlen npub k .DEC

theorem decrypt_split (lw : Nat) (e : Endian) (sp m mlen nsec c clen ad adlen npub k : Nat) :
    crypto_aead_decrypt 1 lw e sp m mlen nsec c clen ad adlen npub k =
      ifc (decide (clen < 16)) (do store64 e mlen 0; pure (-1))
        (decHead lw e m mlen c clen ad adlen npub k >>= fun s => forUp (cmpBody e mlen c s) 16 0 0 >>= fun result =>
          pure ((((result - 1).sshiftRight 8) &&& 1) - 1).toInt) := by
  unfold crypto_aead_decrypt decHead
  simp only [bind_assoc']
  rfl

theorem run_bind_some {α β : Type} {p : Prog α} {f : α → Prog β} {mem mem' : Mem} {b : β}
    (h : run (p >>= f) mem = some (b, mem')) : ∃ a m, run p mem = some (a, m) := by
  rw [run_bind] at h
  cases hp : run p mem with
  | none => rw [hp] at h; cases h
  | some q => exact ⟨q.1, q.2, rfl⟩

/-- If both runs are defined and keep `*mlen` intact, their traces agree. -/
theorem decrypt_ct {lw : Nat} {e : Endian} {m mlen c clen ad adlen npub k : Nat} {sp nsec : Nat} {mem1 mem2 : Mem}
    (hm : SameLayout mem1 mem2) (hw1 : mem1.Writable mlen 8) (hw2 : mem2.Writable mlen 8) (hcl : clen < 2 ^ 64)
    (h : 16 ≤ clen → ∃ s1 m1 s2 m2, run (decHead lw e m mlen c clen ad adlen npub k) mem1 = some (s1, m1) ∧
      run (decHead lw e m mlen c clen ad adlen npub k) mem2 = some (s2, m2) ∧
      m1.Holds mlen (repr64 e (BitVec.ofNat 64 (clen - 16))) ∧
      m2.Holds mlen (repr64 e (BitVec.ofNat 64 (clen - 16)))) :
    trace (crypto_aead_decrypt 1 lw e sp m mlen nsec c clen ad adlen npub k) mem1 =
      trace (crypto_aead_decrypt 1 lw e sp m mlen nsec c clen ad adlen npub k) mem2 := by
  rw [decrypt_split]
  by_cases h16 : clen < 16
  · rw [decide_eq_true h16]
    have : Sim Any (ifc true (do store64 e mlen 0; pure (-1)) (pure 0 : Prog Int))
        (ifc true (do store64 e mlen 0; pure (-1)) (pure 0 : Prog Int)) := by
      refine Sim.ifc ?_ (Sim.pure trivial)
      sb
      · exact Sim.store64
      done!
    exact this.trace_eq hm
  · rw [decide_eq_false h16]
    show _ :: _ = _ :: _
    congr 1
    obtain ⟨s1, m1, s2, m2, r1, r2, g1, g2⟩ := h (by omega)
    -- the head
    have hh : trace (decHead lw e m mlen c clen ad adlen npub k) mem1 =
        trace (decHead lw e m mlen c clen ad adlen npub k) mem2 ∧ SameLayout m1 m2 := by
      unfold decHead at r1 r2 ⊢
      have hs : Sim Any (store64 e mlen (BitVec.ofNat 64 (clen - 16))) (store64 e mlen (BitVec.ofNat 64 (clen - 16))) :=
        Sim.store64
      have q1 := Ref.run_store64 (e := e) (w := BitVec.ofNat 64 (clen - 16)) hw1
      have q2 := Ref.run_store64 (e := e) (w := BitVec.ofNat 64 (clen - 16)) hw2
      have hl := (hs.layout hm q1 q2).2
      have l1 := run_load64 (e := e) (holds_writes_self mem1 mlen (repr64 e (BitVec.ofNat 64 (clen - 16))))
      have l2 := run_load64 (e := e) (holds_writes_self mem2 mlen (repr64 e (BitVec.ofNat 64 (clen - 16))))
      rw [run_bind_of q1, run_bind_of l1] at r1
      rw [run_bind_of q2, run_bind_of l2] at r2
      refine ⟨?_, ((sim_core _ _ _ _ _ _ _ _ _ _).layout hl r1 r2).2⟩
      rw [trace_bind, trace_bind, q1, q2, hs.trace_eq hm]
      simp only []
      rw [trace_bind, trace_bind, l1, l2, (Sim.load64 (e := e) (p := mlen)).trace_eq hl]
      simp only []
      rw [(sim_core _ _ _ _ _ _ _ _ _ _).trace_eq hl]
    simp only [Bool.false_eq_true, if_false]
    rw [trace_bind, trace_bind, r1, r2, hh.1]
    refine congrArg (fun t => trace (decHead lw e m mlen c clen ad adlen npub k) mem2 ++ t) ?_
    have hlp : ∀ (s : State) (mem : Mem), mem.Holds mlen (repr64 e (BitVec.ofNat 64 (clen - 16))) →
        trace (forUp (cmpBody e mlen c s) 16 0 0 >>= fun result =>
          pure ((((result - 1).sshiftRight 8) &&& 1) - 1).toInt) mem =
        trace (forUp (cmpBodyN e mlen c (clen - 16) s) 16 0 0) mem := by
      intro s mem hmem
      rw [trace_bind, trace_cmpLoop (n := clen - 16) (by omega) hmem]
      split
      · show _ ++ [] = _; simp
      · simp
    refine (hlp s1 m1 g1).trans (Eq.trans ?_ (hlp s2 m2 g2).symm)
    exact (sim_cmpLoop e mlen c (clen - 16) s1 s2 16 0 0 0).trace_eq hh.2

theorem run_decHead {e : Endian} {mem : Mem} {lw m mlen c clen ad adlen npub k : Nat} {K N A C : List Byte}
    (hk : mem.Holds k K) (hK : K.length = 16) (hn : mem.Holds npub N) (hN : N.length = 16)
    (ha : mem.Holds ad A) (hl : A.length = ulong lw adlen) (hA : adlen = 0 ∨ A ≠ [])
    (h16 : 16 ≤ clen) (hcl : clen < 2 ^ 64)
    (hc : mem.Holds c C) (hC : C.length = ulong lw (clen - 16))
    (hw : mem.Writable m C.length) (hml : mem.Writable mlen 8)
    (sK : Disjoint mlen 8 k 16) (sN : Disjoint mlen 8 npub 16) (sA : Disjoint mlen 8 ad A.length)
    (sC : Disjoint mlen 8 c clen) (sM : Disjoint mlen 8 m C.length)
    (ho : m ≤ c ∨ c + clen ≤ m) (hd : Disjoint m (C.length % 16) c (C.length % 16)) :
    ∃ s mem', run (decHead lw e m mlen c clen ad adlen npub k) mem = some (s, mem') ∧
      mem'.Holds mlen (repr64 e (BitVec.ofNat 64 (clen - 16))) := by
  unfold decHead
  have hle : C.length ≤ clen - 16 := by rw [hC]; exact Nat.mod_le _ _
  rw [run_bind_of (Ref.run_store64 hml)]
  have hsep : ∀ {q : Nat} {bs : List Byte}, mem.Holds q bs → Disjoint mlen 8 q bs.length →
      (mem.writes mlen (repr64 e (BitVec.ofNat 64 (clen - 16)))).Holds q bs := fun hq hd =>
    hq.writes_disjoint (by rwa [Ref.length_repr64])
  have hk := hsep hk (by rwa [hK])
  have hn := hsep hn (by rwa [hN])
  have ha := hsep ha sA
  have hc := hsep hc (by unfold Disjoint at *; omega)
  have hw : (mem.writes mlen (repr64 e (BitVec.ofNat 64 (clen - 16)))).Writable m C.length := hw.writes
  have hml : (mem.writes mlen (repr64 e (BitVec.ofNat 64 (clen - 16)))).Holds mlen
      (repr64 e (BitVec.ofNat 64 (clen - 16))) := holds_writes_self _ _ _
  generalize mem.writes mlen (repr64 e (BitVec.ofNat 64 (clen - 16))) = mem1 at *
  rw [run_bind_of (run_load64 hml), BitVec.toNat_ofNat, Nat.mod_eq_of_lt (by omega)]
  have hdu := run_duplex_dec (e := e) (aeadAd A (aeadInit K N)) m c C hc hw (by omega) hd
  rw [hC] at hdu
  rw [run_core hk hK hn hN ha hl hA hdu]
  refine ⟨_, _, rfl, ?_⟩
  apply hml.writes_disjoint
  rw [Ref.length_decBody, Ref.length_repr64]
  unfold Disjoint at *; omega

end Ascon.Esp32
