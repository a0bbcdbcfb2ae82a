import Verif.Model.GenHash
import Verif.Model.GenPrf
import Verif.Proof.GenCore
import Verif.Proof.RefHash
/-!
# src/hash.c, src/prf.c and src/prfs.c meet their contracts over every correct backend
-/

namespace Ascon.Gen

open Ascon.C Ascon.Spec
open Ascon.C.Prog (require ifc loop forUp loadB storeB loadN storeN store64 load64)
open Ascon.Ref (getX xorX tagDiff)

attribute [local irreducible] perm

variable {B : Backend} {e : Endian} {enc : Word → Word}

/-! ### Hash -/

theorem encS_xor_x0 (h : B.Ok e enc) (s : State) (w : Word) :
    ({ encS enc s with x0 := (encS enc s).x0 ^^^ enc w } : State) = encS enc { s with x0 := s.x0 ^^^ w } := by
  simp only [encS, h.xor]

theorem run_hashAbsorbStep (h : B.Ok e enc) {mem : Mem} (s : State) (p n : Nat) (M : List Byte)
    (hM : mem.Holds p M) (h8 : 8 ≤ M.length) :
    run (hashAbsorbStep B e (encS enc s, p, n)) mem =
      some ((encS enc (perm 12 (xorIn s (M.take 8))), p + 8, n - 8), mem) := by
  unfold hashAbsorbStep
  simp only
  rw [run_bind_of (run_LOAD h hM h8), xorIn_of_le8 _ _ (by simp; omega)]
  have h1 := h.p12 { s with x0 := s.x0 ^^^ le64 (M.take 8) } mem
  rw [← encS_xor_x0 h] at h1
  rw [run_bind_of h1]
  simp only [run_pure']

theorem run_absorb (h : B.Ok e enc) {mem : Mem} {s : State} {p : Nat} {M : List Byte} (hM : mem.Holds p M) :
    run (ascon_absorb B e (encS enc s) p M.length) mem =
      some (encS enc (xorIn (absorb 12 s (fullBlocks 8 M)) (pad 8 (lastBlock 8 M))), mem) := by
  unfold ascon_absorb
  have hl := run_absorbLoop (encS enc) 8 12 (by omega)
    (cond := fun (_, _, len) => decide (len ≥ 8)) (step := hashAbsorbStep B e) (fun _ _ _ => rfl) (mem := mem)
    (fun s p n M hM h8 => run_hashAbsorbStep h s p n M hM h8)
    (M.length + 1) s p M hM (by omega)
  rw [run_bind_of hl]
  simp only
  have hb := hM.lastBlock 8
  have hll := length_lastBlock 8 M
  rw [← hll, run_bind_of (run_LOADBYTES h hb rfl (by omega)), run_bind_of (h.pad _ (by omega) mem),
    Ref.xorIn_pad8 _ _ (by omega)]
  generalize absorb 12 s (fullBlocks 8 M) = t
  simp only [run_pure', encS, h.xor]

theorem run_squeeze (h : B.Ok e enc) {mem : Mem} {s : State} {p n : Nat} (hw : mem.Writable p n) :
    run (ascon_squeeze B e (encS enc s) p n) mem = some ((), mem.writes p (squeeze 8 (perm 12 s) n)) := by
  unfold ascon_squeeze
  rw [run_bind_of (h.p12 s mem)]
  refine run_squeezeLoop (encS enc) (fun _ _ _ => rfl) ?_ _ _ ?_ (n + 1) (perm 12 s) mem p n hw (by omega)
  · intro mem s p n hw
    unfold hashSqueezeStep
    simp only
    have h1 : run (STORE B e p (encS enc s).x0 8) mem = some ((), mem.writes p (bytes64 s.x0)) := run_STORE h hw
    rw [run_bind_of h1, rate_8, run_bind_of (h.p12 s _)]
    simp only [run_pure']
  · intro mem s p n hw h8
    simp only
    have h1 : run (STOREBYTES B e p (encS enc s).x0 n) mem = some ((), mem.writes p ((bytes64 s.x0).take n)) :=
      run_STOREBYTES h hw h8
    rw [h1, rate_le8 n s h8]

theorem absorb_pad8 (s : State) (M : List Byte) :
    absorb 12 s (fullBlocks 8 (pad 8 M)) = perm 12 (xorIn (absorb 12 s (fullBlocks 8 M)) (pad 8 (lastBlock 8 M))) := by
  rw [fullBlocks_pad 8 M (by omega)]
  simp only [absorb, List.foldl_append, List.foldl_cons, List.foldl_nil]

theorem xof_with_correct (h : B.Ok e enc) (ivs : State) (iv : Word) (hiv : ivs = encS enc (spongeInit iv)) :
    XofCorrectAt e (fun m n => squeeze 8 (absorb 12 (spongeInit iv) (fullBlocks 8 (pad 8 m))) n)
      (ascon_xof B ivs) := by
  intro mem sp out n inp M hM _ _ hw _
  unfold ascon_xof
  rw [hiv]
  simp only
  rw [run_bind_of (run_absorb h hM), run_bind_of (run_squeeze h hw), absorb_pad8]
  rfl

theorem xof_hash256_correct (h : B.Ok e enc) :
    XofCorrectAt e (fun m n => squeeze 8 (absorb 12 (spongeInit ivHash) (fullBlocks 8 (pad 8 m))) n)
      (ascon_xof_hash256 B) := xof_with_correct h _ _ h.hash

theorem xof_xof128_correct (h : B.Ok e enc) : XofCorrectAt e xof128 (ascon_xof_xof128 B) :=
  xof_with_correct h _ _ h.xof

theorem hash256_correct (h : B.Ok e enc) : HashCorrectAt e hash256 32 (crypto_hash_hash256 B) :=
  fun mem sp out inp M hM hMl hw hs =>
    xof_hash256_correct h mem sp out 32 inp M hM hMl (by omega) hw hs

theorem xof128_correct (h : B.Ok e enc) : HashCorrectAt e (fun m => xof128 m 64) 64 (crypto_hash_xof128 B) :=
  fun mem sp out inp M hM hMl hw hs =>
    xof_xof128_correct h mem sp out 64 inp M hM hMl (by omega) hw hs

/-! ### PRF -/

theorem xorAt_encS (h : B.Ok e enc) (s : State) (i : Nat) (w : Word) :
    xorAt (encS enc s) i (enc w) = encS enc (xorAt s i w) := by
  match i with
  | 0 | 1 | 2 | 3 | _ + 4 => simp only [xorAt, encS, h.xor]

theorem wordAt_encS (s : State) (i : Nat) : wordAt (encS enc s) i = enc (wordAt s i) := by
  match i with
  | 0 | 1 | 2 | 3 | _ + 4 => simp only [wordAt, encS]

theorem run_prfAbsorb (h : B.Ok e enc) {mem : Mem} {s : State} {p : Nat} {M : List Byte}
    (hM : mem.Holds p M) :
    run (prfAbsorb B e (encS enc s) p M.length) mem = some
      (encS enc ((fun t : State => { t with x4 := t.x4 ^^^ 0x8000000000000000 })
        (xorIn (absorb 12 s (fullBlocks 32 M)) (pad 32 (lastBlock 32 M)))), mem) := by
  unfold prfAbsorb
  refine run_prfAbsorbLoop (encS enc) (cond := fun (_, _, _, inlen) => decide (inlen ≥ 8))
    (step := prfAbsorbStep B e) (fun _ _ _ _ => rfl) ?_ _
    (fun t : State => encS enc { t with x4 := t.x4 ^^^ 0x8000000000000000 }) ?_ (M.length + 1) s p M hM (by omega)
  · intro s i p n M hi hM h8
    unfold prfAbsorbStep
    simp only
    rw [run_bind_of (run_LOAD h hM h8), run_bind_of (Ref.run_xorX (by omega)), xorAt_encS h, run_bind, run_ifc]
    by_cases h3 : i = 3
    · subst h3; simp [h.p12, run_bind, run_ifc]
    · have h4 : ¬ i + 1 = 4 := by omega
      simp [h3, run_bind, run_ifc]
  · intro s i p M hi hM h8
    simp only
    have hx : run (ifc (decide (M.length ≠ 0))
        (do
          let w ← LOADBYTES B e p M.length
          xorX (encS enc s) i w)
        (pure (encS enc s))) mem = some (encS enc (xorAt s i (le64 M)), mem) := by
      rw [run_ifc]
      by_cases h0 : M.length = 0
      · have : M = [] := by simpa using h0
        subst this
        rw [if_neg (by simp), le64_nil, ← xorAt_encS h, h.enc0]
        simp only [run_pure']
        match i with
        | 0 | 1 | 2 | 3 | _ + 4 => simp [xorAt]
      · rw [if_pos (decide_eq_true h0), run_bind_of (run_LOADBYTES h hM rfl (by omega)),
          Ref.run_xorX (by omega), xorAt_encS h]
    rw [run_bind_of hx, run_bind_of (h.pad _ h8 mem), run_bind_of (Ref.run_xorX (by omega)), xorAt_encS h,
      Ref.xorAt_xorAt, h.dsep]
    simp only [run_pure', encS, h.xor]

theorem run_prfSqueeze (h : B.Ok e enc) {mem : Mem} {s : State} {p n : Nat} (hw : mem.Writable p n) :
    run (prfSqueeze B e (encS enc s) p n) mem = some ((), mem.writes p (squeeze 16 (perm 12 s) n)) := by
  unfold prfSqueeze
  rw [run_bind_of (h.p12 s mem)]
  refine run_prfSqueezeLoop (encS enc) (fun _ _ _ _ => rfl) ?_ _ _ ?_ (n + 1) (perm 12 s) mem p n hw (by omega)
  · intro mem s i p n hi hw
    unfold prfSqueezeStep
    simp only
    rw [run_bind_of (Ref.run_getX (by omega)), wordAt_encS, run_bind_of (run_STORE h hw), run_bind, run_ifc]
    by_cases h3 : i = 1
    · subst h3; simp [h.p12, run_bind, run_ifc]
    · have h4 : ¬ i + 1 = 2 := by omega
      simp [h3, run_bind, run_ifc]
  · intro mem s i p n hi hw h8
    simp only
    rw [run_bind_of (Ref.run_getX (by omega)), wordAt_encS, run_STOREBYTES h hw h8]

theorem prf_with_correct (h : B.Ok e enc) (iv' iv : Word) (hiv : iv' = enc iv) (n : Nat) (hn : 0 < n) :
    PrfCorrectAt e (prfWith iv) (fun _ outlen => outlen ≤ n) (crypto_prf_with B iv' n) := by
  constructor
  · intro mem sp out l inp k K M hk hK hM _ hw hok
    unfold crypto_prf_with
    rw [run_ifc, if_neg (by simp; omega)]
    have e1 : (K.drop 8).take 8 = K.drop 8 := List.take_of_length_le (by simp; omega)
    rw [run_bind_of (run_LOAD h hk (by omega)), run_bind_of (run_LOAD' h hk (by omega)), e1, hiv]
    have h1 := h.p12 ⟨iv, le64 (K.take 8), le64 (K.drop 8), 0, 0⟩ mem
    rw [encS, h.enc0] at h1
    rw [run_bind_of h1, run_bind_of (run_prfAbsorb h hM), run_bind_of (run_prfSqueeze h hw)]
    rfl
  · intro mem sp out l inp inlen k hok
    have hd : decide (n ≠ 0 ∧ l > n) = true := by simp; omega
    unfold crypto_prf_with
    rw [hd]
    exact ⟨rfl, rfl⟩

theorem mac_prf_correct (h : B.Ok e enc) :
    PrfCorrectAt e (prfWith ivMac) (fun _ outlen => outlen ≤ 16) (mac_crypto_prf B) :=
  prf_with_correct h _ _ h.mac 16 (by omega)

theorem prf_prf_correct (h : B.Ok e enc) :
    PrfCorrectAt e prf (fun _ outlen => outlen ≤ 64) (prf_crypto_prf B) :=
  prf_with_correct h _ _ h.prf 64 (by omega)

theorem mac_auth_correct (h : B.Ok e enc) : AuthCorrectAt e mac 16 (fun _ => True) (mac_crypto_auth B) :=
  fun mem sp out inp k K M hk hK hM hMl hw _ =>
    (mac_prf_correct h).1 mem sp out 16 inp k K M hk hK hM hMl hw (by simp)

theorem prf_auth_correct (h : B.Ok e enc) :
    AuthCorrectAt e (fun K M => prf K M 64) 64 (fun _ => True) (prf_crypto_auth B) :=
  fun mem sp out inp k K M hk hK hM hMl hw _ =>
    (prf_prf_correct h).1 mem sp out 64 inp k K M hk hK hM hMl hw (by simp)

theorem mac_verify_correct (h : B.Ok e enc) :
    VerifyCorrectAt e mac 16 (fun _ => True) (mac_crypto_auth_verify B) :=
  fun _ sp _ _ _ _ _ _ hk hK hM hMl hT hTl _ hs =>
    Ref.run_verify (mac_prf_correct h) (by omega) (fun K M => Ref.length_prfWith _ K M 16) (sp + 16)
      hk hK hM hMl hT hTl (by simp) hs

theorem prf_verify_correct (h : B.Ok e enc) :
    VerifyCorrectAt e (fun K M => prf K M 64) 64 (fun _ => True) (prf_crypto_auth_verify B) :=
  fun _ sp _ _ _ _ _ _ hk hK hM hMl hT hTl _ hs =>
    Ref.run_verify (prf_prf_correct h) (by omega) (fun K M => Ref.length_prfWith _ K M 64) (sp + 64)
      hk hK hM hMl hT hTl (by simp) hs

/-! ### Short-input PRF -/

theorem prfs_correct (h : B.Ok e enc) :
    PrfCorrectAt e prfShort (fun inlen outlen => inlen ≤ 16 ∧ outlen ≤ 16) (prfs_crypto_prf B) := by
  constructor
  · intro mem sp out n inp k K M hk hK hM _ hw ⟨hi, ho⟩
    unfold prfs_crypto_prf
    rw [run_ifc, if_neg (by simp; omega)]
    have e1 : (K.drop 8).take 8 = K.drop 8 := List.take_of_length_le (by simp; omega)
    rw [run_bind_of (run_LOAD h hk (by omega)), run_bind_of (run_LOAD' h hk (by omega)), e1]
    simp only [h.mlen M.length hi]
    have habs : run (ifc (decide (M.length > 8))
        (do
          let w ← LOAD B e inp 8
          let s : State := { x0 := enc (ivPrfs M.length), x1 := enc (le64 (K.take 8)), x2 := enc (le64 (K.drop 8)), x3 := w, x4 := 0 }
          let w ← LOADBYTES B e (inp + 8) (M.length - 8)
          let s := { s with x4 := w }
          pure s)
        (ifc (decide (M.length ≠ 0))
          (do
            let w ← LOADBYTES B e inp M.length
            let s : State := { x0 := enc (ivPrfs M.length), x1 := enc (le64 (K.take 8)), x2 := enc (le64 (K.drop 8)), x3 := w, x4 := 0 }
            pure s)
          (pure { x0 := enc (ivPrfs M.length), x1 := enc (le64 (K.take 8)), x2 := enc (le64 (K.drop 8)), x3 := 0, x4 := 0 }))) mem =
        some (encS enc ⟨ivPrfs M.length, le64 (K.take 8), le64 (K.drop 8), le64 (M.take 8), le64 (M.drop 8)⟩, mem) := by
      rw [run_ifc]
      by_cases h8 : M.length > 8
      · rw [if_pos (by simpa using h8), run_bind_of (run_LOAD h hM (by omega)),
          run_bind_of (run_LOADBYTES h (hM.drop 8 (by omega)) (by simp) (by omega))]
        rfl
      · rw [if_neg (by simpa using h8), run_ifc, List.take_of_length_le (l := M) (by omega),
          List.drop_of_length_le (l := M) (by omega)]
        by_cases h0 : M.length = 0
        · have : M = [] := by simpa using h0
          subst this
          rw [if_neg (by simp), encS, le64_nil, h.enc0]; rfl
        · rw [if_pos (decide_eq_true h0), run_bind_of (run_LOADBYTES h hM rfl (by omega)), encS, le64_nil, h.enc0]
          rfl
    rw [run_bind_of habs, run_bind_of (h.p12 _ mem)]
    have hp := Ref.prfShort_eq K M n _ rfl
    rw [hp]
    generalize perm 12 _ = t
    have e3 : (encS enc t).x3 ^^^ enc (le64 (K.take 8)) = enc (addKeyLast K t).x3 := by
      simp only [encS, addKeyLast, h.xor]
    have e4 : (encS enc t).x4 ^^^ enc (le64 (K.drop 8)) = enc (addKeyLast K t).x4 := by
      simp only [encS, addKeyLast, h.xor]
    simp only [e3, e4]
    generalize addKeyLast K t = u
    rw [run_bind, run_ifc]
    by_cases h8 : n > 8
    · rw [if_pos (by simpa using h8), run_bind_of (run_STORE h (hw.mono (by omega) (by omega))),
        run_STOREBYTES h (hw.writes.mono (by omega) (by omega)) (by omega), Ref.take_two_words _ _ _ h8,
        writes_append, length_bytes64]
      simp only [Option.bind_some, run_pure']
    · rw [if_neg (by simpa using h8), run_ifc, List.take_append_of_le_length (by simp [length_bytes64]; omega)]
      by_cases h0 : n = 0
      · subst h0
        simp [writes_nil]
      · rw [if_pos (by simpa using h0), run_STOREBYTES h hw (by omega)]
        simp only [Option.bind_some, run_pure']
  · intro mem sp out l inp inlen k hok
    have hd : decide (inlen > 16 ∨ l > 16 ∨ l > 16) = true := by simp; omega
    unfold prfs_crypto_prf
    rw [hd]
    exact ⟨rfl, rfl⟩

theorem prfs_auth_correct (h : B.Ok e enc) :
    AuthCorrectAt e (fun K M => prfShort K M 16) 16 (fun l => l ≤ 16) (prfs_crypto_auth B) :=
  fun mem sp out inp k K M hk hK hM hMl hw hok =>
    (prfs_correct h).1 mem sp out 16 inp k K M hk hK hM hMl hw ⟨hok, by omega⟩

theorem prfs_verify_correct (h : B.Ok e enc) :
    VerifyCorrectAt e (fun K M => prfShort K M 16) 16 (fun l => l ≤ 16) (prfs_crypto_auth_verify B) := by
  intro mem sp h' inp k K M T hk hK hM hMl hT hTl hok hs
  unfold prfs_crypto_auth_verify
  rw [run_ifc, if_neg (by simpa using hok)]
  exact Ref.run_verify (prfs_correct h) (by omega) (fun K M => Ref.length_prfShort K M 16 (by omega)) (sp + 16)
    hk hK hM hMl hT hTl ⟨hok, by omega⟩ hs

theorem prfs_verify_reject (B : Backend) (e : Endian) (mem : Mem) (sp h inp len k : Nat) (hl : 16 < len) :
    run (prfs_crypto_auth_verify B e sp h inp len k) mem = some (-1, mem) := by
  unfold prfs_crypto_auth_verify
  rw [run_ifc, if_pos (by simpa using hl)]
  simp only [run_pure']

end Ascon.Gen
