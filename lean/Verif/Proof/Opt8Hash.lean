import Verif.Proof.Opt8Aead
import Verif.Proof.GenHash
/-!
# src/opt8/hash.c, prf.c and prfs.c meet their contracts on little-endian machines
-/

namespace Ascon.Opt8

open Ascon.C Ascon.Spec
open Ascon.C.Prog (require ifc loop forUp loadB storeB loadN storeN store64 load64)
open Ascon.Ref (tagDiff)

attribute [local irreducible] perm

variable {V : Perms}

/-! ### Hash -/

theorem run_hashAbsorbStep (h : V.Ok) {mem : Mem} (s : State) (p n : Nat) (M : List Byte)
    (hM : mem.Holds p M) (h8 : 8 ≤ M.length) :
    run (hashAbsorbStep V .little (s, p, n)) mem =
      some ((perm 12 (xorIn s (M.take 8)), p + 8, n - 8), mem) := by
  unfold hashAbsorbStep
  simp only
  rw [run_bind_of (run_ABSORB8 0 (by omega) hM h8), xorIn_of_le8 _ _ (by simp; omega), run_bind_of (h.p12 _ mem)]
  rfl

/-- For any position of the padding bit. -/
theorem run_absorb_at (h : V.Ok) (padAt : Nat → Nat) (hpad : ∀ n < 8, padAt n < 8) {mem : Mem} {s : State} {p : Nat}
    {M : List Byte} (hM : mem.Holds p M) :
    run (ascon_absorb V padAt .little s p M.length) mem =
      some (xorAt (xorAt (absorb 12 s (fullBlocks 8 M)) 0 (le64 (lastBlock 8 M))) 0
        ((1 : Word) <<< (8 * padAt (M.length % 8))), mem) := by
  unfold ascon_absorb
  have hl := run_absorbLoop id 8 12 (by omega)
    (cond := fun (_, _, len) => decide (len ≥ 8)) (step := hashAbsorbStep V .little) (fun _ _ _ => rfl) (mem := mem)
    (fun s p n M hM h8 => run_hashAbsorbStep h s p n M hM h8)
    (M.length + 1) s p M hM (by omega)
  simp only [id] at hl
  rw [run_bind_of hl]
  simp only
  have hb := hM.lastBlock 8
  have hll := length_lastBlock 8 M
  rw [← hll]
  generalize absorb 12 s (fullBlocks 8 M) = t
  have h1 := run_ABSORB (s := t) (i := 0) (by omega) hb (by omega)
  have h2 := run_pad (s := xorAt t 0 (le64 (lastBlock 8 M))) (i := 0) (j := padAt (lastBlock 8 M).length) (by omega)
    (hpad _ (by omega)) mem
  rw [Nat.mul_zero, Nat.zero_add] at h2
  rw [Nat.mul_zero] at h1
  rw [run_bind_of h1, h2]

theorem run_absorb (h : V.Ok) {mem : Mem} {s : State} {p : Nat} {M : List Byte} (hM : mem.Holds p M) :
    run (ascon_absorb V opt8PadAt .little s p M.length) mem =
      some (xorIn (absorb 12 s (fullBlocks 8 M)) (pad 8 (lastBlock 8 M)), mem) := by
  rw [run_absorb_at h opt8PadAt (fun _ h => h) hM]
  have hll := length_lastBlock 8 M
  rw [Ref.xorIn_pad8 _ _ (by omega), opt8PadAt, ← hll]
  generalize absorb 12 s (fullBlocks 8 M) = t
  simp only [xorAt]

theorem run_squeeze (h : V.Ok) {mem : Mem} {s : State} {p n : Nat} (hw : mem.Writable p n) :
    run (ascon_squeeze V .little s p n) mem = some ((), mem.writes p (squeeze 8 (perm 12 s) n)) := by
  unfold ascon_squeeze
  rw [run_bind_of (h.p12 s mem)]
  refine run_squeezeLoop id (fun _ _ _ => rfl) ?_ _ _ ?_ (n + 1) (perm 12 s) mem p n hw (by omega)
  · intro mem s p n hw
    unfold hashSqueezeStep
    simp only [id]
    have h1 := run_SQUEEZE (s := s) (i := 0) (by omega) hw (by omega)
    rw [List.take_of_length_le (i := 8) (by simp [length_bytes64]), Nat.mul_zero] at h1
    rw [run_bind_of h1, rate_8, run_bind_of (h.p12 s _)]
    rfl
  · intro mem s p n hw h8
    simp only [id]
    have h1 := run_SQUEEZE (s := s) (i := 0) (by omega) hw h8
    rw [Nat.mul_zero] at h1
    rw [h1, rate_le8 n s h8]
    rfl

theorem xof_with_correct (h : V.Ok) (ivs : State) (iv : Word) (hiv : ivs = spongeInit iv) :
    XofCorrectAt .little (fun m n => squeeze 8 (absorb 12 (spongeInit iv) (fullBlocks 8 (pad 8 m))) n)
      (ascon_xof V opt8PadAt ivs) := by
  intro mem sp out n inp M hM _ _ hw _
  unfold ascon_xof
  rw [hiv]
  simp only
  rw [run_bind_of (run_absorb h hM), run_bind_of (run_squeeze h hw), Gen.absorb_pad8]
  rfl

theorem hash_ivs : ASCON_HASH_IVS = spongeInit ivHash := by decide +kernel
theorem xof_ivs : ASCON_XOF_IVS = spongeInit ivXof := by decide +kernel

theorem xof_xof128_correct (h : V.Ok) : XofCorrectAt .little xof128 (ascon_xof_xof128 V opt8PadAt) :=
  xof_with_correct h _ _ xof_ivs

theorem hash256_correct (h : V.Ok) : HashCorrectAt .little hash256 32 (crypto_hash_hash256 V opt8PadAt) :=
  fun mem sp out inp M hM hMl hw hs =>
    xof_with_correct h _ _ hash_ivs mem sp out 32 inp M hM hMl (by omega) hw hs

theorem xof128_correct (h : V.Ok) :
    HashCorrectAt .little (fun m => xof128 m 64) 64 (crypto_hash_xof128 V opt8PadAt) :=
  fun mem sp out inp M hM hMl hw hs =>
    xof_xof128_correct h mem sp out 64 inp M hM hMl (by omega) hw hs

/-! ### PRF -/

theorem run_prfAbsorbStep (h : V.Ok) {mem : Mem} (s : State) (i p n : Nat) (M : List Byte) (hi : i < 4)
    (hM : mem.Holds p M) (h8 : 8 ≤ M.length) :
    run (prfAbsorbStep V .little (s, i, p, n)) mem =
      some (((if i = 3 then perm 12 (xorAt s i (le64 (M.take 8))) else xorAt s i (le64 (M.take 8))),
        if i = 3 then 0 else i + 1, p + 8, n - 8), mem) := by
  unfold prfAbsorbStep
  simp only
  rw [run_bind_of (run_ABSORB8 i (by omega) hM h8), run_bind, run_ifc]
  by_cases h3 : i = 3
  · subst h3
    simp [h.p12, run_bind, run_ifc]
  · have h4 : ¬ i + 1 = 4 := by omega
    simp [h3, run_bind, run_ifc]

theorem run_prfAbsorb (h : V.Ok) {mem : Mem} {s : State} {p : Nat} {M : List Byte}
    (hM : mem.Holds p M) :
    run (prfAbsorb V opt8PadAt 7 .little s p M.length) mem = some
      ((fun t : State => { t with x4 := t.x4 ^^^ 0x8000000000000000 })
        (xorIn (absorb 12 s (fullBlocks 32 M)) (pad 32 (lastBlock 32 M))), mem) := by
  unfold prfAbsorb
  refine run_prfAbsorbLoop id (cond := fun (_, _, _, inlen) => decide (inlen ≥ 8))
    (step := prfAbsorbStep V .little) (fun _ _ _ _ => rfl) ?_ _
    (fun t : State => { t with x4 := t.x4 ^^^ 0x8000000000000000 }) ?_ (M.length + 1) s p M hM (by omega)
  · intro s i p n M hi hM h8
    exact run_prfAbsorbStep h s i p n M hi hM h8
  · intro s i p M hi hM h8
    simp only [id]
    rw [run_bind_of (run_ABSORB (by omega) hM (by omega))]
    have h2 := run_pad (s := xorAt s i (le64 M)) (i := i) (j := M.length) (by omega) h8 mem
    rw [opt8PadAt, run_bind_of h2, run_dsep, Ref.xorAt_xorAt]

theorem run_prfSqueeze (h : V.Ok) {mem : Mem} {s : State} {p n : Nat} (hw : mem.Writable p n) :
    run (prfSqueeze V .little s p n) mem = some ((), mem.writes p (squeeze 16 (perm 12 s) n)) := by
  unfold prfSqueeze
  rw [run_bind_of (h.p12 s mem)]
  refine run_prfSqueezeLoop id (fun _ _ _ _ => rfl) ?_ _ _ ?_ (n + 1) (perm 12 s) mem p n hw (by omega)
  · intro mem s i p n hi hw
    unfold prfSqueezeStep
    simp only [id]
    have h1 := run_SQUEEZE (s := s) (i := i) (by omega) hw (by omega)
    rw [List.take_of_length_le (i := 8) (by simp [length_bytes64])] at h1
    rw [run_bind_of h1, run_bind, run_ifc]
    by_cases h3 : i = 1
    · subst h3; simp [h.p12, run_bind, run_ifc]
    · have h4 : ¬ i + 1 = 2 := by omega
      simp [h3, run_bind, run_ifc]
  · intro mem s i p n hi hw h8
    simp only [id]
    rw [run_SQUEEZE (by omega) hw h8]

theorem prf_with_correct (h : V.Ok) (iv : Word) (n : Nat) (hn : 0 < n) :
    PrfCorrectAt .little (prfWith iv) (fun _ outlen => outlen ≤ n) (crypto_prf_with V opt8PadAt 7 iv n) := by
  constructor
  · intro mem sp out l inp k K M hk hK hM _ hw hok
    unfold crypto_prf_with
    rw [run_ifc, if_neg (by simp; omega)]
    simp only
    rw [run_bind_of (run_INSERT8 1 (by omega) hk (by omega)), run_bind_of (run_INSERT16 2 (by omega) hk hK)]
    simp only [putWord]
    rw [run_bind_of (h.p12 _ mem), run_bind_of (run_prfAbsorb h hM), run_bind_of (run_prfSqueeze h hw)]
    rfl
  · intro mem sp out l inp inlen k hok
    have hd : decide (n ≠ 0 ∧ l > n) = true := by simp; omega
    unfold crypto_prf_with
    rw [hd]
    exact ⟨rfl, rfl⟩

theorem mac_prf_correct (h : V.Ok) :
    PrfCorrectAt .little (prfWith ivMac) (fun _ outlen => outlen ≤ 16) (mac_crypto_prf V opt8PadAt 7) :=
  prf_with_correct h _ 16 (by omega)

theorem prf_prf_correct (h : V.Ok) :
    PrfCorrectAt .little prf (fun _ outlen => outlen ≤ 64) (prf_crypto_prf V opt8PadAt 7) :=
  prf_with_correct h _ 64 (by omega)

theorem mac_auth_correct (h : V.Ok) : AuthCorrectAt .little mac 16 (fun _ => True) (mac_crypto_auth V opt8PadAt 7) :=
  fun mem sp out inp k K M hk hK hM hMl hw _ =>
    (mac_prf_correct h).1 mem sp out 16 inp k K M hk hK hM hMl hw (by simp)

theorem prf_auth_correct (h : V.Ok) :
    AuthCorrectAt .little (fun K M => prf K M 64) 64 (fun _ => True) (prf_crypto_auth V opt8PadAt 7) :=
  fun mem sp out inp k K M hk hK hM hMl hw _ =>
    (prf_prf_correct h).1 mem sp out 64 inp k K M hk hK hM hMl hw (by simp)

theorem mac_verify_correct (h : V.Ok) :
    VerifyCorrectAt .little mac 16 (fun _ => True) (mac_crypto_auth_verify V opt8PadAt 7) :=
  fun _ sp _ _ _ _ _ _ hk hK hM hMl hT hTl _ hs =>
    Ref.run_verify (mac_prf_correct h) (by omega) (fun K M => Ref.length_prfWith _ K M 16) (sp + 16)
      hk hK hM hMl hT hTl (by simp) hs

theorem prf_verify_correct (h : V.Ok) :
    VerifyCorrectAt .little (fun K M => prf K M 64) 64 (fun _ => True) (prf_crypto_auth_verify V opt8PadAt 7) :=
  fun _ sp _ _ _ _ _ _ hk hK hM hMl hT hTl _ hs =>
    Ref.run_verify (prf_prf_correct h) (by omega) (fun K M => Ref.length_prfWith _ K M 64) (sp + 64)
      hk hK hM hMl hT hTl (by simp) hs

/-! ### Short-input PRF -/

theorem prfs_iv (n : Nat) (hn : n ≤ 16) : ASCON_PRFS_IV ^^^ PRFS_MLEN (BitVec.ofNat 64 n) = ivPrfs n := by
  have : ∀ n : Fin 17, ASCON_PRFS_IV ^^^ PRFS_MLEN (BitVec.ofNat 64 n.val) = ivPrfs n.val := by decide +kernel
  exact this ⟨n, by omega⟩

theorem prfs_correct (h : V.Ok) :
    PrfCorrectAt .little prfShort (fun inlen outlen => inlen ≤ 16 ∧ outlen ≤ 16) (prfs_crypto_prf V) := by
  constructor
  · intro mem sp out n inp k K M hk hK hM _ hw ⟨hi, ho⟩
    unfold prfs_crypto_prf
    rw [run_ifc, if_neg (by simp; omega)]
    simp only
    rw [run_bind_of (run_INSERT8 1 (by omega) hk (by omega)), run_bind_of (run_INSERT16 2 (by omega) hk hK)]
    simp only [putWord]
    rw [prfs_iv _ hi]
    have habs : run (ifc (decide (M.length > 8))
        (do
          let s ← ABSORB .little ⟨ivPrfs M.length, le64 (K.take 8), le64 (K.drop 8), 0, 0⟩ 24 inp 8
          ABSORB .little s 32 (inp + 8) (M.length - 8))
        (ifc (decide (M.length ≠ 0))
          (ABSORB .little ⟨ivPrfs M.length, le64 (K.take 8), le64 (K.drop 8), 0, 0⟩ 24 inp M.length)
          (pure ⟨ivPrfs M.length, le64 (K.take 8), le64 (K.drop 8), 0, 0⟩))) mem =
        some (⟨ivPrfs M.length, le64 (K.take 8), le64 (K.drop 8), le64 (M.take 8), le64 (M.drop 8)⟩, mem) := by
      generalize ivPrfs M.length = iv
      have hz : ∀ w : Word, (0 : Word) ^^^ w = w := fun w => BitVec.zero_xor
      rw [run_ifc]
      by_cases h8 : M.length > 8
      · have h2 := run_ABSORB (s := xorAt ⟨iv, le64 (K.take 8), le64 (K.drop 8), 0, 0⟩ 3 (le64 (M.take 8)))
          (i := 4) (by omega) (hM.drop 8 (by omega)) (by simp; omega)
        rw [List.length_drop] at h2
        rw [if_pos (by simpa using h8), run_bind_of (run_ABSORB8 3 (by omega) hM (by omega)), h2]
        simp only [xorAt, hz]
      · rw [if_neg (by simpa using h8), run_ifc, List.take_of_length_le (l := M) (by omega),
          List.drop_of_length_le (l := M) (by omega)]
        by_cases h0 : M.length = 0
        · have : M = [] := by simpa using h0
          subst this
          rw [if_neg (by simp), le64_nil]
          simp only [run_pure']
        · rw [if_pos (decide_eq_true h0), run_ABSORB (i := 3) (by omega) hM (by omega), le64_nil]
          simp only [xorAt, hz]
    rw [run_bind_of habs, run_bind_of (h.p12 _ mem)]
    have hp := Ref.prfShort_eq K M n _ rfl
    rw [hp]
    generalize perm 12 _ = t
    have hk4 := run_ABSORB8 (s := xorAt t 3 (le64 (K.take 8))) 4 (by omega) (hk.drop 8 (by omega)) (by simp; omega)
    rw [List.take_of_length_le (l := K.drop 8) (by simp; omega)] at hk4
    rw [run_bind_of (run_ABSORB8 3 (by omega) hk (by omega)), run_bind_of hk4]
    have e3 : xorAt (xorAt t 3 (le64 (K.take 8))) 4 (le64 (K.drop 8)) = addKeyLast K t := xorAt_keyLast t K
    rw [e3]
    generalize addKeyLast K t = u
    rw [run_bind, run_ifc]
    by_cases h8 : n > 8
    · rw [if_pos (by simpa using h8),
        run_bind_of (run_SQUEEZE (i := 3) (by omega) (hw.mono (by omega) (by omega)) (by omega)),
        run_SQUEEZE (i := 4) (by omega) (hw.writes.mono (by omega) (by omega)) (by omega),
        List.take_of_length_le (l := bytes64 (wordAt u 3)) (by simp [length_bytes64]), Ref.take_two_words _ _ _ h8,
        writes_append, length_bytes64]
      simp only [Option.bind_some, run_pure', wordAt]
    · rw [if_neg (by simpa using h8), run_ifc, List.take_append_of_le_length (by simp [length_bytes64]; omega)]
      by_cases h0 : n = 0
      · subst h0
        simp [writes_nil]
      · rw [if_pos (by simpa using h0), run_SQUEEZE (i := 3) (by omega) hw (by omega)]
        simp only [Option.bind_some, run_pure', wordAt]
  · intro mem sp out l inp inlen k hok
    have hd : decide (inlen > 16 ∨ l > 16 ∨ l > 16) = true := by simp; omega
    unfold prfs_crypto_prf
    rw [hd]
    exact ⟨rfl, rfl⟩

theorem prfs_auth_correct (h : V.Ok) :
    AuthCorrectAt .little (fun K M => prfShort K M 16) 16 (fun l => l ≤ 16) (prfs_crypto_auth V) :=
  fun mem sp out inp k K M hk hK hM hMl hw hok =>
    (prfs_correct h).1 mem sp out 16 inp k K M hk hK hM hMl hw ⟨hok, by omega⟩

theorem prfs_verify_correct (h : V.Ok) :
    VerifyCorrectAt .little (fun K M => prfShort K M 16) 16 (fun l => l ≤ 16) (prfs_crypto_auth_verify V) := by
  intro mem sp h' inp k K M T hk hK hM hMl hT hTl hok hs
  unfold prfs_crypto_auth_verify
  rw [run_ifc, if_neg (by simpa using hok)]
  exact Ref.run_verify (prfs_correct h) (by omega) (fun K M => Ref.length_prfShort K M 16 (by omega)) (sp + 16)
    hk hK hM hMl hT hTl ⟨hok, by omega⟩ hs

theorem prfs_verify_reject (V : Perms) (e : Endian) (mem : Mem) (sp h inp len k : Nat) (hl : 16 < len) :
    run (prfs_crypto_auth_verify V e sp h inp len k) mem = some (-1, mem) := by
  unfold prfs_crypto_auth_verify
  rw [run_ifc, if_pos (by simpa using hl)]
  rfl

end Ascon.Opt8
