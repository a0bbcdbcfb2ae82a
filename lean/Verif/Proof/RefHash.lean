import Verif.C.Contracts
import Verif.Model.RefHash
import Verif.Model.RefPrf
import Verif.Proof.Loops
import Verif.Proof.RefAead
import Verif.Proof.RefAeadCT
/-!
# The reference hash, XOF, CXOF, MAC, PRF and short-input PRF meet their contracts
-/

namespace Ascon.Ref

open Ascon.C Ascon.Spec
open Ascon.C.Prog (require ifc loop forUp loadB storeB loadN storeN store64 load64)

attribute [local irreducible] perm

/-! ### Hash -/

theorem le64_pad8 (l : List Byte) (h : l.length < 8) :
    le64 (pad 8 l) = le64 l ^^^ ((1 : Word) <<< (8 * l.length)) := by
  unfold pad; rw [le64_pad_short l _ h]

theorem length_pad8 (l : List Byte) (h : l.length < 8) : (pad 8 l).length = 8 := by
  rw [pad_length 8 l (by omega), Nat.div_eq_of_lt h]

theorem xorIn_pad8 (s : State) (l : List Byte) (h : l.length < 8) :
    xorIn s (pad 8 l) = { s with x0 := s.x0 ^^^ le64 l ^^^ ((1 : Word) <<< (8 * l.length)) } := by
  rw [xorIn_of_le8 s _ (by rw [length_pad8 l h]; omega), le64_pad8 l h, BitVec.xor_assoc]

theorem run_hashAbsorb {mem : Mem} {s : State} {p n : Nat} {M : List Byte} (h : mem.Holds p M)
    (hn : n = M.length) :
    run (hashAbsorb s p n) mem = some (absorb 12 s (fullBlocks 8 (pad 8 M)), mem) := by
  subst hn
  unfold hashAbsorb
  have hl := run_absorbLoop (fun s => s) 8 12 (by omega)
    (cond := fun (_, _, len) => decide (len ≥ 8)) (step := hashAbsorbStep) (fun _ _ _ => rfl) (mem := mem)
    (fun s p n M h h8 => by
      unfold hashAbsorbStep
      simp only
      rw [run_bind_of (run_load8 h h8)]
      simp only [P12_eq, run_pure']
      rw [xorIn_of_le8 _ _ (by simp; omega)])
    (M.length + 1) s p M h (by omega)
  rw [run_bind_of hl]
  simp only
  have hb := h.lastBlock 8
  have hll := length_lastBlock 8 M
  rw [fullBlocks_pad 8 M (by omega), ← hll]
  simp only [absorb, List.foldl_append, List.foldl_cons, List.foldl_nil]
  rw [run_bind_of (run_LOADBYTES hb rfl (by omega)), run_bind_of (run_PAD (by omega)),
    xorIn_pad8 _ _ (by omega)]
  simp only [P12_eq, run_pure']

theorem run_hashSqueeze {mem : Mem} {s : State} {p n : Nat} (h : mem.Writable p n) :
    run (hashSqueeze s p n) mem = some ((), mem.writes p (squeeze 8 s n)) := by
  unfold hashSqueeze
  refine run_squeezeLoop (fun s => s) (fun _ _ _ => rfl) ?_ _ _ ?_ (n + 1) s mem p n h (by omega)
  · intro mem s p n h
    unfold hashSqueezeStep
    simp only
    rw [run_bind_of (run_STOREBYTES8 h), rate_8]
    simp only [P12_eq, run_pure']
  · intro mem s p n h h8
    simp only
    rw [run_STOREBYTES h h8, rate_le8 n s h8]

theorem hash_with_correct (iv : Word) (n : Nat) :
    HashCorrect (fun m => squeeze 8 (absorb 12 (spongeInit iv) (fullBlocks 8 (pad 8 m))) n) n
      (crypto_hash_with iv n) := by
  intro e mem sp out inp M hM _ hw _
  unfold crypto_hash_with
  simp only [P12_eq]
  rw [run_bind_of (run_hashAbsorb hM rfl), run_bind_of (run_hashSqueeze hw)]
  rfl

theorem hash256_correct : HashCorrect hash256 32 crypto_hash_hash256 := by
  have := hash_with_correct ASCON_HASH_IV 32
  rwa [iv_eqs.2.1] at this

theorem xof128_correct : HashCorrect (fun m => xof128 m 64) 64 crypto_hash_xof128 := by
  have := hash_with_correct ASCON_XOF_IV 64
  rwa [iv_eqs.2.2.1] at this

theorem cxof_correct : CxofCorrect cxof128 crypto_cxof := by
  intro e mem sp out n inp cs Z M hM _ hZ hZl _ hw _
  unfold crypto_cxof
  simp only [P12_eq]
  rw [run_bind_of (run_hashAbsorb hZ rfl), run_bind_of (run_hashAbsorb hM rfl),
    run_bind_of (run_hashSqueeze hw)]
  simp only [run_pure']
  congr 3
  unfold cxof128 cxofBlocks
  congr 1
  simp only [absorb, List.foldl_cons, List.foldl_append]
  rw [xorIn_of_le8 _ _ (by simp [length_bytes64]), le64_bytes64]
  have e1 : BitVec.ofNat 64 Z.length * 8 = BitVec.ofNat 64 (8 * Z.length) := by
    apply BitVec.eq_of_toNat_eq
    simp [Nat.mul_comm]
  rw [e1]
  rfl

theorem hash_cxof_correct : HashCorrect (fun m => cxof128 [] m 64) 64 crypto_hash_cxof128 := by
  intro e mem sp out inp M hM hMl hw hs
  exact cxof_correct e mem sp out 64 inp 0 [] M hM hMl (Mem.Holds.nil _ _) (by simp) (by omega) hw hs

/-! ### PRF -/

theorem run_xorX {mem : Mem} {s : State} {i : Nat} {w : Word} (h : i < 5) :
    run (xorX s i w) mem = some (xorAt s i w, mem) := by
  match i, h with
  | 0, _ | 1, _ | 2, _ | 3, _ | 4, _ => rfl

theorem run_getX {mem : Mem} {s : State} {i : Nat} (h : i < 5) :
    run (getX s i) mem = some (wordAt s i, mem) := by
  match i, h with
  | 0, _ | 1, _ | 2, _ | 3, _ | 4, _ => rfl

theorem xorAt_xorAt (s : State) (i : Nat) (v w : Word) :
    xorAt (xorAt s i v) i w = xorAt s i (v ^^^ w) := by
  match i with
  | 0 | 1 | 2 | 3 | _ + 4 => simp only [xorAt, BitVec.xor_assoc]

theorem run_prfAbsorb {mem : Mem} {s : State} {p n : Nat} {M : List Byte} (h : mem.Holds p M)
    (hn : n = M.length) :
    run (prfAbsorb s p n) mem = some
      ((fun t : State => { t with x4 := t.x4 ^^^ 0x8000000000000000 })
        (xorIn (absorb 12 s (fullBlocks 32 M)) (pad 32 (lastBlock 32 M))), mem) := by
  subst hn
  unfold prfAbsorb
  refine run_prfAbsorbLoop (fun s => s) (cond := fun (_, _, _, inlen) => decide (inlen ≥ 8))
    (step := prfAbsorbStep) (fun _ _ _ _ => rfl) ?_ _
    (fun t : State => { t with x4 := t.x4 ^^^ 0x8000000000000000 }) ?_ (M.length + 1) s p M h (by omega)
  · intro s i p n M hi h h8
    unfold prfAbsorbStep
    simp only
    rw [run_bind_of (run_load8 h h8), run_bind_of (run_xorX (by omega)), run_bind, run_ifc]
    by_cases h3 : i = 3
    · subst h3; simp [P12_eq, run_bind, run_ifc]
    · have h4 : ¬ i + 1 = 4 := by omega
      simp [h3, run_bind, run_ifc]
  · intro s i p M hi h h8
    simp only
    rw [run_bind_of (run_LOADBYTES h rfl (by omega)), run_bind_of (run_xorX (by omega)),
      run_bind_of (run_PAD h8), run_bind_of (run_xorX (by omega)), run_bind_of run_DSEP, xorAt_xorAt]
    rfl

theorem run_prfSqueeze {mem : Mem} {s : State} {p n : Nat} (h : mem.Writable p n) :
    run (prfSqueeze s p n) mem = some ((), mem.writes p (squeeze 16 (perm 12 s) n)) := by
  unfold prfSqueeze
  simp only [P12_eq]
  refine run_prfSqueezeLoop (fun s => s) (fun _ _ _ _ => rfl) ?_ _ _ ?_ (n + 1) (perm 12 s) mem p n h (by omega)
  · intro mem s i p n hi h
    unfold prfSqueezeStep
    simp only
    rw [run_bind_of (run_getX (by omega)), run_bind_of (run_STOREBYTES8 h), run_bind, run_ifc]
    by_cases h3 : i = 1
    · subst h3; simp [P12_eq, run_bind, run_ifc]
    · have h4 : ¬ i + 1 = 2 := by omega
      simp [h3, run_bind, run_ifc]
  · intro mem s i p n hi h h8
    simp only
    rw [run_bind_of (run_getX (by omega)), run_STOREBYTES h h8]

theorem prf_with_correct (iv : Word) (n : Nat) (hn : 0 < n) :
    PrfCorrect (prfWith iv) (fun _ outlen => outlen ≤ n) (crypto_prf_with iv n) := by
  intro e
  constructor
  · intro mem sp out l inp k K M hk hK hM _ hw hok
    unfold crypto_prf_with
    rw [run_ifc, if_neg (by simp; omega)]
    have e1 : (K.drop 8).take 8 = K.drop 8 := List.take_of_length_le (by simp; omega)
    rw [run_bind_of (run_load8 hk (by omega)), run_bind_of (run_load8' hk (by omega)), e1]
    simp only [P12_eq]
    rw [run_bind_of (run_prfAbsorb hM rfl), run_bind_of (run_prfSqueeze hw)]
    rfl
  · intro mem sp out l inp inlen k hok
    have hd : decide (n ≠ 0 ∧ l > n) = true := by simp; omega
    unfold crypto_prf_with
    rw [hd]
    exact ⟨rfl, rfl⟩

theorem mac_prf_correct : PrfCorrect (prfWith ivMac) (fun _ outlen => outlen ≤ 16) mac_crypto_prf := by
  have := prf_with_correct ASCON_MAC_IV 16 (by omega)
  rwa [iv_eqs.2.2.2.2.1] at this

theorem prf_prf_correct : PrfCorrect prf (fun _ outlen => outlen ≤ 64) prf_crypto_prf := by
  have := prf_with_correct ASCON_PRF_IV 64 (by omega)
  rwa [iv_eqs.2.2.2.2.2.1] at this

/-- From `crypto_prf` to `crypto_auth`. -/
theorem auth_of_prf {F : List Byte → List Byte → Nat → List Byte} {ok : Nat → Nat → Prop} {f : CryptoPrf}
    (h : PrfCorrect F ok f) (n : Nat) :
    AuthCorrect (fun K M => F K M n) n (fun l => ok l n) (fun e sp out inp len k => f e sp out n inp len k) :=
  fun e mem sp out inp k K M hk hK hM hMl hw hok => (h e).1 mem sp out n inp k K M hk hK hM hMl hw hok

theorem mac_auth_correct : AuthCorrect mac 16 (fun _ => True) mac_crypto_auth :=
  fun e mem sp out inp k K M hk hK hM hMl hw _ =>
    mac_prf_correct e |>.1 mem sp out 16 inp k K M hk hK hM hMl hw (by simp)

theorem prf_auth_correct : AuthCorrect (fun K M => prf K M 64) 64 (fun _ => True) prf_crypto_auth :=
  fun e mem sp out inp k K M hk hK hM hMl hw _ =>
    prf_prf_correct e |>.1 mem sp out 64 inp k K M hk hK hM hMl hw (by simp)

/-- OR of all byte differences, on bytes. -/
def orDiff8 : List Byte → List Byte → Byte
  | a :: as, b :: bs => (a ^^^ b) ||| orDiff8 as bs
  | _, _ => 0

theorem orDiff8_eq (as bs : List Byte) : (orDiff8 as bs).setWidth 32 = orDiff as bs := by
  fun_induction orDiff8 as bs with
  | case1 a as b bs ih => rw [BitVec.setWidth_or, ih]; rfl
  | case2 => simp_all [orDiff]

theorem run_orLoop8 {mem : Mem} (c t : Nat) (as bs : List Byte) (i : Nat) (r : Byte)
    (ha : mem.Holds (c + i) as) (hb : mem.Holds (t + i) bs) (hl : as.length = bs.length) :
    run (forUp (fun i (diff : Byte) => do
      let a ← loadB (c + i)
      let b ← loadB (t + i)
      pure (diff ||| (a ^^^ b))) as.length i r) mem = some (r ||| orDiff8 as bs, mem) := by
  induction as generalizing bs i r with
  | nil => simp [forUp, run, orDiff8]
  | cons a as ih =>
    cases bs with
    | nil => simp at hl
    | cons b bs =>
      rw [holds_cons] at ha hb
      simp only [List.length_cons, forUp, run]
      rw [run_bind, run_bind_of (run_loadB ha.1), run_bind_of (run_loadB hb.1)]
      simp only [run_pure', Option.bind_some]
      rw [ih bs (i + 1) _ (by simpa [Nat.add_assoc] using ha.2) (by simpa [Nat.add_assoc] using hb.2)
        (by simpa using hl)]
      simp only [orDiff8, BitVec.or_assoc]

theorem run_tagDiff {mem : Mem} {n h t : Nat} {T T' : List Byte} (hc : mem.Holds h T)
    (ht : mem.Holds t T') (hl : T.length = n) (hl' : T'.length = n) :
    run (tagDiff n h t) mem = some (if T = T' then 0 else -1, mem) := by
  unfold tagDiff
  have := run_orLoop8 h t T T' 0 0 (by simpa using hc) (by simpa using ht) (by omega)
  rw [hl] at this
  rw [run_bind_of this]
  simp only [run_pure']
  rw [show (0 : Byte) ||| orDiff8 T T' = orDiff8 T T' by simp, orDiff8_eq, BitVec.and_comm,
    result_eq _ (orDiff_lt T T')]
  simp only [orDiff_eq_zero T T' (by omega)]

/-- Verification: local tag array, `crypto_prf`, comparison. -/
theorem run_verify {F : List Byte → List Byte → Nat → List Byte} {ok : Nat → Nat → Prop} {f : CryptoPrf}
    {e : Endian} (hf : PrfCorrectAt e F ok f) {n : Nat} (hn : n ≤ 128) (hlen : ∀ K M, (F K M n).length = n) (sp' : Nat)
    {mem : Mem} {sp h inp k : Nat} {K M T : List Byte}
    (hk : mem.Holds k K) (hK : K.length = 16) (hM : mem.Holds inp M) (hMl : M.length < 2 ^ 64)
    (hT : mem.Holds h T) (hTl : T.length = n) (hok : ok M.length n) (hs : mem.Free sp 128) :
    run (do
      Prog.alloc sp n (.ret ())
      let _ ← f e sp' sp n inp M.length k
      let r ← tagDiff n h sp
      Prog.free sp n (.ret ())
      pure r) mem = some (if T = F K M n then 0 else -1, mem) := by
  have hs' : mem.Free sp n := Mem.Free.mono' hs hn
  rw [run_bind_of run_alloc]
  rw [run_bind_of (hf.1 _ sp' sp n inp k K M (hk.fill (hs'.disjoint_holds hk)) hK
    (hM.fill (hs'.disjoint_holds hM)) hMl (writable_fill_uninit _ _ _) hok)]
  have hd := hs'.disjoint_holds hT
  have hT' : ((mem.fill sp n .uninit).writes sp (F K M n)).Holds h T :=
    (hT.fill hd).writes_disjoint (by rw [hlen]; exact hd)
  rw [run_bind_of (run_tagDiff hT' (holds_writes_self _ _ _) hTl (hlen K M)), run_bind_of run_free,
    fill_writes_fill hs' (by rw [hlen]; omega)]
  rfl

theorem length_prfWith (iv : Word) (K M : List Byte) (n : Nat) : (prfWith iv K M n).length = n :=
  length_squeeze 16 _ n (by omega) (by omega)

theorem mac_verify_correct : VerifyCorrect mac 16 (fun _ => True) mac_crypto_auth_verify :=
  fun _ _ sp _ _ _ _ _ _ hk hK hM hMl hT hTl _ hs =>
    run_verify (mac_prf_correct _) (by omega) (fun K M => length_prfWith _ K M 16) (sp + 16) hk hK hM hMl hT hTl (by simp) hs

theorem prf_verify_correct : VerifyCorrect (fun K M => prf K M 64) 64 (fun _ => True) prf_crypto_auth_verify :=
  fun _ _ sp _ _ _ _ _ _ hk hK hM hMl hT hTl _ hs =>
    run_verify (prf_prf_correct _) (by omega) (fun K M => length_prfWith _ K M 64) (sp + 64) hk hK hM hMl hT hTl (by simp) hs

/-! ### Short-input PRF -/

theorem prfs_iv (l : Nat) (h : l ≤ 16) :
    ASCON_PRFS_IV ||| ((BitVec.ofNat 64 l * 8) <<< 48) = ivPrfs l := by
  have : ∀ l : Fin 17, ASCON_PRFS_IV ||| ((BitVec.ofNat 64 l.val * 8) <<< 48) = ivPrfs l.val := by
    decide +kernel
  exact this ⟨l, by omega⟩

theorem prfShort_eq (K M : List Byte) (n : Nat) (s : State)
    (hs : s = addKeyLast K (perm 12 ⟨ivPrfs M.length, le64 (K.take 8), le64 (K.drop 8), le64 (M.take 8), le64 (M.drop 8)⟩)) :
    prfShort K M n = (bytes64 s.x3 ++ bytes64 s.x4).take n := by subst hs; rfl

theorem length_prfShort (K M : List Byte) (n : Nat) (h : n ≤ 16) : (prfShort K M n).length = n := by
  simp [prfShort, length_bytes64]; omega

/-- Writing the first `n ≤ 16` bytes of two words. -/
theorem take_two_words (a b : Word) (n : Nat) (h8 : 8 < n) :
    (bytes64 a ++ bytes64 b).take n = bytes64 a ++ (bytes64 b).take (n - 8) := by
  rw [List.take_append, List.take_of_length_le (by simp [length_bytes64]; omega), length_bytes64]

theorem prfs_correct : PrfCorrect prfShort (fun inlen outlen => inlen ≤ 16 ∧ outlen ≤ 16) prfs_crypto_prf := by
  intro e
  constructor
  · intro mem sp out n inp k K M hk hK hM _ hw ⟨hi, ho⟩
    unfold prfs_crypto_prf
    rw [run_ifc, if_neg (by simp; omega)]
    have e1 : (K.drop 8).take 8 = K.drop 8 := List.take_of_length_le (by simp; omega)
    rw [run_bind_of (run_load8 hk (by omega)), run_bind_of (run_load8' hk (by omega)), e1]
    simp only [prfs_iv M.length hi]
    have habs : run (ifc (decide (M.length > 8))
        (do
          let w ← LOADBYTES inp 8
          let s : State := { x0 := ivPrfs M.length, x1 := le64 (K.take 8), x2 := le64 (K.drop 8), x3 := w, x4 := 0 }
          let w ← LOADBYTES (inp + 8) (M.length - 8)
          let s := { s with x4 := w }
          pure s)
        (ifc (decide (M.length ≠ 0))
          (do
            let w ← LOADBYTES inp M.length
            let s : State := { x0 := ivPrfs M.length, x1 := le64 (K.take 8), x2 := le64 (K.drop 8), x3 := w, x4 := 0 }
            pure s)
          (pure { x0 := ivPrfs M.length, x1 := le64 (K.take 8), x2 := le64 (K.drop 8), x3 := 0, x4 := 0 }))) mem =
        some (⟨ivPrfs M.length, le64 (K.take 8), le64 (K.drop 8), le64 (M.take 8), le64 (M.drop 8)⟩, mem) := by
      rw [run_ifc]
      by_cases h8 : M.length > 8
      · rw [if_pos (by simpa using h8), run_bind_of (run_load8 hM (by omega)),
          run_bind_of (run_LOADBYTES (hM.drop 8 (by omega)) (by simp) (by omega))]
        rfl
      · rw [if_neg (by simpa using h8), run_ifc, List.take_of_length_le (l := M) (by omega),
          List.drop_of_length_le (l := M) (by omega)]
        by_cases h0 : M.length = 0
        · have : M = [] := by simpa using h0
          subst this; rfl
        · rw [if_pos (by simpa using h0), run_bind_of (run_LOADBYTES hM rfl (by omega))]
          rfl
    rw [run_bind_of habs]
    simp only [P12_eq]
    have hp := prfShort_eq K M n _ rfl
    simp only [addKeyLast] at hp
    rw [hp, run_bind, run_ifc]
    by_cases h8 : n > 8
    · rw [if_pos (by simpa using h8), run_bind_of (run_STOREBYTES8 (hw.mono (by omega) (by omega))),
        run_STOREBYTES (hw.writes.mono (by omega) (by omega)) (by omega), take_two_words _ _ _ h8,
        writes_append, length_bytes64]
      simp only [Option.bind_some, run_pure']
    · rw [if_neg (by simpa using h8), run_ifc, List.take_append_of_le_length (by simp [length_bytes64]; omega)]
      by_cases h0 : n = 0
      · subst h0
        simp [writes_nil]
      · rw [if_pos (by simpa using h0), run_STOREBYTES hw (by omega)]
        simp only [Option.bind_some, run_pure']
  · intro mem sp out l inp inlen k hok
    have hd : decide (inlen > 16 ∨ l > 16 ∨ l > 16) = true := by simp; omega
    unfold prfs_crypto_prf
    rw [hd]
    exact ⟨rfl, rfl⟩

theorem prfs_auth_correct :
    AuthCorrect (fun K M => prfShort K M 16) 16 (fun l => l ≤ 16) prfs_crypto_auth :=
  fun e mem sp out inp k K M hk hK hM hMl hw hok =>
    prfs_correct e |>.1 mem sp out 16 inp k K M hk hK hM hMl hw ⟨hok, by omega⟩

theorem prfs_verify_correct :
    VerifyCorrect (fun K M => prfShort K M 16) 16 (fun l => l ≤ 16) prfs_crypto_auth_verify := by
  intro e mem sp h inp k K M T hk hK hM hMl hT hTl hok hs
  unfold prfs_crypto_auth_verify
  rw [run_ifc, if_neg (by simpa using hok)]
  exact run_verify (prfs_correct _) (by omega) (fun K M => length_prfShort K M 16 (by omega)) (sp + 16) hk hK hM hMl
    hT hTl ⟨hok, by omega⟩ hs

/-- Too long inputs are refused by `crypto_auth_verify` without touching memory. -/
theorem prfs_verify_reject (e : Endian) (mem : Mem) (sp h inp len k : Nat) (hl : 16 < len) :
    run (prfs_crypto_auth_verify e sp h inp len k) mem = some (-1, mem) := by
  unfold prfs_crypto_auth_verify
  rw [run_ifc, if_pos (by simpa using hl)]
  simp only [run_pure']

end Ascon.Ref
