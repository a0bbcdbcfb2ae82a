import Verif.Proof.MaskedNDec
import Verif.Proof.MaskedTop
import Verif.C.MaskedNContracts
/-!
# crypto_aead_encrypt and crypto_aead_decrypt of protected_bi32_armv6_leveled for any supported configuration
-/

namespace Ascon.MaskedN

open Ascon.Spec Ascon.C
open Ascon.Gen hiding ROR32 ROR64
open Ascon.C.Prog (require ifc loop forUp loadB storeB loadN storeN store64 load64)
open Ascon.Masked

attribute [local irreducible] perm deinterleave32 interleave32

/-! ### From arrays of shares to values -/

theorem pk_ROR_enc' (x : Word) (d : Nat) (hd : d < 4) :
    pk ⟨Masked.ROR32 (unpk (enc x)).w0 (5 * d), Masked.ROR32 (unpk (enc x)).w1 (5 * d)⟩ = enc (Masked.ROR64 x (10 * d)) := by
  apply BitVec.eq_of_getLsbD_eq; intro i hi
  have e0 : ∀ k, k < 32 → (unpk (enc x)).w0.getLsbD k = x.getLsbD (2 * k) := by
    intro k hk
    show ((enc x).setWidth 32).getLsbD k = _
    rw [BitVec.getLsbD_setWidth, bi32_perm.bit x k (by omega)]
    simp [hk, bi32Pos]
  have e1 : ∀ k, k < 32 → (unpk (enc x)).w1.getLsbD k = x.getLsbD (2 * k + 1) := by
    intro k hk
    show ((enc x >>> 32).setWidth 32).getLsbD k = _
    rw [BitVec.getLsbD_setWidth, BitVec.getLsbD_ushiftRight, bi32_perm.bit x (32 + k) (by omega)]
    simp [hk, bi32Pos, show ¬ 32 + k < 32 by omega]
  have e2 : (enc (Masked.ROR64 x (10 * d))).getLsbD i = x.getLsbD ((bi32Pos i + 10 * d) % 64) := by
    rw [bi32_perm.bit _ i hi, getLsbD_ROR64 _ _ _ (by omega) (bi32_perm.lt i hi)]
  rw [getLsbD_pk _ _ hi, e2]
  unfold bi32Pos
  by_cases h : i < 32
  · rw [if_pos h, if_pos h]
    show (Masked.ROR32 (unpk (enc x)).w0 (5 * d)).getLsbD i = _
    rw [getLsbD_ROR32 _ _ _ (by omega) h, e0 _ (Nat.mod_lt _ (by omega))]
    congr 1; omega
  · rw [if_neg h, if_neg h]
    show (Masked.ROR32 (unpk (enc x)).w1 (5 * d)).getLsbD (i - 32) = _
    rw [getLsbD_ROR32 _ _ _ (by omega) (by omega), e1 _ (Nat.mod_lt _ (by omega))]
    congr 1; omega

theorem rot_d : ∀ d : Fin 4, ROT ((d.val : Nat) : Int) = 5 * d.val ∧ ROT (2 * ((d.val : Nat) : Int)) = 10 * d.val := by decide

/-- What a share contributes to the value is what `combine_shares` adds for it. -/
theorem pk_share (bi : Bool) (x : Word) (d : Nat) (hd : d < 4) :
    pk ⟨Masked.ROR32 (unpk (ext bi x)).w0 (5 * d), Masked.ROR32 (unpk (ext bi x)).w1 (5 * d)⟩ = ext bi (rotShare bi d x) := by
  obtain ⟨h1, h2⟩ := rot_d ⟨d, hd⟩
  simp only [] at h1 h2
  unfold ext rotShare
  cases bi
  · simp only [Bool.false_eq_true, if_false]
    rw [pk_ROR_enc' x d hd, h2]
  · simp only [if_true]
    rw [h1]
    rfl

theorem ext_xor (bi : Bool) (x y : Word) : ext bi (x ^^^ y) = ext bi x ^^^ ext bi y := by
  unfold ext; cases bi
  · simp only [Bool.false_eq_true, if_false, enc_xor]
  · rfl

theorem ext_zero (bi : Bool) : ext bi 0 = 0 := by
  unfold ext; cases bi
  · simp only [Bool.false_eq_true, if_false, enc_zero]
  · rfl

theorem PV_CW (bi : Bool) (n : Nat) (hn : n ≤ 4) (f : Nat → Word) :
    PV n (fun d => unpk (ext bi (f d))) = ext bi (CW bi n f) := by
  induction n with
  | zero =>
    show pk ⟨0, 0⟩ = ext bi 0
    rw [ext_zero]; decide
  | succ n ih =>
    unfold PV
    rw [SV_succ, pk_xor']
    show PV n _ ^^^ pk ⟨Masked.ROR32 (unpk (ext bi (f n))).w0 (5 * n), Masked.ROR32 (unpk (ext bi (f n))).w1 (5 * n)⟩ = _
    rw [ih (by omega), pk_share bi (f n) n (by omega), ← ext_xor]
    rfl

theorem ext_toExt (bi : Bool) (x : Word) : ext bi (toExt bi x) = enc x := by
  unfold ext toExt; cases bi <;> rfl

theorem ext_inj {bi : Bool} {x y : Word} (h : ext bi x = ext bi y) : x = y := by
  unfold ext at h; cases bi
  · simp only [Bool.false_eq_true, if_false] at h
    rw [← dec_enc x, h, dec_enc]
  · exact h

theorem fromExt_toExt (bi : Bool) (x : Word) : fromExt bi (toExt bi x) = x := by
  unfold fromExt toExt; cases bi
  · rfl
  · simp only [if_true]; exact dec_enc x

theorem sz_words (n len : Nat) : 4 * (NUM_WORDS len * n) = sz n len := by
  unfold NUM_WORDS sz
  rw [Nat.mul_comm _ n, Nat.mul_comm _ 2, Nat.mul_left_comm n 2]; omega

theorem sz_round (n len : Nat) : n * roundUp8 len = sz n len := by
  unfold roundUp8 sz; exact Nat.mul_left_comm ..

theorem sz16 (n : Nat) : sz n 16 = n * 16 := sz_mult n 16 (by omega)

theorem sh_of_arr {bi : Bool} {ρ : Nat → Word} {mem0 mem : Mem} {s n : Nat} {D : List Byte} (hn : Ns n)
    (h : Arr mem0 mem s n (NUM_WORDS D.length) (fun r c => some (shareArr bi ρ n (fun j => toExt bi (Masked.wordAt D j)) r c))) :
    SH mem bi n s D := by
  intro j hj
  have hR : NUM_WORDS D.length = 2 * ((D.length + 7) / 8) := by unfold NUM_WORDS; omega
  refine ⟨shareWord bi ρ n (fun j => toExt bi (Masked.wordAt D j)) j, ?_, ?_⟩
  · intro d hd
    have v0 := h.val (2 * j) d _ (by omega) hd rfl
    have v1 := h.val (2 * j + 1) d _ (by omega) hd rfl
    have ej : 2 * j * n = 2 * (n * j) := by rw [Nat.mul_assoc, Nat.mul_comm j n]
    have ej1 : (2 * j + 1) * n = 2 * (n * j) + n := by rw [Nat.add_mul, ej, Nat.one_mul]
    unfold shareArr idx at v0 v1
    rw [show 2 * j / 2 = j by omega, halfOf_even, show s + 4 * (2 * j * n + d) = s + 8 * (n * j) + 4 * d by omega] at v0
    rw [show (2 * j + 1) / 2 = j by omega, show s + 4 * ((2 * j + 1) * n + d) = s + 8 * (n * j) + 4 * n + 4 * d by omega] at v1
    refine ⟨v0, ?_⟩
    have : ∀ x, halfOf (2 * j + 1) x = hi x := by intro x; simp [halfOf]
    rwa [this] at v1
  · rw [PV_CW bi n hn.2, CW_shareWord bi ρ n _ j hn.1, ext_toExt]

theorem run_gen {bi : Bool} {ρ : Nat → Word} {mem : Mem} {s n data : Nat} {D : List Byte} (hn : Ns n)
    (hw : mem.Writable s (sz n D.length)) (hD : mem.Holds data D) (hd : Disjoint data D.length s (sz n D.length)) :
    ∃ mem', run (generate_shares bi .little ρ s n data D.length) mem = some ((), mem') ∧ Fr mem mem' s (sz n D.length) ∧
      SH mem' bi n s D := by
  obtain ⟨m, r, h⟩ := run_generate_shares (bi := bi) (ρ := ρ) (s := s) (n := n) hn.1 (by rw [sz_words]; exact hw) hD
    (by rw [sz_words]; exact hd)
  refine ⟨m, r, ?_, sh_of_arr hn h⟩
  have := MaskedN.Arr.fr h
  rw [sz_words] at this; exact this

theorem run_comb {bi : Bool} {mem : Mem} {s n data : Nat} {X D : List Byte} (hn : Ns n) (hX : SH mem bi n s X)
    (hl : X.length = 8 * ((D.length + 7) / 8)) (hXD : X.take D.length = D) (hw : mem.Writable data D.length)
    (hd : Disjoint data D.length s (sz n D.length)) :
    run (combine_shares bi .little data D.length s n) mem = some ((), mem.writes data D) := by
  have hsz : sz n X.length = sz n D.length := by unfold sz; rw [hl]; congr 2; omega
  refine run_combine_shares (W := Masked.wordAt X) (Y := fun j => toExt bi (Masked.wordAt X j))
    (fun j => fromExt_toExt bi _) hw ?_ ?_
  · intro mem' ha j hj
    have hfr : ∀ a, (a < data ∨ data + D.length ≤ a) → mem' a = mem a := ha
    obtain ⟨f, hf, hp⟩ := hX j (by omega)
    have hb := idx_le (n := n) (j := j) (len := D.length) hj
    have hf' : HoldsShares mem' n (s + 8 * (n * j)) f := by
      intro d hd'
      have h0 := hf d hd'
      unfold sz at hd
      refine ⟨holds_of_agree h0.1 ?_, holds_of_agree h0.2 ?_⟩ <;>
        (intro a h1 h2; apply hfr; rw [length_repr32] at h2; unfold Disjoint at hd; omega)
    rw [run_combPair hf']
    congr 2
    apply ext_inj (bi := bi)
    rw [← PV_CW bi n hn.2, hp, ext_toExt]
  · intro j hj
    have e : bytes64 (le64 (X.drop (8 * j))) = (X.drop (8 * j)).take 8 := by
      rw [← le64_take8 (X.drop (8 * j)), bytes64_le64]
      simp; omega
    show (bytes64 (le64 (X.drop (8 * j)))).take _ = _
    rw [e, ← hXD, List.length_take, List.drop_take, List.take_take, List.take_take]
    congr 1
    omega

/-! ### The comparison of the tag -/

theorem reduce_s0 {n : Nat} (hn : Ns n) (w : word_t) : (MREDUCE w n 1) 0 = unpk (PV n w) := by
  rw [← PV_MREDUCE (a := 1) (b := n) (by omega) hn.1 hn.2]
  unfold PV
  rw [unpk_pk, SV_succ]
  have e : ∀ x : U32, (0 : U32) ^^^ Masked.ROR32 x (5 * 0) = x := fun x => by
    have : Masked.ROR32 x (5 * 0) = x := by unfold Masked.ROR32; simp
    rw [this]; exact BitVec.zero_xor
  show _ = (⟨(0 : U32) ^^^ _, (0 : U32) ^^^ _⟩ : share_t)
  rw [e, e]

theorem ascon_iszero_eq {g : Cfg} (hK : Ns g.KEY) (s : MState) : ascon_iszero g s =
    if lo (PV g.KEY s.x3 ^^^ PV g.KEY s.x4) ^^^ hi (PV g.KEY s.x3 ^^^ PV g.KEY s.x4) = 0 then 0 else -1 := by
  rw [← iszero_fold]
  have e : lo (PV g.KEY s.x3 ^^^ PV g.KEY s.x4) ^^^ hi (PV g.KEY s.x3 ^^^ PV g.KEY s.x4) =
      (((MREDUCE s.x3 g.KEY 1) 0).w0 ^^^ ((MREDUCE s.x3 g.KEY 1) 0).w1) ^^^
        (((MREDUCE s.x4 g.KEY 1) 0).w0 ^^^ ((MREDUCE s.x4 g.KEY 1) 0).w1) := by
    rw [reduce_s0 hK, reduce_s0 hK, lo_xor, hi_xor]
    show _ = lo (PV g.KEY s.x3) ^^^ hi (PV g.KEY s.x3) ^^^ (lo (PV g.KEY s.x4) ^^^ hi (PV g.KEY s.x4))
    ac_rfl
  rw [e]
  rfl

theorem iszero_of {g : Cfg} (hK : Ns g.KEY) {s : MState} {p q : State} {c3 c4 : Word} (hc : c3 ^^^ c4 = enc (q.x3 ^^^ q.x4))
    (h3 : PV g.KEY s.x3 = enc p.x3 ^^^ c3) (h4 : PV g.KEY s.x4 = enc p.x4 ^^^ c4) :
    ascon_iszero g s = if pairSums (p.x3 ^^^ p.x4) = pairSums (q.x3 ^^^ q.x4) then 0 else -1 := by
  have e : PV g.KEY s.x3 ^^^ PV g.KEY s.x4 = enc ((p.x3 ^^^ p.x4) ^^^ (q.x3 ^^^ q.x4)) := by
    rw [enc_xor, ← hc, enc_xor, h3, h4]
    ac_rfl
  rw [ascon_iszero_eq hK, e]
  simp only [fold_enc_zero]

theorem iszero_tags {g : Cfg} (hK : Ns g.KEY) {s : MState} {t : State} {K T : List Byte}
    (h3 : PV g.KEY s.x3 = enc (perm 8 (tagDiff (finState K t) T)).x3 ^^^ pk ⟨0xc7c72006, 0xc3bfab9c⟩)
    (h4 : PV g.KEY s.x4 = enc (perm 8 (tagDiff (finState K t) T)).x4 ^^^ pk ⟨0x18213f82, 0x0653ed71⟩) :
    ascon_iszero g s = if tagsMatch32 T (aeadTag K t) then 0 else -1 := by
  rw [iszero_of hK tag_consts h3 h4]
  have e3 : le64 ((aeadTag K t).take 8) = (finState K t).x3 := by
    show le64 ((bytes64 (finState K t).x3 ++ bytes64 (finState K t).x4).take 8) = _
    rw [List.take_append_of_le_length (by simp [length_bytes64]), List.take_of_length_le (by simp [length_bytes64]),
      le64_bytes64]
  have e4 : le64 ((aeadTag K t).drop 8) = (finState K t).x4 := by
    show le64 ((bytes64 (finState K t).x3 ++ bytes64 (finState K t).x4).drop 8) = _
    rw [List.drop_append_of_le_length (by simp [length_bytes64]), List.drop_of_length_le (by simp [length_bytes64]),
      List.nil_append, le64_bytes64]
  have hd : tagDiff (finState K t) T = ⟨0, 0, 0, le64 (T.take 8) ^^^ le64 ((aeadTag K t).take 8),
      le64 (T.drop 8) ^^^ le64 ((aeadTag K t).drop 8)⟩ := by
    unfold tagDiff
    rw [e3, e4, BitVec.xor_comm, BitVec.xor_comm (finState K t).x4]
  generalize hp : perm 8 (tagDiff (finState K t) T) = p
  have hm : tagsMatch32 T (aeadTag K t) ↔ pairSums (p.x3 ^^^ p.x4) =
      pairSums ((perm 8 ⟨0, 0, 0, 0, 0⟩).x3 ^^^ (perm 8 ⟨0, 0, 0, 0, 0⟩).x4) := by
    rw [← hp, hd]
    exact Iff.rfl
  by_cases h : tagsMatch32 T (aeadTag K t)
  · rw [if_pos h, if_pos (hm.1 h)]
  · rw [if_neg h, if_neg (fun x => h (hm.2 x))]

/-! ### The functions on shared buffers -/

/-- The numbers of shares of a supported configuration. -/
structure Cfg.Ok (g : Cfg) : Prop where
  K : Ns g.KEY
  N : Ns g.NPUB
  A : Ns g.AD
  M : Ns g.M
  C : Ns g.C
  NK : g.NPUB ≤ g.KEY
  AM : g.AD ≤ g.M
  CM : g.C ≤ g.M
  MK : g.M ≤ g.KEY

theorem Cfg.Supported.ok {g : Cfg} (h : g.Supported) : g.Ok := by
  unfold Cfg.Supported at h
  obtain ⟨h1, h2, h3, h4, h5, h6, h7, h8⟩ := h
  constructor <;> (try unfold Ns) <;> omega

theorem fr_writes {mem : Mem} {p L : Nat} {bs : List Byte} (hl : bs.length = L) : Fr mem (mem.writes p bs) p L := by
  refine ⟨fun a ha => writes_out (by omega), fun a ha => ?_⟩
  have : (mem.writes p bs).Writable a 1 := Mem.Writable.writes fun i hi => by
    rw [show a + i = a by omega]; exact ha
  exact this 0 (by omega)

theorem run_encrypt_shared {g : Cfg} (ok : g.Ok) {ρ : Nat → Nat → Word} {mem : Mem} {cs clen ms as ns ks : Nat} {K N A P : List Byte}
    (hk : SH mem g.EXTERN_BI g.KEY ks K) (hK : K.length = 16) (hn : SH mem g.EXTERN_BI g.NPUB ns N) (hN : N.length = 16)
    (ha : SH mem g.EXTERN_BI g.AD as A)
    (hm : SH mem g.EXTERN_BI g.M ms P) (hw : mem.Writable cs (sz g.C P.length + sz g.C 16)) (hcl : mem.Writable clen 8)
    (d1 : Disjoint clen 8 ks (sz g.KEY 16)) (d2 : Disjoint clen 8 ns (sz g.NPUB 16)) (d3 : Disjoint clen 8 as (sz g.AD A.length))
    (d4 : Disjoint clen 8 ms (sz g.M P.length)) (d5 : Disjoint cs (sz g.C P.length + sz g.C 16) ms (sz g.M P.length))
    (d6 : Disjoint cs (sz g.C P.length + sz g.C 16) ks (sz g.KEY 16)) :
    ∃ X m5, X.length = 8 * ((P.length + 7) / 8) ∧ X.take P.length = (encBody (aeadAd A (aeadInit K N)) P).2 ∧
      Fr (mem.writes clen (repr64 .little (BitVec.ofNat 64 (P.length + 16)))) m5 cs (sz g.C P.length + sz g.C 16) ∧
      SH m5 g.EXTERN_BI g.C cs X ∧
      SH m5 g.EXTERN_BI g.C (cs + sz g.C P.length) (aeadTag K (encBody (aeadAd A (aeadInit K N)) P).1) ∧
      run (crypto_aead_encrypt_shared g .little ρ cs clen ms P.length as A.length ns ks) mem = some (0, m5) := by
  have hl : (repr64 .little (BitVec.ofNat 64 (P.length + 16))).length = 8 := by simp [repr64, length_bytes64]
  have h16 := sz_ge16 g.C 16 (by omega)
  have hC0 : sz g.C (16 - 16) = 0 := rfl
  generalize hL : repr64 .little (BitVec.ofNat 64 (P.length + 16)) = L at *
  have fr0 : Fr mem (mem.writes clen L) clen 8 := fr_writes hl
  have r0 : run (store64 .little clen (BitVec.ofNat 64 (P.length + 16))) mem = some ((), mem.writes clen L) := by
    rw [← hL]; exact run_storeN (by rw [hL, hl]; exact hcl)
  generalize mem.writes clen L = m1 at *
  obtain ⟨s1, R1, r1⟩ := run_ascon_initaead ok.K ok.N ok.NK (ρ := ρ) (fr0.sh hk (by rw [hK]; exact d1))
    (fr0.sh hn (by rw [hN]; exact d2)) hK hN
  have AK : g.AD ≤ g.KEY := Nat.le_trans ok.AM ok.MK
  obtain ⟨s2, R2, r2⟩ := run_ascon_adata ok.A (rel_level_adata ok.A.1 AK ok.K.2 R1) (fr0.sh ha d3)
  obtain ⟨s3, m3, X, R3, fr3, sh3, hX, hX', r3⟩ := run_ascon_encrypt ok.M ok.C ok.CM (c := cs)
    (rel_level_encdec ok.A.1 ok.AM ok.M.2 (fun i => ρ (4 + i)) R2) (fr0.sh hm d4)
    ((fr0.writable hw).mono (by omega) (by omega)) (by unfold Disjoint at *; omega)
  obtain ⟨s4, R4, r4⟩ := run_ascon_final ok.K (rel_level_final ok.M.1 ok.MK ok.K.2 (fun i => ρ (10 + i)) R3)
    (fr3.sh (fr0.sh hk (by rw [hK]; exact d1)) (by rw [hK]; unfold Disjoint at *; omega)) hK
  obtain ⟨m5, fr5, sh5, r5⟩ := run_ascon_settag ok.C (Nat.le_trans ok.CM ok.MK) ok.K.2 (p := cs + sz g.C P.length) R4
    ((fr3.writable (fr0.writable hw)).mono (by omega) (by omega))
  have hXs : sz g.C X.length = sz g.C P.length := by unfold sz; rw [hX]; congr 2; omega
  refine ⟨X, m5, hX, hX', fr3.trans fr5 (by omega) (by omega), fr5.sh sh3 (by rw [hXs]; unfold Disjoint; omega), sh5, ?_⟩
  unfold crypto_aead_encrypt_shared
  refine (run_bind_of r0).trans ?_
  refine (run_bind_of r1).trans ?_
  refine (run_bind_of r2).trans ?_
  refine (run_bind_of r3).trans ?_
  refine (run_bind_of r4).trans ?_
  rw [sz_words]
  exact (run_bind_of r5).trans rfl

theorem run_decrypt_shared {g : Cfg} (ok : g.Ok) {ρ : Nat → Nat → Word} {mem : Mem} {ms mlen cs as ns ks clen : Nat}
    {K N A D T : List Byte} (hcl : clen = D.length + 16) (hT : T.length = 16)
    (hk : SH mem g.EXTERN_BI g.KEY ks K) (hK : K.length = 16) (hn : SH mem g.EXTERN_BI g.NPUB ns N) (hN : N.length = 16)
    (ha : SH mem g.EXTERN_BI g.AD as A)
    (hc : SH mem g.EXTERN_BI g.C cs D) (ht : SH mem g.EXTERN_BI g.C (cs + sz g.C D.length) T)
    (hw : mem.Writable ms (sz g.M D.length)) (hml : mem.Writable mlen 8)
    (d1 : Disjoint mlen 8 ks (sz g.KEY 16)) (d2 : Disjoint mlen 8 ns (sz g.NPUB 16)) (d3 : Disjoint mlen 8 as (sz g.AD A.length))
    (d4 : Disjoint mlen 8 cs (sz g.C D.length + sz g.C 16)) (d5 : Disjoint ms (sz g.M D.length) cs (sz g.C D.length + sz g.C 16))
    (d6 : Disjoint ms (sz g.M D.length) ks (sz g.KEY 16)) :
    ∃ X m6, X.length = 8 * ((D.length + 7) / 8) ∧ X.take D.length = (decBody (aeadAd A (aeadInit K N)) D).2 ∧
      Fr (mem.writes mlen (repr64 .little (BitVec.ofNat 64 D.length))) m6 ms (sz g.M D.length) ∧
      SH m6 g.EXTERN_BI g.M ms X ∧
      run (crypto_aead_decrypt_shared g .little ρ ms mlen cs clen as A.length ns ks) mem =
        some (if tagsMatch32 T (aeadTag K (decBody (aeadAd A (aeadInit K N)) D).1) then 0 else -1, m6) := by
  have hl : (repr64 .little (BitVec.ofNat 64 D.length)).length = 8 := by simp [repr64, length_bytes64]
  generalize hL : repr64 .little (BitVec.ofNat 64 D.length) = L at *
  have fr0 : Fr mem (mem.writes mlen L) mlen 8 := fr_writes hl
  have r0 : run (store64 .little mlen (BitVec.ofNat 64 D.length)) mem = some ((), mem.writes mlen L) := by
    rw [← hL]; exact run_storeN (by rw [hL, hl]; exact hml)
  generalize mem.writes mlen L = m1 at *
  obtain ⟨s1, R1, r1⟩ := run_ascon_initaead ok.K ok.N ok.NK (ρ := ρ) (fr0.sh hk (by rw [hK]; exact d1))
    (fr0.sh hn (by rw [hN]; exact d2)) hK hN
  have AK : g.AD ≤ g.KEY := Nat.le_trans ok.AM ok.MK
  obtain ⟨s2, R2, r2⟩ := run_ascon_adata ok.A (rel_level_adata ok.A.1 AK ok.K.2 R1) (fr0.sh ha d3)
  obtain ⟨s3, m3, X, R3, fr3, sh3, hX, hX', r3⟩ := run_ascon_decrypt ok.M ok.C ok.CM (m := ms)
    (rel_level_encdec ok.A.1 ok.AM ok.M.2 (fun i => ρ (4 + i)) R2) (fr0.sh hc (by unfold Disjoint at *; omega))
    (fr0.writable hw) (by unfold Disjoint at *; omega)
  obtain ⟨s4, R4, r4⟩ := run_ascon_final ok.K (rel_level_final ok.M.1 ok.MK ok.K.2 (fun i => ρ (10 + i)) R3)
    (fr3.sh (fr0.sh hk (by rw [hK]; exact d1)) (by rw [hK]; exact d6)) hK
  obtain ⟨s5, ⟨h3, h4⟩, r5⟩ := run_ascon_xortag ok.K ok.C (Nat.le_trans ok.CM ok.MK) R4
    (fr3.sh (fr0.sh ht (by rw [hT]; unfold Disjoint at *; omega)) (by rw [hT]; unfold Disjoint at *; omega)) hT
  refine ⟨X, m3, hX, hX', fr3, sh3, ?_⟩
  rw [← iszero_tags ok.K h3 h4]
  unfold crypto_aead_decrypt_shared
  rw [show clen - 16 = D.length by omega]
  refine (run_bind_of r0).trans ?_
  refine (run_bind_of r1).trans ?_
  refine (run_bind_of r2).trans ?_
  refine (run_bind_of r3).trans ?_
  refine (run_bind_of r4).trans ?_
  rw [sz_words]
  exact (run_bind_of r5).trans rfl

/-! ### The public functions -/

theorem sz_cs (n len : Nat) : sz n (len + 16) = sz n len + sz n 16 := by
  unfold sz
  rw [show (len + 16 + 7) / 8 = (len + 7) / 8 + (16 + 7) / 8 by omega, Nat.mul_add]; omega

/-- `crypto_aead_encrypt` up to the point where `*clen` is read. -/
def encHead (g : Cfg) (σ ρ : Nat → Nat → Word) (h : Heap) (e : Endian) (clen m mlen a alen npub k : Nat) : Prog Unit := do
  malloc h.ks (4 * (NUM_WORDS 16 * g.KEY))
  malloc h.ns (4 * (NUM_WORDS 16 * g.NPUB))
  malloc h.as (4 * (NUM_WORDS alen * g.AD))
  malloc h.ms (4 * (NUM_WORDS mlen * g.M))
  malloc h.cs (4 * (NUM_WORDS (mlen + 16) * g.C))
  generate_shares g.EXTERN_BI e (σ 0) h.ks g.KEY k 16
  generate_shares g.EXTERN_BI e (σ 1) h.ns g.NPUB npub 16
  generate_shares g.EXTERN_BI e (σ 2) h.as g.AD a alen
  generate_shares g.EXTERN_BI e (σ 3) h.ms g.M m mlen
  let _ ← crypto_aead_encrypt_shared g e ρ h.cs clen h.ms mlen h.as alen h.ns h.ks
  pure ()

/-- `crypto_aead_decrypt` up to the point where `*mlen` is read. -/
def decHead (g : Cfg) (σ ρ : Nat → Nat → Word) (h : Heap) (e : Endian) (mlen c clen a alen npub k : Nat) : Prog Int := do
  malloc h.ks (4 * (NUM_WORDS 16 * g.KEY))
  malloc h.ns (4 * (NUM_WORDS 16 * g.NPUB))
  malloc h.as (4 * (NUM_WORDS alen * g.AD))
  malloc h.ms (4 * (NUM_WORDS (clen - 16) * g.M))
  malloc h.cs (4 * (NUM_WORDS clen * g.C))
  generate_shares g.EXTERN_BI e (σ 0) h.ks g.KEY k 16
  generate_shares g.EXTERN_BI e (σ 1) h.ns g.NPUB npub 16
  generate_shares g.EXTERN_BI e (σ 2) h.as g.AD a alen
  generate_shares g.EXTERN_BI e (σ 3) h.cs g.C c (clen - 16)
  generate_shares g.EXTERN_BI e (σ 4) (h.cs + 4 * (NUM_WORDS (clen - 16) * g.C)) g.C (c + (clen - 16)) 16
  crypto_aead_decrypt_shared g e ρ h.ms mlen h.cs clen h.as alen h.ns h.ks

theorem run_encrypt_aux {g : Cfg} (ok : g.Ok) (σ ρ : Nat → Nat → Word) (h : Heap) (mem : Mem) (c clen m ad npub k : Nat)
    (K N A P : List Byte) (pre : EncPre g mem h c clen m ad npub k K N A P) :
    (∃ m5, run (encHead g σ ρ h .little clen m P.length ad A.length npub k) mem = some ((), m5) ∧
      run (load64 .little clen) m5 = some (BitVec.ofNat 64 (P.length + 16), m5)) ∧
    run (crypto_aead_encrypt g σ ρ h .little c clen m P.length ad A.length npub k) mem =
      some (0, (mem.writes clen (repr64 .little (BitVec.ofNat 64 (P.length + 16)))).writes c (aeadEncrypt K N A P)) ∧
    (∃ B ∈ freed (crypto_aead_encrypt g σ ρ h .little c clen m P.length ad A.length npub k) mem, SH B g.EXTERN_BI g.KEY h.ks K) ∧
    (∃ B ∈ freed (crypto_aead_encrypt g σ ρ h .little c clen m P.length ad A.length npub k) mem, SH B g.EXTERN_BI g.M h.ms P) := by
  obtain ⟨hk, hK, hn, hN, ha, haL, hm, hmL, hc, hcl, hf⟩ := pre
  have hCp := ok.C.1
  have hMp := ok.M.1
  have hPL : P.length + 16 < 2 ^ 64 := by
    have h1 : 1 * roundUp8 P.length ≤ g.M * roundUp8 P.length := Nat.mul_le_mul_right _ hMp
    unfold roundUp8 at *; omega
  rw [Nat.mul_add, sz_round, sz_round, sz_round, ← sz16, ← sz16, ← sz16] at hf
  generalize hbs : [(h.ks, sz g.KEY 16), (h.ns, sz g.NPUB 16), (h.as, sz g.AD A.length), (h.ms, sz g.M P.length),
    (h.cs, sz g.C P.length + sz g.C 16)] = bs at hf
  have b1 : (h.ks, sz g.KEY 16) ∈ bs := by rw [← hbs]; simp
  have b2 : (h.ns, sz g.NPUB 16) ∈ bs := by rw [← hbs]; simp
  have b3 : (h.as, sz g.AD A.length) ∈ bs := by rw [← hbs]; simp
  have b4 : (h.ms, sz g.M P.length) ∈ bs := by rw [← hbs]; simp
  have b5 : (h.cs, sz g.C P.length + sz g.C 16) ∈ bs := by rw [← hbs]; simp
  have pw := hf.2
  rw [← hbs] at pw
  simp only [List.pairwise_cons, List.mem_cons, List.not_mem_nil, or_false, forall_eq_or_imp, forall_eq,
    List.Pairwise.nil, and_true, false_imp_iff, implies_true] at pw
  obtain ⟨⟨p12, p13, p14, p15⟩, ⟨p23, p24, p25⟩, ⟨p34, p35⟩, p45⟩ := pw
  generalize hM : allocAll mem bs = m0
  have w1 : m0.Writable h.ks (sz g.KEY 16) := hM ▸ alloc_writable b1
  have w2 : m0.Writable h.ns (sz g.NPUB 16) := hM ▸ alloc_writable b2
  have w3 : m0.Writable h.as (sz g.AD A.length) := hM ▸ alloc_writable b3
  have w4 : m0.Writable h.ms (sz g.M P.length) := hM ▸ alloc_writable b4
  have w5 : m0.Writable h.cs (sz g.C P.length + sz g.C 16) := hM ▸ alloc_writable b5
  have o0 : ∀ a, (∀ b ∈ bs, ¬ InB a b) → m0 a = mem a := fun a ha => hM ▸ fills_out .uninit bs mem a ha
  have hk0 : m0.Holds k K := hM ▸ alloc_holds hf hk
  have hn0 : m0.Holds npub N := hM ▸ alloc_holds hf hn
  have ha0 : m0.Holds ad A := hM ▸ alloc_holds hf ha
  have hm0 : m0.Holds m P := hM ▸ alloc_holds hf hm
  have hc0 : m0.Writable c (P.length + 16) := hM ▸ alloc_writable' hf hc
  have hcl0 : m0.Writable clen 8 := hM ▸ alloc_writable' hf hcl
  have kd := fun b hb => (hf.1 b hb).disjoint_holds hk
  have nd := fun b hb => (hf.1 b hb).disjoint_holds hn
  have ad' := fun b hb => (hf.1 b hb).disjoint_holds ha
  have md := fun b hb => (hf.1 b hb).disjoint_holds hm
  have cd := fun b hb => (hf.1 b hb).disjoint_writable hc
  have cld := fun b hb => (hf.1 b hb).disjoint_writable hcl
  have k1 := kd _ b1
  have n1 := nd _ b1; have n2 := nd _ b2
  have a1 := ad' _ b1; have a2 := ad' _ b2; have a3 := ad' _ b3
  have m1' := md _ b1; have m2' := md _ b2; have m3' := md _ b3; have m4' := md _ b4
  have c5 := cd _ b5
  have l1 := cld _ b1; have l2 := cld _ b2; have l3 := cld _ b3; have l4 := cld _ b4; have l5 := cld _ b5
  simp only [] at k1 n1 n2 a1 a2 a3 m1' m2' m3' m4' c5 l1 l2 l3 l4 l5 p12 p13 p14 p15 p23 p24 p25 p34 p35 p45
  obtain ⟨m1, r1, f1, S1⟩ := run_gen (bi := g.EXTERN_BI) (ρ := σ 0) (s := h.ks) ok.K (by rw [hK]; exact w1) hk0
    (by rw [hK] at k1 ⊢; exact dsymm k1)
  rw [hK] at f1 r1
  obtain ⟨m2, r2, f2, S2⟩ := run_gen (bi := g.EXTERN_BI) (ρ := σ 1) (mem := m1) (s := h.ns) ok.N
    (by rw [hN]; exact f1.writable w2) (f1.holds hn0 n1) (by rw [hN] at n2 ⊢; exact dsymm n2)
  rw [hN] at f2 r2
  obtain ⟨m3, r3, f3, S3⟩ := run_gen (bi := g.EXTERN_BI) (ρ := σ 2) (mem := m2) (s := h.as) ok.A
    (f2.writable (f1.writable w3)) (f2.holds (f1.holds ha0 a1) a2) (dsymm a3)
  obtain ⟨m4, r4, f4, S4⟩ := run_gen (bi := g.EXTERN_BI) (ρ := σ 3) (mem := m3) (s := h.ms) ok.M
    (f3.writable (f2.writable (f1.writable w4))) (f3.holds (f2.holds (f1.holds hm0 m1') m2') m3') (dsymm m4')
  have hks4 : SH m4 g.EXTERN_BI g.KEY h.ks K := f4.sh (f3.sh (f2.sh S1 (by rw [hK]; exact dsymm p12))
    (by rw [hK]; exact dsymm p13)) (by rw [hK]; exact dsymm p14)
  have hns4 : SH m4 g.EXTERN_BI g.NPUB h.ns N := f4.sh (f3.sh S2 (by rw [hN]; exact dsymm p23)) (by rw [hN]; exact dsymm p24)
  have has4 : SH m4 g.EXTERN_BI g.AD h.as A := f4.sh S3 (dsymm p34)
  have w5' := f4.writable (f3.writable (f2.writable (f1.writable w5)))
  have hc4 := f4.writable (f3.writable (f2.writable (f1.writable hc0)))
  have hcl4 := f4.writable (f3.writable (f2.writable (f1.writable hcl0)))
  obtain ⟨X, m5, hX, hX', f5, SX, ST, r5⟩ := run_encrypt_shared ok (ρ := ρ) (cs := h.cs) (clen := clen) hks4 hK hns4 hN has4 S4
    w5' hcl4 (dsymm l1) (dsymm l2) (dsymm l3) (dsymm l4) (dsymm p45) (dsymm p15)
  have hL : (repr64 .little (BitVec.ofNat 64 (P.length + 16))).length = 8 := by simp [repr64, length_bytes64]
  generalize hLe : repr64 .little (BitVec.ofNat 64 (P.length + 16)) = L at *
  unfold aeadEncrypt
  simp only []
  generalize hbody : encBody (aeadAd A (aeadInit K N)) P = body at *
  have hT : (aeadTag K body.1).length = 16 := by simp [aeadTag, length_bytes64]
  have hbl : body.2.length = P.length := by
    rw [← hX', List.length_take, hX]; omega
  generalize aeadTag K body.1 = T at *
  have rl : run (load64 .little clen) m5 = some (BitVec.ofNat 64 (P.length + 16), m5) := by
    have hh : m5.Holds clen L := f5.holds (holds_writes_self _ _ _) (by rw [hL]; exact l5)
    unfold load64
    rw [run_bind_of (run_loadN' hh hL.symm), ← hLe]
    show some (le64 (bytes64 _), m5) = _
    rw [le64_bytes64]
  have hml : (BitVec.ofNat 64 (P.length + 16) - 16 : Word).toNat = P.length := by
    rw [BitVec.toNat_sub, BitVec.toNat_ofNat, show (16 : Word).toNat = 16 from rfl]
    omega
  have hc5 : m5.Writable c (P.length + 16) := f5.writable hc4.writes
  have r6 := run_comb (data := c) (D := body.2) ok.C SX (by rw [hbl, hX]) (by rw [hbl, hX'])
    (by rw [hbl]; exact hc5.mono (by omega) (by omega)) (by rw [hbl]; exact dmono (dsymm c5) (by omega) (by omega))
  have f6 : Fr m5 (m5.writes c body.2) c P.length := fr_writes hbl
  have r7 := run_comb (mem := m5.writes c body.2) (data := c + P.length) (s := h.cs + sz g.C P.length) (D := T) ok.C
    (f6.sh ST (by rw [hT]; exact dmono (dsymm c5) (by omega) (by omega))) (by rw [hT])
    (List.take_of_length_le (by omega)) (by rw [hT]; exact (f6.writable hc5).mono (by omega) (by omega))
    (by rw [hT]; exact dmono (dsymm c5) (by omega) (by omega))
  rw [hT] at r7
  rw [hbl] at r6
  have key : freeAll ((m5.writes c body.2).writes (c + P.length) T) bs = (mem.writes clen L).writes c (body.2 ++ T) := by
    apply freeAll_eq hf
    · intro a ha
      have hout : ∀ b ∈ bs, a < b.1 ∨ b.1 + b.2 ≤ a := fun b hb => by
        have := ha b hb; unfold InB at this; omega
      have o1 := hout _ b1; have o2 := hout _ b2; have o3 := hout _ b3; have o4 := hout _ b4; have o5 := hout _ b5
      simp only [] at o1 o2 o3 o4 o5
      have e4 : m4 a = mem a := by
        rw [f4.1 a o4, f3.1 a o3, f2.1 a o2, f1.1 a o1, o0 a ha]
      rw [writes_append, hbl]
      apply writes_congr
      apply writes_congr
      rw [f5.1 a o5]
      exact writes_congr e4
    · intro a ha
      apply writes_unalloc
      · rw [List.length_append, hbl, hT]; exact hc.writes
      · exact writes_unalloc (by rw [hL]; exact hcl) ha
  rw [← key]
  have hmall : ∀ (α : Type) (q : Unit → Prog α), run (do
      malloc h.ks (sz g.KEY 16)
      malloc h.ns (sz g.NPUB 16)
      malloc h.as (sz g.AD A.length)
      malloc h.ms (sz g.M P.length)
      malloc h.cs (sz g.C P.length + sz g.C 16)
      q ()) mem = run (q ()) m0 := by
    intro α q
    rw [← hM, ← hbs]
    rfl
  have hfmall : ∀ (α : Type) (q : Unit → Prog α), freed (q ()) m0 = freed (do
      malloc h.ks (sz g.KEY 16)
      malloc h.ns (sz g.NPUB 16)
      malloc h.as (sz g.AD A.length)
      malloc h.ms (sz g.M P.length)
      malloc h.cs (sz g.C P.length + sz g.C 16)
      q ()) mem := by
    intro α q
    rw [← hM, ← hbs]
    rfl
  have hfree : ∀ M : Mem, run (do
      mfree h.ks (sz g.KEY 16)
      mfree h.ns (sz g.NPUB 16)
      mfree h.as (sz g.AD A.length)
      mfree h.ms (sz g.M P.length)
      mfree h.cs (sz g.C P.length + sz g.C 16)
      pure (0 : Int)) M = some (0, freeAll M bs) := by
    intro M
    rw [← hbs]
    rfl
  refine ⟨⟨m5, ?_, rl⟩, ?_, ?_⟩
  · unfold encHead
    simp only [sz_words]
    rw [sz_cs g.C P.length]
    refine (hmall _ (fun _ => _)).trans ?_
    refine (run_bind_of r1).trans ?_
    refine (run_bind_of r2).trans ?_
    refine (run_bind_of r3).trans ?_
    refine (run_bind_of r4).trans ?_
    exact run_bind_of r5
  · unfold crypto_aead_encrypt
    simp only [sz_words]
    rw [sz_cs g.C P.length]
    refine (hmall _ (fun _ => _)).trans ?_
    refine (run_bind_of r1).trans ?_
    refine (run_bind_of r2).trans ?_
    refine (run_bind_of r3).trans ?_
    refine (run_bind_of r4).trans ?_
    refine (run_bind_of r5).trans ?_
    refine (run_bind_of rl).trans ?_
    simp only [hml]
    refine (run_bind_of r6).trans ?_
    refine (run_bind_of r7).trans ?_
    exact hfree _
  have all : ∀ B, B ∈ freed (do
      mfree h.ks (sz g.KEY 16)
      mfree h.ns (sz g.NPUB 16)
      mfree h.as (sz g.AD A.length)
      mfree h.ms (sz g.M P.length)
      mfree h.cs (sz g.C P.length + sz g.C 16)
      pure (0 : Int)) ((m5.writes c body.2).writes (c + P.length) T) →
      B ∈ freed (crypto_aead_encrypt g σ ρ h .little c clen m P.length ad A.length npub k) mem := by
    intro B hB
    unfold crypto_aead_encrypt
    simp only [sz_words]
    rw [sz_cs g.C P.length]
    refine (hfmall _ (fun _ => _)) ▸ ?_
    refine mem_freed_bind r1 ?_
    refine mem_freed_bind r2 ?_
    refine mem_freed_bind r3 ?_
    refine mem_freed_bind r4 ?_
    refine mem_freed_bind r5 ?_
    refine mem_freed_bind rl ?_
    simp only [hml]
    refine mem_freed_bind r6 ?_
    exact mem_freed_bind r7 hB
  have f7 : Fr (m5.writes c body.2) ((m5.writes c body.2).writes (c + P.length) T) (c + P.length) 16 := fr_writes hT
  have dks : Disjoint c (P.length + 16) h.ks (sz g.KEY 16) := dsymm (cd _ b1)
  have dms : Disjoint c (P.length + 16) h.ms (sz g.M P.length) := dsymm (cd _ b4)
  have hks7 : SH ((m5.writes c body.2).writes (c + P.length) T) g.EXTERN_BI g.KEY h.ks K :=
    f7.sh (f6.sh (f5.sh (fr_writes hL |>.sh hks4 (by rw [hK]; exact dsymm l1)) (by rw [hK]; exact dsymm p15))
      (by rw [hK]; exact dmono dks (by omega) (by omega))) (by rw [hK]; exact dmono dks (by omega) (by omega))
  have hms7 : SH ((m5.writes c body.2).writes (c + P.length) T) g.EXTERN_BI g.M h.ms P :=
    f7.sh (f6.sh (f5.sh (fr_writes hL |>.sh S4 (dsymm l4)) (dsymm p45))
      (dmono dms (by omega) (by omega))) (dmono dms (by omega) (by omega))
  refine ⟨⟨_, all _ (List.mem_cons_self ..), ?_⟩, ⟨_, all _ (List.mem_cons_of_mem _ (List.mem_cons_of_mem _
    (List.mem_cons_of_mem _ (List.mem_cons_self ..)))), ?_⟩⟩
  · rw [← hK]; exact sh_only hks7
  · exact sh_only (sh_fill (sh_fill (sh_fill hms7 p14) p24) p34)

theorem run_encrypt {g : Cfg} (ok : g.Ok) (σ ρ : Nat → Nat → Word) (h : Heap) (mem : Mem) (c clen m ad npub k : Nat)
    (K N A P : List Byte) (pre : EncPre g mem h c clen m ad npub k K N A P) :
    run (crypto_aead_encrypt g σ ρ h .little c clen m P.length ad A.length npub k) mem =
      some (0, (mem.writes clen (repr64 .little (BitVec.ofNat 64 (P.length + 16)))).writes c (aeadEncrypt K N A P)) :=
  (run_encrypt_aux ok σ ρ h mem c clen m ad npub k K N A P pre).2.1

theorem run_decrypt_aux {g : Cfg} (ok : g.Ok) (σ ρ : Nat → Nat → Word) (h : Heap) (mem : Mem) (m mlen c ad npub k : Nat)
    (K N A D : List Byte) (pre : DecPre g mem h m mlen c ad npub k K N A D) :
    (∃ r m6, run (decHead g σ ρ h .little mlen c D.length ad A.length npub k) mem = some (r, m6) ∧
      run (load64 .little mlen) m6 = some (BitVec.ofNat 64 (D.length - 16), m6)) ∧
    run (crypto_aead_decrypt g σ ρ h .little m mlen c D.length ad A.length npub k) mem =
      some (if tagsMatch32 (ctTag D) (aeadDecTag K N A (ctBody D)) then 0 else -1,
        (mem.writes mlen (repr64 .little (BitVec.ofNat 64 (D.length - 16)))).writes m (aeadCandidate K N A (ctBody D))) ∧
    (∃ B ∈ freed (crypto_aead_decrypt g σ ρ h .little m mlen c D.length ad A.length npub k) mem, SH B g.EXTERN_BI g.KEY h.ks K) ∧
    (∃ X, X.length = 8 * ((D.length - 16 + 7) / 8) ∧ X.take (D.length - 16) = aeadCandidate K N A (ctBody D) ∧
      ∃ B ∈ freed (crypto_aead_decrypt g σ ρ h .little m mlen c D.length ad A.length npub k) mem, SH B g.EXTERN_BI g.M h.ms X) := by
  obtain ⟨hk, hK, hn, hN, ha, haL, hc, hcm, hcL, hm, hml, hf⟩ := pre
  have hCp := ok.C.1
  have hMp := ok.M.1
  have hDL : D.length < 2 ^ 64 := by
    have h1 : 1 * roundUp8 D.length ≤ g.M * roundUp8 D.length := Nat.mul_le_mul_right _ hMp
    unfold roundUp8 at *; omega
  generalize hB : ctBody D = B
  generalize hTg : ctTag D = Tg
  have hBl : B.length = D.length - 16 := by rw [← hB]; unfold ctBody; rw [List.length_take]; omega
  have hTl : Tg.length = 16 := by rw [← hTg]; unfold ctTag; rw [List.length_drop]; omega
  have hCB : D = B ++ Tg := by rw [← hB, ← hTg]; exact (List.take_append_drop _ _).symm
  have hcB : mem.Holds c B := by rw [hCB, holds_append] at hc; exact hc.1
  have hcT : mem.Holds (c + B.length) Tg := by rw [hCB, holds_append] at hc; exact hc.2
  rw [← hBl] at hm hf ⊢
  rw [Nat.mul_add, sz_round, sz_round, sz_round, ← sz16, ← sz16, ← sz16] at hf
  generalize hbs : [(h.ks, sz g.KEY 16), (h.ns, sz g.NPUB 16), (h.as, sz g.AD A.length), (h.ms, sz g.M B.length),
    (h.cs, sz g.C B.length + sz g.C 16)] = bs at hf
  have b1 : (h.ks, sz g.KEY 16) ∈ bs := by rw [← hbs]; simp
  have b2 : (h.ns, sz g.NPUB 16) ∈ bs := by rw [← hbs]; simp
  have b3 : (h.as, sz g.AD A.length) ∈ bs := by rw [← hbs]; simp
  have b4 : (h.ms, sz g.M B.length) ∈ bs := by rw [← hbs]; simp
  have b5 : (h.cs, sz g.C B.length + sz g.C 16) ∈ bs := by rw [← hbs]; simp
  have pw := hf.2
  rw [← hbs] at pw
  simp only [List.pairwise_cons, List.mem_cons, List.not_mem_nil, or_false, forall_eq_or_imp, forall_eq,
    List.Pairwise.nil, and_true, false_imp_iff, implies_true] at pw
  obtain ⟨⟨p12, p13, p14, p15⟩, ⟨p23, p24, p25⟩, ⟨p34, p35⟩, p45⟩ := pw
  generalize hM : allocAll mem bs = m0
  have w1 : m0.Writable h.ks (sz g.KEY 16) := hM ▸ alloc_writable b1
  have w2 : m0.Writable h.ns (sz g.NPUB 16) := hM ▸ alloc_writable b2
  have w3 : m0.Writable h.as (sz g.AD A.length) := hM ▸ alloc_writable b3
  have w4 : m0.Writable h.ms (sz g.M B.length) := hM ▸ alloc_writable b4
  have w5 : m0.Writable h.cs (sz g.C B.length + sz g.C 16) := hM ▸ alloc_writable b5
  have o0 : ∀ a, (∀ b ∈ bs, ¬ InB a b) → m0 a = mem a := fun a ha => hM ▸ fills_out .uninit bs mem a ha
  have hk0 : m0.Holds k K := hM ▸ alloc_holds hf hk
  have hn0 : m0.Holds npub N := hM ▸ alloc_holds hf hn
  have ha0 : m0.Holds ad A := hM ▸ alloc_holds hf ha
  have hB0 : m0.Holds c B := hM ▸ alloc_holds hf hcB
  have hT0 : m0.Holds (c + B.length) Tg := hM ▸ alloc_holds hf hcT
  have hm0 : m0.Writable m B.length := hM ▸ alloc_writable' hf hm
  have hml0 : m0.Writable mlen 8 := hM ▸ alloc_writable' hf hml
  have kd := fun b hb => (hf.1 b hb).disjoint_holds hk
  have nd := fun b hb => (hf.1 b hb).disjoint_holds hn
  have ad' := fun b hb => (hf.1 b hb).disjoint_holds ha
  have bd := fun b hb => (hf.1 b hb).disjoint_holds hcB
  have td := fun b hb => (hf.1 b hb).disjoint_holds hcT
  have md := fun b hb => (hf.1 b hb).disjoint_writable hm
  have mld := fun b hb => (hf.1 b hb).disjoint_writable hml
  have k1 := kd _ b1
  have n1 := nd _ b1; have n2 := nd _ b2
  have a1 := ad' _ b1; have a2 := ad' _ b2; have a3 := ad' _ b3
  have q1 := bd _ b1; have q2 := bd _ b2; have q3 := bd _ b3; have q5 := bd _ b5
  have t1 := td _ b1; have t2 := td _ b2; have t3 := td _ b3; have t5 := td _ b5
  have m4' := md _ b4
  have l1 := mld _ b1; have l2 := mld _ b2; have l3 := mld _ b3; have l4 := mld _ b4; have l5 := mld _ b5
  simp only [] at k1 n1 n2 a1 a2 a3 q1 q2 q3 q5 t1 t2 t3 t5 m4' l1 l2 l3 l4 l5 p12 p13 p14 p15 p23 p24 p25 p34 p35 p45
  obtain ⟨m1, r1, f1, S1⟩ := run_gen (bi := g.EXTERN_BI) (ρ := σ 0) (s := h.ks) ok.K (by rw [hK]; exact w1) hk0
    (by rw [hK] at k1 ⊢; exact dsymm k1)
  rw [hK] at f1 r1
  obtain ⟨m2, r2, f2, S2⟩ := run_gen (bi := g.EXTERN_BI) (ρ := σ 1) (mem := m1) (s := h.ns) ok.N
    (by rw [hN]; exact f1.writable w2) (f1.holds hn0 n1) (by rw [hN] at n2 ⊢; exact dsymm n2)
  rw [hN] at f2 r2
  obtain ⟨m3, r3, f3, S3⟩ := run_gen (bi := g.EXTERN_BI) (ρ := σ 2) (mem := m2) (s := h.as) ok.A
    (f2.writable (f1.writable w3)) (f2.holds (f1.holds ha0 a1) a2) (dsymm a3)
  obtain ⟨m4, r4, f4, S4⟩ := run_gen (bi := g.EXTERN_BI) (ρ := σ 3) (mem := m3) (s := h.cs) ok.C
    ((f3.writable (f2.writable (f1.writable w5))).mono (by omega) (by omega)) (f3.holds (f2.holds (f1.holds hB0 q1) q2) q3)
    (dmono (dsymm q5) (by omega) (by omega))
  obtain ⟨m5, r5, f5, S5⟩ := run_gen (bi := g.EXTERN_BI) (ρ := σ 4) (mem := m4) (s := h.cs + sz g.C B.length)
    (data := c + B.length) (D := Tg) ok.C
    (by rw [hTl]; exact (f4.writable (f3.writable (f2.writable (f1.writable w5)))).mono (by omega) (by omega))
    (f4.holds (f3.holds (f2.holds (f1.holds hT0 t1) t2) t3) (dmono t5 (by omega) (by omega)))
    (by rw [hTl] at *; exact dmono (dsymm t5) (by omega) (by omega))
  rw [hTl] at f5 r5
  have f45 : Fr m3 m5 h.cs (sz g.C B.length + sz g.C 16) := f4.trans f5 (by omega) (by omega)
  have hks5 : SH m5 g.EXTERN_BI g.KEY h.ks K := f45.sh (f3.sh (f2.sh S1 (by rw [hK]; exact dsymm p12))
    (by rw [hK]; exact dsymm p13)) (by rw [hK]; exact dsymm p15)
  have hns5 : SH m5 g.EXTERN_BI g.NPUB h.ns N := f45.sh (f3.sh S2 (by rw [hN]; exact dsymm p23)) (by rw [hN]; exact dsymm p25)
  have has5 : SH m5 g.EXTERN_BI g.AD h.as A := f45.sh S3 (dsymm p35)
  have hcs5 : SH m5 g.EXTERN_BI g.C h.cs B := f5.sh S4 (by unfold Disjoint; omega)
  have w4' := f45.writable (f3.writable (f2.writable (f1.writable w4)))
  have hm5 := f45.writable (f3.writable (f2.writable (f1.writable hm0)))
  have hml5 := f45.writable (f3.writable (f2.writable (f1.writable hml0)))
  obtain ⟨X, m6, hX, hX', f6, SX, r6⟩ := run_decrypt_shared ok (ρ := ρ) (ms := h.ms) (mlen := mlen) (clen := D.length)
    (D := B) (by omega) hTl hks5 hK hns5 hN has5 hcs5 S5 w4' hml5 (dsymm l1) (dsymm l2) (dsymm l3) (dsymm l5) p45 (dsymm p14)
  have hL : (repr64 .little (BitVec.ofNat 64 B.length)).length = 8 := by simp [repr64, length_bytes64]
  generalize hLe : repr64 .little (BitVec.ofNat 64 B.length) = L at *
  unfold aeadCandidate aeadDecTag
  generalize hbody : decBody (aeadAd A (aeadInit K N)) B = body at *
  have hbl : body.2.length = B.length := by
    rw [← hX', List.length_take, hX]; omega
  generalize hres : (if tagsMatch32 Tg (aeadTag K body.1) then (0 : Int) else -1) = res at *
  have rl : run (load64 .little mlen) m6 = some (BitVec.ofNat 64 B.length, m6) := by
    have hh : m6.Holds mlen L := f6.holds (holds_writes_self _ _ _) (by rw [hL]; exact l4)
    unfold load64
    rw [run_bind_of (run_loadN' hh hL.symm), ← hLe]
    show some (le64 (bytes64 _), m6) = _
    rw [le64_bytes64]
  have hmlv : (BitVec.ofNat 64 B.length : Word).toNat = B.length := by
    rw [BitVec.toNat_ofNat]; omega
  have r7 := run_comb (data := m) (D := body.2) ok.M SX (by rw [hbl, hX]) (by rw [hbl, hX'])
    (by rw [hbl]; exact f6.writable hm5.writes) (by rw [hbl]; exact dsymm m4')
  rw [hbl] at r7
  have key : freeAll (m6.writes m body.2) bs = (mem.writes mlen L).writes m body.2 := by
    apply freeAll_eq hf
    · intro a ha
      have hout : ∀ b ∈ bs, a < b.1 ∨ b.1 + b.2 ≤ a := fun b hb => by
        have := ha b hb; unfold InB at this; omega
      have u1 := hout _ b1; have u2 := hout _ b2; have u3 := hout _ b3; have u4 := hout _ b4; have u5 := hout _ b5
      simp only [] at u1 u2 u3 u4 u5
      have e5 : m5 a = mem a := by
        rw [f45.1 a u5, f3.1 a u3, f2.1 a u2, f1.1 a u1, o0 a ha]
      apply writes_congr
      rw [f6.1 a u4]
      exact writes_congr e5
    · intro a ha
      apply writes_unalloc
      · rw [hbl]; exact hm.writes
      · exact writes_unalloc (by rw [hL]; exact hml) ha
  rw [← key]
  have hszD : sz g.C D.length = sz g.C B.length + sz g.C 16 := by
    rw [← sz_cs, hBl]; congr 1; omega
  have hmall : ∀ (α : Type) (q : Unit → Prog α), run (do
      malloc h.ks (sz g.KEY 16)
      malloc h.ns (sz g.NPUB 16)
      malloc h.as (sz g.AD A.length)
      malloc h.ms (sz g.M B.length)
      malloc h.cs (sz g.C B.length + sz g.C 16)
      q ()) mem = run (q ()) m0 := by
    intro α q
    rw [← hM, ← hbs]
    rfl
  have hfmall : ∀ (α : Type) (q : Unit → Prog α), freed (q ()) m0 = freed (do
      malloc h.ks (sz g.KEY 16)
      malloc h.ns (sz g.NPUB 16)
      malloc h.as (sz g.AD A.length)
      malloc h.ms (sz g.M B.length)
      malloc h.cs (sz g.C B.length + sz g.C 16)
      q ()) mem := by
    intro α q
    rw [← hM, ← hbs]
    rfl
  have hfree : ∀ M : Mem, run (do
      mfree h.ks (sz g.KEY 16)
      mfree h.ns (sz g.NPUB 16)
      mfree h.as (sz g.AD A.length)
      mfree h.ms (sz g.M B.length)
      mfree h.cs (sz g.C B.length + sz g.C 16)
      pure res) M = some (res, freeAll M bs) := by
    intro M
    rw [← hbs]
    rfl
  refine ⟨⟨res, m6, ?_, rl⟩, ?_, ?_⟩
  · unfold decHead
    simp only [← hBl, sz_words, hszD]
    refine (hmall _ (fun _ => _)).trans ?_
    refine (run_bind_of r1).trans ?_
    refine (run_bind_of r2).trans ?_
    refine (run_bind_of r3).trans ?_
    refine (run_bind_of r4).trans ?_
    refine (run_bind_of r5).trans ?_
    exact r6
  · unfold crypto_aead_decrypt
    rw [run_ifc_neg (decide_eq_false (by omega))]
    simp only [← hBl, sz_words, hszD]
    refine (hmall _ (fun _ => _)).trans ?_
    refine (run_bind_of r1).trans ?_
    refine (run_bind_of r2).trans ?_
    refine (run_bind_of r3).trans ?_
    refine (run_bind_of r4).trans ?_
    refine (run_bind_of r5).trans ?_
    refine (run_bind_of r6).trans ?_
    refine (run_bind_of rl).trans ?_
    simp only [hmlv]
    refine (run_bind_of r7).trans ?_
    exact hfree _
  have all : ∀ B', B' ∈ freed (do
      mfree h.ks (sz g.KEY 16)
      mfree h.ns (sz g.NPUB 16)
      mfree h.as (sz g.AD A.length)
      mfree h.ms (sz g.M B.length)
      mfree h.cs (sz g.C B.length + sz g.C 16)
      pure res) (m6.writes m body.2) →
      B' ∈ freed (crypto_aead_decrypt g σ ρ h .little m mlen c D.length ad A.length npub k) mem := by
    intro B' hB'
    unfold crypto_aead_decrypt
    rw [freed_ifc_neg (decide_eq_false (by omega))]
    simp only [← hBl, sz_words, hszD]
    refine (hfmall _ (fun _ => _)) ▸ ?_
    refine mem_freed_bind r1 ?_
    refine mem_freed_bind r2 ?_
    refine mem_freed_bind r3 ?_
    refine mem_freed_bind r4 ?_
    refine mem_freed_bind r5 ?_
    refine mem_freed_bind r6 ?_
    refine mem_freed_bind rl ?_
    simp only [hmlv]
    exact mem_freed_bind r7 hB'
  have f7 : Fr m6 (m6.writes m body.2) m B.length := fr_writes hbl
  have dks : Disjoint m B.length h.ks (sz g.KEY 16) := dsymm (md _ b1)
  have hX8 : sz g.M X.length = sz g.M B.length := by unfold sz; rw [hX]; congr 2; omega
  have hks7 : SH (m6.writes m body.2) g.EXTERN_BI g.KEY h.ks K :=
    f7.sh (f6.sh (fr_writes hL |>.sh hks5 (by rw [hK]; exact dsymm l1)) (by rw [hK]; exact dsymm p14)) (by rw [hK]; exact dks)
  have hms7 : SH (m6.writes m body.2) g.EXTERN_BI g.M h.ms X := f7.sh SX (by rw [hX8]; exact dsymm m4')
  refine ⟨⟨_, all _ (List.mem_cons_self ..), ?_⟩, X, by rw [hX, hBl], hX', ⟨_, all _ (List.mem_cons_of_mem _
    (List.mem_cons_of_mem _ (List.mem_cons_of_mem _ (List.mem_cons_self ..)))), ?_⟩⟩
  · rw [← hK]; exact sh_only hks7
  · rw [← hX8] at p14 p24 p34 ⊢
    exact sh_only (sh_fill (sh_fill (sh_fill hms7 p14) p24) p34)

theorem run_decrypt {g : Cfg} (ok : g.Ok) (σ ρ : Nat → Nat → Word) (h : Heap) (mem : Mem) (m mlen c ad npub k : Nat)
    (K N A D : List Byte) (pre : DecPre g mem h m mlen c ad npub k K N A D) :
    run (crypto_aead_decrypt g σ ρ h .little m mlen c D.length ad A.length npub k) mem =
      some (if tagsMatch32 (ctTag D) (aeadDecTag K N A (ctBody D)) then 0 else -1,
        (mem.writes mlen (repr64 .little (BitVec.ofNat 64 (D.length - 16)))).writes m (aeadCandidate K N A (ctBody D))) :=
  (run_decrypt_aux ok σ ρ h mem m mlen c ad npub k K N A D pre).2.1

end Ascon.MaskedN
