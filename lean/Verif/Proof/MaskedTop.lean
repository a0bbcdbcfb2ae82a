import Verif.Proof.MaskedAead
import Verif.C.MaskedContracts
/-!
# crypto_aead_encrypt and crypto_aead_decrypt of protected_bi32_armv6_leveled
-/

namespace Ascon.Masked

open Ascon.Spec Ascon.C Ascon.Gen
open Ascon.C.Prog (require ifc loop forUp loadB storeB loadN storeN store64 load64)

attribute [local irreducible] perm deinterleave32 interleave32

/-! ### The shared key -/

theorem getLsbD_ROR64 (x : Word) (n i : Nat) (h : n < 64) (hi : i < 64) :
    (ROR64 x n).getLsbD i = x.getLsbD ((i + n) % 64) := by
  unfold ROR64
  rw [BitVec.getLsbD_or, BitVec.getLsbD_ushiftRight, BitVec.getLsbD_shiftLeft]
  by_cases h1 : i < 64 - n
  · rw [show (i + n) % 64 = n + i by omega]
    rcases Nat.eq_zero_or_pos n with rfl | h0
    · simp [hi]
    · simp [show i < (64 - n) % 64 by omega]
  · rw [show (i + n) % 64 = i - (64 - n) by omega, BitVec.getLsbD_of_ge x (n + i) (by omega),
      Nat.mod_eq_of_lt (by omega : 64 - n < 64)]
    simp [hi, h1]

theorem pk_ROR_enc (x : Word) :
    pk ⟨ROR32 (unpk (enc x)).w0 5, ROR32 (unpk (enc x)).w1 5⟩ = enc (ROR64 x 10) := by
  apply BitVec.eq_of_getLsbD_eq; intro i hi
  have e0 : ∀ k, k < 32 → (unpk (enc x)).w0.getLsbD k = x.getLsbD (2 * k) := by
    intro k hk
    show ((enc x).setWidth 32).getLsbD k = _
    rw [BitVec.getLsbD_setWidth, bi32_perm.bit x k (by omega)]
    simp [hk, bi32Pos]
  have e1 : ∀ k, k < 32 → (unpk (enc x)).w1.getLsbD k = x.getLsbD (2 * k + 1) := by
    intro k hk
    show ((enc x >>> 32).setWidth 32).getLsbD k = _
    rw [BitVec.getLsbD_setWidth, BitVec.getLsbD_ushiftRight, bi32_perm.bit x (32 + k) (by omega)]
    simp [hk, bi32Pos, show ¬ 32 + k < 32 by omega]
  have e2 : (enc (ROR64 x 10)).getLsbD i = x.getLsbD ((bi32Pos i + 10) % 64) := by
    rw [bi32_perm.bit _ i hi, getLsbD_ROR64 _ _ _ (by omega) (bi32_perm.lt i hi)]
  rw [getLsbD_pk _ _ hi, e2]
  unfold bi32Pos
  by_cases h : i < 32
  · rw [if_pos h, if_pos h]
    show (ROR32 (unpk (enc x)).w0 5).getLsbD i = _
    rw [getLsbD_ROR32 _ _ _ (by omega) h, e0 _ (Nat.mod_lt _ (by omega))]
    congr 1; omega
  · rw [if_neg h, if_neg h]
    show (ROR32 (unpk (enc x)).w1 5).getLsbD (i - 32) = _
    rw [getLsbD_ROR32 _ _ _ (by omega) (by omega), e1 _ (Nat.mod_lt _ (by omega))]
    congr 1; omega

theorem run_MLOAD2 {mem : Mem} {p : Nat} {x y : Word} (h0 : mem.Holds p (repr32 .little (lo x)))
    (h1 : mem.Holds (p + 4) (repr32 .little (lo y))) (h2 : mem.Holds (p + 8) (repr32 .little (hi x)))
    (h3 : mem.Holds (p + 12) (repr32 .little (hi y))) :
    run (MLOAD .little p 2) mem = some (⟨unpk (enc x), unpk (enc y)⟩, mem) := by
  unfold MLOAD
  simp only [ge_iff_le, Nat.le_refl, if_true, if_pos (show 1 ≤ 2 by decide)]
  refine (run_bind_of (a := (⟨unpk (enc x), ⟨0, 0⟩⟩ : word_t)) (mem' := mem) ?_).trans ?_
  · exact (run_bind_of (run_LOADSHARE h0 h2)).trans rfl
  refine (run_bind_of (a := (⟨unpk (enc x), unpk (enc y)⟩ : word_t)) (mem' := mem) ?_).trans rfl
  exact (run_bind_of (run_LOADSHARE h1 (by simpa [Nat.add_assoc] using h3))).trans rfl

theorem PV2_shared (r W : Word) : PV 2 ⟨unpk (enc (ROR64 r 10 ^^^ W)), unpk (enc r)⟩ = enc W := by
  rw [PV2]
  show pk (unpk _) ^^^ pk ⟨ROR32 (unpk (enc r)).w0 5, ROR32 (unpk (enc r)).w1 5⟩ = _
  rw [pk_ROR_enc, pk_unpk, enc_xor, BitVec.xor_comm, ← BitVec.xor_assoc, BitVec.xor_self]
  exact zx _

theorem keyAt_of_arr {ρ : Nat → Word} {mem0 mem : Mem} {s : Nat} {K : List Byte}
    (h : Arr mem0 mem s 2 4 (fun r c => some (shareArr ρ 2 (wordAt K) r c))) : KeyAt mem s K := by
  have hs : ∀ j, shareWord ρ 2 (wordAt K) j 0 = ROR64 (ρ j) 10 ^^^ wordAt K j := by
    intro j
    simp only [shareWord, if_true, maskX, Nat.mul_one, Nat.add_zero, Nat.reduceSub, zx]
    rfl
  have hs1 : ∀ j, shareWord ρ 2 (wordAt K) j 1 = ρ j := by
    intro j; simp [shareWord]
  have hv : ∀ r c, r < 4 → c < 2 → mem.Holds (s + 4 * (r * 2 + c)) (repr32 .little (shareArr ρ 2 (wordAt K) r c)) :=
    fun r c hr hc => h.val r c _ hr hc rfl
  refine ⟨⟨unpk (enc (ROR64 (ρ 0) 10 ^^^ wordAt K 0)), unpk (enc (ρ 0))⟩,
    ⟨unpk (enc (ROR64 (ρ 1) 10 ^^^ wordAt K 1)), unpk (enc (ρ 1))⟩, ?_, ?_, ?_⟩
  · rw [PV2_shared]; show enc (le64 (K.drop 0)) = _
    rw [le64_take8]; rfl
  · rw [PV2_shared]; rfl
  · intro mem' ha
    have hv' : ∀ r c, r < 4 → c < 2 → mem'.Holds (s + 4 * (r * 2 + c)) (repr32 .little (shareArr ρ 2 (wordAt K) r c)) :=
      fun r c hr hc => holds_of_agree (hv r c hr hc) fun a h1 h2 => ha a (by omega) (by rw [length_repr32] at h2; omega)
    have sa : ∀ r c, shareArr ρ 2 (wordAt K) r c = halfOf r (shareWord ρ 2 (wordAt K) (r / 2) c) := fun _ _ => rfl
    refine ⟨run_MLOAD2 ?_ ?_ ?_ ?_, run_MLOAD2 ?_ ?_ ?_ ?_⟩
    · have := hv' 0 0 (by omega) (by omega); rw [sa, hs] at this; exact this
    · have := hv' 0 1 (by omega) (by omega); rw [sa, hs1] at this; exact this
    · have := hv' 1 0 (by omega) (by omega); rw [sa, hs] at this; exact this
    · have := hv' 1 1 (by omega) (by omega); rw [sa, hs1] at this; exact this
    · have := hv' 2 0 (by omega) (by omega); rw [sa, hs] at this; exact this
    · have := hv' 2 1 (by omega) (by omega); rw [sa, hs1] at this; exact this
    · have := hv' 3 0 (by omega) (by omega); rw [sa, hs] at this; exact this
    · have := hv' 3 1 (by omega) (by omega); rw [sa, hs1] at this; exact this

/-! ### Unshared buffers (one share) -/

theorem shareArr1 (ρ : Nat → Word) (W : Nat → Word) (r : Nat) : shareArr ρ 1 W r 0 = halfOf r (W (r / 2)) := by
  simp only [shareArr, shareWord, if_true, Nat.sub_self, maskX]
  rw [zx]

/-- A byte list is determined by its words. -/
theorem holds_words {mem : Mem} {s : Nat} {X : List Byte} (n : Nat) (hX : X.length = 8 * n)
    (h : ∀ j, j < n → mem.Holds (s + 8 * j) (bytes64 (le64 (X.drop (8 * j))))) : mem.Holds s X := by
  intro i hi
  have hj := h (i / 8) (by omega) (i % 8) (by rw [length_bytes64]; omega)
  rw [show s + 8 * (i / 8) + i % 8 = s + i by omega] at hj
  rw [hj]
  congr 1
  have e : bytes64 (le64 (X.drop (8 * (i / 8)))) = (X.drop (8 * (i / 8))).take 8 := by
    rw [← le64_take8, bytes64_le64]
    simp; omega
  simp only [e, List.getElem_take, List.getElem_drop]
  congr 1; omega

theorem holds_of_arr1 {ρ : Nat → Word} {mem0 mem : Mem} {s : Nat} {D : List Byte}
    (h : Arr mem0 mem s 1 (NUM_WORDS D.length) (fun r c => some (shareArr ρ 1 (wordAt D) r c))) :
    mem.Holds s (padded D) := by
  apply holds_words ((D.length + 7) / 8) (length_padded D)
  intro j hj
  have e : le64 ((padded D).drop (8 * j)) = wordAt D j := by
    rw [padded_drop D j (by omega), le64_padded]; rfl
  rw [e, repr64_split, holds_append, length_repr32]
  have hR : NUM_WORDS D.length = 2 * ((D.length + 7) / 8) := by unfold NUM_WORDS; omega
  have v0 := h.val (2 * j) 0 _ (by omega) (by omega) rfl
  have v1 := h.val (2 * j + 1) 0 _ (by omega) (by omega) rfl
  rw [shareArr1] at v0 v1
  unfold idx at v0 v1
  rw [show s + 4 * (2 * j * 1 + 0) = s + 8 * j by omega, halfOf_even, show 2 * j / 2 = j by omega] at v0
  rw [show s + 4 * ((2 * j + 1) * 1 + 0) = s + 8 * j + 4 by omega, show (2 * j + 1) / 2 = j by omega] at v1
  refine ⟨v0, ?_⟩
  have : halfOf (2 * j + 1) (wordAt D j) = hi (wordAt D j) := by simp [halfOf]
  rwa [this] at v1

theorem run_combPair1 {mem : Mem} {s j : Nat} {X : List Byte} (h : mem.Holds s X) (hj : 8 * j + 8 ≤ X.length) :
    run (combPair .little s 1 j) mem = some (le64 (X.drop (8 * j)), mem) := by
  have hh := (h.drop (8 * j) (by omega)).take 8
  have e : (X.drop (8 * j)).take 8 = bytes64 (le64 (X.drop (8 * j))) := by
    rw [← le64_take8 (X.drop (8 * j)), bytes64_le64]
    simp; omega
  rw [e, repr64_split, holds_append, length_repr32] at hh
  unfold combPair
  have l0 : run (load32 .little (idx s ((2 * j + 0) * 1 + 0))) mem = some (lo (le64 (X.drop (8 * j))), mem) :=
    run_load32 (by unfold idx; rw [show s + 4 * ((2 * j + 0) * 1 + 0) = s + 8 * j by omega]; exact hh.1)
  have l1 : run (load32 .little (idx s ((2 * j + 1) * 1 + 0))) mem = some (hi (le64 (X.drop (8 * j))), mem) :=
    run_load32 (by unfold idx; rw [show s + 4 * ((2 * j + 1) * 1 + 0) = s + 8 * j + 4 by omega]; exact hh.2)
  simp only [forUp, run]
  refine (run_bind_of (a := le64 (X.drop (8 * j))) (mem' := mem) ?_).trans rfl
  refine (run_bind_of l0).trans ((run_bind_of l1).trans ?_)
  rw [hilo]
  have hr : ∀ x : Word, ROR64 x (ROT (2 * ((0 : Nat) : Int))) = x := by
    intro x
    rw [show ROT (2 * ((0 : Nat) : Int)) = 0 by decide]
    unfold ROR64; simp
  rw [hr, zx]
  rfl

/-! ### The comparison of the tag -/

theorem table8 : ∀ b : BitVec 8, ((((b.setWidth 32 - 1).sshiftRight 8 &&& 1) - 1 : U32)).toInt = if b = 0 then 0 else -1 := by
  decide +kernel

theorem fold_zero (r : U32) : (((r ||| r >>> 16) ||| (r ||| r >>> 16) >>> 8).setWidth 8 : BitVec 8) = 0 ↔ r = 0 := by
  constructor
  · intro h
    apply BitVec.eq_of_getLsbD_eq; intro i hi
    have hb := congrArg (fun z => BitVec.getLsbD z (i % 8)) h
    simp only [BitVec.getLsbD_setWidth, BitVec.getLsbD_or, BitVec.getLsbD_ushiftRight,
      show i % 8 < 8 from Nat.mod_lt _ (by omega), decide_true, Bool.true_and] at hb
    have hb' : (r.getLsbD (i % 8) = false ∧ r.getLsbD (16 + i % 8) = false) ∧
        r.getLsbD (8 + i % 8) = false ∧ r.getLsbD (16 + (8 + i % 8)) = false := by simpa using hb
    rw [show (0 : U32).getLsbD i = false from BitVec.getLsbD_zero]
    have : i = i % 8 ∨ i = 8 + i % 8 ∨ i = 16 + i % 8 ∨ i = 16 + (8 + i % 8) := by omega
    rcases this with h | h | h | h
    · rw [h]; exact hb'.1.1
    · rw [h]; exact hb'.2.1
    · rw [h]; exact hb'.1.2
    · rw [h]; exact hb'.2.2
  · rintro rfl; decide

theorem and_ff (r : U32) : r &&& 0xff = (r.setWidth 8).setWidth 32 := by
  apply BitVec.eq_of_getLsbD_eq; intro i hi
  have h255 : ∀ i : Fin 32, (0xff : U32).getLsbD i.val = decide (i.val < 8) := by decide
  rw [BitVec.getLsbD_and, BitVec.getLsbD_setWidth, BitVec.getLsbD_setWidth, h255 ⟨i, hi⟩]
  by_cases h : i < 8 <;> simp [h, hi]

theorem iszero_fold (r : U32) :
    (let result := r
     let result := result ||| result >>> 16
     let result := result ||| result >>> 8
     (((((result &&& 0xff) - 1).sshiftRight 8) &&& 1) - 1 : U32).toInt) = if r = 0 then 0 else -1 := by
  show (((((((r ||| r >>> 16) ||| (r ||| r >>> 16) >>> 8) &&& 0xff) - 1).sshiftRight 8) &&& 1) - 1 : U32).toInt = _
  rw [and_ff, table8]
  by_cases h : r = 0
  · rw [if_pos h, if_pos ((fold_zero r).2 h)]
  · rw [if_neg h, if_neg (fun hh => h ((fold_zero r).1 hh))]

theorem reduce_s0 (w : word_t) : (MREDUCE w 2 1).s0 = unpk (PV 2 w) := by
  rw [← PV_MREDUCE21, PV1, unpk_pk]

theorem ascon_iszero_eq (s : MState) : ascon_iszero s =
    if lo (PV 2 s.x3 ^^^ PV 2 s.x4) ^^^ hi (PV 2 s.x3 ^^^ PV 2 s.x4) = 0 then 0 else -1 := by
  rw [← iszero_fold]
  have e : lo (PV 2 s.x3 ^^^ PV 2 s.x4) ^^^ hi (PV 2 s.x3 ^^^ PV 2 s.x4) =
      ((MREDUCE s.x3 2 1).s0.w0 ^^^ (MREDUCE s.x3 2 1).s0.w1) ^^^
        ((MREDUCE s.x4 2 1).s0.w0 ^^^ (MREDUCE s.x4 2 1).s0.w1) := by
    rw [reduce_s0, reduce_s0, lo_xor, hi_xor]
    show _ = lo (PV 2 s.x3) ^^^ hi (PV 2 s.x3) ^^^ (lo (PV 2 s.x4) ^^^ hi (PV 2 s.x4))
    ac_rfl
  rw [e]
  rfl

theorem tag_consts : pk ⟨0xc7c72006, 0xc3bfab9c⟩ ^^^ pk ⟨0x18213f82, 0x0653ed71⟩ =
    enc ((perm 8 ⟨0, 0, 0, 0, 0⟩).x3 ^^^ (perm 8 ⟨0, 0, 0, 0, 0⟩).x4) := by decide +kernel

theorem fold_enc (z : Word) (i : Nat) (h : i < 32) : (lo (enc z) ^^^ hi (enc z)).getLsbD i =
    (z.getLsbD (2 * i) ^^ z.getLsbD (2 * i + 1)) := by
  unfold lo hi
  rw [BitVec.getLsbD_xor, BitVec.getLsbD_setWidth, BitVec.getLsbD_setWidth, BitVec.getLsbD_ushiftRight,
    bi32_perm.bit z (32 + i) (by omega), bi32_perm.bit z i (by omega)]
  simp [h, bi32Pos, show ¬ 32 + i < 32 by omega]

theorem fold_enc_zero (y z : Word) : lo (enc (y ^^^ z)) ^^^ hi (enc (y ^^^ z)) = 0 ↔ pairSums y = pairSums z := by
  have hb : ∀ i, i < 32 → ((lo (enc (y ^^^ z)) ^^^ hi (enc (y ^^^ z))).getLsbD i = false ↔
      (y.getLsbD (2 * i) ^^ y.getLsbD (2 * i + 1)) = (z.getLsbD (2 * i) ^^ z.getLsbD (2 * i + 1))) := by
    intro i hi
    rw [fold_enc _ _ hi, BitVec.getLsbD_xor, BitVec.getLsbD_xor]
    cases y.getLsbD (2 * i) <;> cases y.getLsbD (2 * i + 1) <;> cases z.getLsbD (2 * i) <;>
      cases z.getLsbD (2 * i + 1) <;> decide
  constructor
  · intro h
    unfold pairSums
    apply List.map_congr_left
    intro i hi
    rw [← hb i (List.mem_range.1 hi), h]
    exact BitVec.getLsbD_zero
  · intro h
    apply BitVec.eq_of_getLsbD_eq; intro i hi
    rw [show (0 : U32).getLsbD i = false from BitVec.getLsbD_zero, hb i hi]
    have := congrArg (fun l => l[i]?) h
    simpa [pairSums, hi] using this

theorem iszero_of {s : MState} {p q : State} {c3 c4 : Word} (hc : c3 ^^^ c4 = enc (q.x3 ^^^ q.x4))
    (h3 : PV 2 s.x3 = enc p.x3 ^^^ c3) (h4 : PV 2 s.x4 = enc p.x4 ^^^ c4) :
    ascon_iszero s = if pairSums (p.x3 ^^^ p.x4) = pairSums (q.x3 ^^^ q.x4) then 0 else -1 := by
  have e : PV 2 s.x3 ^^^ PV 2 s.x4 = enc ((p.x3 ^^^ p.x4) ^^^ (q.x3 ^^^ q.x4)) := by
    rw [enc_xor, ← hc, enc_xor, h3, h4]
    ac_rfl
  rw [ascon_iszero_eq, e]
  simp only [fold_enc_zero]

theorem iszero_tags {s : MState} {t : State} {K T : List Byte}
    (h3 : PV 2 s.x3 = enc (perm 8 (tagDiff (finState K t) T)).x3 ^^^ pk ⟨0xc7c72006, 0xc3bfab9c⟩)
    (h4 : PV 2 s.x4 = enc (perm 8 (tagDiff (finState K t) T)).x4 ^^^ pk ⟨0x18213f82, 0x0653ed71⟩) :
    ascon_iszero s = if tagsMatch32 T (aeadTag K t) then 0 else -1 := by
  rw [iszero_of tag_consts h3 h4]
  have e3 : le64 ((aeadTag K t).take 8) = (finState K t).x3 := by
    show le64 ((bytes64 (finState K t).x3 ++ bytes64 (finState K t).x4).take 8) = _
    rw [List.take_append_of_le_length (by simp [length_bytes64]), List.take_of_length_le (by simp [length_bytes64]),
      le64_bytes64]
  have e4 : le64 ((aeadTag K t).drop 8) = (finState K t).x4 := by
    show le64 ((bytes64 (finState K t).x3 ++ bytes64 (finState K t).x4).drop 8) = _
    rw [List.drop_append_of_le_length (by simp [length_bytes64]), List.drop_of_length_le (by simp [length_bytes64]),
      List.nil_append, le64_bytes64]
  have hd : tagDiff (finState K t) T = ⟨0, 0, 0, le64 (T.take 8) ^^^ le64 ((aeadTag K t).take 8),
      le64 (T.drop 8) ^^^ le64 ((aeadTag K t).drop 8)⟩ := by
    unfold tagDiff
    rw [e3, e4, BitVec.xor_comm, BitVec.xor_comm (finState K t).x4]
  generalize hp : perm 8 (tagDiff (finState K t) T) = p
  have hm : tagsMatch32 T (aeadTag K t) ↔ pairSums (p.x3 ^^^ p.x4) =
      pairSums ((perm 8 ⟨0, 0, 0, 0, 0⟩).x3 ^^^ (perm 8 ⟨0, 0, 0, 0, 0⟩).x4) := by
    rw [← hp, hd]
    exact Iff.rfl
  by_cases h : tagsMatch32 T (aeadTag K t)
  · rw [if_pos h, if_pos (hm.1 h)]
  · rw [if_neg h, if_neg (fun x => h (hm.2 x))]

/-! ### The functions on shared buffers -/

theorem words_bytes (D : List Byte) : 4 * NUM_WORDS D.length = (padded D).length := by
  rw [length_padded]; unfold NUM_WORDS; omega

theorem run_encrypt_shared {ρ : Nat → Word} {mem : Mem} {cs clen ms as ns ks : Nat} {K N A P : List Byte}
    (hk : KeyAt mem ks K) (hn : mem.Holds ns N) (hN : N.length = 16) (ha : mem.Holds as (padded A))
    (hm : mem.Holds ms (padded P)) (hw : mem.Writable cs ((padded P).length + 16)) (hcl : mem.Writable clen 8)
    (d1 : Disjoint clen 8 ks 32) (d2 : Disjoint clen 8 ns 16) (d3 : Disjoint clen 8 as (padded A).length)
    (d4 : Disjoint clen 8 ms (padded P).length) (d5 : Disjoint cs ((padded P).length + 16) ms (padded P).length)
    (d6 : Disjoint cs ((padded P).length + 16) ks 32) :
    ∃ X, X.length = (padded P).length ∧ X.take P.length = (encBody (aeadAd A (aeadInit K N)) P).2 ∧
      run (crypto_aead_encrypt_shared .little ρ cs clen ms P.length as A.length ns ks) mem =
        some (0, ((mem.writes clen (repr64 .little (BitVec.ofNat 64 (P.length + 16)))).writes cs X).writes
          (cs + (padded P).length) (aeadTag K (encBody (aeadAd A (aeadInit K N)) P).1)) := by
  have hl : (repr64 .little (BitVec.ofNat 64 (P.length + 16))).length = 8 := by simp [repr64, length_bytes64]
  generalize hW : mem.writes clen (repr64 .little (BitVec.ofNat 64 (P.length + 16))) = m1
  have hout : ∀ a, (a < clen ∨ clen + 8 ≤ a) → m1 a = mem a := fun a h => by
    rw [← hW]; exact writes_out (by omega)
  have r0 : run (store64 .little clen (BitVec.ofNat 64 (P.length + 16))) mem = some ((), m1) := by
    rw [← hW]; exact run_storeN (by rw [hl]; exact hcl)
  have hk1 : KeyAt m1 ks K := hk.agree fun a h1 h2 => hout a (by unfold Disjoint at d1; omega)
  have hn1 : m1.Holds ns N := holds_of_agree hn fun a h1 h2 => hout a (by unfold Disjoint at d2; omega)
  have ha1 : m1.Holds as (padded A) := holds_of_agree ha fun a h1 h2 => hout a (by unfold Disjoint at d3; omega)
  have hm1 : m1.Holds ms (padded P) := holds_of_agree hm fun a h1 h2 => hout a (by unfold Disjoint at d4; omega)
  have hw1 : m1.Writable cs ((padded P).length + 16) := by rw [← hW]; exact hw.writes
  obtain ⟨s1, R1, r1⟩ := run_ascon_initaead (ρ := ρ) hk1 hn1 hN
  obtain ⟨s2, R2, r2⟩ := run_ascon_adata (rel_level_adata R1) ha1
  obtain ⟨s3, X, R3, hX, hX', r3⟩ := run_ascon_encrypt (c := cs) R2 hm1 (hw1.mono (by omega) (by omega))
    (by unfold Disjoint at *; omega)
  have hk3 : KeyAt (m1.writes cs X) ks K := hk1.agree fun a h1 h2 => writes_out (by unfold Disjoint at d6; omega)
  obtain ⟨s4, R4, r4⟩ := run_ascon_final (rel_level_final (fun i => ρ (4 + i)) R3) hk3
  have r5 := run_ascon_settag (p := cs + (padded P).length) R4
    ((hw1.writes (q := cs) (bs := X)).mono (by omega) (by omega))
  refine ⟨X, hX, hX', ?_⟩
  unfold crypto_aead_encrypt_shared
  refine (run_bind_of r0).trans ?_
  refine (run_bind_of r1).trans ?_
  refine (run_bind_of r2).trans ?_
  refine (run_bind_of r3).trans ?_
  refine (run_bind_of r4).trans ?_
  rw [words_bytes]
  exact (run_bind_of r5).trans rfl

theorem run_decrypt_shared {ρ : Nat → Word} {mem : Mem} {ms mlen cs as ns ks clen : Nat} {K N A C T : List Byte}
    (hcl : clen = C.length + 16) (hT : T.length = 16)
    (hk : KeyAt mem ks K) (hn : mem.Holds ns N) (hN : N.length = 16) (ha : mem.Holds as (padded A))
    (hc : mem.Holds cs (padded C)) (ht : mem.Holds (cs + (padded C).length) T)
    (hw : mem.Writable ms (padded C).length) (hml : mem.Writable mlen 8)
    (d1 : Disjoint mlen 8 ks 32) (d2 : Disjoint mlen 8 ns 16) (d3 : Disjoint mlen 8 as (padded A).length)
    (d4 : Disjoint mlen 8 cs ((padded C).length + 16)) (d5 : Disjoint ms (padded C).length cs ((padded C).length + 16))
    (d6 : Disjoint ms (padded C).length ks 32) :
    ∃ X, X.length = (padded C).length ∧ X.take C.length = (decBody (aeadAd A (aeadInit K N)) C).2 ∧
      run (crypto_aead_decrypt_shared .little ρ ms mlen cs clen as A.length ns ks) mem =
        some (if tagsMatch32 T (aeadTag K (decBody (aeadAd A (aeadInit K N)) C).1) then 0 else -1,
          (mem.writes mlen (repr64 .little (BitVec.ofNat 64 C.length))).writes ms X) := by
  have hl : (repr64 .little (BitVec.ofNat 64 C.length)).length = 8 := by simp [repr64, length_bytes64]
  generalize hW : mem.writes mlen (repr64 .little (BitVec.ofNat 64 C.length)) = m1
  have hout : ∀ a, (a < mlen ∨ mlen + 8 ≤ a) → m1 a = mem a := fun a h => by
    rw [← hW]; exact writes_out (by omega)
  have r0 : run (store64 .little mlen (BitVec.ofNat 64 C.length)) mem = some ((), m1) := by
    rw [← hW]; exact run_storeN (by rw [hl]; exact hml)
  have hk1 : KeyAt m1 ks K := hk.agree fun a h1 h2 => hout a (by unfold Disjoint at d1; omega)
  have hn1 : m1.Holds ns N := holds_of_agree hn fun a h1 h2 => hout a (by unfold Disjoint at d2; omega)
  have ha1 : m1.Holds as (padded A) := holds_of_agree ha fun a h1 h2 => hout a (by unfold Disjoint at d3; omega)
  have hc1 : m1.Holds cs (padded C) := holds_of_agree hc fun a h1 h2 => hout a (by unfold Disjoint at d4; omega)
  have ht1 : m1.Holds (cs + (padded C).length) T :=
    holds_of_agree ht fun a h1 h2 => hout a (by unfold Disjoint at d4; omega)
  have hw1 : m1.Writable ms (padded C).length := by rw [← hW]; exact hw.writes
  obtain ⟨s1, R1, r1⟩ := run_ascon_initaead (ρ := ρ) hk1 hn1 hN
  obtain ⟨s2, R2, r2⟩ := run_ascon_adata (rel_level_adata R1) ha1
  obtain ⟨s3, X, R3, hX, hX', r3⟩ := run_ascon_decrypt (m := ms) R2 hc1 hw1 (by unfold Disjoint at *; omega)
  have hk3 : KeyAt (m1.writes ms X) ks K := hk1.agree fun a h1 h2 => writes_out (by unfold Disjoint at d6; omega)
  have ht3 : (m1.writes ms X).Holds (cs + (padded C).length) T :=
    ht1.writes_disjoint (by unfold Disjoint at *; omega)
  obtain ⟨s4, R4, r4⟩ := run_ascon_final (rel_level_final (fun i => ρ (4 + i)) R3) hk3
  obtain ⟨s5, ⟨h3, h4⟩, r5⟩ := run_ascon_xortag R4 ht3 hT
  refine ⟨X, hX, hX', ?_⟩
  rw [← iszero_tags h3 h4]
  unfold crypto_aead_decrypt_shared
  rw [show clen - 16 = C.length by omega]
  refine (run_bind_of r0).trans ?_
  refine (run_bind_of r1).trans ?_
  refine (run_bind_of r2).trans ?_
  refine (run_bind_of r3).trans ?_
  refine (run_bind_of r4).trans ?_
  rw [words_bytes]
  exact (run_bind_of r5).trans rfl

/-! ### The public functions -/

/-- `a` lies in the block. -/
def InB (a : Nat) (b : Nat × Nat) : Prop := b.1 ≤ a ∧ a < b.1 + b.2

/-- Allocation of a list of blocks. -/
def allocAll (mem : Mem) (bs : List (Nat × Nat)) : Mem := bs.foldl (fun m b => m.fill b.1 b.2 .uninit) mem
def freeAll (mem : Mem) (bs : List (Nat × Nat)) : Mem := bs.foldl (fun m b => m.fill b.1 b.2 .unalloc) mem

theorem fills_out (c : Cell) (bs : List (Nat × Nat)) (mem : Mem) (a : Nat) (h : ∀ b ∈ bs, ¬ InB a b) :
    bs.foldl (fun m b => m.fill b.1 b.2 c) mem a = mem a := by
  induction bs generalizing mem with
  | nil => rfl
  | cons b bs ih =>
    rw [List.foldl_cons, ih _ (fun x hx => h x (List.mem_cons_of_mem _ hx))]
    have := h b List.mem_cons_self
    unfold InB at this
    rw [fill_out (by omega)]

theorem fills_in (c : Cell) (bs : List (Nat × Nat)) (mem : Mem) (a : Nat) (h : ∃ b ∈ bs, InB a b) :
    bs.foldl (fun m b => m.fill b.1 b.2 c) mem a = c := by
  induction bs generalizing mem with
  | nil => obtain ⟨b, hb, -⟩ := h; simp at hb
  | cons b bs ih =>
    rw [List.foldl_cons]
    by_cases h' : ∃ b ∈ bs, InB a b
    · exact ih _ h'
    · rw [fills_out c bs _ a (fun x hx hin => h' ⟨x, hx, hin⟩)]
      obtain ⟨x, hx, hin⟩ := h
      rcases List.mem_cons.1 hx with rfl | hx
      · exact fill_in hin
      · exact absurd ⟨x, hx, hin⟩ h'

theorem alloc_writable {mem : Mem} {bs : List (Nat × Nat)} {b : Nat × Nat} (hb : b ∈ bs) :
    (allocAll mem bs).Writable b.1 b.2 := fun i hi => by
  unfold allocAll
  rw [fills_in .uninit bs mem _ ⟨b, hb, by unfold InB; omega⟩]; simp

/-- Addresses of accessible buffers are outside of fresh blocks. -/
theorem not_inB {mem : Mem} {bs : List (Nat × Nat)} (hf : FreshBlocks mem bs) {a : Nat} (ha : mem a ≠ .unalloc) :
    ∀ b ∈ bs, ¬ InB a b := fun b hb hin => ha <| by
  have := hf.1 b hb (a - b.1) (by unfold InB at hin; omega)
  rwa [show b.1 + (a - b.1) = a by unfold InB at hin; omega] at this

theorem alloc_holds {mem : Mem} {bs : List (Nat × Nat)} (hf : FreshBlocks mem bs) {p : Nat} {D : List Byte}
    (h : mem.Holds p D) : (allocAll mem bs).Holds p D := fun i hi => by
  have := h i hi
  unfold allocAll
  rw [fills_out .uninit bs mem _ (not_inB hf (by intro h0; rw [h0] at this; simp at this)), this]

theorem alloc_writable' {mem : Mem} {bs : List (Nat × Nat)} (hf : FreshBlocks mem bs) {p n : Nat}
    (h : mem.Writable p n) : (allocAll mem bs).Writable p n := fun i hi => by
  have := h i hi
  unfold allocAll
  rw [fills_out .uninit bs mem _ (not_inB hf (by intro h0; rw [h0] at this; simp at this))]; exact this

/-- If `m` is `mem` but for fresh blocks and a change `f` to accessible memory, then freeing the blocks leaves just
the change. -/
theorem freeAll_eq {mem m m' : Mem} {bs : List (Nat × Nat)} (hf : FreshBlocks mem bs)
    (h1 : ∀ a, (∀ b ∈ bs, ¬ InB a b) → m a = m' a) (h2 : ∀ a, mem a = .unalloc → m' a = .unalloc) :
    freeAll m bs = m' := by
  funext a
  unfold freeAll
  by_cases h : ∃ b ∈ bs, InB a b
  · rw [fills_in .unalloc bs m a h]
    obtain ⟨b, hb, hin⟩ := h
    have := hf.1 b hb (a - b.1) (by unfold InB at hin; omega)
    rw [show b.1 + (a - b.1) = a by unfold InB at hin; omega] at this
    rw [h2 a this]
  · rw [fills_out .unalloc bs m a (fun x hx hin => h ⟨x, hx, hin⟩)]
    exact h1 a fun x hx hin => h ⟨x, hx, hin⟩

theorem writes_unalloc {mem : Mem} {p : Nat} {bs : List Byte} (h : mem.Writable p bs.length) {a : Nat}
    (ha : mem a = .unalloc) : mem.writes p bs a = .unalloc := by
  rw [writes_out, ha]
  by_cases h1 : a < p
  · exact .inl h1
  by_cases h2 : p + bs.length ≤ a
  · exact .inr h2
  have := h (a - p) (by omega)
  rw [show p + (a - p) = a by omega] at this
  rw [ha] at this; simp at this

theorem run_combine1 {mem : Mem} {s data : Nat} {X D : List Byte} (hX : mem.Holds s X)
    (hl : X.length = roundUp8 D.length) (hXD : X.take D.length = D) (hw : mem.Writable data D.length)
    (hd : Disjoint data D.length s X.length) :
    run (combine_shares .little data D.length s 1) mem = some ((), mem.writes data D) := by
  unfold roundUp8 at hl
  refine run_combine_shares (W := fun j => le64 (X.drop (8 * j))) hw ?_ ?_
  · intro mem' ha j hj
    apply run_combPair1 (holds_of_agree hX ?_) (by omega)
    intro a h1 h2
    exact ha a (by unfold Disjoint at hd; omega)
  · intro j hj
    have e : bytes64 (le64 (X.drop (8 * j))) = (X.drop (8 * j)).take 8 := by
      rw [← le64_take8 (X.drop (8 * j)), bytes64_le64]
      simp; omega
    show (bytes64 (le64 (X.drop (8 * j)))).take _ = _
    rw [e, ← hXD, List.length_take, List.drop_take, List.take_take, List.take_take]
    congr 1
    omega

theorem roundUp8_padded (D : List Byte) : (padded D).length = roundUp8 D.length := length_padded D

theorem writes_congr {m m' : Mem} {p a : Nat} {bs : List Byte} (h : m a = m' a) : m.writes p bs a = m'.writes p bs a := by
  unfold Mem.writes
  split
  · rfl
  · exact h

theorem dsymm {p n q k : Nat} (h : Disjoint p n q k) : Disjoint q k p n := by unfold Disjoint at *; omega

theorem dout {p n q k a : Nat} (h : Disjoint p n q k) (h1 : p ≤ a) (h2 : a < p + n) : a < q ∨ q + k ≤ a := by
  unfold Disjoint at h; omega

theorem dmono {p n q k p' n' q' k' : Nat} (h : Disjoint p n q k) (h1 : n' = 0 ∨ (p ≤ p' ∧ p' + n' ≤ p + n))
    (h2 : k' = 0 ∨ (q ≤ q' ∧ q' + k' ≤ q + k)) : Disjoint p' n' q' k' := by
  unfold Disjoint at *; omega

/-- `crypto_aead_encrypt` up to the point where `*clen` is read. -/
def encHead (ρ : Nat → Word) (h : Heap) (e : Endian) (clen m mlen a alen npub k : Nat) : Prog Unit := do
  malloc h.ks (8 * NUM_WORDS 16)
  malloc h.ns (4 * NUM_WORDS 16)
  malloc h.as (4 * NUM_WORDS alen)
  malloc h.ms (4 * NUM_WORDS mlen)
  malloc h.cs (4 * NUM_WORDS (mlen + 16))
  generate_shares e ρ h.ks 2 k 16
  generate_shares e ρ h.ns 1 npub 16
  generate_shares e ρ h.as 1 a alen
  generate_shares e ρ h.ms 1 m mlen
  let _ ← crypto_aead_encrypt_shared e (fun i => ρ (2 + i)) h.cs clen h.ms mlen h.as alen h.ns h.ks
  pure ()

theorem run_encrypt_aux (ρ : Nat → Word) (h : Heap) (mem : Mem) (c clen m ad npub k : Nat) (K N A P : List Byte)
    (pre : EncPre mem h c clen m ad npub k K N A P) :
    (∃ m5, run (encHead ρ h .little clen m P.length ad A.length npub k) mem = some ((), m5) ∧
      run (load64 .little clen) m5 = some (BitVec.ofNat 64 (P.length + 16), m5)) ∧
    run (crypto_aead_encrypt ρ h .little c clen m P.length ad A.length npub k) mem =
      some (0, (mem.writes clen (repr64 .little (BitVec.ofNat 64 (P.length + 16)))).writes c (aeadEncrypt K N A P)) := by
  obtain ⟨hk, hK, hn, hN, ha, haL, hm, hmL, hc, hcl, hf⟩ := pre
  have hpA : roundUp8 A.length = 4 * NUM_WORDS A.length := by unfold roundUp8 NUM_WORDS; omega
  have hpP : roundUp8 P.length = 4 * NUM_WORDS P.length := by unfold roundUp8 NUM_WORDS; omega
  have hpC : roundUp8 P.length + 16 = 4 * NUM_WORDS (P.length + 16) := by unfold roundUp8 NUM_WORDS; omega
  generalize hbs : [(h.ks, 32), (h.ns, 16), (h.as, roundUp8 A.length), (h.ms, roundUp8 P.length),
    (h.cs, roundUp8 P.length + 16)] = bs at hf
  have b1 : (h.ks, 32) ∈ bs := by rw [← hbs]; simp
  have b2 : (h.ns, 16) ∈ bs := by rw [← hbs]; simp
  have b3 : (h.as, roundUp8 A.length) ∈ bs := by rw [← hbs]; simp
  have b4 : (h.ms, roundUp8 P.length) ∈ bs := by rw [← hbs]; simp
  have b5 : (h.cs, roundUp8 P.length + 16) ∈ bs := by rw [← hbs]; simp
  have pw := hf.2
  rw [← hbs] at pw
  simp only [List.pairwise_cons, List.mem_cons, List.not_mem_nil, or_false, forall_eq_or_imp, forall_eq,
    List.Pairwise.nil, and_true, false_imp_iff, implies_true] at pw
  obtain ⟨⟨p12, p13, p14, p15⟩, ⟨p23, p24, p25⟩, ⟨p34, p35⟩, p45⟩ := pw
  -- allocation
  generalize hM : allocAll mem bs = m0
  have w1 : m0.Writable h.ks 32 := hM ▸ alloc_writable b1
  have w2 : m0.Writable h.ns 16 := hM ▸ alloc_writable b2
  have w3 : m0.Writable h.as (roundUp8 A.length) := hM ▸ alloc_writable b3
  have w4 : m0.Writable h.ms (roundUp8 P.length) := hM ▸ alloc_writable b4
  have w5 : m0.Writable h.cs (roundUp8 P.length + 16) := hM ▸ alloc_writable b5
  have o0 : ∀ a, (∀ b ∈ bs, ¬ InB a b) → m0 a = mem a := fun a ha => hM ▸ fills_out .uninit bs mem a ha
  have hk0 : m0.Holds k K := hM ▸ alloc_holds hf hk
  have hn0 : m0.Holds npub N := hM ▸ alloc_holds hf hn
  have ha0 : m0.Holds ad A := hM ▸ alloc_holds hf ha
  have hm0 : m0.Holds m P := hM ▸ alloc_holds hf hm
  have hc0 : m0.Writable c (P.length + 16) := hM ▸ alloc_writable' hf hc
  have hcl0 : m0.Writable clen 8 := hM ▸ alloc_writable' hf hcl
  -- separation of the caller's buffers from the heap
  have kd := fun b hb => (hf.1 b hb).disjoint_holds hk
  have nd := fun b hb => (hf.1 b hb).disjoint_holds hn
  have ad' := fun b hb => (hf.1 b hb).disjoint_holds ha
  have md := fun b hb => (hf.1 b hb).disjoint_holds hm
  have cd := fun b hb => (hf.1 b hb).disjoint_writable hc
  have cld := fun b hb => (hf.1 b hb).disjoint_writable hcl
  -- shares
  have wx : ∀ {m0 m1 : Mem} {s n R : Nat} {f} (_ : Arr m0 m1 s n R f) {p q : Nat}, m0.Writable p q → m1.Writable p q := by
    intro m0 m1 s n R f h p q hw i hi
    by_cases hin : s ≤ p + i ∧ p + i < s + 4 * (R * n)
    · have := h.wr (p + i - s) (by omega)
      rwa [show s + (p + i - s) = p + i by omega] at this
    · rw [h.out _ (by omega)]; exact hw i hi
  have k1 := kd _ b1; have k2 := kd _ b2; have k3 := kd _ b3; have k4 := kd _ b4
  have n1 := nd _ b1; have n2 := nd _ b2; have n3 := nd _ b3; have n4 := nd _ b4
  have a1 := ad' _ b1; have a2 := ad' _ b2; have a3 := ad' _ b3; have a4 := ad' _ b4
  have m1' := md _ b1; have m2' := md _ b2; have m3' := md _ b3; have m4' := md _ b4
  have c5 := cd _ b5
  have l1 := cld _ b1; have l2 := cld _ b2; have l3 := cld _ b3; have l4 := cld _ b4; have l5 := cld _ b5
  simp only [] at k1 k2 k3 k4 n1 n2 n3 n4 a1 a2 a3 a4 m1' m2' m3' m4' c5 l1 l2 l3 l4 l5 p12 p13 p14 p15 p23 p24 p25 p34 p35 p45
  have hNW : NUM_WORDS 16 = 4 := rfl
  obtain ⟨m1, r1, A1⟩ := run_generate_shares (ρ := ρ) (s := h.ks) (n := 2) (by omega)
    (by rw [hK]; exact w1) hk0 (by rw [hK] at k1 ⊢; exact dsymm k1)
  rw [hK, hNW] at A1
  rw [hK] at r1
  obtain ⟨m2, r2, A2⟩ := run_generate_shares (ρ := ρ) (mem := m1) (s := h.ns) (n := 1) (by omega)
    (by rw [hN]; exact wx A1 w2) (A1.holds hn0 (dsymm n1))
    (by rw [hN] at n2 ⊢; exact dsymm n2)
  have hns2 : m2.Holds h.ns N := padded_mult8 N (by omega) ▸ holds_of_arr1 A2
  rw [hN, hNW] at A2
  rw [hN] at r2
  obtain ⟨m3, r3, A3⟩ := run_generate_shares (ρ := ρ) (mem := m2) (s := h.as) (n := 1) (data := ad) (D := A) (by omega)
    (by rw [Nat.mul_one, ← hpA]; exact wx A2 (wx A1 w3))
    (A2.holds (A1.holds ha0 (dsymm a1)) (dsymm a2))
    (by rw [Nat.mul_one, ← hpA]; exact dsymm a3)
  obtain ⟨m4, r4, A4⟩ := run_generate_shares (ρ := ρ) (mem := m3) (s := h.ms) (n := 1) (data := m) (D := P) (by omega)
    (by rw [Nat.mul_one, ← hpP]; exact wx A3 (wx A2 (wx A1 w4)))
    (A3.holds (A2.holds (A1.holds hm0 (dsymm m1')) (dsymm m2')) (by rw [Nat.mul_one, ← hpA]; exact dsymm m3'))
    (by rw [Nat.mul_one, ← hpP]; exact dsymm m4')
  have hks4 : KeyAt m4 h.ks K := by
    apply (keyAt_of_arr A1).agree
    intro a h1 h2
    rw [A4.out a (by rw [Nat.mul_one, ← hpP]; exact dout p14 h1 h2),
      A3.out a (by rw [Nat.mul_one, ← hpA]; exact dout p13 h1 h2), A2.out a (dout p12 h1 h2)]
  have hns4 : m4.Holds h.ns N := by
    apply holds_of_agree hns2
    intro a h1 h2
    rw [hN] at h2
    rw [A4.out a (by rw [Nat.mul_one, ← hpP]; exact dout p24 h1 h2),
      A3.out a (by rw [Nat.mul_one, ← hpA]; exact dout p23 h1 h2)]
  have has4 : m4.Holds h.as (padded A) := by
    apply holds_of_agree (holds_of_arr1 A3)
    intro a h1 h2
    rw [roundUp8_padded] at h2
    rw [A4.out a (by rw [Nat.mul_one, ← hpP]; exact dout p34 h1 h2)]
  have hms4 : m4.Holds h.ms (padded P) := holds_of_arr1 A4
  have w5' : m4.Writable h.cs (roundUp8 P.length + 16) := wx A4 (wx A3 (wx A2 (wx A1 w5)))
  have hc4 : m4.Writable c (P.length + 16) := wx A4 (wx A3 (wx A2 (wx A1 hc0)))
  have hcl4 : m4.Writable clen 8 := wx A4 (wx A3 (wx A2 (wx A1 hcl0)))
  obtain ⟨X, hX, hX', r5⟩ := run_encrypt_shared (ρ := fun i => ρ (2 + i)) (cs := h.cs) (clen := clen) hks4 hns4 hN has4 hms4
    (by rw [roundUp8_padded]; exact w5') hcl4
    (dsymm l1) (dsymm l2)
    (by rw [roundUp8_padded]; exact dsymm l3) (by rw [roundUp8_padded]; exact dsymm l4)
    (by rw [roundUp8_padded]; exact dsymm p45) (by rw [roundUp8_padded]; exact dsymm p15)
  rw [roundUp8_padded] at hX r5
  have hL : (repr64 .little (BitVec.ofNat 64 (P.length + 16))).length = 8 := by simp [repr64, length_bytes64]
  generalize hLe : repr64 .little (BitVec.ofNat 64 (P.length + 16)) = L at *
  unfold aeadEncrypt
  simp only []
  generalize hbody : encBody (aeadAd A (aeadInit K N)) P = body at *
  have hT : (aeadTag K body.1).length = 16 := by simp [aeadTag, length_bytes64]
  have hbl : body.2.length = P.length := by
    rw [← hX', List.length_take, hX]; unfold roundUp8; omega
  generalize aeadTag K body.1 = T at *
  generalize hm5 : ((m4.writes clen L).writes h.cs X).writes (h.cs + roundUp8 P.length) T = m5 at *
  -- reading the length
  have rl : run (load64 .little clen) m5 = some (BitVec.ofNat 64 (P.length + 16), m5) := by
    have hh : m5.Holds clen L := by
      rw [← hm5]
      exact ((holds_writes_self _ _ _).writes_disjoint (by rw [hX, hL]; exact dmono l5 (by omega) (by omega))).writes_disjoint
        (by rw [hT, hL]; exact dmono l5 (by omega) (by omega))
    unfold load64
    rw [run_bind_of (run_loadN' hh hL.symm), ← hLe]
    show some (le64 (bytes64 _), m5) = _
    rw [le64_bytes64]
  have hml : (BitVec.ofNat 64 (P.length + 16) - 16 : Word).toNat = P.length := by
    rw [BitVec.toNat_sub, BitVec.toNat_ofNat, show (16 : Word).toNat = 16 from rfl]
    omega
  -- output
  have hX5 : m5.Holds h.cs X := by
    rw [← hm5]
    exact (holds_writes_self _ _ _).writes_disjoint (by rw [hX]; unfold Disjoint; omega)
  have hT5 : m5.Holds (h.cs + roundUp8 P.length) T := by rw [← hm5]; exact holds_writes_self _ _ _
  have hc5 : m5.Writable c (P.length + 16) := by rw [← hm5]; exact hc4.writes.writes.writes
  have r6 := run_combine1 (data := c) (D := body.2) hX5 (by rw [hbl, hX]) (by rw [hbl, hX'])
    (by rw [hbl]; exact hc5.mono (by omega) (by omega)) (by rw [hbl, hX]; exact dmono (dsymm c5) (by omega) (by omega))
  have r7 := run_combine1 (mem := m5.writes c body.2) (data := c + P.length) (s := h.cs + roundUp8 P.length) (D := T)
    (hT5.writes_disjoint (by rw [hbl, hT]; exact dmono (dsymm c5) (by omega) (by omega))) (by rw [hT]; rfl)
    (List.take_of_length_le (by omega)) (by rw [hT]; exact hc5.writes.mono (by omega) (by omega))
    (by rw [hT]; exact dmono (dsymm c5) (by omega) (by omega))
  rw [hT] at r7
  rw [hbl] at r6
  -- assemble
  have key : freeAll ((m5.writes c body.2).writes (c + P.length) T) bs = (mem.writes clen L).writes c (body.2 ++ T) := by
    apply freeAll_eq hf
    · intro a ha
      have hout : ∀ b ∈ bs, a < b.1 ∨ b.1 + b.2 ≤ a := fun b hb => by
        have := ha b hb; unfold InB at this; omega
      have o1 := hout _ b1; have o2 := hout _ b2; have o3 := hout _ b3; have o4 := hout _ b4; have o5 := hout _ b5
      simp only [] at o1 o2 o3 o4 o5
      have e4 : m4 a = mem a := by
        rw [A4.out a (by omega), A3.out a (by omega), A2.out a (by omega), A1.out a (by omega), o0 a ha]
      rw [writes_append, hbl]
      apply writes_congr
      apply writes_congr
      rw [← hm5, writes_out (by omega), writes_out (by omega)]
      exact writes_congr e4
    · intro a ha
      apply writes_unalloc
      · rw [List.length_append, hbl, hT]; exact hc.writes
      · exact writes_unalloc (by rw [hL]; exact hcl) ha
  rw [← key]
  unfold crypto_aead_encrypt
  have hmall : ∀ (α : Type) (q : Unit → Prog α), run (do
      malloc h.ks (8 * NUM_WORDS 16)
      malloc h.ns (4 * NUM_WORDS 16)
      malloc h.as (4 * NUM_WORDS A.length)
      malloc h.ms (4 * NUM_WORDS P.length)
      malloc h.cs (4 * NUM_WORDS (P.length + 16))
      q ()) mem = run (q ()) m0 := by
    intro α q
    rw [← hpA, ← hpP, ← hpC, ← hM, ← hbs]
    rfl
  have hfree : ∀ M : Mem, run (do
      mfree h.ks (8 * NUM_WORDS 16)
      mfree h.ns (4 * NUM_WORDS 16)
      mfree h.as (4 * NUM_WORDS A.length)
      mfree h.ms (4 * NUM_WORDS P.length)
      mfree h.cs (4 * NUM_WORDS (P.length + 16))
      pure (0 : Int)) M = some (0, freeAll M bs) := by
    intro M
    rw [← hpA, ← hpP, ← hpC, ← hbs]
    rfl
  refine ⟨⟨m5, ?_, rl⟩, ?_⟩
  · unfold encHead
    refine (hmall _ (fun _ => _)).trans ?_
    refine (run_bind_of r1).trans ?_
    refine (run_bind_of r2).trans ?_
    refine (run_bind_of r3).trans ?_
    refine (run_bind_of r4).trans ?_
    exact (run_bind_of r5).trans rfl
  refine (hmall _ (fun _ => _)).trans ?_
  refine (run_bind_of r1).trans ?_
  refine (run_bind_of r2).trans ?_
  refine (run_bind_of r3).trans ?_
  refine (run_bind_of r4).trans ?_
  refine (run_bind_of r5).trans ?_
  refine (run_bind_of rl).trans ?_
  simp only [hml]
  refine (run_bind_of r6).trans ?_
  rw [← hpP]
  refine (run_bind_of r7).trans ?_
  rw [hpP]
  exact hfree _

theorem run_encrypt (ρ : Nat → Word) (h : Heap) (mem : Mem) (c clen m ad npub k : Nat) (K N A P : List Byte)
    (pre : EncPre mem h c clen m ad npub k K N A P) :
    run (crypto_aead_encrypt ρ h .little c clen m P.length ad A.length npub k) mem =
      some (0, (mem.writes clen (repr64 .little (BitVec.ofNat 64 (P.length + 16)))).writes c (aeadEncrypt K N A P)) :=
  (run_encrypt_aux ρ h mem c clen m ad npub k K N A P pre).2

/-- `crypto_aead_decrypt`, after the test of the length, up to the point where `*mlen` is read. -/
def decHead (ρ : Nat → Word) (h : Heap) (e : Endian) (mlen c clen a alen npub k : Nat) : Prog Int := do
  malloc h.ks (8 * NUM_WORDS 16)
  malloc h.ns (4 * NUM_WORDS 16)
  malloc h.as (4 * NUM_WORDS alen)
  malloc h.ms (4 * NUM_WORDS (clen - 16))
  malloc h.cs (4 * NUM_WORDS clen)
  generate_shares e ρ h.ks 2 k 16
  generate_shares e ρ h.ns 1 npub 16
  generate_shares e ρ h.as 1 a alen
  generate_shares e ρ h.cs 1 c (clen - 16)
  generate_shares e ρ (h.cs + 4 * NUM_WORDS (clen - 16)) 1 (c + (clen - 16)) 16
  crypto_aead_decrypt_shared e (fun i => ρ (2 + i)) h.ms mlen h.cs clen h.as alen h.ns h.ks

theorem run_decrypt_aux (ρ : Nat → Word) (h : Heap) (mem : Mem) (m mlen c ad npub k : Nat) (K N A C : List Byte)
    (pre : DecPre mem h m mlen c ad npub k K N A C) :
    (∃ r m6, run (decHead ρ h .little mlen c C.length ad A.length npub k) mem = some (r, m6) ∧
      run (load64 .little mlen) m6 = some (BitVec.ofNat 64 (C.length - 16), m6)) ∧
    run (crypto_aead_decrypt ρ h .little m mlen c C.length ad A.length npub k) mem =
      some (if tagsMatch32 (ctTag C) (aeadDecTag K N A (ctBody C)) then 0 else -1,
        (mem.writes mlen (repr64 .little (BitVec.ofNat 64 (C.length - 16)))).writes m (aeadCandidate K N A (ctBody C))) := by
  obtain ⟨hk, hK, hn, hN, ha, haL, hc, hcm, hcL, hm, hml, hf⟩ := pre
  generalize hB : ctBody C = B
  generalize hTg : ctTag C = Tg
  have hBl : B.length = C.length - 16 := by rw [← hB]; unfold ctBody; rw [List.length_take]; omega
  have hTl : Tg.length = 16 := by rw [← hTg]; unfold ctTag; rw [List.length_drop]; omega
  have hCB : C = B ++ Tg := by rw [← hB, ← hTg]; exact (List.take_append_drop _ _).symm
  have hcB : mem.Holds c B := by rw [hCB, holds_append] at hc; exact hc.1
  have hcT : mem.Holds (c + B.length) Tg := by rw [hCB, holds_append] at hc; exact hc.2
  rw [← hBl] at hm hf ⊢
  have hpA : roundUp8 A.length = 4 * NUM_WORDS A.length := by unfold roundUp8 NUM_WORDS; omega
  have hpB : roundUp8 B.length = 4 * NUM_WORDS B.length := by unfold roundUp8 NUM_WORDS; omega
  have hpC : roundUp8 B.length + 16 = 4 * NUM_WORDS C.length := by unfold roundUp8 NUM_WORDS; omega
  generalize hbs : [(h.ks, 32), (h.ns, 16), (h.as, roundUp8 A.length), (h.ms, roundUp8 B.length),
    (h.cs, roundUp8 B.length + 16)] = bs at hf
  have b1 : (h.ks, 32) ∈ bs := by rw [← hbs]; simp
  have b2 : (h.ns, 16) ∈ bs := by rw [← hbs]; simp
  have b3 : (h.as, roundUp8 A.length) ∈ bs := by rw [← hbs]; simp
  have b4 : (h.ms, roundUp8 B.length) ∈ bs := by rw [← hbs]; simp
  have b5 : (h.cs, roundUp8 B.length + 16) ∈ bs := by rw [← hbs]; simp
  have pw := hf.2
  rw [← hbs] at pw
  simp only [List.pairwise_cons, List.mem_cons, List.not_mem_nil, or_false, forall_eq_or_imp, forall_eq,
    List.Pairwise.nil, and_true, false_imp_iff, implies_true] at pw
  obtain ⟨⟨p12, p13, p14, p15⟩, ⟨p23, p24, p25⟩, ⟨p34, p35⟩, p45⟩ := pw
  -- allocation
  generalize hM : allocAll mem bs = m0
  have w1 : m0.Writable h.ks 32 := hM ▸ alloc_writable b1
  have w2 : m0.Writable h.ns 16 := hM ▸ alloc_writable b2
  have w3 : m0.Writable h.as (roundUp8 A.length) := hM ▸ alloc_writable b3
  have w4 : m0.Writable h.ms (roundUp8 B.length) := hM ▸ alloc_writable b4
  have w5 : m0.Writable h.cs (roundUp8 B.length + 16) := hM ▸ alloc_writable b5
  have o0 : ∀ a, (∀ b ∈ bs, ¬ InB a b) → m0 a = mem a := fun a ha => hM ▸ fills_out .uninit bs mem a ha
  have hk0 : m0.Holds k K := hM ▸ alloc_holds hf hk
  have hn0 : m0.Holds npub N := hM ▸ alloc_holds hf hn
  have ha0 : m0.Holds ad A := hM ▸ alloc_holds hf ha
  have hB0 : m0.Holds c B := hM ▸ alloc_holds hf hcB
  have hT0 : m0.Holds (c + B.length) Tg := hM ▸ alloc_holds hf hcT
  have hm0 : m0.Writable m B.length := hM ▸ alloc_writable' hf hm
  have hml0 : m0.Writable mlen 8 := hM ▸ alloc_writable' hf hml
  have kd := fun b hb => (hf.1 b hb).disjoint_holds hk
  have nd := fun b hb => (hf.1 b hb).disjoint_holds hn
  have ad' := fun b hb => (hf.1 b hb).disjoint_holds ha
  have bd := fun b hb => (hf.1 b hb).disjoint_holds hcB
  have td := fun b hb => (hf.1 b hb).disjoint_holds hcT
  have md := fun b hb => (hf.1 b hb).disjoint_writable hm
  have mld := fun b hb => (hf.1 b hb).disjoint_writable hml
  have wx : ∀ {m0 m1 : Mem} {s n R : Nat} {f} (_ : Arr m0 m1 s n R f) {p q : Nat}, m0.Writable p q → m1.Writable p q := by
    intro m0 m1 s n R f h p q hw i hi
    by_cases hin : s ≤ p + i ∧ p + i < s + 4 * (R * n)
    · have := h.wr (p + i - s) (by omega)
      rwa [show s + (p + i - s) = p + i by omega] at this
    · rw [h.out _ (by omega)]; exact hw i hi
  have k1 := kd _ b1
  have n1 := nd _ b1; have n2 := nd _ b2
  have a1 := ad' _ b1; have a2 := ad' _ b2; have a3 := ad' _ b3
  have q1 := bd _ b1; have q2 := bd _ b2; have q3 := bd _ b3; have q5 := bd _ b5
  have t1 := td _ b1; have t2 := td _ b2; have t3 := td _ b3; have t5 := td _ b5
  have m4' := md _ b4
  have l1 := mld _ b1; have l2 := mld _ b2; have l3 := mld _ b3; have l4 := mld _ b4; have l5 := mld _ b5
  simp only [] at k1 n1 n2 a1 a2 a3 q1 q2 q3 q5 t1 t2 t3 t5 m4' l1 l2 l3 l4 l5 p12 p13 p14 p15 p23 p24 p25 p34 p35 p45
  have hNW : NUM_WORDS 16 = 4 := rfl
  obtain ⟨m1, r1, A1⟩ := run_generate_shares (ρ := ρ) (s := h.ks) (n := 2) (by omega)
    (by rw [hK]; exact w1) hk0 (by rw [hK] at k1 ⊢; exact dsymm k1)
  rw [hK, hNW] at A1
  rw [hK] at r1
  obtain ⟨m2, r2, A2⟩ := run_generate_shares (ρ := ρ) (mem := m1) (s := h.ns) (n := 1) (by omega)
    (by rw [hN]; exact wx A1 w2) (A1.holds hn0 (dsymm n1))
    (by rw [hN] at n2 ⊢; exact dsymm n2)
  have hns2 : m2.Holds h.ns N := padded_mult8 N (by omega) ▸ holds_of_arr1 A2
  rw [hN, hNW] at A2
  rw [hN] at r2
  obtain ⟨m3, r3, A3⟩ := run_generate_shares (ρ := ρ) (mem := m2) (s := h.as) (n := 1) (data := ad) (D := A) (by omega)
    (by rw [Nat.mul_one, ← hpA]; exact wx A2 (wx A1 w3))
    (A2.holds (A1.holds ha0 (dsymm a1)) (dsymm a2))
    (by rw [Nat.mul_one, ← hpA]; exact dsymm a3)
  obtain ⟨m4, r4, A4⟩ := run_generate_shares (ρ := ρ) (mem := m3) (s := h.cs) (n := 1) (data := c) (D := B) (by omega)
    (by rw [Nat.mul_one, ← hpB]; exact (wx A3 (wx A2 (wx A1 w5))).mono (by omega) (by omega))
    (A3.holds (A2.holds (A1.holds hB0 (dsymm q1)) (dsymm q2)) (by rw [Nat.mul_one, ← hpA]; exact dsymm q3))
    (by rw [Nat.mul_one, ← hpB]; exact dmono (dsymm q5) (by omega) (by omega))
  obtain ⟨m5, r5, A5⟩ := run_generate_shares (ρ := ρ) (mem := m4) (s := h.cs + roundUp8 B.length) (n := 1)
    (data := c + B.length) (D := Tg) (by omega)
    (by rw [hTl]; exact (wx A4 (wx A3 (wx A2 (wx A1 w5)))).mono (by omega) (by rw [hNW]; omega))
    (A4.holds (A3.holds (A2.holds (A1.holds hT0 (dsymm t1)) (dsymm t2)) (by rw [Nat.mul_one, ← hpA]; exact dsymm t3))
      (by rw [Nat.mul_one, ← hpB]; exact dmono (dsymm t5) (by omega) (by omega)))
    (by rw [hTl, hNW] at *; exact dmono (dsymm t5) (by omega) (by omega))
  have hts5 : m5.Holds (h.cs + roundUp8 B.length) Tg := padded_mult8 Tg (by omega) ▸ holds_of_arr1 A5
  rw [hTl, hNW] at A5
  rw [hTl] at r5
  have o5 : ∀ a, (a < h.cs ∨ h.cs + (roundUp8 B.length + 16) ≤ a) → m5 a = m3 a := by
    intro a ha
    rw [A5.out a (by omega), A4.out a (by omega)]
  have hks5 : KeyAt m5 h.ks K := by
    apply (keyAt_of_arr A1).agree
    intro a h1 h2
    rw [o5 a (dout p15 h1 h2),
      A3.out a (by rw [Nat.mul_one, ← hpA]; exact dout p13 h1 h2), A2.out a (dout p12 h1 h2)]
  have hns5 : m5.Holds h.ns N := by
    apply holds_of_agree hns2
    intro a h1 h2
    rw [hN] at h2
    rw [o5 a (dout p25 h1 h2), A3.out a (by rw [Nat.mul_one, ← hpA]; exact dout p23 h1 h2)]
  have has5 : m5.Holds h.as (padded A) := by
    apply holds_of_agree (holds_of_arr1 A3)
    intro a h1 h2
    rw [roundUp8_padded] at h2
    rw [o5 a (dout p35 h1 h2)]
  have hcs5 : m5.Holds h.cs (padded B) := by
    apply holds_of_agree (holds_of_arr1 A4)
    intro a h1 h2
    rw [roundUp8_padded] at h2
    rw [A5.out a (by omega)]
  have w4' : m5.Writable h.ms (roundUp8 B.length) := wx A5 (wx A4 (wx A3 (wx A2 (wx A1 w4))))
  have hm5 : m5.Writable m B.length := wx A5 (wx A4 (wx A3 (wx A2 (wx A1 hm0))))
  have hml5 : m5.Writable mlen 8 := wx A5 (wx A4 (wx A3 (wx A2 (wx A1 hml0))))
  obtain ⟨X, hX, hX', r6⟩ := run_decrypt_shared (ρ := fun i => ρ (2 + i)) (ms := h.ms) (mlen := mlen) (clen := C.length)
    (C := B) (by omega) hTl hks5 hns5 hN has5 hcs5 (by rw [roundUp8_padded]; exact hts5)
    (by rw [roundUp8_padded]; exact w4') hml5 (dsymm l1) (dsymm l2)
    (by rw [roundUp8_padded]; exact dsymm l3) (by rw [roundUp8_padded]; exact dsymm l5)
    (by rw [roundUp8_padded]; exact p45) (by rw [roundUp8_padded]; exact dsymm p14)
  rw [roundUp8_padded] at hX
  have hL : (repr64 .little (BitVec.ofNat 64 B.length)).length = 8 := by simp [repr64, length_bytes64]
  generalize hLe : repr64 .little (BitVec.ofNat 64 B.length) = L at *
  unfold aeadCandidate aeadDecTag
  generalize hbody : decBody (aeadAd A (aeadInit K N)) B = body at *
  have hbl : body.2.length = B.length := by
    rw [← hX', List.length_take, hX]; unfold roundUp8; omega
  generalize hres : (if tagsMatch32 Tg (aeadTag K body.1) then (0 : Int) else -1) = res at *
  generalize hm6 : (m5.writes mlen L).writes h.ms X = m6 at *
  have rl : run (load64 .little mlen) m6 = some (BitVec.ofNat 64 B.length, m6) := by
    have hh : m6.Holds mlen L := by
      rw [← hm6]
      exact (holds_writes_self _ _ _).writes_disjoint (by rw [hX, hL]; exact l4)
    unfold load64
    rw [run_bind_of (run_loadN' hh hL.symm), ← hLe]
    show some (le64 (bytes64 _), m6) = _
    rw [le64_bytes64]
  have hmlv : (BitVec.ofNat 64 B.length : Word).toNat = B.length := by
    rw [BitVec.toNat_ofNat]; omega
  have hX6 : m6.Holds h.ms X := by rw [← hm6]; exact holds_writes_self _ _ _
  have hm6' : m6.Writable m B.length := by rw [← hm6]; exact hm5.writes.writes
  have r7 := run_combine1 (data := m) (D := body.2) hX6 (by rw [hbl, hX]) (by rw [hbl, hX'])
    (by rw [hbl]; exact hm6') (by rw [hbl, hX]; exact dsymm m4')
  rw [hbl] at r7
  have key : freeAll (m6.writes m body.2) bs = (mem.writes mlen L).writes m body.2 := by
    apply freeAll_eq hf
    · intro a ha
      have hout : ∀ b ∈ bs, a < b.1 ∨ b.1 + b.2 ≤ a := fun b hb => by
        have := ha b hb; unfold InB at this; omega
      have u1 := hout _ b1; have u2 := hout _ b2; have u3 := hout _ b3; have u4 := hout _ b4; have u5 := hout _ b5
      simp only [] at u1 u2 u3 u4 u5
      have e5 : m5 a = mem a := by
        rw [o5 a (by omega), A3.out a (by omega), A2.out a (by omega), A1.out a (by omega), o0 a ha]
      apply writes_congr
      rw [← hm6, writes_out (by omega)]
      exact writes_congr e5
    · intro a ha
      apply writes_unalloc
      · rw [hbl]; exact hm.writes
      · exact writes_unalloc (by rw [hL]; exact hml) ha
  rw [← key]
  have hmall : ∀ (α : Type) (q : Unit → Prog α), run (do
      malloc h.ks (8 * NUM_WORDS 16)
      malloc h.ns (4 * NUM_WORDS 16)
      malloc h.as (4 * NUM_WORDS A.length)
      malloc h.ms (4 * NUM_WORDS B.length)
      malloc h.cs (4 * NUM_WORDS C.length)
      q ()) mem = run (q ()) m0 := by
    intro α q
    rw [← hpA, ← hpB, ← hpC, ← hM, ← hbs]
    rfl
  have hfree : ∀ M : Mem, run (do
      mfree h.ks (8 * NUM_WORDS 16)
      mfree h.ns (4 * NUM_WORDS 16)
      mfree h.as (4 * NUM_WORDS A.length)
      mfree h.ms (4 * NUM_WORDS B.length)
      mfree h.cs (4 * NUM_WORDS C.length)
      pure res) M = some (res, freeAll M bs) := by
    intro M
    rw [← hpA, ← hpB, ← hpC, ← hbs]
    rfl
  refine ⟨⟨res, m6, ?_, rl⟩, ?_⟩
  · unfold decHead
    rw [← hBl]
    refine (hmall _ (fun _ => _)).trans ?_
    refine (run_bind_of r1).trans ?_
    refine (run_bind_of r2).trans ?_
    refine (run_bind_of r3).trans ?_
    refine (run_bind_of r4).trans ?_
    rw [← hpB]
    exact (run_bind_of r5).trans r6
  unfold crypto_aead_decrypt
  rw [run_ifc_neg (decide_eq_false (by omega)), ← hBl]
  refine (hmall _ (fun _ => _)).trans ?_
  refine (run_bind_of r1).trans ?_
  refine (run_bind_of r2).trans ?_
  refine (run_bind_of r3).trans ?_
  refine (run_bind_of r4).trans ?_
  rw [← hpB]
  refine (run_bind_of r5).trans ?_
  refine (run_bind_of r6).trans ?_
  refine (run_bind_of rl).trans ?_
  simp only [hmlv]
  refine (run_bind_of r7).trans ?_
  rw [hpB]
  exact hfree _

theorem run_decrypt (ρ : Nat → Word) (h : Heap) (mem : Mem) (m mlen c ad npub k : Nat) (K N A C : List Byte)
    (pre : DecPre mem h m mlen c ad npub k K N A C) :
    run (crypto_aead_decrypt ρ h .little m mlen c C.length ad A.length npub k) mem =
      some (if tagsMatch32 (ctTag C) (aeadDecTag K N A (ctBody C)) then 0 else -1,
        (mem.writes mlen (repr64 .little (BitVec.ofNat 64 (C.length - 16)))).writes m (aeadCandidate K N A (ctBody C))) :=
  (run_decrypt_aux ρ h mem m mlen c ad npub k K N A C pre).2

end Ascon.Masked
