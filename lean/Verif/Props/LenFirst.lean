import Verif.Props.Aead
import Verif.Proof.LenFirst
/-!
# C84: the length variable may lie anywhere, but the length is stored first

What the AEAD functions do if `clen` or `mlen` points into one of the other arguments, the calls that the contracts of C01–C08 exclude.
-/

namespace Ascon.Props

open Ascon.C Ascon.Spec Ascon.Impl

attribute [local irreducible] perm

/-- The bytes `X` at address `q` after the bytes `L` have been stored at address `p`. -/
def overlaid (p : Nat) (L : List Byte) (q : Nat) (X : List Byte) : List Byte :=
  (List.range X.length).map fun x => if p ≤ q + x ∧ q + x < p + L.length then L.getD (q + x - p) 0 else X.getD x 0

/-- The bytes of the length `n`. -/
def lenBytes (e : Endian) (n : Nat) : List Byte := repr64 e (BitVec.ofNat 64 n)

theorem length_overlaid (p : Nat) (L : List Byte) (q : Nat) (X : List Byte) : (overlaid p L q X).length = X.length := by
  unfold overlaid; simp

theorem getElem_overlaid {p q i : Nat} {L X : List Byte} (h : i < (overlaid p L q X).length) :
    (overlaid p L q X)[i] = if p ≤ q + i ∧ q + i < p + L.length then L.getD (q + i - p) 0 else X.getD i 0 := by
  simp only [overlaid, List.getElem_map, List.getElem_range]

theorem overlaid_disjoint {p q : Nat} {L X : List Byte} (h : Disjoint p L.length q X.length) : overlaid p L q X = X := by
  apply List.ext_getElem (length_overlaid _ _ _ _)
  intro i h1 h2
  unfold Disjoint at h
  rw [getElem_overlaid, if_neg (by omega), List.getD_eq_getElem?_getD, List.getElem?_eq_getElem h2, Option.getD_some]

theorem overlaid_self (p : Nat) {L X : List Byte} (h : L.length ≤ X.length) : overlaid p L p X = L ++ X.drop L.length := by
  apply List.ext_getElem (by rw [length_overlaid]; simp; omega)
  intro i h1 h2
  rw [length_overlaid] at h1
  rw [getElem_overlaid]
  by_cases hi : i < L.length
  · rw [if_pos (by omega), List.getElem_append_left hi, Nat.add_sub_cancel_left, List.getD_eq_getElem?_getD,
      List.getElem?_eq_getElem hi, Option.getD_some]
  · rw [if_neg (by omega), List.getElem_append_right (by omega), List.getD_eq_getElem?_getD,
      List.getElem?_eq_getElem h1, Option.getD_some, List.getElem_drop]
    congr 1; omega

theorem holds_overlaid {mem : Mem} {q : Nat} {X : List Byte} (h : mem.Holds q X) (p : Nat) (L : List Byte) :
    (mem.writes p L).Holds q (overlaid p L q X) := by
  intro i hi
  have hi' : i < X.length := by rwa [length_overlaid] at hi
  rw [getElem_overlaid]
  by_cases hr : p ≤ q + i ∧ q + i < p + L.length
  · rw [if_pos hr, writes_in hr.1 hr.2, List.getD_eq_getElem?_getD, List.getElem?_eq_getElem (by omega)]
    rfl
  · rw [if_neg hr, writes_out (by omega), h i hi', List.getD_eq_getElem?_getD, List.getElem?_eq_getElem hi']
    rfl

theorem length_lenBytes (e : Endian) (n : Nat) : (lenBytes e n).length = 8 := Ref.length_repr64 _ _

/-- As `EncPre`, without any assumption on where the length variable lies. -/
structure EncAnyPre (mem : Mem) (sp c clen m ad npub k : Nat) (K N A P : List Byte) : Prop where
  key : mem.Holds k K
  keyLen : K.length = 16
  nonce : mem.Holds npub N
  nonceLen : N.length = 16
  adata : mem.Holds ad A
  adLen : A.length < 2 ^ 64
  msg : mem.Holds m P
  msgLen : P.length < 2 ^ 64
  out : mem.Writable c (P.length + 16)
  outLen : mem.Writable clen 8
  overlap : c ≤ m ∨ m + P.length ≤ c
  stack : mem.Free sp 64

/-- As `DecPre`, without any assumption on where the length variable lies. -/
structure DecAnyPre (mem : Mem) (sp m mlen c ad npub k : Nat) (K N A C : List Byte) : Prop where
  key : mem.Holds k K
  keyLen : K.length = 16
  nonce : mem.Holds npub N
  nonceLen : N.length = 16
  adata : mem.Holds ad A
  adLen : A.length < 2 ^ 64
  ct : mem.Holds c C
  ctMin : 16 ≤ C.length
  ctLen : C.length < 2 ^ 64
  out : mem.Writable m (C.length - 16)
  outLen : mem.Writable mlen 8
  overlap : m ≤ c ∨ c + C.length ≤ m
  stack : mem.Free sp 64

/-- **C84, encryption** Wherever the length variable lies: the length is stored first, then what the key, the nonce, the associated data and
the message have become is encrypted, and the ciphertext is stored last. -/
theorem C84_encrypt_len_first (i : Aead) (e : Endian) (hi : i.runsOn e) (mem : Mem) (sp c clen m ad nsec npub k : Nat)
    (K N A P : List Byte) (h : EncAnyPre mem sp c clen m ad npub k K N A P) :
    ∃ mem', run (i.encrypt e sp c clen m P.length ad A.length nsec npub k) mem = some (0, mem') ∧
      mem'.Holds c (aeadEncrypt (overlaid clen (lenBytes e (P.length + 16)) k K) (overlaid clen (lenBytes e (P.length + 16)) npub N)
        (overlaid clen (lenBytes e (P.length + 16)) ad A) (overlaid clen (lenBytes e (P.length + 16)) m P)) ∧
      (Disjoint clen 8 c (P.length + 16) → mem'.Holds clen (lenBytes e (P.length + 16))) ∧
      ∀ a, ¬ InRange c (P.length + 16) a → ¬ InRange clen 8 a → mem' a = mem a := by
  have hl := length_overlaid clen (lenBytes e (P.length + 16)) m P
  have hA := length_overlaid clen (lenBytes e (P.length + 16)) ad A
  have h' : EncLenPre e mem sp c clen m ad npub k (overlaid clen (lenBytes e (P.length + 16)) k K)
      (overlaid clen (lenBytes e (P.length + 16)) npub N) (overlaid clen (lenBytes e (P.length + 16)) ad A)
      (overlaid clen (lenBytes e (P.length + 16)) m P) := by
    constructor <;> (try unfold lenStored) <;> (try simp only [length_overlaid])
    · exact holds_overlaid h.key _ _
    · exact h.keyLen
    · exact holds_overlaid h.nonce _ _
    · exact h.nonceLen
    · exact holds_overlaid h.adata _ _
    · exact h.adLen
    · exact holds_overlaid h.msg _ _
    · exact h.msgLen
    · exact h.out
    · exact h.outLen
    · exact h.overlap
    · exact h.stack
  have hr := i.encrypt_len e hi mem sp c clen m ad nsec npub k _ _ _ _ h'
  rw [hl, hA] at hr
  refine ⟨_, hr, holds_writes_self _ _ _, fun hd => ?_, fun a h1 h2 => ?_⟩
  · unfold encPost
    refine Mem.Holds.writes_disjoint (by rw [hl]; exact holds_writes_self _ _ _) ?_
    rw [length_aeadEncrypt, hl, length_lenBytes]
    unfold Disjoint at *; omega
  · unfold InRange at h1 h2
    unfold encPost
    rw [writes_out (by rw [length_aeadEncrypt, hl]; omega), writes_out (by rw [Ref.length_repr64]; omega)]

/-- **C84, decryption** The same: the length is stored first, then what the inputs have become is decrypted and verified. -/
theorem C84_decrypt_len_first (i : Aead) (e : Endian) (hi : i.runsOn e) (mem : Mem) (sp m mlen nsec c ad npub k : Nat)
    (K N A C K' N' A' C' : List Byte) (h : DecAnyPre mem sp m mlen c ad npub k K N A C)
    (hK : K' = overlaid mlen (lenBytes e (C.length - 16)) k K) (hN : N' = overlaid mlen (lenBytes e (C.length - 16)) npub N)
    (hA : A' = overlaid mlen (lenBytes e (C.length - 16)) ad A) (hC : C' = overlaid mlen (lenBytes e (C.length - 16)) c C) :
    ∃ r mem', run (i.decrypt e sp m mlen nsec c C.length ad A.length npub k) mem = some (r, mem') ∧
      (∀ P, aeadDecrypt K' N' A' C' = some P → r = 0 ∧ mem'.Holds m P) ∧
      (aeadDecrypt K' N' A' C' = none → r = -1) ∧
      (Disjoint mlen 8 m (C.length - 16) → mem'.Holds mlen (lenBytes e (C.length - 16))) ∧
      ∀ a, ¬ InRange m (C.length - 16) a → ¬ InRange mlen 8 a → mem' a = mem a := by
  have hl : C'.length = C.length := by rw [hC, length_overlaid]
  have hAl : A'.length = A.length := by rw [hA, length_overlaid]
  have h' : DecLenPre e mem sp m mlen c ad npub k K' N' A' C' := by
    constructor <;> (try unfold lenStored) <;> (try rw [hl]) <;> (try rw [hAl])
    · rw [hK]; exact holds_overlaid h.key _ _
    · rw [hK, length_overlaid]; exact h.keyLen
    · rw [hN]; exact holds_overlaid h.nonce _ _
    · rw [hN, length_overlaid]; exact h.nonceLen
    · rw [hA]; exact holds_overlaid h.adata _ _
    · exact h.adLen
    · rw [hC]; exact holds_overlaid h.ct _ _
    · exact h.ctMin
    · exact h.ctLen
    · exact h.out
    · exact h.outLen
    · exact h.overlap
    · exact h.stack
  have h16 : 16 ≤ C'.length := by rw [hl]; exact h.ctMin
  have hr := i.decrypt_len e hi mem sp m mlen nsec c ad npub k _ _ _ _ h'
  rw [hl, hAl] at hr
  refine ⟨_, _, hr, fun P hP => ?_, fun hP => ?_, fun hd => ?_, fun a h1 h2 => ?_⟩
  · rw [aeadDecrypt_eq h16] at hP
    split at hP
    · rename_i ht
      injection hP with hP
      rw [if_pos ht, ← hP]
      exact ⟨rfl, decPost_holds e⟩
    · cases hP
  · rw [aeadDecrypt_eq h16] at hP
    split at hP <;> simp_all
  · unfold decPost
    refine Mem.Holds.writes_disjoint (by rw [hl]; exact holds_writes_self _ _ _) ?_
    rw [length_candidate, length_ctBody h16, hl, length_lenBytes]
    unfold Disjoint at *; omega
  · exact decPost_frame e h16 (by rw [hl]; exact h1) h2

/-- **C84** A length variable inside the output buffer does no harm to the output: the ciphertext is complete and correct (the length is
lost). -/
theorem C84_len_in_output (i : Aead) (e : Endian) (hi : i.runsOn e) (mem : Mem) (sp c clen m ad nsec npub k : Nat)
    (K N A P : List Byte) (h : EncAnyPre mem sp c clen m ad npub k K N A P) (hk : Disjoint clen 8 k 16) (hn : Disjoint clen 8 npub 16)
    (ha : Disjoint clen 8 ad A.length) (hm : Disjoint clen 8 m P.length) :
    ∃ mem', run (i.encrypt e sp c clen m P.length ad A.length nsec npub k) mem = some (0, mem') ∧ mem'.Holds c (aeadEncrypt K N A P) := by
  obtain ⟨mem', hr, hc, -⟩ := C84_encrypt_len_first i e hi mem sp c clen m ad nsec npub k K N A P h
  rw [overlaid_disjoint (by rw [length_lenBytes, h.keyLen]; exact hk), overlaid_disjoint (by rw [length_lenBytes, h.nonceLen]; exact hn),
    overlaid_disjoint (by rw [length_lenBytes]; exact ha), overlaid_disjoint (by rw [length_lenBytes]; exact hm)] at hc
  exact ⟨mem', hr, hc⟩

/-- **C84** (negative) The nonce as the length variable: the first 8 bytes of the nonce are not used, all messages of the same length are
encrypted with the same 8 bytes in their place.  So two calls whose nonces differ only there use one nonce twice (C81). -/
theorem C84_len_in_nonce (i : Aead) (e : Endian) (hi : i.runsOn e) (mem : Mem) (sp c m ad nsec npub k : Nat) (K N A P : List Byte)
    (h : EncAnyPre mem sp c npub m ad npub k K N A P) (hk : Disjoint npub 8 k 16) (ha : Disjoint npub 8 ad A.length)
    (hm : Disjoint npub 8 m P.length) :
    ∃ mem', run (i.encrypt e sp c npub m P.length ad A.length nsec npub k) mem = some (0, mem') ∧
      mem'.Holds c (aeadEncrypt K (lenBytes e (P.length + 16) ++ N.drop 8) A P) := by
  obtain ⟨mem', hr, hc, -⟩ := C84_encrypt_len_first i e hi mem sp c npub m ad nsec npub k K N A P h
  rw [overlaid_disjoint (by rw [length_lenBytes, h.keyLen]; exact hk), overlaid_self npub (by rw [length_lenBytes, h.nonceLen]; omega),
    overlaid_disjoint (by rw [length_lenBytes]; exact ha), overlaid_disjoint (by rw [length_lenBytes]; exact hm), length_lenBytes] at hc
  exact ⟨mem', hr, hc⟩

/-- A call whose length variable is the end of the ciphertext buffer, and one whose length variable is the nonce. -/
theorem lenInOutput : EncAnyPre Demo.mem 1000 200 228 100 32 16 0 Demo.K Demo.N Demo.A Demo.P := by
  constructor <;> first | decide +kernel | (unfold Mem.Holds; decide +kernel) |
    (unfold Mem.Writable; decide +kernel) | (unfold Mem.Free; decide +kernel)

theorem lenInNonce : EncAnyPre Demo.mem 1000 200 16 100 32 16 0 Demo.K Demo.N Demo.A Demo.P := by
  constructor <;> first | decide +kernel | (unfold Mem.Holds; decide +kernel) |
    (unfold Mem.Writable; decide +kernel) | (unfold Mem.Free; decide +kernel)

/-- Decryption, with the length variable in the nonce. -/
theorem lenInNonceDec : DecAnyPre Demo.memC 1000 100 16 200 32 16 0 Demo.K Demo.N Demo.A Demo.C := by
  constructor <;> first | decide +kernel | (unfold Mem.Holds; decide +kernel) |
    (unfold Mem.Writable; decide +kernel) | (unfold Mem.Free; decide +kernel)

/-- (negative) The result is then not the ciphertext under the nonce that was passed, and the receiver, who has that nonce, rejects it. -/
theorem C84_len_in_nonce_wrong (i : Aead) (e : Endian) (hi : i.runsOn e) :
    ∃ mem' C, run (i.encrypt e 1000 200 16 100 Demo.P.length 32 Demo.A.length 0 16 0) Demo.mem = some (0, mem') ∧
      mem'.Holds 200 C ∧ C.length = 36 ∧ aeadDecrypt Demo.K Demo.N Demo.A C = none := by
  obtain ⟨mem', hr, hc⟩ := C84_len_in_nonce i e hi Demo.mem 1000 200 100 32 0 16 0 Demo.K Demo.N Demo.A Demo.P lenInNonce
    (by unfold Disjoint; decide) (by unfold Disjoint; decide) (by unfold Disjoint; decide)
  refine ⟨mem', _, hr, hc, by rw [length_aeadEncrypt]; rfl, ?_⟩
  cases e <;> decide +kernel

end Ascon.Props
