import Verif.Proof.Esp32CT
import Verif.Props.Demo
/-!
# The implementation esp32 (C36, C42, C43)

`lw` is the width of `unsigned long`: 32 on the ESP32 itself and on LLP64 targets, 64 on LP64 targets.  All theorems
hold for every `lw` and for both byte orders.  The first argument of the functions is the alignment of `uint32_t`: these
theorems are for targets that allow unaligned words (1); C67 (Props/Esp32Align) transfers them to aligned buffers.
-/

namespace Ascon.Esp32

open Ascon.Spec Ascon.C

attribute [local irreducible] perm

theorem ulong_of_lt {lw n : Nat} (h : n < 2 ^ lw) : ulong lw n = n := Nat.mod_eq_of_lt h

/-! ## C36: correct for lengths below 2^lw -/

/-- **C36** Encryption computes Ascon-AEAD128 if the lengths fit into an `unsigned long`. -/
theorem C36_esp32_encrypt (lw : Nat) (e : Endian) (mem : Mem) (sp c clen m ad nsec npub k : Nat) (K N A P : List Byte)
    (h : EncPre mem sp c clen m ad npub k K N A P) (hA : A.length < 2 ^ lw) (hP : P.length < 2 ^ lw) :
    run (crypto_aead_encrypt 1 lw e sp c clen m P.length ad A.length nsec npub k) mem =
      some (0, encPost e mem c clen K N A P) := by
  rw [run_encrypt h.key h.keyLen h.nonce h.nonceLen h.adata (ulong_of_lt hA).symm (by
    by_cases h0 : A = []
    · left; simp [h0]
    · right; exact h0) h.msg (ulong_of_lt hP).symm h.out h.outLen h.sepKey h.sepNonce h.sepAd h.sepMsg h.overlap]
  unfold encPost
  have hl : ((aeadEncrypt K N A P).take P.length).length = P.length := by
    rw [List.length_take, length_aeadEncrypt]; omega
  conv => rhs; rw [← List.take_append_drop P.length (aeadEncrypt K N A P)]
  rw [writes_append, hl]

/-- A concrete call on a 32-bit target. -/
example : run (crypto_aead_encrypt 1 32 .little 1000 200 300 100 Demo.P.length 32 Demo.A.length 0 16 0) Demo.mem =
    some (0, encPost .little Demo.mem 200 300 Demo.K Demo.N Demo.A Demo.P) :=
  C36_esp32_encrypt 32 .little _ _ _ _ _ _ _ _ _ _ _ _ _ Demo.encPre (by decide) (by decide)

/-- Where `unsigned long` has 64 bits there is no restriction at all. -/
theorem C36_esp32_encrypt_lp64 (e : Endian) : EncCorrectAt e (crypto_aead_encrypt 1 64) :=
  fun mem sp c clen m ad nsec npub k K N A P h =>
    C36_esp32_encrypt 64 e mem sp c clen m ad nsec npub k K N A P h h.adLen h.msgLen

/-- Decryption computes the candidate plaintext and the verdict of Ascon-AEAD128 if the lengths fit into an
`unsigned long` and the last partial block of the output does not overlap that of the input. -/
theorem C36_esp32_decrypt (lw : Nat) (e : Endian) (mem : Mem) (sp m mlen nsec c ad npub k : Nat) (K N A C : List Byte)
    (h : DecPre mem sp m mlen c ad npub k K N A C) (hA : A.length < 2 ^ lw) (hC : C.length - 16 < 2 ^ lw)
    (hd : Disjoint m ((C.length - 16) % 16) c ((C.length - 16) % 16)) :
    run (crypto_aead_decrypt 1 lw e sp m mlen nsec c C.length ad A.length npub k) mem =
      some (if ctTag C = aeadDecTag K N A (ctBody C) then 0 else -1, decPost e mem m mlen K N A C) := by
  have h16 := h.ctMin
  have hbl : (ctBody C).length = C.length - 16 := by simp [ctBody]
  have htl : (ctTag C).length = 16 := by simp [ctTag]; omega
  exact run_decrypt h.key h.keyLen h.nonce h.nonceLen h.adata (ulong_of_lt hA).symm (by
    by_cases h0 : A = []
    · left; simp [h0]
    · right; exact h0) h16 h.ctLen (h.ct.take _) (by rw [ulong_of_lt hC]; exact hbl) (h.ct.drop _ (by omega)) htl
    (by rw [hbl]; exact h.out) h.outLen h.sepKey h.sepNonce
    h.sepAd h.sepCt (by rw [hbl]; exact h.sepOut) h.overlap
    (by rw [hbl]; exact hd)

/-- A concrete call. -/
example : ∃ r mem', run (crypto_aead_decrypt 1 32 .little 1000 100 300 0 200 Demo.C.length 32 Demo.A.length 16 0) Demo.memC =
    some (r, mem') :=
  ⟨_, _, C36_esp32_decrypt 32 .little _ _ _ _ _ _ _ _ _ _ _ _ _ Demo.decPre (by decide) (by decide)
    (by unfold Disjoint; decide)⟩

/-- Accepted means genuine. -/
theorem C36_esp32_accepts_only_genuine (lw : Nat) (e : Endian) (mem mem' : Mem) (sp m mlen nsec c ad npub k : Nat)
    (K N A C : List Byte) (h : DecPre mem sp m mlen c ad npub k K N A C) (hA : A.length < 2 ^ lw)
    (hC : C.length - 16 < 2 ^ lw) (hd : Disjoint m ((C.length - 16) % 16) c ((C.length - 16) % 16))
    (hacc : run (crypto_aead_decrypt 1 lw e sp m mlen nsec c C.length ad A.length npub k) mem = some (0, mem')) :
    ∃ P, mem'.Holds m P ∧ P.length + 16 = C.length ∧ C = aeadEncrypt K N A P := by
  rw [C36_esp32_decrypt lw e mem sp m mlen nsec c ad npub k K N A C h hA hC hd] at hacc
  injection hacc with hacc; injection hacc with h0 h1
  have h16 := h.ctMin
  have ht : ctTag C = aeadDecTag K N A (ctBody C) := by
    by_cases ht : ctTag C = aeadDecTag K N A (ctBody C)
    · exact ht
    · rw [if_neg ht] at h0; exact absurd h0 (by decide)
  refine ⟨aeadCandidate K N A (ctBody C), ?_, ?_, ?_⟩
  · rw [← h1]; unfold decPost; exact holds_writes_self _ _ _
  · unfold aeadCandidate; rw [Ref.length_decBody]; simp [ctBody]; omega
  · have : aeadDecrypt K N A C = some (aeadCandidate K N A (ctBody C)) := by
      unfold aeadDecrypt
      rw [if_neg (by omega)]
      exact if_pos ht
    exact aeadEncrypt_of_aeadDecrypt this

/-- Inputs shorter than a tag are refused; unlike the other implementations, esp32 sets `*mlen` to 0 (and changes
nothing else). -/
theorem C36_esp32_short (lw : Nat) (e : Endian) (mem : Mem) (sp m mlen nsec c clen ad adlen npub k : Nat)
    (h : clen < 16) (hw : mem.Writable mlen 8) :
    run (crypto_aead_decrypt 1 lw e sp m mlen nsec c clen ad adlen npub k) mem =
      some (-1, mem.writes mlen (repr64 e 0)) := dec_short h hw

/-- A concrete call with 15 bytes. -/
example : run (crypto_aead_decrypt 1 32 .little 1000 100 300 0 200 15 32 5 16 0) Demo.memC =
    some (-1, Demo.memC.writes 300 (repr64 .little 0)) :=
  C36_esp32_short 32 .little _ _ _ _ _ _ _ _ _ _ _ (by decide) Demo.decPre.outLen

/-- Ascon-Hash256 for messages shorter than 2^lw bytes. -/
theorem C36_esp32_hash256 (lw : Nat) (e : Endian) (mem : Mem) (sp out inp : Nat) (M : List Byte)
    (hM : mem.Holds inp M) (hl : M.length < 2 ^ lw) (hw : mem.Writable out 32) :
    run (hash256 1 lw e sp out inp M.length) mem = some (0, mem.writes out (Spec.hash256 M)) :=
  run_hash256 lw hM (ulong_of_lt hl).symm hw

/-- A concrete call. -/
example : run (hash256 1 32 .big 1000 200 100 Demo.P.length) Demo.mem =
    some (0, Demo.mem.writes 200 (Spec.hash256 Demo.P)) :=
  C36_esp32_hash256 32 .big _ _ _ _ _ Demo.holdsP (by decide) (Demo.out36.mono (by omega) (by omega))

/-- Ascon-XOF128 with 64 bytes of output for messages shorter than 2^lw bytes. -/
theorem C36_esp32_xof128 (lw : Nat) (e : Endian) (mem : Mem) (sp out inp : Nat) (M : List Byte)
    (hM : mem.Holds inp M) (hl : M.length < 2 ^ lw) (hw : mem.Writable out 64) :
    run (xof128 1 lw e sp out inp M.length) mem = some (0, mem.writes out (Spec.xof128 M 64)) :=
  run_xof128 lw hM (ulong_of_lt hl).symm hw

/-- A memory of 2^40 zero bytes. -/
def zeros : Mem := fun a => if a < 2 ^ 40 then .val 0 else .unalloc

theorem zeros_holds (p n : Nat) (h : p + n ≤ 2 ^ 40) : zeros.Holds p (List.replicate n 0) := by
  intro i hi
  rw [List.length_replicate] at hi
  simp only [zeros, List.getElem_replicate]
  rw [if_pos (by omega)]; rfl

theorem zeros_writable (p n : Nat) (h : p + n ≤ 2 ^ 40) : zeros.Writable p n := by
  intro i hi
  simp only [zeros]
  rw [if_pos (by omega)]; rfl

/-- A concrete call with 3 zero bytes. -/
example : run (xof128 1 32 .little 0 200 100 3) zeros = some (0, zeros.writes 200 (Spec.xof128 [0, 0, 0] 64)) := by
  have := C36_esp32_xof128 32 .little zeros 0 200 100 [0, 0, 0] (zeros_holds 100 3 (by decide)) (by decide)
    (zeros_writable 200 64 (by decide))
  exact this

/-- Addresses and branches of encryption depend on pointers and lengths only. -/
theorem C36_esp32_encrypt_constant_time (lw : Nat) (e : Endian) (sp c clen m mlen ad adlen nsec npub k : Nat)
    (mem1 mem2 : Mem) (h : SameLayout mem1 mem2) :
    trace (crypto_aead_encrypt 1 lw e sp c clen m mlen ad adlen nsec npub k) mem1 =
      trace (crypto_aead_encrypt 1 lw e sp c clen m mlen ad adlen nsec npub k) mem2 :=
  (sim_encrypt lw e sp c clen m mlen ad adlen nsec npub k).trace_eq h

/-- Addresses and branches of hashing depend on pointers and lengths only. -/
theorem C36_esp32_hash_constant_time (iv : State) (n lw : Nat) (e : Endian) (sp out inp inlen : Nat) (mem1 mem2 : Mem)
    (h : SameLayout mem1 mem2) :
    trace (crypto_hash iv n 1 lw e sp out inp inlen) mem1 = trace (crypto_hash iv n 1 lw e sp out inp inlen) mem2 :=
  (sim_hash iv n lw e sp out inp inlen).trace_eq h

/-- Addresses and branches of decryption depend on pointers and lengths only – not on the key, the nonce, the data, nor
on where or whether the tags differ. -/
theorem C36_esp32_decrypt_constant_time (lw : Nat) (e : Endian) (sp m mlen nsec c ad npub k : Nat) (mem1 mem2 : Mem)
    (K N A C K' N' A' C' : List Byte) (hm : SameLayout mem1 mem2)
    (h : DecPre mem1 sp m mlen c ad npub k K N A C) (h' : DecPre mem2 sp m mlen c ad npub k K' N' A' C')
    (hAA : A'.length = A.length) (hCC : C'.length = C.length) (hA : A.length < 2 ^ lw) (hC : C.length - 16 < 2 ^ lw)
    (hd : Disjoint m ((C.length - 16) % 16) c ((C.length - 16) % 16)) :
    trace (crypto_aead_decrypt 1 lw e sp m mlen nsec c C.length ad A.length npub k) mem1 =
      trace (crypto_aead_decrypt 1 lw e sp m mlen nsec c C.length ad A.length npub k) mem2 := by
  refine decrypt_ct hm h.outLen h'.outLen h.ctLen fun h16 => ?_
  have key : ∀ (mem : Mem) (K N A C : List Byte) (al cl : Nat), DecPre mem sp m mlen c ad npub k K N A C →
      al = A.length → cl = C.length → A.length < 2 ^ lw →
      C.length - 16 < 2 ^ lw → Disjoint m ((C.length - 16) % 16) c ((C.length - 16) % 16) →
      ∃ s mem', run (decHead lw e m mlen c cl ad al npub k) mem = some (s, mem') ∧
        mem'.Holds mlen (repr64 e (BitVec.ofNat 64 (cl - 16))) := by
    intro mem K N A C al cl h ha hc hA hC hd
    subst ha hc
    have h16 := h.ctMin
    have hbl : (C.take (C.length - 16)).length = C.length - 16 := by simp
    exact run_decHead h.key h.keyLen h.nonce h.nonceLen h.adata (ulong_of_lt hA).symm (by
      by_cases h0 : A = []
      · left; simp [h0]
      · right; exact h0) h16 h.ctLen (h.ct.take (C.length - 16)) (by rw [ulong_of_lt hC]; exact hbl)
      (by rw [hbl]; exact h.out) h.outLen h.sepKey h.sepNonce h.sepAd h.sepCt (by rw [hbl]; exact h.sepOut) h.overlap
      (by rw [hbl]; exact hd)
  obtain ⟨s1, m1, r1, g1⟩ := key mem1 K N A C _ _ h rfl rfl hA hC hd
  obtain ⟨s2, m2, r2, g2⟩ := key mem2 K' N' A' C' A.length C.length h' hAA.symm hCC.symm (by omega)
    (by rw [hCC]; exact hC) (by rw [hCC]; exact hd)
  exact ⟨s1, m1, s2, m2, r1, r2, g1, g2⟩

/-- The hypotheses can be met by two memories with different keys. -/
example : trace (crypto_aead_decrypt 1 32 .little 1000 100 300 0 200 Demo.C.length 32 Demo.A.length 16 0) Demo.memC =
    trace (crypto_aead_decrypt 1 32 .little 1000 100 300 0 200 Demo.C.length 32 Demo.A.length 16 0)
      (Demo.memC.writes 0 Demo.N) := by
  refine C36_esp32_decrypt_constant_time 32 .little 1000 100 300 0 200 32 16 0 Demo.memC (Demo.memC.writes 0 Demo.N)
    Demo.K Demo.N Demo.A Demo.C Demo.N Demo.N Demo.A Demo.C ?_ Demo.decPre ?_ rfl rfl (by decide) (by decide)
    (by unfold Disjoint; decide)
  · intro a
    by_cases ha : a < 16
    · have : ∀ a : Fin 16, (Demo.memC a.val).shape = ((Demo.memC.writes 0 Demo.N) a.val).shape := by decide +kernel
      exact this ⟨a, ha⟩
    · rw [writes_out (by simp [Demo.N]; omega)]
  · constructor <;> first | decide +kernel | (unfold Mem.Holds; decide +kernel) |
      (unfold Mem.Writable; decide +kernel) | (unfold Mem.Free; decide +kernel) |
      (unfold Disjoint; decide +kernel)

/-! ## C42: longer inputs are silently truncated -/

/-- **C42** What encryption does for *every* length: only the first `mlen mod 2^lw` bytes of the message are encrypted
and only the first `adlen mod 2^lw` bytes of associated data are authenticated; the tag is written at
`c + mlen`; the call reports success and `*clen = mlen + 16`. -/
theorem C42_esp32_encrypt_truncates (lw : Nat) (e : Endian) (mem : Mem) (sp c clen m ad nsec npub k : Nat)
    (K N A P : List Byte) (h : EncPre mem sp c clen m ad npub k K N A P) (hA : A = [] ∨ A.length % 2 ^ lw ≠ 0) :
    run (crypto_aead_encrypt 1 lw e sp c clen m P.length ad A.length nsec npub k) mem =
      some (0, ((mem.writes clen (repr64 e (BitVec.ofNat 64 (P.length + 16)))).writes c
        ((aeadEncrypt K N (A.take (A.length % 2 ^ lw)) (P.take (P.length % 2 ^ lw))).take (P.length % 2 ^ lw))).writes
        (c + P.length) ((aeadEncrypt K N (A.take (A.length % 2 ^ lw)) (P.take (P.length % 2 ^ lw))).drop
          (P.length % 2 ^ lw))) := by
  have ha : (A.take (A.length % 2 ^ lw)).length = A.length % 2 ^ lw := by
    rw [List.length_take]; exact Nat.min_eq_left (Nat.mod_le _ _)
  have hp : (P.take (P.length % 2 ^ lw)).length = P.length % 2 ^ lw := by
    rw [List.length_take]; exact Nat.min_eq_left (Nat.mod_le _ _)
  have ha' := Nat.mod_le A.length (2 ^ lw)
  have hp' := Nat.mod_le P.length (2 ^ lw)
  have := run_encrypt (lw := lw) (e := e) (sp := sp) (nsec := nsec) (adlen := A.length) (mlen := P.length) h.key h.keyLen
    h.nonce h.nonceLen (h.adata.take (A.length % 2 ^ lw)) ha (by
    rcases hA with h0 | h0
    · left; simp [h0]
    · right; intro h1; rw [h1] at ha; exact h0 ha.symm) (h.msg.take (P.length % 2 ^ lw)) hp h.out h.outLen h.sepKey
    h.sepNonce (by
      have := h.sepAd
      rw [ha]; unfold Disjoint at *; omega) (by
      have := h.sepMsg
      rw [hp]; unfold Disjoint at *; omega) (by
      have := h.overlap
      rw [hp]; omega)
  rw [hp] at this
  exact this

/-- In-place encryption leaves all plaintext bytes from index `mlen mod 2^lw` on in the clear. -/
theorem C42_esp32_plaintext_not_encrypted (lw : Nat) (e : Endian) (mem : Mem) (sp clen m ad nsec npub k : Nat)
    (K N A P : List Byte) (h : EncPre mem sp m clen m ad npub k K N A P) (hA : A = [] ∨ A.length % 2 ^ lw ≠ 0) :
    ∃ mem', run (crypto_aead_encrypt 1 lw e sp m clen m P.length ad A.length nsec npub k) mem = some (0, mem') ∧
      mem'.Holds (m + P.length % 2 ^ lw) (P.drop (P.length % 2 ^ lw)) := by
  refine ⟨_, C42_esp32_encrypt_truncates lw e mem sp m clen m ad nsec npub k K N A P h hA, ?_⟩
  have hp' := Nat.mod_le P.length (2 ^ lw)
  refine Mem.Holds.writes_disjoint (Mem.Holds.writes_disjoint (Mem.Holds.writes_disjoint (h.msg.drop _ hp') ?_) ?_) ?_
  · have := h.sepMsg
    rw [Ref.length_repr64, List.length_drop]; unfold Disjoint at *; omega
  · rw [List.length_take, length_aeadEncrypt, List.length_take, List.length_drop]; unfold Disjoint; omega
  · rw [List.length_drop, List.length_drop]; unfold Disjoint; omega

/-- Out of place, the bytes of the output buffer between the encrypted part and the tag are not written. -/
theorem C42_esp32_ciphertext_gap (lw : Nat) (e : Endian) (mem : Mem) (sp c clen m ad nsec npub k : Nat)
    (K N A P : List Byte) (h : EncPre mem sp c clen m ad npub k K N A P) (hA : A = [] ∨ A.length % 2 ^ lw ≠ 0) :
    ∃ mem', run (crypto_aead_encrypt 1 lw e sp c clen m P.length ad A.length nsec npub k) mem = some (0, mem') ∧
      ∀ i, P.length % 2 ^ lw ≤ i → i < P.length → mem' (c + i) = mem (c + i) := by
  refine ⟨_, C42_esp32_encrypt_truncates lw e mem sp c clen m ad nsec npub k K N A P h hA, fun i h1 h2 => ?_⟩
  have := h.sepOut
  rw [writes_out (by left; omega), writes_out (by
    rw [List.length_take, length_aeadEncrypt, List.length_take]; omega), writes_out (by
    rw [Ref.length_repr64]; unfold Disjoint at this; omega)]

/-- Decryption, likewise, looks at the first `(clen - 16) mod 2^lw` bytes of the ciphertext and the first
`adlen mod 2^lw` bytes of the associated data only, and accepts if the tag is that of the truncated input. -/
theorem C42_esp32_decrypt_truncates (lw : Nat) (e : Endian) (mem : Mem) (sp m mlen nsec c ad npub k : Nat)
    (K N A C : List Byte) (h : DecPre mem sp m mlen c ad npub k K N A C) (hA : A = [] ∨ A.length % 2 ^ lw ≠ 0)
    (hd : Disjoint m ((C.length - 16) % 2 ^ lw % 16) c ((C.length - 16) % 2 ^ lw % 16)) :
    run (crypto_aead_decrypt 1 lw e sp m mlen nsec c C.length ad A.length npub k) mem =
      some (if ctTag C = aeadDecTag K N (A.take (A.length % 2 ^ lw)) (C.take ((C.length - 16) % 2 ^ lw)) then 0 else -1,
        (mem.writes mlen (repr64 e (BitVec.ofNat 64 (C.length - 16)))).writes m
          (aeadCandidate K N (A.take (A.length % 2 ^ lw)) (C.take ((C.length - 16) % 2 ^ lw)))) := by
  have h16 := h.ctMin
  have htl : (ctTag C).length = 16 := by simp [ctTag]; omega
  have ha : (A.take (A.length % 2 ^ lw)).length = A.length % 2 ^ lw := by
    rw [List.length_take]; exact Nat.min_eq_left (Nat.mod_le _ _)
  have hp' := Nat.mod_le (C.length - 16) (2 ^ lw)
  have ha' := Nat.mod_le A.length (2 ^ lw)
  have hp : (C.take ((C.length - 16) % 2 ^ lw)).length = (C.length - 16) % 2 ^ lw := by
    rw [List.length_take]; omega
  exact run_decrypt (lw := lw) (adlen := A.length) h.key h.keyLen h.nonce h.nonceLen (h.adata.take (A.length % 2 ^ lw)) ha
    (by
      rcases hA with h0 | h0
      · left; simp [h0]
      · right; intro h1; rw [h1] at ha; exact h0 ha.symm) h16 h.ctLen (h.ct.take ((C.length - 16) % 2 ^ lw)) hp
    (h.ct.drop _ (by omega)) htl (h.out.mono (by omega) (by rw [hp]; omega)) h.outLen h.sepKey h.sepNonce
    (by have := h.sepAd; rw [ha]; unfold Disjoint at *; omega) h.sepCt
    (by have := h.sepOut; rw [hp]; unfold Disjoint at *; omega) h.overlap (by rw [hp]; exact hd)

/-- Forgery: a genuine ciphertext for associated data `A` is also accepted, with the same plaintext, with any
associated data `A'` of 2^lw more bytes (or any multiple) that starts with `A`. -/
theorem C42_esp32_forged_associated_data (lw : Nat) (e : Endian) (mem : Mem) (sp m mlen nsec c ad npub k : Nat)
    (K N A X P : List Byte) (h : DecPre mem sp m mlen c ad npub k K N (A ++ X) (aeadEncrypt K N A P))
    (hA : A ≠ []) (hlA : A.length < 2 ^ lw) (hX : X.length % 2 ^ lw = 0) (hP : P.length < 2 ^ lw)
    (hd : Disjoint m (P.length % 16) c (P.length % 16)) :
    ∃ mem', run (crypto_aead_decrypt 1 lw e sp m mlen nsec c (P.length + 16) ad (A.length + X.length) npub k) mem =
      some (0, mem') ∧ mem'.Holds m P := by
  have hcl : (aeadEncrypt K N A P).length = P.length + 16 := length_aeadEncrypt K N A P
  have hA0 : 0 < A.length := List.length_pos_iff.mpr hA
  have hAX : (A ++ X).length % 2 ^ lw = A.length := by
    rw [List.length_append, Nat.add_mod, hX, Nat.add_zero, Nat.mod_mod, Nat.mod_eq_of_lt hlA]
  have hPP : (P.length + 16 - 16) % 2 ^ lw = P.length := by
    rw [Nat.add_sub_cancel, Nat.mod_eq_of_lt hP]
  have := C42_esp32_decrypt_truncates lw e mem sp m mlen nsec c ad npub k K N (A ++ X) (aeadEncrypt K N A P) h
    (by right; omega) (by rw [hcl, hPP]; exact hd)
  rw [hcl, hAX, hPP, List.take_left, List.length_append] at this
  have hb : ctBody (aeadEncrypt K N A P) = (aeadEncrypt K N A P).take P.length := by
    unfold ctBody; rw [hcl, Nat.add_sub_cancel]
  have hdec : aeadDecrypt K N A (aeadEncrypt K N A P) = some P := aeadDecrypt_aeadEncrypt K N A P
  unfold aeadDecrypt at hdec
  rw [if_neg (by omega)] at hdec
  have hdec : (if ctTag (aeadEncrypt K N A P) = aeadDecTag K N A (ctBody (aeadEncrypt K N A P)) then
      some (aeadCandidate K N A (ctBody (aeadEncrypt K N A P))) else none) = some P := hdec
  rw [← hb] at this
  by_cases ht : ctTag (aeadEncrypt K N A P) = aeadDecTag K N A (ctBody (aeadEncrypt K N A P))
  · rw [if_pos ht] at hdec this
    injection hdec with hdec
    refine ⟨_, this, ?_⟩
    rw [hdec]; exact holds_writes_self _ _ _
  · rw [if_neg ht] at hdec; cases hdec

/-- Collision: every message that continues `M` by a multiple of 2^lw bytes has the digest of `M`. -/
theorem C42_esp32_hash_collision (lw : Nat) (e : Endian) (mem : Mem) (sp out inp : Nat) (M X : List Byte)
    (hM : mem.Holds inp (M ++ X)) (hl : M.length < 2 ^ lw) (hX : X.length % 2 ^ lw = 0) (hw : mem.Writable out 32) :
    run (hash256 1 lw e sp out inp (M ++ X).length) mem = some (0, mem.writes out (Spec.hash256 M)) := by
  refine run_hash256 lw (M := M) ?_ ?_ hw
  · have := hM.take M.length
    rwa [List.take_left] at this
  · unfold ulong
    rw [List.length_append, Nat.add_mod, hX, Nat.add_zero, Nat.mod_mod, Nat.mod_eq_of_lt hl]

/-- … and the same for the extendable-output function. -/
theorem C42_esp32_xof_collision (lw : Nat) (e : Endian) (mem : Mem) (sp out inp : Nat) (M X : List Byte)
    (hM : mem.Holds inp (M ++ X)) (hl : M.length < 2 ^ lw) (hX : X.length % 2 ^ lw = 0) (hw : mem.Writable out 64) :
    run (xof128 1 lw e sp out inp (M ++ X).length) mem = some (0, mem.writes out (Spec.xof128 M 64)) := by
  refine run_xof128 lw (M := M) ?_ ?_ hw
  · have := hM.take M.length
    rwa [List.take_left] at this
  · unfold ulong
    rw [List.length_append, Nat.add_mod, hX, Nat.add_zero, Nat.mod_mod, Nat.mod_eq_of_lt hl]

/-- 2^32 + 3 zero bytes have, with a 32-bit `unsigned long`, the digest of 3 zero bytes. -/
example : run (hash256 1 32 .little 0 200 1000 (List.replicate 3 (0 : Byte) ++ List.replicate (2 ^ 32) 0).length) zeros =
    some (0, zeros.writes 200 (Spec.hash256 (List.replicate 3 0))) := by
  have hz := zeros_holds 1000 (3 + 2 ^ 32) (by decide)
  rw [← List.replicate_append_replicate] at hz
  exact C42_esp32_hash_collision 32 .little zeros 0 200 1000 _ _ hz (by simp) (by rw [List.length_replicate])
    (zeros_writable 200 32 (by decide))

theorem zeros_encPre (n : Nat) (h : n ≤ 2 ^ 39) : EncPre zeros (2 ^ 41) 1000 32 1000 0 16 0 (List.replicate 16 0)
    (List.replicate 16 0) [] (List.replicate n 0) where
  key := zeros_holds 0 16 (by decide)
  keyLen := rfl
  nonce := zeros_holds 16 16 (by decide)
  nonceLen := rfl
  adata := zeros_holds 0 0 (by decide)
  adLen := by decide
  msg := zeros_holds 1000 n (by omega)
  msgLen := by rw [List.length_replicate]; omega
  out := zeros_writable _ _ (by rw [List.length_replicate]; omega)
  outLen := zeros_writable _ _ (by decide)
  sepKey := by unfold Disjoint; decide
  sepNonce := by unfold Disjoint; decide
  sepAd := by unfold Disjoint; decide
  sepMsg := by unfold Disjoint; omega
  sepOut := by unfold Disjoint; omega
  overlap := by omega
  stack := by
    intro i hi
    unfold zeros
    rw [if_neg (by omega)]

/-- In-place encryption of 2^32 + 3 bytes with a 32-bit `unsigned long`: all but the first 3 bytes stay in the clear. -/
example : ∃ mem', run (crypto_aead_encrypt 1 32 .little (2 ^ 41) 1000 32 1000 (List.replicate (2 ^ 32 + 3) (0 : Byte)).length 0
      ([] : List Byte).length 0 16 0) zeros = some (0, mem') ∧
    mem'.Holds (1000 + (List.replicate (2 ^ 32 + 3) (0 : Byte)).length % 2 ^ 32)
      ((List.replicate (2 ^ 32 + 3) (0 : Byte)).drop ((List.replicate (2 ^ 32 + 3) (0 : Byte)).length % 2 ^ 32)) :=
  C42_esp32_plaintext_not_encrypted 32 .little zeros _ _ _ _ _ _ _ _ _ _ _ (zeros_encPre (2 ^ 32 + 3) (by decide)) (.inl rfl)

/-! ## C43: decryption in place -/

/-- In-place decryption of messages of whole blocks is correct. -/
theorem C43_esp32_decrypt_in_place_whole_blocks (lw : Nat) (e : Endian) (mem : Mem) (sp mlen nsec c ad npub k : Nat)
    (K N A C : List Byte) (h : DecPre mem sp c mlen c ad npub k K N A C) (hA : A.length < 2 ^ lw)
    (hC : C.length - 16 < 2 ^ lw) (h16 : C.length % 16 = 0) :
    run (crypto_aead_decrypt 1 lw e sp c mlen nsec c C.length ad A.length npub k) mem =
      some (if ctTag C = aeadDecTag K N A (ctBody C) then 0 else -1, decPost e mem c mlen K N A C) :=
  C36_esp32_decrypt lw e mem sp c mlen nsec c ad npub k K N A C h hA hC (by
    have := h.ctMin
    unfold Disjoint; omega)

/-- **C43** For all other lengths, in-place decryption (`m = c`) writes the right candidate plaintext but compares the
received tag with a *wrong* one: the last partial block is read back from memory after it has been overwritten by
plaintext, so the ciphertext bytes take the place of plaintext bytes in the state (`decBodyInPlace`). -/
theorem C43_esp32_decrypt_in_place (lw : Nat) (e : Endian) (mem : Mem) (sp mlen nsec c ad npub k : Nat)
    (K N A C : List Byte) (h : DecPre mem sp c mlen c ad npub k K N A C) (hA : A.length < 2 ^ lw)
    (hC : C.length - 16 < 2 ^ lw) :
    run (crypto_aead_decrypt 1 lw e sp c mlen nsec c C.length ad A.length npub k) mem =
      some (if ctTag C = aeadTag K (decBodyInPlace (aeadAd A (aeadInit K N)) (ctBody C)).1 then 0 else -1,
        decPost e mem c mlen K N A C) := by
  have h16 := h.ctMin
  have hbl : (ctBody C).length = C.length - 16 := by simp [ctBody]
  have htl : (ctTag C).length = 16 := by simp [ctTag]; omega
  exact run_decrypt_gen (C := ctBody C) (P' := aeadCandidate K N A (ctBody C)) h.key h.keyLen h.nonce h.nonceLen h.adata
    (ulong_of_lt hA).symm (by
    by_cases h0 : A = []
    · left; simp [h0]
    · right; exact h0) h16 h.ctLen (h.ct.take _) (by rw [ulong_of_lt hC]; exact hbl) (h.ct.drop _ (by omega)) htl
    (by rw [hbl]; exact h.out) h.outLen h.sepKey h.sepNonce h.sepAd h.sepCt (by rw [hbl]; exact h.sepOut) h.overlap
    (Ref.length_decBody (aeadAd A (aeadInit K N)) _) fun mem1 hc1 hw1 => run_duplex_inPlace _ c _ hc1 hw1

/-- The 20-byte demo message, encrypted. -/
def demoCt : List Byte := aeadEncrypt Demo.K Demo.N Demo.A Demo.P

/-- … in memory at 200. -/
def demoMem : Mem := Demo.mem.writes 200 demoCt

theorem demoCt_length : demoCt.length = 36 := length_aeadEncrypt _ _ _ _

theorem demoDecPre : DecPre demoMem 1000 200 300 200 32 16 0 Demo.K Demo.N Demo.A demoCt where
  key := Mem.Holds.writes_disjoint Demo.encPre.key (by rw [demoCt_length]; unfold Disjoint; decide)
  keyLen := Demo.encPre.keyLen
  nonce := Mem.Holds.writes_disjoint Demo.encPre.nonce (by rw [demoCt_length]; unfold Disjoint; decide)
  nonceLen := Demo.encPre.nonceLen
  adata := Mem.Holds.writes_disjoint Demo.encPre.adata (by rw [demoCt_length]; unfold Disjoint; decide)
  adLen := Demo.encPre.adLen
  ct := holds_writes_self _ _ _
  ctMin := by rw [demoCt_length]; decide
  ctLen := by rw [demoCt_length]; decide
  out := by rw [demoCt_length]; exact (Demo.out36.mono (by omega) (by omega)).writes
  outLen := Demo.encPre.outLen.writes
  sepKey := by unfold Disjoint; decide
  sepNonce := by unfold Disjoint; decide
  sepAd := by unfold Disjoint; decide
  sepCt := by rw [demoCt_length]; unfold Disjoint; decide
  sepOut := by rw [demoCt_length]; unfold Disjoint; decide
  overlap := by omega
  stack := by
    intro i hi
    unfold demoMem
    rw [writes_out (by rw [demoCt_length]; omega)]
    exact Demo.encPre.stack i hi

/-- A genuine ciphertext (20-byte message) that esp32 itself produces is rejected by esp32 when it is decrypted in
place, on every target: the round trip fails. -/
theorem C43_esp32_in_place_rejects_genuine (lw : Nat) (hlw : 5 ≤ lw) (e : Endian) (nsec : Nat) :
    (run (crypto_aead_encrypt 1 lw e 1000 200 300 100 Demo.P.length 32 Demo.A.length nsec 16 0) Demo.mem =
      some (0, encPost e Demo.mem 200 300 Demo.K Demo.N Demo.A Demo.P)) ∧
    (∃ mem', run (crypto_aead_decrypt 1 lw e 1000 200 300 nsec 200 36 32 Demo.A.length 16 0) demoMem = some (-1, mem')) := by
  have hpow : 2 ^ 5 ≤ 2 ^ lw := Nat.pow_le_pow_right (by decide) hlw
  refine ⟨C36_esp32_encrypt lw e _ _ _ _ _ _ _ _ _ _ _ _ _ Demo.encPre (Nat.lt_of_lt_of_le (by decide) hpow)
    (Nat.lt_of_lt_of_le (by decide) hpow), ?_⟩
  have h := C43_esp32_decrypt_in_place lw e demoMem 1000 300 nsec 200 32 16 0
      Demo.K Demo.N Demo.A demoCt demoDecPre (Nat.lt_of_lt_of_le (by decide) hpow)
      (by rw [demoCt_length]; exact Nat.lt_of_lt_of_le (by decide) hpow)
  have hne : ¬ ctTag demoCt = aeadTag Demo.K (decBodyInPlace (aeadAd Demo.A (aeadInit Demo.K Demo.N)) (ctBody demoCt)).1 := by
    decide +kernel
  rw [if_neg hne, demoCt_length] at h
  exact ⟨_, h⟩

end Ascon.Esp32
