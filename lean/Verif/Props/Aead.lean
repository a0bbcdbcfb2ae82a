import Verif.Proof.Registry
import Verif.Proof.SpecAead
import Verif.C.Footprint
import Verif.Props.Demo
/-!
# AEAD properties (C01–C11, C32)

`run prog mem = some (r, mem')`: the call terminates without undefined behaviour, returns `r` and leaves
memory `mem'`.  `EncPre`/`DecPre` (Verif/C/Contracts.lean) say what the caller must provide.  `K N A P C`
are byte strings of arbitrary length (key and nonce: 16 bytes).
-/

namespace Ascon.Props

open Ascon.C Ascon.Spec Ascon.Impl

attribute [local irreducible] perm

/-- `[p, p+n)` -/
def InRange (p n a : Nat) : Prop := p ≤ a ∧ a < p + n

section
variable {mem : Mem} {sp c clen m mlen ad nsec npub k : Nat} {K N A P C : List Byte}

/-! ## Shared consequences of the contracts -/

theorem encPost_holds (e : Endian) (_ : EncPre mem sp c clen m ad npub k K N A P) :
    (encPost e mem c clen K N A P).Holds c (aeadEncrypt K N A P) := holds_writes_self _ _ _

theorem encPost_len (e : Endian) (h : EncPre mem sp c clen m ad npub k K N A P) :
    (encPost e mem c clen K N A P).Holds clen (repr64 e (BitVec.ofNat 64 (P.length + 16))) := by
  unfold encPost
  refine (holds_writes_self _ _ _).writes_disjoint ?_
  rw [Ref.length_repr64, length_aeadEncrypt]
  have := h.sepOut; unfold Disjoint at *; omega

theorem encPost_frame (e : Endian) {a : Nat} (h1 : ¬ InRange c (P.length + 16) a) (h2 : ¬ InRange clen 8 a) :
    encPost e mem c clen K N A P a = mem a := by
  unfold encPost
  unfold InRange at h1 h2
  rw [writes_out (by rw [length_aeadEncrypt]; omega), writes_out (by rw [Ref.length_repr64]; omega)]

theorem length_candidate (K N A C : List Byte) : (aeadCandidate K N A C).length = C.length := by
  unfold aeadCandidate; exact Ref.length_decBody _ _

theorem length_ctBody (_ : 16 ≤ C.length) : (ctBody C).length = C.length - 16 := by
  unfold ctBody; simp

theorem decPost_holds (e : Endian) :
    (decPost e mem m mlen K N A C).Holds m (aeadCandidate K N A (ctBody C)) := holds_writes_self _ _ _

theorem decPost_len (e : Endian) (h : DecPre mem sp m mlen c ad npub k K N A C) :
    (decPost e mem m mlen K N A C).Holds mlen (repr64 e (BitVec.ofNat 64 (C.length - 16))) := by
  unfold decPost
  refine (holds_writes_self _ _ _).writes_disjoint ?_
  rw [Ref.length_repr64, length_candidate, length_ctBody h.ctMin]
  have := h.sepOut; unfold Disjoint at *; omega

theorem decPost_frame (e : Endian) {a : Nat} (hC : 16 ≤ C.length) (h1 : ¬ InRange m (C.length - 16) a)
    (h2 : ¬ InRange mlen 8 a) : decPost e mem m mlen K N A C a = mem a := by
  unfold decPost
  unfold InRange at h1 h2
  rw [writes_out (by rw [length_candidate, length_ctBody hC]; omega), writes_out (by rw [Ref.length_repr64]; omega)]

theorem aeadDecrypt_eq (hC : 16 ≤ C.length) : aeadDecrypt K N A C =
    if ctTag C = aeadDecTag K N A (ctBody C) then some (aeadCandidate K N A (ctBody C)) else none := by
  unfold aeadDecrypt ctTag ctBody
  rw [if_neg (by omega)]

end

/-! ## C01, C02: the reference code computes Ascon-AEAD128 -/

/-- **C01** `crypto_aead_encrypt` (reference) returns 0 and leaves ciphertext‖tag of SP 800-232 in `c`. -/
theorem C01_ref_encrypt_computes_aead128 (e : Endian) (mem : Mem) (sp c clen m ad nsec npub k : Nat)
    (K N A P : List Byte) (h : EncPre mem sp c clen m ad npub k K N A P) :
    ∃ mem', run (Ref.crypto_aead_encrypt e sp c clen m P.length ad A.length nsec npub k) mem = some (0, mem') ∧
      mem'.Holds c (aeadEncrypt K N A P) ∧ (aeadEncrypt K N A P).length = P.length + 16 :=
  ⟨_, Ref.enc_correct e mem sp c clen m ad nsec npub k K N A P h, encPost_holds e h, length_aeadEncrypt ..⟩

example : EncPre Demo.mem 1000 200 300 100 32 16 0 Demo.K Demo.N Demo.A Demo.P := Demo.encPre

/-- **C02** `crypto_aead_decrypt` (reference) returns 0 and the plaintext if SP 800-232 decryption
accepts, and -1 otherwise. -/
theorem C02_ref_decrypt_computes_aead128 (e : Endian) (mem : Mem) (sp m mlen nsec c ad npub k : Nat)
    (K N A C : List Byte) (h : DecPre mem sp m mlen c ad npub k K N A C) :
    ∃ r mem', run (Ref.crypto_aead_decrypt e sp m mlen nsec c C.length ad A.length npub k) mem = some (r, mem') ∧
      (∀ P, aeadDecrypt K N A C = some P → r = 0 ∧ mem'.Holds m P) ∧
      (aeadDecrypt K N A C = none → r = -1) := by
  refine ⟨_, _, Ref.dec_correct e mem sp m mlen nsec c ad npub k K N A C h, ?_, ?_⟩
  · intro P hP
    rw [aeadDecrypt_eq h.ctMin] at hP
    split at hP
    · rename_i ht
      injection hP with hP
      rw [if_pos ht, ← hP]
      exact ⟨rfl, decPost_holds e⟩
    · cases hP
  · intro hP
    rw [aeadDecrypt_eq h.ctMin] at hP
    split at hP <;> simp_all

example : DecPre Demo.memC 1000 100 300 200 32 16 0 Demo.K Demo.N Demo.A Demo.C := Demo.decPre

/-! ## The same for all implementations -/

/-- **C01, all implementations** -/
theorem C01_encrypt_computes_aead128 (i : Aead) (e : Endian) (hi : i.runsOn e) (mem : Mem)
    (sp c clen m ad nsec npub k : Nat) (K N A P : List Byte)
    (h : EncPre mem sp c clen m ad npub k K N A P) :
    ∃ mem', run (i.encrypt e sp c clen m P.length ad A.length nsec npub k) mem = some (0, mem') ∧
      mem'.Holds c (aeadEncrypt K N A P) :=
  ⟨_, i.encrypt_correct e hi mem sp c clen m ad nsec npub k K N A P h, encPost_holds e h⟩

/-- **C02, all implementations** -/
theorem C02_decrypt_computes_aead128 (i : Aead) (e : Endian) (hi : i.runsOn e) (mem : Mem)
    (sp m mlen nsec c ad npub k : Nat) (K N A C : List Byte)
    (h : DecPre mem sp m mlen c ad npub k K N A C) :
    ∃ r mem', run (i.decrypt e sp m mlen nsec c C.length ad A.length npub k) mem = some (r, mem') ∧
      (∀ P, aeadDecrypt K N A C = some P → r = 0 ∧ mem'.Holds m P) ∧
      (aeadDecrypt K N A C = none → r = -1) := by
  refine ⟨_, _, i.decrypt_correct e hi mem sp m mlen nsec c ad npub k K N A C h, ?_, ?_⟩
  · intro P hP
    rw [aeadDecrypt_eq h.ctMin] at hP
    split at hP
    · rename_i ht
      injection hP with hP
      rw [if_pos ht, ← hP]
      exact ⟨rfl, decPost_holds e⟩
    · cases hP
  · intro hP
    rw [aeadDecrypt_eq h.ctMin] at hP
    split at hP <;> simp_all

example : Aead.runsOn .opt64 .big ∧ Aead.runsOn .bi32 .little := ⟨trivial, rfl⟩

/-! ## C03: round trip -/

/-- **C03** Encrypt with implementation `i`, decrypt the result with implementation `j` into `m2`: returns 0,
reports the length and restores the plaintext.  (`m2` may be the buffer `c` itself.) -/
theorem C03_round_trip (i j : Aead) (e : Endian) (hi : i.runsOn e) (hj : j.runsOn e) (mem : Mem)
    (sp c clen m ad nsec npub k m2 mlen2 : Nat) (K N A P : List Byte)
    (h : EncPre mem sp c clen m ad npub k K N A P) (hlen : P.length + 16 < 2 ^ 64)
    (ck : Disjoint c (P.length + 16) k 16) (cn : Disjoint c (P.length + 16) npub 16)
    (ca : Disjoint c (P.length + 16) ad A.length)
    (w2 : mem.Writable m2 P.length) (wl2 : mem.Writable mlen2 8)
    (s1 : Disjoint mlen2 8 k 16) (s2 : Disjoint mlen2 8 npub 16) (s3 : Disjoint mlen2 8 ad A.length)
    (s4 : Disjoint mlen2 8 c (P.length + 16)) (s5 : Disjoint mlen2 8 m2 P.length)
    (ov : m2 ≤ c ∨ c + (P.length + 16) ≤ m2) :
    ∃ mem1 mem2,
      run (i.encrypt e sp c clen m P.length ad A.length nsec npub k) mem = some (0, mem1) ∧
      mem1.Holds clen (repr64 e (BitVec.ofNat 64 (P.length + 16))) ∧
      run (j.decrypt e sp m2 mlen2 nsec c (P.length + 16) ad A.length npub k) mem1 = some (0, mem2) ∧
      mem2.Holds m2 P ∧ mem2.Holds mlen2 (repr64 e (BitVec.ofNat 64 P.length)) := by
  have hl := length_aeadEncrypt K N A P
  have pre : ∀ {p : Nat} {bs : List Byte}, mem.Holds p bs → Disjoint c (P.length + 16) p bs.length →
      Disjoint clen 8 p bs.length → (encPost e mem c clen K N A P).Holds p bs := by
    intro p bs hp d1 d2
    unfold encPost
    refine (hp.writes_disjoint ?_).writes_disjoint ?_
    · rw [Ref.length_repr64]; unfold Disjoint at *; omega
    · rw [hl]; unfold Disjoint at *; omega
  have hd : DecPre (encPost e mem c clen K N A P) sp m2 mlen2 c ad npub k K N A (aeadEncrypt K N A P) := by
    refine ⟨pre h.key (by rw [h.keyLen]; exact ck) (by rw [h.keyLen]; exact h.sepKey), h.keyLen,
      pre h.nonce (by rw [h.nonceLen]; exact cn) (by rw [h.nonceLen]; exact h.sepNonce), h.nonceLen,
      pre h.adata ca h.sepAd, h.adLen, encPost_holds e h, by omega, by omega, ?_, ?_, s1, s2, s3,
      by rw [hl]; exact s4, ?_, by rw [hl]; exact ov, ?_⟩
    · rw [hl, Nat.add_sub_cancel]; exact (w2.writes).writes
    · exact (wl2.writes).writes
    · rw [hl, Nat.add_sub_cancel]; exact s5
    · unfold encPost
      refine Ref.Mem.Free.writes' (Ref.Mem.Free.writes' h.stack ?_) ?_
      · rw [Ref.length_repr64]; exact h.stack.disjoint_writable h.outLen
      · rw [hl]; exact h.stack.disjoint_writable h.out
  have hb : ctBody (aeadEncrypt K N A P) = (encBody (aeadAd A (aeadInit K N)) P).2 := by
    unfold ctBody; rw [hl, Nat.add_sub_cancel, take_aeadEncrypt]
  have ht : ctTag (aeadEncrypt K N A P) = aeadDecTag K N A (ctBody (aeadEncrypt K N A P)) := by
    rw [hb]; unfold ctTag aeadDecTag
    rw [hl, Nat.add_sub_cancel, drop_aeadEncrypt, decBody_encBody]
  have hc : aeadCandidate K N A (ctBody (aeadEncrypt K N A P)) = P := by
    rw [hb]; unfold aeadCandidate; rw [decBody_encBody]
  have hrun := j.decrypt_correct e hj _ sp m2 mlen2 nsec c ad npub k K N A _ hd
  rw [if_pos ht, hl] at hrun
  have hlen2 := decPost_len e hd
  rw [hl, Nat.add_sub_cancel] at hlen2
  have hpt := @decPost_holds (encPost e mem c clen K N A P) m2 mlen2 K N A (aeadEncrypt K N A P) e
  rw [hc] at hpt
  exact ⟨_, _, i.encrypt_correct e hi mem sp c clen m ad nsec npub k K N A P h, encPost_len e h, hrun, hpt, hlen2⟩

/-- The hypotheses of C03 hold for a concrete memory (decrypting back into the ciphertext buffer). -/
example : ∃ mem1 mem2,
    run (Aead.encrypt .bi32 .little 1000 200 300 100 20 32 5 0 16 0) Demo.mem = some (0, mem1) ∧
    mem1.Holds 300 (repr64 .little (BitVec.ofNat 64 36)) ∧
    run (Aead.decrypt .ref .little 1000 200 320 0 200 36 32 5 16 0) mem1 = some (0, mem2) ∧
    mem2.Holds 200 Demo.P ∧ mem2.Holds 320 (repr64 .little (BitVec.ofNat 64 20)) := by
  refine C03_round_trip .bi32 .ref .little rfl trivial Demo.mem 1000 200 300 100 32 0 16 0 200 320
    Demo.K Demo.N Demo.A Demo.P Demo.encPre (by decide) ?_ ?_ ?_ ?_ ?_ ?_ ?_ ?_ ?_ ?_ ?_ <;>
  first | (unfold Disjoint; decide +kernel) | (unfold Mem.Writable; decide +kernel) | decide +kernel

/-! ## C04: only genuine ciphertexts are accepted -/

/-- **C04** If decryption returns 0 then the received string is the encryption of the plaintext that was
returned. -/
theorem C04_accepts_only_genuine (i : Aead) (e : Endian) (hi : i.runsOn e) (mem mem' : Mem)
    (sp m mlen nsec c ad npub k : Nat) (K N A C : List Byte)
    (h : DecPre mem sp m mlen c ad npub k K N A C)
    (hacc : run (i.decrypt e sp m mlen nsec c C.length ad A.length npub k) mem = some (0, mem')) :
    ∃ P, mem'.Holds m P ∧ P.length + 16 = C.length ∧ C = aeadEncrypt K N A P := by
  rw [i.decrypt_correct e hi mem sp m mlen nsec c ad npub k K N A C h] at hacc
  injection hacc with hacc; injection hacc with h0 h1
  have ht : ctTag C = aeadDecTag K N A (ctBody C) := by
    by_cases ht : ctTag C = aeadDecTag K N A (ctBody C)
    · exact ht
    · rw [if_neg ht] at h0; exact absurd h0 (by decide)
  refine ⟨aeadCandidate K N A (ctBody C), ?_, ?_, ?_⟩
  · rw [← h1]; exact decPost_holds e
  · rw [length_candidate, length_ctBody h.ctMin]; have := h.ctMin; omega
  · apply aeadEncrypt_of_aeadDecrypt; rw [aeadDecrypt_eq h.ctMin, if_pos ht]

/-- **C04, uniqueness of the tag** Of all strings that share the ciphertext body, at most one is accepted:
after any change to the tag of an accepted string (for instance flipping one bit) the result is -1. -/
theorem C04_modified_tag_rejected (i j : Aead) (e : Endian) (hi : i.runsOn e) (hj : j.runsOn e)
    (mem mem' : Mem) (sp m mlen nsec c ad npub k : Nat) (K N A C : List Byte)
    (h : DecPre mem sp m mlen c ad npub k K N A C)
    (hacc : run (i.decrypt e sp m mlen nsec c C.length ad A.length npub k) mem = some (0, mem'))
    (mem2 : Mem) (sp2 m2 mlen2 nsec2 c2 ad2 npub2 k2 : Nat) (C2 : List Byte)
    (h2 : DecPre mem2 sp2 m2 mlen2 c2 ad2 npub2 k2 K N A C2)
    (hbody : C2.take (C2.length - 16) = C.take (C.length - 16)) (hne : C2 ≠ C) :
    ∃ mem2', run (j.decrypt e sp2 m2 mlen2 nsec2 c2 C2.length ad2 A.length npub2 k2) mem2 =
      some (-1, mem2') := by
  rw [i.decrypt_correct e hi mem sp m mlen nsec c ad npub k K N A C h] at hacc
  injection hacc with hacc; injection hacc with h0 h1
  have ht : ctTag C = aeadDecTag K N A (ctBody C) := by
    by_cases ht : ctTag C = aeadDecTag K N A (ctBody C)
    · exact ht
    · rw [if_neg ht] at h0; exact absurd h0 (by decide)
  refine ⟨decPost e mem2 m2 mlen2 K N A C2, ?_⟩
  rw [j.decrypt_correct e hj mem2 sp2 m2 mlen2 nsec2 c2 ad2 npub2 k2 K N A C2 h2, if_neg]
  intro ht2
  apply hne
  have hb : ctBody C2 = ctBody C := hbody
  rw [hb, ← ht] at ht2
  rw [← List.take_append_drop (C2.length - 16) C2, ← List.take_append_drop (C.length - 16) C]
  unfold ctBody at hb; unfold ctTag at ht2
  rw [hb, ht2]

/-- The acceptance hypothesis is met by real ciphertexts (C03), the length hypotheses by `Demo`. -/
example : DecPre Demo.memC 1000 200 300 200 32 16 0 Demo.K Demo.N Demo.A Demo.C := Demo.decPreInPlace

/-! ## C05, C06 -/

/-- **C05** Fewer than 16 bytes: -1, no access at all, memory unchanged — in every memory, whatever the
pointers are. -/
theorem C05_short_ciphertext_rejected (i : Aead) (e : Endian) (mem : Mem)
    (sp m mlen nsec c clen ad adlen npub k : Nat) (hc : clen < 16) :
    run (i.decrypt e sp m mlen nsec c clen ad adlen npub k) mem = some (-1, mem) ∧
    ∀ ev ∈ trace (i.decrypt e sp m mlen nsec c clen ad adlen npub k) mem, ev.addr = none := by
  have := i.decrypt_short e mem sp m mlen nsec c clen ad adlen npub k hc
  refine ⟨this.1, ?_⟩
  rw [this.2]
  intro ev hev
  simp only [List.mem_singleton] at hev
  rw [hev]; rfl

example : run (Aead.decrypt .bi8 .little 0 0 0 0 0 15 0 0 0 0) Demo.empty = some (-1, Demo.empty) :=
  (C05_short_ciphertext_rejected .bi8 .little Demo.empty 0 0 0 0 0 15 0 0 0 0 (by omega)).1

/-- **C06, encryption** -/
theorem C06_encrypt_return_and_length (i : Aead) (e : Endian) (hi : i.runsOn e) (mem : Mem)
    (sp c clen m ad nsec npub k : Nat) (K N A P : List Byte)
    (h : EncPre mem sp c clen m ad npub k K N A P) :
    ∃ mem', run (i.encrypt e sp c clen m P.length ad A.length nsec npub k) mem = some (0, mem') ∧
      mem'.Holds clen (repr64 e (BitVec.ofNat 64 (P.length + 16))) :=
  ⟨_, i.encrypt_correct e hi mem sp c clen m ad nsec npub k K N A P h, encPost_len e h⟩

/-- **C06, decryption** -/
theorem C06_decrypt_return_and_length (i : Aead) (e : Endian) (hi : i.runsOn e) (mem : Mem)
    (sp m mlen nsec c ad npub k : Nat) (K N A C : List Byte)
    (h : DecPre mem sp m mlen c ad npub k K N A C) :
    ∃ r mem', run (i.decrypt e sp m mlen nsec c C.length ad A.length npub k) mem = some (r, mem') ∧
      (r = 0 ∨ r = -1) ∧ mem'.Holds mlen (repr64 e (BitVec.ofNat 64 (C.length - 16))) := by
  refine ⟨_, _, i.decrypt_correct e hi mem sp m mlen nsec c ad npub k K N A C h, ?_, decPost_len e h⟩
  split <;> simp

/-! ## C07: memory safety and footprint -/

/-- **C07, encryption** No undefined behaviour; only `c[0..mlen+16)` and `*clen` change; and every access
is to one of the caller's buffers or to the function's own stack frame. -/
theorem C07_encrypt_safe (i : Aead) (e : Endian) (hi : i.runsOn e) (mem : Mem)
    (sp c clen m ad nsec npub k : Nat) (K N A P : List Byte)
    (h : EncPre mem sp c clen m ad npub k K N A P) :
    (∃ r mem', run (i.encrypt e sp c clen m P.length ad A.length nsec npub k) mem = some (r, mem') ∧
      ∀ a, ¬ InRange c (P.length + 16) a → ¬ InRange clen 8 a → mem' a = mem a) ∧
    ∀ ev ∈ trace (i.encrypt e sp c clen m P.length ad A.length nsec npub k) mem, ∀ a, ev.addr = some a →
      InRange k 16 a ∨ InRange npub 16 a ∨ InRange ad A.length a ∨ InRange m P.length a ∨
      InRange c (P.length + 16) a ∨ InRange clen 8 a ∨ InRange sp 64 a := by
  refine ⟨⟨_, _, i.encrypt_correct e hi mem sp c clen m ad nsec npub k K N A P h,
    fun a h1 h2 => encPost_frame e h1 h2⟩, ?_⟩
  intro ev hev a ha
  apply Classical.byContradiction
  intro hn
  simp only [not_or] at hn
  obtain ⟨n1, n2, n3, n4, n5, n6, n7⟩ := hn
  refine untouched _ mem a ?_ ev hev ha
  intro cell
  have h' : EncPre (mem.upd a cell) sp c clen m ad npub k K N A P := by
    unfold InRange at *
    refine ⟨h.key.upd (by rw [h.keyLen]; exact n1), h.keyLen, h.nonce.upd (by rw [h.nonceLen]; exact n2),
      h.nonceLen, h.adata.upd n3, h.adLen, h.msg.upd n4, h.msgLen, h.out.upd n5, h.outLen.upd n6, h.sepKey,
      h.sepNonce, h.sepAd, h.sepMsg, h.sepOut, h.overlap, h.stack.upd n7⟩
  refine ⟨_, _, i.encrypt_correct e hi _ sp c clen m ad nsec npub k K N A P h', ?_⟩
  rw [encPost_frame e n5 n6, upd_self]

/-- **C07, decryption** -/
theorem C07_decrypt_safe (i : Aead) (e : Endian) (hi : i.runsOn e) (mem : Mem)
    (sp m mlen nsec c ad npub k : Nat) (K N A C : List Byte)
    (h : DecPre mem sp m mlen c ad npub k K N A C) :
    (∃ r mem', run (i.decrypt e sp m mlen nsec c C.length ad A.length npub k) mem = some (r, mem') ∧
      ∀ a, ¬ InRange m (C.length - 16) a → ¬ InRange mlen 8 a → mem' a = mem a) ∧
    ∀ ev ∈ trace (i.decrypt e sp m mlen nsec c C.length ad A.length npub k) mem, ∀ a, ev.addr = some a →
      InRange k 16 a ∨ InRange npub 16 a ∨ InRange ad A.length a ∨ InRange c C.length a ∨
      InRange m (C.length - 16) a ∨ InRange mlen 8 a ∨ InRange sp 64 a := by
  refine ⟨⟨_, _, i.decrypt_correct e hi mem sp m mlen nsec c ad npub k K N A C h,
    fun a h1 h2 => decPost_frame e h.ctMin h1 h2⟩, ?_⟩
  intro ev hev a ha
  apply Classical.byContradiction
  intro hn
  simp only [not_or] at hn
  obtain ⟨n1, n2, n3, n4, n5, n6, n7⟩ := hn
  refine untouched _ mem a ?_ ev hev ha
  intro cell
  have h' : DecPre (mem.upd a cell) sp m mlen c ad npub k K N A C := by
    unfold InRange at *
    refine ⟨h.key.upd (by rw [h.keyLen]; exact n1), h.keyLen, h.nonce.upd (by rw [h.nonceLen]; exact n2),
      h.nonceLen, h.adata.upd n3, h.adLen, h.ct.upd n4, h.ctMin, h.ctLen, h.out.upd n5, h.outLen.upd n6,
      h.sepKey, h.sepNonce, h.sepAd, h.sepCt, h.sepOut, h.overlap, h.stack.upd n7⟩
  refine ⟨_, _, i.decrypt_correct e hi _ sp m mlen nsec c ad npub k K N A C h', ?_⟩
  rw [decPost_frame e h.ctMin n5 n6, upd_self]

/-! ## C08: overlapping buffers -/

/-- **C08, encryption in place**: `c == m`.  The caller's buffer has room for 16 more bytes; key, nonce and
associated data may even lie inside it. -/
theorem C08_encrypt_in_place (i : Aead) (e : Endian) (hi : i.runsOn e) (mem : Mem)
    (sp clen m ad nsec npub k : Nat) (K N A P : List Byte)
    (hK : mem.Holds k K) (hK16 : K.length = 16) (hN : mem.Holds npub N) (hN16 : N.length = 16)
    (hA : mem.Holds ad A) (hAl : A.length < 2 ^ 64) (hP : mem.Holds m P) (hPl : P.length < 2 ^ 64)
    (hw : mem.Writable m (P.length + 16)) (hwl : mem.Writable clen 8)
    (s1 : Disjoint clen 8 k 16) (s2 : Disjoint clen 8 npub 16) (s3 : Disjoint clen 8 ad A.length)
    (s4 : Disjoint clen 8 m (P.length + 16)) (hs : mem.Free sp 64) :
    ∃ mem', run (i.encrypt e sp m clen m P.length ad A.length nsec npub k) mem = some (0, mem') ∧
      mem'.Holds m (aeadEncrypt K N A P) := by
  have h : EncPre mem sp m clen m ad npub k K N A P :=
    ⟨hK, hK16, hN, hN16, hA, hAl, hP, hPl, hw, hwl, s1, s2, s3, by unfold Disjoint at *; omega, s4,
      .inl (Nat.le_refl m), hs⟩
  exact C01_encrypt_computes_aead128 i e hi mem sp m clen m ad nsec npub k K N A P h

/-- **C08, decryption in place**: `m == c`. -/
theorem C08_decrypt_in_place (i : Aead) (e : Endian) (hi : i.runsOn e) (mem : Mem)
    (sp mlen nsec c ad npub k : Nat) (K N A C : List Byte)
    (hK : mem.Holds k K) (hK16 : K.length = 16) (hN : mem.Holds npub N) (hN16 : N.length = 16)
    (hA : mem.Holds ad A) (hAl : A.length < 2 ^ 64) (hC : mem.Holds c C) (h16 : 16 ≤ C.length)
    (hCl : C.length < 2 ^ 64) (hw : mem.Writable c (C.length - 16)) (hwl : mem.Writable mlen 8)
    (s1 : Disjoint mlen 8 k 16) (s2 : Disjoint mlen 8 npub 16) (s3 : Disjoint mlen 8 ad A.length)
    (s4 : Disjoint mlen 8 c C.length) (hs : mem.Free sp 64) :
    ∃ r mem', run (i.decrypt e sp c mlen nsec c C.length ad A.length npub k) mem = some (r, mem') ∧
      (∀ P, aeadDecrypt K N A C = some P → r = 0 ∧ mem'.Holds c P) ∧
      (aeadDecrypt K N A C = none → r = -1) := by
  have h : DecPre mem sp c mlen c ad npub k K N A C :=
    ⟨hK, hK16, hN, hN16, hA, hAl, hC, h16, hCl, hw, hwl, s1, s2, s3, s4,
      by unfold Disjoint at *; omega, .inl (Nat.le_refl c), hs⟩
  exact C02_decrypt_computes_aead128 i e hi mem sp c mlen nsec c ad npub k K N A C h

/-- **C08, general** The output may start anywhere at or below the input, or be disjoint from it, and may
overlap key, nonce and associated data arbitrarily: `EncPre` requires none of these to be disjoint. -/
theorem C08_encrypt_overlap (i : Aead) (e : Endian) (hi : i.runsOn e) (mem : Mem)
    (sp c clen m ad nsec npub k : Nat) (K N A P : List Byte)
    (hK : mem.Holds k K) (hK16 : K.length = 16) (hN : mem.Holds npub N) (hN16 : N.length = 16)
    (hA : mem.Holds ad A) (hAl : A.length < 2 ^ 64) (hP : mem.Holds m P) (hPl : P.length < 2 ^ 64)
    (hw : mem.Writable c (P.length + 16)) (hwl : mem.Writable clen 8)
    (s1 : Disjoint clen 8 k 16) (s2 : Disjoint clen 8 npub 16) (s3 : Disjoint clen 8 ad A.length)
    (s4 : Disjoint clen 8 c (P.length + 16)) (s5 : Disjoint clen 8 m P.length) (hs : mem.Free sp 64)
    (hov : c ≤ m ∨ m + P.length ≤ c) :
    ∃ mem', run (i.encrypt e sp c clen m P.length ad A.length nsec npub k) mem = some (0, mem') ∧
      mem'.Holds c (aeadEncrypt K N A P) :=
  C01_encrypt_computes_aead128 i e hi mem sp c clen m ad nsec npub k K N A P
    ⟨hK, hK16, hN, hN16, hA, hAl, hP, hPl, hw, hwl, s1, s2, s3, s5, s4, hov, hs⟩

/-- In place on a concrete memory. -/
example : ∃ mem', run (Aead.encrypt .opt32 .big 1000 100 300 100 20 32 5 0 16 0) Demo.mem = some (0, mem') ∧
    mem'.Holds 100 (aeadEncrypt Demo.K Demo.N Demo.A Demo.P) :=
  C01_encrypt_computes_aead128 .opt32 .big trivial Demo.mem 1000 100 300 100 32 0 16 0 Demo.K Demo.N Demo.A Demo.P
    Demo.encPreInPlace

/-! ## C09: constant time -/

/-- **C09** For given pointers and lengths the sequence of addresses and branch outcomes is the same in any
two memories with the same layout, whatever they contain. -/
theorem C09_encrypt_constant_time (i : Aead) (e : Endian) (sp c clen m mlen ad adlen nsec npub k : Nat)
    (mem1 mem2 : Mem) (h : SameLayout mem1 mem2) :
    trace (i.encrypt e sp c clen m mlen ad adlen nsec npub k) mem1 =
    trace (i.encrypt e sp c clen m mlen ad adlen nsec npub k) mem2 :=
  i.encrypt_ct e sp c clen m mlen ad adlen nsec npub k mem1 mem2 h

theorem C09_decrypt_constant_time (i : Aead) (e : Endian) (sp m mlen nsec c clen ad adlen npub k : Nat)
    (mem1 mem2 : Mem) (h : SameLayout mem1 mem2) :
    trace (i.decrypt e sp m mlen nsec c clen ad adlen npub k) mem1 =
    trace (i.decrypt e sp m mlen nsec c clen ad adlen npub k) mem2 :=
  i.decrypt_ct e sp m mlen nsec c clen ad adlen npub k mem1 mem2 h

/-- Two memories with the same layout and different keys. -/
example : SameLayout Demo.mem (Demo.mem.writes 0 Demo.N) ∧ Demo.mem 0 ≠ (Demo.mem.writes 0 Demo.N) 0 := by
  refine ⟨fun a => ?_, by decide +kernel⟩
  by_cases ha : a < 16
  · have : ∀ a : Fin 16, (Demo.mem a.val).shape = (Demo.mem.writes 0 Demo.N a.val).shape := by decide +kernel
    exact this ⟨a, ha⟩
  · rw [writes_out (by simp [Demo.N]; omega)]

/-! ## C10: agreement -/

/-- **C10** All implementations return the same value and leave the same memory. -/
theorem C10_encrypt_implementations_agree (i j : Aead) (e : Endian) (hi : i.runsOn e) (hj : j.runsOn e) (mem : Mem)
    (sp c clen m ad nsec npub k : Nat) (K N A P : List Byte)
    (h : EncPre mem sp c clen m ad npub k K N A P) :
    run (i.encrypt e sp c clen m P.length ad A.length nsec npub k) mem =
    run (j.encrypt e sp c clen m P.length ad A.length nsec npub k) mem := by
  rw [i.encrypt_correct e hi mem sp c clen m ad nsec npub k K N A P h,
    j.encrypt_correct e hj mem sp c clen m ad nsec npub k K N A P h]

theorem C10_decrypt_implementations_agree (i j : Aead) (e : Endian) (hi : i.runsOn e) (hj : j.runsOn e) (mem : Mem)
    (sp m mlen nsec c ad npub k : Nat) (K N A C : List Byte)
    (h : DecPre mem sp m mlen c ad npub k K N A C) :
    run (i.decrypt e sp m mlen nsec c C.length ad A.length npub k) mem =
    run (j.decrypt e sp m mlen nsec c C.length ad A.length npub k) mem := by
  rw [i.decrypt_correct e hi mem sp m mlen nsec c ad npub k K N A C h,
    j.decrypt_correct e hj mem sp m mlen nsec c ad npub k K N A C h]

theorem C10_short_implementations_agree (i j : Aead) (e : Endian) (mem : Mem)
    (sp m mlen nsec c clen ad adlen npub k : Nat) (hc : clen < 16) :
    run (i.decrypt e sp m mlen nsec c clen ad adlen npub k) mem =
    run (j.decrypt e sp m mlen nsec c clen ad adlen npub k) mem := by
  rw [(i.decrypt_short e mem sp m mlen nsec c clen ad adlen npub k hc).1,
    (j.decrypt_short e mem sp m mlen nsec c clen ad adlen npub k hc).1]

/-! ## C11: injectivity, online encryption -/

/-- **C11** Under the same key, nonce and associated data, different plaintexts (of any lengths) leave
different ciphertexts in memory. -/
theorem C11_encrypt_injective (i j : Aead) (e : Endian) (hi : i.runsOn e) (hj : j.runsOn e)
    (mem1 mem2 mem1' mem2' : Mem) (sp1 c1 clen1 m1 ad1 nsec1 npub1 k1 sp2 c2 clen2 m2 ad2 nsec2 npub2 k2 : Nat)
    (K N A P Q : List Byte)
    (h1 : EncPre mem1 sp1 c1 clen1 m1 ad1 npub1 k1 K N A P) (h2 : EncPre mem2 sp2 c2 clen2 m2 ad2 npub2 k2 K N A Q)
    (r1 : run (i.encrypt e sp1 c1 clen1 m1 P.length ad1 A.length nsec1 npub1 k1) mem1 = some (0, mem1'))
    (r2 : run (j.encrypt e sp2 c2 clen2 m2 Q.length ad2 A.length nsec2 npub2 k2) mem2 = some (0, mem2'))
    (C : List Byte) (hl1 : C.length = P.length + 16) (hl2 : C.length = Q.length + 16)
    (hc1 : mem1'.Holds c1 C) (hc2 : mem2'.Holds c2 C) : P = Q := by
  rw [i.encrypt_correct e hi mem1 sp1 c1 clen1 m1 ad1 nsec1 npub1 k1 K N A P h1] at r1
  rw [j.encrypt_correct e hj mem2 sp2 c2 clen2 m2 ad2 nsec2 npub2 k2 K N A Q h2] at r2
  injection r1 with r1; injection r1 with _ r1
  injection r2 with r2; injection r2 with _ r2
  have e1 := hc1.ext (by rw [← r1]; exact encPost_holds e h1) (by rw [hl1, length_aeadEncrypt])
  have e2 := hc2.ext (by rw [← r2]; exact encPost_holds e h2) (by rw [hl2, length_aeadEncrypt])
  exact aeadEncrypt_injective (e1.symm.trans e2)

/-- **C11, online** The ciphertext of a plaintext that extends `P` (of whole blocks) starts with the
ciphertext body of `P`. -/
theorem C11_encrypt_online (i : Aead) (e : Endian) (hi : i.runsOn e) (mem : Mem)
    (sp c clen m ad nsec npub k : Nat) (K N A P Q : List Byte) (hP : P.length % 16 = 0)
    (h : EncPre mem sp c clen m ad npub k K N A (P ++ Q)) :
    ∃ mem', run (i.encrypt e sp c clen m (P ++ Q).length ad A.length nsec npub k) mem = some (0, mem') ∧
      mem'.Holds c ((aeadEncrypt K N A P).take P.length) := by
  refine ⟨_, i.encrypt_correct e hi mem sp c clen m ad nsec npub k K N A (P ++ Q) h, ?_⟩
  have h1 := (encPost_holds e h).take P.length
  have h2 : (aeadEncrypt K N A (P ++ Q)).take P.length = (aeadEncrypt K N A P).take P.length := by
    rw [take_aeadEncrypt, ← encBody_append (aeadAd A (aeadInit K N)) P Q hP, ← take_aeadEncrypt, List.take_take,
      Nat.min_eq_left (by simp)]
  rwa [h2] at h1

example : EncPre Demo.mem 1000 200 300 100 32 16 0 Demo.K Demo.N Demo.A
    (Demo.P.take 16 ++ Demo.P.drop 16) ∧ (Demo.P.take 16).length % 16 = 0 := ⟨Demo.encPre, by decide⟩

/-! ## C32: unverified plaintext -/

/-- **C32** (negative) When the tag is wrong, decryption returns -1 but the output buffer nevertheless holds
the whole candidate plaintext — exactly the bytes that would be released had the tag been the expected
one — and `*mlen` its length. -/
theorem C32_unverified_plaintext_released (i : Aead) (e : Endian) (hi : i.runsOn e) (mem mem' : Mem)
    (sp m mlen nsec c ad npub k : Nat) (K N A C : List Byte)
    (h : DecPre mem sp m mlen c ad npub k K N A C)
    (hrej : run (i.decrypt e sp m mlen nsec c C.length ad A.length npub k) mem = some (-1, mem')) :
    ∃ P T, mem'.Holds m P ∧ mem'.Holds mlen (repr64 e (BitVec.ofNat 64 (C.length - 16))) ∧
      P.length = C.length - 16 ∧
      aeadEncrypt K N A P = C.take (C.length - 16) ++ T := by
  rw [i.decrypt_correct e hi mem sp m mlen nsec c ad npub k K N A C h] at hrej
  injection hrej with hrej; injection hrej with _ hrej
  refine ⟨aeadCandidate K N A (ctBody C), aeadDecTag K N A (ctBody C), ?_, ?_, ?_, ?_⟩
  · rw [← hrej]; exact decPost_holds e
  · rw [← hrej]; exact decPost_len e h
  · rw [length_candidate, length_ctBody h.ctMin]
  · unfold aeadEncrypt aeadCandidate aeadDecTag
    rw [encBody_decBody]; rfl

end Ascon.Props
