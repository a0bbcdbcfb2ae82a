import Verif.Proof.GenVarCT
import Verif.Proof.SpecVariants
import Verif.C.Footprint
import Verif.Props.Aead
/-!
# C71: Ascon-128 and Ascon-80pq, the other parameter sets of the common AEAD source

`src/aead.c` is written for rate 8 as well (16- and 20-byte keys).  For every directory whose AEAD is that file, and for
both key lengths: the functions compute the member of the family of Spec/Variants.lean, and keep the guarantees of
Ascon-AEAD128 (round trip, authenticity, footprint, constant time).
-/

namespace Ascon.Props

open Ascon.C Ascon.Spec Ascon.Gen Ascon.Impl

attribute [local irreducible] perm

/-- `crypto_aead_encrypt` of src/aead.c with the headers of `c` and the rate-8 parameters `q`. -/
abbrev vEncrypt (c : Core) (q : KeyCfg) : AeadEncrypt := v_crypto_aead_encrypt c.vbackend q
abbrev vDecrypt (c : Core) (q : KeyCfg) : AeadDecrypt := v_crypto_aead_decrypt c.vbackend q

theorem vSpec16 : KeyCfg.spec .k16 = ascon128 := rfl
theorem vSpec20 : KeyCfg.spec .k20 = ascon80pq := rfl

/-- **C71, Ascon-128 encryption**: returns 0, sets `*clen` and the output buffer, changes nothing else. -/
theorem C71_ascon128_encrypt (c : Core) (e : Endian) (h : c.runsOn e) : VEncCorrectAt ascon128 e (vEncrypt c .k16) :=
  v_enc_correct (c.vok e h) .k16

theorem C71_ascon128_decrypt (c : Core) (e : Endian) (h : c.runsOn e) : VDecCorrectAt ascon128 e (vDecrypt c .k16) :=
  v_dec_correct (c.vok e h) .k16

theorem C71_ascon80pq_encrypt (c : Core) (e : Endian) (h : c.runsOn e) : VEncCorrectAt ascon80pq e (vEncrypt c .k20) :=
  v_enc_correct (c.vok e h) .k20

theorem C71_ascon80pq_decrypt (c : Core) (e : Endian) (h : c.runsOn e) : VDecCorrectAt ascon80pq e (vDecrypt c .k20) :=
  v_dec_correct (c.vok e h) .k20

/-- Fewer than 16 bytes of ciphertext: `-1`, no access to memory. -/
theorem C71_short_ciphertext_rejected (c : Core) (q : KeyCfg) (e : Endian) (mem : Mem)
    (sp m mlen nsec ct clen ad adlen npub k : Nat) (hc : clen < 16) :
    run (vDecrypt c q e sp m mlen nsec ct clen ad adlen npub k) mem = some (-1, mem) ∧
    ∀ ev ∈ trace (vDecrypt c q e sp m mlen nsec ct clen ad adlen npub k) mem, ev.addr = none := by
  have := v_dec_short c.vbackend q e mem sp m mlen nsec ct clen ad adlen npub k hc
  refine ⟨this.1, ?_⟩
  rw [this.2]
  intro ev hev
  simp only [List.mem_singleton] at hev
  rw [hev]; rfl

/-! ### The specification: decryption inverts encryption and accepts nothing else -/

/-- A string is accepted, with plaintext `P`, exactly if it is the encryption of `P`. -/
theorem C71_spec_decrypt_iff (q : KeyCfg) (K N A C P : List Byte) :
    q.spec.decrypt K N A C = some P ↔ C = q.spec.encrypt K N A P := Variant.decrypt_eq_some_iff (q_ok q) K N A C P

section
variable {V : Variant} {K N A C : List Byte}

theorem vdecrypt_eq (hC : 16 ≤ C.length) :
    V.decrypt K N A C = if ctTag C = V.decTag K N A (ctBody C) then some (V.candidate K N A (ctBody C)) else none := by
  unfold Variant.decrypt ctTag ctBody
  rw [if_neg (by omega)]

theorem length_vcandidate (hV : V.Ok) (K N A B : List Byte) : (V.candidate K N A B).length = B.length :=
  Variant.length_decBody hV _ _
end

/-- **C71, authenticity**: if decryption returns 0, the received string is the encryption of the plaintext returned. -/
theorem C71_accepts_only_genuine (i : Core) (q : KeyCfg) (e : Endian) (hi : i.runsOn e) (mem mem' : Mem)
    (sp m mlen nsec c ad npub k : Nat) (K N A C : List Byte)
    (h : VDecPre q.spec mem m mlen c ad npub k K N A C)
    (hacc : run (vDecrypt i q e sp m mlen nsec c C.length ad A.length npub k) mem = some (0, mem')) :
    ∃ P, mem'.Holds m P ∧ P.length + 16 = C.length ∧ C = q.spec.encrypt K N A P := by
  rw [v_dec_correct (i.vok e hi) q mem sp m mlen nsec c ad npub k K N A C h] at hacc
  injection hacc with hacc; injection hacc with h0 h1
  have ht : ctTag C = q.spec.decTag K N A (ctBody C) := by
    by_cases ht : ctTag C = q.spec.decTag K N A (ctBody C)
    · exact ht
    · rw [if_neg ht] at h0; exact absurd h0 (by decide)
  refine ⟨q.spec.candidate K N A (ctBody C), ?_, ?_, ?_⟩
  · rw [← h1]; exact holds_writes_self _ _ _
  · rw [length_vcandidate (q_ok q), length_ctBody h.ctMin]; have := h.ctMin; omega
  · apply Variant.encrypt_of_decrypt (q_ok q); rw [vdecrypt_eq h.ctMin, if_pos ht]

/-- **C71, round trip** through memory, with any two of the directories. -/
theorem C71_round_trip (i j : Core) (q : KeyCfg) (e : Endian) (hi : i.runsOn e) (hj : j.runsOn e) (mem : Mem)
    (sp c clen m ad nsec npub k m2 mlen2 : Nat) (K N A P : List Byte)
    (h : VEncPre q.spec mem c clen m ad npub k K N A P) (hlen : P.length + 16 < 2 ^ 64)
    (ck : Disjoint c (P.length + 16) k q.spec.keyLen) (cn : Disjoint c (P.length + 16) npub 16)
    (ca : Disjoint c (P.length + 16) ad A.length)
    (w2 : mem.Writable m2 P.length) (wl2 : mem.Writable mlen2 8)
    (s1 : Disjoint mlen2 8 k q.spec.keyLen) (s2 : Disjoint mlen2 8 npub 16) (s3 : Disjoint mlen2 8 ad A.length)
    (s4 : Disjoint mlen2 8 c (P.length + 16)) (s5 : Disjoint mlen2 8 m2 P.length)
    (ov : m2 ≤ c ∨ c + (P.length + 16) ≤ m2) :
    ∃ mem1 mem2,
      run (vEncrypt i q e sp c clen m P.length ad A.length nsec npub k) mem = some (0, mem1) ∧
      mem1.Holds clen (repr64 e (BitVec.ofNat 64 (P.length + 16))) ∧
      run (vDecrypt j q e sp m2 mlen2 nsec c (P.length + 16) ad A.length npub k) mem1 = some (0, mem2) ∧
      mem2.Holds m2 P ∧ mem2.Holds mlen2 (repr64 e (BitVec.ofNat 64 P.length)) := by
  have hl := Variant.length_encrypt (q_ok q) K N A P
  have hrun1 := v_enc_correct (i.vok e hi) q mem sp c clen m ad nsec npub k K N A P h
  generalize hm1 : (mem.writes clen (repr64 e (BitVec.ofNat 64 (P.length + 16)))).writes c (q.spec.encrypt K N A P) = mem1
    at hrun1
  have pre : ∀ {p : Nat} {bs : List Byte}, mem.Holds p bs → Disjoint c (P.length + 16) p bs.length →
      Disjoint clen 8 p bs.length → mem1.Holds p bs := by
    intro p bs hp d1 d2
    rw [← hm1]
    refine (hp.writes_disjoint ?_).writes_disjoint ?_
    · rw [Ref.length_repr64]; unfold Disjoint at *; omega
    · rw [hl]; unfold Disjoint at *; omega
  have hct : mem1.Holds c (q.spec.encrypt K N A P) := by rw [← hm1]; exact holds_writes_self _ _ _
  have hd : VDecPre q.spec mem1 m2 mlen2 c ad npub k K N A (q.spec.encrypt K N A P) := by
    refine ⟨pre h.key (by rw [h.keyLen]; exact ck) (by rw [h.keyLen]; exact h.sepKey), h.keyLen,
      pre h.nonce (by rw [h.nonceLen]; exact cn) (by rw [h.nonceLen]; exact h.sepNonce), h.nonceLen,
      pre h.adata ca h.sepAd, h.adLen, hct, by omega, by omega, ?_, ?_, s1, s2, s3,
      by rw [hl]; exact s4, ?_, by rw [hl]; exact ov⟩
    · rw [hl, Nat.add_sub_cancel, ← hm1]; exact (w2.writes).writes
    · rw [← hm1]; exact (wl2.writes).writes
    · rw [hl, Nat.add_sub_cancel]; exact s5
  have hsome : q.spec.decrypt K N A (q.spec.encrypt K N A P) = some P := Variant.decrypt_encrypt (q_ok q) K N A P
  rw [vdecrypt_eq (by omega)] at hsome
  have hrun := v_dec_correct (j.vok e hj) q mem1 sp m2 mlen2 nsec c ad npub k K N A _ hd
  by_cases ht : ctTag (q.spec.encrypt K N A P) = q.spec.decTag K N A (ctBody (q.spec.encrypt K N A P))
  · rw [if_pos ht] at hsome hrun
    injection hsome with hc
    rw [hl, Nat.add_sub_cancel, hc] at hrun
    refine ⟨mem1, _, hrun1, ?_, hrun, holds_writes_self _ _ _, ?_⟩
    · rw [← hm1]
      refine (holds_writes_self _ _ _).writes_disjoint ?_
      rw [Ref.length_repr64, hl]
      have := h.sepOut
      unfold Disjoint at *; omega
    · refine (holds_writes_self _ _ _).writes_disjoint ?_
      rw [Ref.length_repr64]
      unfold Disjoint at *; omega
  · rw [if_neg ht] at hsome; exact absurd hsome (by simp)

/-- **C71, footprint of encryption**: only the arguments are accessed; only `c` and `*clen` change. -/
theorem C71_encrypt_safe (i : Core) (q : KeyCfg) (e : Endian) (hi : i.runsOn e) (mem : Mem)
    (sp c clen m ad nsec npub k : Nat) (K N A P : List Byte)
    (h : VEncPre q.spec mem c clen m ad npub k K N A P) :
    (∃ mem', run (vEncrypt i q e sp c clen m P.length ad A.length nsec npub k) mem = some (0, mem') ∧
      ∀ a, ¬ InRange c (P.length + 16) a → ¬ InRange clen 8 a → mem' a = mem a) ∧
    ∀ ev ∈ trace (vEncrypt i q e sp c clen m P.length ad A.length nsec npub k) mem, ∀ a, ev.addr = some a →
      InRange k q.spec.keyLen a ∨ InRange npub 16 a ∨ InRange ad A.length a ∨ InRange m P.length a ∨
      InRange c (P.length + 16) a ∨ InRange clen 8 a := by
  have hl := Variant.length_encrypt (q_ok q) K N A P
  have frame : ∀ (M : Mem) a, ¬ InRange c (P.length + 16) a → ¬ InRange clen 8 a →
      (M.writes clen (repr64 e (BitVec.ofNat 64 (P.length + 16)))).writes c (q.spec.encrypt K N A P) a = M a := by
    intro M a h1 h2
    unfold InRange at h1 h2
    rw [writes_out (by rw [hl]; omega), writes_out (by rw [Ref.length_repr64]; omega)]
  refine ⟨⟨_, v_enc_correct (i.vok e hi) q mem sp c clen m ad nsec npub k K N A P h, frame mem⟩, ?_⟩
  intro ev hev a ha
  apply Classical.byContradiction
  intro hn
  simp only [not_or] at hn
  obtain ⟨n1, n2, n3, n4, n5, n6⟩ := hn
  refine untouched _ mem a ?_ ev hev ha
  intro cell
  have h' : VEncPre q.spec (mem.upd a cell) c clen m ad npub k K N A P := by
    unfold InRange at *
    exact ⟨h.key.upd (by rw [h.keyLen]; exact n1), h.keyLen, h.nonce.upd (by rw [h.nonceLen]; exact n2),
      h.nonceLen, h.adata.upd n3, h.adLen, h.msg.upd n4, h.msgLen, h.out.upd n5, h.outLen.upd n6, h.sepKey,
      h.sepNonce, h.sepAd, h.sepMsg, h.sepOut, h.overlap⟩
  refine ⟨_, _, v_enc_correct (i.vok e hi) q _ sp c clen m ad nsec npub k K N A P h', ?_⟩
  rw [frame _ a n5 n6, upd_self]

/-- **C71, footprint of decryption** -/
theorem C71_decrypt_safe (i : Core) (q : KeyCfg) (e : Endian) (hi : i.runsOn e) (mem : Mem)
    (sp m mlen nsec c ad npub k : Nat) (K N A C : List Byte)
    (h : VDecPre q.spec mem m mlen c ad npub k K N A C) :
    (∃ r mem', run (vDecrypt i q e sp m mlen nsec c C.length ad A.length npub k) mem = some (r, mem') ∧ (r = 0 ∨ r = -1) ∧
      ∀ a, ¬ InRange m (C.length - 16) a → ¬ InRange mlen 8 a → mem' a = mem a) ∧
    ∀ ev ∈ trace (vDecrypt i q e sp m mlen nsec c C.length ad A.length npub k) mem, ∀ a, ev.addr = some a →
      InRange k q.spec.keyLen a ∨ InRange npub 16 a ∨ InRange ad A.length a ∨ InRange c C.length a ∨
      InRange m (C.length - 16) a ∨ InRange mlen 8 a := by
  have hl : (q.spec.candidate K N A (ctBody C)).length = C.length - 16 := by
    rw [length_vcandidate (q_ok q), length_ctBody h.ctMin]
  have frame : ∀ (M : Mem) a, ¬ InRange m (C.length - 16) a → ¬ InRange mlen 8 a →
      (M.writes mlen (repr64 e (BitVec.ofNat 64 (C.length - 16)))).writes m (q.spec.candidate K N A (ctBody C)) a = M a := by
    intro M a h1 h2
    unfold InRange at h1 h2
    rw [writes_out (by rw [hl]; omega), writes_out (by rw [Ref.length_repr64]; omega)]
  refine ⟨⟨_, _, v_dec_correct (i.vok e hi) q mem sp m mlen nsec c ad npub k K N A C h, by split <;> simp, frame mem⟩, ?_⟩
  intro ev hev a ha
  apply Classical.byContradiction
  intro hn
  simp only [not_or] at hn
  obtain ⟨n1, n2, n3, n4, n5, n6⟩ := hn
  refine untouched _ mem a ?_ ev hev ha
  intro cell
  have h' : VDecPre q.spec (mem.upd a cell) m mlen c ad npub k K N A C := by
    unfold InRange at *
    exact ⟨h.key.upd (by rw [h.keyLen]; exact n1), h.keyLen, h.nonce.upd (by rw [h.nonceLen]; exact n2),
      h.nonceLen, h.adata.upd n3, h.adLen, h.ct.upd n4, h.ctMin, h.ctLen, h.out.upd n5, h.outLen.upd n6, h.sepKey,
      h.sepNonce, h.sepAd, h.sepCt, h.sepOut, h.overlap⟩
  refine ⟨_, _, v_dec_correct (i.vok e hi) q _ sp m mlen nsec c ad npub k K N A C h', ?_⟩
  rw [frame _ a n5 n6, upd_self]

/-- **C71, constant time**: the trace depends on addresses, lengths and layout only. -/
theorem C71_encrypt_constant_time (i : Core) (q : KeyCfg) (e : Endian) (sp c clen m mlen ad adlen nsec npub k : Nat)
    (mem1 mem2 : Mem) (h : SameLayout mem1 mem2) :
    trace (vEncrypt i q e sp c clen m mlen ad adlen nsec npub k) mem1 =
    trace (vEncrypt i q e sp c clen m mlen ad adlen nsec npub k) mem2 :=
  (sim_v_aead_encrypt (i.vct e) q sp c clen m mlen ad adlen nsec npub k).trace_eq h

theorem C71_decrypt_constant_time (i : Core) (q : KeyCfg) (e : Endian) (sp m mlen nsec c clen ad adlen npub k : Nat)
    (mem1 mem2 : Mem) (h : SameLayout mem1 mem2) :
    trace (vDecrypt i q e sp m mlen nsec c clen ad adlen npub k) mem1 =
    trace (vDecrypt i q e sp m mlen nsec c clen ad adlen npub k) mem2 :=
  (sim_v_aead_decrypt (i.vct e) q sp m mlen nsec c clen ad adlen npub k).trace_eq h

/-! ### The family contains Ascon-AEAD128 -/

theorem ofBytes8_16_16 (iv K N : List Byte) (hiv : iv.length = 8) (hK : K.length = 16) (hN : N.length = 16) :
    Variant.ofBytes (iv ++ K ++ N) = ⟨le64 iv, le64 (K.take 8), le64 (K.drop 8), le64 (N.take 8), le64 (N.drop 8)⟩ := by
  have a1 : (iv ++ (K ++ N)).drop 8 = K ++ N := by
    rw [List.drop_append_of_le_length (by omega), List.drop_of_length_le (by omega), List.nil_append]
  have a2 : (iv ++ (K ++ N)).drop 16 = K.drop 8 ++ N := by
    rw [show (16 : Nat) = 8 + 8 by rfl, ← List.drop_drop, a1, List.drop_append_of_le_length (by omega)]
  have a3 : (iv ++ (K ++ N)).drop 24 = N := by
    rw [show (24 : Nat) = 16 + 8 by rfl, ← List.drop_drop, a2, List.drop_append_of_le_length (by simp; omega),
      List.drop_of_length_le (l := K.drop 8) (by simp; omega), List.nil_append]
  have a4 : (iv ++ (K ++ N)).drop 32 = N.drop 8 := by
    rw [show (32 : Nat) = 24 + 8 by rfl, ← List.drop_drop, a3]
  unfold Variant.ofBytes xorIn
  rw [List.append_assoc, a1, a2, a3, a4, List.take_append_of_le_length (by omega),
    List.take_append_of_le_length (l₁ := K) (by omega),
    List.take_append_of_le_length (l₁ := K.drop 8) (by simp; omega),
    List.take_of_length_le (l := K.drop 8) (by simp; omega), List.take_of_length_le (l := N.drop 8) (by simp; omega),
    List.take_of_length_le (l := iv) (by omega)]
  simp only [zero_xor']

theorem xorAt16_16 (K : List Byte) (hK : K.length = 16) (s : State) :
    Variant.xorAtByte 16 K s = { s with x2 := s.x2 ^^^ le64 (K.take 8), x3 := s.x3 ^^^ le64 (K.drop 8) } := by
  unfold Variant.xorAtByte xorIn
  simp only [Nat.reduceSub, le64_take8, drop_zeros_append, List.replicate_zero, List.nil_append, List.drop_zero]
  rw [le64_zeros8_append _ _ (by omega), le64_zeros8_append _ _ (by omega),
    List.drop_of_length_le (l := K) (i := 16) (by omega)]
  simp [le64_nil]

theorem aead128_encBlocks (bs : List (List Byte)) : ∀ s : State, asconAead128.encBlocks s bs = Spec.encBlocks s bs := by
  induction bs with
  | nil => intro s; rfl
  | cons b bs ih =>
    intro s
    simp only [Variant.encBlocks, Spec.encBlocks]
    rw [show asconAead128.b = 8 by rfl, show asconAead128.r = 16 by rfl, ih]

/-- **C71, the general specification is the same Ascon-AEAD128**: with the parameters of Ascon-AEAD128 it is the
function C01 and C02 are stated with. -/
theorem C71_family_contains_aead128 (K N A P : List Byte) (hK : K.length = 16) (hN : N.length = 16) :
    asconAead128.encrypt K N A P = aeadEncrypt K N A P := by
  have hi : asconAead128.init K N = aeadInit K N := by
    unfold Variant.init aeadInit addKeyLast
    rw [addKeyEnd16 K hK, ofBytes8_16_16 _ K N rfl hK hN, show le64 asconAead128.iv = ivAead by decide]
  have ha : ∀ s, asconAead128.ad A s = aeadAd A s := by
    intro s
    unfold Variant.ad aeadAd
    simp only [xorDsep]
    rw [show asconAead128.b = 8 by rfl, show asconAead128.r = 16 by rfl]
  have hb : ∀ s, asconAead128.encBody s P = Spec.encBody s P := by
    intro s
    unfold Variant.encBody Spec.encBody
    rw [show asconAead128.r = 16 by rfl, aead128_encBlocks]
  have ht : ∀ s, asconAead128.tag K s = aeadTag K s := by
    intro s
    unfold Variant.tag aeadTag
    rw [drop24_stateBytes, addKeyEnd16 K hK, show asconAead128.r = 16 by rfl, xorAt16_16 K hK]
    rfl
  unfold Variant.encrypt aeadEncrypt
  simp only [hi, ha, hb, ht]

/-! ### Concrete cases -/

/-- A memory with a 20-byte key at 400. -/
def memV : Mem := Demo.memC.writes 400 (Demo.K ++ [16, 17, 18, 19])

theorem demo_vencPre16 : VEncPre ascon128 memV 200 300 100 32 16 0 Demo.K Demo.N Demo.A Demo.P := by
  constructor <;> first | decide +kernel | (unfold Mem.Holds; decide +kernel) |
    (unfold Mem.Writable; decide +kernel) | (unfold Disjoint; decide +kernel)

theorem demo_vencPre20 :
    VEncPre ascon80pq memV 100 300 100 32 16 400 (Demo.K ++ [16, 17, 18, 19]) Demo.N Demo.A Demo.P := by
  constructor <;> first | decide +kernel | (unfold Mem.Holds; decide +kernel) |
    (unfold Mem.Writable; decide +kernel) | (unfold Disjoint; decide +kernel)

theorem demo_vdecPre16 : VDecPre ascon128 memV 200 300 200 32 16 0 Demo.K Demo.N Demo.A Demo.C := by
  constructor <;> first | decide +kernel | (unfold Mem.Holds; decide +kernel) |
    (unfold Mem.Writable; decide +kernel) | (unfold Disjoint; decide +kernel)

theorem demo_vdecPre20 :
    VDecPre ascon80pq memV 100 300 200 32 16 400 (Demo.K ++ [16, 17, 18, 19]) Demo.N Demo.A Demo.C := by
  constructor <;> first | decide +kernel | (unfold Mem.Holds; decide +kernel) |
    (unfold Mem.Writable; decide +kernel) | (unfold Disjoint; decide +kernel)

/-- The hypotheses of `C71_round_trip` hold for a concrete memory, for Ascon-80pq in place. -/
example : ∃ mem1 mem2,
    run (vEncrypt .bi32 .k20 .little 1000 100 300 100 20 32 5 0 16 400) memV = some (0, mem1) ∧
    mem1.Holds 300 (repr64 .little (BitVec.ofNat 64 36)) ∧
    run (vDecrypt .opt64 .k20 .little 1000 100 320 0 100 36 32 5 16 400) mem1 = some (0, mem2) ∧
    mem2.Holds 100 Demo.P ∧ mem2.Holds 320 (repr64 .little (BitVec.ofNat 64 20)) := by
  refine C71_round_trip .bi32 .opt64 .k20 .little rfl trivial memV 1000 100 300 100 32 0 16 400 100 320
    (Demo.K ++ [16, 17, 18, 19]) Demo.N Demo.A Demo.P demo_vencPre20 (by decide) ?_ ?_ ?_ ?_ ?_ ?_ ?_ ?_ ?_ ?_ ?_ <;>
  first | (unfold Disjoint; decide +kernel) | (unfold Mem.Writable; decide +kernel) | decide +kernel

end Ascon.Props

namespace Ascon.Props

open Ascon.Spec

/-- The three members of the family are different functions: on the same key, nonce, and one-block message. -/
example : (ascon128.encrypt Demo.K Demo.N [] Demo.P) ≠ (asconAead128.encrypt Demo.K Demo.N [] Demo.P) := by decide +kernel

end Ascon.Props
