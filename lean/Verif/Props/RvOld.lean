import Verif.Proof.RvOldTop
import Verif.Props.Rv
/-!
# The implementations asm_rv32b, asm_fsr_rv32b, asm_bi32_rv32b (C57)

The three files are registered as implementations of Ascon-AEAD128, but they compute Ascon-128a of the competition version 1.2
(`Spec/Ascon128a.lean`).  `Old I fold` lists them, with the folding of the tag that each compares.
-/

namespace Ascon.Rv

open Ascon.C Ascon.Spec
open Ascon.Masked (U32 repr32)

attribute [local irreducible] perm

/-- The programs meant: the translated files with the position of `ascon_core`. -/
example (rc : Nat) : (rv32b.code, rv32b.Lcore) = (rv32b_code, rv32b_L_ascon_core) ∧
    (rvFsr.code, rvFsr.Lcore) = (fsr_code, fsr_L_ascon_core) ∧
    ((rvBi32 rc).code, (rvBi32 rc).Lcore) = (bi32_code (BitVec.ofNat 32 rc), bi32_L_ascon_core) := ⟨rfl, rfl, rfl⟩

/-! ## What encryption does -/

/-- **C57** Encryption terminates, returns 0, and writes the ciphertext and tag of Ascon-128a v1.2, and the length. -/
theorem C57_encrypts_v12 {I : Impl} {fold : List Byte → List Byte} (hI : Old I fold) (base : U32) (regs : Regs) (mem : Mem)
    (S sp' c clen m ad npub k : Nat) (K N A P : List Byte) (h : EncPre mem sp' c clen m ad npub k K N A P)
    (hm : I.EncOk base regs mem S c clen m ad npub k A.length P.length) :
    ∃ F mem', (∀ a, a < S ∨ S + 80 ≤ a →
        mem' a = ((mem.writes clen (repr64 .little (BitVec.ofNat 64 (P.length + 16)))).writes c (V12.encrypt K N A P)) a) ∧
      ∀ fuel, F ≤ fuel →
      run (crypto_aead_encrypt I.code I.Lcore base regs fuel c clen m P.length ad A.length npub k) mem = some (0, mem') := by
  obtain ⟨F, mem', hout, hrun⟩ := Impl.run_encrypt hI.ok h hm
  rw [hI.v12, Variant.v12_encrypt] at hout
  exact ⟨F, mem', hout, fun fuel hf => (hrun fuel hf).1⟩

/-! ## What decryption does -/

theorem tail12 {I : Impl} {fold : List Byte → List Byte} (hI : Old I fold) {mem : Mem} {sp' m mlen c ad npub k : Nat}
    {K N A C : List Byte} (h : DecPre mem sp' m mlen c ad npub k K N A C)
    (hd : Disjoint m ((C.length - 16) % 16) c ((C.length - 16) % 16)) :
    (I.V.duplex .dec (I.V.start K N A) (ctBody C) (lastBlock 16 (ctBody C)) = V12.decBody (V12.absorbAd A (V12.init K N)) (ctBody C)) ∧
    (mem.writes m (I.V.duplex .dec (I.V.start K N A) (ctBody C) (lastBlock 16 (ctBody C))).2).Holds
        (c + (C.length - 16) / 16 * 16) (lastBlock 16 (ctBody C)) ∧
    ((mem.writes mlen (repr64 .little (BitVec.ofNat 64 (C.length - 16)))).writes m
      (I.V.duplex .dec (I.V.start K N A) (ctBody C) (lastBlock 16 (ctBody C))).2).Holds
        (c + (C.length - 16) / 16 * 16) (lastBlock 16 (ctBody C)) ∧
      (lastBlock 16 (ctBody C)).length = (C.length - 16) % 16 := by
  have hbl : (ctBody C).length = C.length - 16 := by simp [ctBody]
  have hov := h.overlap
  have hsc := h.sepCt
  have hdup : I.V.duplex .dec (I.V.start K N A) (ctBody C) (lastBlock 16 (ctBody C)) =
      V12.decBody (V12.absorbAd A (V12.init K N)) (ctBody C) := by
    rw [hI.v12, Variant.v12_start, Variant.v12_dec]
  have hlast : lastBlock 16 (ctBody C) = (ctBody C).drop ((C.length - 16) / 16 * 16) := by
    unfold lastBlock; rw [hbl, Nat.mul_comm]
  rw [hdup, hlast]
  have hct : mem.Holds c (ctBody C) := h.ct.take _
  refine ⟨rfl, Mem.Holds.writes_disjoint (hct.drop _ (by rw [hbl]; omega)) ?_,
    Mem.Holds.writes_disjoint (Mem.Holds.writes_disjoint (hct.drop _ (by rw [hbl]; omega)) ?_) ?_, by rw [List.length_drop, hbl]; omega⟩
  · rw [length_decBody12, List.length_drop, hbl]; unfold Disjoint at *; omega
  · rw [Ref.length_repr64, List.length_drop, hbl]; unfold Disjoint at *; omega
  · rw [length_decBody12, List.length_drop, hbl]; unfold Disjoint at *; omega

/-- Decryption (out of place): `*mlen` and the plaintext of Ascon-128a v1.2 are written, and the verdict is the comparison of
the *folded* tags. -/
theorem C57_decrypts_v12 {I : Impl} {fold : List Byte → List Byte} (hI : Old I fold) (base : U32) (regs : Regs) (mem : Mem)
    (S sp' m mlen c ad npub k : Nat) (K N A C : List Byte) (h : DecPre mem sp' m mlen c ad npub k K N A C)
    (hm : I.DecOk base regs mem S m mlen c ad npub k A.length (C.length - 16))
    (hd : Disjoint m ((C.length - 16) % 16) c ((C.length - 16) % 16)) :
    ∃ F mem', (∀ a, a < S ∨ S + 80 ≤ a →
        mem' a = ((mem.writes mlen (repr64 .little (BitVec.ofNat 64 (C.length - 16)))).writes m (V12.candidate K N A (ctBody C))) a) ∧
      ∀ fuel, F ≤ fuel →
      run (crypto_aead_decrypt I.code I.Lcore base regs fuel m mlen c C.length ad A.length npub k) mem =
        some (if fold (ctTag C) = fold (V12.decTag K N A (ctBody C)) then 0 else -1, mem') := by
  have h16 := h.ctMin
  have htl : (ctTag C).length = 16 := by simp [ctTag]; omega
  obtain ⟨hdup, -, ht⟩ := tail12 hI h hd
  obtain ⟨F, mem', hout, hrun⟩ := Impl.run_decrypt (l' := lastBlock 16 (ctBody C)) hI.ok h hm ht
  rw [hdup] at hout hrun
  refine ⟨F, mem', hout, fun fuel hf => ?_⟩
  refine (hrun fuel hf).1.trans ?_
  congr 2
  exact ite_iff (hI.good K _ (ctTag C) htl)

/-- Decryption in place: the right candidate is written, but for a length that is not a multiple of 16 the verdict is about a
tag computed from a wrong last block (as in C54). -/
theorem C57_decrypts_in_place {I : Impl} {fold : List Byte → List Byte} (hI : Old I fold) (base : U32) (regs : Regs) (mem : Mem)
    (S sp' mlen c ad npub k : Nat) (K N A C : List Byte) (h : DecPre mem sp' c mlen c ad npub k K N A C)
    (hm : I.DecOk base regs mem S c mlen c ad npub k A.length (C.length - 16)) :
    ∃ F mem', (∀ a, a < S ∨ S + 80 ≤ a →
        mem' a = ((mem.writes mlen (repr64 .little (BitVec.ofNat 64 (C.length - 16)))).writes c (V12.candidate K N A (ctBody C))) a) ∧
      ∀ fuel, F ≤ fuel →
      run (crypto_aead_decrypt I.code I.Lcore base regs fuel c mlen c C.length ad A.length npub k) mem =
        some (if fold (ctTag C) = fold (V12.tag K (V12.decBodyInPlace (V12.absorbAd A (V12.init K N)) (ctBody C)).1)
          then 0 else -1, mem') := by
  have h16 := h.ctMin
  have hbl : (ctBody C).length = C.length - 16 := by simp [ctBody]
  have htl : (ctTag C).length = 16 := by simp [ctTag]; omega
  have hl := length_decBody12 (V12.absorbAd A (V12.init K N)) (ctBody C)
  have hdup : I.V.duplex .dec (I.V.start K N A) (ctBody C)
      ((V12.decBody (V12.absorbAd A (V12.init K N)) (ctBody C)).2.drop ((C.length - 16) / 16 * 16)) =
      ((V12.decBodyInPlace (V12.absorbAd A (V12.init K N)) (ctBody C)).1, (V12.decBody (V12.absorbAd A (V12.init K N)) (ctBody C)).2) := by
    have e := Variant.v12_dec_inPlace (V12.absorbAd A (V12.init K N)) (ctBody C)
    rw [hbl] at e
    rw [hI.v12, Variant.v12_start]
    exact e
  obtain ⟨F, mem', hout, hrun⟩ := Impl.run_decrypt
    (l' := (V12.decBody (V12.absorbAd A (V12.init K N)) (ctBody C)).2.drop ((C.length - 16) / 16 * 16)) hI.ok h hm (by
    rw [hdup]
    refine ⟨?_, by rw [List.length_drop, hl, hbl]; omega⟩
    exact (holds_writes_self _ _ _).drop _ (by simp only; rw [hl, hbl]; omega))
  rw [hdup] at hout hrun
  refine ⟨F, mem', hout, fun fuel hf => ?_⟩
  refine (hrun fuel hf).1.trans ?_
  congr 2
  exact ite_iff (hI.good K _ (ctTag C) htl)

theorem genuine12 (K N A P : List Byte) : ctTag (V12.encrypt K N A P) = V12.decTag K N A (ctBody (V12.encrypt K N A P)) ∧
    V12.candidate K N A (ctBody (V12.encrypt K N A P)) = P := by
  have h := decrypt_encrypt12 K N A P
  have hl := length_encrypt12 K N A P
  unfold V12.decrypt at h
  rw [if_neg (by omega)] at h
  simp only at h
  split at h
  case isTrue ht => exact ⟨ht, by injection h⟩
  case isFalse => cases h

/-- Each implementation accepts what it (or another of the three) has produced, and recovers the message. -/
theorem C57_accepts_own {I : Impl} {fold : List Byte → List Byte} (hI : Old I fold) (base : U32) (regs : Regs) (mem : Mem)
    (S sp' m mlen c ad npub k : Nat) (K N A P : List Byte) (h : DecPre mem sp' m mlen c ad npub k K N A (V12.encrypt K N A P))
    (hm : I.DecOk base regs mem S m mlen c ad npub k A.length P.length)
    (hd : Disjoint m (P.length % 16) c (P.length % 16)) :
    ∃ F mem', mem'.Holds m P ∧ ∀ fuel, F ≤ fuel →
      run (crypto_aead_decrypt I.code I.Lcore base regs fuel m mlen c (P.length + 16) ad A.length npub k) mem = some (0, mem') := by
  have hl := length_encrypt12 K N A P
  have e : (V12.encrypt K N A P).length - 16 = P.length := by omega
  obtain ⟨F, mem', hout, hrun⟩ := C57_decrypts_v12 hI base regs mem S sp' m mlen c ad npub k K N A _ h (by rw [e]; exact hm)
    (by rw [e]; exact hd)
  obtain ⟨g1, g2⟩ := genuine12 K N A P
  rw [g2] at hout
  have hout' : Out S _ mem' := hout
  refine ⟨F, mem', hout'.holds (holds_writes_self _ _ _) hm.bM.frame, fun fuel hf => ?_⟩
  have := hrun fuel hf
  rw [if_pos (by rw [← g1]), hl] at this
  exact this

/-- The output of one of the three with `δ` added to both halves of the tag. -/
def forged12 (K N A P δ : List Byte) : List Byte :=
  ctBody (V12.encrypt K N A P) ++ xorBytes (ctTag (V12.encrypt K N A P)) (δ ++ δ)

/-- For every key, nonce, data, message and non-zero `δ`, the string with `δ ‖ δ` added to the tag is accepted too, although
Ascon-128a rejects it: anyone who has seen a ciphertext can make `2^64 - 1` others that are accepted. -/
theorem C57_accepts_forgeries {I : Impl} {fold : List Byte → List Byte} (hI : Old I fold) (base : U32) (regs : Regs) (mem : Mem)
    (S sp' m mlen c ad npub k : Nat) (K N A P δ : List Byte) (hδ : δ.length = 8) (hδ0 : δ ≠ List.replicate 8 0)
    (h : DecPre mem sp' m mlen c ad npub k K N A (forged12 K N A P δ))
    (hm : I.DecOk base regs mem S m mlen c ad npub k A.length P.length)
    (hd : Disjoint m (P.length % 16) c (P.length % 16)) :
    V12.decrypt K N A (forged12 K N A P δ) = none ∧ ∃ F mem', mem'.Holds m P ∧ ∀ fuel, F ≤ fuel →
      run (crypto_aead_decrypt I.code I.Lcore base regs fuel m mlen c (P.length + 16) ad A.length npub k) mem = some (0, mem') := by
  have hl := length_encrypt12 K N A P
  have hbl : (ctBody (V12.encrypt K N A P)).length = P.length := by simp [ctBody]; omega
  have htl : (ctTag (V12.encrypt K N A P)).length = 16 := by simp [ctTag]; omega
  have hxl : (xorBytes (ctTag (V12.encrypt K N A P)) (δ ++ δ)).length = 16 := by
    rw [length_xorBytes, htl]; simp; omega
  have hfl : (forged12 K N A P δ).length = P.length + 16 := by unfold forged12; rw [List.length_append, hbl, hxl]
  have e : (forged12 K N A P δ).length - 16 = P.length := by omega
  have hfb : ctBody (forged12 K N A P δ) = ctBody (V12.encrypt K N A P) := by
    unfold ctBody; rw [e]; unfold forged12
    rw [List.take_append_of_le_length (by omega), List.take_of_length_le (by omega)]; rfl
  have hft : ctTag (forged12 K N A P δ) = xorBytes (ctTag (V12.encrypt K N A P)) (δ ++ δ) := by
    unfold ctTag; rw [e]; unfold forged12
    rw [List.drop_append_of_le_length (by omega), List.drop_of_length_le (by omega), List.nil_append]; rfl
  obtain ⟨g1, g2⟩ := genuine12 K N A P
  refine ⟨?_, ?_⟩
  · unfold V12.decrypt
    rw [if_neg (by omega)]
    refine if_neg ?_
    show ¬ ctTag (forged12 K N A P δ) = V12.decTag K N A (ctBody (forged12 K N A P δ))
    rw [hfb, ← g1, hft]
    intro hx
    have hxx := congrArg (xorBytes (ctTag (V12.encrypt K N A P))) hx
    rw [xorBytes_self_cancel _ _ (by rw [htl]; simp; omega)] at hxx
    have hz : xorBytes (ctTag (V12.encrypt K N A P)) (ctTag (V12.encrypt K N A P)) = List.replicate 16 0 := by
      have := xorBytes_self_cancel (ctTag (V12.encrypt K N A P)) (List.replicate 16 0) (by rw [htl]; simp)
      have e0 : xorBytes (ctTag (V12.encrypt K N A P)) (List.replicate 16 0) = ctTag (V12.encrypt K N A P) := by
        apply List.ext_getElem
        · rw [length_xorBytes, htl]; simp
        · intro i h1 h2
          simp only [xorBytes, List.getElem_zipWith, List.getElem_replicate]
          exact BitVec.xor_zero
      rw [e0] at this; exact this
    rw [hz] at hxx
    have h4 := congrArg (List.take 8) hxx
    rw [List.take_append_of_le_length (by omega), List.take_of_length_le (by omega)] at h4
    exact hδ0 h4
  · obtain ⟨F, mem', hout, hrun⟩ := C57_decrypts_v12 hI base regs mem S sp' m mlen c ad npub k K N A _ h (by rw [e]; exact hm)
      (by rw [e]; exact hd)
    rw [hfb, g2] at hout
    have hout' : Out S _ mem' := hout
    refine ⟨F, mem', hout'.holds (holds_writes_self _ _ _) hm.bM.frame, fun fuel hf => ?_⟩
    have := hrun fuel hf
    rw [if_pos (by rw [hft, hfb, hI.forge _ _ htl hδ, ← g1]), hfl] at this
    exact this

/-- A ciphertext shorter than a tag is rejected; `*mlen` is set to 0 and nothing else happens. -/
theorem C57_short {I : Impl} {fold : List Byte → List Byte} (_ : Old I fold) (base : U32) (regs : Regs) (fuel : Nat) (mem : Mem)
    (m mlen c clen ad adlen npub k : Nat) (h : clen < 16) (hw : mem.Writable mlen 8) :
    run (crypto_aead_decrypt I.code I.Lcore base regs fuel m mlen c clen ad adlen npub k) mem =
      some (-1, mem.writes mlen [0, 0, 0, 0, 0, 0, 0, 0]) := by
  unfold crypto_aead_decrypt
  rw [decide_eq_true h]
  simp only [Prog.ifc, run, if_true]
  rw [run_bind, Ref.run_store64 hw]
  rfl

/-! ## Timing and calling convention -/

/-- The addresses and branches of encryption depend on pointers and lengths only. -/
theorem C57_encrypt_constant_time {I : Impl} {fold : List Byte → List Byte} (hI : Old I fold) (base : U32) (regs : Regs)
    (mem1 mem2 : Mem) (S sp' c clen m ad npub k : Nat) (K1 N1 A1 P1 K2 N2 A2 P2 : List Byte)
    (h1 : EncPre mem1 sp' c clen m ad npub k K1 N1 A1 P1) (h2 : EncPre mem2 sp' c clen m ad npub k K2 N2 A2 P2)
    (hA : A2.length = A1.length) (hP : P2.length = P1.length)
    (hm1 : I.EncOk base regs mem1 S c clen m ad npub k A1.length P1.length)
    (hm2 : I.EncOk base regs mem2 S c clen m ad npub k A1.length P1.length) :
    ∃ F, ∀ fuel, F ≤ fuel →
      trace (crypto_aead_encrypt I.code I.Lcore base regs fuel c clen m P1.length ad A1.length npub k) mem1 =
      trace (crypto_aead_encrypt I.code I.Lcore base regs fuel c clen m P1.length ad A1.length npub k) mem2 := by
  obtain ⟨F1, _, -, hr1⟩ := Impl.run_encrypt hI.ok h1 hm1
  rw [← hA, ← hP] at hm2
  obtain ⟨F2, _, -, hr2⟩ := Impl.run_encrypt hI.ok h2 hm2
  rw [hA, hP] at hr2
  exact ⟨max F1 F2, fun fuel hf => ((hr1 fuel (by omega)).2).trans (hr2 fuel (by omega)).2.symm⟩

/-- The addresses and branches of decryption depend on pointers, lengths and the verdict only. -/
theorem C57_decrypt_constant_time {I : Impl} {fold : List Byte → List Byte} (hI : Old I fold) (base : U32) (regs : Regs)
    (mem1 mem2 : Mem) (S sp' m mlen c ad npub k : Nat) (K1 N1 A1 C1 K2 N2 A2 C2 : List Byte)
    (h1 : DecPre mem1 sp' m mlen c ad npub k K1 N1 A1 C1) (h2 : DecPre mem2 sp' m mlen c ad npub k K2 N2 A2 C2)
    (hA : A2.length = A1.length) (hC : C2.length = C1.length)
    (hm1 : I.DecOk base regs mem1 S m mlen c ad npub k A1.length (C1.length - 16))
    (hm2 : I.DecOk base regs mem2 S m mlen c ad npub k A1.length (C1.length - 16))
    (hd : Disjoint m ((C1.length - 16) % 16) c ((C1.length - 16) % 16))
    (hv : fold (ctTag C1) = fold (V12.decTag K1 N1 A1 (ctBody C1)) ↔ fold (ctTag C2) = fold (V12.decTag K2 N2 A2 (ctBody C2))) :
    ∃ F, ∀ fuel, F ≤ fuel →
      trace (crypto_aead_decrypt I.code I.Lcore base regs fuel m mlen c C1.length ad A1.length npub k) mem1 =
      trace (crypto_aead_decrypt I.code I.Lcore base regs fuel m mlen c C1.length ad A1.length npub k) mem2 := by
  have key : ∀ (mem : Mem) (K N A C : List Byte), DecPre mem sp' m mlen c ad npub k K N A C →
      I.DecOk base regs mem S m mlen c ad npub k A.length (C.length - 16) →
      Disjoint m ((C.length - 16) % 16) c ((C.length - 16) % 16) →
      ∃ F, ∀ fuel, F ≤ fuel →
      trace (crypto_aead_decrypt I.code I.Lcore base regs fuel m mlen c C.length ad A.length npub k) mem =
        I.decT S m mlen c (C.length - 16) ad A.length npub k
          (decide (fold (ctTag C) = fold (V12.decTag K N A (ctBody C)))) := by
    intro mem K N A C h hm hd
    have h16 := h.ctMin
    have htl : (ctTag C).length = 16 := by simp [ctTag]; omega
    obtain ⟨hdup, -, ht⟩ := tail12 hI h hd
    obtain ⟨F, mem', -, hrun⟩ := Impl.run_decrypt (l' := lastBlock 16 (ctBody C)) hI.ok h hm ht
    rw [hdup] at hrun
    refine ⟨F, fun fuel hf => (hrun fuel hf).2.trans ?_⟩
    congr 1
    exact decide_eq_decide.mpr (hI.good K _ (ctTag C) htl)
  obtain ⟨F1, hr1⟩ := key mem1 K1 N1 A1 C1 h1 hm1 hd
  obtain ⟨F2, hr2⟩ := key mem2 K2 N2 A2 C2 h2 (by rw [hA, hC]; exact hm2) (by rw [hC]; exact hd)
  rw [hA, hC, decide_eq_decide.mpr hv.symm] at hr2
  exact ⟨max F1 F2, fun fuel hf => (hr1 fuel (by omega)).trans (hr2 fuel (by omega)).symm⟩

/-- `ascon_core` returns to its caller with all callee-saved registers unchanged (encryption). -/
theorem C57_calling_convention_encrypt {I : Impl} {fold : List Byte → List Byte} (hI : Old I fold) (base : U32) (regs : Regs)
    (mem : Mem) (S sp' c clen m ad npub k : Nat) (K N A P : List Byte) (h : EncPre mem sp' c clen m ad npub k K N A P)
    (hm : I.EncOk base regs mem S c clen m ad npub k A.length P.length) :
    ∃ F m' mem', (∀ r ∈ [ra, sp, s0, s1, s2, s3, s4, s5, s6, s7, s8, s9, s10, s11], m'.r r = regs.r r) ∧ ∀ fuel, F ≤ fuel →
      run (ascon_core I.code I.Lcore base regs fuel c m P.length ad A.length npub k 1) mem = some (m', mem') :=
  Impl.convention_enc hI.ok h hm

/-- … (decryption). -/
theorem C57_calling_convention_decrypt {I : Impl} {fold : List Byte → List Byte} (hI : Old I fold) (base : U32) (regs : Regs)
    (mem : Mem) (S sp' m mlen c ad npub k : Nat) (K N A C : List Byte) (h : DecPre mem sp' m mlen c ad npub k K N A C)
    (hm : I.DecOk base regs mem S m mlen c ad npub k A.length (C.length - 16))
    (hd : Disjoint m ((C.length - 16) % 16) c ((C.length - 16) % 16)) :
    ∃ F m' mem', (∀ r ∈ [ra, sp, s0, s1, s2, s3, s4, s5, s6, s7, s8, s9, s10, s11], m'.r r = regs.r r) ∧ ∀ fuel, F ≤ fuel →
      run (ascon_core I.code I.Lcore base regs fuel m c (C.length - 16) ad A.length npub k (-1)) mem = some (m', mem') :=
  Impl.convention_dec (l' := lastBlock 16 (ctBody C)) hI.ok h hm ⟨(tail12 hI h hd).2.1, (tail12 hI h hd).2.2.2⟩

/-! ## Not Ascon-AEAD128 -/

namespace RvDemo

/-- The table of constants is at 3000. -/
def romMem (mem : Mem) : Mem := mem.writes 3000 bi32_rom

theorem disjR (p n : Nat) (h : p + n ≤ 3000) : Disjoint 3000 bi32_rom.length p n := by
  unfold Disjoint; have : bi32_rom.length = 25 := rfl; omega

theorem romFar {I : Impl} (hrc : I.rc = 3000 ∨ I.rom = []) (p n : Nat) (h : p + n ≤ 3000) : Disjoint p n I.rc I.rom.length := by
  rcases hrc with e | e
  · rw [e]; unfold Disjoint; omega
  · rw [e]; unfold Disjoint; simp

theorem callOld {I : Impl} {fold : List Byte → List Byte} (hI : Old I fold) (hrc : I.rc = 3000 ∨ I.rom = []) (mem : Mem)
    (h : mem.Writable 2000 80) : CallOk I 0x80000000 regs (romMem mem) 2000 where
  stk := rfl
  spR := rfl
  spAl := rfl
  spEnd := by decide
  spW := h.writes
  ret := by
    have h : (regs.r ra - 0x80000000).toNat / 4 = 536870976 := by decide +kernel
    have hl : I.code.length < 400 := by
      cases hI with
      | rv32b => have : rv32b.code.length = 361 := Rv32b.len; omega
      | fsr => have : rvFsr.code.length = 312 := RvFsr.len; omega
      | bi32 rc h => have : (rvBi32 rc).code.length = 352 := RvBi32.len; omega
    rw [h]; omega
  rom := by
    rcases hrc with e | e
    · cases hI with
      | rv32b => exact absurd e (by decide)
      | fsr => exact absurd e (by decide)
      | bi32 rc h =>
        have e' : rc = 3000 := e
        subst e'
        exact holds_writes_self _ _ _
    · rw [e]; exact Mem.Holds.nil _ _
  dR := romFar hrc _ _ (by decide)

theorem encPreR : EncPre (romMem mem) 1000 200 300 100 32 16 0 Demo.K Demo.N Demo.A Demo.P where
  key := encPre.key.writes_disjoint (disjR _ _ (by decide))
  keyLen := rfl
  nonce := encPre.nonce.writes_disjoint (disjR _ _ (by decide))
  nonceLen := rfl
  adata := encPre.adata.writes_disjoint (disjR _ _ (by decide))
  adLen := by decide
  msg := encPre.msg.writes_disjoint (disjR _ _ (by decide))
  msgLen := by decide
  out := encPre.out.writes
  outLen := encPre.outLen.writes
  sepKey := encPre.sepKey
  sepNonce := encPre.sepNonce
  sepAd := encPre.sepAd
  sepMsg := encPre.sepMsg
  sepOut := encPre.sepOut
  overlap := encPre.overlap
  stack := by
    intro i hi
    unfold romMem
    rw [writes_out (by have : bi32_rom.length = 25 := rfl; omega)]
    exact encPre.stack i hi

theorem encOld {I : Impl} {fold : List Byte → List Byte} (hI : Old I fold) (hrc : I.rc = 3000 ∨ I.rom = []) :
    I.EncOk 0x80000000 regs (romMem mem) 2000 200 300 100 32 16 0 Demo.A.length Demo.P.length where
  call := callOld hI hrc _ (by unfold Mem.Writable; decide +kernel)
  bC := buf _ _ (by decide) (by decide)
  cEnd := by decide
  cFrame := by unfold Disjoint; decide
  bM := buf _ _ (by decide) (by decide)
  bA := buf _ _ (by decide) (by decide)
  bN := buf _ _ (by decide) (by decide)
  bK := buf _ _ (by decide) (by decide)
  frame := by unfold Disjoint; decide
  aLen := by decide
  mLen := by decide
  romC := romFar hrc _ _ (by decide)
  romL := romFar hrc _ _ (by decide)

/-- Any ciphertext `X` of 36 bytes at 200 in the demo. -/
theorem decPreX (X : List Byte) (hX : X.length = 36) (m : Nat) (hm : m = 100 ∨ m = 200) :
    DecPre (romMem (memC.writes 200 X)) 1000 m 300 200 32 16 0 Demo.K Demo.N Demo.A X where
  key := (decPre.key.writes_disjoint (by rw [hX]; unfold Disjoint; decide)).writes_disjoint (disjR _ _ (by decide))
  keyLen := rfl
  nonce := (decPre.nonce.writes_disjoint (by rw [hX]; unfold Disjoint; decide)).writes_disjoint (disjR _ _ (by decide))
  nonceLen := rfl
  adata := (decPre.adata.writes_disjoint (by rw [hX]; unfold Disjoint; decide)).writes_disjoint (disjR _ _ (by decide))
  adLen := by decide
  ct := (holds_writes_self _ _ _).writes_disjoint (disjR _ _ (by omega))
  ctMin := by omega
  ctLen := by rw [hX]; decide
  out := by
    rw [hX]
    rcases hm with rfl | rfl
    · exact decPre.out.writes.writes
    · exact ((writable_writes_self memC 200 X).mono (by omega) (by omega)).writes
  outLen := decPre.outLen.writes.writes
  sepKey := by unfold Disjoint; decide
  sepNonce := by unfold Disjoint; decide
  sepAd := by unfold Disjoint; decide
  sepCt := by rw [hX]; unfold Disjoint; decide
  sepOut := by rw [hX]; unfold Disjoint; omega
  overlap := by omega
  stack := by
    intro i hi
    unfold romMem
    rw [writes_out (by have : bi32_rom.length = 25 := rfl; omega), writes_out (by omega)]
    exact decPre.stack i hi

theorem decOld {I : Impl} {fold : List Byte → List Byte} (hI : Old I fold) (hrc : I.rc = 3000 ∨ I.rom = []) (X : List Byte)
    (m : Nat) (hm : m = 100 ∨ m = 200) :
    I.DecOk 0x80000000 regs (romMem (memC.writes 200 X)) 2000 m 300 200 32 16 0 Demo.A.length 20 where
  call := callOld hI hrc _ (Mem.Writable.writes (by unfold Mem.Writable; decide +kernel))
  bC := buf _ _ (by decide) (by decide)
  bC' := by decide
  bM := buf _ _ (by omega) (by omega)
  bA := buf _ _ (by decide) (by decide)
  bN := buf _ _ (by decide) (by decide)
  bK := buf _ _ (by decide) (by decide)
  frame := by unfold Disjoint; decide
  aLen := by decide
  cLen := by decide
  romM := romFar hrc _ _ (by omega)
  romL := romFar hrc _ _ (by decide)
  past := fun h => absurd rfl h

/-- The demo messages of Ascon-128a and of Ascon-AEAD128. -/
def V : List Byte := V12.encrypt Demo.K Demo.N Demo.A Demo.P
theorem V_length : V.length = 36 := length_encrypt12 _ _ _ _

/-- The three programs in the demo. -/
theorem three : (Old rv32b foldTag ∧ (rv32b.rc = 3000 ∨ rv32b.rom = [])) ∧ (Old rvFsr foldTag ∧ (rvFsr.rc = 3000 ∨ rvFsr.rom = [])) ∧
    (Old (rvBi32 3000) foldPairs ∧ ((rvBi32 3000).rc = 3000 ∨ (rvBi32 3000).rom = [])) :=
  ⟨⟨.rv32b, Or.inr rfl⟩, ⟨.fsr, Or.inr rfl⟩, ⟨.bi32 3000 (by decide), Or.inl rfl⟩⟩

end RvDemo

/-- A call for which each of the three programs writes a ciphertext that is not that of Ascon-AEAD128: the first byte of the
output differs. -/
theorem C57_encrypt_not_aead128 {I : Impl} {fold : List Byte → List Byte} (hI : Old I fold) (hrc : I.rc = 3000 ∨ I.rom = []) :
    ∃ F mem', (mem'.Holds 200 (V12.encrypt Demo.K Demo.N Demo.A Demo.P) ∧
        ¬ mem'.Holds 200 (aeadEncrypt Demo.K Demo.N Demo.A Demo.P)) ∧ ∀ fuel, F ≤ fuel →
      run (crypto_aead_encrypt I.code I.Lcore 0x80000000 RvDemo.regs fuel 200 300 100 Demo.P.length 32 Demo.A.length 16 0)
        (RvDemo.romMem RvDemo.mem) = some (0, mem') := by
  obtain ⟨F, mem', hout, hrun⟩ := C57_encrypts_v12 hI _ _ _ 2000 _ _ _ _ _ _ _ _ _ _ _ RvDemo.encPreR (RvDemo.encOld hI hrc)
  have hout' : Out 2000 _ mem' := hout
  have hV : mem'.Holds 200 (V12.encrypt Demo.K Demo.N Demo.A Demo.P) :=
    hout'.holds (holds_writes_self _ _ _) (by rw [length_encrypt12]; unfold Disjoint; decide)
  refine ⟨F, mem', ⟨hV, fun hA => ?_⟩, hrun⟩
  have l1 := length_encrypt12 Demo.K Demo.N Demo.A Demo.P
  have l2 := length_aeadEncrypt Demo.K Demo.N Demo.A Demo.P
  have e1 := hV 0 (by rw [l1]; decide)
  have e2 := hA 0 (by rw [l2]; decide)
  rw [e1] at e2
  have hne : (V12.encrypt Demo.K Demo.N Demo.A Demo.P)[0]? ≠ (aeadEncrypt Demo.K Demo.N Demo.A Demo.P)[0]? := by decide +kernel
  apply hne
  rw [List.getElem?_eq_getElem (by rw [l1]; decide), List.getElem?_eq_getElem (by rw [l2]; decide)]
  simpa using e2

/-- Each of the three programs rejects a genuine Ascon-AEAD128 ciphertext (which asm_rv32i accepts: C54, first half). -/
theorem C57_rejects_genuine_aead128 {I : Impl} {fold : List Byte → List Byte} (hI : Old I fold) (hrc : I.rc = 3000 ∨ I.rom = []) :
    aeadDecrypt Demo.K Demo.N Demo.A RvDemo.G = some Demo.P ∧ ∃ F mem', ∀ fuel, F ≤ fuel →
      run (crypto_aead_decrypt I.code I.Lcore 0x80000000 RvDemo.regs fuel 100 300 200 36 32 Demo.A.length 16 0)
        (RvDemo.romMem (RvDemo.memC.writes 200 RvDemo.G)) = some (-1, mem') := by
  refine ⟨aeadDecrypt_aeadEncrypt _ _ _ _, ?_⟩
  have hl := RvDemo.G_length
  obtain ⟨F, mem', -, hrun⟩ := C57_decrypts_v12 hI _ _ _ 2000 _ _ _ _ _ _ _ _ _ _ _ (RvDemo.decPreX RvDemo.G hl 100 (Or.inl rfl))
    (by rw [hl]; exact RvDemo.decOld hI hrc _ _ (Or.inl rfl)) (by rw [hl]; unfold Disjoint; decide)
  rw [hl] at hrun
  refine ⟨F, mem', fun fuel hf => (hrun fuel hf).trans ?_⟩
  rw [if_neg]
  cases hI with
  | rv32b | fsr => decide +kernel
  | bi32 rc h => decide +kernel

/-- In place, each of the three programs rejects a ciphertext of 20 bytes that it has made itself; out of place it accepts. -/
theorem C57_in_place_rejects_own {I : Impl} {fold : List Byte → List Byte} (hI : Old I fold) (hrc : I.rc = 3000 ∨ I.rom = []) :
    (∃ F mem', mem'.Holds 100 Demo.P ∧ ∀ fuel, F ≤ fuel →
      run (crypto_aead_decrypt I.code I.Lcore 0x80000000 RvDemo.regs fuel 100 300 200 36 32 Demo.A.length 16 0)
        (RvDemo.romMem (RvDemo.memC.writes 200 RvDemo.V)) = some (0, mem')) ∧
    ∃ F mem', ∀ fuel, F ≤ fuel →
      run (crypto_aead_decrypt I.code I.Lcore 0x80000000 RvDemo.regs fuel 200 300 200 36 32 Demo.A.length 16 0)
        (RvDemo.romMem (RvDemo.memC.writes 200 RvDemo.V)) = some (-1, mem') := by
  have hl := RvDemo.V_length
  refine ⟨C57_accepts_own hI _ _ _ 2000 _ _ _ _ _ _ _ _ _ _ Demo.P (RvDemo.decPreX RvDemo.V hl 100 (Or.inl rfl))
    (RvDemo.decOld hI hrc _ _ (Or.inl rfl)) (by unfold Disjoint; decide), ?_⟩
  obtain ⟨F, mem', -, hrun⟩ := C57_decrypts_in_place hI _ _ _ 2000 _ _ _ _ _ _ _ _ _ _ (RvDemo.decPreX RvDemo.V hl 200 (Or.inr rfl))
    (by rw [hl]; exact RvDemo.decOld hI hrc _ _ (Or.inr rfl))
  rw [hl] at hrun
  refine ⟨F, mem', fun fuel hf => (hrun fuel hf).trans ?_⟩
  rw [if_neg]
  cases hI with
  | rv32b | fsr => decide +kernel
  | bi32 rc h => decide +kernel

/-- The hypotheses of the forgery theorem can be met, by each of the three. -/
example {I : Impl} {fold : List Byte → List Byte} (hI : Old I fold) (hrc : I.rc = 3000 ∨ I.rom = []) :
    let X := forged12 Demo.K Demo.N Demo.A Demo.P [1, 0, 0, 0, 0, 0, 0, 0]
    V12.decrypt Demo.K Demo.N Demo.A X = none ∧ ∃ F mem', mem'.Holds 100 Demo.P ∧ ∀ fuel, F ≤ fuel →
      run (crypto_aead_decrypt I.code I.Lcore 0x80000000 RvDemo.regs fuel 100 300 200 36 32 Demo.A.length 16 0)
        (RvDemo.romMem (RvDemo.memC.writes 200 X)) = some (0, mem') := by
  intro X
  have hl : X.length = 36 := by
    show (forged12 _ _ _ _ _).length = 36
    unfold forged12
    rw [List.length_append, length_xorBytes]
    simp [ctBody, ctTag, length_encrypt12, Demo.P]
  exact C57_accepts_forgeries hI _ _ _ 2000 _ _ _ _ _ _ _ _ _ _ Demo.P [1, 0, 0, 0, 0, 0, 0, 0] rfl (by decide)
    (RvDemo.decPreX X hl 100 (Or.inl rfl)) (RvDemo.decOld hI hrc _ _ (Or.inl rfl)) (by unfold Disjoint; decide)

end Ascon.Rv
