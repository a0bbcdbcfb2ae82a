import Verif.Proof.XtTop
import Verif.Props.RvOld
/-!
# The AEAD of asm_esp32 (C60, C61)

crypto_aead/asconaead128/asm_esp32 is registered as an implementation of Ascon-AEAD128, but it computes Ascon-128a of the
competition version 1.2 (`Spec/Ascon128a.lean`), and its decryption compares folded tags (`Spec/FoldTag.lean`).
-/

namespace Ascon.Xt

open Ascon.C Ascon.Spec
open Ascon.Masked (U32 repr32)
open Ascon.Rv (Regs Variant Mode genuine12 forged12 length_encrypt12 length_decBody12)

attribute [local irreducible] perm

/-- The program meant: the translated file, entered at `ascon_core`. -/
example : (223 : Nat) = xaead_L_ascon_core := rfl

/-! ## C60: what the functions compute -/

/-- **C60** Encryption terminates, returns 0, and writes the ciphertext and tag of Ascon-128a v1.2, and the length.  Nothing else
changes but the stack frame (112 bytes, and the two arguments on the stack).  The buffers need not be aligned. -/
theorem C60_encrypts_v12 (base : U32) (regs : Regs) (mem : Mem)
    (S sp' c clen m ad npub k : Nat) (K N A P : List Byte) (h : EncPre mem sp' c clen m ad npub k K N A P)
    (hm : EncOk base regs mem S c clen m ad npub k A.length P.length) :
    ∃ F mem', (∀ a, a < S ∨ S + 120 ≤ a →
        mem' a = ((mem.writes clen (repr64 .little (BitVec.ofNat 64 (P.length + 16)))).writes c (V12.encrypt K N A P)) a) ∧
      ∀ fuel, F ≤ fuel →
      run (crypto_aead_encrypt xaead_code xaead_L_ascon_core base regs fuel c clen m P.length ad A.length npub k) mem = some (0, mem') := by
  obtain ⟨F, mem', hout, hrun⟩ := run_encrypt h hm
  rw [Variant.v12_encrypt] at hout
  exact ⟨F, mem', fun a ha => hout.same a (by unfold G; omega), fun fuel hf => (hrun fuel hf).1⟩

theorem tail {mem : Mem} {sp' m mlen c ad npub k : Nat}
    {K N A C : List Byte} (h : DecPre mem sp' m mlen c ad npub k K N A C)
    (hd : Disjoint m ((C.length - 16) % 16) c ((C.length - 16) % 16)) :
    (Variant.v12.duplex .dec (Variant.v12.start K N A) (ctBody C) (lastBlock 16 (ctBody C)) = V12.decBody (V12.absorbAd A (V12.init K N)) (ctBody C)) ∧
    ((mem.writes mlen (repr64 .little (BitVec.ofNat 64 (C.length - 16)))).writes m
      (Variant.v12.duplex .dec (Variant.v12.start K N A) (ctBody C) (lastBlock 16 (ctBody C))).2).Holds
        (c + (C.length - 16) / 16 * 16) (lastBlock 16 (ctBody C)) ∧
      (lastBlock 16 (ctBody C)).length = (C.length - 16) % 16 :=
  have h' := Rv.tail12 Rv.Old.rv32b h hd
  ⟨h'.1, h'.2.2⟩

/-- Decryption (out of place): `*mlen` and the plaintext of Ascon-128a v1.2 are written, and the verdict is the comparison of
the *folded* tags. -/
theorem C60_decrypts_v12 (base : U32) (regs : Regs) (mem : Mem)
    (S sp' m mlen c ad npub k : Nat) (K N A C : List Byte) (h : DecPre mem sp' m mlen c ad npub k K N A C)
    (hm : DecOk base regs mem S m mlen c ad npub k A.length (C.length - 16))
    (hd : Disjoint m ((C.length - 16) % 16) c ((C.length - 16) % 16)) :
    ∃ F mem', (∀ a, a < S ∨ S + 120 ≤ a →
        mem' a = ((mem.writes mlen (repr64 .little (BitVec.ofNat 64 (C.length - 16)))).writes m (V12.candidate K N A (ctBody C))) a) ∧
      ∀ fuel, F ≤ fuel →
      run (crypto_aead_decrypt xaead_code xaead_L_ascon_core base regs fuel m mlen c C.length ad A.length npub k) mem =
        some (if foldTag (ctTag C) = foldTag (V12.decTag K N A (ctBody C)) then 0 else -1, mem') := by
  have h16 := h.ctMin
  have htl : (ctTag C).length = 16 := by simp [ctTag]; omega
  obtain ⟨hdup, ht⟩ := tail h hd
  obtain ⟨F, mem', hout, hrun⟩ := run_decrypt (l' := lastBlock 16 (ctBody C)) h hm ht
  rw [hdup] at hout hrun
  exact ⟨F, mem', fun a ha => hout.same a (by unfold G; omega), fun fuel hf => (hrun fuel hf).1⟩

/-- Decryption accepts what encryption has produced, and recovers the message. -/
theorem C60_accepts_own (base : U32) (regs : Regs) (mem : Mem)
    (S sp' m mlen c ad npub k : Nat) (K N A P : List Byte) (h : DecPre mem sp' m mlen c ad npub k K N A (V12.encrypt K N A P))
    (hm : DecOk base regs mem S m mlen c ad npub k A.length P.length)
    (hd : Disjoint m (P.length % 16) c (P.length % 16)) :
    ∃ F mem', mem'.Holds m P ∧ ∀ fuel, F ≤ fuel →
      run (crypto_aead_decrypt xaead_code xaead_L_ascon_core base regs fuel m mlen c (P.length + 16) ad A.length npub k) mem = some (0, mem') := by
  have hl := length_encrypt12 K N A P
  have e : (V12.encrypt K N A P).length - 16 = P.length := by omega
  obtain ⟨F, mem', hout, hrun⟩ := C60_decrypts_v12 base regs mem S sp' m mlen c ad npub k K N A _ h (by rw [e]; exact hm)
    (by rw [e]; exact hd)
  obtain ⟨g1, g2⟩ := genuine12 K N A P
  rw [g2] at hout
  refine ⟨F, mem', fun i hi => by rw [hout _ (by have := hm.bM.frame; unfold Disjoint at this; omega)]; exact holds_writes_self _ _ _ i hi, fun fuel hf => ?_⟩
  have := hrun fuel hf
  rw [if_pos (by rw [← g1]), hl] at this
  exact this

/-- A ciphertext shorter than a tag is rejected; `*mlen` is set to 0 and nothing else happens. -/
theorem C60_short (base : U32) (regs : Regs) (fuel : Nat) (mem : Mem)
    (m mlen c clen ad adlen npub k : Nat) (h : clen < 16) (hw : mem.Writable mlen 8) :
    run (crypto_aead_decrypt xaead_code xaead_L_ascon_core base regs fuel m mlen c clen ad adlen npub k) mem =
      some (-1, mem.writes mlen [0, 0, 0, 0, 0, 0, 0, 0]) := by
  unfold crypto_aead_decrypt
  rw [decide_eq_true h]
  simp only [Prog.ifc, run, if_true]
  rw [run_bind, Ref.run_store64 hw]
  rfl

/-- The addresses and branches of encryption depend on pointers and lengths only. -/
theorem C60_encrypt_constant_time (base : U32) (regs : Regs)
    (mem1 mem2 : Mem) (S sp' c clen m ad npub k : Nat) (K1 N1 A1 P1 K2 N2 A2 P2 : List Byte)
    (h1 : EncPre mem1 sp' c clen m ad npub k K1 N1 A1 P1) (h2 : EncPre mem2 sp' c clen m ad npub k K2 N2 A2 P2)
    (hA : A2.length = A1.length) (hP : P2.length = P1.length)
    (hm1 : EncOk base regs mem1 S c clen m ad npub k A1.length P1.length)
    (hm2 : EncOk base regs mem2 S c clen m ad npub k A1.length P1.length) :
    ∃ F, ∀ fuel, F ≤ fuel →
      trace (crypto_aead_encrypt xaead_code xaead_L_ascon_core base regs fuel c clen m P1.length ad A1.length npub k) mem1 =
      trace (crypto_aead_encrypt xaead_code xaead_L_ascon_core base regs fuel c clen m P1.length ad A1.length npub k) mem2 := by
  obtain ⟨F1, _, -, hr1⟩ := run_encrypt h1 hm1
  rw [← hA, ← hP] at hm2
  obtain ⟨F2, _, -, hr2⟩ := run_encrypt h2 hm2
  rw [hA, hP] at hr2
  exact ⟨max F1 F2, fun fuel hf => ((hr1 fuel (by omega)).2).trans (hr2 fuel (by omega)).2.symm⟩

/-- The addresses and branches of decryption depend on pointers, lengths and the verdict only. -/
theorem C60_decrypt_constant_time (base : U32) (regs : Regs)
    (mem1 mem2 : Mem) (S sp' m mlen c ad npub k : Nat) (K1 N1 A1 C1 K2 N2 A2 C2 : List Byte)
    (h1 : DecPre mem1 sp' m mlen c ad npub k K1 N1 A1 C1) (h2 : DecPre mem2 sp' m mlen c ad npub k K2 N2 A2 C2)
    (hA : A2.length = A1.length) (hC : C2.length = C1.length)
    (hm1 : DecOk base regs mem1 S m mlen c ad npub k A1.length (C1.length - 16))
    (hm2 : DecOk base regs mem2 S m mlen c ad npub k A1.length (C1.length - 16))
    (hd : Disjoint m ((C1.length - 16) % 16) c ((C1.length - 16) % 16))
    (hv : foldTag (ctTag C1) = foldTag (V12.decTag K1 N1 A1 (ctBody C1)) ↔ foldTag (ctTag C2) = foldTag (V12.decTag K2 N2 A2 (ctBody C2))) :
    ∃ F, ∀ fuel, F ≤ fuel →
      trace (crypto_aead_decrypt xaead_code xaead_L_ascon_core base regs fuel m mlen c C1.length ad A1.length npub k) mem1 =
      trace (crypto_aead_decrypt xaead_code xaead_L_ascon_core base regs fuel m mlen c C1.length ad A1.length npub k) mem2 := by
  have key : ∀ (mem : Mem) (K N A C : List Byte), DecPre mem sp' m mlen c ad npub k K N A C →
      DecOk base regs mem S m mlen c ad npub k A.length (C.length - 16) →
      Disjoint m ((C.length - 16) % 16) c ((C.length - 16) % 16) →
      ∃ F, ∀ fuel, F ≤ fuel →
      trace (crypto_aead_decrypt xaead_code xaead_L_ascon_core base regs fuel m mlen c C.length ad A.length npub k) mem =
        decT S m mlen c (C.length - 16) ad A.length npub k
          (decide (foldTag (ctTag C) = foldTag (V12.decTag K N A (ctBody C)))) := by
    intro mem K N A C h hm hd
    have h16 := h.ctMin
    have htl : (ctTag C).length = 16 := by simp [ctTag]; omega
    obtain ⟨hdup, ht⟩ := tail h hd
    obtain ⟨F, mem', -, hrun⟩ := run_decrypt (l' := lastBlock 16 (ctBody C)) h hm ht
    rw [hdup] at hrun
    exact ⟨F, fun fuel hf => (hrun fuel hf).2⟩
  obtain ⟨F1, hr1⟩ := key mem1 K1 N1 A1 C1 h1 hm1 hd
  obtain ⟨F2, hr2⟩ := key mem2 K2 N2 A2 C2 h2 (by rw [hA, hC]; exact hm2) (by rw [hC]; exact hd)
  rw [hA, hC, decide_eq_decide.mpr hv.symm] at hr2
  exact ⟨max F1 F2, fun fuel hf => (hr1 fuel (by omega)).trans (hr2 fuel (by omega)).symm⟩

/-! ## C61: what is wrong with them -/

/-- **C61** Decryption in place: the right candidate is written, but for a length that is not a multiple of 16 the verdict is about a
tag computed from a wrong last block (as in C54). -/
theorem C61_decrypts_in_place (base : U32) (regs : Regs) (mem : Mem)
    (S sp' mlen c ad npub k : Nat) (K N A C : List Byte) (h : DecPre mem sp' c mlen c ad npub k K N A C)
    (hm : DecOk base regs mem S c mlen c ad npub k A.length (C.length - 16)) :
    ∃ F mem', (∀ a, a < S ∨ S + 120 ≤ a →
        mem' a = ((mem.writes mlen (repr64 .little (BitVec.ofNat 64 (C.length - 16)))).writes c (V12.candidate K N A (ctBody C))) a) ∧
      ∀ fuel, F ≤ fuel →
      run (crypto_aead_decrypt xaead_code xaead_L_ascon_core base regs fuel c mlen c C.length ad A.length npub k) mem =
        some (if foldTag (ctTag C) = foldTag (V12.tag K (V12.decBodyInPlace (V12.absorbAd A (V12.init K N)) (ctBody C)).1)
          then 0 else -1, mem') := by
  have h16 := h.ctMin
  have hbl : (ctBody C).length = C.length - 16 := by simp [ctBody]
  have htl : (ctTag C).length = 16 := by simp [ctTag]; omega
  have hl := length_decBody12 (V12.absorbAd A (V12.init K N)) (ctBody C)
  have hdup : Variant.v12.duplex .dec (Variant.v12.start K N A) (ctBody C)
      ((V12.decBody (V12.absorbAd A (V12.init K N)) (ctBody C)).2.drop ((C.length - 16) / 16 * 16)) =
      ((V12.decBodyInPlace (V12.absorbAd A (V12.init K N)) (ctBody C)).1, (V12.decBody (V12.absorbAd A (V12.init K N)) (ctBody C)).2) := by
    have e := Variant.v12_dec_inPlace (V12.absorbAd A (V12.init K N)) (ctBody C)
    rw [hbl] at e
    rw [Variant.v12_start]
    exact e
  obtain ⟨F, mem', hout, hrun⟩ := run_decrypt
    (l' := (V12.decBody (V12.absorbAd A (V12.init K N)) (ctBody C)).2.drop ((C.length - 16) / 16 * 16)) h hm (by
    rw [hdup]
    refine ⟨?_, by rw [List.length_drop, hl, hbl]; omega⟩
    exact (holds_writes_self _ _ _).drop _ (by simp only; rw [hl, hbl]; omega))
  rw [hdup] at hout hrun
  exact ⟨F, mem', fun a ha => hout.same a (by unfold G; omega), fun fuel hf => (hrun fuel hf).1⟩

/-- For every key, nonce, data, message and non-zero `δ`, the string with `δ ‖ δ` added to the tag is accepted too, although
Ascon-128a rejects it: anyone who has seen a ciphertext can make `2^64 - 1` others that are accepted. -/
theorem C61_accepts_forgeries (base : U32) (regs : Regs) (mem : Mem)
    (S sp' m mlen c ad npub k : Nat) (K N A P δ : List Byte) (hδ : δ.length = 8) (hδ0 : δ ≠ List.replicate 8 0)
    (h : DecPre mem sp' m mlen c ad npub k K N A (forged12 K N A P δ))
    (hm : DecOk base regs mem S m mlen c ad npub k A.length P.length)
    (hd : Disjoint m (P.length % 16) c (P.length % 16)) :
    V12.decrypt K N A (forged12 K N A P δ) = none ∧ ∃ F mem', mem'.Holds m P ∧ ∀ fuel, F ≤ fuel →
      run (crypto_aead_decrypt xaead_code xaead_L_ascon_core base regs fuel m mlen c (P.length + 16) ad A.length npub k) mem = some (0, mem') := by
  have hl := length_encrypt12 K N A P
  have hbl : (ctBody (V12.encrypt K N A P)).length = P.length := by simp [ctBody]; omega
  have htl : (ctTag (V12.encrypt K N A P)).length = 16 := by simp [ctTag]; omega
  have hxl : (xorBytes (ctTag (V12.encrypt K N A P)) (δ ++ δ)).length = 16 := by
    rw [length_xorBytes, htl]; simp; omega
  have hfl : (forged12 K N A P δ).length = P.length + 16 := by unfold forged12; rw [List.length_append, hbl, hxl]
  have e : (forged12 K N A P δ).length - 16 = P.length := by omega
  have hfb : ctBody (forged12 K N A P δ) = ctBody (V12.encrypt K N A P) := by
    unfold ctBody; rw [e]; unfold forged12
    rw [List.take_append_of_le_length (by omega), List.take_of_length_le (by omega)]; rfl
  have hft : ctTag (forged12 K N A P δ) = xorBytes (ctTag (V12.encrypt K N A P)) (δ ++ δ) := by
    unfold ctTag; rw [e]; unfold forged12
    rw [List.drop_append_of_le_length (by omega), List.drop_of_length_le (by omega), List.nil_append]; rfl
  obtain ⟨g1, g2⟩ := genuine12 K N A P
  refine ⟨?_, ?_⟩
  · unfold V12.decrypt
    rw [if_neg (by omega)]
    refine if_neg ?_
    show ¬ ctTag (forged12 K N A P δ) = V12.decTag K N A (ctBody (forged12 K N A P δ))
    rw [hfb, ← g1, hft]
    intro hx
    have hxx := congrArg (xorBytes (ctTag (V12.encrypt K N A P))) hx
    rw [xorBytes_self_cancel _ _ (by rw [htl]; simp; omega)] at hxx
    have hz : xorBytes (ctTag (V12.encrypt K N A P)) (ctTag (V12.encrypt K N A P)) = List.replicate 16 0 := by
      have := xorBytes_self_cancel (ctTag (V12.encrypt K N A P)) (List.replicate 16 0) (by rw [htl]; simp)
      have e0 : xorBytes (ctTag (V12.encrypt K N A P)) (List.replicate 16 0) = ctTag (V12.encrypt K N A P) := by
        apply List.ext_getElem
        · rw [length_xorBytes, htl]; simp
        · intro i h1 h2
          simp only [xorBytes, List.getElem_zipWith, List.getElem_replicate]
          exact BitVec.xor_zero
      rw [e0] at this; exact this
    rw [hz] at hxx
    have h4 := congrArg (List.take 8) hxx
    rw [List.take_append_of_le_length (by omega), List.take_of_length_le (by omega)] at h4
    exact hδ0 h4
  · obtain ⟨F, mem', hout, hrun⟩ := C60_decrypts_v12 base regs mem S sp' m mlen c ad npub k K N A _ h (by rw [e]; exact hm)
      (by rw [e]; exact hd)
    rw [hfb, g2] at hout
    refine ⟨F, mem', fun i hi => by rw [hout _ (by have := hm.bM.frame; unfold Disjoint at this; omega)]; exact holds_writes_self _ _ _ i hi, fun fuel hf => ?_⟩
    have := hrun fuel hf
    rw [if_pos (by rw [hft, hfb, Rv.Old.rv32b.forge _ _ htl hδ, ← g1]), hfl] at this
    exact this

namespace XtDemo

/-- The demo memory with a frame of 120 bytes at 2000. -/
def mem : Mem := Demo.mem.fill 2000 120 .uninit
def memC : Mem := Demo.memC.fill 2000 120 .uninit

/-- Registers at the call. -/
def regs : Regs := { r := fun i => if i = Xt.sp then 2000 else if i = Xt.ra then 0x100 else BitVec.ofNat 32 i, stk := [], z := false }

theorem encPre : EncPre mem 1000 200 300 100 32 16 0 Demo.K Demo.N Demo.A Demo.P := by
  constructor <;> first | decide +kernel | (unfold Mem.Holds; decide +kernel) |
    (unfold Mem.Writable; decide +kernel) | (unfold Mem.Free; decide +kernel) |
    (unfold Disjoint; decide +kernel)

theorem decPre : DecPre memC 1000 100 300 200 32 16 0 Demo.K Demo.N Demo.A Demo.C := by
  constructor <;> first | decide +kernel | (unfold Mem.Holds; decide +kernel) |
    (unfold Mem.Writable; decide +kernel) | (unfold Mem.Free; decide +kernel) |
    (unfold Disjoint; decide +kernel)

theorem callOk (mem : Mem) (h : mem.Writable 2000 120) : CallOk 0x80000000 regs mem 2000 where
  stk := rfl
  spR := rfl
  spEnd := by decide
  spW := h
  ret := by
    have h : (regs.r ra - 0x80000000).toNat / 4 = 536870976 := by decide +kernel
    rw [A.len, h]; omega

theorem buf (p n : Nat) (h' : p + n ≤ 2000) : BufOk 2000 p n := ⟨by omega, by unfold Disjoint; omega⟩

theorem encOk : EncOk 0x80000000 regs mem 2000 200 300 100 32 16 0 Demo.A.length Demo.P.length where
  call := callOk _ (by unfold Mem.Writable; decide +kernel)
  bC := buf _ _ (by decide)
  bM := buf _ _ (by decide)
  bA := buf _ _ (by decide)
  bN := buf _ _ (by decide)
  bK := buf _ _ (by decide)
  frame := by unfold Disjoint; decide
  aLen := by decide

/-- Any ciphertext `X` of 36 bytes at 200 in the demo. -/
theorem decPreX (X : List Byte) (hX : X.length = 36) (m : Nat) (hm : m = 100 ∨ m = 200) :
    DecPre (memC.writes 200 X) 1000 m 300 200 32 16 0 Demo.K Demo.N Demo.A X where
  key := decPre.key.writes_disjoint (by rw [hX]; unfold Disjoint; decide)
  keyLen := rfl
  nonce := decPre.nonce.writes_disjoint (by rw [hX]; unfold Disjoint; decide)
  nonceLen := rfl
  adata := decPre.adata.writes_disjoint (by rw [hX]; unfold Disjoint; decide)
  adLen := by decide
  ct := holds_writes_self _ _ _
  ctMin := by omega
  ctLen := by rw [hX]; decide
  out := by
    rw [hX]
    rcases hm with rfl | rfl
    · exact decPre.out.writes
    · exact (writable_writes_self memC 200 X).mono (by omega) (by omega)
  outLen := decPre.outLen.writes
  sepKey := by unfold Disjoint; decide
  sepNonce := by unfold Disjoint; decide
  sepAd := by unfold Disjoint; decide
  sepCt := by rw [hX]; unfold Disjoint; decide
  sepOut := by rw [hX]; unfold Disjoint; omega
  overlap := by omega
  stack := by
    intro i hi
    rw [writes_out (by omega)]
    exact decPre.stack i hi

theorem decOk (X : List Byte) (m : Nat) (hm : m = 100 ∨ m = 200) :
    DecOk 0x80000000 regs (memC.writes 200 X) 2000 m 300 200 32 16 0 Demo.A.length 20 where
  call := callOk _ (Mem.Writable.writes (by unfold Mem.Writable; decide +kernel))
  bC := buf _ _ (by decide)
  bM := buf _ _ (by omega)
  bA := buf _ _ (by decide)
  bN := buf _ _ (by decide)
  bK := buf _ _ (by decide)
  frame := by unfold Disjoint; decide
  aLen := by decide

/-- The demo messages of Ascon-128a and of Ascon-AEAD128. -/
def V : List Byte := V12.encrypt Demo.K Demo.N Demo.A Demo.P
theorem V_length : V.length = 36 := length_encrypt12 _ _ _ _
def G : List Byte := aeadEncrypt Demo.K Demo.N Demo.A Demo.P
theorem G_length : G.length = 36 := length_aeadEncrypt _ _ _ _

end XtDemo

/-- A call for which encryption writes a ciphertext that is not that of Ascon-AEAD128: the first byte of the
output differs. -/
theorem C61_encrypt_not_aead128  :
    ∃ F mem', (mem'.Holds 200 (V12.encrypt Demo.K Demo.N Demo.A Demo.P) ∧
        ¬ mem'.Holds 200 (aeadEncrypt Demo.K Demo.N Demo.A Demo.P)) ∧ ∀ fuel, F ≤ fuel →
      run (crypto_aead_encrypt xaead_code xaead_L_ascon_core 0x80000000 XtDemo.regs fuel 200 300 100 Demo.P.length 32 Demo.A.length 16 0)
        (XtDemo.mem) = some (0, mem') := by
  obtain ⟨F, mem', hout, hrun⟩ := C60_encrypts_v12 _ _ _ 2000 _ _ _ _ _ _ _ _ _ _ _ XtDemo.encPre XtDemo.encOk
  have hV : mem'.Holds 200 (V12.encrypt Demo.K Demo.N Demo.A Demo.P) :=
    fun i hi => by
      have hi' := hi
      rw [length_encrypt12, show Demo.P.length = 20 from rfl] at hi'
      rw [hout _ (by omega)]; exact holds_writes_self _ _ _ i hi
  refine ⟨F, mem', ⟨hV, fun hA => ?_⟩, hrun⟩
  have l1 := length_encrypt12 Demo.K Demo.N Demo.A Demo.P
  have l2 := length_aeadEncrypt Demo.K Demo.N Demo.A Demo.P
  have e1 := hV 0 (by rw [l1]; decide)
  have e2 := hA 0 (by rw [l2]; decide)
  rw [e1] at e2
  have hne : (V12.encrypt Demo.K Demo.N Demo.A Demo.P)[0]? ≠ (aeadEncrypt Demo.K Demo.N Demo.A Demo.P)[0]? := by decide +kernel
  apply hne
  rw [List.getElem?_eq_getElem (by rw [l1]; decide), List.getElem?_eq_getElem (by rw [l2]; decide)]
  simpa using e2

/-- Decryption rejects a genuine Ascon-AEAD128 ciphertext (which asm_rv32i accepts: C54, first half). -/
theorem C61_rejects_genuine_aead128  :
    aeadDecrypt Demo.K Demo.N Demo.A XtDemo.G = some Demo.P ∧ ∃ F mem', ∀ fuel, F ≤ fuel →
      run (crypto_aead_decrypt xaead_code xaead_L_ascon_core 0x80000000 XtDemo.regs fuel 100 300 200 36 32 Demo.A.length 16 0)
        (XtDemo.memC.writes 200 XtDemo.G) = some (-1, mem') := by
  refine ⟨aeadDecrypt_aeadEncrypt _ _ _ _, ?_⟩
  have hl := XtDemo.G_length
  obtain ⟨F, mem', -, hrun⟩ := C60_decrypts_v12 _ _ _ 2000 _ _ _ _ _ _ _ _ _ _ _ (XtDemo.decPreX XtDemo.G hl 100 (Or.inl rfl))
    (by rw [hl]; exact XtDemo.decOk _ _ (Or.inl rfl)) (by rw [hl]; unfold Disjoint; decide)
  rw [hl] at hrun
  refine ⟨F, mem', fun fuel hf => (hrun fuel hf).trans ?_⟩
  rw [if_neg]
  decide +kernel

/-- In place, decryption rejects a ciphertext of 20 bytes made by encryption; out of place it accepts it. -/
theorem C61_in_place_rejects_own  :
    (∃ F mem', mem'.Holds 100 Demo.P ∧ ∀ fuel, F ≤ fuel →
      run (crypto_aead_decrypt xaead_code xaead_L_ascon_core 0x80000000 XtDemo.regs fuel 100 300 200 36 32 Demo.A.length 16 0)
        (XtDemo.memC.writes 200 XtDemo.V) = some (0, mem')) ∧
    ∃ F mem', ∀ fuel, F ≤ fuel →
      run (crypto_aead_decrypt xaead_code xaead_L_ascon_core 0x80000000 XtDemo.regs fuel 200 300 200 36 32 Demo.A.length 16 0)
        (XtDemo.memC.writes 200 XtDemo.V) = some (-1, mem') := by
  have hl := XtDemo.V_length
  refine ⟨C60_accepts_own _ _ _ 2000 _ _ _ _ _ _ _ _ _ _ Demo.P (XtDemo.decPreX XtDemo.V hl 100 (Or.inl rfl))
    (XtDemo.decOk _ _ (Or.inl rfl)) (by unfold Disjoint; decide), ?_⟩
  obtain ⟨F, mem', -, hrun⟩ := C61_decrypts_in_place _ _ _ 2000 _ _ _ _ _ _ _ _ _ _ (XtDemo.decPreX XtDemo.V hl 200 (Or.inr rfl))
    (by rw [hl]; exact XtDemo.decOk _ _ (Or.inr rfl))
  rw [hl] at hrun
  refine ⟨F, mem', fun fuel hf => (hrun fuel hf).trans ?_⟩
  rw [if_neg]
  decide +kernel

/-- The hypotheses of the forgery theorem can be met. -/
example  :
    let X := forged12 Demo.K Demo.N Demo.A Demo.P [1, 0, 0, 0, 0, 0, 0, 0]
    V12.decrypt Demo.K Demo.N Demo.A X = none ∧ ∃ F mem', mem'.Holds 100 Demo.P ∧ ∀ fuel, F ≤ fuel →
      run (crypto_aead_decrypt xaead_code xaead_L_ascon_core 0x80000000 XtDemo.regs fuel 100 300 200 36 32 Demo.A.length 16 0)
        (XtDemo.memC.writes 200 X) = some (0, mem') := by
  intro X
  have hl : X.length = 36 := by
    show (forged12 _ _ _ _ _).length = 36
    unfold forged12
    rw [List.length_append, length_xorBytes]
    simp [ctBody, ctTag, length_encrypt12, Demo.P]
  exact C61_accepts_forgeries _ _ _ 2000 _ _ _ _ _ _ _ _ _ _ Demo.P [1, 0, 0, 0, 0, 0, 0, 0] rfl (by decide)
    (XtDemo.decPreX X hl 100 (Or.inl rfl)) (XtDemo.decOk _ _ (Or.inl rfl)) (by unfold Disjoint; decide)

end Ascon.Xt
