import Verif.Proof.RvStd
import Verif.Proof.Rv32i
import Verif.Props.Demo
/-!
# The implementation asm_rv32i (C51 – C55)

`rv32i_code` is ascon.S, translated instruction by instruction; `crypto_aead_encrypt` and `crypto_aead_decrypt` are the C
wrappers.  The stack frame is the 80 bytes `[S, S + 80)` below the stack pointer at the call.
-/

namespace Ascon.Rv

open Ascon.C Ascon.Spec
open Ascon.Masked (U32 repr32)

attribute [local irreducible] perm

/-! ## A concrete situation -/

namespace RvDemo

/-- The demo memory with a stack of 80 bytes at 2000. -/
def mem : Mem := Demo.mem.fill 2000 80 .uninit
def memC : Mem := Demo.memC.fill 2000 80 .uninit

/-- Registers at the call. -/
def regs : Regs := { r := fun i => if i = Rv.sp then 2080 else if i = Rv.ra then 0x100 else BitVec.ofNat 32 i, stk := [], z := false }

theorem encPre : EncPre mem 1000 200 300 100 32 16 0 Demo.K Demo.N Demo.A Demo.P := by
  constructor <;> first | decide +kernel | (unfold Mem.Holds; decide +kernel) |
    (unfold Mem.Writable; decide +kernel) | (unfold Mem.Free; decide +kernel) |
    (unfold Disjoint; decide +kernel)

theorem decPre : DecPre memC 1000 100 300 200 32 16 0 Demo.K Demo.N Demo.A Demo.C := by
  constructor <;> first | decide +kernel | (unfold Mem.Holds; decide +kernel) |
    (unfold Mem.Writable; decide +kernel) | (unfold Mem.Free; decide +kernel) |
    (unfold Disjoint; decide +kernel)

theorem callOk (mem : Mem) (h : mem.Writable 2000 80) : CallOk rv32i 0x80000000 regs mem 2000 where
  stk := rfl
  spR := rfl
  spAl := rfl
  spEnd := by decide
  spW := h
  ret := by
    have h : (regs.r ra - 0x80000000).toNat / 4 = 536870976 := by decide +kernel
    have hl : rv32i.code.length = 349 := Rv32i.len
    rw [hl, h]; omega
  rom := Mem.Holds.nil _ _
  dR := Or.inr (by decide)

theorem buf (p n : Nat) (h : p % 4 = 0) (h' : p + n ≤ 2000) : BufOk 2000 p n := ⟨fun _ => h, by omega, by unfold Disjoint; omega⟩

theorem encOk : rv32i.EncOk 0x80000000 regs mem 2000 200 300 100 32 16 0 Demo.A.length Demo.P.length where
  call := callOk _ (by unfold Mem.Writable; decide +kernel)
  bC := buf _ _ (by decide) (by decide)
  cEnd := by decide
  cFrame := by unfold Disjoint; decide
  bM := buf _ _ (by decide) (by decide)
  bA := buf _ _ (by decide) (by decide)
  bN := buf _ _ (by decide) (by decide)
  bK := buf _ _ (by decide) (by decide)
  frame := by unfold Disjoint; decide
  aLen := by decide
  mLen := by decide
  romC := Or.inr (by decide)
  romL := Or.inr (by decide)

theorem decOk : rv32i.DecOk 0x80000000 regs memC 2000 100 300 200 32 16 0 Demo.A.length (Demo.C.length - 16) where
  call := callOk _ (by unfold Mem.Writable; decide +kernel)
  bC := buf _ _ (by decide) (by decide)
  bC' := by decide
  bM := buf _ _ (by decide) (by decide)
  bA := buf _ _ (by decide) (by decide)
  bN := buf _ _ (by decide) (by decide)
  bK := buf _ _ (by decide) (by decide)
  frame := by unfold Disjoint; decide
  aLen := by decide
  cLen := by decide
  romM := Or.inr (by decide)
  romL := Or.inr (by decide)
  past := fun h => absurd rfl h

end RvDemo

theorem ite_iff {α : Type} {p q : Prop} [Decidable p] [Decidable q] {x y : α} (h : p ↔ q) :
    (if p then x else y) = if q then x else y := by
  by_cases hp : p
  · rw [if_pos hp, if_pos (h.mp hp)]
  · rw [if_neg hp, if_neg (fun hq => hp (h.mpr hq))]

/-! ## C51: encryption -/

/-- **C51** Encryption computes Ascon-AEAD128: it terminates, returns 0, and the memory outside of the stack frame is exactly
that of the contract – for lengths below 2^31, word-aligned pointers, and any register contents and placement of the code. -/
theorem C51_rv32i_encrypt (base : U32) (regs : Regs) (mem : Mem) (S sp' c clen m ad npub k : Nat) (K N A P : List Byte)
    (h : EncPre mem sp' c clen m ad npub k K N A P)
    (hm : rv32i.EncOk base regs mem S c clen m ad npub k A.length P.length) :
    ∃ F mem', (∀ a, a < S ∨ S + 80 ≤ a → mem' a = encPost .little mem c clen K N A P a) ∧ ∀ fuel, F ≤ fuel →
      run (crypto_aead_encrypt rv32i_code rv32i_L_ascon_core base regs fuel c clen m P.length ad A.length npub k) mem =
        some (0, mem') := by
  obtain ⟨F, mem', hout, hrun⟩ := Impl.run_encrypt rv32i_ok h hm
  refine ⟨F, mem', ?_, fun fuel hf => (hrun fuel hf).1⟩
  have e : rv32i.V.encrypt K N A P = aeadEncrypt K N A P := Variant.std_encrypt K N A P
  rw [e] at hout
  exact hout

/-- A concrete call. -/
example : ∃ F mem', (∀ a, a < 2000 ∨ 2080 ≤ a → mem' a = encPost .little RvDemo.mem 200 300 Demo.K Demo.N Demo.A Demo.P a) ∧
    ∀ fuel, F ≤ fuel → run (crypto_aead_encrypt rv32i_code rv32i_L_ascon_core 0x80000000 RvDemo.regs fuel 200 300 100
      Demo.P.length 32 Demo.A.length 16 0) RvDemo.mem = some (0, mem') :=
  C51_rv32i_encrypt _ _ _ 2000 _ _ _ _ _ _ _ _ _ _ _ RvDemo.encPre RvDemo.encOk

/-! ## C52: decryption -/

/-- Out of place the last block of the ciphertext survives the writing of the plaintext. -/
theorem tail_ok0 {mem : Mem} {sp' m mlen c ad npub k : Nat} {K N A C : List Byte} (h : DecPre mem sp' m mlen c ad npub k K N A C)
    (hd : Disjoint m ((C.length - 16) % 16) c ((C.length - 16) % 16)) :
    (mem.writes m (rv32i.V.duplex .dec (rv32i.V.start K N A) (ctBody C) (lastBlock 16 (ctBody C))).2).Holds
        (c + (C.length - 16) / 16 * 16) (lastBlock 16 (ctBody C)) ∧
      (lastBlock 16 (ctBody C)).length = (C.length - 16) % 16 := by
  have hbl : (ctBody C).length = C.length - 16 := by simp [ctBody]
  have hov := h.overlap
  have hdup : rv32i.V.duplex .dec (rv32i.V.start K N A) (ctBody C) (lastBlock 16 (ctBody C)) =
      decBody (aeadAd A (aeadInit K N)) (ctBody C) := Variant.std_decrypt K N A (ctBody C)
  have hlast : lastBlock 16 (ctBody C) = (ctBody C).drop ((C.length - 16) / 16 * 16) := by
    unfold lastBlock; rw [hbl, Nat.mul_comm]
  rw [hlast] at hdup ⊢
  rw [hdup]
  refine ⟨?_, by rw [List.length_drop, hbl]; omega⟩
  have hct : mem.Holds c (ctBody C) := h.ct.take _
  refine Mem.Holds.writes_disjoint (hct.drop _ (by rw [hbl]; omega)) ?_
  rw [Ref.length_decBody, List.length_drop, hbl]; unfold Disjoint at *; omega

theorem tail_ok {mem : Mem} {sp' m mlen c ad npub k : Nat} {K N A C : List Byte} (h : DecPre mem sp' m mlen c ad npub k K N A C)
    (hd : Disjoint m ((C.length - 16) % 16) c ((C.length - 16) % 16)) :
    ((mem.writes mlen (repr64 .little (BitVec.ofNat 64 (C.length - 16)))).writes m
      (rv32i.V.duplex .dec (rv32i.V.start K N A) (ctBody C) (lastBlock 16 (ctBody C))).2).Holds
        (c + (C.length - 16) / 16 * 16) (lastBlock 16 (ctBody C)) ∧
      (lastBlock 16 (ctBody C)).length = (C.length - 16) % 16 := by
  have hbl : (ctBody C).length = C.length - 16 := by simp [ctBody]
  have hov := h.overlap
  have hdup : rv32i.V.duplex .dec (rv32i.V.start K N A) (ctBody C) (lastBlock 16 (ctBody C)) =
      decBody (aeadAd A (aeadInit K N)) (ctBody C) := Variant.std_decrypt K N A (ctBody C)
  have hlast : lastBlock 16 (ctBody C) = (ctBody C).drop ((C.length - 16) / 16 * 16) := by
    unfold lastBlock; rw [hbl, Nat.mul_comm]
  rw [hlast] at hdup ⊢
  rw [hdup]
  refine ⟨?_, by rw [List.length_drop, hbl]; omega⟩
  have hct : mem.Holds c (ctBody C) := h.ct.take _
  refine Mem.Holds.writes_disjoint (Mem.Holds.writes_disjoint (hct.drop _ (by rw [hbl]; omega)) ?_) ?_
  · have := h.sepCt
    rw [Ref.length_repr64, List.length_drop, hbl]; unfold Disjoint at *; omega
  · rw [Ref.length_decBody, List.length_drop, hbl]; unfold Disjoint at *; omega


/-- Accepting condition of the code: the *folded* tags agree (out of place, or in place with whole blocks). -/
theorem C52_rv32i_decrypt (base : U32) (regs : Regs) (mem : Mem) (S sp' m mlen c ad npub k : Nat) (K N A C : List Byte)
    (h : DecPre mem sp' m mlen c ad npub k K N A C)
    (hm : rv32i.DecOk base regs mem S m mlen c ad npub k A.length (C.length - 16))
    (hd : Disjoint m ((C.length - 16) % 16) c ((C.length - 16) % 16)) :
    ∃ F mem', (∀ a, a < S ∨ S + 80 ≤ a → mem' a = decPost .little mem m mlen K N A C a) ∧ ∀ fuel, F ≤ fuel →
      run (crypto_aead_decrypt rv32i_code rv32i_L_ascon_core base regs fuel m mlen c C.length ad A.length npub k) mem =
        some (if foldTag (ctTag C) = foldTag (aeadDecTag K N A (ctBody C)) then 0 else -1, mem') := by
  have h16 := h.ctMin
  have hbl : (ctBody C).length = C.length - 16 := by simp [ctBody]
  have htl : (ctTag C).length = 16 := by simp [ctTag]; omega
  have hov := h.overlap
  have hdup : rv32i.V.duplex .dec (rv32i.V.start K N A) (ctBody C) (lastBlock 16 (ctBody C)) =
      decBody (aeadAd A (aeadInit K N)) (ctBody C) := Variant.std_decrypt K N A (ctBody C)
  obtain ⟨F, mem', hout, hrun⟩ := Impl.run_decrypt (l' := lastBlock 16 (ctBody C)) rv32i_ok h hm (tail_ok h hd)
  rw [hdup] at hout hrun
  refine ⟨F, mem', hout, fun fuel hf => ?_⟩
  refine (hrun fuel hf).1.trans ?_
  congr 2
  exact ite_iff (good_iff rv32i rfl rfl K _ (ctTag C) htl)

/-- A concrete call. -/
example : ∃ F mem', (∀ a, a < 2000 ∨ 2080 ≤ a → mem' a = decPost .little RvDemo.memC 100 300 Demo.K Demo.N Demo.A Demo.C a) ∧
    ∀ fuel, F ≤ fuel → run (crypto_aead_decrypt rv32i_code rv32i_L_ascon_core 0x80000000 RvDemo.regs fuel 100 300 200
      Demo.C.length 32 Demo.A.length 16 0) RvDemo.memC =
      some (if foldTag (ctTag Demo.C) = foldTag (aeadDecTag Demo.K Demo.N Demo.A (ctBody Demo.C)) then 0 else -1, mem') :=
  C52_rv32i_decrypt _ _ _ 2000 _ _ _ _ _ _ _ _ _ _ _ RvDemo.decPre RvDemo.decOk (by unfold Disjoint; decide)

theorem genuine (K N A P : List Byte) : ctTag (aeadEncrypt K N A P) = aeadDecTag K N A (ctBody (aeadEncrypt K N A P)) ∧
    aeadCandidate K N A (ctBody (aeadEncrypt K N A P)) = P := by
  have h := aeadDecrypt_aeadEncrypt K N A P
  have hl := length_aeadEncrypt K N A P
  unfold aeadDecrypt at h
  rw [if_neg (by omega)] at h
  simp only at h
  split at h
  case isTrue ht => exact ⟨ht, by injection h⟩
  case isFalse => cases h

theorem decPost_holds {e : Endian} {mem mem' : Mem} {S m mlen : Nat} {K N A C P : List Byte}
    (hout : ∀ a, a < S ∨ S + 80 ≤ a → mem' a = decPost e mem m mlen K N A C a) (hP : aeadCandidate K N A (ctBody C) = P)
    (hd : Disjoint S 80 m P.length) : mem'.Holds m P := by
  have h : Out S (decPost e mem m mlen K N A C) mem' := hout
  refine h.holds ?_ hd
  rw [← hP]
  exact holds_writes_self _ _ _

/-- Round trip: what encryption produces, decryption accepts, and it recovers the message (out of place). -/
theorem C52_rv32i_accepts_genuine (base : U32) (regs : Regs) (mem : Mem) (S sp' m mlen c ad npub k : Nat)
    (K N A P : List Byte) (h : DecPre mem sp' m mlen c ad npub k K N A (aeadEncrypt K N A P))
    (hm : rv32i.DecOk base regs mem S m mlen c ad npub k A.length P.length)
    (hd : Disjoint m (P.length % 16) c (P.length % 16)) :
    ∃ F mem', mem'.Holds m P ∧ ∀ fuel, F ≤ fuel →
      run (crypto_aead_decrypt rv32i_code rv32i_L_ascon_core base regs fuel m mlen c (P.length + 16) ad A.length npub k) mem =
        some (0, mem') := by
  have hl := length_aeadEncrypt K N A P
  have e : (aeadEncrypt K N A P).length - 16 = P.length := by omega
  obtain ⟨F, mem', hout, hrun⟩ := C52_rv32i_decrypt base regs mem S sp' m mlen c ad npub k K N A _ h (by rw [e]; exact hm)
    (by rw [e]; exact hd)
  obtain ⟨g1, g2⟩ := genuine K N A P
  refine ⟨F, mem', decPost_holds hout g2 hm.bM.frame, fun fuel hf => ?_⟩
  have := hrun fuel hf
  rw [if_pos (by rw [← g1]), hl] at this
  exact this

/-- A ciphertext shorter than a tag is rejected; `*mlen` is set to 0 and nothing else happens (any code, any machine state). -/
theorem C52_rv32i_short (base : U32) (regs : Regs) (fuel : Nat) (mem : Mem) (m mlen c clen ad adlen npub k : Nat)
    (h : clen < 16) (hw : mem.Writable mlen 8) :
    run (crypto_aead_decrypt rv32i_code rv32i_L_ascon_core base regs fuel m mlen c clen ad adlen npub k) mem =
      some (-1, mem.writes mlen [0, 0, 0, 0, 0, 0, 0, 0]) := by
  unfold crypto_aead_decrypt
  rw [decide_eq_true h]
  simp only [Prog.ifc, run, if_true]
  rw [run_bind, Ref.run_store64 hw]
  rfl

example : run (crypto_aead_decrypt rv32i_code rv32i_L_ascon_core 0x80000000 RvDemo.regs 0 100 300 200 15 32 0 16 0) RvDemo.memC =
    some (-1, RvDemo.memC.writes 300 [0, 0, 0, 0, 0, 0, 0, 0]) :=
  C52_rv32i_short _ _ _ _ _ _ _ _ _ _ _ _ (by decide) RvDemo.decPre.outLen

/-! ## C53: forgeries -/

/-- A difference of tags that the comparison does not see. -/
theorem foldTag_forge (T δ : List Byte) (hT : T.length = 16) (hδ : δ.length = 4) :
    foldTag (xorBytes T (δ ++ δ ++ List.replicate 8 0)) = foldTag T := by
  obtain ⟨c0, h0⟩ := repr32_surj (T.take 4) (by simp; omega)
  obtain ⟨c1, h1⟩ := repr32_surj ((T.drop 4).take 4) (by simp; omega)
  obtain ⟨c2, h2⟩ := repr32_surj ((T.drop 8).take 4) (by simp; omega)
  obtain ⟨c3, h3⟩ := repr32_surj ((T.drop 12).take 4) (by simp; omega)
  obtain ⟨d, hd⟩ := repr32_surj δ hδ
  have hz : (List.replicate 8 0 : List Byte) = repr32 .little (0 : U32) ++ repr32 .little (0 : U32) := by decide
  have e : T = repr32 .little c0 ++ repr32 .little c1 ++ (repr32 .little c2 ++ repr32 .little c3) := by
    rw [h0, h1, h2, h3]
    have e3 : (T.drop 12).take 4 = (T.drop 8).drop 4 := by
      rw [List.drop_drop, List.take_of_length_le (by simp; omega)]
    have e1 : (T.drop 8) = (T.drop 4).drop 4 := by rw [List.drop_drop]
    rw [e3, List.take_append_drop, List.append_assoc, e1, List.take_append_drop, List.take_append_drop]
  have hx : ∀ a b c d a' b' c' d' : U32, xorBytes (repr32 .little a ++ repr32 .little b ++ (repr32 .little c ++ repr32 .little d))
      (repr32 .little a' ++ repr32 .little b' ++ (repr32 .little c' ++ repr32 .little d')) =
      repr32 .little (a ^^^ a') ++ repr32 .little (b ^^^ b') ++ (repr32 .little (c ^^^ c') ++ repr32 .little (d ^^^ d')) := by
    intro a b c d a' b' c' d'
    rw [repr32_xor, repr32_xor, repr32_xor, repr32_xor]
    rfl
  rw [e, hz, ← hd, hx, foldTag_words, foldTag_words]
  congr 1
  have hz0 : ∀ x : U32, x ^^^ 0 = x := fun x => BitVec.xor_zero
  rw [hz0, hz0]
  have : (c0 ^^^ d) ^^^ (c1 ^^^ d) = (c0 ^^^ c1) ^^^ (d ^^^ d) := by ac_rfl
  rw [this, BitVec.xor_self, BitVec.xor_zero]

/-- The ciphertext of `P` with the difference `δ` in the first two words of the tag. -/
def forged (K N A P δ : List Byte) : List Byte :=
  ctBody (aeadEncrypt K N A P) ++ xorBytes (ctTag (aeadEncrypt K N A P)) (δ ++ δ ++ List.replicate 8 0)

/-- **C53** For every key, nonce, data and message, and every non-zero difference `δ` of four bytes: changing the tag by
`δ ‖ δ ‖ 0 ‖ 0` gives a string that Ascon-AEAD128 rejects and this implementation accepts. -/
theorem C53_rv32i_accepts_forgeries (base : U32) (regs : Regs) (mem : Mem) (S sp' m mlen c ad npub k : Nat)
    (K N A P δ : List Byte) (hδ : δ.length = 4) (hδ0 : δ ≠ [0, 0, 0, 0])
    (h : DecPre mem sp' m mlen c ad npub k K N A (forged K N A P δ))
    (hm : rv32i.DecOk base regs mem S m mlen c ad npub k A.length P.length)
    (hd : Disjoint m (P.length % 16) c (P.length % 16)) :
    aeadDecrypt K N A (forged K N A P δ) = none ∧ ∃ F mem', mem'.Holds m P ∧ ∀ fuel, F ≤ fuel →
      run (crypto_aead_decrypt rv32i_code rv32i_L_ascon_core base regs fuel m mlen c (P.length + 16) ad A.length npub k) mem =
        some (0, mem') := by
  have hl := length_aeadEncrypt K N A P
  have hbl : (ctBody (aeadEncrypt K N A P)).length = P.length := by simp [ctBody]; omega
  have htl : (ctTag (aeadEncrypt K N A P)).length = 16 := by simp [ctTag]; omega
  have hxl : (xorBytes (ctTag (aeadEncrypt K N A P)) (δ ++ δ ++ List.replicate 8 0)).length = 16 := by
    rw [length_xorBytes, htl]; simp; omega
  have hfl : (forged K N A P δ).length = P.length + 16 := by unfold forged; rw [List.length_append, hbl, hxl]
  have e : (forged K N A P δ).length - 16 = P.length := by omega
  have hfb : ctBody (forged K N A P δ) = ctBody (aeadEncrypt K N A P) := by
    unfold ctBody; rw [e]; unfold forged
    rw [List.take_append_of_le_length (by omega), List.take_of_length_le (by omega)]; rfl
  have hft : ctTag (forged K N A P δ) = xorBytes (ctTag (aeadEncrypt K N A P)) (δ ++ δ ++ List.replicate 8 0) := by
    unfold ctTag; rw [e]; unfold forged
    rw [List.drop_append_of_le_length (by omega), List.drop_of_length_le (by omega), List.nil_append]; rfl
  obtain ⟨g1, g2⟩ := genuine K N A P
  refine ⟨?_, ?_⟩
  · unfold aeadDecrypt
    rw [if_neg (by omega)]
    refine if_neg ?_
    show ¬ ctTag (forged K N A P δ) = aeadDecTag K N A (ctBody (forged K N A P δ))
    rw [hfb, ← g1, hft]
    intro hx
    have hxx := congrArg (xorBytes (ctTag (aeadEncrypt K N A P))) hx
    rw [xorBytes_self_cancel _ _ (by rw [htl]; simp; omega)] at hxx
    have hz : xorBytes (ctTag (aeadEncrypt K N A P)) (ctTag (aeadEncrypt K N A P)) = List.replicate 16 0 := by
      have := xorBytes_self_cancel (ctTag (aeadEncrypt K N A P)) (List.replicate 16 0) (by rw [htl]; simp)
      have e0 : xorBytes (ctTag (aeadEncrypt K N A P)) (List.replicate 16 0) = ctTag (aeadEncrypt K N A P) := by
        apply List.ext_getElem
        · rw [length_xorBytes, htl]; simp
        · intro i h1 h2
          simp only [xorBytes, List.getElem_zipWith, List.getElem_replicate]
          exact BitVec.xor_zero
      rw [e0] at this; exact this
    rw [hz] at hxx
    have h4 := congrArg (List.take 4) hxx
    rw [List.append_assoc, List.take_append_of_le_length (by omega), List.take_of_length_le (by omega)] at h4
    exact hδ0 h4
  · obtain ⟨F, mem', hout, hrun⟩ := C52_rv32i_decrypt base regs mem S sp' m mlen c ad npub k K N A _ h (by rw [e]; exact hm)
      (by rw [e]; exact hd)
    refine ⟨F, mem', decPost_holds hout (by rw [hfb]; exact g2) hm.bM.frame, fun fuel hf => ?_⟩
    have := hrun fuel hf
    rw [if_pos (by rw [hft, hfb, foldTag_forge _ _ htl hδ, ← g1]), hfl] at this
    exact this

/-! ### A concrete forgery -/

namespace RvDemo

/-- The demo ciphertext with bit 0 of bytes 0 and 4 of the tag flipped. -/
def F : List Byte := forged Demo.K Demo.N Demo.A Demo.P [1, 0, 0, 0]

def memF : Mem := memC.writes 200 F

theorem F_length : F.length = 36 := by
  unfold F forged
  rw [List.length_append, length_xorBytes]
  simp [ctBody, ctTag, length_aeadEncrypt, Demo.P]

theorem disjF (p n : Nat) (h : p + n ≤ 200 ∨ 236 ≤ p) : Disjoint 200 F.length p n := by
  rw [F_length]; unfold Disjoint; omega

theorem decPreF : DecPre memF 1000 100 300 200 32 16 0 Demo.K Demo.N Demo.A F where
  key := decPre.key.writes_disjoint (disjF _ _ (by decide))
  keyLen := rfl
  nonce := decPre.nonce.writes_disjoint (disjF _ _ (by decide))
  nonceLen := rfl
  adata := decPre.adata.writes_disjoint (disjF _ _ (by decide))
  adLen := by decide
  ct := holds_writes_self _ _ _
  ctMin := by rw [F_length]; decide
  ctLen := by rw [F_length]; decide
  out := by rw [F_length]; exact decPre.out.writes
  outLen := decPre.outLen.writes
  sepKey := by unfold Disjoint; decide
  sepNonce := by unfold Disjoint; decide
  sepAd := by unfold Disjoint; decide
  sepCt := by rw [F_length]; unfold Disjoint; decide
  sepOut := by rw [F_length]; unfold Disjoint; decide
  overlap := by omega
  stack := by
    intro i hi
    unfold memF
    rw [writes_out (by rw [F_length]; omega)]
    exact decPre.stack i hi

theorem decOkF : rv32i.DecOk 0x80000000 regs memF 2000 100 300 200 32 16 0 Demo.A.length Demo.P.length :=
  { decOk with
    call := callOk _ (Mem.Writable.writes (by unfold Mem.Writable; decide +kernel))
    past := fun h => absurd rfl h }

end RvDemo

/-- The hypotheses of C53 can be met. -/
example : aeadDecrypt Demo.K Demo.N Demo.A RvDemo.F = none ∧ ∃ F mem', mem'.Holds 100 Demo.P ∧ ∀ fuel, F ≤ fuel →
    run (crypto_aead_decrypt rv32i_code rv32i_L_ascon_core 0x80000000 RvDemo.regs fuel 100 300 200 (Demo.P.length + 16) 32
      Demo.A.length 16 0) RvDemo.memF = some (0, mem') :=
  C53_rv32i_accepts_forgeries _ _ _ 2000 _ _ _ _ _ _ _ _ _ _ _ _ rfl (by decide) RvDemo.decPreF RvDemo.decOkF
    (by unfold Disjoint; decide)

/-! ## C54: decryption in place -/

/-- **C54** Decryption in place (`m = c`) writes the right candidate plaintext, but if the length is not a multiple of 16 the
verdict is about a *wrong* tag: the last partial block is read again after it has been overwritten
(`Esp32.decBodyInPlace`). -/
theorem C54_rv32i_decrypt_in_place (base : U32) (regs : Regs) (mem : Mem) (S sp' mlen c ad npub k : Nat) (K N A C : List Byte)
    (h : DecPre mem sp' c mlen c ad npub k K N A C)
    (hm : rv32i.DecOk base regs mem S c mlen c ad npub k A.length (C.length - 16)) :
    ∃ F mem', (∀ a, a < S ∨ S + 80 ≤ a → mem' a = decPost .little mem c mlen K N A C a) ∧ ∀ fuel, F ≤ fuel →
      run (crypto_aead_decrypt rv32i_code rv32i_L_ascon_core base regs fuel c mlen c C.length ad A.length npub k) mem =
        some (if foldTag (ctTag C) =
          foldTag (aeadTag K (Esp32.decBodyInPlace (aeadAd A (aeadInit K N)) (ctBody C)).1) then 0 else -1, mem') := by
  have h16 := h.ctMin
  have hbl : (ctBody C).length = C.length - 16 := by simp [ctBody]
  have htl : (ctTag C).length = 16 := by simp [ctTag]; omega
  have hdup : rv32i.V.duplex .dec (rv32i.V.start K N A) (ctBody C)
      ((decBody (aeadAd A (aeadInit K N)) (ctBody C)).2.drop ((C.length - 16) / 16 * 16)) =
      ((Esp32.decBodyInPlace (aeadAd A (aeadInit K N)) (ctBody C)).1, (decBody (aeadAd A (aeadInit K N)) (ctBody C)).2) := by
    have e := Variant.std_dec_inPlace (aeadAd A (aeadInit K N)) (ctBody C)
    rw [hbl, ← Variant.std_start] at e
    rw [← Variant.std_start]
    exact e
  obtain ⟨F, mem', hout, hrun⟩ := Impl.run_decrypt
    (l' := (decBody (aeadAd A (aeadInit K N)) (ctBody C)).2.drop ((C.length - 16) / 16 * 16)) rv32i_ok h hm (by
    rw [hdup]
    have hl := Ref.length_decBody (aeadAd A (aeadInit K N)) (ctBody C)
    refine ⟨?_, by rw [List.length_drop, hl, hbl]; omega⟩
    exact (holds_writes_self _ _ _).drop _ (by simp only; rw [hl, hbl]; omega))
  rw [hdup] at hout hrun
  refine ⟨F, mem', hout, fun fuel hf => ?_⟩
  refine (hrun fuel hf).1.trans ?_
  congr 2
  exact ite_iff (good_iff rv32i rfl rfl K _ (ctTag C) htl)

namespace RvDemo

/-- The genuine demo ciphertext. -/
def G : List Byte := aeadEncrypt Demo.K Demo.N Demo.A Demo.P
def memG : Mem := memC.writes 200 G
theorem G_length : G.length = 36 := length_aeadEncrypt _ _ _ _

theorem disjG (p n : Nat) (h : p + n ≤ 200 ∨ 236 ≤ p) : Disjoint 200 G.length p n := by
  rw [G_length]; unfold Disjoint; omega

theorem decPreG (m : Nat) (hw : memG.Writable m 20) (hs : Disjoint 300 8 m 20) (hm : m ≤ 200) : DecPre memG 1000 m 300 200 32 16 0 Demo.K Demo.N Demo.A G where
  key := decPre.key.writes_disjoint (disjG _ _ (by decide))
  keyLen := rfl
  nonce := decPre.nonce.writes_disjoint (disjG _ _ (by decide))
  nonceLen := rfl
  adata := decPre.adata.writes_disjoint (disjG _ _ (by decide))
  adLen := by decide
  ct := holds_writes_self _ _ _
  ctMin := by rw [G_length]; decide
  ctLen := by rw [G_length]; decide
  out := by rw [G_length]; exact hw
  outLen := decPre.outLen.writes
  sepKey := by unfold Disjoint; decide
  sepNonce := by unfold Disjoint; decide
  sepAd := by unfold Disjoint; decide
  sepCt := by rw [G_length]; unfold Disjoint; decide
  sepOut := by rw [G_length]; exact hs
  overlap := by omega
  stack := by
    intro i hi
    unfold memG
    rw [writes_out (by rw [G_length]; omega)]
    exact decPre.stack i hi

theorem decOkG (m : Nat) (hm : BufOk 2000 m 20) : rv32i.DecOk 0x80000000 regs memG 2000 m 300 200 32 16 0 Demo.A.length 20 :=
  { decOk with
    bM := hm
    romM := Or.inr (by rw [show rv32i.rc = 0 from rfl, show rv32i.rom.length = 0 from rfl]; omega)
    call := callOk _ (Mem.Writable.writes (by unfold Mem.Writable; decide +kernel))
    past := fun h => absurd rfl h }

end RvDemo

/-- A genuine ciphertext of 20 bytes is accepted out of place and rejected in place. -/
theorem C54_rv32i_in_place_rejects_genuine :
    (∃ F mem', mem'.Holds 100 Demo.P ∧ ∀ fuel, F ≤ fuel →
      run (crypto_aead_decrypt rv32i_code rv32i_L_ascon_core 0x80000000 RvDemo.regs fuel 100 300 200 36 32
        Demo.A.length 16 0) RvDemo.memG = some (0, mem')) ∧
    (∃ F mem', ∀ fuel, F ≤ fuel →
      run (crypto_aead_decrypt rv32i_code rv32i_L_ascon_core 0x80000000 RvDemo.regs fuel 200 300 200 36 32
        Demo.A.length 16 0) RvDemo.memG = some (-1, mem')) := by
  refine ⟨C52_rv32i_accepts_genuine _ _ _ 2000 1000 _ _ _ _ _ _ _ _ _ _
    (RvDemo.decPreG 100 (Mem.Writable.writes (RvDemo.decPre.out.mono (by decide) (by decide))) (by unfold Disjoint; decide) (by decide))
    (RvDemo.decOkG 100 (RvDemo.buf _ _ (by decide) (by decide))) (by unfold Disjoint; decide), ?_⟩
  obtain ⟨F, mem', -, hrun⟩ := C54_rv32i_decrypt_in_place 0x80000000 RvDemo.regs RvDemo.memG 2000 1000 300 200 32 16 0 Demo.K Demo.N
    Demo.A RvDemo.G
    (RvDemo.decPreG 200 (by
      exact (writable_writes_self RvDemo.memC 200 RvDemo.G).mono (by omega) (by rw [RvDemo.G_length]; decide)) (by unfold Disjoint; decide) (by decide))
    (by rw [RvDemo.G_length]; exact RvDemo.decOkG 200 (RvDemo.buf _ _ (by decide) (by decide)))
  refine ⟨F, mem', fun fuel hf => ?_⟩
  have := hrun fuel hf
  rw [if_neg (by decide +kernel), RvDemo.G_length] at this
  exact this

/-! ## C55: timing, calling convention -/

/-- **C55** The addresses and branches of encryption are a fixed function of pointers and lengths. -/
theorem C55_rv32i_encrypt_constant_time (base : U32) (regs : Regs) (mem1 mem2 : Mem) (S sp' c clen m ad npub k : Nat)
    (K1 N1 A1 P1 K2 N2 A2 P2 : List Byte)
    (h1 : EncPre mem1 sp' c clen m ad npub k K1 N1 A1 P1) (h2 : EncPre mem2 sp' c clen m ad npub k K2 N2 A2 P2)
    (hA : A2.length = A1.length) (hP : P2.length = P1.length)
    (hm1 : rv32i.EncOk base regs mem1 S c clen m ad npub k A1.length P1.length)
    (hm2 : rv32i.EncOk base regs mem2 S c clen m ad npub k A1.length P1.length) :
    ∃ F, ∀ fuel, F ≤ fuel →
      trace (crypto_aead_encrypt rv32i_code rv32i_L_ascon_core base regs fuel c clen m P1.length ad A1.length npub k) mem1 =
      trace (crypto_aead_encrypt rv32i_code rv32i_L_ascon_core base regs fuel c clen m P1.length ad A1.length npub k) mem2 := by
  obtain ⟨F1, _, -, hr1⟩ := Impl.run_encrypt rv32i_ok h1 hm1
  rw [← hA, ← hP] at hm2
  obtain ⟨F2, _, -, hr2⟩ := Impl.run_encrypt rv32i_ok h2 hm2
  rw [hA, hP] at hr2
  exact ⟨max F1 F2, fun fuel hf => ((hr1 fuel (by omega)).2).trans (hr2 fuel (by omega)).2.symm⟩

/-- The addresses and branches of decryption are a fixed function of pointers, lengths and the verdict. -/
theorem C55_rv32i_decrypt_constant_time (base : U32) (regs : Regs) (mem1 mem2 : Mem) (S sp' m mlen c ad npub k : Nat)
    (K1 N1 A1 C1 K2 N2 A2 C2 : List Byte)
    (h1 : DecPre mem1 sp' m mlen c ad npub k K1 N1 A1 C1) (h2 : DecPre mem2 sp' m mlen c ad npub k K2 N2 A2 C2)
    (hA : A2.length = A1.length) (hC : C2.length = C1.length)
    (hm1 : rv32i.DecOk base regs mem1 S m mlen c ad npub k A1.length (C1.length - 16))
    (hm2 : rv32i.DecOk base regs mem2 S m mlen c ad npub k A1.length (C1.length - 16))
    (hd : Disjoint m ((C1.length - 16) % 16) c ((C1.length - 16) % 16))
    (hv : foldTag (ctTag C1) = foldTag (aeadDecTag K1 N1 A1 (ctBody C1)) ↔
      foldTag (ctTag C2) = foldTag (aeadDecTag K2 N2 A2 (ctBody C2))) :
    ∃ F, ∀ fuel, F ≤ fuel →
      trace (crypto_aead_decrypt rv32i_code rv32i_L_ascon_core base regs fuel m mlen c C1.length ad A1.length npub k) mem1 =
      trace (crypto_aead_decrypt rv32i_code rv32i_L_ascon_core base regs fuel m mlen c C1.length ad A1.length npub k) mem2 := by
  have key : ∀ (mem : Mem) (K N A C : List Byte), DecPre mem sp' m mlen c ad npub k K N A C →
      rv32i.DecOk base regs mem S m mlen c ad npub k A.length (C.length - 16) →
      Disjoint m ((C.length - 16) % 16) c ((C.length - 16) % 16) →
      ∃ F, ∀ fuel, F ≤ fuel →
      trace (crypto_aead_decrypt rv32i_code rv32i_L_ascon_core base regs fuel m mlen c C.length ad A.length npub k) mem =
        rv32i.decT S m mlen c (C.length - 16) ad A.length npub k
          (decide (foldTag (ctTag C) = foldTag (aeadDecTag K N A (ctBody C)))) := by
    intro mem K N A C h hm hd
    have h16 := h.ctMin
    have htl : (ctTag C).length = 16 := by simp [ctTag]; omega
    obtain ⟨F, mem', -, hrun⟩ := Impl.run_decrypt (l' := lastBlock 16 (ctBody C)) rv32i_ok h hm (tail_ok h hd)
    have hdup : rv32i.V.duplex .dec (rv32i.V.start K N A) (ctBody C) (lastBlock 16 (ctBody C)) =
      decBody (aeadAd A (aeadInit K N)) (ctBody C) := Variant.std_decrypt K N A (ctBody C)
    rw [hdup] at hrun
    refine ⟨F, fun fuel hf => (hrun fuel hf).2.trans ?_⟩
    congr 1
    exact decide_eq_decide.mpr (good_iff rv32i rfl rfl K _ (ctTag C) htl)
  obtain ⟨F1, hr1⟩ := key mem1 K1 N1 A1 C1 h1 hm1 hd
  obtain ⟨F2, hr2⟩ := key mem2 K2 N2 A2 C2 h2 (by rw [hA, hC]; exact hm2) (by rw [hC]; exact hd)
  rw [hA, hC, decide_eq_decide.mpr hv.symm] at hr2
  exact ⟨max F1 F2, fun fuel hf => (hr1 fuel (by omega)).trans (hr2 fuel (by omega)).symm⟩

/-- `ascon_core` returns to its caller with all callee-saved registers unchanged (encryption). -/
theorem C55_rv32i_calling_convention_encrypt (base : U32) (regs : Regs) (mem : Mem) (S sp' c clen m ad npub k : Nat)
    (K N A P : List Byte) (h : EncPre mem sp' c clen m ad npub k K N A P)
    (hm : rv32i.EncOk base regs mem S c clen m ad npub k A.length P.length) :
    ∃ F m' mem', (∀ r ∈ [ra, sp, s0, s1, s2, s3, s4, s5, s6, s7, s8, s9, s10, s11], m'.r r = regs.r r) ∧ ∀ fuel, F ≤ fuel →
      run (ascon_core rv32i_code rv32i_L_ascon_core base regs fuel c m P.length ad A.length npub k 1) mem =
        some (m', mem') := Impl.convention_enc rv32i_ok h hm

/-- … (decryption). -/
theorem C55_rv32i_calling_convention_decrypt (base : U32) (regs : Regs) (mem : Mem) (S sp' m mlen c ad npub k : Nat)
    (K N A C : List Byte) (h : DecPre mem sp' m mlen c ad npub k K N A C)
    (hm : rv32i.DecOk base regs mem S m mlen c ad npub k A.length (C.length - 16))
    (hd : Disjoint m ((C.length - 16) % 16) c ((C.length - 16) % 16)) :
    ∃ F m' mem', (∀ r ∈ [ra, sp, s0, s1, s2, s3, s4, s5, s6, s7, s8, s9, s10, s11], m'.r r = regs.r r) ∧ ∀ fuel, F ≤ fuel →
      run (ascon_core rv32i_code rv32i_L_ascon_core base regs fuel m c (C.length - 16) ad A.length npub k (-1)) mem =
        some (m', mem') :=
  Impl.convention_dec (l' := lastBlock 16 (ctBody C)) rv32i_ok h hm (tail_ok0 h hd)

end Ascon.Rv
