import Verif.Proof.XtCore
import Verif.Proof.RvOldTop
/-!
# `crypto_aead_encrypt` and `crypto_aead_decrypt` of asm_esp32
-/

namespace Ascon.Xt

open Ascon.C Ascon.Spec Ascon.Asm
open Ascon.C.Prog (require ifc store64 load64)
open Ascon.Masked (U32 repr32 store32)
open Ascon.Rv (Ins Regs go Variant Mode Goes reads writesE chunk_xor rev8 rev8_inj tag_words v12_tag_words foldTag_be)
open Ascon.Rv.Impl (set_ne set_eq trace_store64 trace_load64)
open Ascon.Spec.V12 (be64 beBytes)

attribute [local irreducible] perm

/-- The situation at the call of `ascon_core`: `sp` points to a frame of 112 bytes followed by two words for the last two
arguments; the return address is outside of the code. -/
structure CallOk (base : U32) (regs : Regs) (mem : Mem) (S : Nat) : Prop where
  stk : regs.stk = []
  spR : regs.r sp = BitVec.ofNat 32 S
  spEnd : S + 120 ≤ 2 ^ 32
  spW : mem.Writable S 120
  ret : ¬ ((regs.r ra - base).toNat % 4 = 0 ∧ (regs.r ra - base).toNat / 4 < xaead_code.length)

/-- A buffer: below 2^32, outside of the stack frame.  No alignment. -/
structure BufOk (S p n : Nat) : Prop where
  fits : p + n ≤ 2 ^ 32
  frame : Disjoint S 120 p n

/-- The frame and the arguments on the stack. -/
def G (S a : Nat) : Prop := S ≤ a ∧ a < S + 120

namespace A
variable {base : U32} {regs : Regs} {mem : Mem} {S : Nat}

theorem repr32_mode (mode : Byte) : (repr32 .little (mode.setWidth 32))[0]? = some mode := by
  have : ∀ b : Byte, (repr32 .little (b.setWidth 32))[0]? = some b := by decide +kernel
  exact this mode

/-- Memory at the entry of `ascon_core`. -/
def argMem (S k : Nat) (mode : Byte) (mem : Mem) : Mem :=
  (mem.writes (S + 112) (repr32 .little (BitVec.ofNat 32 k))).writes (S + 116) (repr32 .little (mode.setWidth 32))

theorem argMem_fr (S k : Nat) (mode : Byte) (mem : Mem) : Fr (fun a => S + 112 ≤ a ∧ a < S + 120) mem (argMem S k mode mem) := by
  refine ((Fr.refl _ _).writes _ _ ?_).writes _ _ ?_
  all_goals intro a h h'; rw [len32] at h'; omega

theorem args_of {md : Mode} {op ip : Nat} {M : List Byte} {ap : Nat} {A : List Byte}
    {np : Nat} {N : List Byte} {kp : Nat} {K : List Byte} (hc : CallOk base regs mem S) (mode : Byte) (hmd : md ≠ .ad)
    (hmode : mode = md.val.setWidth 8) (ho : BufOk S op M.length) (hi : BufOk S ip M.length) (ha : BufOk S ap A.length)
    (hn : BufOk S np 16) (hk : BufOk S kp 16) (hw : mem.Writable op M.length) (hM : mem.Holds ip M) (hMl : M.length < 2 ^ 32)
    (hov : op ≤ ip ∨ ip + M.length ≤ op) (hA : mem.Holds ap A) (hAl : A.length < 2 ^ 32) (hN : mem.Holds np N)
    (hNl : N.length = 16) (hK : mem.Holds kp K) (hKl : K.length = 16) :
    Args md (setArgs regs (BitVec.ofNat 32 op) (BitVec.ofNat 32 ip) (BitVec.ofNat 32 M.length) (BitVec.ofNat 32 ap)
      (BitVec.ofNat 32 A.length) (BitVec.ofNat 32 np)) (argMem S kp mode mem) op ip M ap A np N kp K S := by
  have hf := argMem_fr S kp mode mem
  have hkeep : ∀ {p bs}, mem.Holds p bs → Disjoint S 120 p bs.length → (argMem S kp mode mem).Holds p bs := by
    intro p bs h hd
    refine hf.holds (fun a h h' => ?_) h
    unfold Disjoint at hd; omega
  refine
    { env := ⟨hc.stk, ?_, fun i hi => hf.live _ (hc.spW i (by omega)), hc.spEnd⟩
      mode := hmd
      modeB := ?_
      optr := rfl
      opEnd := ho.fits
      opW := hf.writable hw
      iptr := rfl
      ipEnd := hi.fits
      ipH := hkeep hM hi.frame
      ilen := rfl
      ilt := hMl
      over := hov
      aptr := rfl
      apEnd := ha.fits
      apH := hkeep hA ha.frame
      alen := rfl
      alt := hAl
      nptr := rfl
      npEnd := hn.fits
      npH := hkeep hN (by rw [hNl]; exact hn.frame)
      npL := hNl
      kptr := ?_
      kpEnd := hk.fits
      kpH := hkeep hK (by rw [hKl]; exact hk.frame)
      kpL := hKl
      dO := ho.frame
      dI := by have := hi.frame; unfold Disjoint at *; omega
      dA := by have := ha.frame; unfold Disjoint at *; omega
      dN := by have := hn.frame; unfold Disjoint at *; omega
      dK := by have := hk.frame; unfold Disjoint at *; omega }
  · exact hc.spR
  · have h := holds_writes_self (mem.writes (S + 112) (repr32 .little (BitVec.ofNat 32 kp))) (S + 116) (repr32 .little (mode.setWidth 32)) 0 (by rw [len32]; decide)
    have e := repr32_mode mode
    rw [List.getElem?_eq_getElem (by rw [len32]; decide)] at e
    injection e with e
    rw [e, hmode] at h
    rw [← hmode] at h
    rw [← hmode]
    exact h
  · unfold argMem
    exact (holds_writes_self _ _ _).writes_disjoint (by rw [len32, len32]; unfold Disjoint; omega)

/-- From the program logic to the execution of a call. -/
theorem call_of_goes (hc : CallOk base regs mem S) {out inp inlen ad adlen np k : Nat} {mode : Byte}
    {T : List Event → Prop} {R : Regs → Mem → Prop}
    (h : Goes xaead_code base 223 (setArgs regs (BitVec.ofNat 32 out) (BitVec.ofNat 32 inp) (BitVec.ofNat 32 inlen) (BitVec.ofNat 32 ad)
      (BitVec.ofNat 32 adlen) (BitVec.ofNat 32 np)) (argMem S k mode mem) fun t pc' m' mem' =>
      T t ∧ pc' = 347 ∧ m'.r ra = regs.r ra ∧ R m' mem') :
    ∃ F m' mem' t, T t ∧ R m' mem' ∧ ∀ fuel, F ≤ fuel →
      run (ascon_core xaead_code 223 base regs fuel out inp inlen ad adlen np k mode) mem = some (m', mem') ∧
      trace (ascon_core xaead_code 223 base regs fuel out inp inlen ad adlen np k mode) mem =
        writesE (S + 112) 4 ++ (writesE (S + 116) 4 ++ t) := by
  obtain ⟨F, t, pc', m', mem', ⟨hT, -, hs, hR⟩, hrun⟩ := h.exit (a := ra) (by
    rintro t pc' m' mem' ⟨-, rfl, hs, -⟩
    refine ⟨rfl, ?_⟩
    rw [hs]; exact hc.ret)
  have hS : (regs.r sp).toNat = S := by
    rw [hc.spR, BitVec.toNat_ofNat, Nat.mod_eq_of_lt]; have := hc.spEnd; omega
  have w1 : mem.Writable (S + 112) 4 := hc.spW.mono (by omega) (by omega)
  have w2 : (mem.writes (S + 112) (repr32 .little (BitVec.ofNat 32 k))).Writable (S + 116) 4 := hc.spW.writes.mono (by omega) (by omega)
  refine ⟨F, m', mem', t, hT, hR, fun fuel hf => ?_⟩
  obtain ⟨h1, h2⟩ := hrun fuel hf
  unfold argMem at h1 h2
  unfold ascon_core
  rw [hS, run_bind, Masked.run_store32 w1, trace_bind, Masked.run_store32 w1]
  simp only [Option.bind_some]
  rw [run_bind, Masked.run_store32 w2, trace_bind, Masked.run_store32 w2]
  simp only [Option.bind_some]
  rw [run_bind, trace_bind, h1, h2]
  simp only [Option.bind_some, hs, beq_self_eq_true]
  refine ⟨rfl, ?_⟩
  unfold store32
  rw [Rv.trace_storeN w1, Rv.trace_storeN w2, len32, len32]
  congr 2
  exact List.append_nil t

end A

/-- The machine-level conditions of a call of `crypto_aead_encrypt`. -/
structure EncOk (base : U32) (regs : Regs) (mem : Mem) (S c clen m ad npub k an mn : Nat) : Prop where
  call : CallOk base regs mem S
  bC : BufOk S c (mn + 16)
  bM : BufOk S m mn
  bA : BufOk S ad an
  bN : BufOk S npub 16
  bK : BufOk S k 16
  frame : Disjoint S 120 clen 8
  aLen : an < 2 ^ 32

/-- Events of encryption. -/
def encT (S c clen m mn ad an npub k : Nat) : List Event :=
  writesE clen 8 ++ (writesE (S + 112) 4 ++ (writesE (S + 116) 4 ++ (A.coreT .enc c m mn ad an npub k S ++ reads (S + 72) 4 ++
    [.branch true] ++ reads (S + 60) 4 ++ A.wblock (c + mn) ++ reads (S + 92) 4)))

section
variable {base : U32} {regs : Regs} {mem : Mem} {S : Nat}
open A

theorem CallOk.writes (hc : CallOk base regs mem S) {p : Nat} {bs : List Byte} : CallOk base regs (mem.writes p bs) S :=
  ⟨hc.stk, hc.spR, hc.spEnd, hc.spW.writes, hc.ret⟩

attribute [local irreducible] A.coreT

theorem run_encrypt {sp' c clen m ad npub k : Nat} {K N A P : List Byte}
    (h : EncPre mem sp' c clen m ad npub k K N A P) (hm : EncOk base regs mem S c clen m ad npub k A.length P.length) :
    ∃ F mem', Fr (G S) ((mem.writes clen (repr64 .little (BitVec.ofNat 64 (P.length + 16)))).writes c (Variant.v12.encrypt K N A P)) mem' ∧
      ∀ fuel, F ≤ fuel →
        run (crypto_aead_encrypt xaead_code 223 base regs fuel c clen m P.length ad A.length npub k) mem = some (0, mem') ∧
        trace (crypto_aead_encrypt xaead_code 223 base regs fuel c clen m P.length ad A.length npub k) mem =
          encT S c clen m P.length ad A.length npub k := by
  have hl : (repr64 .little (BitVec.ofNat 64 (P.length + 16))).length = 8 := Ref.length_repr64 _ _
  have hc1 : CallOk base regs (mem.writes clen (repr64 .little (BitVec.ofNat 64 (P.length + 16)))) S := hm.call.writes
  have hbC := hm.bC
  have hfits := hbC.fits
  have ha := args_of (md := .enc) hc1 1 (by decide) (by decide)
    ⟨by omega, by have := hbC.frame; unfold Disjoint at *; omega⟩ hm.bM hm.bA hm.bN hm.bK
    (h.out.writes.mono (by omega) (by omega)) (h.msg.writes_disjoint (by rw [hl]; exact h.sepMsg)) (by omega) h.overlap
    (h.adata.writes_disjoint (by rw [hl]; exact h.sepAd)) hm.aLen
    (h.nonce.writes_disjoint (by rw [hl, h.nonceLen]; exact h.sepNonce)) h.nonceLen
    (h.key.writes_disjoint (by rw [hl, h.keyLen]; exact h.sepKey)) h.keyLen
  have hfa := argMem_fr S k 1 (mem.writes clen (repr64 .little (BitVec.ofNat 64 (P.length + 16))))
  obtain ⟨F, m', mem', t, ht, ⟨h0, hout⟩, hrun⟩ := call_of_goes (R := fun m' mem' => m'.r a2 = 0 ∧ Fr (Xt.A.F S) _ mem') hc1
    ((core_enc (base := base) ha (by omega) (hfa.writable h.out.writes) hbC.frame).mono fun t pc' m' mem' hq =>
      ⟨hq.1, hq.2.1, hq.2.2.2.1, hq.2.2.1, hq.2.2.2.2.2.2⟩)
  refine ⟨F, mem', ?_, fun fuel hf => ?_⟩
  · exact ((hfa.congr _ _).mono fun a h => by unfold G; omega).trans (hout.mono fun a h => by unfold Xt.A.F at h; unfold G; omega)
  obtain ⟨h1, h2⟩ := hrun fuel hf
  unfold crypto_aead_encrypt
  rw [run_bind, Ref.run_store64 h.outLen, trace_bind, Ref.run_store64 h.outLen, trace_store64 h.outLen]
  simp only [Option.bind_some]
  rw [run_bind, h1, trace_bind, h1, h2]
  simp only [Option.bind_some]
  rw [h0, ht]
  exact ⟨rfl, by rw [encT]; congr 1; exact List.append_nil _⟩

/-- The machine-level conditions of a call of `crypto_aead_decrypt` with `n = clen - 16`. -/
structure DecOk (base : U32) (regs : Regs) (mem : Mem) (S m mlen c ad npub k an n : Nat) : Prop where
  call : CallOk base regs mem S
  bM : BufOk S m n
  bC : BufOk S c (n + 16)
  bA : BufOk S ad an
  bN : BufOk S npub 16
  bK : BufOk S k 16
  frame : Disjoint S 120 mlen 8
  aLen : an < 2 ^ 32

/-- Events of decryption with the verdict `good`. -/
def decT (S m mlen c n ad an npub k : Nat) (good : Bool) : List Event :=
  .branch false :: (writesE mlen 8 ++ (reads mlen 8 ++ (writesE (S + 112) 4 ++ (writesE (S + 116) 4 ++
    (A.coreT .dec m c n ad an npub k S ++ reads (S + 72) 4 ++ [.branch false] ++ reads (S + 64) 4 ++
        Rv.Rv32i.block (c + n) ++ [.branch good] ++ reads (S + 92) 4)))))

/-- The verdict as the code computes it: the folded tags are equal. -/
theorem good_iff (K : List Byte) (s : State) (T : List Byte) (h : T.length = 16) :
    A.diff ((Variant.final (be64 (K.take 8)) (be64 (K.drop 8)) s).x3 ^^^ be64 (T.take 8))
      ((Variant.final (be64 (K.take 8)) (be64 (K.drop 8)) s).x4 ^^^ be64 (T.drop 8)) = 0 ↔ foldTag T = foldTag (V12.tag K s) :=
  Rv.good_id Rv.rv32b rfl rfl K s T h

theorem run_decrypt {sp' m mlen c ad npub k : Nat} {K N A C l' : List Byte}
    (h : DecPre mem sp' m mlen c ad npub k K N A C) (hm : DecOk base regs mem S m mlen c ad npub k A.length (C.length - 16))
    (hl' : ((mem.writes mlen (repr64 .little (BitVec.ofNat 64 (C.length - 16)))).writes m
      (Variant.v12.duplex .dec (Variant.v12.start K N A) (ctBody C) l').2).Holds (c + (C.length - 16) / 16 * 16) l' ∧
      l'.length = (C.length - 16) % 16) :
    ∃ F mem', Fr (G S) ((mem.writes mlen (repr64 .little (BitVec.ofNat 64 (C.length - 16)))).writes m
        (Variant.v12.duplex .dec (Variant.v12.start K N A) (ctBody C) l').2) mem' ∧
      ∀ fuel, F ≤ fuel →
        run (crypto_aead_decrypt xaead_code 223 base regs fuel m mlen c C.length ad A.length npub k) mem =
          some (if foldTag (ctTag C) = foldTag (V12.tag K (Variant.v12.duplex .dec (Variant.v12.start K N A) (ctBody C) l').1) then 0 else -1, mem') ∧
        trace (crypto_aead_decrypt xaead_code 223 base regs fuel m mlen c C.length ad A.length npub k) mem =
          decT S m mlen c (C.length - 16) ad A.length npub k
            (decide (foldTag (ctTag C) = foldTag (V12.tag K (Variant.v12.duplex .dec (Variant.v12.start K N A) (ctBody C) l').1))) := by
  have h16 := h.ctMin
  have hl : (repr64 .little (BitVec.ofNat 64 (C.length - 16))).length = 8 := Ref.length_repr64 _ _
  have hbl : (ctBody C).length = C.length - 16 := by simp [ctBody]
  have htl : (ctTag C).length = 16 := by simp [ctTag]; omega
  have hol : (Variant.v12.duplex .dec (Variant.v12.start K N A) (ctBody C) l').2.length = C.length - 16 := by
    rw [Variant.length_duplex Variant.v12_ok, hbl]
  have hgood := good_iff K (Variant.v12.duplex .dec (Variant.v12.start K N A) (ctBody C) l').1 (ctTag C) htl
  have hct1 : (mem.writes mlen (repr64 .little (BitVec.ofNat 64 (C.length - 16)))).Holds c C :=
    h.ct.writes_disjoint (by rw [hl]; exact h.sepCt)
  have hc1 : CallOk base regs (mem.writes mlen (repr64 .little (BitVec.ofNat 64 (C.length - 16)))) S := hm.call.writes
  have hbC := hm.bC
  have hfits := hbC.fits
  have hov := h.overlap
  have hT : ((mem.writes mlen (repr64 .little (BitVec.ofNat 64 (C.length - 16)))).writes m
      (Variant.v12.duplex .dec (Variant.v12.start K N A) (ctBody C) l').2).Holds (c + (C.length - 16)) (ctTag C) :=
    Mem.Holds.writes_disjoint (hct1.drop _ (by omega)) (by
      rw [hol, htl]; unfold Disjoint; omega)
  have ha := args_of (md := .dec) (M := ctBody C) hc1 (-1) (by decide) (by decide)
    (by rw [hbl]; exact hm.bM) (by rw [hbl]; exact ⟨by omega, by have := hbC.frame; unfold Disjoint at *; omega⟩)
    hm.bA hm.bN hm.bK
    (by rw [hbl]; exact h.out.writes) (hct1.take _) (by rw [hbl]; omega) (by rw [hbl]; omega)
    (h.adata.writes_disjoint (by rw [hl]; exact h.sepAd)) hm.aLen
    (h.nonce.writes_disjoint (by rw [hl, h.nonceLen]; exact h.sepNonce)) h.nonceLen
    (h.key.writes_disjoint (by rw [hl, h.keyLen]; exact h.sepKey)) h.keyLen
  have hfa := argMem_fr S k (-1) (mem.writes mlen (repr64 .little (BitVec.ofNat 64 (C.length - 16))))
  have hcore := core_dec (base := base) (l' := l') (q := _) ha htl rfl (by rw [hbl]; omega) (by
      rw [hbl]
      refine ⟨(hfa.congr _ _).holds (fun a q q' => ?_) hl'.1, hl'.2⟩
      have := hbC.frame; rw [hl'.2] at q'; unfold Disjoint at this; omega)
    (by
      rw [hbl]
      refine (hfa.congr _ _).holds (fun a q q' => ?_) hT
      have := hbC.frame; rw [htl] at q'; unfold Disjoint at this; omega)
    (by rw [hbl]; have := hbC.frame; unfold Disjoint at *; omega)
  simp only [hgood, hbl] at hcore
  obtain ⟨F, m', mem', t, ht, ⟨h0, hout⟩, hrun⟩ := call_of_goes (R := fun m' mem' => m'.r a2 = _ ∧ Fr (Xt.A.F S) _ mem') hc1
    (hcore.mono fun t pc' m' mem' hq => ⟨hq.1, hq.2.1, hq.2.2.2.1, hq.2.2.1, hq.2.2.2.2.2.2⟩)
  refine ⟨F, mem', ?_, fun fuel hf => ?_⟩
  · exact ((hfa.congr _ _).mono fun a h => by unfold G; omega).trans (hout.mono fun a h => by unfold Xt.A.F at h; unfold G; omega)
  obtain ⟨h1, h2⟩ := hrun fuel hf
  have hml : (mem.writes mlen (repr64 .little (BitVec.ofNat 64 (C.length - 16)))).Holds mlen
      (repr64 .little (BitVec.ofNat 64 (C.length - 16))) := holds_writes_self _ _ _
  have hto : (BitVec.ofNat 64 (C.length - 16)).toNat = C.length - 16 := by
    rw [BitVec.toNat_ofNat, Nat.mod_eq_of_lt]
    have := h.ctLen; omega
  unfold crypto_aead_decrypt ifc
  rw [decide_eq_false (by omega)]
  simp only [run, trace]
  simp only [Bool.false_eq_true, if_false]
  rw [run_bind, Ref.run_store64 h.outLen, trace_bind, Ref.run_store64 h.outLen, trace_store64 h.outLen]
  simp only [Option.bind_some]
  rw [run_bind, Esp32.run_load64 hml, trace_bind, Esp32.run_load64 hml, trace_load64 hml]
  simp only [Option.bind_some, hto]
  rw [run_bind, h1, trace_bind, h1, h2]
  simp only [Option.bind_some]
  rw [h0, ht]
  refine ⟨?_, ?_⟩
  · split <;> rfl
  · rw [decT]; congr 3; exact List.append_nil _

end
end Ascon.Xt
