import Verif.Proof.RvCore
import Verif.Proof.Esp32Top
import Verif.Model.RvAead
import Verif.Spec.FoldTag
/-!
# `crypto_aead_encrypt` and `crypto_aead_decrypt` of the RISC-V implementations
-/

namespace Ascon.Rv

open Ascon.C Ascon.Spec Ascon.Asm
open Ascon.C.Prog (require ifc store64 load64)
open Ascon.Masked (U32 repr32)
open Impl (set_ne set_eq)

attribute [local irreducible] perm

/-- The situation at the call of `ascon_core`: `sp` points to the end of 80 free bytes `[S, S+80)`, the return address is
outside of the code. -/
structure CallOk (I : Impl) (base : U32) (regs : Regs) (mem : Mem) (S : Nat) : Prop where
  stk : regs.stk = []
  spR : regs.r sp = BitVec.ofNat 32 (S + 80)
  spAl : S % 4 = 0
  spEnd : S + 80 < 2 ^ 32
  spW : mem.Writable S 80
  ret : ¬ ((regs.r ra - base).toNat % 4 = 0 ∧ (regs.r ra - base).toNat / 4 < I.code.length)
  rom : mem.Holds I.rc I.rom
  dR : Disjoint S 80 I.rc I.rom.length

/-- The buffers of a call of `ascon_core` (besides the contracts on their contents): word-aligned if there is a block of 16
bytes, below 2^32, outside of the stack frame. -/
structure BufOk (S : Nat) (p n : Nat) : Prop where
  al : 16 ≤ n → p % 4 = 0
  fits : p + n ≤ 2 ^ 32
  frame : Disjoint S 80 p n

/-- Registers a callee has to preserve. -/
abbrev calleeSaved : List Nat := [ra, sp, s0, s1, s2, s3, s4, s5, s6, s7, s8, s9, s10, s11]

namespace Impl
variable {I : Impl} {base : U32} {regs : Regs} {mem : Mem} {S : Nat}

theorem args_of {md : Mode} {op ip : Nat} {M : List Byte} {ap : Nat} {A : List Byte}
    {np : Nat} {N : List Byte} {kp : Nat} {K : List Byte} (hc : CallOk I base regs mem S) (mode : Byte) (hmd : md ≠ .ad)
    (hmode : mode = md.val.setWidth 8) (ho : BufOk S op M.length) (hi : BufOk S ip M.length) (ha : BufOk S ap A.length)
    (hn : BufOk S np 16) (hk : BufOk S kp 16) (hw : mem.Writable op M.length) (hM : mem.Holds ip M) (hMl : M.length < 2 ^ 31)
    (hov : op ≤ ip ∨ ip + M.length ≤ op) (hA : mem.Holds ap A) (hAl : A.length < 2 ^ 31) (hN : mem.Holds np N)
    (hNl : N.length = 16) (hK : mem.Holds kp K) (hKl : K.length = 16) (hor : Disjoint op M.length I.rc I.rom.length) :
    I.Args md (setArgs regs op ip M.length ap A.length np kp mode) mem op ip M ap A np N kp K S where
  stk := hc.stk
  mode := hmd
  modeR := by
    show (mode.setWidth 32).setWidth 8 = _
    rw [hmode]; cases md <;> rfl
  optr := rfl
  opAl := ho.al
  opEnd := ho.fits
  opW := hw
  iptr := rfl
  ipAl := hi.al
  ipEnd := hi.fits
  ipH := hM
  ilen := rfl
  ilt := hMl
  over := hov
  aptr := rfl
  apAl := ha.al
  apEnd := ha.fits
  apH := hA
  alen := rfl
  alt := hAl
  nptr := rfl
  npAl := hn.al (Nat.le_refl 16)
  npEnd := hn.fits
  npH := hN
  npL := hNl
  kptr := rfl
  kpAl := hk.al (Nat.le_refl 16)
  kpEnd := hk.fits
  kpH := hK
  kpL := hKl
  spR := hc.spR
  spAl := hc.spAl
  spEnd := hc.spEnd
  spW := hc.spW
  dO := ho.frame
  dI := hi.frame
  dA := ha.frame
  dN := hn.frame
  dK := hk.frame
  rom := hc.rom
  dR := hc.dR
  dOR := hor

theorem setArgs_saved (out inp inlen ad adlen np k : Nat) (mode : Byte) :
    Same calleeSaved regs (setArgs regs out inp inlen ad adlen np k mode) := by
  intro r hr
  unfold setArgs
  rw [set_ne (by rintro rfl; revert hr; decide), set_ne (by rintro rfl; revert hr; decide),
    set_ne (by rintro rfl; revert hr; decide), set_ne (by rintro rfl; revert hr; decide),
    set_ne (by rintro rfl; revert hr; decide), set_ne (by rintro rfl; revert hr; decide),
    set_ne (by rintro rfl; revert hr; decide), set_ne (by rintro rfl; revert hr; decide)]

/-- From the program logic to the execution of a call. -/
theorem call_of_goes (ok : I.Ok) (hc : CallOk I base regs mem S) {out inp inlen ad adlen np k : Nat} {mode : Byte}
    {T : List Event → Prop} {R : Regs → Mem → Prop}
    (h : Goes I.code base I.Lcore (setArgs regs out inp inlen ad adlen np k mode) mem fun t pc' m' mem' =>
      T t ∧ pc' = I.Lexit ∧ Same calleeSaved (setArgs regs out inp inlen ad adlen np k mode) m' ∧ R m' mem') :
    ∃ F m' mem' t, T t ∧ Same calleeSaved regs m' ∧ R m' mem' ∧ ∀ fuel, F ≤ fuel →
      run (ascon_core I.code I.Lcore base regs fuel out inp inlen ad adlen np k mode) mem = some (m', mem') ∧
      trace (ascon_core I.code I.Lcore base regs fuel out inp inlen ad adlen np k mode) mem = t := by
  have hra : ∀ m', Same calleeSaved (setArgs regs out inp inlen ad adlen np k mode) m' → m'.r ra = regs.r ra := fun m' hs =>
    (hs ra (by decide)).trans (setArgs_saved out inp inlen ad adlen np k mode ra (by decide))
  obtain ⟨F, t, pc', m', mem', ⟨hT, -, hs, hR⟩, hrun⟩ := h.exit (a := ra) (by
    rintro t pc' m' mem' ⟨-, rfl, hs, -⟩
    refine ⟨ok.exit, ?_⟩
    rw [hra m' hs]; exact hc.ret)
  refine ⟨F, m', mem', t, hT, Same.trans (setArgs_saved _ _ _ _ _ _ _ _) hs, hR, fun fuel hf => ?_⟩
  obtain ⟨h1, h2⟩ := hrun fuel hf
  unfold ascon_core
  rw [run_bind, trace_bind, h1, h2]
  simp only [Option.bind_some, hra m' hs, beq_self_eq_true]
  exact ⟨rfl, List.append_nil t⟩

theorem trace_store64 {p : Nat} {w : Word} {mem : Mem} (h : mem.Writable p 8) :
    trace (store64 .little p w) mem = writesE p 8 := by
  unfold store64
  rw [trace_storeN (by rw [Ref.length_repr64]; exact h), Ref.length_repr64]

theorem trace_load64 {p : Nat} {w : Word} {mem : Mem} (h : mem.Holds p (repr64 .little w)) :
    trace (load64 .little p) mem = reads p 8 := by
  unfold load64
  have hl : 8 = (repr64 .little w).length := (Ref.length_repr64 _ _).symm
  rw [trace_bind, hl, trace_loadN h, run_loadN h]
  simp only
  exact List.append_nil _

theorem CallOk.writes (hc : CallOk I base regs mem S) {p : Nat} {bs : List Byte} (hd : Disjoint p bs.length I.rc I.rom.length) :
    CallOk I base regs (mem.writes p bs) S :=
  ⟨hc.stk, hc.spR, hc.spAl, hc.spEnd, hc.spW.writes, hc.ret, hc.rom.writes_disjoint hd, hc.dR⟩

/-- The machine-level conditions of a call of `crypto_aead_encrypt`. -/
structure EncOk (I : Impl) (base : U32) (regs : Regs) (mem : Mem) (S c clen m ad npub k an mn : Nat) : Prop where
  call : CallOk I base regs mem S
  bC : BufOk S c mn
  cEnd : c + mn + 16 ≤ 2 ^ 32
  cFrame : Disjoint S 80 c (mn + 16)
  bM : BufOk S m mn
  bA : BufOk S ad an
  bN : BufOk S npub 16
  bK : BufOk S k 16
  frame : Disjoint S 80 clen 8
  aLen : an < 2 ^ 31
  mLen : mn < 2 ^ 31
  romC : Disjoint c (mn + 16) I.rc I.rom.length
  romL : Disjoint clen 8 I.rc I.rom.length

/-- Events of encryption. -/
def encT (I : Impl) (S c clen m mn ad an npub k : Nat) : List Event :=
  writesE clen 8 ++ (I.coreT .enc c m mn ad an npub k S ++ I.tagT (c + mn) ++ I.epiT S)

/-- `crypto_aead_encrypt` computes `V.encrypt`. -/
theorem run_encrypt (ok : I.Ok) {sp' c clen m ad npub k : Nat} {K N A P : List Byte}
    (h : EncPre mem sp' c clen m ad npub k K N A P) (hm : EncOk I base regs mem S c clen m ad npub k A.length P.length) :
    ∃ F mem', Out S ((mem.writes clen (repr64 .little (BitVec.ofNat 64 (P.length + 16)))).writes c (I.V.encrypt K N A P)) mem' ∧
      ∀ fuel, F ≤ fuel →
        run (crypto_aead_encrypt I.code I.Lcore base regs fuel c clen m P.length ad A.length npub k) mem = some (0, mem') ∧
        trace (crypto_aead_encrypt I.code I.Lcore base regs fuel c clen m P.length ad A.length npub k) mem =
          I.encT S c clen m P.length ad A.length npub k := by
  have hl : (repr64 .little (BitVec.ofNat 64 (P.length + 16))).length = 8 := Ref.length_repr64 _ _
  have hc1 : CallOk I base regs (mem.writes clen (repr64 .little (BitVec.ofNat 64 (P.length + 16)))) S :=
    CallOk.writes hm.call (by rw [hl]; exact hm.romL)
  have hbC := hm.bC
  have ha := args_of (md := .enc) hc1 1 (by decide) (by decide)
    hbC hm.bM hm.bA hm.bN hm.bK
    (h.out.writes.mono (by omega) (by omega)) (h.msg.writes_disjoint (by rw [hl]; exact h.sepMsg)) hm.mLen h.overlap
    (h.adata.writes_disjoint (by rw [hl]; exact h.sepAd)) hm.aLen
    (h.nonce.writes_disjoint (by rw [hl, h.nonceLen]; exact h.sepNonce)) h.nonceLen
    (h.key.writes_disjoint (by rw [hl, h.keyLen]; exact h.sepKey)) h.keyLen
    (by have := hm.romC; unfold Disjoint at *; omega)
  obtain ⟨F, m', mem', t, ht, -, ⟨h0, hout⟩, hrun⟩ := call_of_goes (R := fun m' mem' => m'.r a0 = 0 ∧ Out S _ mem') ok hc1
    ((core_enc (base := base) ok ha hm.cEnd h.out.writes hm.cFrame).mono fun t pc' m' mem' hq =>
      ⟨hq.1, hq.2.1, hq.2.2.2.1, hq.2.2.1, hq.2.2.2.2⟩)
  refine ⟨F, mem', hout, fun fuel hf => ?_⟩
  obtain ⟨h1, h2⟩ := hrun fuel hf
  unfold crypto_aead_encrypt
  rw [run_bind, Ref.run_store64 h.outLen, trace_bind, Ref.run_store64 h.outLen, trace_store64 h.outLen]
  simp only [Option.bind_some]
  rw [run_bind, h1, trace_bind, h1, h2]
  simp only [Option.bind_some]
  rw [h0, ht]
  exact ⟨rfl, by rw [encT]; congr 1; exact List.append_nil _⟩

/-- The machine-level conditions of a call of `crypto_aead_decrypt` with `n = clen - 16`.  The last one: if the tag is not
word-aligned, the one to three bytes between its end and the next word boundary are read, too. -/
structure DecOk (I : Impl) (base : U32) (regs : Regs) (mem : Mem) (S m mlen c ad npub k an n : Nat) : Prop where
  call : CallOk I base regs mem S
  bM : BufOk S m n
  bC : BufOk S c (n + 16)
  bC' : c + n + 20 ≤ 2 ^ 32
  bA : BufOk S ad an
  bN : BufOk S npub 16
  bK : BufOk S k 16
  frame : Disjoint S 80 mlen 8
  aLen : an < 2 ^ 31
  cLen : n < 2 ^ 31
  romM : Disjoint m n I.rc I.rom.length
  romL : Disjoint mlen 8 I.rc I.rom.length
  past : n % 4 ≠ 0 → ∀ j, j < 4 - n % 4 → (c + n + 16 + j < S ∨ S + 80 ≤ c + n + 16 + j) ∧ ∃ b, (mem (c + n + 16 + j)).byte = some b

/-- Events of decryption with the verdict `good`. -/
def decT (I : Impl) (S m mlen c n ad an npub k : Nat) (good : Bool) : List Event :=
  .branch false :: (writesE mlen 8 ++ (reads mlen 8 ++
    (I.coreT .dec m c n ad an npub k S ++ readTagT (c + n) ++ [.branch good] ++ I.epiT S)))

/-- The verdict of decryption, as the code computes it from the state after the message and the received tag. -/
def good (I : Impl) (K : List Byte) (s : State) (T : List Byte) : Prop :=
  I.diff ((Variant.final (I.V.ld (K.take 8)) (I.V.ld (K.drop 8)) s).x3 ^^^ I.V.ld (T.take 8))
    ((Variant.final (I.V.ld (K.take 8)) (I.V.ld (K.drop 8)) s).x4 ^^^ I.V.ld (T.drop 8)) = 0

instance (I : Impl) (K : List Byte) (s : State) (T : List Byte) : Decidable (I.good K s T) := by unfold good; infer_instance

/-- `crypto_aead_decrypt`; `l'` is what the last partial block of the ciphertext reads as after the plaintext has been
written. -/
theorem run_decrypt (ok : I.Ok) {sp' m mlen c ad npub k : Nat} {K N A C l' : List Byte}
    (h : DecPre mem sp' m mlen c ad npub k K N A C) (hm : DecOk I base regs mem S m mlen c ad npub k A.length (C.length - 16))
    (hl' : ((mem.writes mlen (repr64 .little (BitVec.ofNat 64 (C.length - 16)))).writes m
      (I.V.duplex .dec (I.V.start K N A) (ctBody C) l').2).Holds (c + (C.length - 16) / 16 * 16) l' ∧
      l'.length = (C.length - 16) % 16) :
    ∃ F mem', Out S ((mem.writes mlen (repr64 .little (BitVec.ofNat 64 (C.length - 16)))).writes m
        (I.V.duplex .dec (I.V.start K N A) (ctBody C) l').2) mem' ∧
      ∀ fuel, F ≤ fuel →
        run (crypto_aead_decrypt I.code I.Lcore base regs fuel m mlen c C.length ad A.length npub k) mem =
          some (if I.good K (I.V.duplex .dec (I.V.start K N A) (ctBody C) l').1 (ctTag C) then 0 else -1, mem') ∧
        trace (crypto_aead_decrypt I.code I.Lcore base regs fuel m mlen c C.length ad A.length npub k) mem =
          I.decT S m mlen c (C.length - 16) ad A.length npub k
            (decide (I.good K (I.V.duplex .dec (I.V.start K N A) (ctBody C) l').1 (ctTag C))) := by
  have h16 := h.ctMin
  have hl : (repr64 .little (BitVec.ofNat 64 (C.length - 16))).length = 8 := Ref.length_repr64 _ _
  have hbl : (ctBody C).length = C.length - 16 := by simp [ctBody]
  have htl : (ctTag C).length = 16 := by simp [ctTag]; omega
  have hol : (I.V.duplex .dec (I.V.start K N A) (ctBody C) l').2.length = C.length - 16 := by
    rw [Variant.length_duplex ok.vok, hbl]
  have hct1 : (mem.writes mlen (repr64 .little (BitVec.ofNat 64 (C.length - 16)))).Holds c C :=
    h.ct.writes_disjoint (by rw [hl]; exact h.sepCt)
  have hc1 : CallOk I base regs (mem.writes mlen (repr64 .little (BitVec.ofNat 64 (C.length - 16)))) S :=
    CallOk.writes hm.call (by rw [hl]; exact hm.romL)
  have hbC := hm.bC
  have hov := h.overlap
  have hT : ((mem.writes mlen (repr64 .little (BitVec.ofNat 64 (C.length - 16)))).writes m
      (I.V.duplex .dec (I.V.start K N A) (ctBody C) l').2).Holds (c + (C.length - 16)) (ctTag C) :=
    Mem.Holds.writes_disjoint (hct1.drop _ (by omega)) (by
      rw [hol, htl]; unfold Disjoint; omega)
  have ha := args_of (md := .dec) (M := ctBody C) hc1 (-1) (by decide) (by decide)
    (by rw [hbl]; exact hm.bM) (by rw [hbl]; exact ⟨fun _ => hbC.al (by omega), by have := hbC.fits; omega, by have := hbC.frame; unfold Disjoint at *; omega⟩)
    hm.bA hm.bN hm.bK
    (by rw [hbl]; exact h.out.writes) (hct1.take _) (by rw [hbl]; exact hm.cLen) (by rw [hbl]; omega)
    (h.adata.writes_disjoint (by rw [hl]; exact h.sepAd)) hm.aLen
    (h.nonce.writes_disjoint (by rw [hl, h.nonceLen]; exact h.sepNonce)) h.nonceLen
    (h.key.writes_disjoint (by rw [hl, h.keyLen]; exact h.sepKey)) h.keyLen
    (by rw [hbl]; exact hm.romM)
  rw [hbl] at ha
  have hcore := core_dec (base := base) (l' := l') ok (by rw [← hbl] at ha; exact ha) (hbC.al (by omega)) htl (by rw [hbl]; exact hm.bC') (by rw [hbl]; exact hl')
    (by rw [hbl]; exact hT) (by rw [hbl]; exact hbC.frame) (by
      rw [hbl]
      intro hne j hj
      obtain ⟨h1, b, h2⟩ := hm.past hne j hj
      refine ⟨h1, ?_⟩
      by_cases hp : mlen ≤ c + (C.length - 16) + 16 + j ∧ c + (C.length - 16) + 16 + j <
        mlen + (repr64 .little (BitVec.ofNat 64 (C.length - 16))).length
      · exact ⟨_, by rw [writes_in hp.1 hp.2]; rfl⟩
      · exact ⟨b, by rw [writes_out (by omega)]; exact h2⟩)
  rw [hbl] at hcore
  obtain ⟨F, m', mem', t, ht, -, ⟨h0, hout⟩, hrun⟩ := call_of_goes (T := fun t => t = I.coreT .dec m c (C.length - 16) ad A.length npub k S ++
        readTagT (c + (C.length - 16)) ++ [.branch (decide (I.good K (I.V.duplex .dec (I.V.start K N A) (ctBody C) l').1 (ctTag C)))] ++ I.epiT S) (R := fun m' mem' => m'.r a0 =
      (if I.good K (I.V.duplex .dec (I.V.start K N A) (ctBody C) l').1 (ctTag C) then 0 else -1) ∧ Out S _ mem') ok hc1
    (hcore.mono fun t pc' m' mem' hq => ⟨hq.1, hq.2.1, hq.2.2.2.1, hq.2.2.1, hq.2.2.2.2⟩)
  refine ⟨F, mem', hout, fun fuel hf => ?_⟩
  obtain ⟨h1, h2⟩ := hrun fuel hf
  have hml : (mem.writes mlen (repr64 .little (BitVec.ofNat 64 (C.length - 16)))).Holds mlen
      (repr64 .little (BitVec.ofNat 64 (C.length - 16))) := holds_writes_self _ _ _
  have hto : (BitVec.ofNat 64 (C.length - 16)).toNat = C.length - 16 := by
    rw [BitVec.toNat_ofNat, Nat.mod_eq_of_lt]
    have := h.ctLen; omega
  unfold crypto_aead_decrypt ifc
  rw [decide_eq_false (by omega)]
  simp only [run, trace]
  simp only [Bool.false_eq_true, if_false]
  rw [run_bind, Ref.run_store64 h.outLen, trace_bind, Ref.run_store64 h.outLen, trace_store64 h.outLen]
  simp only [Option.bind_some]
  rw [run_bind, Esp32.run_load64 hml, trace_bind, Esp32.run_load64 hml, trace_load64 hml]
  simp only [Option.bind_some, hto]
  rw [run_bind, h1, trace_bind, h1, h2]
  simp only [Option.bind_some]
  rw [h0, ht]
  refine ⟨?_, ?_⟩
  · split <;> rfl
  · rw [decT]; congr 3; exact List.append_nil _

/-- The calling convention: `ascon_core` returns with the callee-saved registers unchanged (encryption). -/
theorem convention_enc (ok : I.Ok) {sp' c clen m ad npub k : Nat} {K N A P : List Byte}
    (h : EncPre mem sp' c clen m ad npub k K N A P) (hm : EncOk I base regs mem S c clen m ad npub k A.length P.length) :
    ∃ F m' mem', Same calleeSaved regs m' ∧ ∀ fuel, F ≤ fuel →
        run (ascon_core I.code I.Lcore base regs fuel c m P.length ad A.length npub k 1) mem = some (m', mem') := by
  have hbC := hm.bC
  have ha := args_of (md := .enc) hm.call 1 (by decide) (by decide)
    hbC hm.bM hm.bA hm.bN hm.bK
    (h.out.mono (by omega) (by omega)) h.msg hm.mLen h.overlap h.adata hm.aLen h.nonce h.nonceLen h.key h.keyLen
    (by have := hm.romC; unfold Disjoint at *; omega)
  obtain ⟨F, m', mem', t, -, hs, -, hrun⟩ := call_of_goes (T := fun _ => True) (R := fun _ _ => True) ok hm.call
    ((core_enc (base := base) ok ha hm.cEnd h.out hm.cFrame).mono fun t pc' m' mem' hq =>
      ⟨trivial, hq.2.1, hq.2.2.2.1, trivial⟩)
  exact ⟨F, m', mem', hs, fun fuel hf => (hrun fuel hf).1⟩

/-- … (decryption). -/
theorem convention_dec (ok : I.Ok) {sp' m mlen c ad npub k : Nat} {K N A C l' : List Byte}
    (h : DecPre mem sp' m mlen c ad npub k K N A C) (hm : DecOk I base regs mem S m mlen c ad npub k A.length (C.length - 16))
    (hl' : (mem.writes m (I.V.duplex .dec (I.V.start K N A) (ctBody C) l').2).Holds (c + (C.length - 16) / 16 * 16) l' ∧
      l'.length = (C.length - 16) % 16) :
    ∃ F m' mem', Same calleeSaved regs m' ∧ ∀ fuel, F ≤ fuel →
        run (ascon_core I.code I.Lcore base regs fuel m c (C.length - 16) ad A.length npub k (-1)) mem = some (m', mem') := by
  have h16 := h.ctMin
  have hbl : (ctBody C).length = C.length - 16 := by simp [ctBody]
  have htl : (ctTag C).length = 16 := by simp [ctTag]; omega
  have hol : (I.V.duplex .dec (I.V.start K N A) (ctBody C) l').2.length = C.length - 16 := by
    rw [Variant.length_duplex ok.vok, hbl]
  have hbC := hm.bC
  have hov := h.overlap
  have hT : (mem.writes m (I.V.duplex .dec (I.V.start K N A) (ctBody C) l').2).Holds (c + (C.length - 16)) (ctTag C) :=
    Mem.Holds.writes_disjoint (h.ct.drop _ (by omega)) (by
      have e : (C.drop (C.length - 16)).length = 16 := htl
      rw [hol]
      show Disjoint _ _ _ (C.drop (C.length - 16)).length
      rw [e]; unfold Disjoint; omega)
  have ha := args_of (md := .dec) (M := ctBody C) hm.call (-1) (by decide) (by decide)
    (by rw [hbl]; exact hm.bM) (by rw [hbl]; exact ⟨fun _ => hbC.al (by omega), by have := hbC.fits; omega, by have := hbC.frame; unfold Disjoint at *; omega⟩)
    hm.bA hm.bN hm.bK
    (by rw [hbl]; exact h.out) (h.ct.take _) (by rw [hbl]; exact hm.cLen) (by rw [hbl]; omega)
    h.adata hm.aLen h.nonce h.nonceLen h.key h.keyLen (by rw [hbl]; exact hm.romM)
  have hcore := core_dec (base := base) (l' := l') ok ha (hbC.al (by omega)) htl (by rw [hbl]; exact hm.bC') (by rw [hbl]; exact hl')
    (by rw [hbl]; exact hT) (by rw [hbl]; exact hbC.frame) (by rw [hbl]; exact hm.past)
  rw [hbl] at hcore
  obtain ⟨F, m', mem', t, -, hs, -, hrun⟩ := call_of_goes (T := fun _ => True) (R := fun _ _ => True) ok hm.call
    (hcore.mono fun t pc' m' mem' hq => ⟨trivial, hq.2.1, hq.2.2.2.1, trivial⟩)
  exact ⟨F, m', mem', hs, fun fuel hf => (hrun fuel hf).1⟩

end Impl
end Ascon.Rv
