import Verif.Proof.RvFault
import Verif.Props.Rv
/-!
# C56: where the RISC-V implementation does not work

asm_rv32i accesses its buffers with `lw` and `sw`, which may fault on misaligned addresses, and compares lengths as signed
32-bit numbers.  The API has neither restriction (`unsigned char*`, `unsigned long long`).
-/

namespace Ascon.Rv

open Ascon.C Ascon.Spec Ascon.Asm
open Ascon.C.Prog (require ifc store64 load64)
open Ascon.Masked (U32 repr32)
open Impl (set_ne set_eq)

attribute [local irreducible] perm

theorem core_none {base : U32} {regs : Regs} {mem : Mem} {fuel out inp inlen ad adlen np k : Nat} {mode : Byte}
    (h : Ends rv32i_code base 200 (setArgs regs out inp inlen ad adlen np k mode) mem no) :
    run (ascon_core rv32i_code rv32i_L_ascon_core base regs fuel out inp inlen ad adlen np k mode) mem = none := by
  unfold ascon_core
  rw [run_bind]
  cases hr : run (go rv32i_code base fuel rv32i_L_ascon_core (setArgs regs out inp inlen ad adlen np k mode)) mem with
  | none => rfl
  | some r => exact (h fuel r.1 r.2 hr).elim

theorem enc_none {base : U32} {regs : Regs} {mem : Mem} {fuel c clen m mlen ad adlen npub k : Nat}
    (h : ∀ mem', run (store64 .little clen (BitVec.ofNat 64 (mlen + 16))) mem = some ((), mem') →
      Ends rv32i_code base 200 (setArgs regs c m mlen ad adlen npub k 1) mem' no) :
    run (crypto_aead_encrypt rv32i_code rv32i_L_ascon_core base regs fuel c clen m mlen ad adlen npub k) mem = none := by
  unfold crypto_aead_encrypt
  rw [run_bind]
  cases hs : run (store64 .little clen (BitVec.ofNat 64 (mlen + 16))) mem with
  | none => rfl
  | some r =>
    rw [Option.bind_some, run_bind, core_none (h r.2 hs)]
    rfl

theorem dec_none {base : U32} {regs : Regs} {mem : Mem} {fuel m mlen c clen ad adlen npub k : Nat} (h16 : 16 ≤ clen)
    (h : ∀ mem' mem'' (w : Word), run (store64 .little mlen (BitVec.ofNat 64 (clen - 16))) mem = some ((), mem') →
      run (load64 .little mlen) mem' = some (w, mem'') →
      Ends rv32i_code base 200 (setArgs regs m c w.toNat ad adlen npub k (-1)) mem'' no) :
    run (crypto_aead_decrypt rv32i_code rv32i_L_ascon_core base regs fuel m mlen c clen ad adlen npub k) mem = none := by
  unfold crypto_aead_decrypt ifc
  rw [decide_eq_false (by omega)]
  simp only [run, Bool.false_eq_true, if_false]
  rw [run_bind]
  cases hs : run (store64 .little mlen (BitVec.ofNat 64 (clen - 16))) mem with
  | none => rfl
  | some r =>
    rw [Option.bind_some, run_bind]
    cases hl : run (load64 .little mlen) r.2 with
    | none => rfl
    | some q =>
      rw [Option.bind_some, run_bind, core_none (h r.2 q.2 q.1 hs hl)]
      rfl

/-- **C56** If the nonce or the key is not at a word boundary, no call succeeds: whatever the memory, the registers, the lengths
and the number of steps, the execution faults. -/
theorem C56_unaligned_nonce_or_key (base : U32) (regs : Regs) (mem : Mem) (fuel c clen m mlen ad adlen npub k : Nat)
    (h : npub % 4 ≠ 0 ∨ k % 4 ≠ 0) :
    run (crypto_aead_encrypt rv32i_code rv32i_L_ascon_core base regs fuel c clen m mlen ad adlen npub k) mem = none ∧
    (16 ≤ clen →
      run (crypto_aead_decrypt rv32i_code rv32i_L_ascon_core base regs fuel m mlen c clen ad adlen npub k) mem = none) := by
  have key : ∀ (out inp inlen : Nat) (mode : Byte) (mem : Mem),
      Ends rv32i_code base 200 (setArgs regs out inp inlen ad adlen npub k mode) mem no := by
    intro out inp inlen mode mem
    rcases h with h | h
    · exact Rv32i.bad_nonce _ _ npub (by simp (disch := decide) only [setArgs, set_eq, set_ne]) h
    · exact Rv32i.bad_key _ _ k (by simp (disch := decide) only [setArgs, set_eq, set_ne]) h
  exact ⟨enc_none fun mem' _ => key _ _ _ _ _, fun h16 => dec_none h16 fun _ _ _ _ _ => key _ _ _ _ _⟩

/-- The conditions of `EncOk` that remain without those on alignment and length. -/
structure EncFits (base : U32) (regs : Regs) (mem : Mem) (S c clen ad npub k an mn : Nat) : Prop where
  call : CallOk rv32i base regs mem S
  bN : BufOk S npub 16
  bK : BufOk S k 16
  aEnd : ad + an ≤ 2 ^ 32
  aFrame : Disjoint S 80 ad an
  frame : Disjoint S 80 clen 8
  cEnd : c + mn + 16 ≤ 2 ^ 32
  cFrame : Disjoint S 80 c (mn + 16)

variable {base : U32} {regs : Regs} {mem : Mem} {S sp' c clen m ad npub k : Nat} {K N A P : List Byte}

theorem start_of (h : EncPre mem sp' c clen m ad npub k K N A P) (hm : EncFits base regs mem S c clen ad npub k A.length P.length)
    (hA : A.length < 2 ^ 31) (hal : 16 ≤ A.length → ad % 4 = 0) :
    rv32i.Start .enc (setArgs regs c m P.length ad A.length npub k 1)
      (mem.writes clen (repr64 .little (BitVec.ofNat 64 (P.length + 16)))) ad A npub N k K S := by
  have hl : (repr64 .little (BitVec.ofNat 64 (P.length + 16))).length = 8 := Ref.length_repr64 _ _
  have hc1 : CallOk rv32i base regs (mem.writes clen (repr64 .little (BitVec.ofNat 64 (P.length + 16)))) S :=
    Impl.CallOk.writes hm.call (by exact Or.inr (Or.inl rfl))
  exact {
    stk := hc1.stk
    modeR := rfl
    aptr := rfl
    apAl := hal
    apEnd := hm.aEnd
    apH := h.adata.writes_disjoint (by rw [hl]; exact h.sepAd)
    alen := rfl
    alt := hA
    nptr := rfl
    npAl := hm.bN.al (by omega)
    npEnd := hm.bN.fits
    npH := h.nonce.writes_disjoint (by rw [hl, h.nonceLen]; exact h.sepNonce)
    npL := h.nonceLen
    kptr := rfl
    kpAl := hm.bK.al (by omega)
    kpEnd := hm.bK.fits
    kpH := h.key.writes_disjoint (by rw [hl, h.keyLen]; exact h.sepKey)
    kpL := h.keyLen
    spR := hc1.spR
    spAl := hc1.spAl
    spEnd := hc1.spEnd
    spW := hc1.spW
    dA := hm.aFrame
    dN := hm.bN.frame
    dK := hm.bK.frame
    rom := hc1.rom
    dR := hc1.dR }

/-- **C56** Nor does encryption succeed if the associated data, the message or the ciphertext is not at a word boundary, as soon
as it has 16 bytes (C51: with less than 16 bytes it works at any address). -/
theorem C56_unaligned_buffers (fuel : Nat) (h : EncPre mem sp' c clen m ad npub k K N A P)
    (hm : EncFits base regs mem S c clen ad npub k A.length P.length) (hA : A.length < 2 ^ 31) (hP : P.length < 2 ^ 31)
    (hbad : (16 ≤ A.length ∧ ad % 4 ≠ 0) ∨ (16 ≤ P.length ∧ (m % 4 ≠ 0 ∨ c % 4 ≠ 0))) :
    run (crypto_aead_encrypt rv32i_code rv32i_L_ascon_core base regs fuel c clen m P.length ad A.length npub k) mem = none := by
  have hl : (repr64 .little (BitVec.ofNat 64 (P.length + 16))).length = 8 := Ref.length_repr64 _ _
  refine enc_none fun mem' hs => ?_
  rw [Ref.run_store64 h.outLen] at hs
  cases hs
  by_cases hba : 16 ≤ A.length ∧ ad % 4 ≠ 0
  · have hs := start_of (A := []) (m := m) (P := P)
      { h with adata := Mem.Holds.nil _ _, adLen := by decide, sepAd := Or.inr (Or.inl rfl) }
      { hm with aEnd := by have := hm.aEnd; simp; omega, aFrame := Or.inr (Or.inl rfl) } (by decide) (fun e => absurd e (by decide))
    exact Rv32i.bad_ad _ _ .enc S npub k ad A.length K N hs.stk hs.spR hs.spAl hs.spEnd hs.spW rfl hs.npAl hs.npEnd hs.npH
      hs.npL hs.dN rfl hs.kpAl hs.kpEnd hs.kpH hs.kpL hs.dK rfl rfl hba.2 rfl hba.1 hA
  · have hs := start_of h hm hA (fun h16 => Classical.byContradiction fun e => hba ⟨h16, e⟩)
    rcases hbad with hb | ⟨h16, hb⟩
    · exact absurd hb hba
    · rcases hb with hb | hb
      · exact Rv32i.bad_in hs m P.length rfl hb rfl h16 hP
      · exact Rv32i.bad_out hs (by decide) c P.length rfl hb rfl h16 hP

/-- **C56** A message of 2^31 to 2^32 - 1 bytes is not encrypted at all: the call returns 0 and has changed (outside of its
stack frame) only `*clen`, the 16 bytes of the tag – and the lowest bit of the byte at `S + mlen` modulo 2^32, which belongs to
something else (the call faults if there is none).  The ciphertext has not been written, and the tag does not depend on the
message. -/
theorem C56_huge_message (h : EncPre mem sp' c clen m ad npub k K N A P)
    (hm : EncFits base regs mem S c clen ad npub k A.length P.length) (hA : A.length < 2 ^ 31) (hal : 16 ≤ A.length → ad % 4 = 0)
    (hP1 : 2 ^ 31 ≤ P.length) (hP2 : P.length < 2 ^ 32) (b : Byte) (hb : mem ((S + P.length) % 2 ^ 32) = .val b) :
    ∃ F mem', mem'.Holds (c + P.length) (aeadTag K (aeadAd A (aeadInit K N))) ∧
      (∀ a, (a < S ∨ S + 80 ≤ a) → (a < clen ∨ clen + 8 ≤ a) → (a < c + P.length ∨ c + P.length + 16 ≤ a) →
        mem' a = if a = (S + P.length) % 2 ^ 32 then .val (b ^^^ 1) else mem a) ∧
      ∀ fuel, F ≤ fuel →
        run (crypto_aead_encrypt rv32i_code rv32i_L_ascon_core base regs fuel c clen m P.length ad A.length npub k) mem =
          some (0, mem') := by
  have hl : (repr64 .little (BitVec.ofNat 64 (P.length + 16))).length = 8 := Ref.length_repr64 _ _
  have hs := start_of h hm hA hal
  have htl : (aeadTag K (aeadAd A (aeadInit K N))).length = 16 := Ref.length_aeadTag _ _
  obtain ⟨b', hb', hbb⟩ : ∃ b' : Byte, (mem.writes clen (repr64 .little (BitVec.ofNat 64 (P.length + 16)))) ((S + P.length) % 2 ^ 32) =
      .val b' ∧ (((S + P.length) % 2 ^ 32 < clen ∨ clen + 8 ≤ (S + P.length) % 2 ^ 32) → b' = b) := by
    by_cases hp : clen ≤ (S + P.length) % 2 ^ 32 ∧ (S + P.length) % 2 ^ 32 < clen + 8
    · exact ⟨_, writes_in hp.1 (by omega), fun e => by omega⟩
    · exact ⟨b, by rw [writes_out (by omega)]; exact hb, fun _ => rfl⟩
  have hc1 : CallOk rv32i base regs (mem.writes clen (repr64 .little (BitVec.ofNat 64 (P.length + 16)))) S :=
    Impl.CallOk.writes hm.call (by exact Or.inr (Or.inl rfl))
  have hcore := Rv32i.core_huge (base := base) hP1 hP2 hs c rfl rfl hm.cEnd (h.out.writes.mono (by omega) (by omega))
    (by have := hm.cFrame; unfold Disjoint at *; omega) b' hb'
  obtain ⟨F, m', mem', t, -, -, ⟨h0, hmem⟩, hrun⟩ := Impl.call_of_goes (T := fun _ => True) (R := fun m' mem' => m'.r a0 = 0 ∧ _)
    rv32i_ok hc1 (hcore.mono fun t pc' m' mem' hq => ⟨trivial, hq.1, hq.2.1, hq.2.2⟩)
  have hd := hm.cFrame
  refine ⟨F, mem', ?_, ?_, fun fuel hf => ?_⟩
  · have : ((((mem.writes clen (repr64 .little (BitVec.ofNat 64 (P.length + 16)))).writes ((S + P.length) % 2 ^ 32) [b' ^^^ 1])).writes
      (c + P.length) (aeadTag K (aeadAd A (aeadInit K N)))).Holds (c + P.length) (aeadTag K (aeadAd A (aeadInit K N))) :=
      holds_writes_self _ _ _
    intro i hi
    rw [hmem _ (by unfold Disjoint at hd; omega)]
    exact this i hi
  · intro a ha1 ha2 ha3
    rw [hmem a ha1, writes_out (by omega)]
    by_cases hq : a = (S + P.length) % 2 ^ 32
    · rw [if_pos hq, ← hbb (by omega), ← hq, writes_in (Nat.le_refl _) (by simp)]; simp
    · rw [if_neg hq, writes_out (by simp; omega), writes_out (by omega)]
  · have h1 := (hrun fuel hf).1
    unfold crypto_aead_encrypt
    rw [run_bind, Ref.run_store64 h.outLen, Option.bind_some, run_bind]
    rw [show rv32i.code = rv32i_code from rfl, show rv32i.Lcore = rv32i_L_ascon_core from rfl] at h1
    rw [h1, Option.bind_some]
    show some ((m'.r a0).toInt, mem') = _
    rw [h0]; rfl

/-! ## Concrete situations -/

namespace RvDemo

/-- A legal call with the message at the odd address 101. -/
theorem encPreOdd : EncPre RvDemo.mem 1000 200 300 101 32 16 0 Demo.K Demo.N Demo.A (Demo.P.drop 1) := by
  constructor <;> first | decide +kernel | (unfold Mem.Holds; decide +kernel) |
    (unfold Mem.Writable; decide +kernel) | (unfold Mem.Free; decide +kernel) |
    (unfold Disjoint; decide +kernel)

theorem fitsOdd : EncFits 0x80000000 RvDemo.regs RvDemo.mem 2000 200 300 32 16 0 Demo.A.length (Demo.P.drop 1).length where
  call := callOk _ (by unfold Mem.Writable; decide +kernel)
  bN := buf _ _ (by decide) (by decide)
  bK := buf _ _ (by decide) (by decide)
  aEnd := by decide
  aFrame := by unfold Disjoint; decide
  frame := by unfold Disjoint; decide
  cEnd := by decide
  cFrame := by unfold Disjoint; decide

example (fuel : Nat) : run (crypto_aead_encrypt rv32i_code rv32i_L_ascon_core 0x80000000 RvDemo.regs fuel 200 300 101
    (Demo.P.drop 1).length 32 Demo.A.length 16 0) RvDemo.mem = none :=
  C56_unaligned_buffers fuel encPreOdd fitsOdd (by decide) (by decide) (Or.inr ⟨by decide, Or.inl (by decide)⟩)

/-- 2^32 zero bytes. -/
def zeros : Mem := fun a => if a < 2 ^ 32 then .val 0 else .unalloc

theorem zeros_holds (p n : Nat) (h : p + n ≤ 2 ^ 32) : zeros.Holds p (List.replicate n 0) := by
  intro i hi
  rw [List.length_replicate] at hi
  rw [List.getElem_replicate]
  show (if p + i < 2 ^ 32 then Cell.val 0 else .unalloc).byte = _
  rw [if_pos (by omega)]; rfl

theorem zeros_writable (p n : Nat) (h : p + n ≤ 2 ^ 32) : zeros.Writable p n := by
  intro i hi
  have : zeros (p + i) = .val 0 := if_pos (by omega)
  rw [this]; simp

/-- Registers at the call: a stack at 0xc0000000. -/
def regsH : Regs := { r := fun i => if i = Rv.sp then 0xc0000050 else 0x100, stk := [], z := false }

theorem encPreHuge : EncPre zeros (2 ^ 32) 1000 32 1000 40 16 0 (List.replicate 16 0) (List.replicate 16 0) []
    (List.replicate (2 ^ 31) 0) where
  key := zeros_holds _ _ (by decide)
  keyLen := rfl
  nonce := zeros_holds _ _ (by decide)
  nonceLen := rfl
  adata := Mem.Holds.nil _ _
  adLen := by decide
  msg := zeros_holds _ _ (by decide)
  msgLen := by rw [List.length_replicate]; decide
  out := zeros_writable _ _ (by rw [List.length_replicate]; decide)
  outLen := zeros_writable _ _ (by decide)
  sepKey := by unfold Disjoint; decide
  sepNonce := by unfold Disjoint; decide
  sepAd := Or.inr (Or.inl rfl)
  sepMsg := by rw [List.length_replicate]; unfold Disjoint; decide
  sepOut := by rw [List.length_replicate]; unfold Disjoint; decide
  overlap := Or.inl (Nat.le_refl _)
  stack := fun i _ => if_neg (by omega)

theorem fitsHuge : EncFits 0x80000000 regsH zeros 0xc0000000 1000 32 40 16 0 ([] : List Byte).length
    (List.replicate (2 ^ 31) (0 : Byte)).length where
  call := {
    stk := rfl
    spR := rfl
    spAl := rfl
    spEnd := by decide
    spW := zeros_writable _ _ (by decide)
    ret := by
      have h : (regsH.r ra - 0x80000000).toNat / 4 = 536870976 := by decide +kernel
      have hl : rv32i.code.length = 349 := Rv32i.len
      rw [hl, h]; omega
    rom := Mem.Holds.nil _ _
    dR := Or.inr (by decide) }
  bN := ⟨fun _ => rfl, by decide, by unfold Disjoint; decide⟩
  bK := ⟨fun _ => rfl, by decide, by unfold Disjoint; decide⟩
  aEnd := by decide
  aFrame := Or.inr (Or.inl rfl)
  frame := by unfold Disjoint; decide
  cEnd := by rw [List.length_replicate]; decide
  cFrame := by rw [List.length_replicate]; unfold Disjoint; decide

/-- Encryption in place of 2 GiB of zeros: the "ciphertext" is the plaintext, except for one bit at 2^30. -/
example : ∃ F mem', (∀ a, 1000 ≤ a → a < 1000 + 2 ^ 31 → a ≠ 2 ^ 30 → mem' a = .val 0) ∧ mem' (2 ^ 30) = .val 1 ∧ ∀ fuel, F ≤ fuel →
    run (crypto_aead_encrypt rv32i_code rv32i_L_ascon_core 0x80000000 regsH fuel 1000 32 1000
      (List.replicate (2 ^ 31) (0 : Byte)).length 40 ([] : List Byte).length 16 0) zeros = some (0, mem') := by
  obtain ⟨F, mem', -, h, hr⟩ := C56_huge_message encPreHuge fitsHuge (by decide) (fun e => absurd e (by decide))
    (by rw [List.length_replicate]; exact Nat.le_refl _) (by rw [List.length_replicate]; decide) 0 (if_pos (by omega))
  rw [List.length_replicate] at h
  refine ⟨F, mem', fun a h1 h2 h3 => ?_, ?_, hr⟩
  · rw [h a (by omega) (by omega) (by omega), if_neg (by omega)]
    exact if_pos (by omega)
  · rw [h (2 ^ 30) (by omega) (by omega) (by omega), if_pos (by decide)]
    rfl

end RvDemo

end Ascon.Rv
