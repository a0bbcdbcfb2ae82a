import Verif.Props.Aead
import Verif.Props.Esp32
import Verif.Props.Neon
import Verif.Props.Masked
import Verif.Props.Rv
/-!
# C69: every device understands every other

Sender and receiver may be different machines: different implementation, byte order, register contents, memory layout,
random masks.  `Sends d K N A P C`: in some call of `crypto_aead_encrypt` on device `d` that meets the contract of the
implementation, with key `K`, nonce `N`, associated data `A` and message `P`, the function returned 0 and left the
`P.length + 16` bytes `C` in the output buffer.  `Gets d K N A C r Q`: in some such call of `crypto_aead_decrypt` on the
received bytes `C` it returned `r` and left the `C.length - 16` bytes `Q` in the output buffer.
-/

namespace Ascon.Props

open Ascon Ascon.Spec Ascon.C Ascon.C.Prog Ascon.Impl
open Ascon.Masked (U32)

attribute [local irreducible] perm

/-- The devices whose AEAD is modelled and is Ascon-AEAD128 (asm_esp32 and the rv32b files are Ascon-128a of v1.2, see C57
and C60). -/
inductive Device where
  | std (i : Aead) (e : Endian)
  | esp32 (longBits : Nat) (e : Endian)
  | neon
  | masked
  | rv32i

/-- See the head of the file. -/
inductive Sends : Device → (K N A P C : List Byte) → Prop
  | std {i e K N A P C mem mem' sp c clen m ad nsec npub k} (hi : Aead.runsOn i e)
      (pre : EncPre mem sp c clen m ad npub k K N A P)
      (hrun : run (i.encrypt e sp c clen m P.length ad A.length nsec npub k) mem = some (0, mem'))
      (hl : C.length = P.length + 16) (out : mem'.Holds c C) : Sends (.std i e) K N A P C
  | esp32 {lw e K N A P C mem mem' sp c clen m ad nsec npub k} (pre : EncPre mem sp c clen m ad npub k K N A P)
      (hA : A.length < 2 ^ lw) (hP : P.length < 2 ^ lw)
      (hrun : run (Esp32.crypto_aead_encrypt 1 lw e sp c clen m P.length ad A.length nsec npub k) mem = some (0, mem'))
      (hl : C.length = P.length + 16) (out : mem'.Holds c C) : Sends (.esp32 lw e) K N A P C
  | neon {regs : Nat → Word} {fuel K N A P C mem mem' sp c clen m ad npub k} (pre : EncPre mem sp c clen m ad npub k K N A P)
      (hA : A.length < 2 ^ 32) (hP : P.length < 2 ^ 32)
      (haA : 16 ≤ A.length → ad % 4 = 0) (haP : 16 ≤ P.length → m % 4 = 0 ∧ c % 4 = 0)
      (hf : A.length < fuel ∧ P.length < fuel)
      (hrun : run (Neon.crypto_aead_encrypt fuel .little regs c clen m P.length ad A.length npub k) mem = some (0, mem'))
      (hl : C.length = P.length + 16) (out : mem'.Holds c C) : Sends .neon K N A P C
  | masked {ρ : Nat → Word} {h K N A P C mem mem' c clen m ad npub k} (pre : Masked.EncPre mem h c clen m ad npub k K N A P)
      (hrun : run (Masked.crypto_aead_encrypt ρ h .little c clen m P.length ad A.length npub k) mem = some (0, mem'))
      (hl : C.length = P.length + 16) (out : mem'.Holds c C) : Sends .masked K N A P C
  | rv32i {base : U32} {regs : Rv.Regs} {F K N A P C mem mem' S sp' c clen m ad npub k}
      (pre : EncPre mem sp' c clen m ad npub k K N A P)
      (ok : Rv.rv32i.EncOk base regs mem S c clen m ad npub k A.length P.length)
      (hrun : ∀ fuel, F ≤ fuel → run (Rv.crypto_aead_encrypt Rv.rv32i_code Rv.rv32i_L_ascon_core base regs fuel c clen m
        P.length ad A.length npub k) mem = some (0, mem'))
      (hl : C.length = P.length + 16) (out : mem'.Holds c C) : Sends .rv32i K N A P C

/-- See the head of the file. -/
inductive Gets : Device → (K N A C : List Byte) → Int → (Q : List Byte) → Prop
  | std {i e K N A C Q mem mem' sp m mlen nsec c ad npub k r} (hi : Aead.runsOn i e)
      (pre : DecPre mem sp m mlen c ad npub k K N A C)
      (hrun : run (i.decrypt e sp m mlen nsec c C.length ad A.length npub k) mem = some (r, mem'))
      (hl : Q.length = C.length - 16) (out : mem'.Holds m Q) : Gets (.std i e) K N A C r Q
  | esp32 {lw e K N A C Q mem mem' sp m mlen nsec c ad npub k r} (pre : DecPre mem sp m mlen c ad npub k K N A C)
      (hA : A.length < 2 ^ lw) (hC : C.length - 16 < 2 ^ lw)
      (hd : Disjoint m ((C.length - 16) % 16) c ((C.length - 16) % 16))
      (hrun : run (Esp32.crypto_aead_decrypt 1 lw e sp m mlen nsec c C.length ad A.length npub k) mem = some (r, mem'))
      (hl : Q.length = C.length - 16) (out : mem'.Holds m Q) : Gets (.esp32 lw e) K N A C r Q
  | neon {regs : Nat → Word} {fuel K N A C Q mem mem' sp m mlen c ad npub k r} (pre : DecPre mem sp m mlen c ad npub k K N A C)
      (hA : A.length < 2 ^ 32) (hC : C.length - 16 < 2 ^ 32)
      (haA : 16 ≤ A.length → ad % 4 = 0) (haC : 32 ≤ C.length → c % 4 = 0 ∧ m % 4 = 0)
      (hf : A.length < fuel ∧ C.length < fuel)
      (hrun : run (Neon.crypto_aead_decrypt fuel .little regs m mlen c C.length ad A.length npub k) mem = some (r, mem'))
      (hl : Q.length = C.length - 16) (out : mem'.Holds m Q) : Gets .neon K N A C r Q
  | masked {ρ : Nat → Word} {h K N A C Q mem mem' m mlen c ad npub k r} (pre : Masked.DecPre mem h m mlen c ad npub k K N A C)
      (hrun : run (Masked.crypto_aead_decrypt ρ h .little m mlen c C.length ad A.length npub k) mem = some (r, mem'))
      (hl : Q.length = C.length - 16) (out : mem'.Holds m Q) : Gets .masked K N A C r Q
  | rv32i {base : U32} {regs : Rv.Regs} {F K N A C Q mem mem' S sp' m mlen c ad npub k r}
      (pre : DecPre mem sp' m mlen c ad npub k K N A C)
      (ok : Rv.rv32i.DecOk base regs mem S m mlen c ad npub k A.length (C.length - 16))
      (hd : Disjoint m ((C.length - 16) % 16) c ((C.length - 16) % 16))
      (hrun : ∀ fuel, F ≤ fuel → run (Rv.crypto_aead_decrypt Rv.rv32i_code Rv.rv32i_L_ascon_core base regs fuel m mlen c
        C.length ad A.length npub k) mem = some (r, mem'))
      (hl : Q.length = C.length - 16) (out : mem'.Holds m Q) : Gets .rv32i K N A C r Q

theorem holds_unique {mem : Mem} {p : Nat} {a b : List Byte} (ha : mem.Holds p a) (hb : mem.Holds p b)
    (hl : a.length = b.length) : a = b := by
  apply List.ext_getElem hl
  intro i h1 h2
  have e1 := ha i h1
  have e2 := hb i h2
  rw [e1] at e2
  exact Option.some.inj e2

theorem some_pair {r r' : Int} {m m' : Mem} {o : Option (Int × Mem)} (h : o = some (r, m)) (h' : o = some (r', m')) :
    r = r' ∧ m = m' := by
  rw [h] at h'
  injection h' with h'
  injection h' with h1 h2
  exact ⟨h1, h2⟩

theorem sent_eq {d : Device} {K N A P C : List Byte} (h : Sends d K N A P C) : C = aeadEncrypt K N A P := by
  cases h with
  | std hi pre hrun hl out =>
    obtain ⟨_, rfl⟩ := some_pair hrun (Aead.encrypt_correct _ _ hi _ _ _ _ _ _ _ _ _ K N A P pre)
    exact holds_unique out (encPost_holds _ pre) (by rw [hl, length_aeadEncrypt])
  | esp32 pre hA hP hrun hl out =>
    obtain ⟨_, rfl⟩ := some_pair hrun (Esp32.C36_esp32_encrypt _ _ _ _ _ _ _ _ _ _ _ K N A P pre hA hP)
    exact holds_unique out (encPost_holds _ pre) (by rw [hl, length_aeadEncrypt])
  | neon pre hA hP haA haP hf hrun hl out =>
    obtain ⟨_, rfl⟩ := some_pair hrun (Neon.C44_neon_encrypt _ _ _ _ _ _ _ _ _ _ K N A P pre hA hP haA haP hf)
    exact holds_unique out (encPost_holds _ pre) (by rw [hl, length_aeadEncrypt])
  | masked pre hrun hl out =>
    obtain ⟨_, rfl⟩ := some_pair hrun (Masked.C33_encrypt_masked_correct _ _ _ _ _ _ _ _ _ K N A P pre)
    exact holds_unique out (holds_writes_self _ _ _) (by rw [hl, length_aeadEncrypt])
  | @rv32i base regs F _ _ _ _ _ mem mem' S sp' c clen m ad npub k pre ok hrun hl out =>
    obtain ⟨F', mem2, hout, hr⟩ := Rv.C51_rv32i_encrypt base regs mem S sp' c clen m ad npub k K N A P pre ok
    obtain ⟨_, rfl⟩ := some_pair (hrun (max F F') (by omega)) (hr (max F F') (by omega))
    have hh : mem'.Holds c (aeadEncrypt K N A P) := by
      have h0 := encPost_holds .little pre
      intro j hj
      have hf := ok.cFrame
      rw [length_aeadEncrypt] at hj
      unfold Disjoint at hf
      rw [hout _ (by omega)]
      exact h0 j (by rw [length_aeadEncrypt]; exact hj)
    exact holds_unique out hh (by rw [hl, length_aeadEncrypt])

theorem got_eq {d : Device} {K N A P Q : List Byte} {r : Int} (h : Gets d K N A (aeadEncrypt K N A P) r Q) :
    r = 0 ∧ Q = P := by
  obtain ⟨g1, g2⟩ := Rv.genuine K N A P
  have hl0 := length_aeadEncrypt K N A P
  generalize hC : aeadEncrypt K N A P = C at h g1 g2 hl0
  have key : ∀ (e : Endian) (mem : Mem) (m mlen : Nat), (decPost e mem m mlen K N A C).Holds m P := by
    intro e mem m mlen
    have h1 : (decPost e mem m mlen K N A C).Holds m (aeadCandidate K N A (ctBody C)) := decPost_holds e
    rwa [g2] at h1
  cases h with
  | std hi pre hrun hl out =>
    obtain ⟨h1, rfl⟩ := some_pair hrun (Aead.decrypt_correct _ _ hi _ _ _ _ _ _ _ _ _ K N A C pre)
    exact ⟨h1.trans (if_pos g1), holds_unique out (key _ _ _ _) (by omega)⟩
  | esp32 pre hA hP hd hrun hl out =>
    obtain ⟨h1, rfl⟩ := some_pair hrun (Esp32.C36_esp32_decrypt _ _ _ _ _ _ _ _ _ _ _ K N A C pre hA hP hd)
    exact ⟨h1.trans (if_pos g1), holds_unique out (key _ _ _ _) (by omega)⟩
  | neon pre hA hP haA haP hf hrun hl out =>
    obtain ⟨h1, rfl⟩ := some_pair hrun (Neon.C44_neon_decrypt _ _ _ _ _ _ _ _ _ _ K N A C pre hA hP haA haP hf)
    exact ⟨h1.trans (if_pos g1), holds_unique out (key _ _ _ _) (by omega)⟩
  | @masked ρ h _ _ _ _ _ mem mem' m mlen c ad npub k r pre hrun hl out =>
    subst hC
    have := Masked.C33_decrypt_masked_genuine ρ h mem m mlen c ad npub k K N A P pre
    rw [← hl0] at this
    obtain ⟨h1, rfl⟩ := some_pair hrun this
    exact ⟨h1, holds_unique out (holds_writes_self _ _ _) (by omega)⟩
  | @rv32i base regs F _ _ _ _ _ mem mem' S sp' m mlen c ad npub k r pre ok hd hrun hl out =>
    subst hC
    have e : (aeadEncrypt K N A P).length - 16 = P.length := by omega
    rw [e] at ok hd
    obtain ⟨F', mem2, hout, hr⟩ := Rv.C52_rv32i_accepts_genuine base regs mem S sp' m mlen c ad npub k K N A P pre ok hd
    have h2 := hr (max F F') (by omega)
    rw [← hl0] at h2
    obtain ⟨h1, rfl⟩ := some_pair (hrun (max F F') (by omega)) h2
    exact ⟨h1, holds_unique out hout (by omega)⟩

/-- **C69** Whatever device encrypted the message and whatever device decrypts it: the receiver returns 0 and has the
message. -/
theorem C69_interoperate (d d' : Device) (K N A P C Q : List Byte) (r : Int) (hs : Sends d K N A P C)
    (hg : Gets d' K N A C r Q) : r = 0 ∧ Q = P := by
  rw [sent_eq hs] at hg
  exact got_eq hg

/-- **C69** All devices send the same bytes. -/
theorem C69_same_ciphertext (d d' : Device) (K N A P C C' : List Byte) (h : Sends d K N A P C) (h' : Sends d' K N A P C') :
    C = C' := (sent_eq h).trans (sent_eq h').symm

/-- **C69** Two different messages never give the same bytes under the same key, nonce and associated data, even on
different devices. -/
theorem C69_injective (d d' : Device) (K N A P P' C : List Byte) (h : Sends d K N A P C) (h' : Sends d' K N A P' C) :
    P = P' := by
  have h1 := aeadDecrypt_aeadEncrypt K N A P
  rw [← sent_eq h, sent_eq h', aeadDecrypt_aeadEncrypt] at h1
  exact (Option.some.inj h1).symm

/-! ### The hypotheses can be met: a message sent by every kind of device, and received -/

example (i : Aead) (hi : i.runsOn .little) : ∃ C, Sends (.std i .little) Demo.K Demo.N Demo.A Demo.P C :=
  ⟨_, .std hi Demo.encPre (Aead.encrypt_correct i .little hi _ _ _ _ _ _ 0 _ _ _ _ _ _ Demo.encPre)
    (length_aeadEncrypt _ _ _ _) (encPost_holds _ Demo.encPre)⟩

example (e : Endian) : ∃ C, Sends (.esp32 32 e) Demo.K Demo.N Demo.A Demo.P C :=
  ⟨_, .esp32 Demo.encPre (by decide) (by decide)
    (Esp32.C36_esp32_encrypt 32 e _ _ _ _ _ _ 0 _ _ _ _ _ _ Demo.encPre (by decide) (by decide))
    (length_aeadEncrypt _ _ _ _) (encPost_holds _ Demo.encPre)⟩

example : ∃ C, Sends .neon Demo.K Demo.N Demo.A Demo.P C :=
  ⟨_, .neon (regs := fun _ => 7) (fuel := 100) Demo.encPre (by decide) (by decide) (by decide) (by decide) (by decide)
    (Neon.C44_neon_encrypt _ _ _ _ _ _ _ _ _ _ _ _ _ _ Demo.encPre (by decide) (by decide) (by decide) (by decide) (by decide))
    (length_aeadEncrypt _ _ _ _) (encPost_holds _ Demo.encPre)⟩

example (ρ : Nat → Word) : ∃ C, Sends .masked Demo.K Demo.N Demo.A Demo.P C :=
  ⟨_, .masked (ρ := ρ) Masked.demoEnc (Masked.C33_encrypt_masked_correct ρ _ _ _ _ _ _ _ _ _ _ _ _ Masked.demoEnc)
    (length_aeadEncrypt _ _ _ _) (holds_writes_self _ _ _)⟩

example : ∃ C, Sends .rv32i Demo.K Demo.N Demo.A Demo.P C := by
  obtain ⟨F, mem', hout, hr⟩ := Rv.C51_rv32i_encrypt _ _ _ 2000 _ _ _ _ _ _ _ _ _ _ _ Rv.RvDemo.encPre Rv.RvDemo.encOk
  refine ⟨aeadEncrypt Demo.K Demo.N Demo.A Demo.P, .rv32i Rv.RvDemo.encPre Rv.RvDemo.encOk hr (length_aeadEncrypt _ _ _ _) ?_⟩
  intro j hj
  rw [length_aeadEncrypt] at hj
  have h20 : Demo.P.length = 20 := rfl
  rw [hout _ (by omega)]
  exact encPost_holds .little Rv.RvDemo.encPre j (by rw [length_aeadEncrypt]; exact hj)

/-- An AVR sends, a big-endian host and a masked ARM receive. -/
example (C : List Byte) (hs : Sends (.std .avr .little) Demo.K Demo.N Demo.A Demo.P C) (ρ : Nat → Word) :
    (∃ r Q, Gets .masked Demo.K Demo.N Demo.A C r Q) ∧ ∀ Q r, Gets (.std .ref .big) Demo.K Demo.N Demo.A C r Q →
      r = 0 ∧ Q = Demo.P := by
  refine ⟨?_, fun Q r hg => C69_interoperate _ _ _ _ _ _ _ _ _ hs hg⟩
  have hC := sent_eq hs
  have hl : C.length = 36 := by rw [hC, length_aeadEncrypt]; rfl
  have pre := Masked.demoReceived C hl
  subst hC
  have hr := Masked.C33_decrypt_masked_genuine ρ _ _ _ _ _ _ _ _ _ _ _ _ pre
  rw [← length_aeadEncrypt Demo.K Demo.N Demo.A Demo.P] at hr
  exact ⟨_, _, .masked pre hr (by rw [length_aeadEncrypt]; rfl) (holds_writes_self _ _ _)⟩

end Ascon.Props
