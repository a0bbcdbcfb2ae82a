import Verif.Model.LowAlign
import Verif.Props.Aead
/-!
# C76: the lowsize implementations and the alignment of their tag array
-/

namespace Ascon.Low

open Ascon.Spec Ascon.C Ascon.Gen
open Ascon.C.Prog (require ifc store64)

attribute [local irreducible] perm

theorem run_bind_none {α β : Type} {p : Prog α} {f : α → Prog β} (h : ∀ a m, run (f a) m = none) (mem : Mem) :
    run (p >>= f) mem = none := by
  rw [run_bind]
  cases run p mem with
  | none => rfl
  | some r => exact h r.1 r.2

theorem store64A_aligned {al : Nat} {e : Endian} {p : Nat} {w : Word} (h : p % al = 0) : store64A al e p w = store64 e p w := by
  unfold store64A
  rw [require, if_pos (by simpa using h)]
  rfl

theorem run_store64A_misaligned {al : Nat} {e : Endian} {p : Nat} {w : Word} (h : p % al ≠ 0) (mem : Mem) :
    run (store64A al e p w) mem = none := by
  unfold store64A
  rw [require, if_neg (by simpa using h)]
  rfl

theorem ascon_aeadA_aligned {al : Nat} (hal : al ∣ 8) {B : Backend} {e : Endian} {comb : Bool}
    {sp tag out inp inlen ad adlen npub k mode : Nat} (h : sp % al = 0) :
    ascon_aeadA al B e comb sp tag out inp inlen ad adlen npub k mode =
      ascon_aead B e comb sp tag out inp inlen ad adlen npub k mode := by
  have h8 : (sp + 8) % al = 0 := by
    obtain ⟨q, hq⟩ := hal
    rw [hq, Nat.add_mul_mod_self_left]; exact h
  unfold ascon_aeadA ascon_aead
  simp only [store64A_aligned h, store64A_aligned h8]

theorem run_ascon_aeadA_misaligned {al : Nat} {B : Backend} {e : Endian} {comb : Bool}
    {sp tag out inp inlen ad adlen npub k mode : Nat} (h : sp % al ≠ 0) (mem : Mem) :
    run (ascon_aeadA al B e comb sp tag out inp inlen ad adlen npub k mode) mem = none := by
  unfold ascon_aeadA
  refine run_bind_none (fun _ m => ?_) mem
  refine run_bind_none (fun _ m => ?_) m
  refine run_bind_none (fun _ m => ?_) m
  refine run_bind_none (fun _ m => ?_) m
  refine run_bind_none (fun _ m => ?_) m
  refine run_bind_none (fun _ m => ?_) m
  rw [run_bind, run_store64A_misaligned h]
  rfl

end Ascon.Low

namespace Ascon.Impl

open Ascon.Spec Ascon.C Ascon.Low

attribute [local irreducible] perm

/-- **C76** If the compiler puts the tag array of src/lowsize/aead.c at an aligned address, encryption computes Ascon-AEAD128
also on targets that require alignment. -/
theorem C76_lowsize_encrypt_aligned (i : LowAead) (comb : Bool) (al : Nat) (hal : al ∣ 8) (e : Endian) (h : i.core.runsOn e)
    (mem : Mem) (sp c clen m ad nsec npub k : Nat) (K N A P : List Byte) (pre : EncPre mem sp c clen m ad npub k K N A P)
    (hs : sp % al = 0) :
    run (i.encryptA comb al e sp c clen m P.length ad A.length nsec npub k) mem = some (0, encPost e mem c clen K N A P) := by
  have e1 : i.encryptA comb al e sp c clen m P.length ad A.length nsec npub k =
      Low.crypto_aead_encrypt i.core.backend comb e sp c clen m P.length ad A.length nsec npub k := by
    unfold LowAead.encryptA crypto_aead_encryptA crypto_aead_encrypt
    simp only [ascon_aeadA_aligned hal hs]
  rw [e1]
  exact Low.enc_correct (i.core.ok e h) comb mem sp c clen m ad nsec npub k K N A P pre

/-- The same for decryption. -/
theorem C76_lowsize_decrypt_aligned (i : LowAead) (comb : Bool) (al : Nat) (hal : al ∣ 8) (e : Endian) (h : i.core.runsOn e)
    (mem : Mem) (sp m mlen nsec c ad npub k : Nat) (K N A C : List Byte) (pre : DecPre mem sp m mlen c ad npub k K N A C)
    (hs : sp % al = 0) :
    run (i.decryptA comb al e sp m mlen nsec c C.length ad A.length npub k) mem =
      some (if ctTag C = aeadDecTag K N A (ctBody C) then 0 else -1, decPost e mem m mlen K N A C) := by
  have e1 : i.decryptA comb al e sp m mlen nsec c C.length ad A.length npub k =
      Low.crypto_aead_decrypt i.core.backend comb e sp m mlen nsec c C.length ad A.length npub k := by
    unfold LowAead.decryptA crypto_aead_decryptA crypto_aead_decrypt
    simp only [ascon_aeadA_aligned hal hs]
  rw [e1]
  exact Low.dec_correct (i.core.ok e h) comb mem sp m mlen nsec c ad npub k K N A C pre

/-- If the compiler puts the array anywhere else, no call of `crypto_aead_encrypt` has defined behaviour, whatever the caller
passes. -/
theorem C76_lowsize_encrypt_misaligned (i : LowAead) (comb : Bool) (al : Nat) (e : Endian) (mem : Mem)
    (sp c clen m mlen ad adlen nsec npub k : Nat) (hs : sp % al ≠ 0) :
    run (i.encryptA comb al e sp c clen m mlen ad adlen nsec npub k) mem = none := by
  unfold LowAead.encryptA crypto_aead_encryptA
  exact run_bind_none (fun _ m => run_ascon_aeadA_misaligned hs m) mem

/-- No call of `crypto_aead_decrypt` with at least 16 bytes either. -/
theorem C76_lowsize_decrypt_misaligned (i : LowAead) (comb : Bool) (al : Nat) (e : Endian) (mem : Mem)
    (sp m mlen nsec c clen ad adlen npub k : Nat) (h16 : 16 ≤ clen) (hs : sp % al ≠ 0) :
    run (i.decryptA comb al e sp m mlen nsec c clen ad adlen npub k) mem = none := by
  unfold LowAead.decryptA crypto_aead_decryptA
  rw [run_ifc, if_neg (by simpa using h16)]
  exact run_bind_none (fun _ m => run_ascon_aeadA_misaligned hs m) mem

/-- The registry models these directories with `al = 1`. -/
theorem C76_lowsize_no_requirement (i : LowAead) (e : Endian) (sp c clen m mlen ad adlen nsec npub k : Nat) :
    (match i with
      | .opt64_lowsize => Aead.opt64_lowsize | .opt32_lowsize => .opt32_lowsize | .bi32_lowsize => .bi32_lowsize
      | .armv6_lowsize => .armv6_lowsize | .armv6m_lowsize => .armv6m_lowsize | .armv7m_lowsize => .armv7m_lowsize).encrypt
        e sp c clen m mlen ad adlen nsec npub k = i.encryptA false 1 e sp c clen m mlen ad adlen nsec npub k := by
  have e1 : i.encryptA false 1 e sp c clen m mlen ad adlen nsec npub k =
      Low.crypto_aead_encrypt i.core.backend false e sp c clen m mlen ad adlen nsec npub k := by
    unfold LowAead.encryptA crypto_aead_encryptA crypto_aead_encrypt
    simp only [ascon_aeadA_aligned (Nat.one_dvd 8) (Nat.mod_one sp)]
  rw [e1]
  cases i <;> rfl

/-- A valid call with the array at 1000 is fine for an alignment requirement of 8; a valid call with the array at 1001 is
undefined on any target with a requirement. -/
example : run (LowAead.armv6m_lowsize.encryptA false 8 .little 1000 200 300 100 Demo.P.length 32 Demo.A.length 0 16 0) Demo.mem =
    some (0, encPost .little Demo.mem 200 300 Demo.K Demo.N Demo.A Demo.P) :=
  C76_lowsize_encrypt_aligned .armv6m_lowsize false 8 (by decide) .little rfl _ _ _ _ _ _ _ _ _ _ _ _ _ Demo.encPre (by decide)

example : EncPre Demo.mem 1001 200 300 100 32 16 0 Demo.K Demo.N Demo.A Demo.P ∧
    run (LowAead.armv6m_lowsize.encryptA false 4 .little 1001 200 300 100 Demo.P.length 32 Demo.A.length 0 16 0) Demo.mem = none :=
  ⟨{ Demo.encPre with stack := by unfold Mem.Free; decide +kernel },
    C76_lowsize_encrypt_misaligned _ _ _ _ _ _ _ _ _ _ _ _ _ _ _ (by decide)⟩

end Ascon.Impl
