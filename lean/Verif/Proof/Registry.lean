import Verif.Proof.ArmBackends
import Verif.Proof.ArmLow
import Verif.Proof.NeonPerm
import Verif.Proof.Opt8Hash
import Verif.Proof.Opt8Low
import Verif.Proof.Opt8CT
import Verif.Proof.AvrPerm
import Verif.Proof.Avx512CT
import Verif.Model.Registry
import Verif.Proof.RefAeadCT
import Verif.Proof.RefHashCT
import Verif.Proof.GenAead
import Verif.Proof.GenHash
import Verif.Proof.GenCT
import Verif.Proof.Backends
import Verif.Proof.LowAead
import Verif.Proof.LowCT
/-!
# Every registered implementation meets the contracts
-/

namespace Ascon.Impl

open Ascon.C Ascon.Spec Ascon.Gen

attribute [local irreducible] perm

/-! ## Backends -/

theorem Core.ok (c : Core) (e : Endian) (h : c.runsOn e) : c.backend.Ok e c.enc := by
  cases c <;> simp only [Core.runsOn] at h
  case opt64 => exact opt64_ok e
  case opt64_lowsize => exact opt64_lowsize_ok e
  case opt32 => exact opt32_ok e
  case opt32_lowsize => exact opt32_lowsize_ok e
  case bi32 => subst h; exact bi32_ok
  case bi32_lowreg => subst h; exact bi32_lowreg_ok
  case bi8 => subst h; exact bi8_ok
  case armv6 => subst h; exact Arm.armv6_ok
  case armv6_lowsize => subst h; exact Arm.armv6_lowsize_ok
  case armv6m => subst h; exact Arm.armv6m_ok
  case armv6m_lowsize => subst h; exact Arm.armv6m_lowsize_ok
  case armv7m => subst h; exact Arm.armv7m_ok
  case armv7m_small => subst h; exact Arm.armv7m_small_ok
  case bi32_armv6 => subst h; exact Arm.bi32_armv6_ok
  case bi32_armv6m => subst h; exact Arm.bi32_armv6m_ok
  case bi32_armv7m => subst h; exact Arm.bi32_armv7m_ok
  case bi32_armv7m_small => subst h; exact Arm.bi32_armv7m_small_ok
  case neon => exact Neon.backend_ok e

theorem Core.ct (c : Core) (e : Endian) : c.backend.CT e := by
  cases c
  case opt64 => exact opt64_ct e
  case opt64_lowsize => exact opt64_lowsize_ct e
  case opt32 => exact opt32_ct e
  case opt32_lowsize => exact opt32_lowsize_ct e
  case bi32 => exact bi32_ct e
  case bi32_lowreg => exact bi32_lowreg_ct e
  case bi8 => exact bi8_ct e
  case armv6 => exact Arm.armv6_ct e
  case armv6_lowsize => exact Arm.armv6_lowsize_ct e
  case armv6m => exact Arm.armv6m_ct e
  case armv6m_lowsize => exact Arm.armv6m_lowsize_ct e
  case armv7m => exact Arm.armv7m_ct e
  case armv7m_small => exact Arm.armv7m_small_ct e
  case bi32_armv6 => exact Arm.bi32_armv6_ct e
  case bi32_armv6m => exact Arm.bi32_armv6m_ct e
  case bi32_armv7m => exact Arm.bi32_armv7m_ct e
  case bi32_armv7m_small => exact Arm.bi32_armv7m_small_ct e
  case neon => exact Neon.backend_ct e

theorem ByteCore.ok (b : ByteCore) : b.perms.Ok := by
  cases b
  case opt8 => exact Opt8.perms_ok
  case avr => exact Avr.perms_ok

theorem ByteCore.ct (b : ByteCore) (e : Endian) : b.perms.CT e := by
  cases b
  case opt8 => exact Opt8.perms_ct e
  case avr => exact Avr.perms_ct e

theorem aeadCfg (comb : Bool) : (if comb then Opt8.Cfg.comb else .aead).hasAead = true := by
  cases comb <;> rfl

theorem hashCfg (comb : Bool) : (if comb then Opt8.Cfg.comb else .hash).hasHash = true := by
  cases comb <;> rfl

/-! ## AEAD -/

theorem Aead.encrypt_correct (i : Aead) (e : Endian) (h : i.runsOn e) : EncCorrectAt e i.encrypt := by
  unfold Aead.runsOn at h
  unfold Aead.encrypt
  cases hc : i.code <;> rw [hc] at h <;> simp only [AeadCode.runsOn] at h
  case ref => exact Ref.enc_correct e
  case gen c => exact enc_correct (c.ok e h)
  case low c comb => exact Low.enc_correct (c.ok e h) comb
  case byte b => subst h; exact Opt8.enc_correct b.ok
  case byteLow b comb => subst h; exact Opt8.low_enc_correct b.ok _ (aeadCfg comb)
  case avx junk => exact Avx512.enc_correct junk

theorem Aead.decrypt_correct (i : Aead) (e : Endian) (h : i.runsOn e) : DecCorrectAt e i.decrypt := by
  unfold Aead.runsOn at h
  unfold Aead.decrypt
  cases hc : i.code <;> rw [hc] at h <;> simp only [AeadCode.runsOn] at h
  case ref => exact Ref.dec_correct e
  case gen c => exact dec_correct (c.ok e h)
  case low c comb => exact Low.dec_correct (c.ok e h) comb
  case byte b => subst h; exact Opt8.dec_correct b.ok
  case byteLow b comb => subst h; exact Opt8.low_dec_correct b.ok _ (aeadCfg comb)
  case avx junk => exact Avx512.dec_correct junk

theorem Aead.decrypt_short (i : Aead) : DecShort i.decrypt := by
  unfold Aead.decrypt
  cases i.code
  case ref => exact Ref.dec_short
  case gen c => exact dec_short _
  case low c comb => exact Low.dec_short _ comb
  case byte b => exact Opt8.dec_short _
  case byteLow b comb => exact Opt8.low_dec_short _ _
  case avx junk => exact Avx512.dec_short junk

theorem Aead.encrypt_ct (i : Aead) (e : Endian) (sp c clen m mlen ad adlen nsec npub k : Nat) :
    ConstTime (i.encrypt e sp c clen m mlen ad adlen nsec npub k) := by
  unfold Aead.encrypt
  cases i.code
  case ref => exact (Ref.sim_encrypt e sp c clen m mlen ad adlen nsec npub k).constTime
  case gen b => exact (sim_aead_encrypt (b.ct e) sp c clen m mlen ad adlen nsec npub k).constTime
  case low b comb => exact (Low.sim_aead_encrypt (b.ct e) comb sp c clen m mlen ad adlen nsec npub k).constTime
  case byte b => exact (Opt8.sim_aead_encrypt (b.ct e) sp c clen m mlen ad adlen nsec npub k).constTime
  case byteLow b comb =>
    exact (Opt8.sim_low_aead_encrypt (b.ct e) _ sp c clen m mlen ad adlen nsec npub k).constTime
  case avx junk => exact (Avx512.sim_aead_encrypt junk sp c clen m mlen ad adlen nsec npub k).constTime

theorem Aead.decrypt_ct (i : Aead) (e : Endian) (sp m mlen nsec c clen ad adlen npub k : Nat) :
    ConstTime (i.decrypt e sp m mlen nsec c clen ad adlen npub k) := by
  unfold Aead.decrypt
  cases i.code
  case ref => exact (Ref.sim_decrypt e sp m mlen nsec c clen ad adlen npub k).constTime
  case gen b => exact (sim_aead_decrypt (b.ct e) sp m mlen nsec c clen ad adlen npub k).constTime
  case low b comb => exact (Low.sim_aead_decrypt (b.ct e) comb sp m mlen nsec c clen ad adlen npub k).constTime
  case byte b => exact (Opt8.sim_aead_decrypt (b.ct e) sp m mlen nsec c clen ad adlen npub k).constTime
  case byteLow b comb =>
    exact (Opt8.sim_low_aead_decrypt (b.ct e) _ sp m mlen nsec c clen ad adlen npub k).constTime
  case avx junk => exact (Avx512.sim_aead_decrypt junk sp m mlen nsec c clen ad adlen npub k).constTime

/-! ## Hash -/

theorem Hash.hash256_correct (i : Hash) (e : Endian) (h : i.runsOn e) :
    HashCorrectAt e Spec.hash256 32 i.hash256 := by
  unfold Hash.runsOn at h
  unfold Hash.hash256
  cases hc : i.code <;> rw [hc] at h
  case ref => exact Ref.hash256_correct e
  case gen c => exact Gen.hash256_correct (c.ok e h)
  case byte b => simp only [HashCode.runsOn] at h; subst h; exact Opt8.hash256_correct b.ok
  case byteLow b => simp only [HashCode.runsOn] at h; subst h; exact Opt8.low_hash256_correct b.ok
  case avx => exact Avx512.hash256_correct

theorem XofCode.hash_correct (c : XofCode) (e : Endian) (h : c.runsOn e) :
    HashCorrectAt e (fun m => Spec.xof128 m 64) 64 c.hash := by
  cases c
  case gen c => exact Gen.xof128_correct (c.ok e h)
  case low c => exact Low.hash_correct (c.ok e h)
  case byte b => simp only [XofCode.runsOn] at h; subst h; exact Opt8.xof128_correct b.ok
  case byteLow b comb =>
    simp only [XofCode.runsOn] at h; subst h; exact Opt8.low_xof128_correct b.ok _ (hashCfg comb)
  case avx => exact Avx512.xof128_correct

theorem HashX.xof128_correct (i : HashX) (e : Endian) (h : i.runsOn e) :
    HashCorrectAt e (fun m => Spec.xof128 m 64) 64 i.xof128 := by
  cases i
  case ref => exact Ref.xof128_correct e
  case dir j => exact j.code.hash_correct e h

theorem Hash.hash256_ct (i : Hash) (e : Endian) (sp out inp len : Nat) :
    ConstTime (i.hash256 e sp out inp len) := by
  unfold Hash.hash256
  cases i.code
  case ref => exact (Ref.sim_hash_with _ _ e sp out inp len).constTime
  case gen c => exact (sim_xof (c.ct e) _ sp out 32 inp len).constTime
  case byte b => exact (Opt8.sim_xof (b.ct e) _ _ sp out 32 inp len).constTime
  case byteLow b => exact (Opt8.sim_low_xof (b.ct e) _ _ sp out 32 inp len).constTime
  case avx => exact (Avx512.sim_xof _ sp out 32 inp len).constTime

theorem XofCode.hash_ct (c : XofCode) (e : Endian) (sp out inp len : Nat) :
    ConstTime (c.hash e sp out inp len) := by
  cases c
  case gen c => exact (sim_xof (c.ct e) _ sp out 64 inp len).constTime
  case low c => exact (Low.sim_xof (c.ct e) sp out 64 inp len).constTime
  case byte b => exact (Opt8.sim_xof (b.ct e) _ _ sp out 64 inp len).constTime
  case byteLow b comb => exact (Opt8.sim_low_xof (b.ct e) _ _ sp out 64 inp len).constTime
  case avx => exact (Avx512.sim_xof _ sp out 64 inp len).constTime

theorem HashX.xof128_ct (i : HashX) (e : Endian) (sp out inp len : Nat) :
    ConstTime (i.xof128 e sp out inp len) := by
  cases i
  case ref => exact (Ref.sim_hash_with _ _ e sp out inp len).constTime
  case dir j => exact j.code.hash_ct e sp out inp len

theorem Xof.xof128_correct (i : Xof) (e : Endian) (h : i.runsOn e) :
    XofCorrectAt e Spec.xof128 i.xof128 := by
  unfold Xof.runsOn at h
  unfold Xof.xof128
  cases hc : i.code <;> rw [hc] at h
  case gen c => exact xof_xof128_correct (c.ok e h)
  case low c => exact Low.xof_correct (c.ok e h)
  case byte b => simp only [XofCode.runsOn] at h; subst h; exact Opt8.xof_xof128_correct b.ok
  case byteLow b comb =>
    simp only [XofCode.runsOn] at h; subst h; exact Opt8.low_xof_xof128_correct b.ok _ (hashCfg comb)
  case avx => exact Avx512.xof_correct

theorem Xof.xof128_ct (i : Xof) (e : Endian) (sp out outlen inp len : Nat) :
    ConstTime (i.xof128 e sp out outlen inp len) := by
  unfold Xof.xof128
  cases i.code
  case gen c => exact (sim_xof (c.ct e) _ sp out outlen inp len).constTime
  case low c => exact (Low.sim_xof (c.ct e) sp out outlen inp len).constTime
  case byte b => exact (Opt8.sim_xof (b.ct e) _ _ sp out outlen inp len).constTime
  case byteLow b comb => exact (Opt8.sim_low_xof (b.ct e) _ _ sp out outlen inp len).constTime
  case avx => exact (Avx512.sim_xof _ sp out outlen inp len).constTime

/-! ## MAC and PRF -/

theorem Auth.macAuth_correct (i : Auth) (e : Endian) (h : i.runsOn e) :
    AuthCorrectAt e mac 16 (fun _ => True) i.macAuth := by
  unfold Auth.runsOn at h
  unfold Auth.macAuth
  cases hc : i.code <;> rw [hc] at h
  case ref => exact Ref.mac_auth_correct e
  case gen c => exact Gen.mac_auth_correct (c.ok e h)
  case byte b => simp only [AuthCode.runsOn] at h; subst h; exact Opt8.mac_auth_correct b.ok

theorem Auth.macVerify_correct (i : Auth) (e : Endian) (h : i.runsOn e) :
    VerifyCorrectAt e mac 16 (fun _ => True) i.macVerify := by
  unfold Auth.runsOn at h
  unfold Auth.macVerify
  cases hc : i.code <;> rw [hc] at h
  case ref => exact Ref.mac_verify_correct e
  case gen c => exact Gen.mac_verify_correct (c.ok e h)
  case byte b => simp only [AuthCode.runsOn] at h; subst h; exact Opt8.mac_verify_correct b.ok

theorem Auth.macPrf_correct (i : Auth) (e : Endian) (h : i.runsOn e) :
    PrfCorrectAt e (prfWith ivMac) (fun _ outlen => outlen ≤ 16) i.macPrf := by
  unfold Auth.runsOn at h
  unfold Auth.macPrf
  cases hc : i.code <;> rw [hc] at h
  case ref => exact Ref.mac_prf_correct e
  case gen c => exact Gen.mac_prf_correct (c.ok e h)
  case byte b => simp only [AuthCode.runsOn] at h; subst h; exact Opt8.mac_prf_correct b.ok

theorem Auth.prfAuth_correct (i : Auth) (e : Endian) (h : i.runsOn e) :
    AuthCorrectAt e (fun K M => Spec.prf K M 64) 64 (fun _ => True) i.prfAuth := by
  unfold Auth.runsOn at h
  unfold Auth.prfAuth
  cases hc : i.code <;> rw [hc] at h
  case ref => exact Ref.prf_auth_correct e
  case gen c => exact Gen.prf_auth_correct (c.ok e h)
  case byte b => simp only [AuthCode.runsOn] at h; subst h; exact Opt8.prf_auth_correct b.ok

theorem Auth.prfVerify_correct (i : Auth) (e : Endian) (h : i.runsOn e) :
    VerifyCorrectAt e (fun K M => Spec.prf K M 64) 64 (fun _ => True) i.prfVerify := by
  unfold Auth.runsOn at h
  unfold Auth.prfVerify
  cases hc : i.code <;> rw [hc] at h
  case ref => exact Ref.prf_verify_correct e
  case gen c => exact Gen.prf_verify_correct (c.ok e h)
  case byte b => simp only [AuthCode.runsOn] at h; subst h; exact Opt8.prf_verify_correct b.ok

theorem Auth.prf_correct (i : Auth) (e : Endian) (h : i.runsOn e) :
    PrfCorrectAt e Spec.prf (fun _ outlen => outlen ≤ 64) i.prf := by
  unfold Auth.runsOn at h
  unfold Auth.prf
  cases hc : i.code <;> rw [hc] at h
  case ref => exact Ref.prf_prf_correct e
  case gen c => exact Gen.prf_prf_correct (c.ok e h)
  case byte b => simp only [AuthCode.runsOn] at h; subst h; exact Opt8.prf_prf_correct b.ok

theorem Auth.prfsAuth_correct (i : Auth) (e : Endian) (h : i.runsOn e) :
    AuthCorrectAt e (fun K M => prfShort K M 16) 16 (fun l => l ≤ 16) i.prfsAuth := by
  unfold Auth.runsOn at h
  unfold Auth.prfsAuth
  cases hc : i.code <;> rw [hc] at h
  case ref => exact Ref.prfs_auth_correct e
  case gen c => exact Gen.prfs_auth_correct (c.ok e h)
  case byte b => simp only [AuthCode.runsOn] at h; subst h; exact Opt8.prfs_auth_correct b.ok

theorem Auth.prfsVerify_correct (i : Auth) (e : Endian) (h : i.runsOn e) :
    VerifyCorrectAt e (fun K M => prfShort K M 16) 16 (fun l => l ≤ 16) i.prfsVerify := by
  unfold Auth.runsOn at h
  unfold Auth.prfsVerify
  cases hc : i.code <;> rw [hc] at h
  case ref => exact Ref.prfs_verify_correct e
  case gen c => exact Gen.prfs_verify_correct (c.ok e h)
  case byte b => simp only [AuthCode.runsOn] at h; subst h; exact Opt8.prfs_verify_correct b.ok

theorem Auth.prfs_correct (i : Auth) (e : Endian) (h : i.runsOn e) :
    PrfCorrectAt e prfShort (fun inlen outlen => inlen ≤ 16 ∧ outlen ≤ 16) i.prfs := by
  unfold Auth.runsOn at h
  unfold Auth.prfs
  cases hc : i.code <;> rw [hc] at h
  case ref => exact Ref.prfs_correct e
  case gen c => exact Gen.prfs_correct (c.ok e h)
  case byte b => simp only [AuthCode.runsOn] at h; subst h; exact Opt8.prfs_correct b.ok

theorem Auth.prfsVerify_reject (i : Auth) (e : Endian) (mem : Mem) (sp h inp len k : Nat) (hl : 16 < len) :
    run (i.prfsVerify e sp h inp len k) mem = some (-1, mem) := by
  unfold Auth.prfsVerify
  cases i.code
  · exact Ref.prfs_verify_reject e mem sp h inp len k hl
  · exact Gen.prfs_verify_reject _ e mem sp h inp len k hl
  · exact Opt8.prfs_verify_reject _ e mem sp h inp len k hl

theorem Auth.prfsAuth_reject (i : Auth) (e : Endian) (mem : Mem) (sp out inp len k : Nat) (hl : 16 < len)
    (hr : i.runsOn e) :
    run (i.prfsAuth e sp out inp len k) mem = some (-1, mem) := by
  have := ((i.prfs_correct e hr).2 mem sp out 16 inp len k (by omega)).1
  unfold Auth.prfsAuth
  unfold Auth.prfs at this
  cases hb : i.code <;> rw [hb] at this <;> exact this

theorem Auth.ct (i : Auth) (e : Endian) :
    (∀ sp out inp len k, ConstTime (i.macAuth e sp out inp len k)) ∧
    (∀ sp h inp len k, ConstTime (i.macVerify e sp h inp len k)) ∧
    (∀ sp out outlen inp len k, ConstTime (i.macPrf e sp out outlen inp len k)) ∧
    (∀ sp out inp len k, ConstTime (i.prfAuth e sp out inp len k)) ∧
    (∀ sp h inp len k, ConstTime (i.prfVerify e sp h inp len k)) ∧
    (∀ sp out outlen inp len k, ConstTime (i.prf e sp out outlen inp len k)) ∧
    (∀ sp out inp len k, ConstTime (i.prfsAuth e sp out inp len k)) ∧
    (∀ sp h inp len k, ConstTime (i.prfsVerify e sp h inp len k)) ∧
    (∀ sp out outlen inp len k, ConstTime (i.prfs e sp out outlen inp len k)) := by
  simp only [Auth.macAuth, Auth.macVerify, Auth.macPrf, Auth.prfAuth, Auth.prfVerify, Auth.prf,
      Auth.prfsAuth, Auth.prfsVerify, Auth.prfs]
  cases i.code
  case ref =>
    exact ⟨fun sp out inp len k => (Ref.sim_prf_with _ _ e sp out 16 inp len k).constTime,
      fun sp h inp len k => (Ref.sim_verify_with _ _ e sp h inp len k).constTime,
      fun sp out outlen inp len k => (Ref.sim_prf_with _ _ e sp out outlen inp len k).constTime,
      fun sp out inp len k => (Ref.sim_prf_with _ _ e sp out 64 inp len k).constTime,
      fun sp h inp len k => (Ref.sim_verify_with _ _ e sp h inp len k).constTime,
      fun sp out outlen inp len k => (Ref.sim_prf_with _ _ e sp out outlen inp len k).constTime,
      fun sp out inp len k => (Ref.sim_prfs e sp out 16 inp len k).constTime,
      fun sp h inp len k => (Ref.sim_prfs_verify e sp h inp len k).constTime,
      fun sp out outlen inp len k => (Ref.sim_prfs e sp out outlen inp len k).constTime⟩
  case gen c =>
    have hct := c.ct e
    exact ⟨fun sp out inp len k => (sim_prf_with hct _ _ sp out 16 inp len k).constTime,
      fun sp h inp len k => (sim_verify_with hct _ _ sp h inp len k).constTime,
      fun sp out outlen inp len k => (sim_prf_with hct _ _ sp out outlen inp len k).constTime,
      fun sp out inp len k => (sim_prf_with hct _ _ sp out 64 inp len k).constTime,
      fun sp h inp len k => (sim_verify_with hct _ _ sp h inp len k).constTime,
      fun sp out outlen inp len k => (sim_prf_with hct _ _ sp out outlen inp len k).constTime,
      fun sp out inp len k => (sim_prfs hct sp out 16 inp len k).constTime,
      fun sp h inp len k => (sim_prfs_verify hct sp h inp len k).constTime,
      fun sp out outlen inp len k => (sim_prfs hct sp out outlen inp len k).constTime⟩
  case byte b =>
    have hct := b.ct e
    have hv : ∀ iv n, ∀ sp h inp len k, ConstTime (Opt8.verify_with
        (Opt8.crypto_prf_with b.perms Opt8.opt8PadAt 7 iv n) n e sp h inp len k) := fun iv n sp h inp len k =>
      (Opt8.sim_verify_with (fun _ _ _ _ _ _ => Opt8.sim_prf_with hct _ _ _ _ _ _ _ _ _ _) sp h inp len k).constTime
    exact ⟨fun sp out inp len k => (Opt8.sim_prf_with hct _ _ _ _ sp out 16 inp len k).constTime,
      hv _ 16,
      fun sp out outlen inp len k => (Opt8.sim_prf_with hct _ _ _ _ sp out outlen inp len k).constTime,
      fun sp out inp len k => (Opt8.sim_prf_with hct _ _ _ _ sp out 64 inp len k).constTime,
      hv _ 64,
      fun sp out outlen inp len k => (Opt8.sim_prf_with hct _ _ _ _ sp out outlen inp len k).constTime,
      fun sp out inp len k => (Opt8.sim_prfs hct sp out 16 inp len k).constTime,
      fun sp h inp len k => (Opt8.sim_prfs_verify hct sp h inp len k).constTime,
      fun sp out outlen inp len k => (Opt8.sim_prfs hct sp out outlen inp len k).constTime⟩

end Ascon.Impl
