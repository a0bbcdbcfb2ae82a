import Verif.Proof.Registry
import Verif.Proof.LowFetch
import Verif.Proof.Opt8LowFetch
import Verif.Proof.Avx512Fetch
/-!
# The directories of the registry read every input byte and write every output byte once
-/

namespace Ascon.Impl

open Ascon.C Ascon.Gen
open Ascon.Ref (zipped outside_zipped)

theorem Core.silent (c : Core) (e : Endian) (h : c.runsOn e) : c.backend.Silent e := .of (c.ok e h) (c.ct e)

theorem ByteCore.silent (b : ByteCore) : b.perms.Silent .little := .of b.ok

/-- What lies outside of `[sp, sp + n)` of the accesses of a program. -/
def AccOutside {α : Type} (sp n : Nat) (p : Prog α) (rs ws : List Nat) : Prop :=
  ∃ rs' ws', Acc Any1 p rs' ws' ∧ outside sp n rs' = rs ∧ outside sp n ws' = ws

theorem AccOutside.sound {α : Type} {sp n : Nat} {p : Prog α} {rs ws : List Nat} (h : AccOutside sp n p rs ws)
    {mem mem' : Mem} {r : α} (hr : run p mem = some (r, mem')) :
    outside sp n (readsOf (trace p mem)) = rs ∧ outside sp n (writesOf (trace p mem)) = ws := by
  obtain ⟨rs', ws', h1, h2, h3⟩ := h
  obtain ⟨_, h4, h5⟩ := h1.sound mem mem' r hr
  rw [h4, h5]
  exact ⟨h2, h3⟩

theorem outside_self (sp n k : Nat) (h : k ≤ n) : outside sp n (List.range' sp k) = [] :=
  outside_inside (Nat.le_refl _) (by omega)

section
variable {e : Endian} {sp c clen m mlen ad adlen nsec npub k : Nat}

theorem Aead.encrypt_acc (i : Aead) (hi : i.runsOn e) (dk : Disjoint sp 64 k 16) (dn : Disjoint sp 64 npub 16)
    (da : Disjoint sp 64 ad adlen) (dm : Disjoint sp 64 m mlen) (dl : Disjoint sp 64 clen 8)
    (dc : Disjoint sp 64 c (mlen + 16)) :
    AccOutside sp 64 (i.encrypt e sp c clen m mlen ad adlen nsec npub k)
      (List.range' k 16 ++ List.range' npub 16 ++ List.range' ad adlen ++ List.range' m mlen)
      (List.range' clen 8 ++ List.range' c (mlen + 16)) := by
  have h1 : outside sp 64 (List.range' k 16 ++ List.range' npub 16 ++ List.range' ad adlen ++ List.range' m mlen) =
      List.range' k 16 ++ List.range' npub 16 ++ List.range' ad adlen ++ List.range' m mlen := by
    simp only [outside_append, outside_range' dk, outside_range' dn, outside_range' da, outside_range' dm]
  have h2 : outside sp 64 (List.range' clen 8 ++ List.range' c (mlen + 16)) =
      List.range' clen 8 ++ List.range' c (mlen + 16) := by
    simp only [outside_append, outside_range' dl, outside_range' dc]
  unfold Aead.runsOn at hi
  unfold Aead.encrypt
  cases hc : i.code <;> rw [hc] at hi <;> simp only [AeadCode.runsOn] at hi
  case ref => exact ⟨_, _, Ref.acc_encrypt e sp c clen m mlen ad adlen nsec npub k, h1, h2⟩
  case gen b => exact ⟨_, _, Gen.acc_encrypt (b.silent e hi) sp c clen m mlen ad adlen nsec npub k, h1, h2⟩
  case low b comb =>
    refine ⟨_, _, Low.acc_encrypt (b.silent e hi) comb sp c clen m mlen ad adlen nsec npub k, ?_, ?_⟩
    · simp only [outside_append, outside_range' dk, outside_range' dn, outside_range' da, outside_range' dm,
        outside_self sp 64 16 (by omega), List.append_nil, List.append_assoc]
    · rw [← h2, range'_split c mlen 16]
      simp only [outside_append, outside_self sp 64 16 (by omega), List.nil_append]
  case byte b =>
    subst hi; exact ⟨_, _, Opt8.acc_encrypt b.silent sp c clen m mlen ad adlen nsec npub k, h1, h2⟩
  case byteLow b comb =>
    subst hi
    exact ⟨_, _, Opt8.acc_low_encrypt b.silent _ (by cases comb <;> decide) sp c clen m mlen ad adlen nsec npub k, h1, h2⟩
  case avx junk => exact ⟨_, _, Avx512.acc_encrypt junk sp c clen m mlen ad adlen nsec npub k, h1, h2⟩

theorem Aead.decrypt_acc (i : Aead) (hi : i.runsOn e) (hcl : 16 ≤ clen) (dk : Disjoint sp 64 k 16)
    (dn : Disjoint sp 64 npub 16) (da : Disjoint sp 64 ad adlen) (dc : Disjoint sp 64 c clen)
    (dl : Disjoint sp 64 mlen 8) (dm : Disjoint sp 64 m (clen - 16)) :
    AccOutside sp 64 (i.decrypt e sp m mlen nsec c clen ad adlen npub k)
      (List.range' k 16 ++ List.range' npub 16 ++ List.range' ad adlen ++ List.range' c clen)
      (List.range' mlen 8 ++ List.range' m (clen - 16)) := by
  have h1 : outside sp 64 (List.range' k 16 ++ List.range' npub 16 ++ List.range' ad adlen ++ List.range' c clen) =
      List.range' k 16 ++ List.range' npub 16 ++ List.range' ad adlen ++ List.range' c clen := by
    simp only [outside_append, outside_range' dk, outside_range' dn, outside_range' da, outside_range' dc]
  have h2 : outside sp 64 (List.range' mlen 8 ++ List.range' m (clen - 16)) =
      List.range' mlen 8 ++ List.range' m (clen - 16) := by
    simp only [outside_append, outside_range' dl, outside_range' dm]
  have dc1 : Disjoint sp 64 c (clen - 16) := by unfold Disjoint at dc ⊢; omega
  have dc2 : Disjoint sp 64 (c + (clen - 16)) 16 := by unfold Disjoint at dc ⊢; omega
  have hj : List.range' c (clen - 16) ++ List.range' (c + (clen - 16)) 16 = List.range' c clen :=
    range'_join rfl (by omega)
  unfold Aead.runsOn at hi
  unfold Aead.decrypt
  cases hc : i.code <;> rw [hc] at hi <;> simp only [AeadCode.runsOn] at hi
  case ref =>
    refine ⟨_, _, Ref.acc_decrypt e sp m mlen nsec c clen ad adlen npub k hcl, ?_, ?_⟩
    · simp only [outside_append, outside_range' dk, outside_range' dn, outside_range' da, outside_range' dc1,
        outside_zipped 16 dc2 (Nat.le_refl _) (by omega), hj, List.append_assoc]
    · simp only [outside_append, outside_range' dl, outside_range' dm, outside_self sp 64 16 (by omega), List.append_nil]
  case gen b => exact ⟨_, _, Gen.acc_decrypt (b.silent e hi) sp m mlen nsec c clen ad adlen npub k hcl, h1, h2⟩
  case low b comb =>
    refine ⟨_, _, Low.acc_decrypt (b.silent e hi) comb sp m mlen nsec c clen ad adlen npub k hcl, ?_, ?_⟩
    · simp only [outside_append, outside_range' dk, outside_range' dn, outside_range' da, outside_range' dc1,
        outside_zipped 16 dc2 (Nat.le_refl _) (by omega), hj, List.append_assoc]
    · simp only [outside_append, outside_range' dl, outside_range' dm, outside_self sp 64 16 (by omega), List.append_nil]
  case byte b =>
    subst hi; exact ⟨_, _, Opt8.acc_decrypt b.silent sp m mlen nsec c clen ad adlen npub k hcl, h1, h2⟩
  case byteLow b comb =>
    subst hi
    exact ⟨_, _, Opt8.acc_low_decrypt b.silent _ (by cases comb <;> decide) sp m mlen nsec c clen ad adlen npub k hcl,
      h1, h2⟩
  case avx junk => exact ⟨_, _, Avx512.acc_decrypt junk sp m mlen nsec c clen ad adlen npub k hcl, h1, h2⟩

end

section
variable {e : Endian} {sp out n inp len : Nat}

theorem Hash.hash256_acc (i : Hash) (hi : i.runsOn e) :
    Acc Any1 (i.hash256 e sp out inp len) (List.range' inp len) (List.range' out 32) := by
  unfold Hash.runsOn at hi
  unfold Hash.hash256
  cases hc : i.code <;> rw [hc] at hi <;> simp only [HashCode.runsOn] at hi
  case ref => exact Ref.acc_crypto_hash _ 32 e sp out inp len
  case gen c => exact Gen.acc_xof (c.silent e hi) _ sp out 32 inp len
  case byte b => subst hi; exact Opt8.acc_xof b.silent _ _ sp out 32 inp len
  case byteLow b => subst hi; exact Opt8.acc_low_xof b.silent _ (by decide) _ sp out 32 inp len
  case avx => exact Avx512.acc_xof _ sp out 32 inp len

theorem Xof.xof128_acc (i : Xof) (hi : i.runsOn e) :
    Acc Any1 (i.xof128 e sp out n inp len) (List.range' inp len) (List.range' out n) := by
  unfold Xof.runsOn at hi
  unfold Xof.xof128
  cases hc : i.code <;> rw [hc] at hi <;> simp only [XofCode.runsOn] at hi
  case gen c => exact Gen.acc_xof (c.silent e hi) _ sp out n inp len
  case low c => exact Low.acc_xof (c.silent e hi) sp out n inp len
  case byte b => subst hi; exact Opt8.acc_xof b.silent _ _ sp out n inp len
  case byteLow b comb => subst hi; exact Opt8.acc_low_xof b.silent _ (by cases comb <;> decide) _ sp out n inp len
  case avx => exact Avx512.acc_xof _ sp out n inp len

theorem HashX.xof128_acc (i : HashX) (hi : i.runsOn e) :
    Acc Any1 (i.xof128 e sp out inp len) (List.range' inp len) (List.range' out 64) := by
  cases i
  case ref => exact Ref.acc_crypto_hash _ 64 e sp out inp len
  case dir i =>
    simp only [HashX.runsOn, Xof.runsOn] at hi
    show Acc Any1 (i.code.hash e sp out inp len) _ _
    cases hc : i.code <;> rw [hc] at hi <;> simp only [XofCode.runsOn] at hi
    case gen c => exact Gen.acc_xof (c.silent e hi) _ sp out 64 inp len
    case low c => exact Low.acc_xof (c.silent e hi) sp out 64 inp len
    case byte b => subst hi; exact Opt8.acc_xof b.silent _ _ sp out 64 inp len
    case byteLow b comb => subst hi; exact Opt8.acc_low_xof b.silent _ (by cases comb <;> decide) _ sp out 64 inp len
    case avx => exact Avx512.acc_xof _ sp out 64 inp len

end

section
variable {e : Endian} {sp out n h inp len k : Nat}

theorem Auth.macPrf_acc (i : Auth) (hi : i.runsOn e) (hn : n ≤ 16) :
    Acc Any1 (i.macPrf e sp out n inp len k) (List.range' k 16 ++ List.range' inp len) (List.range' out n) := by
  unfold Auth.runsOn at hi
  unfold Auth.macPrf
  cases hc : i.code <;> rw [hc] at hi <;> simp only [AuthCode.runsOn] at hi
  case ref => exact Ref.acc_crypto_prf _ 16 e sp out n inp len k (by omega)
  case gen c => exact Gen.acc_crypto_prf (c.silent e hi) _ 16 sp out n inp len k (by omega)
  case byte b => subst hi; exact Opt8.acc_crypto_prf b.silent _ _ _ 16 sp out n inp len k (by omega)

theorem Auth.prf_acc (i : Auth) (hi : i.runsOn e) (hn : n ≤ 64) :
    Acc Any1 (i.prf e sp out n inp len k) (List.range' k 16 ++ List.range' inp len) (List.range' out n) := by
  unfold Auth.runsOn at hi
  unfold Auth.prf
  cases hc : i.code <;> rw [hc] at hi <;> simp only [AuthCode.runsOn] at hi
  case ref => exact Ref.acc_crypto_prf _ 64 e sp out n inp len k (by omega)
  case gen c => exact Gen.acc_crypto_prf (c.silent e hi) _ 64 sp out n inp len k (by omega)
  case byte b => subst hi; exact Opt8.acc_crypto_prf b.silent _ _ _ 64 sp out n inp len k (by omega)

theorem Auth.macAuth_eq (i : Auth) : i.macAuth e sp out inp len k = i.macPrf e sp out 16 inp len k := by
  unfold Auth.macAuth Auth.macPrf
  cases i.code <;> rfl

theorem Auth.prfAuth_eq (i : Auth) : i.prfAuth e sp out inp len k = i.prf e sp out 64 inp len k := by
  unfold Auth.prfAuth Auth.prf
  cases i.code <;> rfl

theorem Auth.prfsAuth_eq (i : Auth) : i.prfsAuth e sp out inp len k = i.prfs e sp out 16 inp len k := by
  unfold Auth.prfsAuth Auth.prfs
  cases i.code <;> rfl

theorem Auth.prfs_acc (i : Auth) (hi : i.runsOn e) (hn : n ≤ 16) (hl : len ≤ 16) :
    Acc Any1 (i.prfs e sp out n inp len k)
      (List.range' k 16 ++ List.range' inp len ++ if i = .opt8 then List.range' k 16 else []) (List.range' out n) := by
  unfold Auth.runsOn at hi
  unfold Auth.prfs
  by_cases ho : i = .opt8
  · subst ho
    simp only [if_true]
    simp only [Auth.code, AuthCode.runsOn] at hi
    subst hi
    exact Opt8.acc_prfs_crypto_prf (ByteCore.silent .opt8) sp out n inp len k hl hn
  · rw [if_neg ho, List.append_nil]
    cases hc : i.code <;> rw [hc] at hi <;> simp only [AuthCode.runsOn] at hi
    case ref => exact Ref.acc_prfs_crypto_prf e sp out n inp len k hl hn
    case gen c => exact Gen.acc_prfs_crypto_prf (c.silent e hi) sp out n inp len k hl hn
    case byte b => exfalso; cases i <;> simp [Auth.code] at hc ho

theorem verify_outside {n : Nat} {p : Prog Int} {rs : List Nat} (hn : n ≤ 128)
    (hp : Acc Any1 p (rs ++ zipped h sp n) (List.range' sp n)) (hr : outside sp 128 rs = rs)
    (dh : Disjoint sp 128 h n) : AccOutside sp 128 p (rs ++ List.range' h n) [] :=
  ⟨_, _, hp, by rw [outside_append, hr, outside_zipped n dh (Nat.le_refl _) (by omega)], outside_self sp 128 n hn⟩

theorem Auth.verify_acc (i : Auth) (hi : i.runsOn e) (dk : Disjoint sp 128 k 16) (di : Disjoint sp 128 inp len) :
    (Disjoint sp 128 h 16 → AccOutside sp 128 (i.macVerify e sp h inp len k)
      (List.range' k 16 ++ List.range' inp len ++ List.range' h 16) []) ∧
    (Disjoint sp 128 h 64 → AccOutside sp 128 (i.prfVerify e sp h inp len k)
      (List.range' k 16 ++ List.range' inp len ++ List.range' h 64) []) := by
  have hr : outside sp 128 (List.range' k 16 ++ List.range' inp len) = List.range' k 16 ++ List.range' inp len := by
    simp only [outside_append, outside_range' dk, outside_range' di]
  unfold Auth.runsOn at hi
  unfold Auth.macVerify Auth.prfVerify
  cases hc : i.code <;> rw [hc] at hi <;> simp only [AuthCode.runsOn] at hi
  case ref =>
    exact ⟨fun dh => verify_outside (by omega) (Ref.acc_auth_verify _ 16 e sp h inp len k) hr dh,
      fun dh => verify_outside (by omega) (Ref.acc_auth_verify _ 64 e sp h inp len k) hr dh⟩
  case gen c =>
    exact ⟨fun dh => verify_outside (by omega) (Gen.acc_auth_verify (c.silent e hi) _ 16 sp h inp len k) hr dh,
      fun dh => verify_outside (by omega) (Gen.acc_auth_verify (c.silent e hi) _ 64 sp h inp len k) hr dh⟩
  case byte b =>
    subst hi
    exact ⟨fun dh => verify_outside (by omega)
        (Opt8.acc_verify_with (Opt8.acc_crypto_prf b.silent _ _ _ 16 _ sp 16 inp len k (by omega)) h) hr dh,
      fun dh => verify_outside (by omega)
        (Opt8.acc_verify_with (Opt8.acc_crypto_prf b.silent _ _ _ 64 _ sp 64 inp len k (by omega)) h) hr dh⟩

theorem Auth.prfsVerify_acc (i : Auth) (hi : i.runsOn e) (hl : len ≤ 16) (dk : Disjoint sp 128 k 16)
    (di : Disjoint sp 128 inp len) (dh : Disjoint sp 128 h 16) :
    AccOutside sp 128 (i.prfsVerify e sp h inp len k)
      (List.range' k 16 ++ List.range' inp len ++ (if i = .opt8 then List.range' k 16 else []) ++ List.range' h 16) [] := by
  have hr : outside sp 128 (List.range' k 16 ++ List.range' inp len) = List.range' k 16 ++ List.range' inp len := by
    simp only [outside_append, outside_range' dk, outside_range' di]
  unfold Auth.runsOn at hi
  unfold Auth.prfsVerify
  by_cases ho : i = .opt8
  · subst ho
    simp only [if_true]
    simp only [Auth.code, AuthCode.runsOn] at hi
    subst hi
    exact verify_outside (by omega) (Opt8.acc_prfs_auth_verify (ByteCore.silent .opt8) sp h inp len k hl)
      (by rw [outside_append, hr, outside_range' dk]) dh
  · rw [if_neg ho, List.append_nil]
    cases hc : i.code <;> rw [hc] at hi <;> simp only [AuthCode.runsOn] at hi
    case ref => exact verify_outside (by omega) (Ref.acc_prfs_auth_verify e sp h inp len k hl) hr dh
    case gen c => exact verify_outside (by omega) (Gen.acc_prfs_auth_verify (c.silent e hi) sp h inp len k hl) hr dh
    case byte b => exfalso; cases i <;> simp [Auth.code] at hc ho

end

end Ascon.Impl
