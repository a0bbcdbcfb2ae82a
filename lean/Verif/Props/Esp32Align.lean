import Verif.Proof.Esp32Align
import Verif.Props.Esp32
/-!
# C67: esp32 and the alignment of the caller's buffers

The functions of src/esp32 read the key, the nonce and the blocks of data, and write blocks of output, through
`uint32_t*` casts of the `unsigned char*` they are given.  `al` is the alignment requirement of `uint32_t` (4 on the
ESP32; any divisor of 4 here).  Nothing in the interface (`unsigned char*`) tells the caller about it.
-/

namespace Ascon.Esp32

open Ascon.Spec Ascon.C

attribute [local irreducible] perm

/-- The address is a multiple of `al`. -/
def Aligned (al p : Nat) : Prop := p % al = 0

/-- **C67** Encryption of word-aligned buffers computes Ascon-AEAD128 also on targets with alignment requirement.  Only
buffers of at least one block have to be aligned. -/
theorem C67_esp32_encrypt_aligned (al lw : Nat) (hal : al ∣ 4) (e : Endian) (mem : Mem)
    (sp c clen m ad nsec npub k : Nat) (K N A P : List Byte)
    (h : EncPre mem sp c clen m ad npub k K N A P) (hA : A.length < 2 ^ lw) (hP : P.length < 2 ^ lw)
    (ak : Aligned al k) (an : Aligned al npub) (aa : 16 ≤ A.length → Aligned al ad)
    (am : 16 ≤ P.length → Aligned al m) (ac : 16 ≤ P.length → Aligned al c) :
    run (crypto_aead_encrypt al lw e sp c clen m P.length ad A.length nsec npub k) mem =
      some (0, encPost e mem c clen K N A P) := by
  rw [encrypt_eq hal e lw sp c clen m P.length ad A.length nsec npub k ak an (by rwa [ulong_of_lt hA])
    (by rwa [ulong_of_lt hP]) (by rwa [ulong_of_lt hP])]
  exact C36_esp32_encrypt lw e mem sp c clen m ad nsec npub k K N A P h hA hP

/-- A concrete call on the ESP32 itself: all buffers are at multiples of 4. -/
example : run (crypto_aead_encrypt 4 32 .little 1000 200 300 100 Demo.P.length 32 Demo.A.length 0 16 0) Demo.mem =
    some (0, encPost .little Demo.mem 200 300 Demo.K Demo.N Demo.A Demo.P) :=
  C67_esp32_encrypt_aligned 4 32 (by decide) .little _ _ _ _ _ _ _ _ _ _ _ _ _ Demo.encPre (by decide) (by decide)
    (by unfold Aligned; decide) (by unfold Aligned; decide) (by unfold Aligned; decide) (by unfold Aligned; decide)
    (by unfold Aligned; decide)

/-- Encryption has defined behaviour *exactly* for aligned buffers: otherwise perfectly valid calls are undefined. -/
theorem C67_esp32_encrypt_defined_iff_aligned (al lw : Nat) (hal : al ∣ 4) (e : Endian) (mem : Mem)
    (sp c clen m ad nsec npub k : Nat) (K N A P : List Byte)
    (h : EncPre mem sp c clen m ad npub k K N A P) (hA : A.length < 2 ^ lw) (hP : P.length < 2 ^ lw) :
    (run (crypto_aead_encrypt al lw e sp c clen m P.length ad A.length nsec npub k) mem ≠ none) ↔
      Aligned al k ∧ Aligned al npub ∧ (16 ≤ A.length → Aligned al ad) ∧
        (16 ≤ P.length → Aligned al m ∧ Aligned al c) := by
  constructor
  · intro hr
    cases hq : run (crypto_aead_encrypt al lw e sp c clen m P.length ad A.length nsec npub k) mem with
    | none => exact absurd hq hr
    | some q =>
      have := encrypt_inv hq
      rwa [ulong_of_lt hA, ulong_of_lt hP] at this
  · rintro ⟨ak, an, aa, amc⟩
    rw [C67_esp32_encrypt_aligned al lw hal e mem sp c clen m ad nsec npub k K N A P h hA hP ak an aa
      (fun h => (amc h).1) (fun h => (amc h).2)]
    exact Option.some_ne_none _

theorem zeros_encPre_at (n k : Nat) (h : n ≤ 2 ^ 39) (hk : 64 ≤ k) (hk2 : k ≤ 500) :
    EncPre zeros (2 ^ 41) 1000 32 1000 0 16 k (List.replicate 16 0) (List.replicate 16 0) [] (List.replicate n 0) :=
  { zeros_encPre n h with
    key := zeros_holds k 16 (by omega)
    sepKey := by unfold Disjoint; omega }

/-- With the key at an odd address, the call is undefined on the ESP32, for any length, and fine on other targets. -/
example (n : Nat) (h : n < 2 ^ 32) :
    run (crypto_aead_encrypt 4 32 .little (2 ^ 41) 1000 32 1000 (List.replicate n (0 : Byte)).length 0
      ([] : List Byte).length 0 16 65) zeros = none ∧
    run (crypto_aead_encrypt 1 32 .little (2 ^ 41) 1000 32 1000 (List.replicate n (0 : Byte)).length 0
      ([] : List Byte).length 0 16 65) zeros ≠ none := by
  have hp := zeros_encPre_at n 65 (by omega) (by decide) (by decide)
  constructor
  · have := C67_esp32_encrypt_defined_iff_aligned 4 32 (by decide) .little zeros (2 ^ 41) 1000 32 1000 0 0 16 65 _ _ _ _
      hp (by decide) (by rw [List.length_replicate]; exact h)
    cases hq : run (crypto_aead_encrypt 4 32 .little (2 ^ 41) 1000 32 1000 (List.replicate n (0 : Byte)).length 0
      ([] : List Byte).length 0 16 65) zeros with
    | none => rfl
    | some q =>
      rw [hq] at this
      have := (this.mp (Option.some_ne_none _)).1
      unfold Aligned at this
      exact absurd this (by decide)
  · rw [C36_esp32_encrypt 32 .little zeros (2 ^ 41) 1000 32 1000 0 0 16 65 _ _ _ _ hp (by decide)
      (by rw [List.length_replicate]; exact h)]
    exact Option.some_ne_none _

/-- Decryption of word-aligned buffers. -/
theorem C67_esp32_decrypt_aligned (al lw : Nat) (hal : al ∣ 4) (e : Endian) (mem : Mem) (sp m mlen nsec c ad npub k : Nat)
    (K N A C : List Byte) (h : DecPre mem sp m mlen c ad npub k K N A C) (hA : A.length < 2 ^ lw)
    (hC : C.length - 16 < 2 ^ lw) (hd : Disjoint m ((C.length - 16) % 16) c ((C.length - 16) % 16))
    (ak : Aligned al k) (an : Aligned al npub) (aa : 16 ≤ A.length → Aligned al ad)
    (ac : 32 ≤ C.length → Aligned al c) (am : 32 ≤ C.length → Aligned al m) :
    run (crypto_aead_decrypt al lw e sp m mlen nsec c C.length ad A.length npub k) mem =
      some (if ctTag C = aeadDecTag K N A (ctBody C) then 0 else -1, decPost e mem m mlen K N A C) := by
  rw [(decrypt_run_eq hal e lw sp m mlen nsec c C.length ad A.length npub k mem h.ctLen h.outLen ak an
    (by rwa [ulong_of_lt hA]) (by rw [ulong_of_lt hC]; exact fun h => ac (by omega))
    (by rw [ulong_of_lt hC]; exact fun h => am (by omega))).1]
  exact C36_esp32_decrypt lw e mem sp m mlen nsec c ad npub k K N A C h hA hC hd

/-- A concrete call. -/
example : ∃ r mem', run (crypto_aead_decrypt 4 32 .little 1000 100 300 0 200 Demo.C.length 32 Demo.A.length 16 0)
    Demo.memC = some (r, mem') :=
  ⟨_, _, C67_esp32_decrypt_aligned 4 32 (by decide) .little _ _ _ _ _ _ _ _ _ _ _ _ _ Demo.decPre (by decide)
    (by decide) (by unfold Disjoint; decide) (by unfold Aligned; decide) (by unfold Aligned; decide)
    (by unfold Aligned; decide) (by unfold Aligned; decide) (by unfold Aligned; decide)⟩

/-- Decryption has defined behaviour exactly for aligned buffers. -/
theorem C67_esp32_decrypt_defined_iff_aligned (al lw : Nat) (hal : al ∣ 4) (e : Endian) (mem : Mem)
    (sp m mlen nsec c ad npub k : Nat)
    (K N A C : List Byte) (h : DecPre mem sp m mlen c ad npub k K N A C) (hA : A.length < 2 ^ lw)
    (hC : C.length - 16 < 2 ^ lw) (hd : Disjoint m ((C.length - 16) % 16) c ((C.length - 16) % 16)) :
    (run (crypto_aead_decrypt al lw e sp m mlen nsec c C.length ad A.length npub k) mem ≠ none) ↔
      Aligned al k ∧ Aligned al npub ∧ (16 ≤ A.length → Aligned al ad) ∧
        (32 ≤ C.length → Aligned al c ∧ Aligned al m) := by
  have h16 := h.ctMin
  constructor
  · intro hr
    cases hq : run (crypto_aead_decrypt al lw e sp m mlen nsec c C.length ad A.length npub k) mem with
    | none => exact absurd hq hr
    | some q =>
      have := decrypt_inv h.ctLen h.outLen h16 hq
      rw [ulong_of_lt hA, ulong_of_lt hC] at this
      exact ⟨this.1, this.2.1, this.2.2.1, fun h => this.2.2.2 (by omega)⟩
  · rintro ⟨ak, an, aa, acm⟩
    rw [C67_esp32_decrypt_aligned al lw hal e mem sp m mlen nsec c ad npub k K N A C h hA hC hd ak an aa
      (fun h => (acm h).1) (fun h => (acm h).2)]
    exact Option.some_ne_none _

/-- The hypotheses hold for the demo call, whose buffers are aligned. -/
example : run (crypto_aead_decrypt 4 32 .little 1000 100 300 0 200 Demo.C.length 32 Demo.A.length 16 0) Demo.memC ≠ none :=
  (C67_esp32_decrypt_defined_iff_aligned 4 32 (by decide) .little _ _ _ _ _ _ _ _ _ _ _ _ _ Demo.decPre (by decide)
    (by decide) (by unfold Disjoint; decide)).mpr
    ⟨by unfold Aligned; decide, by unfold Aligned; decide, by unfold Aligned; decide, by unfold Aligned; decide⟩

/-- Ascon-Hash256: the output always has to be aligned, the message if it has at least 8 bytes; defined exactly then, and
then correct. -/
theorem C67_esp32_hash256_defined_iff_aligned (al lw : Nat) (hal : al ∣ 4) (e : Endian) (mem : Mem) (sp out inp : Nat)
    (M : List Byte) (hM : mem.Holds inp M) (hl : M.length < 2 ^ lw) (hw : mem.Writable out 32) :
    (Aligned al out ∧ (8 ≤ M.length → Aligned al inp) →
      run (hash256 al lw e sp out inp M.length) mem = some (0, mem.writes out (Spec.hash256 M))) ∧
    (¬ (Aligned al out ∧ (8 ≤ M.length → Aligned al inp)) →
      run (hash256 al lw e sp out inp M.length) mem = none) := by
  constructor
  · rintro ⟨ao, ai⟩
    rw [← C36_esp32_hash256 lw e mem sp out inp M hM hl hw]
    unfold hash256
    rw [hash_eq hal _ _ lw e sp out inp M.length (by rwa [ulong_of_lt hl]) (fun _ => ao)]
  · intro hn
    cases hq : run (hash256 al lw e sp out inp M.length) mem with
    | none => rfl
    | some q =>
      have := hash_inv hq
      rw [ulong_of_lt hl] at this
      exact absurd ⟨this.2 (by decide), this.1⟩ hn

/-- Aligned and not aligned, with the same memory. -/
example : run (hash256 4 32 .little 1000 200 100 Demo.P.length) Demo.mem =
      some (0, Demo.mem.writes 200 (Spec.hash256 Demo.P)) ∧
    run (hash256 4 32 .little 1000 201 100 Demo.P.length) Demo.mem = none :=
  ⟨(C67_esp32_hash256_defined_iff_aligned 4 32 (by decide) .little _ _ _ _ _ Demo.holdsP (by decide)
      (Demo.out36.mono (by omega) (by omega))).1 (by unfold Aligned; decide),
    (C67_esp32_hash256_defined_iff_aligned 4 32 (by decide) .little _ _ _ _ _ Demo.holdsP (by decide)
      (Demo.out36.mono (by omega) (by omega))).2 (by unfold Aligned; decide)⟩

/-- Ascon-XOF128, likewise. -/
theorem C67_esp32_xof128_defined_iff_aligned (al lw : Nat) (hal : al ∣ 4) (e : Endian) (mem : Mem) (sp out inp : Nat)
    (M : List Byte) (hM : mem.Holds inp M) (hl : M.length < 2 ^ lw) (hw : mem.Writable out 64) :
    (Aligned al out ∧ (8 ≤ M.length → Aligned al inp) →
      run (xof128 al lw e sp out inp M.length) mem = some (0, mem.writes out (Spec.xof128 M 64))) ∧
    (¬ (Aligned al out ∧ (8 ≤ M.length → Aligned al inp)) →
      run (xof128 al lw e sp out inp M.length) mem = none) := by
  constructor
  · rintro ⟨ao, ai⟩
    rw [← C36_esp32_xof128 lw e mem sp out inp M hM hl hw]
    unfold xof128
    rw [hash_eq hal _ _ lw e sp out inp M.length (by rwa [ulong_of_lt hl]) (fun _ => ao)]
  · intro hn
    cases hq : run (xof128 al lw e sp out inp M.length) mem with
    | none => rfl
    | some q =>
      have := hash_inv hq
      rw [ulong_of_lt hl] at this
      exact absurd ⟨this.2 (by decide), this.1⟩ hn

/-- Three bytes at an odd address are fine. -/
example : run (xof128 4 32 .little 0 200 101 3) zeros = some (0, zeros.writes 200 (Spec.xof128 [0, 0, 0] 64)) :=
  (C67_esp32_xof128_defined_iff_aligned 4 32 (by decide) .little zeros 0 200 101 [0, 0, 0] (zeros_holds 101 3 (by decide))
    (by decide) (zeros_writable 200 64 (by decide))).1 ⟨by unfold Aligned; decide, by intro h; exact absurd h (by decide)⟩

/-- Alignment does not change what the code reveals: for aligned buffers, the sequence of addresses and branches is that
of a target without alignment requirement, so C36's constant-time theorems carry over. -/
theorem C67_esp32_same_trace (al lw : Nat) (hal : al ∣ 4) (e : Endian) (mem : Mem)
    (sp c clen m mlen ad adlen nsec npub k : Nat)
    (ak : Aligned al k) (an : Aligned al npub) (aa : Aligned al ad) (am : Aligned al m) (ac : Aligned al c) :
    trace (crypto_aead_encrypt al lw e sp c clen m mlen ad adlen nsec npub k) mem =
      trace (crypto_aead_encrypt 1 lw e sp c clen m mlen ad adlen nsec npub k) mem ∧
    (clen < 2 ^ 64 → mem.Writable mlen 8 →
      trace (crypto_aead_decrypt al lw e sp m mlen nsec c clen ad adlen npub k) mem =
        trace (crypto_aead_decrypt 1 lw e sp m mlen nsec c clen ad adlen npub k) mem) := by
  refine ⟨?_, fun hcl hw => ?_⟩
  · rw [encrypt_eq hal e lw sp c clen m mlen ad adlen nsec npub k ak an (fun _ => aa) (fun _ => am) (fun _ => ac)]
  · exact (decrypt_run_eq hal e lw sp m mlen nsec c clen ad adlen npub k mem hcl hw ak an (fun _ => aa) (fun _ => ac)
      (fun _ => am)).2

/-- A concrete, aligned call. -/
example : trace (crypto_aead_encrypt 4 32 .little 1000 200 300 100 20 32 5 0 16 0) Demo.mem =
    trace (crypto_aead_encrypt 1 32 .little 1000 200 300 100 20 32 5 0 16 0) Demo.mem :=
  (C67_esp32_same_trace 4 32 (by decide) .little Demo.mem 1000 200 300 100 20 32 5 0 16 0 (by unfold Aligned; decide)
    (by unfold Aligned; decide) (by unfold Aligned; decide) (by unfold Aligned; decide) (by unfold Aligned; decide)).1

end Ascon.Esp32
