import Verif.Proof.AvrHash
import Verif.Proof.Opt8CT
import Verif.C.Footprint
import Verif.Props.Demo
/-!
# The avr directories: the assembly permutation (C40) and hash.c, prf.c, prfs.c (C47-C50)

AEAD of avr and everything of avr_lowsize are covered by the theorems over all registered implementations; this file is
about asconhash256/avr, asconxof128/avr, asconaeadxof128/avr (hash.c), asconmacv13/avr, asconprfv13/avr and
asconprfsv13/avr.  AVR is a little-endian target, so `.little` throughout.
-/

namespace Ascon.Avr

open Ascon.C Ascon.Spec Ascon.Opt8
attribute [local irreducible] perm

/-! ## C40: the assembly function -/

/-- **C40** The function `P` of permutations.S (AVR), called with the state at any address, any number of rounds from 1
to 12 and any contents of the caller's registers and flags: it returns, leaves the permuted state in `*s`, has popped
everything it pushed, r1 is zero (as the ABI demands) and the call-saved registers r2 ... r17, r28, r29 are what they
were. -/
theorem C40_avr_calling_convention (base : BitVec 16) (nr : Nat) (h0 : 0 < nr) (hn : nr ≤ 12) (regs : Nat → Byte)
    (c t : Bool) (s : State) (mem : Mem) :
    ∃ m, run (call .little base nr regs c t s) mem = some ((perm nr s, m), mem) ∧ m.stk = [] ∧ m.r 1 = 0 ∧
      (∀ i, 2 ≤ i → i ≤ 17 → m.r i = regs i) ∧ m.r 28 = regs 28 ∧ m.r 29 = regs 29 := by
  obtain ⟨m, h1, h2, h3, h4, h5⟩ := call_eq .little base nr h0 hn regs c t s
  refine ⟨m, ?_, h3, h4, fun i hi hi' => h5 i ?_, h5 28 ?_, h5 29 ?_⟩
  · rw [lit_little] at h2
    rw [h1, cells_little h2, run_tests]
  · have h : ∀ j, j ≤ 17 → 2 ≤ j → j ∈ calleeSaved := by decide
    exact h i hi' hi
  · decide
  · decide

/-- The permutations called by the modes are instances. -/
example : (0 < 12 ∧ 12 ≤ 12) ∧ (0 < 8 ∧ 8 ≤ 12) := by decide

/-! ## C47: Hash256 and XOF128 of avr are not collision resistant -/

/-- The two messages: any prefix of whole 8-byte blocks, then four bytes, or the same with two bits changed and a zero
byte appended. -/
def tail1 (P : List Byte) (a b c d : Byte) : List Byte := P ++ [a, b, c, d]
def tail2 (P : List Byte) (a b c d : Byte) : List Byte := P ++ [a, b, c ^^^ 1, d ^^^ 1, 0]

theorem tails_ne (P : List Byte) (a b c d : Byte) : tail1 P a b c d ≠ tail2 P a b c d := by
  intro h
  have := congrArg List.length h
  simp [tail1, tail2] at this

/-- **C47** `crypto_hash` of asconhash256/avr maps two different messages to the same digest, for every prefix of whole
blocks and all choices of four bytes, wherever the buffers are. -/
theorem C47_avr_hash256_collision (P : List Byte) (hP : P.length % 8 = 0) (a b c d : Byte) :
    tail1 P a b c d ≠ tail2 P a b c d ∧
    ∃ D : List Byte, D.length = 32 ∧
      ∀ M, (M = tail1 P a b c d ∨ M = tail2 P a b c d) → ∀ (mem : Mem) (sp out inp : Nat),
        mem.Holds inp M → mem.Writable out 32 →
        run (crypto_hash_hash256 perms avrPadAt .little sp out inp M.length) mem = some (0, mem.writes out D) := by
  refine ⟨tails_ne P a b c d, xofWith ivHash (tail1 P a b c d) 32, length_squeeze 8 _ 32 (by omega) (by omega), ?_⟩
  intro M hM mem sp out inp hm hw
  have h := run_xof perms_ok ASCON_HASH_IVS ivHash hash_ivs (sp := sp) hm hw
  have hs : xofWith ivHash M 32 = xofWith ivHash (tail1 P a b c d) 32 := by
    rcases hM with rfl | rfl
    · rfl
    · unfold xofWith
      rw [tail1, tail2, sponge_collision ivHash P hP a b c d]
  rw [← hs]
  exact h

/-- The same for `ascon_xof` of asconxof128/avr, and so for `crypto_hash` there (64 bytes): the outputs agree at every
length. -/
theorem C47_avr_xof128_collision (P : List Byte) (hP : P.length % 8 = 0) (a b c d : Byte)
    (n : Nat) :
    tail1 P a b c d ≠ tail2 P a b c d ∧
    ∃ D : List Byte, D.length = n ∧
      ∀ M, (M = tail1 P a b c d ∨ M = tail2 P a b c d) → ∀ (mem : Mem) (sp out inp : Nat),
        mem.Holds inp M → mem.Writable out n →
        run (ascon_xof_xof128 perms avrPadAt .little sp out n inp M.length) mem = some (0, mem.writes out D) := by
  refine ⟨tails_ne P a b c d, xofWith ivXof (tail1 P a b c d) n, length_squeeze 8 _ n (by omega) (by omega), ?_⟩
  intro M hM mem sp out inp hm hw
  have h := run_xof perms_ok ASCON_XOF_IVS ivXof xof_ivs (sp := sp) hm hw
  have hs : xofWith ivXof M n = xofWith ivXof (tail1 P a b c d) n := by
    rcases hM with rfl | rfl
    · rfl
    · unfold xofWith
      rw [tail1, tail2, sponge_collision ivXof P hP a b c d]
  rw [← hs]
  exact h

/-- A concrete pair: "abcd" and "ab" 0x62 0x65 0. -/
example : tail1 [] 0x61 0x62 0x63 0x64 = [0x61, 0x62, 0x63, 0x64] ∧
    tail2 [] 0x61 0x62 0x63 0x64 = [0x61, 0x62, 0x62, 0x65, 0] ∧
    (Demo.empty.writes 50 (tail2 [] 0x61 0x62 0x63 0x64)).Holds 50 (tail2 [] 0x61 0x62 0x63 0x64) :=
  ⟨by decide, by decide, holds_writes_self _ _ _⟩

/-! ## C48: Mac and Prf of avr can be forged -/

theorem mac_verify_exact {mem : Mem} {sp h inp k : Nat} {K M T : List Byte} (hk : mem.Holds k K) (hK : K.length = 16)
    (hM : mem.Holds inp M) (hl : M.length < 2 ^ 64) (hT : mem.Holds h T) (hTl : T.length = 16) (hs : mem.Free sp 128) :
    run (mac_crypto_auth_verify perms avrPadAt 0 .little sp h inp M.length k) mem =
      some (if T = prfWith ivMac K M 16 then 0 else -1, mem) :=
  Ref.run_verify (Avr.prf_with_correct perms_ok ivMac 16 (by omega)) (by omega)
    (fun K M => length_squeeze 16 _ 16 (by omega) (by omega)) (sp + 16) hk hK hM hl hT hTl (by simp) hs

theorem prfWith_collision (iv : Word) (K P : List Byte) (hP : P.length % 8 = 0) (a b c d : Byte) (n : Nat) :
    prfWith iv K (tail1 P a b c d) n = prfWith iv K (tail2 P a b c d) n := by
  unfold prfWith
  rw [tail1, tail2, prfState_collision _ P hP a b c d]

/-- **C48** asconmacv13/avr: whatever the secret key, the tag that `crypto_auth` computes for the first message is accepted
by `crypto_auth_verify` for the second one, which was never authenticated. -/
theorem C48_avr_mac_forgery (K P : List Byte) (hK : K.length = 16) (hP : P.length % 8 = 0) (hl : P.length + 5 < 2 ^ 64)
    (a b c d : Byte)
    (mem : Mem) (sp out inp k : Nat) (hk : mem.Holds k K) (hM : mem.Holds inp (tail1 P a b c d)) (hw : mem.Writable out 16)
    (mem2 : Mem) (sp2 t2 inp2 k2 : Nat) (hk2 : mem2.Holds k2 K) (hM2 : mem2.Holds inp2 (tail2 P a b c d))
    (hs2 : mem2.Free sp2 128) :
    ∃ (T : List Byte) (mem' : Mem), T.length = 16 ∧
      run (mac_crypto_auth perms avrPadAt 0 .little sp out inp (tail1 P a b c d).length k) mem = some (0, mem') ∧
      mem'.Holds out T ∧
      (mem2.Holds t2 T →
        run (mac_crypto_auth_verify perms avrPadAt 0 .little sp2 t2 inp2 (tail2 P a b c d).length k2) mem2 =
          some (0, mem2)) := by
  have hlen : (prfWith ivMac K (tail1 P a b c d) 16).length = 16 := length_squeeze 16 _ 16 (by omega) (by omega)
  have l1 : (tail1 P a b c d).length < 2 ^ 64 := by simp [tail1]; omega
  have l2 : (tail2 P a b c d).length < 2 ^ 64 := by simp [tail2]; omega
  refine ⟨_, _, hlen, (Avr.prf_with_correct perms_ok ivMac 16 (by omega)).1 mem sp out 16 inp k K _ hk hK hM l1 hw (by simp),
    holds_writes_self _ _ _, fun hT => ?_⟩
  rw [mac_verify_exact hk2 hK hM2 l2 hT hlen hs2, if_pos (prfWith_collision ivMac K P hP a b c d 16)]

/-- The hypotheses can be met: key, message and free memory. -/
example : ∃ mem : Mem, mem.Holds 0 Demo.K ∧ mem.Holds 500 (tail2 Demo.K 1 2 3 4) ∧ Demo.K.length % 8 = 0 ∧
    mem.Holds 600 Demo.N :=
  ⟨((Demo.mem.writes 500 (tail2 Demo.K 1 2 3 4)).writes 600 Demo.N),
    by unfold Mem.Holds; decide +kernel, by unfold Mem.Holds; decide +kernel, rfl, by unfold Mem.Holds; decide +kernel⟩

/-- asconprfv13/avr: `crypto_prf` gives the same output of every length on the two messages under every key. -/
theorem C48_avr_prf_collision (K P : List Byte) (hK : K.length = 16) (hP : P.length % 8 = 0) (hl : P.length + 5 < 2 ^ 64)
    (a b c d : Byte) (n : Nat) (hn : n ≤ 64) :
    tail1 P a b c d ≠ tail2 P a b c d ∧
    ∃ D : List Byte, D.length = n ∧
      ∀ M, (M = tail1 P a b c d ∨ M = tail2 P a b c d) → ∀ (mem : Mem) (sp out inp k : Nat),
        mem.Holds k K → mem.Holds inp M → mem.Writable out n →
        run (prf_crypto_prf perms avrPadAt 0 .little sp out n inp M.length k) mem = some (0, mem.writes out D) := by
  refine ⟨tails_ne P a b c d, prfWith ivPrf K (tail1 P a b c d) n, length_squeeze 16 _ n (by omega) (by omega), ?_⟩
  intro M hM mem sp out inp k hk hm hw
  have hml : M.length < 2 ^ 64 := by rcases hM with rfl | rfl <;> simp [tail1, tail2] <;> omega
  have h := (Avr.prf_with_correct perms_ok ivPrf 64 (by omega)).1 mem sp out n inp k K M hk hK hm hml hw hn
  have hs : prfWith ivPrf K M n = prfWith ivPrf K (tail1 P a b c d) n := by
    rcases hM with rfl | rfl
    · rfl
    · exact (prfWith_collision ivPrf K P hP a b c d n).symm
  rw [← hs]
  exact h

/-! ## C49: not the standard functions -/

/-- **C49** asconhash256/avr does not compute Ascon-Hash256, asconxof128/avr does not compute Ascon-XOF128: already the
digest of the empty message differs. -/
theorem C49_avr_hash_not_standard :
    ¬ HashCorrectAt .little hash256 32 (crypto_hash_hash256 perms avrPadAt) ∧
    ¬ XofCorrectAt .little xof128 (ascon_xof_xof128 perms avrPadAt) := by
  have hm : Demo.mem.Holds 100 ([] : List Byte) := fun i hi => absurd hi (Nat.not_lt_zero i)
  have hw : Demo.mem.Writable 200 32 := fun i hi => Demo.out36 i (by omega)
  have hf : Demo.mem.Free 1000 64 := fun i hi => Demo.stack128 i (by omega)
  constructor
  · intro h
    have h1 := h Demo.mem 1000 200 100 [] hm (by decide) hw hf
    have h2 := run_xof perms_ok ASCON_HASH_IVS ivHash hash_ivs (sp := 1000) hm hw
    have h3 : Demo.mem.writes 200 (hash256 []) = Demo.mem.writes 200 (xofWith ivHash [] 32) := by
      exact (Prod.mk.inj (Option.some.inj (h1.symm.trans h2))).2
    have h4 := congrFun h3 200
    revert h4
    decide +kernel
  · intro h
    have h1 := h Demo.mem 1000 200 32 100 [] hm (by decide) (by decide) hw hf
    have h2 := run_xof perms_ok ASCON_XOF_IVS ivXof xof_ivs (sp := 1000) hm hw
    have h3 : Demo.mem.writes 200 (xof128 [] 32) = Demo.mem.writes 200 (xofWith ivXof [] 32) := by
      exact (Prod.mk.inj (Option.some.inj (h1.symm.trans h2))).2
    have h4 := congrFun h3 200
    revert h4
    decide +kernel

/-- asconmacv13/avr does not compute Ascon-Mac and asconprfv13/avr does not compute Ascon-Prf. -/
theorem C49_avr_mac_not_standard :
    ¬ AuthCorrectAt .little mac 16 (fun _ => True) (mac_crypto_auth perms avrPadAt 0) ∧
    ¬ AuthCorrectAt .little (fun K M => prf K M 64) 64 (fun _ => True) (prf_crypto_auth perms avrPadAt 0) := by
  have hm : (Demo.mem.fill 400 64 .uninit).Holds 32 Demo.A := by unfold Mem.Holds; decide +kernel
  have hk : (Demo.mem.fill 400 64 .uninit).Holds 0 Demo.K := by unfold Mem.Holds; decide +kernel
  have hw : (Demo.mem.fill 400 64 .uninit).Writable 400 64 := by unfold Mem.Writable; decide +kernel
  constructor
  · intro h
    have h1 := h _ 1000 400 32 0 _ _ hk rfl hm (by decide) (fun i hi => hw i (by omega)) trivial
    have h2 := (Avr.prf_with_correct perms_ok ivMac 16 (by omega)).1 _ 1000 400 16 32 0 _ _ hk rfl hm (by decide)
      (fun i hi => hw i (by omega)) (by simp)
    have h3 := h1.symm.trans h2
    injection h3 with h3
    injection h3 with _ h3
    have h4 := congrFun h3 400
    revert h4
    decide +kernel
  · intro h
    have h1 := h _ 1000 400 32 0 _ _ hk rfl hm (by decide) hw trivial
    have h2 := (Avr.prf_with_correct perms_ok ivPrf 64 (by omega)).1 _ 1000 400 64 32 0 _ _ hk rfl hm (by decide)
      hw (by simp)
    have h3 := h1.symm.trans h2
    injection h3 with h3
    injection h3 with _ h3
    have h4 := congrFun h3 400
    revert h4
    decide +kernel

/-! ## C50: what still holds of these directories -/

/-- **C50** asconhash256/avr and asconxof128/avr are memory safe for all messages: they return 0, write exactly the output
bytes and access no other memory than the message and the output. -/
theorem C50_avr_hash_safe (mem : Mem) (sp out n inp : Nat) (M : List Byte) (hM : mem.Holds inp M) (hw : mem.Writable out n) :
    (∃ D : List Byte, D.length = n ∧
      run (ascon_xof_xof128 perms avrPadAt .little sp out n inp M.length) mem = some (0, mem.writes out D)) ∧
    (∀ ev ∈ trace (ascon_xof_xof128 perms avrPadAt .little sp out n inp M.length) mem, ∀ a, ev.addr = some a →
      (inp ≤ a ∧ a < inp + M.length) ∨ (out ≤ a ∧ a < out + n)) := by
  have hlen : ∀ M, (xofWith ivXof M n).length = n := fun M => length_squeeze 8 _ n (by omega) (by omega)
  refine ⟨⟨_, hlen M, run_xof perms_ok ASCON_XOF_IVS ivXof xof_ivs (sp := sp) hM hw⟩, ?_⟩
  intro ev hev a ha
  apply Classical.byContradiction
  intro hn
  simp only [not_or] at hn
  refine untouched _ mem a ?_ ev hev ha
  intro cell
  refine ⟨_, _, run_xof perms_ok ASCON_XOF_IVS ivXof xof_ivs (sp := sp) (hM.upd hn.1) (hw.upd hn.2), ?_⟩
  rw [writes_out (by rw [hlen]; omega)]
  exact upd_self _ _ _

/-- The same for Hash256. -/
theorem C50_avr_hash256_safe (mem : Mem) (sp out inp : Nat) (M : List Byte) (hM : mem.Holds inp M) (hw : mem.Writable out 32) :
    (∃ D : List Byte, D.length = 32 ∧
      run (crypto_hash_hash256 perms avrPadAt .little sp out inp M.length) mem = some (0, mem.writes out D)) ∧
    (∀ ev ∈ trace (crypto_hash_hash256 perms avrPadAt .little sp out inp M.length) mem, ∀ a, ev.addr = some a →
      (inp ≤ a ∧ a < inp + M.length) ∨ (out ≤ a ∧ a < out + 32)) := by
  have hlen : ∀ M, (xofWith ivHash M 32).length = 32 := fun M => length_squeeze 8 _ 32 (by omega) (by omega)
  refine ⟨⟨_, hlen M, run_xof perms_ok ASCON_HASH_IVS ivHash hash_ivs (sp := sp) hM hw⟩, ?_⟩
  intro ev hev a ha
  apply Classical.byContradiction
  intro hn
  simp only [not_or] at hn
  refine untouched _ mem a ?_ ev hev ha
  intro cell
  refine ⟨_, _, run_xof perms_ok ASCON_HASH_IVS ivHash hash_ivs (sp := sp) (hM.upd hn.1) (hw.upd hn.2), ?_⟩
  rw [writes_out (by rw [hlen]; omega)]
  exact upd_self _ _ _

/-- Tag verification of asconmacv13/avr is exact for its own tag function: a tag produced by `crypto_auth` is accepted, every
other tag of the same message is refused, and verification leaves memory as it was. -/
theorem C50_avr_auth_then_verify (mem : Mem) (sp out inp k : Nat) (K M : List Byte) (hk : mem.Holds k K)
    (hK : K.length = 16) (hM : mem.Holds inp M) (hl : M.length < 2 ^ 64) (hw : mem.Writable out 16)
    (mem2 : Mem) (sp2 h2 inp2 k2 : Nat) (T : List Byte) (hk2 : mem2.Holds k2 K) (hM2 : mem2.Holds inp2 M)
    (hT : mem2.Holds h2 T) (hTl : T.length = 16) (hs2 : mem2.Free sp2 128) :
    ∃ mem' D r, run (mac_crypto_auth perms avrPadAt 0 .little sp out inp M.length k) mem = some (0, mem') ∧
      D.length = 16 ∧ mem'.Holds out D ∧
      run (mac_crypto_auth_verify perms avrPadAt 0 .little sp2 h2 inp2 M.length k2) mem2 = some (r, mem2) ∧
      (r = 0 ∨ r = -1) ∧ (r = 0 ↔ T = D) := by
  refine ⟨_, prfWith ivMac K M 16, _,
    (Avr.prf_with_correct perms_ok ivMac 16 (by omega)).1 mem sp out 16 inp k K M hk hK hM hl hw (by simp),
    length_squeeze 16 _ 16 (by omega) (by omega), holds_writes_self _ _ _, mac_verify_exact hk2 hK hM2 hl hT hTl hs2, ?_, ?_⟩ <;>
    by_cases hh : T = prfWith ivMac K M 16 <;> simp [hh]

/-- Constant time: the sequence of branches and addresses depends on the addresses and lengths only, for all functions of
hash.c, prf.c and prfs.c of avr. -/
theorem C50_avr_constant_time (sp out outlen inp len k : Nat) (mem1 mem2 : Mem) (hl : SameLayout mem1 mem2) :
    trace (crypto_hash_hash256 perms avrPadAt .little sp out inp len) mem1 =
      trace (crypto_hash_hash256 perms avrPadAt .little sp out inp len) mem2 ∧
    trace (ascon_xof_xof128 perms avrPadAt .little sp out outlen inp len) mem1 =
      trace (ascon_xof_xof128 perms avrPadAt .little sp out outlen inp len) mem2 ∧
    trace (mac_crypto_auth perms avrPadAt 0 .little sp out inp len k) mem1 =
      trace (mac_crypto_auth perms avrPadAt 0 .little sp out inp len k) mem2 ∧
    trace (mac_crypto_auth_verify perms avrPadAt 0 .little sp out inp len k) mem1 =
      trace (mac_crypto_auth_verify perms avrPadAt 0 .little sp out inp len k) mem2 ∧
    trace (prf_crypto_prf perms avrPadAt 0 .little sp out outlen inp len k) mem1 =
      trace (prf_crypto_prf perms avrPadAt 0 .little sp out outlen inp len k) mem2 ∧
    trace (prf_crypto_auth_verify perms avrPadAt 0 .little sp out inp len k) mem1 =
      trace (prf_crypto_auth_verify perms avrPadAt 0 .little sp out inp len k) mem2 ∧
    trace (prfs_crypto_prf perms .little sp out outlen inp len k) mem1 =
      trace (prfs_crypto_prf perms .little sp out outlen inp len k) mem2 ∧
    trace (prfs_crypto_auth_verify perms .little sp out inp len k) mem1 =
      trace (prfs_crypto_auth_verify perms .little sp out inp len k) mem2 :=
  ⟨(sim_xof (perms_ct _) _ _ _ _ _ _ _).constTime mem1 mem2 hl,
    (sim_xof (perms_ct _) _ _ _ _ _ _ _).constTime mem1 mem2 hl,
    (sim_prf_with (perms_ct _) _ _ _ _ sp _ _ _ _ _).constTime mem1 mem2 hl,
    (sim_verify_with (fun _ _ _ _ _ _ => sim_prf_with (perms_ct _) _ _ _ _ _ _ _ _ _ _) sp _ _ _ _).constTime mem1 mem2 hl,
    (sim_prf_with (perms_ct _) _ _ _ _ sp _ _ _ _ _).constTime mem1 mem2 hl,
    (sim_verify_with (fun _ _ _ _ _ _ => sim_prf_with (perms_ct _) _ _ _ _ _ _ _ _ _ _) sp _ _ _ _).constTime mem1 mem2 hl,
    (sim_prfs (perms_ct _) _ _ _ _ _ _).constTime mem1 mem2 hl,
    (sim_prfs_verify (perms_ct _) _ _ _ _ _).constTime mem1 mem2 hl⟩

/-- The Demo memory and the same with another key have the same layout, so the previous theorem applies. -/
example : SameLayout Demo.mem Demo.mem := fun _ => rfl

/-- asconprfsv13/avr computes Ascon-PrfShort: `crypto_prf`, `crypto_auth` and `crypto_auth_verify` meet the same contracts as
the other implementations. -/
theorem C50_avr_prfShort :
    PrfCorrectAt .little prfShort (fun inlen outlen => inlen ≤ 16 ∧ outlen ≤ 16) (prfs_crypto_prf perms) ∧
    AuthCorrectAt .little (fun K M => prfShort K M 16) 16 (fun n => n ≤ 16) (prfs_crypto_auth perms) ∧
    VerifyCorrectAt .little (fun K M => prfShort K M 16) 16 (fun n => n ≤ 16) (prfs_crypto_auth_verify perms) ∧
    (∀ (mem : Mem) (sp h inp len k : Nat), 16 < len →
      run (prfs_crypto_auth_verify perms .little sp h inp len k) mem = some (-1, mem)) :=
  ⟨prfs_correct perms_ok, prfs_auth_correct perms_ok, prfs_verify_correct perms_ok,
    fun mem sp h inp len k hl => prfs_verify_reject perms .little mem sp h inp len k hl⟩

end Ascon.Avr
