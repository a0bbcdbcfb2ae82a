import Verif.Proof.Registry
import Verif.Proof.SpecSponge
import Verif.C.Footprint
import Verif.Props.Demo
/-!
# MAC and PRF properties (C23–C27)
-/

namespace Ascon.Props

open Ascon.C Ascon.Spec Ascon.Impl

attribute [local irreducible] perm

/-! ## C23: Ascon-Mac -/

/-- **C23** `crypto_auth(out, in, inlen, k)` of asconmacv13 returns 0 and writes the 16-byte Ascon-Mac tag;
`out` may overlap `in` and `k` in any way. -/
theorem C23_mac_auth (i : Auth) (e : Endian) (hi : i.runsOn e) (mem : Mem) (sp out inp k : Nat) (K M : List Byte)
    (hk : mem.Holds k K) (hK : K.length = 16) (hM : mem.Holds inp M) (hl : M.length < 2 ^ 64)
    (hw : mem.Writable out 16) :
    ∃ mem', run (i.macAuth e sp out inp M.length k) mem = some (0, mem') ∧ mem'.Holds out (mac K M) ∧
      (mac K M).length = 16 ∧ ∀ a, ¬ (out ≤ a ∧ a < out + 16) → mem' a = mem a := by
  have hlen : (mac K M).length = 16 := Ref.length_prfWith _ K M 16
  exact ⟨_, i.macAuth_correct e hi mem sp out inp k K M hk hK hM hl hw trivial, holds_writes_self _ _ _, hlen,
    fun a ha => writes_out (by rw [hlen]; omega)⟩

/-- **C23** `crypto_auth_verify(h, in, inlen, k)` returns 0 iff the 16 bytes at `h` are the tag of the message
under the key, otherwise -1; memory is unchanged. -/
theorem C23_mac_verify (i : Auth) (e : Endian) (hi : i.runsOn e) (mem : Mem) (sp h inp k : Nat) (K M T : List Byte)
    (hk : mem.Holds k K) (hK : K.length = 16) (hM : mem.Holds inp M) (hl : M.length < 2 ^ 64)
    (hT : mem.Holds h T) (hTl : T.length = 16) (hs : mem.Free sp 128) :
    ∃ r, run (i.macVerify e sp h inp M.length k) mem = some (r, mem) ∧
      (r = 0 ↔ T = mac K M) ∧ (r = 0 ∨ r = -1) := by
  refine ⟨_, i.macVerify_correct e hi mem sp h inp k K M T hk hK hM hl hT hTl trivial hs, ?_, ?_⟩ <;>
    by_cases hh : T = mac K M <;> simp [hh]

/-- **C23, end to end** A tag produced by `crypto_auth` of any implementation is accepted by
`crypto_auth_verify` of any other, and no other tag is. -/
theorem C23_auth_then_verify (i j : Auth) (e : Endian) (hi : i.runsOn e) (hj : j.runsOn e) (mem : Mem)
    (sp out inp k : Nat) (K M : List Byte)
    (hk : mem.Holds k K) (hK : K.length = 16) (hM : mem.Holds inp M) (hl : M.length < 2 ^ 64)
    (hw : mem.Writable out 16) (hs : mem.Free sp 128)
    (dk : Disjoint out 16 k 16) (dm : Disjoint out 16 inp M.length) (ds : Disjoint out 16 sp 128) :
    ∃ mem', run (i.macAuth e sp out inp M.length k) mem = some (0, mem') ∧
      run (j.macVerify e sp out inp M.length k) mem' = some (0, mem') ∧
      ∀ T : List Byte, T.length = 16 → T ≠ mac K M →
        run (j.macVerify e sp out inp M.length k) (mem'.writes out T) = some (-1, mem'.writes out T) := by
  have hlen : (mac K M).length = 16 := Ref.length_prfWith _ K M 16
  have fr : ∀ T : List Byte, T.length = 16 → ∀ m0 : Mem, m0.Holds k K → m0.Holds inp M → m0.Free sp 128 →
      (m0.writes out T).Holds k K ∧ (m0.writes out T).Holds inp M ∧ (m0.writes out T).Free sp 128 := by
    intro T hT m0 h1 h2 h3
    refine ⟨fun x hx => ?_, fun x hx => ?_, fun x hx => ?_⟩
    · rw [writes_out (by unfold Disjoint at *; omega)]; exact h1 x hx
    · rw [writes_out (by unfold Disjoint at *; omega)]; exact h2 x hx
    · rw [writes_out (by unfold Disjoint at *; omega)]; exact h3 x hx
  obtain ⟨f1, f2, f3⟩ := fr _ hlen mem hk hM hs
  refine ⟨_, i.macAuth_correct e hi mem sp out inp k K M hk hK hM hl hw trivial, ?_, ?_⟩
  · rw [j.macVerify_correct e hj _ sp out inp k K M _ f1 hK f2 hl (holds_writes_self _ _ _) hlen trivial f3,
      if_pos rfl]
  · intro T hT hne
    obtain ⟨g1, g2, g3⟩ := fr _ hT _ f1 f2 f3
    rw [j.macVerify_correct e hj _ sp out inp k K M T g1 hK g2 hl (holds_writes_self _ _ _) hT trivial g3,
      if_neg hne]

example : Demo.mem.Holds 0 Demo.K ∧ Demo.K.length = 16 ∧ Demo.mem.Holds 100 Demo.P ∧ Demo.mem.Writable 200 36 ∧
    Demo.mem.Free 1000 128 ∧ Disjoint 200 16 0 16 ∧ Disjoint 200 16 100 20 ∧ Disjoint 200 16 1000 128 ∧
    Demo.N ≠ mac Demo.K Demo.P :=
  ⟨Demo.holdsK, rfl, Demo.holdsP, Demo.out36, Demo.stack128, by unfold Disjoint; decide, by unfold Disjoint; decide,
    by unfold Disjoint; decide, by decide +kernel⟩

/-- **C23, agreement** -/
theorem C23_mac_agree (i j : Auth) (e : Endian) (hi : i.runsOn e) (hj : j.runsOn e) (mem : Mem)
    (sp out inp k : Nat) (K M : List Byte)
    (hk : mem.Holds k K) (hK : K.length = 16) (hM : mem.Holds inp M) (hl : M.length < 2 ^ 64)
    (hw : mem.Writable out 16) :
    run (i.macAuth e sp out inp M.length k) mem = run (j.macAuth e sp out inp M.length k) mem := by
  rw [i.macAuth_correct e hi mem sp out inp k K M hk hK hM hl hw trivial,
    j.macAuth_correct e hj mem sp out inp k K M hk hK hM hl hw trivial]

/-- **C23, `crypto_prf` with the MAC parameters** At most 16 bytes; more is refused. -/
theorem C23_mac_prf (i : Auth) (e : Endian) (hi : i.runsOn e) :
    (∀ (mem : Mem) (sp out n inp k : Nat) (K M : List Byte), mem.Holds k K → K.length = 16 → mem.Holds inp M →
      M.length < 2 ^ 64 → mem.Writable out n → n ≤ 16 →
      ∃ mem', run (i.macPrf e sp out n inp M.length k) mem = some (0, mem') ∧ mem'.Holds out ((mac K M).take n)) ∧
    (∀ (mem : Mem) (sp out n inp inlen k : Nat), 16 < n →
      run (i.macPrf e sp out n inp inlen k) mem = some (-1, mem)) := by
  refine ⟨?_, fun mem sp out n inp inlen k hn =>
    ((i.macPrf_correct e hi).2 mem sp out n inp inlen k (by omega)).1⟩
  intro mem sp out n inp k K M hk hK hM hl hw hn
  refine ⟨_, (i.macPrf_correct e hi).1 mem sp out n inp k K M hk hK hM hl hw hn, ?_⟩
  have : (mac K M).take n = prfWith ivMac K M n := (squeeze_prefix 16 _ n 16 (by omega) (by omega) hn).symm
  rw [this]
  exact holds_writes_self _ _ _

/-! ## C24: Ascon-Prf -/

/-- **C24** `crypto_prf(out, outlen, in, inlen, k)` of asconprfv13: for `outlen ≤ 64` the first `outlen` bytes of
the Ascon-Prf stream; otherwise -1 and memory is neither changed nor accessed. -/
theorem C24_prf (i : Auth) (e : Endian) (hi : i.runsOn e) :
    (∀ (mem : Mem) (sp out n inp k : Nat) (K M : List Byte), mem.Holds k K → K.length = 16 → mem.Holds inp M →
      M.length < 2 ^ 64 → mem.Writable out n → n ≤ 64 →
      ∃ mem', run (i.prf e sp out n inp M.length k) mem = some (0, mem') ∧ mem'.Holds out (prf K M n) ∧
        (prf K M n).length = n ∧ ∀ a, ¬ (out ≤ a ∧ a < out + n) → mem' a = mem a) ∧
    (∀ (mem : Mem) (sp out n inp inlen k : Nat), 64 < n →
      run (i.prf e sp out n inp inlen k) mem = some (-1, mem) ∧
      ∀ ev ∈ trace (i.prf e sp out n inp inlen k) mem, ev.addr = none) := by
  refine ⟨?_, fun mem sp out n inp inlen k hn => ?_⟩
  · intro mem sp out n inp k K M hk hK hM hl hw hn
    have hlen : (prf K M n).length = n := Ref.length_prfWith _ K M n
    exact ⟨_, (i.prf_correct e hi).1 mem sp out n inp k K M hk hK hM hl hw hn, holds_writes_self _ _ _, hlen,
      fun a ha => writes_out (by rw [hlen]; omega)⟩
  · obtain ⟨h1, h2⟩ := (i.prf_correct e hi).2 mem sp out n inp inlen k (by omega)
    refine ⟨h1, ?_⟩
    rw [h2]; intro ev hev
    rcases List.mem_singleton.mp hev with rfl
    rfl

/-- **C24, crypto_auth** of asconprfv13: a 64-byte tag, verified exactly. -/
theorem C24_prf_auth_verify (i : Auth) (e : Endian) (hi : i.runsOn e) (mem : Mem) (sp out h inp k : Nat)
    (K M T : List Byte) (hk : mem.Holds k K) (hK : K.length = 16) (hM : mem.Holds inp M) (hl : M.length < 2 ^ 64)
    (hw : mem.Writable out 64) (hT : mem.Holds h T) (hTl : T.length = 64) (hs : mem.Free sp 128) :
    (∃ mem', run (i.prfAuth e sp out inp M.length k) mem = some (0, mem') ∧ mem'.Holds out (prf K M 64)) ∧
    (∃ r, run (i.prfVerify e sp h inp M.length k) mem = some (r, mem) ∧
      (r = 0 ↔ T = prf K M 64) ∧ (r = 0 ∨ r = -1)) := by
  refine ⟨⟨_, i.prfAuth_correct e hi mem sp out inp k K M hk hK hM hl hw trivial, holds_writes_self _ _ _⟩,
    ⟨_, i.prfVerify_correct e hi mem sp h inp k K M T hk hK hM hl hT hTl trivial hs, ?_, ?_⟩⟩ <;>
    by_cases hh : T = prf K M 64 <;> simp [hh]

example : Demo.mem.Holds 0 Demo.K ∧ Demo.K.length = 16 ∧ Demo.mem.Holds 100 Demo.P ∧ Demo.mem.Writable 200 36 :=
  ⟨Demo.holdsK, rfl, Demo.holdsP, Demo.out36⟩

/-! ## C25: Ascon-PrfShort -/

/-- **C25** `crypto_prf` of asconprfsv13: for `inlen ≤ 16` and `outlen ≤ 16` the Ascon-PrfShort output, otherwise
-1 without accessing memory. -/
theorem C25_prfShort (i : Auth) (e : Endian) (hi : i.runsOn e) :
    (∀ (mem : Mem) (sp out n inp k : Nat) (K M : List Byte), mem.Holds k K → K.length = 16 → mem.Holds inp M →
      mem.Writable out n → M.length ≤ 16 → n ≤ 16 →
      ∃ mem', run (i.prfs e sp out n inp M.length k) mem = some (0, mem') ∧ mem'.Holds out (prfShort K M n) ∧
        (prfShort K M n).length = n ∧ ∀ a, ¬ (out ≤ a ∧ a < out + n) → mem' a = mem a) ∧
    (∀ (mem : Mem) (sp out n inp inlen k : Nat), 16 < inlen ∨ 16 < n →
      run (i.prfs e sp out n inp inlen k) mem = some (-1, mem) ∧
      ∀ ev ∈ trace (i.prfs e sp out n inp inlen k) mem, ev.addr = none) := by
  refine ⟨?_, fun mem sp out n inp inlen k hn => ?_⟩
  · intro mem sp out n inp k K M hk hK hM hw hm hn
    have hlen : (prfShort K M n).length = n := Ref.length_prfShort K M n hn
    exact ⟨_, (i.prfs_correct e hi).1 mem sp out n inp k K M hk hK hM (by omega) hw ⟨hm, hn⟩,
      holds_writes_self _ _ _, hlen, fun a ha => writes_out (by rw [hlen]; omega)⟩
  · obtain ⟨h1, h2⟩ := (i.prfs_correct e hi).2 mem sp out n inp inlen k (by omega)
    refine ⟨h1, ?_⟩
    rw [h2]; intro ev hev
    rcases List.mem_singleton.mp hev with rfl
    rfl

/-- **C25, crypto_auth / crypto_auth_verify** of asconprfsv13: exact verification for messages of at most 16
bytes; longer messages are refused by both (in particular never accepted), with memory unchanged. -/
theorem C25_prfShort_auth_verify (i : Auth) (e : Endian) (hi : i.runsOn e) :
    (∀ (mem : Mem) (sp out inp k : Nat) (K M : List Byte), mem.Holds k K → K.length = 16 → mem.Holds inp M →
      mem.Writable out 16 → M.length ≤ 16 →
      ∃ mem', run (i.prfsAuth e sp out inp M.length k) mem = some (0, mem') ∧ mem'.Holds out (prfShort K M 16)) ∧
    (∀ (mem : Mem) (sp h inp k : Nat) (K M T : List Byte), mem.Holds k K → K.length = 16 → mem.Holds inp M →
      mem.Holds h T → T.length = 16 → M.length ≤ 16 → mem.Free sp 128 →
      ∃ r, run (i.prfsVerify e sp h inp M.length k) mem = some (r, mem) ∧
        (r = 0 ↔ T = prfShort K M 16) ∧ (r = 0 ∨ r = -1)) ∧
    (∀ (mem : Mem) (sp out h inp len k : Nat), 16 < len →
      run (i.prfsAuth e sp out inp len k) mem = some (-1, mem) ∧
      run (i.prfsVerify e sp h inp len k) mem = some (-1, mem)) := by
  refine ⟨?_, ?_, fun mem sp out h inp len k hl =>
    ⟨i.prfsAuth_reject e mem sp out inp len k hl hi, i.prfsVerify_reject e mem sp h inp len k hl⟩⟩
  · intro mem sp out inp k K M hk hK hM hw hm
    exact ⟨_, i.prfsAuth_correct e hi mem sp out inp k K M hk hK hM (by omega) hw hm, holds_writes_self _ _ _⟩
  · intro mem sp h inp k K M T hk hK hM hT hTl hm hs
    refine ⟨_, i.prfsVerify_correct e hi mem sp h inp k K M T hk hK hM (by omega) hT hTl hm hs, ?_, ?_⟩ <;>
      by_cases hh : T = prfShort K M 16 <;> simp [hh]

example : Demo.mem.Holds 0 Demo.K ∧ Demo.mem.Holds 32 Demo.A ∧ Demo.A.length ≤ 16 ∧ Demo.mem.Holds 16 Demo.N ∧
    Demo.N.length = 16 ∧ Demo.mem.Free 1000 128 :=
  ⟨Demo.holdsK, Demo.holdsA, by decide, Demo.holdsN, rfl, Demo.stack128⟩

/-! ## C26, C27: constant time and footprint -/

/-- **C26** `crypto_auth_verify` (asconmacv13, asconprfv13, asconprfsv13): on memories that differ only in
contents (key, message, tag, anything) the addresses accessed and the branches taken are the same. -/
theorem C26_verify_constant_time (i : Auth) (e : Endian) (sp h inp len k : Nat) (mem1 mem2 : Mem)
    (hl : SameLayout mem1 mem2) :
    trace (i.macVerify e sp h inp len k) mem1 = trace (i.macVerify e sp h inp len k) mem2 ∧
    trace (i.prfVerify e sp h inp len k) mem1 = trace (i.prfVerify e sp h inp len k) mem2 ∧
    trace (i.prfsVerify e sp h inp len k) mem1 = trace (i.prfsVerify e sp h inp len k) mem2 := by
  obtain ⟨_, h1, _, _, h2, _, _, h3, _⟩ := i.ct e
  exact ⟨h1 sp h inp len k mem1 mem2 hl, h2 sp h inp len k mem1 mem2 hl, h3 sp h inp len k mem1 mem2 hl⟩

/-- A verification function meeting its contract accesses only the tag, the message, the key and its frame. -/
theorem verify_footprint {e : Endian} {F : List Byte → List Byte → List Byte} {n : Nat} {ok : Nat → Prop}
    {f : CryptoVerify} (hf : VerifyCorrectAt e F n ok f) (mem : Mem) (sp h inp k : Nat) (K M T : List Byte)
    (hk : mem.Holds k K) (hK : K.length = 16) (hM : mem.Holds inp M) (hl : M.length < 2 ^ 64)
    (hT : mem.Holds h T) (hTl : T.length = n) (hok : ok M.length) (hs : mem.Free sp 128) :
    ∀ ev ∈ trace (f e sp h inp M.length k) mem, ∀ a, ev.addr = some a →
      (inp ≤ a ∧ a < inp + M.length) ∨ (k ≤ a ∧ a < k + 16) ∨ (h ≤ a ∧ a < h + n) ∨ (sp ≤ a ∧ a < sp + 128) := by
  intro ev hev a ha
  apply Classical.byContradiction
  intro hn
  simp only [not_or] at hn
  obtain ⟨n1, n2, n3, n4⟩ := hn
  refine untouched _ mem a ?_ ev hev ha
  intro cell
  exact ⟨_, _, hf _ sp h inp k K M T (hk.upd (by rw [hK]; exact n2)) hK (hM.upd n1) hl
    (hT.upd (by rw [hTl]; exact n3)) hTl hok (hs.upd n4), upd_self _ _ _⟩

/-- **C26, footprint** Verification writes nothing that survives and reads nothing but `h`, `in`, `k` and its own
stack frame. -/
theorem C26_verify_safe (i : Auth) (e : Endian) (hi : i.runsOn e) (mem : Mem) (sp h inp k : Nat) (K M T : List Byte)
    (hk : mem.Holds k K) (hK : K.length = 16) (hM : mem.Holds inp M) (hl : M.length < 2 ^ 64)
    (hT : mem.Holds h T) (hTl : T.length = 16) (hs : mem.Free sp 128) :
    (∃ r, run (i.macVerify e sp h inp M.length k) mem = some (r, mem)) ∧
    ∀ ev ∈ trace (i.macVerify e sp h inp M.length k) mem, ∀ a, ev.addr = some a →
      (inp ≤ a ∧ a < inp + M.length) ∨ (k ≤ a ∧ a < k + 16) ∨ (h ≤ a ∧ a < h + 16) ∨ (sp ≤ a ∧ a < sp + 128) :=
  ⟨⟨_, i.macVerify_correct e hi mem sp h inp k K M T hk hK hM hl hT hTl trivial hs⟩,
    verify_footprint (i.macVerify_correct e hi) mem sp h inp k K M T hk hK hM hl hT hTl trivial hs⟩

example : SameLayout Demo.mem (Demo.mem.writes 0 Demo.N) := by
  intro a
  by_cases ha : a < 16
  · have : ∀ a : Fin 16, (Demo.mem a.val).shape = (Demo.mem.writes 0 Demo.N a.val).shape := by decide +kernel
    exact this ⟨a, ha⟩
  · rw [writes_out (by simp [Demo.N]; omega)]

/-- **C27, MAC/PRF** Tag generation and `crypto_prf` are constant-time. -/
theorem C27_prf_constant_time (i : Auth) (e : Endian) (sp out outlen inp len k : Nat) (mem1 mem2 : Mem)
    (hl : SameLayout mem1 mem2) :
    trace (i.macAuth e sp out inp len k) mem1 = trace (i.macAuth e sp out inp len k) mem2 ∧
    trace (i.macPrf e sp out outlen inp len k) mem1 = trace (i.macPrf e sp out outlen inp len k) mem2 ∧
    trace (i.prfAuth e sp out inp len k) mem1 = trace (i.prfAuth e sp out inp len k) mem2 ∧
    trace (i.prf e sp out outlen inp len k) mem1 = trace (i.prf e sp out outlen inp len k) mem2 ∧
    trace (i.prfsAuth e sp out inp len k) mem1 = trace (i.prfsAuth e sp out inp len k) mem2 ∧
    trace (i.prfs e sp out outlen inp len k) mem1 = trace (i.prfs e sp out outlen inp len k) mem2 := by
  obtain ⟨h1, _, h2, h3, _, h4, h5, _, h6⟩ := i.ct e
  exact ⟨h1 _ _ _ _ _ mem1 mem2 hl, h2 _ _ _ _ _ _ mem1 mem2 hl, h3 _ _ _ _ _ mem1 mem2 hl,
    h4 _ _ _ _ _ _ mem1 mem2 hl, h5 _ _ _ _ _ mem1 mem2 hl, h6 _ _ _ _ _ _ mem1 mem2 hl⟩

/-- **C39, PRF** Bytes `16b … 16b+15` of the PRF output are the first 16 bytes of the state after `b` further
permutation calls. -/
theorem C39_prf_blocks (i : Auth) (e : Endian) (hi : i.runsOn e) (mem : Mem) (sp out n inp k : Nat)
    (K M : List Byte) (hk : mem.Holds k K) (hK : K.length = 16) (hM : mem.Holds inp M) (hl : M.length < 2 ^ 64)
    (hw : mem.Writable out n) (hn : n ≤ 64) :
    ∃ mem', run (i.prf e sp out n inp M.length k) mem = some (0, mem') ∧
      ∀ b, 16 * b ≤ n → mem'.Holds (out + 16 * b) (rate (min 16 (n - 16 * b))
        (iterPerm b (prfAbsorb (prfInit ivPrf K) M))) := by
  refine ⟨_, (i.prf_correct e hi).1 mem sp out n inp k K M hk hK hM hl hw hn, ?_⟩
  intro b hb
  rw [← squeeze_block 16 _ n b (by omega) (by omega) hb]
  have h1 : (mem.writes out (prf K M n)).Holds out (prf K M n) := holds_writes_self _ _ _
  have h2 := h1.drop (16 * b) (by
    rw [show (prf K M n).length = n from Ref.length_prfWith _ K M n]; exact hb)
  exact h2.take 16

end Ascon.Props
