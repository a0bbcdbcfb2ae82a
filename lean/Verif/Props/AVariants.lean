import Verif.Proof.GenA
import Verif.Proof.SpecSponge
import Verif.C.Footprint
import Verif.Props.Hash
import Verif.Props.Aead
/-!
# C72: Ascon-Hasha, Ascon-Xofa, Ascon-Prfa and Ascon-Maca, the 8-round configurations of src/hash.c and src/prf.c
-/

namespace Ascon.Props

open Ascon.C Ascon.Spec Ascon.Gen Ascon.Impl

attribute [local irreducible] perm

/-- **C72, Ascon-Hasha** for every backend: returns 0, writes the 32-byte digest, changes nothing else. -/
theorem C72_hasha (c : Core) (e : Endian) (h : c.runsOn e) : HashCorrectAt e A.hasha 32 c.hasha :=
  fun mem sp out inp M hM hMl hw hs =>
    a_xof_correct (c.ok e h) _ _ c.aivs_ok.1 mem sp out 32 inp M hM hMl (by omega) hw hs

/-- **C72, Ascon-Xofa**, any output length. -/
theorem C72_xofa (c : Core) (e : Endian) (h : c.runsOn e) : XofCorrectAt e A.xofa c.xofa :=
  a_xof_correct (c.ok e h) _ _ c.aivs_ok.2.1

/-- **C72, Ascon-Prfa**: outputs of up to 64 bytes; longer requests are refused without touching memory. -/
theorem C72_prfa (c : Core) (e : Endian) (h : c.runsOn e) : PrfCorrectAt e A.prfa (fun _ outlen => outlen ≤ 64) c.prfa :=
  a_prf_with_correct (c.ok e h) _ _ c.aivs_ok.2.2.1 64 (by omega)

/-- **C72, Ascon-Maca** -/
theorem C72_maca (c : Core) (e : Endian) (h : c.runsOn e) : AuthCorrectAt e A.maca 16 (fun _ => True) c.maca :=
  fun mem sp out inp k K M hk hK hM hMl hw _ =>
    (a_prf_with_correct (c.ok e h) _ _ c.aivs_ok.2.2.2 16 (by omega)).1 mem sp out 16 inp k K M hk hK hM hMl hw (by simp)

/-- **C72, verification** returns 0 exactly for the right tag and changes no memory. -/
theorem C72_maca_verify (c : Core) (e : Endian) (h : c.runsOn e) :
    VerifyCorrectAt e A.maca 16 (fun _ => True) c.macaVerify :=
  a_verify_correct (c.ok e h) _ _ c.aivs_ok.2.2.2

/-- **C72, initial values**: the tables of the three constants.h are the states the permutation reaches from the initial
values, in the layout of the backend. -/
theorem C72_initial_values (c : Core) :
    c.family.aivs.HASHA = encS c.enc (perm 12 ⟨A.ivHasha, 0, 0, 0, 0⟩) ∧
    c.family.aivs.XOFA = encS c.enc (perm 12 ⟨A.ivXofa, 0, 0, 0, 0⟩) ∧
    c.family.aivs.PRFA = c.enc A.ivPrfa ∧ c.family.aivs.MACA = c.enc A.ivMaca := c.aivs_ok

/-- **C72, lengths and prefixes**: the output has the requested length, and a shorter output is a prefix of a longer one. -/
theorem C72_xofa_prefix (M : List Byte) (n n' : Nat) (h : n ≤ n') :
    (A.xofa M n).length = n ∧ A.xofa M n = (A.xofa M n').take n := by
  refine ⟨a_length_squeeze 8 _ n (by omega) (by omega), ?_⟩
  unfold A.xofa A.xofWith
  generalize perm 12 _ = s
  induction n using Nat.strongRecOn generalizing s n' with
  | ind n ih =>
    by_cases hn : 8 ≤ n
    · rw [a_squeeze_of_ge 8 s n (by omega) (by omega) hn, a_squeeze_of_ge 8 s n' (by omega) (by omega) (by omega),
        List.take_append, length_rate 8 s (by omega), List.take_of_length_le (by rw [length_rate 8 s (by omega)]; exact hn),
        ih (n - 8) (by omega) (n' - 8) (by omega) (perm 8 s)]
    · rw [a_squeeze_of_le 8 s n (by omega) (by omega)]
      by_cases hn' : 8 ≤ n'
      · rw [a_squeeze_of_ge 8 s n' (by omega) (by omega) hn',
          List.take_append_of_le_length (by rw [length_rate 8 s (by omega)]; omega), rate_take, Nat.min_eq_left (by omega)]
      · rw [a_squeeze_of_le 8 s n' (by omega) (by omega), rate_take, Nat.min_eq_left (by omega)]

/-- **C72, footprint of Xofa** (Hasha is the case `n = 32`): only the message and the output are accessed, only the output changes. -/
theorem C72_xofa_safe (c : Core) (e : Endian) (h : c.runsOn e) (ivs : State) (iv : Word)
    (hiv : ivs = encS c.enc (spongeInit iv)) (mem : Mem) (sp out n inp : Nat) (M : List Byte)
    (hM : mem.Holds inp M) (hMl : M.length < 2 ^ 64) (hn : n < 2 ^ 64) (hw : mem.Writable out n) (hs : mem.Free sp 64) :
    (∃ mem', run (a_xof c.backend ivs e sp out n inp M.length) mem = some (0, mem') ∧
      ∀ a, ¬ InRange out n a → mem' a = mem a) ∧
    ∀ ev ∈ trace (a_xof c.backend ivs e sp out n inp M.length) mem, ∀ a, ev.addr = some a →
      InRange inp M.length a ∨ InRange out n a ∨ InRange sp 64 a := by
  have hl : (A.xofWith iv M n).length = n := a_length_squeeze 8 _ n (by omega) (by omega)
  have frame : ∀ (m : Mem) a, ¬ InRange out n a → m.writes out (A.xofWith iv M n) a = m a := by
    intro m a h1
    unfold InRange at h1
    rw [writes_out (by rw [hl]; omega)]
  refine ⟨⟨_, a_xof_correct (c.ok e h) ivs iv hiv mem sp out n inp M hM hMl hn hw hs, frame mem⟩, ?_⟩
  intro ev hev a ha
  apply Classical.byContradiction
  intro hn'
  simp only [not_or] at hn'
  obtain ⟨n1, n2, n3⟩ := hn'
  refine untouched _ mem a ?_ ev hev ha
  intro cell
  refine ⟨_, _, a_xof_correct (c.ok e h) ivs iv hiv (mem.upd a cell) sp out n inp M (hM.upd n1) hMl hn (hw.upd n2)
    (hs.upd n3), ?_⟩
  rw [frame _ a n2, upd_self]

/-- **C72, constant time** -/
theorem C72_xofa_constant_time (c : Core) (e : Endian) (sp out n inp len : Nat)
    (mem1 mem2 : Mem) (h : SameLayout mem1 mem2) :
    trace (c.xofa e sp out n inp len) mem1 = trace (c.xofa e sp out n inp len) mem2 :=
  (a_sim_xof (c.ct e) _ sp out n inp len).trace_eq h

theorem C72_hasha_constant_time (c : Core) (e : Endian) (sp out inp len : Nat)
    (mem1 mem2 : Mem) (h : SameLayout mem1 mem2) :
    trace (c.hasha e sp out inp len) mem1 = trace (c.hasha e sp out inp len) mem2 :=
  (a_sim_xof (c.ct e) _ sp out 32 inp len).trace_eq h

theorem C72_prfa_constant_time (c : Core) (e : Endian) (sp out n inp len k : Nat)
    (mem1 mem2 : Mem) (h : SameLayout mem1 mem2) :
    trace (c.prfa e sp out n inp len k) mem1 = trace (c.prfa e sp out n inp len k) mem2 :=
  (a_sim_prf_with (c.ct e) _ 64 sp out n inp len k).trace_eq h

theorem C72_maca_verify_constant_time (c : Core) (e : Endian) (sp t inp len k : Nat)
    (mem1 mem2 : Mem) (h : SameLayout mem1 mem2) :
    trace (c.macaVerify e sp t inp len k) mem1 = trace (c.macaVerify e sp t inp len k) mem2 :=
  (a_sim_verify_with (c.ct e) _ 16 sp t inp len k).trace_eq h

/-- **C72, unambiguous input**: the 40-byte blocks that Ascon-Prfa absorbs (the complete ones, and the padded last one with
the domain separation bit flipped in its last byte) determine the message. -/
theorem C72_prfa_blocks_injective (M M' : List Byte) (h1 : fullBlocks 40 M = fullBlocks 40 M')
    (h2 : ∀ i, (pad 40 (lastBlock 40 M)).getD i 0 ^^^ (if i = 39 then 0x80 else 0) =
      (pad 40 (lastBlock 40 M')).getD i 0 ^^^ (if i = 39 then 0x80 else 0)) : M = M' := by
  have e : pad 40 (lastBlock 40 M) = pad 40 (lastBlock 40 M') := by
    have hp : ∀ L : List Byte, (pad 40 (lastBlock 40 L)).length = 40 := by
      intro L
      have := length_lastBlock 40 L
      have := Nat.mod_lt L.length (show 0 < 40 by omega)
      simp [pad]
      omega
    have hl := hp M
    have hl' := hp M'
    apply List.ext_getElem (by rw [hl, hl'])
    intro i a b
    have := h2 i
    simp only [List.getD_eq_getElem?_getD, List.getElem?_eq_getElem a, List.getElem?_eq_getElem b, Option.getD_some] at this
    exact (BitVec.xor_left_inj _).1 this
  rw [← fullBlocks_flatten_append_lastBlock 40 M (by omega), h1, pad_injective e,
    fullBlocks_flatten_append_lastBlock 40 M' (by omega)]

/-! ### Concrete cases -/

/-- The hypotheses are met: 20 bytes hashed to a 36-byte buffer. -/
example : run (Core.xofa .bi32 .little 1000 200 36 100 20) Demo.mem = some (0, Demo.mem.writes 200 (A.xofa Demo.P 36)) :=
  C72_xofa .bi32 .little rfl Demo.mem 1000 200 36 100 Demo.P Demo.holdsP (by decide) (by decide) Demo.out36
    (by unfold Mem.Free; decide +kernel)

example : run (Core.maca .opt64 .big 1000 200 100 20 0) Demo.mem = some (0, Demo.mem.writes 200 (A.maca Demo.K Demo.P)) :=
  C72_maca .opt64 .big trivial Demo.mem 1000 200 100 0 Demo.K Demo.P Demo.holdsK (by decide) Demo.holdsP (by decide)
    (Demo.out36.mono (by omega) (by omega)) trivial

end Ascon.Props

namespace Ascon.Props

open Ascon.C Ascon.Spec Ascon.Gen Ascon.Impl

/-- The variants are different functions from those with 12 rounds. -/
example : A.hasha [] ≠ hash256 [] ∧ A.maca Demo.K Demo.P ≠ mac Demo.K Demo.P := by decide +kernel

/-- src/prf.c:25-31 for `ASCON_PRF_BYTES = 32`, `ASCON_PRF_ROUNDS = 12` (a configuration the source has a case for; CRYPTO_BYTES = 32), on
little-endian machines: none of lines 25-28 applies, and line 29 is `s.x[0] ^= 32 * 8` on the uninitialised `s`; `junk` is what
`s.x[0]` held. -/
def prf32 (c : Core) (junk : Word) : CryptoPrf := crypto_prf_with c.backend (junk ^^^ c.enc 256) 32

/-- **C72, defect**: for any other `ASCON_PRF_BYTES` than 0 and 16 the source reads its state before initialising it, so the
output is not a function of key and message: two runs on the same memory write different tags. -/
theorem C72_other_output_sizes_undetermined :
    ∃ (mem : Mem) (sp out inp len k : Nat) (j1 j2 : Word) (m1 m2 : Mem),
      run (prf32 .opt64 j1 .little sp out 32 inp len k) mem = some (0, m1) ∧
      run (prf32 .opt64 j2 .little sp out 32 inp len k) mem = some (0, m2) ∧ m1 out ≠ m2 out := by
  have h := fun iv => (prf_with_correct (Core.ok .opt64 .little trivial) iv iv rfl 32 (by omega)).1
    Demo.mem 1000 200 32 100 0 Demo.K Demo.P Demo.holdsK (by decide) Demo.holdsP (by decide)
    (Demo.out36.mono (by omega) (by omega)) (by simp)
  refine ⟨Demo.mem, 1000, 200, 100, 20, 0, 0, 1, _, _, h _, h _, ?_⟩
  decide +kernel

end Ascon.Props
