import Verif.Proof.Registry
import Verif.Proof.SpecSponge
import Verif.C.Footprint
import Verif.Props.Demo
/-!
# Hash, XOF, CXOF properties (C14–C21, C27, C38, C39)
-/

namespace Ascon.Props

open Ascon.C Ascon.Spec Ascon.Impl

attribute [local irreducible] perm

/-! ## C14, C15, C17: the code computes the specified functions -/

/-- **C14** `crypto_hash(out, in, inlen)` returns 0 and writes the 32-byte Ascon-Hash256 digest to `out`
(reference and all other implementations). -/
theorem C14_hash256 (i : Hash) (e : Endian) (hi : i.runsOn e) (mem : Mem) (sp out inp : Nat) (M : List Byte)
    (hM : mem.Holds inp M) (hl : M.length < 2 ^ 64) (hw : mem.Writable out 32) (hs : mem.Free sp 64) :
    ∃ mem', run (i.hash256 e sp out inp M.length) mem = some (0, mem') ∧ mem'.Holds out (hash256 M) ∧
      (hash256 M).length = 32 :=
  ⟨_, i.hash256_correct e hi mem sp out inp M hM hl hw hs, holds_writes_self _ _ _,
    length_squeeze 8 _ 32 (by omega) (by omega)⟩

example : Demo.mem.Holds 100 Demo.P ∧ Demo.mem.Writable 200 36 ∧ Demo.mem.Free 1000 128 :=
  ⟨Demo.holdsP, Demo.out36, Demo.stack128⟩

/-- **C15** `ascon_xof(out, outlen, in, inlen)` writes the first `outlen` bytes of the Ascon-XOF128 stream. -/
theorem C15_xof128 (i : Xof) (e : Endian) (hi : i.runsOn e) (mem : Mem) (sp out n inp : Nat) (M : List Byte)
    (hM : mem.Holds inp M) (hl : M.length < 2 ^ 64) (hn : n < 2 ^ 64) (hw : mem.Writable out n)
    (hs : mem.Free sp 64) :
    ∃ mem', run (i.xof128 e sp out n inp M.length) mem = some (0, mem') ∧ mem'.Holds out (xof128 M n) ∧
      (xof128 M n).length = n :=
  ⟨_, i.xof128_correct e hi mem sp out n inp M hM hl hn hw hs, holds_writes_self _ _ _,
    length_squeeze 8 _ n (by omega) (by omega)⟩

/-- **C15, crypto_hash** of asconxof128: 64 bytes. -/
theorem C15_crypto_hash_xof128 (i : HashX) (e : Endian) (hi : i.runsOn e) (mem : Mem) (sp out inp : Nat)
    (M : List Byte) (hM : mem.Holds inp M) (hl : M.length < 2 ^ 64) (hw : mem.Writable out 64)
    (hs : mem.Free sp 64) :
    ∃ mem', run (i.xof128 e sp out inp M.length) mem = some (0, mem') ∧ mem'.Holds out (xof128 M 64) :=
  ⟨_, i.xof128_correct e hi mem sp out inp M hM hl hw hs, holds_writes_self _ _ _⟩

/-- **C17** `crypto_cxof(out, outlen, in, inlen, cs, cslen)` (reference) writes Ascon-CXOF128 output; its
`crypto_hash` is CXOF with empty customization string and 64 bytes of output. -/
theorem C17_cxof128 (e : Endian) (mem : Mem) (sp out n inp cs : Nat) (Z M : List Byte)
    (hM : mem.Holds inp M) (hl : M.length < 2 ^ 64) (hZ : mem.Holds cs Z) (hlz : Z.length < 2 ^ 64)
    (hn : n < 2 ^ 64) (hw : mem.Writable out n) (hs : mem.Free sp 64) :
    ∃ mem', run (Ref.crypto_cxof e sp out n inp M.length cs Z.length) mem = some (0, mem') ∧
      mem'.Holds out (cxof128 Z M n) ∧ (cxof128 Z M n).length = n :=
  ⟨_, Ref.cxof_correct e mem sp out n inp cs Z M hM hl hZ hlz hn hw hs, holds_writes_self _ _ _,
    length_squeeze 8 _ n (by omega) (by omega)⟩

theorem C17_crypto_hash_cxof128 (e : Endian) (mem : Mem) (sp out inp : Nat) (M : List Byte)
    (hM : mem.Holds inp M) (hl : M.length < 2 ^ 64) (hw : mem.Writable out 64) (hs : mem.Free sp 64) :
    ∃ mem', run (Ref.crypto_hash_cxof128 e sp out inp M.length) mem = some (0, mem') ∧
      mem'.Holds out (cxof128 [] M 64) :=
  ⟨_, Ref.hash_cxof_correct e mem sp out inp M hM hl hw hs, holds_writes_self _ _ _⟩

example : Demo.mem.Holds 100 Demo.P ∧ Demo.mem.Holds 32 Demo.A ∧ Demo.mem.Writable 200 36 :=
  ⟨Demo.holdsP, Demo.holdsA, Demo.out36⟩

/-! ## C16: prefixes -/

/-- **C16** Running `ascon_xof` with two output lengths on the same message: the shorter output is a prefix
of the longer one (in whatever memories, with whatever implementations). -/
theorem C16_xof_prefix (i j : Xof) (e : Endian) (hi : i.runsOn e) (hj : j.runsOn e) (mem1 mem2 : Mem)
    (sp1 out1 n1 inp1 sp2 out2 n2 inp2 : Nat) (M : List Byte) (hn : n1 ≤ n2)
    (hM1 : mem1.Holds inp1 M) (hM2 : mem2.Holds inp2 M) (hl : M.length < 2 ^ 64) (hn2 : n2 < 2 ^ 64)
    (hw1 : mem1.Writable out1 n1) (hw2 : mem2.Writable out2 n2) (hs1 : mem1.Free sp1 64) (hs2 : mem2.Free sp2 64) :
    ∃ O mem1' mem2', O.length = n2 ∧
      run (i.xof128 e sp1 out1 n1 inp1 M.length) mem1 = some (0, mem1') ∧ mem1'.Holds out1 (O.take n1) ∧
      run (j.xof128 e sp2 out2 n2 inp2 M.length) mem2 = some (0, mem2') ∧ mem2'.Holds out2 O := by
  refine ⟨xof128 M n2, _, _, length_squeeze 8 _ n2 (by omega) (by omega),
    i.xof128_correct e hi mem1 sp1 out1 n1 inp1 M hM1 hl (by omega) hw1 hs1, ?_,
    j.xof128_correct e hj mem2 sp2 out2 n2 inp2 M hM2 hl hn2 hw2 hs2, holds_writes_self _ _ _⟩
  have : (xof128 M n2).take n1 = xof128 M n1 := (squeeze_prefix 8 _ n1 n2 (by omega) (by omega) hn).symm
  rw [this]
  exact holds_writes_self _ _ _

/-- **C16, CXOF** -/
theorem C16_cxof_prefix (Z M : List Byte) (n n' : Nat) (h : n ≤ n') :
    cxof128 Z M n = (cxof128 Z M n').take n := squeeze_prefix 8 _ n n' (by omega) (by omega) h

/-- **C16, PRF** -/
theorem C16_prf_prefix (K M : List Byte) (n n' : Nat) (h : n ≤ n') :
    prf K M n = (prf K M n').take n ∧ prfWith ivMac K M n = (prfWith ivMac K M n').take n :=
  ⟨squeeze_prefix 16 _ n n' (by omega) (by omega) h, squeeze_prefix 16 _ n n' (by omega) (by omega) h⟩

/-- **C16, hash is not a truncated XOF** (witness: the empty message). -/
theorem C16_hash_not_xof_truncation : ∃ M, hash256 M ≠ xof128 M 32 := by
  refine ⟨[], ?_⟩
  have e1 := Ref.hash256_correct .little (Demo.empty.fill 0 32 .uninit) 64 0 0 [] (Mem.Holds.nil _ _) (by decide)
    (writable_fill_uninit _ _ _) (by unfold Mem.Free; decide +kernel)
  have e2 := Gen.xof_xof128_correct (Gen.opt64_ok .little) (Demo.empty.fill 0 32 .uninit) 64 0 32 0 []
    (Mem.Holds.nil _ _) (by decide) (by decide) (writable_fill_uninit _ _ _) (by unfold Mem.Free; decide +kernel)
  intro h
  rw [← h] at e2
  have h0 : (run (Ref.crypto_hash_hash256 .little 64 0 0 0) (Demo.empty.fill 0 32 .uninit)).map (fun r => r.2 0) ≠
      (run (Gen.ascon_xof_xof128 Gen.opt64 .little 64 0 32 0 0) (Demo.empty.fill 0 32 .uninit)).map
        (fun r => r.2 0) := by decide +kernel
  exact h0 (congrArg (Option.map fun r => r.2 0) (e1.trans e2.symm))

/-! ## C18, C19: unambiguous encoding of inputs -/

/-- **C18** The sequence of blocks that CXOF absorbs determines customization string and message, for
customization strings shorter than 2^61 bytes. -/
theorem C18_cxof_encoding_injective (Z Z' M M' : List Byte) (hz : Z.length < 2 ^ 61) (hz' : Z'.length < 2 ^ 61)
    (h : cxofBlocks Z M = cxofBlocks Z' M') : Z = Z' ∧ M = M' := cxofBlocks_injective hz hz' h

example : Demo.A.length < 2 ^ 61 ∧ cxofBlocks Demo.A Demo.P ≠ cxofBlocks (Demo.A ++ [1]) (Demo.P.drop 1) := by
  decide +kernel

theorem cxofBlocks_wrap (R : List Byte) (hR : R.length % 8 = 0) (hw : (8 * (8 + R.length)) % 2 ^ 64 = 0) :
    cxofBlocks ([1, 0, 0, 0, 0, 0, 0, 0] ++ R) [] = cxofBlocks [] (R ++ [1, 0, 0, 0, 0, 0, 0, 0]) := by
  have l8 : ([1, 0, 0, 0, 0, 0, 0, 0] : List Byte).length % 8 = 0 := by decide
  have e0 : fullBlocks 8 (pad 8 []) = fullBlocks 8 ([1, 0, 0, 0, 0, 0, 0, 0] : List Byte) := by decide
  have hlen : BitVec.ofNat 64 (8 * ([1, 0, 0, 0, 0, 0, 0, 0] ++ R).length) =
      BitVec.ofNat 64 (8 * ([] : List Byte).length) := by
    apply BitVec.eq_of_toNat_eq
    rw [BitVec.toNat_ofNat, BitVec.toNat_ofNat, List.length_append]
    simpa using hw
  unfold cxofBlocks
  rw [hlen, fullBlocks_pad_append 8 _ R (by omega) l8]
  have h1 : fullBlocks 8 (pad 8 R) = fullBlocks 8 R ++ fullBlocks 8 (pad 8 []) := by
    have := fullBlocks_pad_append 8 R [] (by omega) hR
    rwa [List.append_nil] at this
  have h2 : fullBlocks 8 (pad 8 (R ++ [1, 0, 0, 0, 0, 0, 0, 0])) =
      fullBlocks 8 R ++ fullBlocks 8 (pad 8 ([1, 0, 0, 0, 0, 0, 0, 0] : List Byte)) :=
    fullBlocks_pad_append 8 R _ (by omega) hR
  have h3 : fullBlocks 8 (pad 8 ([1, 0, 0, 0, 0, 0, 0, 0] : List Byte)) =
      fullBlocks 8 (pad 8 []) ++ fullBlocks 8 (pad 8 []) := by decide
  rw [h1, h2, h3, ← e0]
  simp only [List.append_assoc]

/-- **C18, the bound is needed** With 2^61 bytes the encoded bit length wraps to 0: there are two different
pairs with the same blocks, hence colliding outputs of every length. -/
theorem C18_bound_needed : ∃ Z M Z' M' : List Byte, Z.length = 2 ^ 61 ∧ Z'.length = 0 ∧
    cxofBlocks Z M = cxofBlocks Z' M' ∧ ∀ n, cxof128 Z M n = cxof128 Z' M' n := by
  have h := cxofBlocks_wrap (List.replicate (2 ^ 61 - 8) 0) (by rw [List.length_replicate])
    (by rw [List.length_replicate])
  refine ⟨_, _, _, _, ?_, rfl, h, fun n => by unfold cxof128; rw [h]⟩
  rw [List.length_append, List.length_replicate]; rfl

/-- **C19** Distinct byte strings are absorbed as distinct block sequences, for each rate used in the
repository (8: hash/XOF, 16: AEAD associated data and plaintext, 32: MAC/PRF). -/
theorem C19_padding_injective (r : Nat) (hr : r ∈ [8, 16, 32]) (M M' : List Byte)
    (h : fullBlocks r (pad r M) = fullBlocks r (pad r M')) : M = M' := by
  have h0 : 0 < r := by
    simp only [List.mem_cons, List.not_mem_nil, or_false] at hr
    omega
  exact paddedBlocks_injective h0 h

/-- **C19, MAC** The MAC/PRF mode splits off the last block before padding; the data it absorbs still
determines the message. -/
theorem C19_prf_padding_injective (M M' : List Byte)
    (h1 : fullBlocks 32 M = fullBlocks 32 M') (h2 : pad 32 (lastBlock 32 M) = pad 32 (lastBlock 32 M')) : M = M' := by
  rw [← fullBlocks_flatten_append_lastBlock 32 M (by omega), h1, pad_injective h2,
    fullBlocks_flatten_append_lastBlock 32 M' (by omega)]

example : fullBlocks 8 (pad 8 (Demo.A ++ [0])) ≠ fullBlocks 8 (pad 8 Demo.A) ∧
    fullBlocks 8 (pad 8 (Demo.A ++ [1])) ≠ fullBlocks 8 (pad 8 Demo.A) := by decide +kernel

/-! ## C20: memory safety and aliasing -/

/-- A function meeting the hash contract changes only `out[0..n)` and touches only the input, the output
and its stack frame; nothing is assumed about overlap of input and output. -/
theorem hash_footprint {e : Endian} {H : List Byte → List Byte} {n : Nat} {f : CryptoHash}
    (hlen : ∀ M, (H M).length = n) (hf : HashCorrectAt e H n f) (mem : Mem) (sp out inp : Nat) (M : List Byte)
    (hM : mem.Holds inp M) (hl : M.length < 2 ^ 64) (hw : mem.Writable out n) (hs : mem.Free sp 64) :
    (∃ mem', run (f e sp out inp M.length) mem = some (0, mem') ∧
      ∀ a, ¬ (out ≤ a ∧ a < out + n) → mem' a = mem a) ∧
    ∀ ev ∈ trace (f e sp out inp M.length) mem, ∀ a, ev.addr = some a →
      (inp ≤ a ∧ a < inp + M.length) ∨ (out ≤ a ∧ a < out + n) ∨ (sp ≤ a ∧ a < sp + 64) := by
  refine ⟨⟨_, hf mem sp out inp M hM hl hw hs, fun a ha => writes_out (by rw [hlen]; omega)⟩, ?_⟩
  intro ev hev a ha
  apply Classical.byContradiction
  intro hn
  simp only [not_or] at hn
  obtain ⟨n1, n2, n3⟩ := hn
  refine untouched _ mem a ?_ ev hev ha
  intro cell
  refine ⟨_, _, hf _ sp out inp M (hM.upd n1) hl (hw.upd n2) (hs.upd n3), ?_⟩
  rw [writes_out (by rw [hlen]; omega), upd_self]

/-- **C20** `crypto_hash` of asconhash256: safety, frame, footprint; `out` may overlap `in` arbitrarily. -/
theorem C20_hash256_safe (i : Hash) (e : Endian) (hi : i.runsOn e) (mem : Mem) (sp out inp : Nat) (M : List Byte)
    (hM : mem.Holds inp M) (hl : M.length < 2 ^ 64) (hw : mem.Writable out 32) (hs : mem.Free sp 64) :
    (∃ mem', run (i.hash256 e sp out inp M.length) mem = some (0, mem') ∧
      ∀ a, ¬ (out ≤ a ∧ a < out + 32) → mem' a = mem a) ∧
    ∀ ev ∈ trace (i.hash256 e sp out inp M.length) mem, ∀ a, ev.addr = some a →
      (inp ≤ a ∧ a < inp + M.length) ∨ (out ≤ a ∧ a < out + 32) ∨ (sp ≤ a ∧ a < sp + 64) :=
  hash_footprint (fun _ => length_squeeze 8 _ 32 (by omega) (by omega)) (i.hash256_correct e hi) mem sp out inp M
    hM hl hw hs

theorem C20_xof128_safe (i : HashX) (e : Endian) (hi : i.runsOn e) (mem : Mem) (sp out inp : Nat) (M : List Byte)
    (hM : mem.Holds inp M) (hl : M.length < 2 ^ 64) (hw : mem.Writable out 64) (hs : mem.Free sp 64) :
    (∃ mem', run (i.xof128 e sp out inp M.length) mem = some (0, mem') ∧
      ∀ a, ¬ (out ≤ a ∧ a < out + 64) → mem' a = mem a) ∧
    ∀ ev ∈ trace (i.xof128 e sp out inp M.length) mem, ∀ a, ev.addr = some a →
      (inp ≤ a ∧ a < inp + M.length) ∨ (out ≤ a ∧ a < out + 64) ∨ (sp ≤ a ∧ a < sp + 64) :=
  hash_footprint (fun _ => length_squeeze 8 _ 64 (by omega) (by omega)) (i.xof128_correct e hi) mem sp out inp M
    hM hl hw hs

/-- **C20, variable output length** -/
theorem C20_ascon_xof_safe (i : Xof) (e : Endian) (hi : i.runsOn e) (mem : Mem) (sp out n inp : Nat) (M : List Byte)
    (hM : mem.Holds inp M) (hl : M.length < 2 ^ 64) (hn : n < 2 ^ 64) (hw : mem.Writable out n)
    (hs : mem.Free sp 64) :
    (∃ mem', run (i.xof128 e sp out n inp M.length) mem = some (0, mem') ∧
      ∀ a, ¬ (out ≤ a ∧ a < out + n) → mem' a = mem a) ∧
    ∀ ev ∈ trace (i.xof128 e sp out n inp M.length) mem, ∀ a, ev.addr = some a →
      (inp ≤ a ∧ a < inp + M.length) ∨ (out ≤ a ∧ a < out + n) ∨ (sp ≤ a ∧ a < sp + 64) :=
  hash_footprint (f := fun e sp out inp len => i.xof128 e sp out n inp len)
    (fun _ => length_squeeze 8 _ n (by omega) (by omega))
    (fun mem sp out inp M hM hl hw hs => i.xof128_correct e hi mem sp out n inp M hM hl hn hw hs) mem sp out inp M
    hM hl hw hs

/-- **C20, CXOF** -/
theorem C20_cxof_safe (e : Endian) (mem : Mem) (sp out n inp cs : Nat) (Z M : List Byte)
    (hM : mem.Holds inp M) (hl : M.length < 2 ^ 64) (hZ : mem.Holds cs Z) (hlz : Z.length < 2 ^ 64)
    (hn : n < 2 ^ 64) (hw : mem.Writable out n) (hs : mem.Free sp 64) :
    (∃ mem', run (Ref.crypto_cxof e sp out n inp M.length cs Z.length) mem = some (0, mem') ∧
      ∀ a, ¬ (out ≤ a ∧ a < out + n) → mem' a = mem a) ∧
    ∀ ev ∈ trace (Ref.crypto_cxof e sp out n inp M.length cs Z.length) mem, ∀ a, ev.addr = some a →
      (inp ≤ a ∧ a < inp + M.length) ∨ (cs ≤ a ∧ a < cs + Z.length) ∨ (out ≤ a ∧ a < out + n) ∨
      (sp ≤ a ∧ a < sp + 64) := by
  have hlen : (cxof128 Z M n).length = n := length_squeeze 8 _ n (by omega) (by omega)
  refine ⟨⟨_, Ref.cxof_correct e mem sp out n inp cs Z M hM hl hZ hlz hn hw hs,
    fun a ha => writes_out (by rw [hlen]; omega)⟩, ?_⟩
  intro ev hev a ha
  apply Classical.byContradiction
  intro hnn
  simp only [not_or] at hnn
  obtain ⟨n1, n2, n3, n4⟩ := hnn
  refine untouched _ mem a ?_ ev hev ha
  intro cell
  refine ⟨_, _, Ref.cxof_correct e _ sp out n inp cs Z M (hM.upd n1) hl (hZ.upd n2) hlz hn (hw.upd n3) (hs.upd n4), ?_⟩
  rw [writes_out (by rw [hlen]; omega), upd_self]

/-- Overlapping buffers on a concrete memory: hash 20 bytes at 100 into 104. -/
example : Demo.mem.Holds 100 Demo.P ∧ Demo.mem.Writable 104 32 :=
  ⟨Demo.holdsP, by unfold Mem.Writable; decide +kernel⟩

/-! ## C21: agreement -/

/-- **C21** -/
theorem C21_hash256_agree (i j : Hash) (e : Endian) (hi : i.runsOn e) (hj : j.runsOn e) (mem : Mem)
    (sp out inp : Nat) (M : List Byte)
    (hM : mem.Holds inp M) (hl : M.length < 2 ^ 64) (hw : mem.Writable out 32) (hs : mem.Free sp 64) :
    run (i.hash256 e sp out inp M.length) mem = run (j.hash256 e sp out inp M.length) mem := by
  rw [i.hash256_correct e hi mem sp out inp M hM hl hw hs, j.hash256_correct e hj mem sp out inp M hM hl hw hs]

theorem C21_xof128_agree (i j : HashX) (e : Endian) (hi : i.runsOn e) (hj : j.runsOn e) (mem : Mem)
    (sp out inp : Nat) (M : List Byte)
    (hM : mem.Holds inp M) (hl : M.length < 2 ^ 64) (hw : mem.Writable out 64) (hs : mem.Free sp 64) :
    run (i.xof128 e sp out inp M.length) mem = run (j.xof128 e sp out inp M.length) mem := by
  rw [i.xof128_correct e hi mem sp out inp M hM hl hw hs, j.xof128_correct e hj mem sp out inp M hM hl hw hs]

/-! ## C27: constant time -/

/-- **C27** Hash, XOF, CXOF: addresses and branches depend on pointers and lengths only. -/
theorem C27_hash_constant_time (i : Hash) (x : HashX) (j : Xof) (e : Endian) (sp out outlen inp len cs cslen : Nat)
    (mem1 mem2 : Mem) (h : SameLayout mem1 mem2) :
    trace (i.hash256 e sp out inp len) mem1 = trace (i.hash256 e sp out inp len) mem2 ∧
    trace (x.xof128 e sp out inp len) mem1 = trace (x.xof128 e sp out inp len) mem2 ∧
    trace (j.xof128 e sp out outlen inp len) mem1 = trace (j.xof128 e sp out outlen inp len) mem2 ∧
    trace (Ref.crypto_cxof e sp out outlen inp len cs cslen) mem1 =
      trace (Ref.crypto_cxof e sp out outlen inp len cs cslen) mem2 ∧
    trace (Ref.crypto_hash_cxof128 e sp out inp len) mem1 = trace (Ref.crypto_hash_cxof128 e sp out inp len) mem2 :=
  ⟨i.hash256_ct e sp out inp len mem1 mem2 h, x.xof128_ct e sp out inp len mem1 mem2 h,
    j.xof128_ct e sp out outlen inp len mem1 mem2 h,
    (Ref.sim_cxof e sp out outlen inp len cs cslen).constTime mem1 mem2 h,
    (Ref.sim_cxof e sp out 64 inp len 0 0).constTime mem1 mem2 h⟩

/-! ## C38, C39: chaining and squeezing -/

/-- **C38** Chaining: the digest of `A ++ B`, with `A` a whole number of 8-byte blocks, is obtained by
absorbing the padded `B` from the state reached after the blocks of `A`. -/
theorem C38_chaining (i : Hash) (e : Endian) (hi : i.runsOn e) (mem : Mem) (sp out inp : Nat) (A B : List Byte)
    (hA : A.length % 8 = 0)
    (hM : mem.Holds inp (A ++ B)) (hl : (A ++ B).length < 2 ^ 64) (hw : mem.Writable out 32) (hs : mem.Free sp 64) :
    ∃ mem', run (i.hash256 e sp out inp (A ++ B).length) mem = some (0, mem') ∧
      mem'.Holds out (squeeze 8 (absorb 12 (absorb 12 (spongeInit ivHash) (fullBlocks 8 A))
        (fullBlocks 8 (pad 8 B))) 32) := by
  refine ⟨_, i.hash256_correct e hi mem sp out inp (A ++ B) hM hl hw hs, ?_⟩
  have : hash256 (A ++ B) = squeeze 8 (absorb 12 (absorb 12 (spongeInit ivHash) (fullBlocks 8 A))
        (fullBlocks 8 (pad 8 B))) 32 := by
    unfold hash256
    rw [fullBlocks_pad_append 8 A B (by omega) hA]
    unfold absorb
    rw [List.foldl_append]
  rw [← this]
  exact holds_writes_self _ _ _

example : (Demo.P.take 16).length % 8 = 0 ∧ Demo.mem.Holds 100 (Demo.P.take 16 ++ Demo.P.drop 16) :=
  ⟨by decide, Demo.holdsP⟩

/-- **C39** Bytes `8b … 8b+7` of the XOF output are the first 8 bytes of the state after `b` further
permutation calls (each block is used once, none is skipped); the last block is cut at `outlen`. -/
theorem C39_xof_blocks (i : Xof) (e : Endian) (hi : i.runsOn e) (mem : Mem) (sp out n inp : Nat) (M : List Byte)
    (hM : mem.Holds inp M) (hl : M.length < 2 ^ 64) (hn : n < 2 ^ 64) (hw : mem.Writable out n)
    (hs : mem.Free sp 64) :
    ∃ mem', run (i.xof128 e sp out n inp M.length) mem = some (0, mem') ∧
      ∀ b, 8 * b ≤ n → mem'.Holds (out + 8 * b) (rate (min 8 (n - 8 * b))
        (iterPerm b (absorb 12 (spongeInit ivXof) (fullBlocks 8 (pad 8 M))))) := by
  refine ⟨_, i.xof128_correct e hi mem sp out n inp M hM hl hn hw hs, ?_⟩
  intro b hb
  rw [← squeeze_block 8 _ n b (by omega) (by omega) hb]
  have h1 : (mem.writes out (xof128 M n)).Holds out (xof128 M n) := holds_writes_self _ _ _
  have h2 := h1.drop (8 * b) (by rw [xof128, length_squeeze 8 _ n (by omega) (by omega)]; exact hb)
  exact h2.take 8

end Ascon.Props
