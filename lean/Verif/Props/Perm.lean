import Verif.Proof.Registry
import Verif.Proof.PermBij
import Verif.Model.Constants
import Verif.Props.Demo
/-!
# Permutation, word encodings, constants (C12, C13, C22, C28–C31)
-/

namespace Ascon.Props

open Ascon.C Ascon.Spec Ascon.Impl Ascon.Gen

/-! ## C12: the permutation is a bijection -/

/-- **C12** Every 320-bit state has exactly one preimage under `P12`, `P8` and `P6` of the reference code. -/
theorem C12_permutation_bijective (t : State) :
    (∃ s, Ref.P12 s = t ∧ ∀ s', Ref.P12 s' = t → s' = s) ∧
    (∃ s, Ref.P8 s = t ∧ ∀ s', Ref.P8 s' = t → s' = s) ∧
    (∃ s, Ref.P6 s = t ∧ ∀ s', Ref.P6 s' = t → s' = s) := by
  refine ⟨⟨permInv 12 t, ?_, ?_⟩, ⟨permInv 8 t, ?_, ?_⟩, ⟨permInv 6 t, ?_, ?_⟩⟩
  · rw [Ref.P12_eq, perm_permInv]
  · intro s' h; rw [← h, Ref.P12_eq, permInv_perm]
  · rw [Ref.P8_eq, perm_permInv]
  · intro s' h; rw [← h, Ref.P8_eq, permInv_perm]
  · rw [Ref.P6_eq, perm_permInv]
  · intro s' h; rw [← h, Ref.P6_eq, permInv_perm]

/-- A concrete image (test): the permutation is not trivial. -/
example : Ref.P12 ⟨0, 0, 0, 0, 0⟩ ≠ ⟨0, 0, 0, 0, 0⟩ := by decide +kernel

/-! ## C13: all implementations of the permutation agree -/

/-- **C13** On a state whose words are stored in the representation of the implementation, `P(s,12)`,
`P(s,8)` and `P(s,6)` run without undefined behaviour, touch no memory, and compute the SP 800-232
permutation (which is also what the reference code computes). -/
theorem C13_all_permutations_agree (i : Impl.Perm) (e : Endian) (h : i.runsOn e) (s : State) (mem : Mem) :
    run (i.P12 e (encS i.enc s)) mem = some (encS i.enc (perm 12 s), mem) ∧
    run (i.P8 e (encS i.enc s)) mem = some (encS i.enc (perm 8 s), mem) ∧
    run (i.P6 e (encS i.enc s)) mem = some (encS i.enc (perm 6 s), mem) := by
  cases i
  case ref =>
    refine ⟨?_, ?_, ?_⟩ <;> simp only [Perm.P12, Perm.P8, Perm.P6, Perm.enc, run_pure, encS_id, Ref.P12_eq,
      Ref.P8_eq, Ref.P6_eq]
  case core c =>
    refine ⟨(c.ok e h).p12 s mem, (c.ok e h).p8 s mem, ?_⟩
    cases c <;> simp only [Perm.runsOn, Core.runsOn] at h <;> try subst h
    case opt64 => exact P6ROUNDS_ok round_opt64_ok (by decide) s mem
    case opt64_lowsize => exact PROUNDS_ok round_low64_ok 6 (by decide) (by decide) s mem
    case opt32 => exact P6ROUNDS_ok round_opt32_ok (by decide) s mem
    case opt32_lowsize => exact PROUNDS_ok round_opt32_ok 6 (by decide) (by decide) s mem
    case bi32 => exact P6ROUNDS_ok round_bi32_ok (by decide +kernel) s mem
    case bi32_lowreg => exact PROUNDS_ok round_bi32_low_ok 6 (by decide) (by decide +kernel) s mem
    case bi8 => exact PROUNDS_ok round_bi8_ok 6 (by decide) (by decide +kernel) s mem
    case armv6 => exact Arm.armv6_P_ok 6 (by omega) s mem
    case armv7m => exact Arm.armv7m_P_ok 6 (by omega) s mem
    case bi32_armv6 => exact Arm.bi32_armv6_P_ok 6 (by omega) s mem
    case bi32_armv7m => exact Arm.bi32_armv7m_P_ok 6 (by omega) s mem
    case armv6_lowsize => exact Arm.roundLoop_ok (Arm.armv6_loop 6 (by omega) (by omega)) s mem
    case armv6m => exact Arm.roundLoop_ok (Arm.armv6m_loop 6 (by omega) (by omega)) s mem
    case armv7m_small => exact Arm.roundLoop_ok (Arm.armv7m_loop 6 (by omega) (by omega)) s mem
    case bi32_armv6m => exact Arm.roundLoop_ok (Arm.bi32_armv6m_loop 6 (by omega) (by omega)) s mem
    case bi32_armv7m_small => exact Arm.roundLoop_ok (Arm.bi32_armv7m_loop 6 (by omega) (by omega)) s mem
    case armv6m_lowsize => exact Arm.Low6m.P_ok 6 (by omega) (by omega) s mem
    case neon => exact congrArg (fun p => run p mem) (Neon.P6_eq e s)
  case byte b =>
    simp only [Perm.runsOn] at h
    subst h
    refine ⟨b.ok.p12 s mem, b.ok.p8 s mem, ?_⟩
    cases b
    case opt8 => exact Opt8.run_PROUNDS6 s mem
    case avr => exact Avr.run_P 6 (by omega) (by omega) s mem
  case avx512 y5 y6 y7 =>
    refine ⟨?_, ?_, ?_⟩ <;> simp only [Perm.P12, Perm.P8, Perm.P6, Perm.enc, run_pure, encS_id, Avx512.P12_eq,
      Avx512.P8_eq, Avx512.P6_eq]

/-- The representations are bijections, so C13 speaks about every machine state. -/
theorem C13_representation_bijective (i : Impl.Perm) (t : State) : ∃ s, encS i.enc s = t := by
  have surj : ∀ w, ∃ v, i.enc v = w := by
    intro w
    cases i
    case ref => exact ⟨w, rfl⟩
    case byte => exact ⟨w, rfl⟩
    case avx512 => exact ⟨w, rfl⟩
    case core c =>
      cases c
      case bi32 => exact ⟨_, deinterleave32_interleave32 w⟩
      case bi32_lowreg => exact ⟨_, deinterleave32_interleave32 w⟩
      case bi8 => exact ⟨_, interleave8_interleave8 w⟩
      case bi32_armv6 => exact ⟨_, deinterleave32_interleave32 w⟩
      case bi32_armv6m => exact ⟨_, deinterleave32_interleave32 w⟩
      case bi32_armv7m => exact ⟨_, deinterleave32_interleave32 w⟩
      case bi32_armv7m_small => exact ⟨_, deinterleave32_interleave32 w⟩
      all_goals exact ⟨w, rfl⟩
  obtain ⟨y0, h0⟩ := surj t.x0
  obtain ⟨y1, h1⟩ := surj t.x1
  obtain ⟨y2, h2⟩ := surj t.x2
  obtain ⟨y3, h3⟩ := surj t.x3
  obtain ⟨y4, h4⟩ := surj t.x4
  exact ⟨⟨y0, y1, y2, y3, y4⟩, by simp only [encS, h0, h1, h2, h3, h4]⟩

/-! ## C40: the assembly function of armv6m_lowsize -/

/-- **C40** The function `P` written in assembly (armv6m_lowsize/permutations.S), called with any contents of the
caller's registers: it returns, leaves the permuted state in `*s`, has popped everything it pushed, and the
registers r4 … r11 and the return address are what they were at the call. -/
theorem C40_assembly_calling_convention (nr : Nat) (h0 : 0 < nr) (hn : nr ≤ 12) (regs : Nat → BitVec 32)
    (s : State) (mem : Mem) : ∃ m, run (Arm.Low6m.call .little nr regs s) mem = some ((perm nr s, m), mem) ∧
      m.stk = [] ∧
      (m.r Arm.Low6m.r4 = regs Arm.Low6m.r4 ∧ m.r Arm.Low6m.r5 = regs Arm.Low6m.r5 ∧
       m.r Arm.Low6m.r6 = regs Arm.Low6m.r6 ∧ m.r Arm.Low6m.r7 = regs Arm.Low6m.r7 ∧
       m.r Arm.Low6m.r8 = regs Arm.Low6m.r8 ∧ m.r Arm.Low6m.r9 = regs Arm.Low6m.r9 ∧
       m.r Arm.Low6m.r10 = regs Arm.Low6m.r10 ∧ m.r Arm.Low6m.fp = regs Arm.Low6m.fp ∧
       m.r Arm.Low6m.lr = regs Arm.Low6m.lr) := by
  obtain ⟨m, h1, h2, h3, h4⟩ := Arm.Low6m.call_eq .little nr h0 hn regs s
  refine ⟨m, ?_, h3, ?_⟩
  · rw [h1, Asm.run_jumps]
    unfold Arm.Low6m.cells
    rw [Arm.storeRegs_id h2]
    rfl
  · refine ⟨?_, ?_, ?_, ?_, ?_, ?_, ?_, ?_, ?_⟩ <;> exact h4 _ (by simp [Arm.Low6m.calleeSaved])

/-- The permutations called by the modes are instances. -/
example : (0 < 12 ∧ 12 ≤ 12) ∧ (0 < 8 ∧ 8 ≤ 12) := by decide

/-! ## C22: constants -/

/-- The five precomputed words at position `i` of a table. -/
def ivsAt (l : List Word) (i : Nat) : State := ⟨l.getD i 0, l.getD (i + 1) 0, l.getD (i + 2) 0, l.getD (i + 3) 0, l.getD (i + 4) 0⟩

/-- **C22, tables** The bi32 and bi8 tables are the encodings of the plain table; the precomputed states
HASH, HASHA, XOF, XOFA are the images under the 12-round permutation of the corresponding IV words. -/
theorem C22_iv_tables :
    Model.Constants.bi32Ivs = Model.Constants.optIvs.map (deinterleave32 .little) ∧
    Model.Constants.bi8Ivs = Model.Constants.optIvs.map interleave8 ∧
    (∀ p ∈ [(3, 14), (4, 19), (5, 24), (6, 29)],
      ivsAt Model.Constants.optIvs p.2 = perm 12 ⟨Model.Constants.optIvs.getD p.1 0, 0, 0, 0, 0⟩) := by
  refine ⟨by decide +kernel, by decide +kernel, ?_⟩
  intro p hp
  rw [← Ref.P12_eq]
  revert p
  decide +kernel

/-- **C22, what the code uses** For every word representation the IV words and precomputed states used by the
modes are those of the specification, and the reference code's IV expressions have the same values. -/
theorem C22_ivs_used :
    (∀ B enc, (B, enc) ∈ [(opt64, fun w => w), (opt32, fun w => w), (bi32, deinterleave32 .little),
        (bi32_lowreg, deinterleave32 .little), (bi8, interleave8)] →
      B.ASCON_128A_IV = enc ivAead ∧ B.ASCON_MAC_IV = enc ivMac ∧ B.ASCON_PRF_IV = enc ivPrf ∧
      B.ASCON_HASH_IVS = encS enc (perm 12 ⟨ivHash, 0, 0, 0, 0⟩) ∧
      B.ASCON_XOF_IVS = encS enc (perm 12 ⟨ivXof, 0, 0, 0, 0⟩) ∧
      (∀ n, n ≤ 16 → B.ASCON_PRFS_IV ^^^ B.PRFS_MLEN (BitVec.ofNat 64 n) = enc (ivPrfs n))) ∧
    Ref.ASCON_128A_IV = ivAead ∧ Ref.ASCON_HASH_IV = ivHash ∧ Ref.ASCON_XOF_IV = ivXof ∧
    Ref.ASCON_CXOF_IV = ivCxof ∧ Ref.ASCON_MAC_IV = ivMac ∧ Ref.ASCON_PRF_IV = ivPrf ∧
    Ref.ASCON_PRFS_IV = ivPrfs 0 := by
  refine ⟨?_, by decide, by decide, by decide, by decide, by decide, by decide, by decide⟩
  intro B enc h
  have key : ∀ {B : Backend} {enc : Word → Word}, B.Ok .little enc →
      B.ASCON_128A_IV = enc ivAead ∧ B.ASCON_MAC_IV = enc ivMac ∧ B.ASCON_PRF_IV = enc ivPrf ∧
      B.ASCON_HASH_IVS = encS enc (perm 12 ⟨ivHash, 0, 0, 0, 0⟩) ∧
      B.ASCON_XOF_IVS = encS enc (perm 12 ⟨ivXof, 0, 0, 0, 0⟩) ∧
      (∀ n, n ≤ 16 → B.ASCON_PRFS_IV ^^^ B.PRFS_MLEN (BitVec.ofNat 64 n) = enc (ivPrfs n)) :=
    fun ok => ⟨ok.aead, ok.mac, ok.prf, ok.hash, ok.xof, ok.mlen⟩
  simp only [List.mem_cons, List.not_mem_nil, or_false, Prod.mk.injEq] at h
  rcases h with ⟨rfl, rfl⟩ | ⟨rfl, rfl⟩ | ⟨rfl, rfl⟩ | ⟨rfl, rfl⟩ | ⟨rfl, rfl⟩
  · exact key (opt64_ok _)
  · exact key (opt32_ok _)
  · exact key bi32_ok
  · exact key bi32_lowreg_ok
  · exact key bi8_ok

/-! ## C28: domain separation -/

/-- A call of one of the algorithms of the repository, with the data that enters the first permutation. -/
inductive Call where
  | aead (K N : List Byte)
  | hash256
  | xof128
  | cxof128
  | mac (K : List Byte)
  | prf (K : List Byte)
  | prfShort (K M : List Byte)

/-- Number of the algorithm. -/
def Call.alg : Call → Nat
  | .aead .. => 1 | .hash256 => 2 | .xof128 => 3 | .cxof128 => 4 | .mac .. => 5 | .prf .. => 6 | .prfShort .. => 7

/-- The input of the first permutation call (see `Spec.aeadInit`, `spongeInit`, `prfInit`, `prfShort`). -/
def Call.firstInput : Call → State
  | .aead K N => ⟨ivAead, le64 (K.take 8), le64 (K.drop 8), le64 (N.take 8), le64 (N.drop 8)⟩
  | .hash256 => ⟨ivHash, 0, 0, 0, 0⟩
  | .xof128 => ⟨ivXof, 0, 0, 0, 0⟩
  | .cxof128 => ⟨ivCxof, 0, 0, 0, 0⟩
  | .mac K => ⟨ivMac, le64 (K.take 8), le64 (K.drop 8), 0, 0⟩
  | .prf K => ⟨ivPrf, le64 (K.take 8), le64 (K.drop 8), 0, 0⟩
  | .prfShort K M => ⟨ivPrfs M.length, le64 (K.take 8), le64 (K.drop 8), le64 (M.take 8), le64 (M.drop 8)⟩

theorem firstInput_x0 (a : Call) : a.firstInput.x0.setWidth 8 = BitVec.ofNat 8 a.alg := by
  cases a <;> simp only [Call.firstInput, Call.alg] <;> try decide
  case prfShort K M =>
    unfold ivPrfs
    apply BitVec.eq_of_getLsbD_eq
    intro i hi
    have : ∀ i, i < 8 → (0x00000000800c0007 : Word).getLsbD i = (BitVec.ofNat 8 7).getLsbD i := by decide
    rw [BitVec.getLsbD_setWidth, BitVec.getLsbD_xor, this i hi]
    have h0 : (BitVec.ofNat 64 (8 * M.length * 2 ^ 48)).getLsbD i = false := by
      rw [BitVec.getLsbD_ofNat, Nat.testBit_mul_two_pow]; simp; omega
    rw [h0]; simp [hi]

/-- **C28** Calls of different algorithms never start the permutation from the same state, for any keys,
nonces and (short) messages. -/
theorem C28_algorithms_domain_separated (a b : Call) (h : a.alg ≠ b.alg) : a.firstInput ≠ b.firstInput := by
  intro heq
  have h1 := firstInput_x0 a
  rw [heq, firstInput_x0 b] at h1
  apply h
  have h2 := congrArg BitVec.toNat h1
  have la : a.alg < 8 := by cases a <;> simp [Call.alg]
  have lb : b.alg < 8 := by cases b <;> simp [Call.alg]
  simp only [BitVec.toNat_ofNat] at h2
  omega

example : (Call.aead Demo.K Demo.N).alg ≠ (Call.prf Demo.K).alg := by decide

/-- **C25, inputs of PrfShort** Different keys or messages (of at most 16 bytes, of any lengths) start from
different permutation inputs. -/
theorem C25_prfShort_inputs_distinct (K K' M M' : List Byte) (hK : K.length = 16) (hK' : K'.length = 16)
    (hM : M.length ≤ 16) (hM' : M'.length ≤ 16)
    (h : (Call.prfShort K M).firstInput = (Call.prfShort K' M').firstInput) : K = K' ∧ M = M' := by
  simp only [Call.firstInput, State.mk.injEq] at h
  obtain ⟨h0, h1, h2, h3, h4⟩ := h
  have half : ∀ {a b : List Byte}, a.length = b.length → a.length ≤ 8 → le64 a = le64 b → a = b := by
    intro a b hl h8 hab
    have := congrArg (fun w => (bytes64 w).take a.length) hab
    rwa [take_bytes64_le64 a _ h8 (by omega), take_bytes64_le64 b _ h8 (by omega), List.take_length, hl,
      List.take_length] at this
  have hl : M.length = M'.length := by
    have : ∀ a b : Fin 17, ivPrfs a.val = ivPrfs b.val → a.val = b.val := by decide +kernel
    exact this ⟨M.length, by omega⟩ ⟨M'.length, by omega⟩ h0
  have k1 := half (by simp [hK, hK']) (by simp [hK]) h1
  have k2 := half (by simp [hK, hK']) (by simp [hK]) h2
  have m1 := half (by simp [hl]) (by simp; omega) h3
  have m2 := half (by simp [hl]) (by simp; omega) h4
  exact ⟨by rw [← List.take_append_drop 8 K, k1, k2, List.take_append_drop],
    by rw [← List.take_append_drop 8 M, m1, m2, List.take_append_drop]⟩

example : Demo.K.length = 16 ∧ Demo.N.length = 16 ∧ Demo.A.length ≤ 16 := by decide

/-! ## C29: bit-interleaved words -/

/-- **C29, bi32** -/
theorem C29_bi32_faithful :
    (∀ x, interleave32 .little (deinterleave32 .little x) = x) ∧
    (∀ x, deinterleave32 .little (interleave32 .little x) = x) ∧
    (∀ x y, deinterleave32 .little (x ^^^ y) = deinterleave32 .little x ^^^ deinterleave32 .little y) ∧
    (∀ x y, deinterleave32 .little (x &&& y) = deinterleave32 .little x &&& deinterleave32 .little y) ∧
    (∀ x, deinterleave32 .little (~~~x) = ~~~(deinterleave32 .little x)) ∧
    (∀ x n, 0 < n → n < 63 → bi32ROR .little (deinterleave32 .little x) n = deinterleave32 .little (x.rotateRight n)) ∧
    (∀ i, i < 8 → ∀ mem, run (bi32.PAD i) mem = some (deinterleave32 .little ((1 : Word) <<< (8 * i)), mem)) ∧
    (∀ x n, n < 8 → ∀ mem, run (bi32.CLEAR (deinterleave32 .little x) n) mem =
      some (deinterleave32 .little (x &&& (BitVec.allOnes 64 <<< (8 * n))), mem)) ∧
    bi32.DSEP = deinterleave32 .little 0x8000000000000000 ∧
    (∀ x, deinterleave32 .little x = 0 ↔ x = 0) := by
  refine ⟨interleave32_deinterleave32, deinterleave32_interleave32, bi32_perm.xor, bi32_perm.and, bi32_perm.not,
    ?_, bi32_ok.pad, ?_, bi32_ok.dsep, fun x => ⟨bi32_ok.zero x, fun h => by rw [h]; decide⟩⟩
  · intro x n h0 hn
    have hd := Lin.deinterleave32 .little
    refine Lin.ext ((Lin.bi32ROR n hn).comp hd) (hd.comp (rotateRight_lin n)) ?_ x
    have : ∀ n, n < 63 → ∀ i : Fin 64, bi32ROR .little (deinterleave32 .little (BitVec.twoPow 64 i.val)) n =
      deinterleave32 .little ((BitVec.twoPow 64 i.val).rotateRight n) := by decide +kernel
    exact this n hn
  · intro x n hn mem
    rw [bi32_ok.clear x n hn mem]
    rfl

/-- **C29, bi8** -/
theorem C29_bi8_faithful :
    (∀ x, interleave8 (interleave8 x) = x) ∧
    (∀ x y, interleave8 (x ^^^ y) = interleave8 x ^^^ interleave8 y) ∧
    (∀ x y, interleave8 (x &&& y) = interleave8 x &&& interleave8 y) ∧
    (∀ x, interleave8 (~~~x) = ~~~(interleave8 x)) ∧
    (∀ x n, n < 57 → bi8ROR .little (interleave8 x) n = interleave8 (x.rotateRight n)) ∧
    (∀ i, i < 8 → ∀ mem, run (bi8.PAD i) mem = some (interleave8 ((1 : Word) <<< (8 * i)), mem)) ∧
    (∀ x n, n < 8 → ∀ mem, run (bi8.CLEAR (interleave8 x) n) mem =
      some (interleave8 (x &&& (BitVec.allOnes 64 <<< (8 * n))), mem)) ∧
    bi8.DSEP = interleave8 0x8000000000000000 ∧
    (∀ x, interleave8 x = 0 ↔ x = 0) := by
  refine ⟨interleave8_interleave8, bi8_perm.xor, bi8_perm.and, bi8_perm.not,
    ?_, bi8_ok.pad, ?_, bi8_ok.dsep, fun x => ⟨bi8_ok.zero x, fun h => by rw [h]; decide⟩⟩
  · intro x n hn
    refine Lin.ext ((bi8ROR_lin n (by omega)).comp Lin.interleave8) (Lin.interleave8.comp (rotateRight_lin n)) ?_ x
    have : ∀ n, n < 57 → ∀ i : Fin 64, bi8ROR .little (interleave8 (BitVec.twoPow 64 i.val)) n =
      interleave8 ((BitVec.twoPow 64 i.val).rotateRight n) := by decide +kernel
    exact this n hn
  · intro x n hn mem
    rw [bi8_ok.clear x n hn mem]
    rfl

/-! ## C31: big-endian machines (negative) -/

/-- The byte at `a` after a run, if there is one. -/
def byteAfter (r : Option (Int × Mem)) (a : Nat) : Option Byte :=
  r.bind fun x => match x.2 a with | .val b => some b | _ => none

/-- **C31** (negative) On a big-endian machine the rotation of bi32 is wrong for odd amounts, and
consequently `crypto_aead_encrypt` of bi32 writes a wrong ciphertext there (concrete counterexample to the
extension of C10). -/
theorem C31_bi32_wrong_on_big_endian :
    (∃ x, bi32ROR .big (deinterleave32 .little x) 1 ≠ deinterleave32 .little (x.rotateRight 1)) ∧
    (EncPre Demo.mem 1000 200 300 100 32 16 0 Demo.K Demo.N Demo.A Demo.P ∧
      byteAfter (run (Aead.encrypt .bi32 .big 1000 200 300 100 20 32 5 0 16 0) Demo.mem) 200 ≠
      byteAfter (run (Aead.encrypt .ref .big 1000 200 300 100 20 32 5 0 16 0) Demo.mem) 200) ∧
    ¬ EncCorrectAt .big (Aead.encrypt .bi32) := by
  have h1 : byteAfter (run (Aead.encrypt .bi32 .big 1000 200 300 100 20 32 5 0 16 0) Demo.mem) 200 ≠
      byteAfter (run (Aead.encrypt .ref .big 1000 200 300 100 20 32 5 0 16 0) Demo.mem) 200 := by decide +kernel
  refine ⟨⟨1, by decide⟩, ⟨Demo.encPre, h1⟩, ?_⟩
  intro h
  apply h1
  have e1 := h Demo.mem 1000 200 300 100 32 0 16 0 Demo.K Demo.N Demo.A Demo.P Demo.encPre
  have e2 := Ref.enc_correct .big Demo.mem 1000 200 300 100 32 0 16 0 Demo.K Demo.N Demo.A Demo.P Demo.encPre
  exact congrArg (fun r => byteAfter r 200) (e1.trans e2.symm)

end Ascon.Props
