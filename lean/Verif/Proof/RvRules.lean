import Verif.Proof.RvPerm
import Verif.Proof.MaskedShares
/-!
# Derived rules for straight-line RISC-V code
-/

namespace Ascon.Rv

open Ascon.C Ascon.Spec Ascon.Asm
open Ascon.Masked (U32 repr32 le32 le32_repr)
open Impl (set_ne set_eq ofNat_add)

theorem loaded_iff {enc : Word → Word} {s : State} {m : Regs} : Loaded 2 enc s m ↔
    (m.r s1 = chunk 32 0 (enc s.x0) ∧ m.r s0 = chunk 32 1 (enc s.x0) ∧
     m.r s3 = chunk 32 0 (enc s.x1) ∧ m.r s2 = chunk 32 1 (enc s.x1) ∧
     m.r s5 = chunk 32 0 (enc s.x2) ∧ m.r s4 = chunk 32 1 (enc s.x2) ∧
     m.r s7 = chunk 32 0 (enc s.x3) ∧ m.r s6 = chunk 32 1 (enc s.x3) ∧
     m.r s9 = chunk 32 0 (enc s.x4) ∧ m.r s8 = chunk 32 1 (enc s.x4)) := by
  constructor
  · intro h
    exact ⟨h 0 0 (by omega) (by omega), h 0 1 (by omega) (by omega), h 1 0 (by omega) (by omega), h 1 1 (by omega) (by omega),
      h 2 0 (by omega) (by omega), h 2 1 (by omega) (by omega), h 3 0 (by omega) (by omega), h 3 1 (by omega) (by omega),
      h 4 0 (by omega) (by omega), h 4 1 (by omega) (by omega)⟩
  · rintro ⟨h0, h1, h2, h3, h4, h5, h6, h7, h8, h9⟩ k j hk hj
    match k, j, hk, hj with
    | 0, 0, _, _ => exact h0
    | 0, 1, _, _ => exact h1
    | 1, 0, _, _ => exact h2
    | 1, 1, _, _ => exact h3
    | 2, 0, _, _ => exact h4
    | 2, 1, _, _ => exact h5
    | 3, 0, _, _ => exact h6
    | 3, 1, _, _ => exact h7
    | 4, 0, _, _ => exact h8
    | 4, 1, _, _ => exact h9
    | n + 5, _, h, _ => omega
    | _, n + 2, _, h => omega

theorem chunk_xor (h : Nat) (a b : Word) : chunk 32 h (a ^^^ b) = chunk 32 h a ^^^ chunk 32 h b := by
  unfold chunk
  rw [BitVec.ushiftRight_xor_distrib, BitVec.setWidth_xor]

theorem chunk_lo (x : Word) : chunk 32 0 x = Masked.lo x := by
  simp [chunk, Masked.lo]

theorem chunk_hi (x : Word) : chunk 32 1 x = Masked.hi x := by
  simp [chunk, Masked.hi]

/-- The two halves of a word in memory. -/
theorem bytes64_chunks (x : Word) : bytes64 x = repr32 .little (chunk 32 0 x) ++ repr32 .little (chunk 32 1 x) := by
  rw [chunk_lo, chunk_hi]; exact Masked.repr64_split x

theorem repr32_surj (bs : List Byte) (hl : bs.length = 4) : ∃ v : U32, repr32 .little v = bs := by
  have h := bytes64_le64 (bs ++ [0, 0, 0, 0]) (by simp [hl])
  rw [bytes64_chunks] at h
  exact ⟨_, (List.append_inj h (by rw [hl]; rfl)).1⟩

theorem holds_le64 {mem : Mem} {p : Nat} {b : List Byte} (h : mem.Holds p b) (hl : b.length = 8) :
    mem.Holds p (repr32 .little (chunk 32 0 (le64 b))) ∧ mem.Holds (p + 4) (repr32 .little (chunk 32 1 (le64 b))) := by
  rw [← bytes64_le64 b hl, bytes64_chunks] at h
  exact holds_append.mp h

theorem holds_block {mem : Mem} {p : Nat} {b : List Byte} (h : mem.Holds p b) (hl : b.length = 16) :
    mem.Holds (p + 0) (repr32 .little (chunk 32 0 (le64 (b.take 8)))) ∧
    mem.Holds (p + 4) (repr32 .little (chunk 32 1 (le64 (b.take 8)))) ∧
    mem.Holds (p + 8) (repr32 .little (chunk 32 0 (le64 (b.drop 8)))) ∧
    mem.Holds (p + 12) (repr32 .little (chunk 32 1 (le64 (b.drop 8)))) := by
  have h1 := holds_le64 (h.take 8) (by simp; omega)
  have h2 := holds_le64 (h.drop 8 (by omega)) (by simp; omega)
  exact ⟨h1.1, h1.2, h2.1, h2.2⟩

theorem writes_block (mem : Mem) (p : Nat) (a b : Word) :
    mem.writes p (bytes64 a ++ bytes64 b) =
      (((mem.writes (p + 0) (repr32 .little (chunk 32 0 a))).writes (p + 4) (repr32 .little (chunk 32 1 a))).writes (p + 8)
        (repr32 .little (chunk 32 0 b))).writes (p + 12) (repr32 .little (chunk 32 1 b)) := by
  rw [bytes64_chunks a, bytes64_chunks b, List.append_assoc, writes_append, writes_append, writes_append]
  rfl

variable {code : List Ins} {base : U32} {pc : Nat} {m : Regs} {mem : Mem} {Q : Post}

theorem Goes.lwAt {d a off p : Nat} {v : U32} (hf : code[pc]? = some (.lw d a off)) (ha : m.r a = BitVec.ofNat 32 p)
    (hp : p + off + 4 ≤ 2 ^ 32) (hal : (p + off) % 4 = 0) (hb : mem.Holds (p + off) (repr32 .little v))
    (h : Goes code base (pc + 1) (m.set d v) mem fun t => Q (reads (p + off) 4 ++ t)) :
    Goes code base pc m mem Q := by
  have e := addr_of ha (show p + off < 2 ^ 32 by omega)
  refine .lw (bs := repr32 .little v) hf (by rw [e]; exact hal) (by rw [e]; exact hb) rfl ?_
  rw [le32_repr, e]; exact h

theorem Goes.swAt {s : Opnd 32} {a off p : Nat} (v : U32) (hf : code[pc]? = some (.sw s a off)) (ha : m.r a = BitVec.ofNat 32 p)
    (hv : s.get m = v)
    (hp : p + off + 4 ≤ 2 ^ 32) (hal : (p + off) % 4 = 0) (hb : mem.Writable (p + off) 4)
    (h : Goes code base (pc + 1) m (mem.writes (p + off) (repr32 .little v)) fun t => Q (writesE (p + off) 4 ++ t)) :
    Goes code base pc m mem Q := by
  have e := addr_of ha (show p + off < 2 ^ 32 by omega)
  refine .sw hf (by rw [e]; exact hal) (by rw [e]; exact hb) ?_
  rw [hv, e]; exact h

theorem Goes.lbuAt {d a off p : Nat} {b : Byte} (hf : code[pc]? = some (.lbu d a off)) (ha : m.r a = BitVec.ofNat 32 p)
    (hp : p + off < 2 ^ 32) (hb : (mem (p + off)).byte = some b)
    (h : Goes code base (pc + 1) (m.set d (b.setWidth 32)) mem fun t => Q (.read (p + off) :: t)) :
    Goes code base pc m mem Q := by
  have e := addr_of ha hp
  refine .lbu hf (by rw [e]; exact hb) ?_
  rw [e]; exact h

theorem Goes.sbAt {s a off p : Nat} (v : Byte) (hf : code[pc]? = some (.sb s a off)) (ha : m.r a = BitVec.ofNat 32 p)
    (hv : (m.r s).setWidth 8 = v) (hp : p + off < 2 ^ 32) (hb : (mem (p + off)).rw = true)
    (h : Goes code base (pc + 1) m (mem.writes (p + off) [v]) fun t => Q (.write (p + off) :: t)) :
    Goes code base pc m mem Q := by
  have e := addr_of ha hp
  refine .sb hf (by rw [e]; exact hb) ?_
  rw [hv, e]; exact h

/-- Evaluate a register. -/
macro "rg" : tactic => `(tactic| (simp (disch := decide) only [Opnd.get, set_eq, set_ne, *]))
/-- One register instruction. -/
macro "ri" : tactic => `(tactic| (refine Goes.alu rfl rfl ?_; simp (disch := decide) only [Opnd.get, BitOp.fn, set_eq, set_ne]))

end Ascon.Rv
