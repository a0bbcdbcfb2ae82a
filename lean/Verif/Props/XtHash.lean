import Verif.Proof.XtHash
/-!
# The hash functions of asm_esp32 (C58, C59)

crypto_hash/asconhash256/asm_esp32 and crypto_hash/asconxof128/asm_esp32 are registered as implementations of Ascon-Hash256 and
Ascon-XOF128, but compute Ascon-Hash and Ascon-Xof of the competition version 1.2 (`Spec/AsconHash12.lean`).
-/

namespace Ascon.Xt

open Ascon.C Ascon.Spec Ascon.Rv
open Ascon.Masked (U32 repr32)
open Ascon.Rv.Impl (set_ne set_eq)

attribute [local irreducible] perm

/-- A call of `crypto_hash`: `sp` points to `S` with the frame `[S, S+48)` (of the 64 bytes reserved by `entry`), the return
address is not in the code, the message `M` is at `inp`, and there is room for `n` bytes at `out`.  Nothing is said about
alignment, nor about the overlap of message and output. -/
structure HashCall (code : List Ins) (base : U32) (regs : Regs) (mem : Mem) (S out n inp : Nat) (M : List Byte) : Prop where
  stk : regs.stk = []
  spR : regs.r sp = BitVec.ofNat 32 S
  spEnd : S + 48 ≤ 2 ^ 32
  spW : mem.Writable S 48
  ret : ¬ ((regs.r ra - base).toNat % 4 = 0 ∧ (regs.r ra - base).toNat / 4 < code.length)
  msg : mem.Holds inp M
  msgLen : M.length < 2 ^ 32
  msgEnd : inp + M.length ≤ 2 ^ 32
  msgFrame : Disjoint S 48 inp M.length
  outW : mem.Writable out n
  outEnd : out + n ≤ 2 ^ 32
  outFrame : Disjoint S 48 out n

/-- What the code with the constants of the state `c` does. -/
theorem run_hash {c : State} {base : U32} {regs : Regs} {mem : Mem} {S out n inp : Nat} {M : List Byte} (hn : n < 2 ^ 32)
    (h : HashCall (hcode c) base regs mem S out n inp M) :
    ∃ F mem', (mem'.Holds out (V12.squeeze8 ((fullBlocks 8 (V12.pad8 M)).foldl V12.absorb8 c) n) ∧
        ∀ a, (a < S ∨ S + 48 ≤ a) → (a < out ∨ out + n ≤ a) → mem' a = mem a) ∧
      ∀ fuel, F ≤ fuel → run (crypto_hash (hcode c) 108 base regs fuel n out inp M.length) mem = some (0, mem') ∧
        trace (crypto_hash (hcode c) 108 base regs fuel n out inp M.length) mem = H.coreT S out n inp M.length := by
  have hg := H.core_goes (c := c) (base := base) (S := S) M out n inp
    (setArgs regs (BitVec.ofNat 32 out) (BitVec.ofNat 32 n) (BitVec.ofNat 32 inp) (BitVec.ofNat 32 M.length) (regs.r x0h) (regs.r x0l))
    mem h.stk h.spR h.spEnd h.spW rfl rfl rfl rfl h.msgLen h.msgEnd h.msg h.msgFrame hn h.outEnd h.outW h.outFrame
  obtain ⟨F, t, pc', m', mem', ⟨rfl, -, hra, ha2, hfr⟩, hrun⟩ := hg.exit (a := ra) (by
    rintro t pc' m' mem' ⟨-, rfl, hra, -, -⟩
    refine ⟨rfl, ?_⟩
    rw [hra]; exact h.ret)
  have hlen := H.length_squeezeS n (perm 12 (H.absorbS c M))
  refine ⟨F, mem', ⟨?_, fun a h1 h2 => ?_⟩, fun fuel hf => ?_⟩
  · rw [← H.absorbS_eq, ← H.squeezeS_eq]
    refine hfr.holds (fun a h1 h2 => ?_) (holds_writes_self _ _ _)
    have := h.outFrame
    rw [hlen] at h2
    unfold Disjoint at this; unfold H.F; omega
  · rw [hfr.same a (by unfold H.F; omega), writes_out (by rw [hlen]; exact h2)]
  · obtain ⟨h1, h2⟩ := hrun fuel hf
    have hra' : m'.r ra = regs.r ra := hra
    unfold crypto_hash
    rw [run_bind, trace_bind, h1, h2]
    simp only [Option.bind_some, hra', beq_self_eq_true]
    refine ⟨?_, List.append_nil _⟩
    show some ((m'.r a2).toInt, mem') = _
    rw [ha2]; rfl

/-- **C58** crypto_hash/asconhash256/asm_esp32: every call terminates, returns 0, leaves Ascon-Hash (v1.2) of the message at
`out`, and changes nothing else but the stack frame.  There is no restriction on the message but that it lies in the 32-bit
address space; the output may overlap it. -/
theorem C58_hash_is_v12 (base : U32) (regs : Regs) (mem : Mem) (S out inp : Nat) (M : List Byte)
    (h : HashCall xhash_code base regs mem S out 32 inp M) :
    ∃ F mem', (mem'.Holds out (V12.hash M) ∧ ∀ a, (a < S ∨ S + 48 ≤ a) → (a < out ∨ out + 32 ≤ a) → mem' a = mem a) ∧
      ∀ fuel, F ≤ fuel →
      run (crypto_hash xhash_code xhash_L_ascon_core base regs fuel 32 out inp M.length) mem = some (0, mem') := by
  rw [xhash_eq] at h ⊢
  obtain ⟨F, mem', hout, hrun⟩ := run_hash (by decide) h
  rw [initHash_eq] at hout
  exact ⟨F, mem', hout, fun fuel hf => (hrun fuel hf).1⟩

/-- crypto_hash/asconxof128/asm_esp32: the same with 64 bytes of Ascon-Xof (v1.2). -/
theorem C58_xof_is_v12 (base : U32) (regs : Regs) (mem : Mem) (S out inp : Nat) (M : List Byte)
    (h : HashCall xxof_code base regs mem S out 64 inp M) :
    ∃ F mem', (mem'.Holds out (V12.xof M 64) ∧ ∀ a, (a < S ∨ S + 48 ≤ a) → (a < out ∨ out + 64 ≤ a) → mem' a = mem a) ∧
      ∀ fuel, F ≤ fuel →
      run (crypto_hash xxof_code xxof_L_ascon_core base regs fuel 64 out inp M.length) mem = some (0, mem') := by
  rw [xxof_eq] at h ⊢
  obtain ⟨F, mem', hout, hrun⟩ := run_hash (by decide) h
  rw [initXof_eq] at hout
  exact ⟨F, mem', hout, fun fuel hf => (hrun fuel hf).1⟩

/-- The accesses and branches of both programs depend on pointers and the length of the message only. -/
theorem C58_constant_time (code : List Ins) (n : Nat) (hcode : (code = xhash_code ∧ n = 32) ∨ (code = xxof_code ∧ n = 64)) (base : U32)
    (regs1 regs2 : Regs) (mem1 mem2 : Mem) (S out inp : Nat) (M1 M2 : List Byte) (hl : M2.length = M1.length)
    (h1 : HashCall code base regs1 mem1 S out n inp M1) (h2 : HashCall code base regs2 mem2 S out n inp M2) :
    ∃ F, ∀ fuel, F ≤ fuel →
      trace (crypto_hash code xhash_L_ascon_core base regs1 fuel n out inp M1.length) mem1 =
      trace (crypto_hash code xhash_L_ascon_core base regs2 fuel n out inp M1.length) mem2 := by
  have key : ∃ c, code = Xt.hcode c ∧ n < 2 ^ 32 := by
    rcases hcode with ⟨rfl, rfl⟩ | ⟨rfl, rfl⟩
    · exact ⟨_, xhash_eq, by decide⟩
    · exact ⟨_, xxof_eq, by decide⟩
  obtain ⟨c, rfl, hn⟩ := key
  obtain ⟨F1, _, -, hr1⟩ := run_hash hn h1
  obtain ⟨F2, _, -, hr2⟩ := run_hash hn h2
  rw [hl] at hr2
  exact ⟨max F1 F2, fun fuel hf => ((hr1 fuel (by omega)).2).trans (hr2 fuel (by omega)).2.symm⟩

/-! ## Not the standard's functions -/

theorem not_hash256 : V12.hash [] ≠ hash256 [] := by decide +kernel
theorem not_xof128 : V12.xof [] 64 ≠ xof128 [] 64 := by decide +kernel

theorem length_squeeze8 (s : State) (n : Nat) : (V12.squeeze8 s n).length = n := by
  rw [← H.squeezeS_eq, H.length_squeezeS]

theorem holds_inj {mem : Mem} {p : Nat} {a b : List Byte} (ha : mem.Holds p a) (hb : mem.Holds p b) (hl : a.length = b.length) :
    a = b := by
  apply List.ext_getElem hl
  intro i h1 h2
  have e1 := ha i h1
  have e2 := hb i h2
  rw [e1] at e2
  simpa using e2

/-- **C59** No call with an empty message leaves the Ascon-Hash256 value at `out`. -/
theorem C59_hash_not_hash256 (base : U32) (regs : Regs) (mem : Mem) (S out inp : Nat)
    (h : HashCall xhash_code base regs mem S out 32 inp []) :
    ∃ F mem', ¬ mem'.Holds out (hash256 []) ∧ ∀ fuel, F ≤ fuel →
      run (crypto_hash xhash_code xhash_L_ascon_core base regs fuel 32 out inp 0) mem = some (0, mem') := by
  obtain ⟨F, mem', ⟨ho, -⟩, hrun⟩ := C58_hash_is_v12 base regs mem S out inp [] h
  refine ⟨F, mem', fun hh => not_hash256 (holds_inj ho hh ?_), hrun⟩
  decide +kernel

/-- No call with an empty message leaves the Ascon-XOF128 value at `out`. -/
theorem C59_xof_not_xof128 (base : U32) (regs : Regs) (mem : Mem) (S out inp : Nat)
    (h : HashCall xxof_code base regs mem S out 64 inp []) :
    ∃ F mem', ¬ mem'.Holds out (xof128 [] 64) ∧ ∀ fuel, F ≤ fuel →
      run (crypto_hash xxof_code xxof_L_ascon_core base regs fuel 64 out inp 0) mem = some (0, mem') := by
  obtain ⟨F, mem', ⟨ho, -⟩, hrun⟩ := C58_xof_is_v12 base regs mem S out inp [] h
  refine ⟨F, mem', fun hh => not_xof128 (holds_inj ho hh ?_), hrun⟩
  decide +kernel

/-! ## The hypotheses can be met -/

namespace Demo

/-- Every address below 4096 holds a byte. -/
def mem : Mem := fun a => if a < 4096 then .val (BitVec.ofNat 8 (a * 7 + 3)) else .unalloc
/-- Stack pointer 1024, return address 0x40000000. -/
def regs : Regs := { r := fun i => if i = sp then 1024 else if i = ra then 0x40000000 else 0x1234, stk := [], z := false }
/-- The 21 bytes from address 301. -/
def msg : List Byte := (List.range 21).map fun i => BitVec.ofNat 8 ((301 + i) * 7 + 3)

theorem writable (p n : Nat) (h : p + n ≤ 4096) : mem.Writable p n := by
  intro i hi
  unfold mem
  rw [if_pos (by omega)]; rfl

theorem holds : mem.Holds 301 msg := by
  intro i hi
  have hl : msg.length = 21 := by simp [msg]
  have e : msg[i] = BitVec.ofNat 8 ((301 + i) * 7 + 3) := by simp [msg]
  rw [e]
  unfold mem
  rw [if_pos (by omega)]; rfl

/-- A message at an odd address, overlapped by the output. -/
theorem call (c : State) (n : Nat) (hn : n ≤ 64) : HashCall (hcode c) 0x80000 regs mem 1024 311 n 301 msg where
  stk := rfl
  spR := rfl
  spEnd := by decide
  spW := writable _ _ (by decide)
  ret := by
    rw [H.len]
    decide +kernel
  msg := holds
  msgLen := by simp [msg]
  msgEnd := by simp [msg]
  msgFrame := by simp [msg, Disjoint]
  outW := writable _ _ (by omega)
  outEnd := by omega
  outFrame := by unfold Disjoint; omega

end Demo

example : HashCall xhash_code 0x80000 Demo.regs Demo.mem 1024 311 32 301 Demo.msg := by
  rw [xhash_eq]; exact Demo.call _ _ (by decide)
example : HashCall xxof_code 0x80000 Demo.regs Demo.mem 1024 311 64 301 Demo.msg := by
  rw [xxof_eq]; exact Demo.call _ _ (by decide)

end Ascon.Xt
