import Verif.Proof.ArmPlace
import Verif.Proof.Registry
import Verif.Props.Aead
/-!
# C70: inline assembly, for every choice of registers

The `asm` statements of the ARM directories tell the compiler which operands they read and write; the compiler chooses
the registers.  See Verif/C/Place.lean for what either side promises.
-/

namespace Ascon.Props

open Ascon Ascon.Spec Ascon.C Ascon.C.Prog Ascon.Impl Ascon.Asm Ascon.Arm Ascon.Gen

attribute [local irreducible] perm

theorem RoundStmt.okPlace (t : RoundStmt) : okPlace t.ops false t.code = true := by
  cases t <;> decide +kernel

theorem RoundStmt.block_eq (t : RoundStmt) (s : State) (i : Nat) (hi : i < 12) :
    block .little t.code (t.imm (t.enc (rc i))) (encS t.enc s) = .ret (t.order (encS t.enc (round (rc i) s))) := by
  cases t
  · exact okBlock_sound check_armv6_ROUND s (rc i) (rc_lt i hi)
  · exact okBlock5_sound check_armv6_ROUND5 s (rc i) (rc_lt i hi)
  · exact okBlock_sound check_armv7m_ROUND s (rc i) (rc_lt i hi)
  · exact okBlock5_sound check_armv7m_ROUND5 s (rc i) (rc_lt i hi)
  · exact okBlockBi_sound check_bi32_armv6_ROUND s (rc i)
  · exact okBlockBi5_sound check_bi32_armv6_ROUND5 s (rc i)
  · exact okBlockBi_sound check_bi32_armv7m_ROUND s (rc i)
  · exact okBlockBi5_sound check_bi32_armv7m_ROUND5 s (rc i)

/-- **C70, one round** Whatever different registers the compiler gives the operands of `ROUND` or `ROUND5`, and whatever the
temporaries, the other registers, the stack and the flags hold: if the state words are in their registers before, the
words after one round are in the registers of the operands afterwards, no register outside of the operand list has changed, and
the stack is as before. -/
theorem C70_round_any_registers (t : RoundStmt) (ρ : Alloc) (hv : t.ops.Valid ρ) (s : State) (i : Nat) (hi : i < 12) (m : M 32)
    (hl : t.ops.Loaded ρ (loadRegs .little (encS t.enc s) (t.imm (t.enc (rc i)))).r m) :
    ∃ m', exec (fun _ => none)
        (t.code.map (Instr.place t.ops ρ (loadRegs .little (encS t.enc s) (t.imm (t.enc (rc i)))).r)) m = some m' ∧
      storePlaced .little ρ m' = t.order (encS t.enc (round (rc i) s)) ∧ t.ops.Preserved ρ m m' := by
  have h := exec_placed hv (RoundStmt.okPlace t) .little (fun _ => none) (t.imm (t.enc (rc i))) (encS t.enc s) m hl
  have hb := RoundStmt.block_eq t s i hi
  unfold block at hb
  revert h hb
  cases exec (fun _ => none) t.code (loadRegs .little (encS t.enc s) (t.imm (t.enc (rc i)))) with
  | none => intro _ hb; cases hb
  | some a =>
    cases exec (fun _ => none) (t.code.map (Instr.place t.ops ρ
        (loadRegs .little (encS t.enc s) (t.imm (t.enc (rc i)))).r)) m with
    | none => intro h; exact h.elim
    | some b =>
      intro h hb
      refine ⟨b, rfl, ?_, h.2⟩
      rw [h.1]
      exact Prog.ret.inj hb

theorem LoopStmt.okPlace (t : LoopStmt) : okPlace t.ops true t.code = true := by
  cases t <;> decide +kernel

theorem LoopStmt.loop (t : LoopStmt) (nr : Nat) (h0 : 0 < nr) (h : nr ≤ 12) :
    LoopOk t.enc t.rom t.code nr (t.init nr) := by
  cases t
  · exact armv6_loop nr h0 h
  · exact armv6m_loop nr h0 h
  · exact armv7m_loop nr h0 h
  · exact bi32_armv6m_loop nr h0 h
  · exact bi32_armv7m_loop nr h0 h

/-- **C70, the loop** The same for `ROUND_LOOP`: with 1 to 12 rounds requested, the loop ends with the permuted state in the
registers of the operands; every register outside of the operand list and the stack are as before.  The zero flag is set
whatever it was before, so the flags are changed although armv6/round.h:100, armv6m/round.h:179, armv7m/round.h:96 and
bi32_armv6m/round.h:169 do not list `"cc"`. -/
theorem C70_loop_any_registers (t : LoopStmt) (ρ : Alloc) (hv : t.ops.Valid ρ) (s : State) (nr : Nat) (h0 : 0 < nr)
    (h12 : nr ≤ 12) (m : M 32) (hl : t.ops.Loaded ρ (loadRegs .little (encS t.enc s) (t.init nr)).r m) (mem : Mem) :
    ∃ m', run (doWhile t.rom (t.code.map (Instr.place t.ops ρ (loadRegs .little (encS t.enc s) (t.init nr)).r)) 16 m) mem =
        some (m', mem) ∧
      storePlaced .little ρ m' = encS t.enc (perm nr s) ∧ t.ops.Preserved ρ m m' ∧ m'.z = true := by
  obtain ⟨a, h1, h2⟩ := LoopStmt.loop t nr h0 h12 s
  have h := doWhile_placed hv (LoopStmt.okPlace t) .little t.rom _ m 16
    (sim_load (m := loadRegs .little (encS t.enc s) (t.init nr)) (fun _ _ => rfl) rfl hl)
  obtain ⟨b, hb, hP⟩ := h.run (a := a) (mem := mem) (mem' := mem) (by rw [h1, run_jumps])
  exact ⟨b, hb, hP.1.trans (storeRegs_id h2), hP.2.1, hP.2.2⟩

theorem Inline.ok (i : Inline) (pick : Pick) : (i.backend pick).Ok .little i.core.enc := by
  rw [i.backend_eq pick]
  exact i.core.ok .little (by cases i <;> rfl)

theorem Inline.ct (i : Inline) (pick : Pick) (e : Endian) : (i.backend pick).CT e := by
  rw [i.backend_eq pick]
  exact i.core.ct e

/-- **C70, encryption** With any choice of registers for every `asm` statement (src/aead.c and src/lowsize/aead.c):
`crypto_aead_encrypt` computes Ascon-AEAD128. -/
theorem C70_encrypt_any_registers (i : Inline) (pick : Pick) (comb : Bool) (mem : Mem) (sp c clen m ad nsec npub k : Nat)
    (K N A P : List Byte) (h : EncPre mem sp c clen m ad npub k K N A P) :
    ∃ mem', run (Gen.crypto_aead_encrypt (i.backend pick) .little sp c clen m P.length ad A.length nsec npub k) mem =
        some (0, mem') ∧
      run (Low.crypto_aead_encrypt (i.backend pick) comb .little sp c clen m P.length ad A.length nsec npub k) mem =
        some (0, mem') ∧
      mem'.Holds c (aeadEncrypt K N A P) :=
  ⟨_, Gen.enc_correct (Inline.ok i pick) mem sp c clen m ad nsec npub k K N A P h,
    Low.enc_correct (Inline.ok i pick) comb mem sp c clen m ad nsec npub k K N A P h, encPost_holds .little h⟩

/-- **C70, decryption** -/
theorem C70_decrypt_any_registers (i : Inline) (pick : Pick) (comb : Bool) (mem : Mem) (sp m mlen nsec c ad npub k : Nat)
    (K N A C : List Byte) (h : DecPre mem sp m mlen c ad npub k K N A C) :
    ∃ r mem', run (Gen.crypto_aead_decrypt (i.backend pick) .little sp m mlen nsec c C.length ad A.length npub k) mem =
        some (r, mem') ∧
      run (Low.crypto_aead_decrypt (i.backend pick) comb .little sp m mlen nsec c C.length ad A.length npub k) mem =
        some (r, mem') ∧
      (∀ P, aeadDecrypt K N A C = some P → r = 0 ∧ mem'.Holds m P) ∧
      (aeadDecrypt K N A C = none → r = -1) := by
  refine ⟨_, _, Gen.dec_correct (Inline.ok i pick) mem sp m mlen nsec c ad npub k K N A C h,
    Low.dec_correct (Inline.ok i pick) comb mem sp m mlen nsec c ad npub k K N A C h, ?_, ?_⟩
  · intro P hP
    rw [aeadDecrypt_eq h.ctMin] at hP
    split at hP
    · rename_i ht
      cases hP
      rw [if_pos ht]
      exact ⟨rfl, decPost_holds .little⟩
    · cases hP
  · intro hP
    rw [aeadDecrypt_eq h.ctMin] at hP
    split at hP
    · cases hP
    · rename_i ht
      rw [if_neg ht]

/-- **C70, hash, XOF and MAC** -/
theorem C70_hash_any_registers (i : Inline) (pick : Pick) :
    HashCorrectAt .little hash256 32 (Gen.crypto_hash_hash256 (i.backend pick)) ∧
      XofCorrectAt .little xof128 (Gen.ascon_xof_xof128 (i.backend pick)) ∧
      AuthCorrectAt .little mac 16 (fun _ => True) (Gen.mac_crypto_auth (i.backend pick)) :=
  ⟨Gen.hash256_correct (Inline.ok i pick), Gen.xof_xof128_correct (Inline.ok i pick),
    Gen.mac_auth_correct (Inline.ok i pick)⟩

/-! The operands in their own registers, and in the registers in reverse order. -/

def idPlacement (o : Operands) : Placement o := ⟨fun i => i, fun _ _ _ _ h => h, ⟨fun _ => 0xdeadbeef, [1, 2], true⟩⟩

example : opsROUND.Valid (fun i => 12 - i) := by
  unfold Operands.Valid
  decide

example (e : Endian) (s : State) :
    opsROUND.Loaded (fun i => 12 - i) (loadRegs e s (immOpt 0xf0)).r
      (opsROUND.load (fun i => 12 - i) (loadRegs e s (immOpt 0xf0)).r (idPlacement opsROUND).m0) :=
  Operands.loaded_load (by unfold Operands.Valid; decide) _ _

example : EncPre Demo.mem 1000 200 300 100 32 16 0 Demo.K Demo.N Demo.A Demo.P := Demo.encPre
example : DecPre Demo.memC 1000 100 300 200 32 16 0 Demo.K Demo.N Demo.A Demo.C := Demo.decPre

/-! ## An input that may share a register -/

/-- The state with all words 0, the constant `0x100000001` (odd half 1): the code of bi32_armv6m/round.h:171-323 with the constant in
the registers `ρ C_e` and `ρ C_o`. -/
def sharedRun (ρ : Alloc) : Option State :=
  (exec (fun _ => none) (bi32_armv6m_ROUND.map (Instr.place opsBiROUNDArmv6m ρ fun _ => 0))
    (((⟨fun _ => 0, [], false⟩ : M 32).set (ρ C_e) 1).set (ρ C_o) 1)).map (storePlaced .little ρ)

/-- **C70, a counterexample** bi32_armv6m/round.h:319 lets the compiler keep the halves of the round constant in registers (`"ri"`), and the
temporaries (line 317) are not marked as written early: the compiler may put `C_o` into the register of `tmp0`.  The
round is then wrong, as the constant is overwritten before it is used.  (The shipped configuration uses `ROUND_LOOP`, which has no such
operand.) -/
theorem C70_shared_register_wrong :
    let own : Alloc := fun i => i
    let shared : Alloc := fun i => if i = C_o then tmp0 else i
    opsBiROUNDArmv6m.Valid own ∧ opsBiROUNDArmv6m.Valid shared ∧
      sharedRun own = some (encS (deinterleave32 .little) (round 3 ⟨0, 0, 0, 0, 0⟩)) ∧
      sharedRun shared ≠ sharedRun own := by
  refine ⟨?_, ?_, ?_, ?_⟩
  · unfold Operands.Valid; decide
  · unfold Operands.Valid; decide
  · decide +kernel
  · decide +kernel

end Ascon.Props
