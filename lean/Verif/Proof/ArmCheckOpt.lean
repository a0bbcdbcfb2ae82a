import Verif.Proof.ArmPerm
/-!
# Symbolic execution of the plain-word ARM blocks, in the kernel
-/

namespace Ascon.Arm

open Ascon.C Ascon.Spec Ascon.Asm Ascon.Gen

/-- A loop body without its last two instructions. -/
def body2 (code : List (Instr 32)) : List (Instr 32) := code.dropLast.dropLast

theorem check_armv6_ROUND : okBlock armv6_ROUND idσ = true := by decide +kernel
theorem check_armv6_ROUND5 : okBlock armv6_ROUND5 rotσ = true := by decide +kernel
theorem check_armv7m_ROUND : okBlock armv7m_ROUND idσ = true := by decide +kernel
theorem check_armv7m_ROUND5 : okBlock armv7m_ROUND5 rotσ = true := by decide +kernel
theorem check_armv6_LOOP : checkBlock 2 (fun i => i) csOpt (extraLoop C) (fun _ => none) (body2 armv6_ROUND_LOOP) idσ
    (fun t => symEq (t.r.getD C []) cReg) = true := by decide +kernel
theorem check_armv7m_LOOP : checkBlock 2 (fun i => i) csOpt (extraLoop C) (fun _ => none) (body2 armv7m_ROUND_LOOP) idσ
    (fun t => symEq (t.r.getD C []) cReg) = true := by decide +kernel
theorem check_armv6m_LOOP : checkBlock 2 (fun i => i) csOpt (extraLoop tmp1) (fun _ => none) (body2 armv6m_ROUND_LOOP) idσ
    (fun t => symEq (t.r.getD tmp1 []) cReg) = true := by decide +kernel

end Ascon.Arm
