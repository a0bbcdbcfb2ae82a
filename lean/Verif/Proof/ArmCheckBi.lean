import Verif.Proof.ArmPerm
/-!
# Symbolic execution of the interleaved ARM blocks, in the kernel
-/

namespace Ascon.Arm

open Ascon.C Ascon.Spec Ascon.Asm Ascon.Gen

theorem check_bi32_armv6_ROUND : okBlockBi bi32_armv6_ROUND idσ = true := by decide +kernel
theorem check_bi32_armv6_ROUND5 : okBlockBi bi32_armv6_ROUND5 rotσ = true := by decide +kernel
theorem check_bi32_armv7m_ROUND : okBlockBi bi32_armv7m_ROUND idσ = true := by decide +kernel
theorem check_bi32_armv7m_ROUND5 : okBlockBi bi32_armv7m_ROUND5 rotσ = true := by decide +kernel
theorem check_bi32_armv7m_LOOP : ∀ i : Fin 12, checkBlock 2 bi32Pos (sbits (constLeft (i.val + 1)))
    (extraBiLoop C E (i.val + 1)) bi32Rom bi32_armv7m_ROUND_LOOP idσ (postBiLoop C E i.val) = true := by decide +kernel
theorem check_bi32_armv6m_LOOP : ∀ i : Fin 12, checkBlock 2 bi32Pos (sbits (constLeft (i.val + 1)))
    (extraBiLoop tmp1 tmp0 (i.val + 1)) bi32Rom bi32_armv6m_ROUND_LOOP idσ (postBiLoop tmp1 tmp0 i.val) = true := by
  decide +kernel

end Ascon.Arm
