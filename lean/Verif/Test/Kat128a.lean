import Verif.Spec.Ascon128a
/-!
# A test of the specification of Ascon-128a (v1.2)

Key = nonce = 00 01 … 0f; the first known-answer test of the submission (empty plaintext, empty associated data).
-/

namespace Ascon.Spec.V12

example : encrypt ((List.range 16).map (BitVec.ofNat 8)) ((List.range 16).map (BitVec.ofNat 8)) [] [] =
    [0x7A, 0x83, 0x4E, 0x6F, 0x09, 0x21, 0x09, 0x57, 0x06, 0x7B, 0x10, 0xFD, 0x83, 0x1F, 0x00, 0x78] := by
  decide +kernel

end Ascon.Spec.V12
