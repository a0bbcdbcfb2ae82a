import Verif.Spec.AsconHash12
/-!
# Published vectors of Ascon-Hash and Ascon-Xof (v1.2)

Evaluated in Lean's kernel: the specification of Spec/AsconHash12.lean is Ascon-Hash and Ascon-Xof of version 1.2.  (Tests of the
specification, not proofs about the code.)
-/

namespace Ascon.Spec.V12

/-- LWC_HASH_KAT_256.txt of ascon-hash v1.2, first vector: the empty message. -/
theorem kat_hash_empty : hash [] =
    [0x73, 0x46, 0xbc, 0x14, 0xf0, 0x36, 0xe8, 0x7a, 0xe0, 0x3d, 0x09, 0x97, 0x91, 0x30, 0x88, 0xf5,
     0xf6, 0x84, 0x11, 0x43, 0x4b, 0x3c, 0xf8, 0xb5, 0x4f, 0xa7, 0x96, 0xa8, 0x0d, 0x25, 0x1f, 0x91] := by
  decide +kernel

/-- LWC_HASH_KAT_256.txt of ascon-xof v1.2, first vector: the empty message. -/
theorem kat_xof_empty : xof [] 32 =
    [0x5d, 0x4c, 0xbd, 0xe6, 0x35, 0x0e, 0xa4, 0xc1, 0x74, 0xbd, 0x65, 0xb5, 0xb3, 0x32, 0xf8, 0x40,
     0x8f, 0x99, 0x74, 0x0b, 0x81, 0xaa, 0x02, 0x73, 0x5e, 0xae, 0xfb, 0xcf, 0x0b, 0xa0, 0x33, 0x9e] := by
  decide +kernel

end Ascon.Spec.V12
