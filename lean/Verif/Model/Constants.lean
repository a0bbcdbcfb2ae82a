import Verif.Spec.Perm
/-!
# The initial-value tables

All `ASCON_*_IV*` macros of the three constants.h files, in the order
128, 128A, 80PQ, HASH, HASHA, XOF, XOFA, CXOF, CXOFA, MAC, MACA, PRF, PRFA, PRFS, then HASH_IV0 … HASH_IV4,
HASHA_IV0 …, XOF_IV0 …, XOFA_IV0 ….  (Extracted mechanically from the headers.)
-/

namespace Ascon.Model.Constants

/-- src/constants.h:33-72 -/
def optIvs : List Word :=
  [0x00000800806c0001, 0x00001000808c0001, 0x00000000806c0800, 0x0000080100cc0002,
   0x00000801008c0002, 0x0000080000cc0003, 0x00000800008c0003, 0x0000080000cc0004,
   0x00000800008c0004, 0x0010200080cc0005, 0x00102800808c0005, 0x0010200000cc0006,
   0x00102800008c0006, 0x00000000800c0007, 0x9b1e5494e934d681, 0x4bc3a01e333751d2,
   0xae65396c6b34b81a, 0x3c7fd4a4d56a4db3, 0x1a5c464906c5976d, 0xe2ffb4d17ffcadc5,
   0xdd364b655fa88ceb, 0xdcaabe85a70319d2, 0xd98f049404be3214, 0xca8c9d516e8a2221,
   0xda82ce768d9447eb, 0xcc7ce6c75f1ef969, 0xe7508fd780085631, 0x0ee0ea53416b58cc,
   0xe0547524db6f0bde, 0xf3040e5017d92943, 0xc474f6e3ae01892e, 0xbf5cb3ca954805e0,
   0xd9c28702ccf962ef, 0x5923fa01f4b0e72f]

/-- src/bi32/constants.h:33-72 -/
def bi32Ivs : List Word :=
  [0x0020860000000a01, 0x00008a0000400201, 0x0000862000000a00, 0x00200a0100010a00,
   0x00200a0100010200, 0x00200a0100000a01, 0x00200a0100000201, 0x00200a0000000a02,
   0x00200a0000000202, 0x00408a0004000a03, 0x00608a0004000203, 0x00400a0104000a02,
   0x00600a0104000202, 0x0000820100000203, 0xb308e49856e696e1, 0x39c35509990657dc,
   0xf46674e32b5a9644, 0x678c872d6fe2f8b5, 0x321218964ea92b7b, 0xdfc87ee88f6dfe3b,
   0xa5343eaff69bf029, 0xaff8d129e063315c, 0xab080f50d3262646, 0xbaa07b54827da001,
   0xb9b5a81fc0ae36b9, 0xa6d933e6aeabf6d9, 0xd0b98214bc3f00e5, 0x3cf1072a288d99ca,
   0xc044b73b8ef2db1e, 0xd0301a61d22c7d19, 0x84ddf0a7aee92112, 0xf2db820c7e587838,
   0xa991ae5fd830ad8b, 0x25f0ccd7d1c1e4b3]

/-- src/bi8/constants.h:33-72 -/
def bi8Ivs : List Word :=
  [0x0804040024040001, 0x0c00002004040001, 0x0804040006040000, 0x0404000024040110,
   0x0400000024040110, 0x0404000024040101, 0x0400000024040101, 0x0404000024050000,
   0x0400000024050000, 0x0c04204004050001, 0x0c00204024050001, 0x0404204004050100,
   0x0400204024050100, 0x0800000004050101, 0x9b2a0cf6c876c289, 0x61c32c1f9014ddce,
   0x8258fe27bbd48968, 0x396ed5e9c6fa454b, 0x067501c2d16faa17, 0xf7ddee7c4e6fc85b,
   0x87b955c8afda69b9, 0xf98168a3e2b86d1e, 0xd4800697c47d46c0, 0xe4980b30ec688e31,
   0xedb31194a93ef30b, 0xb2fb634ecffc3c1b, 0xb8d2815324b2b2b1, 0x617f6412a781b41c,
   0x89edb4690f750f2e, 0x8495829c2668a98f, 0xbaf079600be93916, 0xb955a1e8d4cab0aa,
   0xedcf07848d2973a5, 0x2eaa6faca10b63d3]

end Ascon.Model.Constants
