import Verif.Spec.Modes
/-!
# Tests of the specification (tests, not proofs)

A few of the repository's known-answer vectors, evaluated by the kernel: they check that the specification
the theorems refer to is the Ascon family that the repository ships vectors for.  Generated by
tools/gen_kat.py from the KAT files named below.
-/

namespace Ascon.Test

open Ascon.Spec

/-! crypto_aead/asconaead128/LWC_AEAD_KAT_128_128.txt -/
/-- Test: Count = 1. -/
example : aeadEncrypt [0x00, 0x01, 0x02, 0x03, 0x04, 0x05, 0x06, 0x07, 0x08, 0x09, 0x0A, 0x0B, 0x0C, 0x0D, 0x0E, 0x0F] [0x10, 0x11, 0x12, 0x13, 0x14, 0x15, 0x16, 0x17, 0x18, 0x19, 0x1A, 0x1B, 0x1C, 0x1D, 0x1E, 0x1F]
    []
    [] =
    [0x4F, 0x9C, 0x27, 0x82, 0x11, 0xBE, 0xC9, 0x31, 0x6B, 0xF6, 0x8F, 0x46, 0xEE, 0x8B, 0x2E, 0xC6] := by decide +kernel

/-- Test: Count = 600. -/
example : aeadEncrypt [0x00, 0x01, 0x02, 0x03, 0x04, 0x05, 0x06, 0x07, 0x08, 0x09, 0x0A, 0x0B, 0x0C, 0x0D, 0x0E, 0x0F] [0x10, 0x11, 0x12, 0x13, 0x14, 0x15, 0x16, 0x17, 0x18, 0x19, 0x1A, 0x1B, 0x1C, 0x1D, 0x1E, 0x1F]
    [0x30, 0x31, 0x32, 0x33, 0x34]
    [0x20, 0x21, 0x22, 0x23, 0x24, 0x25, 0x26, 0x27, 0x28, 0x29, 0x2A, 0x2B, 0x2C, 0x2D, 0x2E, 0x2F, 0x30, 0x31] =
    [0x30, 0x76, 0x65, 0x8C, 0xBA, 0x8B, 0xF3, 0xBB, 0x6D, 0xCC, 0xAA, 0x2F, 0x12, 0x55, 0xEE, 0x2E, 0x7D, 0xB6, 0xF6, 0x49, 0x3C, 0x76, 0x98, 0xF6, 0x5F, 0x68, 0x60, 0xA7, 0x43, 0x3A, 0x0F, 0x56, 0x1E, 0x6C] := by decide +kernel

/-- Test: decryption of Count = 600. -/
example : aeadDecrypt [0x00, 0x01, 0x02, 0x03, 0x04, 0x05, 0x06, 0x07, 0x08, 0x09, 0x0A, 0x0B, 0x0C, 0x0D, 0x0E, 0x0F] [0x10, 0x11, 0x12, 0x13, 0x14, 0x15, 0x16, 0x17, 0x18, 0x19, 0x1A, 0x1B, 0x1C, 0x1D, 0x1E, 0x1F]
    [0x30, 0x31, 0x32, 0x33, 0x34]
    [0x30, 0x76, 0x65, 0x8C, 0xBA, 0x8B, 0xF3, 0xBB, 0x6D, 0xCC, 0xAA, 0x2F, 0x12, 0x55, 0xEE, 0x2E, 0x7D, 0xB6, 0xF6, 0x49, 0x3C, 0x76, 0x98, 0xF6, 0x5F, 0x68, 0x60, 0xA7, 0x43, 0x3A, 0x0F, 0x56, 0x1E, 0x6C] =
    some [0x20, 0x21, 0x22, 0x23, 0x24, 0x25, 0x26, 0x27, 0x28, 0x29, 0x2A, 0x2B, 0x2C, 0x2D, 0x2E, 0x2F, 0x30, 0x31] := by decide +kernel

/-! crypto_hash/asconhash256/LWC_HASH_KAT_128_256.txt -/
/-- Test: Count = 9. -/
example : hash256 [0x00, 0x01, 0x02, 0x03, 0x04, 0x05, 0x06, 0x07] =
    [0xB8, 0x8E, 0x49, 0x7A, 0xE8, 0xE6, 0xFB, 0x64, 0x1B, 0x87, 0xEF, 0x62, 0x2E, 0xB8, 0xF2, 0xFC, 0xA0, 0xED, 0x95, 0x38, 0x3F, 0x7F, 0xFE, 0xBE, 0x16, 0x7A, 0xCF, 0x10, 0x99, 0xBA, 0x76, 0x4F] := by decide +kernel

/-! crypto_hash/asconxof128/LWC_XOF_KAT_128_512.txt -/
/-- Test: Count = 2. -/
example : xof128 [0x00] 64 =
    [0x51, 0x43, 0x0E, 0x04, 0x38, 0xEC, 0xDF, 0x64, 0x2B, 0x39, 0x36, 0x30, 0xD9, 0x77, 0x62, 0x5F, 0x5F, 0x33, 0x76, 0x56, 0xBA, 0x58, 0xAB, 0x1E, 0x96, 0x07, 0x84, 0xAC, 0x32, 0xA1, 0x6E, 0x0D, 0x44, 0x64, 0x05, 0x55, 0x1F, 0x54, 0x69, 0x38, 0x4F, 0x8E, 0xA2, 0x83, 0xCF, 0x12, 0xE6, 0x4F, 0xA7, 0x2C, 0x42, 0x6B, 0xFE, 0xBA, 0xEA, 0x3A, 0xA1, 0x52, 0x9E, 0x2C, 0x4A, 0xB2, 0x3A, 0x2F] := by decide +kernel

/-! crypto_cxof/asconcxof128/LWC_CXOF_KAT_128_512.txt -/
/-- Test: Count = 300. -/
example : cxof128 [0x10, 0x11]
    [0x00, 0x01, 0x02, 0x03, 0x04, 0x05, 0x06, 0x07, 0x08] 64 =
    [0xE7, 0x9F, 0xB2, 0xB1, 0x7E, 0x2D, 0xA9, 0x61, 0x7F, 0x1B, 0xEB, 0xAB, 0x0D, 0xEC, 0xD4, 0x34, 0x0E, 0x16, 0xFD, 0x8A, 0x46, 0x6F, 0x15, 0xA1, 0x63, 0x4B, 0x6B, 0xD0, 0x91, 0x4C, 0xBE, 0x2C, 0xD5, 0x51, 0x9C, 0x33, 0xF5, 0x8B, 0x9C, 0x53, 0xBA, 0x97, 0x99, 0xE9, 0x6B, 0xC8, 0xED, 0xFF, 0x79, 0x67, 0xB7, 0x5E, 0x89, 0x24, 0xFF, 0x8E, 0x0F, 0x0B, 0xE9, 0xF8, 0x1C, 0x06, 0xF0, 0x1C] := by decide +kernel

/-! crypto_auth/asconmacv13/LWC_MAC_KAT_128_128.txt -/
/-- Test: Count = 34. -/
example : mac [0x00, 0x01, 0x02, 0x03, 0x04, 0x05, 0x06, 0x07, 0x08, 0x09, 0x0A, 0x0B, 0x0C, 0x0D, 0x0E, 0x0F] [0x10, 0x11, 0x12, 0x13, 0x14, 0x15, 0x16, 0x17, 0x18, 0x19, 0x1A, 0x1B, 0x1C, 0x1D, 0x1E, 0x1F, 0x20, 0x21, 0x22, 0x23, 0x24, 0x25, 0x26, 0x27, 0x28, 0x29, 0x2A, 0x2B, 0x2C, 0x2D, 0x2E, 0x2F, 0x30] =
    [0x29, 0x31, 0x32, 0x84, 0x67, 0x0B, 0x54, 0xF0, 0x56, 0x4F, 0x9C, 0x73, 0xF2, 0x71, 0x31, 0xF1] := by decide +kernel

/-! crypto_auth/asconprfv13/LWC_PRF_KAT_128_512.txt -/
/-- Test: Count = 34. -/
example : prf [0x00, 0x01, 0x02, 0x03, 0x04, 0x05, 0x06, 0x07, 0x08, 0x09, 0x0A, 0x0B, 0x0C, 0x0D, 0x0E, 0x0F] [0x10, 0x11, 0x12, 0x13, 0x14, 0x15, 0x16, 0x17, 0x18, 0x19, 0x1A, 0x1B, 0x1C, 0x1D, 0x1E, 0x1F, 0x20, 0x21, 0x22, 0x23, 0x24, 0x25, 0x26, 0x27, 0x28, 0x29, 0x2A, 0x2B, 0x2C, 0x2D, 0x2E, 0x2F, 0x30] 64 =
    [0xCB, 0x2C, 0x08, 0x32, 0x8E, 0xD2, 0xDF, 0xA3, 0xF8, 0x6D, 0x5C, 0x22, 0x29, 0xBE, 0x28, 0x1C, 0xDF, 0x4A, 0x26, 0xEF, 0xE0, 0x2E, 0x3C, 0x2A, 0x57, 0x16, 0x3B, 0x15, 0x05, 0xB5, 0x1D, 0x7C, 0xD0, 0x2E, 0x36, 0x08, 0xC4, 0x59, 0x60, 0x30, 0xCB, 0xEB, 0x05, 0xE7, 0x96, 0xE9, 0x9C, 0xD9, 0x84, 0xAB, 0x16, 0xED, 0x92, 0xB2, 0xD8, 0x5A, 0x9F, 0x8E, 0xDE, 0xC5, 0xAB, 0xE2, 0xEA, 0xE9] := by decide +kernel

/-! crypto_auth/asconprfsv13/LWC_PRFS_KAT_128_128.txt -/
/-- Test: Count = 9. -/
example : prfShort [0x00, 0x01, 0x02, 0x03, 0x04, 0x05, 0x06, 0x07, 0x08, 0x09, 0x0A, 0x0B, 0x0C, 0x0D, 0x0E, 0x0F] [0x10, 0x11, 0x12, 0x13, 0x14, 0x15, 0x16, 0x17] 16 =
    [0x8C, 0x21, 0xBB, 0xA3, 0x5D, 0x2B, 0x11, 0xD7, 0x45, 0xB7, 0xA9, 0x0C, 0xD9, 0xE4, 0x8A, 0x8D] := by decide +kernel

end Ascon.Test
