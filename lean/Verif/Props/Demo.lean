import Verif.C.Contracts
/-!
# Concrete memories

Used by the examples next to the property theorems to show that their hypotheses can be met.
-/

namespace Ascon.Demo

open Ascon.C

def K : List Byte := [0, 1, 2, 3, 4, 5, 6, 7, 8, 9, 10, 11, 12, 13, 14, 15]
def N : List Byte := [16, 17, 18, 19, 20, 21, 22, 23, 24, 25, 26, 27, 28, 29, 30, 31]
def A : List Byte := [0x41, 0x42, 0x43, 0x44, 0x45]
def P : List Byte := [1, 2, 3, 4, 5, 6, 7, 8, 9, 10, 11, 12, 13, 14, 15, 16, 17, 18, 19, 20]
def C : List Byte := P ++ N

/-- Nothing is allocated. -/
def empty : Mem := fun _ => .unalloc

/-- key at 0, nonce at 16, associated data at 32, a 36-byte buffer at 100 that starts with the 20-byte
message, 36 uninitialised bytes at 200, 8 uninitialised bytes at 300 and at 320. -/
def mem : Mem :=
  ((((((((empty.fill 100 36 .uninit).fill 200 36 .uninit).fill 300 8 .uninit).fill 320 8 .uninit).writes
    0 K).writes 16 N).writes 32 A).writes 100 P)

/-- As `mem`, with a 36-byte string (a received ciphertext) at 200. -/
def memC : Mem := mem.writes 200 C

theorem encPre : EncPre mem 1000 200 300 100 32 16 0 K N A P := by
  constructor <;> first | decide +kernel | (unfold Mem.Holds; decide +kernel) |
    (unfold Mem.Writable; decide +kernel) | (unfold Mem.Free; decide +kernel) |
    (unfold Disjoint; decide +kernel)

/-- The same, in place. -/
theorem encPreInPlace : EncPre mem 1000 100 300 100 32 16 0 K N A P := by
  constructor <;> first | decide +kernel | (unfold Mem.Holds; decide +kernel) |
    (unfold Mem.Writable; decide +kernel) | (unfold Mem.Free; decide +kernel) |
    (unfold Disjoint; decide +kernel)

theorem decPre : DecPre memC 1000 100 300 200 32 16 0 K N A C := by
  constructor <;> first | decide +kernel | (unfold Mem.Holds; decide +kernel) |
    (unfold Mem.Writable; decide +kernel) | (unfold Mem.Free; decide +kernel) |
    (unfold Disjoint; decide +kernel)

/-- Decryption in place. -/
theorem decPreInPlace : DecPre memC 1000 200 300 200 32 16 0 K N A C := by
  constructor <;> first | decide +kernel | (unfold Mem.Holds; decide +kernel) |
    (unfold Mem.Writable; decide +kernel) | (unfold Mem.Free; decide +kernel) |
    (unfold Disjoint; decide +kernel)

theorem holdsK : mem.Holds 0 K := encPre.key
theorem holdsN : mem.Holds 16 N := encPre.nonce
theorem holdsA : mem.Holds 32 A := encPre.adata
theorem holdsP : mem.Holds 100 P := encPre.msg
theorem out36 : mem.Writable 200 36 := encPre.out
theorem stack128 : mem.Free 1000 128 := by unfold Mem.Free; decide +kernel

end Ascon.Demo
