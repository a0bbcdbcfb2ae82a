import Verif.Proof.NeonCT
import Verif.Proof.SpecAead
import Verif.Props.Demo
/-!
# The AEAD of the implementation neon (C44, C45, C46)

`regs` are the contents of the vector registers on entry; `fuel` bounds the number of iterations of the assembly loops
(the positive theorems hold as soon as it exceeds the lengths, the negative ones for every bound).  Hash256 and XOF128 of
neon are covered by the theorems over all registered implementations (C13-C15).
-/

namespace Ascon.Neon

open Ascon.Spec Ascon.C

attribute [local irreducible] Spec.perm roundBody P8ROUNDS P12ROUNDS perm

/-! ## C44: correct for word-aligned buffers and lengths below 2^32 -/

/-- **C44** Encryption computes Ascon-AEAD128 if the lengths are below 2^32 and every buffer from which whole blocks are
processed is aligned to 4 bytes. -/
theorem C44_neon_encrypt (regs : Nat → Word) (fuel : Nat) (mem : Mem) (sp c clen m ad npub k : Nat) (K N A P : List Byte)
    (h : EncPre mem sp c clen m ad npub k K N A P) (hA : A.length < 2 ^ 32) (hP : P.length < 2 ^ 32)
    (haA : 16 ≤ A.length → ad % 4 = 0) (haP : 16 ≤ P.length → m % 4 = 0 ∧ c % 4 = 0)
    (hf : A.length < fuel ∧ P.length < fuel) :
    run (crypto_aead_encrypt fuel .little regs c clen m P.length ad A.length npub k) mem =
      some (0, encPost .little mem c clen K N A P) :=
  enc_correct h hf.1 hf.2 hA hP haA haP

/-- A concrete call. -/
example : run (crypto_aead_encrypt 100 .little (fun _ => 7) 200 300 100 Demo.P.length 32 Demo.A.length 16 0) Demo.mem =
    some (0, encPost .little Demo.mem 200 300 Demo.K Demo.N Demo.A Demo.P) :=
  C44_neon_encrypt _ _ _ _ _ _ _ _ _ _ _ _ _ _ Demo.encPre (by decide) (by decide) (by decide) (by decide) (by decide)

/-- Decryption computes the candidate plaintext and the verdict of Ascon-AEAD128 under the same conditions. -/
theorem C44_neon_decrypt (regs : Nat → Word) (fuel : Nat) (mem : Mem) (sp m mlen c ad npub k : Nat) (K N A C : List Byte)
    (h : DecPre mem sp m mlen c ad npub k K N A C) (hA : A.length < 2 ^ 32) (hC : C.length - 16 < 2 ^ 32)
    (haA : 16 ≤ A.length → ad % 4 = 0) (haC : 32 ≤ C.length → c % 4 = 0 ∧ m % 4 = 0)
    (hf : A.length < fuel ∧ C.length < fuel) :
    run (crypto_aead_decrypt fuel .little regs m mlen c C.length ad A.length npub k) mem =
      some (if ctTag C = aeadDecTag K N A (ctBody C) then 0 else -1, decPost .little mem m mlen K N A C) :=
  dec_correct h hf.1 hf.2 hA hC haA haC

/-- A concrete call. -/
example : ∃ r mem', run (crypto_aead_decrypt 100 .little (fun _ => 7) 100 300 200 Demo.C.length 32 Demo.A.length 16 0)
    Demo.memC = some (r, mem') :=
  ⟨_, _, C44_neon_decrypt _ _ _ _ _ _ _ _ _ _ _ _ _ _ Demo.decPre (by decide) (by decide) (by decide) (by decide)
    (by decide)⟩

/-- Accepted means genuine. -/
theorem C44_neon_accepts_only_genuine (regs : Nat → Word) (fuel : Nat) (mem mem' : Mem) (sp m mlen c ad npub k : Nat)
    (K N A C : List Byte) (h : DecPre mem sp m mlen c ad npub k K N A C) (hA : A.length < 2 ^ 32)
    (hC : C.length - 16 < 2 ^ 32) (haA : 16 ≤ A.length → ad % 4 = 0) (haC : 32 ≤ C.length → c % 4 = 0 ∧ m % 4 = 0)
    (hf : A.length < fuel ∧ C.length < fuel)
    (hacc : run (crypto_aead_decrypt fuel .little regs m mlen c C.length ad A.length npub k) mem = some (0, mem')) :
    ∃ P, mem'.Holds m P ∧ P.length + 16 = C.length ∧ C = aeadEncrypt K N A P := by
  rw [C44_neon_decrypt regs fuel mem sp m mlen c ad npub k K N A C h hA hC haA haC hf] at hacc
  injection hacc with hacc; injection hacc with h0 h1
  have h16 := h.ctMin
  have ht : ctTag C = aeadDecTag K N A (ctBody C) := by
    by_cases ht : ctTag C = aeadDecTag K N A (ctBody C)
    · exact ht
    · rw [if_neg ht] at h0; exact absurd h0 (by decide)
  refine ⟨aeadCandidate K N A (ctBody C), ?_, ?_, ?_⟩
  · rw [← h1]; unfold decPost; exact holds_writes_self _ _ _
  · unfold aeadCandidate; rw [Ref.length_decBody]; simp [ctBody]; omega
  · have : aeadDecrypt K N A C = some (aeadCandidate K N A (ctBody C)) := by
      unfold aeadDecrypt
      rw [if_neg (by omega)]
      exact if_pos ht
    exact aeadEncrypt_of_aeadDecrypt this

/-- Inputs shorter than a tag are refused without touching memory. -/
theorem C44_neon_short (regs : Nat → Word) (fuel : Nat) (e : Endian) (mem : Mem) (m mlen c clen ad adlen npub k : Nat)
    (h : clen < 16) :
    run (crypto_aead_decrypt fuel e regs m mlen c clen ad adlen npub k) mem = some (-1, mem) := dec_short h

/-- 15 bytes in the empty memory. -/
example : run (crypto_aead_decrypt 1 .little (fun _ => 0) 100 300 200 15 32 0 16 0) Demo.empty = some (-1, Demo.empty) :=
  C44_neon_short _ _ _ _ _ _ _ _ _ _ _ _ (by decide)

/-- The addresses accessed and the branches taken by encryption depend only on pointers and lengths: not on the
key, the nonce, the data, or what the vector registers contained. -/
theorem C44_neon_encrypt_constant_time (regs regs' : Nat → Word) (fuel : Nat) (e : Endian) (mem mem' : Mem)
    (c clen m mlen ad adlen npub k : Nat) (h : SameLayout mem mem') :
    trace (crypto_aead_encrypt fuel e regs c clen m mlen ad adlen npub k) mem =
      trace (crypto_aead_encrypt fuel e regs' c clen m mlen ad adlen npub k) mem' :=
  (sim_aead_encrypt fuel e regs regs' c clen m mlen ad adlen npub k).trace_eq h

/-- The same for decryption, whether or not the tag is right. -/
theorem C44_neon_decrypt_constant_time (regs regs' : Nat → Word) (fuel : Nat) (e : Endian) (mem mem' : Mem)
    (m mlen c clen ad adlen npub k : Nat) (h : SameLayout mem mem') :
    trace (crypto_aead_decrypt fuel e regs m mlen c clen ad adlen npub k) mem =
      trace (crypto_aead_decrypt fuel e regs' m mlen c clen ad adlen npub k) mem' :=
  (sim_aead_decrypt fuel e regs regs' m mlen c clen ad adlen npub k).trace_eq h

/-- Two different memories of the same layout. -/
example : SameLayout Demo.mem (Demo.mem.writes 0 Demo.N) ∧ Demo.mem 0 ≠ (Demo.mem.writes 0 Demo.N) 0 := by
  refine ⟨?_, by decide +kernel⟩
  intro a
  by_cases ha : a < 16
  · have := (by decide +kernel : ∀ a, a < 16 → (Demo.mem a).shape = (Demo.mem.writes 0 Demo.N a).shape)
    exact this a ha
  · rw [writes_out (by simp [Demo.N]; omega)]

/-! ## C45: unaligned buffers -/

/-- **C45** Encryption of a message, or with associated data, of at least one block never returns if that buffer (or the
output buffer) is not aligned to 4 bytes – although the buffers are declared `unsigned char *` and every other
implementation accepts any alignment. -/
theorem C45_neon_unaligned_encrypt_faults (regs : Nat → Word) (fuel : Nat) (e : Endian) (mem : Mem)
    (c clen m mlen ad adlen npub k : Nat) (ha : adlen < 2 ^ 64) (hm : mlen < 2 ^ 64)
    (h : (16 ≤ adlen ∧ ad % 4 ≠ 0) ∨ (16 ≤ mlen ∧ (m % 4 ≠ 0 ∨ c % 4 ≠ 0))) :
    run (crypto_aead_encrypt fuel e regs c clen m mlen ad adlen npub k) mem = none :=
  enc_none ha hm (by
    rcases h with h | h
    · exact Or.inl (Or.inl h)
    · exact Or.inr (Or.inl h))

/-- The same for decryption. -/
theorem C45_neon_unaligned_decrypt_faults (regs : Nat → Word) (fuel : Nat) (e : Endian) (mem : Mem)
    (m mlen c clen ad adlen npub k : Nat) (ha : adlen < 2 ^ 64) (hm : clen < 2 ^ 64) (h16 : 16 ≤ clen)
    (h : (16 ≤ adlen ∧ ad % 4 ≠ 0) ∨ (32 ≤ clen ∧ (c % 4 ≠ 0 ∨ m % 4 ≠ 0))) :
    run (crypto_aead_decrypt fuel e regs m mlen c clen ad adlen npub k) mem = none :=
  dec_none ha hm h16 (by
    rcases h with h | ⟨h, h'⟩
    · exact Or.inl (Or.inl h)
    · exact Or.inr (Or.inl ⟨by omega, h'⟩))

/-- A call that meets the contract of the API (19 bytes at address 101) and faults. -/
example : EncPre Demo.mem 1000 200 300 101 32 16 0 Demo.K Demo.N Demo.A (Demo.P.drop 1) ∧
    ∀ fuel, run (crypto_aead_encrypt fuel .little (fun _ => 0) 200 300 101 (Demo.P.drop 1).length 32 Demo.A.length 16 0)
      Demo.mem = none := by
  refine ⟨?_, fun fuel => C45_neon_unaligned_encrypt_faults _ _ _ _ _ _ _ _ _ _ _ _ (by decide) (by decide) (by decide)⟩
  constructor <;> first | decide +kernel | (unfold Mem.Holds; decide +kernel) |
    (unfold Mem.Writable; decide +kernel) | (unfold Mem.Free; decide +kernel) |
    (unfold Disjoint; decide +kernel)

/-! ## C46: lengths of 2^32 bytes or more -/

/-- **C46** The loops keep the length in two registers but subtract with an instruction that does not set the carry, so
the upper half never changes: with a length argument of 2^32 or more encryption does not end, however many
iterations are allowed. -/
theorem C46_neon_encrypt_long (regs : Nat → Word) (fuel : Nat) (e : Endian) (mem : Mem)
    (c clen m mlen ad adlen npub k : Nat) (ha : adlen < 2 ^ 64) (hm : mlen < 2 ^ 64)
    (h : 2 ^ 32 ≤ adlen ∨ 2 ^ 32 ≤ mlen) :
    run (crypto_aead_encrypt fuel e regs c clen m mlen ad adlen npub k) mem = none :=
  enc_none ha hm (by
    rcases h with h | h
    · exact Or.inl (Or.inr h)
    · exact Or.inr (Or.inr h))

/-- The same for decryption. -/
theorem C46_neon_decrypt_long (regs : Nat → Word) (fuel : Nat) (e : Endian) (mem : Mem)
    (m mlen c clen ad adlen npub k : Nat) (ha : adlen < 2 ^ 64) (hm : clen < 2 ^ 64) (h16 : 16 ≤ clen)
    (h : 2 ^ 32 ≤ adlen ∨ 2 ^ 32 ≤ clen - 16) :
    run (crypto_aead_decrypt fuel e regs m mlen c clen ad adlen npub k) mem = none :=
  dec_none ha hm h16 (by
    rcases h with h | h
    · exact Or.inl (Or.inr h)
    · exact Or.inr (Or.inr h))

/-- A memory of 2^40 zero bytes. -/
def bigMem : Mem := fun a => if a < 2 ^ 40 then .val 0 else .unalloc

theorem bigMem_holds (p n : Nat) (h : p + n ≤ 2 ^ 40) : bigMem.Holds p (List.replicate n 0) := by
  intro i hi
  simp only [List.length_replicate] at hi
  unfold bigMem
  rw [if_pos (by omega), List.getElem_replicate, Cell.byte_val]

theorem bigMem_writable (p n : Nat) (h : p + n ≤ 2 ^ 40) : bigMem.Writable p n := by
  intro i hi
  unfold bigMem
  rw [if_pos (by omega)]
  simp

/-- A call with 2^32 bytes of aligned, readable plaintext: the contract of the API is met, no call returns. -/
example : EncPre bigMem (2 ^ 40) (2 ^ 36) 64 (2 ^ 35) 96 16 0 (List.replicate 16 0) (List.replicate 16 0) []
      (List.replicate (2 ^ 32) 0) ∧
    ∀ fuel, run (crypto_aead_encrypt fuel .little (fun _ => 0) (2 ^ 36) 64 (2 ^ 35) (2 ^ 32) 96 0 16 0) bigMem = none := by
  refine ⟨?_, fun fuel => C46_neon_encrypt_long _ _ _ _ _ _ _ _ _ _ _ _ (by decide) (by decide) (by decide)⟩
  constructor <;> (try simp only [List.length_replicate, List.length_nil, Disjoint]) <;>
    first | decide | exact bigMem_holds _ _ (by decide) | exact bigMem_writable _ _ (by decide) | skip
  · intro i hi; exact absurd hi (by simp)
  · intro i hi
    unfold bigMem
    rw [if_neg (by omega)]

end Ascon.Neon
