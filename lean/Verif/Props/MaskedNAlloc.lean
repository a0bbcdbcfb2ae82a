import Verif.Proof.MaskedNAlloc
import Verif.Props.MaskedN
/-!
# C77: the sizes of the heap blocks of the masked implementation, and failing allocations

`crypto_aead_encryptS lw fail` and `crypto_aead_decryptS lw fail` are the functions of crypto_aead.c on a target whose `size_t`
has `lw` bits, when `fail i` says whether the `i`-th `malloc` returns a null pointer.
-/

namespace Ascon.MaskedN

open Ascon.Spec Ascon.C Ascon.Gen
open Ascon.Masked (Heap FreshBlocks roundUp8 NUM_WORDS malloc mfree)
open Ascon.C.Prog (require ifc loop forUp loadB storeB loadN storeN store64 load64)

attribute [local irreducible] perm deinterleave32 interleave32

/-- The five blocks as they should be: address and size. -/
def wanted (g : Cfg) (h : Heap) (alen mlen : Nat) : List (Nat × Nat) :=
  [(h.ks, 4 * (NUM_WORDS 16 * g.KEY)), (h.ns, 4 * (NUM_WORDS 16 * g.NPUB)), (h.as, 4 * (NUM_WORDS alen * g.AD)),
    (h.ms, 4 * (NUM_WORDS mlen * g.M)), (h.cs, 4 * (NUM_WORDS (mlen + 16) * g.C))]

/-- The five blocks as they are. -/
def obtained (lw : Nat) (fail : Nat → Bool) (g : Cfg) (h : Heap) (alen mlen : Nat) : List (Nat × Nat) :=
  [(h.ks, got lw (fail 0) (4 * (NUM_WORDS 16 * g.KEY))), (h.ns, got lw (fail 1) (4 * (NUM_WORDS 16 * g.NPUB))),
    (h.as, got lw (fail 2) (4 * (NUM_WORDS alen * g.AD))), (h.ms, got lw (fail 3) (4 * (NUM_WORDS mlen * g.M))),
    (h.cs, got lw (fail 4) (4 * (NUM_WORDS (mlen + 16) * g.C)))]

/-- The address `x` may not be written after the allocations: the caller's memory is not writable there, and none of the blocks
that `malloc` returned contains it. -/
def Missing (mem : Mem) (blocks : List (Nat × Nat)) (x : Nat) : Prop :=
  (mem x).rw = false ∧ ∀ b ∈ blocks, ¬ (b.1 ≤ x ∧ x < b.1 + b.2)

theorem got_ok {lw n : Nat} (h : n < 2 ^ lw) : got lw false n = n := Nat.mod_eq_of_lt h

/-- **C77** If no allocation fails and `size_t` can represent the sizes of the five blocks, `crypto_aead_encrypt` computes
Ascon-AEAD128. -/
theorem C77_masked_encrypt_sizes (lw : Nat) (g : Cfg) (hg : g.Supported) (σ ρ : Nat → Nat → Word) (h : Heap) (mem : Mem)
    (c clen m ad npub k : Nat) (K N A P : List Byte) (pre : EncPre g mem h c clen m ad npub k K N A P)
    (hs : ∀ b ∈ wanted g h A.length P.length, b.2 < 2 ^ lw) :
    run (crypto_aead_encryptS lw (fun _ => false) g σ ρ h .little c clen m P.length ad A.length npub k) mem =
      some (0, (mem.writes clen (repr64 .little (BitVec.ofNat 64 (P.length + 16)))).writes c (aeadEncrypt K N A P)) := by
  rw [← C73_encrypt_shares g hg σ ρ h mem c clen m ad npub k K N A P pre]
  unfold wanted at hs
  simp only [List.mem_cons, List.not_mem_nil, or_false, forall_eq_or_imp, forall_eq] at hs
  obtain ⟨h1, h2, h3, h4, h5⟩ := hs
  unfold crypto_aead_encryptS crypto_aead_encrypt mallocS mfreeS
  rw [got_ok h1, got_ok h2, got_ok h3, got_ok h4, got_ok h5]

/-- The same for `crypto_aead_decrypt`. -/
theorem C77_masked_decrypt_sizes (lw : Nat) (g : Cfg) (hg : g.Supported) (σ ρ : Nat → Nat → Word) (h : Heap) (mem : Mem)
    (m mlen c ad npub k : Nat) (K N A D : List Byte) (pre : DecPre g mem h m mlen c ad npub k K N A D)
    (hs : ∀ b ∈ wanted g h A.length (D.length - 16), b.2 < 2 ^ lw) :
    run (crypto_aead_decryptS lw (fun _ => false) g σ ρ h .little m mlen c D.length ad A.length npub k) mem =
      some (if tagsMatch32 (ctTag D) (aeadDecTag K N A (ctBody D)) then 0 else -1,
        (mem.writes mlen (repr64 .little (BitVec.ofNat 64 (D.length - 16)))).writes m (aeadCandidate K N A (ctBody D))) := by
  rw [← C73_decrypt_shares g hg σ ρ h mem m mlen c ad npub k K N A D pre]
  have hmin := pre.ctMin
  unfold wanted at hs
  rw [Nat.sub_add_cancel hmin] at hs
  simp only [List.mem_cons, List.not_mem_nil, or_false, forall_eq_or_imp, forall_eq] at hs
  obtain ⟨h1, h2, h3, h4, h5⟩ := hs
  unfold crypto_aead_decryptS crypto_aead_decrypt mallocS mfreeS
  rw [got_ok h1, got_ok h2, got_ok h3, got_ok h4, got_ok h5]

/-! ## Blocks that are missing or too small -/

/-- The memory after the allocations. -/
def afterMalloc (mem : Mem) : List (Nat × Nat) → Mem
  | [] => mem
  | b :: bs => afterMalloc (mem.fill b.1 b.2 .uninit) bs

theorem missing_rw {bs : List (Nat × Nat)} {mem : Mem} {x : Nat} (h : Missing mem bs x) : ((afterMalloc mem bs) x).rw = false := by
  induction bs generalizing mem with
  | nil => exact h.1
  | cons b bs ih =>
    refine ih ⟨?_, fun b' hb' => h.2 b' (List.mem_cons_of_mem _ hb')⟩
    have := h.2 b (List.mem_cons_self ..)
    show (if b.1 ≤ x ∧ x < b.1 + b.2 then Cell.uninit else mem x).rw = false
    rw [if_neg this]
    exact h.1

theorem run_mallocS_bind {α : Type} {lw : Nat} {f : Bool} {p n : Nat} {k : Unit → Prog α} {mem : Mem} :
    run (mallocS lw f p n >>= k) mem = run (k ()) (mem.fill p (got lw f n) .uninit) := rfl

/-- `crypto_aead_encrypt` writes all shares of its inputs, of the ciphertext and of the tag: if any byte of the five blocks is
missing, because the allocation has failed or was too small, the call has undefined behaviour, whatever the arguments are. -/
theorem C77_masked_encrypt_block_missing (lw : Nat) (fail : Nat → Bool) (g : Cfg) (hg : g.Supported) (σ ρ : Nat → Nat → Word)
    (h : Heap) (e : Endian) (mem : Mem) (c clen m mlen ad alen npub k : Nat) (b : Nat × Nat)
    (hb : b ∈ wanted g h alen mlen) (x : Nat) (h1 : b.1 ≤ x) (h2 : x < b.1 + b.2)
    (hx : Missing mem (obtained lw fail g h alen mlen) x) :
    run (crypto_aead_encryptS lw fail g σ ρ h e c clen m mlen ad alen npub k) mem = none := by
  have ok := hg.ok
  have hrw := missing_rw hx
  have hxe : b.1 + (x - b.1) = x := by omega
  unfold crypto_aead_encryptS
  rw [run_mallocS_bind, run_mallocS_bind, run_mallocS_bind, run_mallocS_bind, run_mallocS_bind]
  refine undefined_of_needs (mem := afterMalloc mem (obtained lw fail g h alen mlen)) (q := b.1) (n := b.2) (i := x - b.1) ?_
    (by omega) (by rw [hxe]; exact hrw)
  have kg : ∀ ρ s n d l, Keeps (generate_shares g.EXTERN_BI e ρ s n d l) := fun _ _ _ _ _ => keeps_generate _ _ _ _ _ _ _
  unfold wanted at hb
  simp only [List.mem_cons, List.not_mem_nil, or_false] at hb
  rcases hb with rfl | rfl | rfl | rfl | rfl
  · exact needs_bind_left (needs_generate _ _ _ _ _ _ _ ok.K.1)
  · exact needs_bind_right (kg _ _ _ _ _) fun _ => needs_bind_left (needs_generate _ _ _ _ _ _ _ ok.N.1)
  · exact needs_bind_right (kg _ _ _ _ _) fun _ => needs_bind_right (kg _ _ _ _ _) fun _ =>
      needs_bind_left (needs_generate _ _ _ _ _ _ _ ok.A.1)
  · exact needs_bind_right (kg _ _ _ _ _) fun _ => needs_bind_right (kg _ _ _ _ _) fun _ =>
      needs_bind_right (kg _ _ _ _ _) fun _ => needs_bind_left (needs_generate _ _ _ _ _ _ _ ok.M.1)
  · exact needs_bind_right (kg _ _ _ _ _) fun _ => needs_bind_right (kg _ _ _ _ _) fun _ =>
      needs_bind_right (kg _ _ _ _ _) fun _ => needs_bind_right (kg _ _ _ _ _) fun _ =>
        needs_bind_left (needs_shared_enc g e ρ h.cs clen h.ms mlen h.as alen h.ns h.ks ok.C.2)

/-- Decryption writes all five blocks: if any byte of them is missing, the call has undefined behaviour. -/
theorem C77_masked_decrypt_block_missing (lw : Nat) (fail : Nat → Bool) (g : Cfg) (hg : g.Supported) (σ ρ : Nat → Nat → Word)
    (h : Heap) (e : Endian) (mem : Mem) (m mlen c clen ad alen npub k : Nat) (h16 : 16 ≤ clen) (b : Nat × Nat)
    (hb : b ∈ wanted g h alen (clen - 16)) (x : Nat) (h1 : b.1 ≤ x) (h2 : x < b.1 + b.2)
    (hx : Missing mem (obtained lw fail g h alen (clen - 16)) x) :
    run (crypto_aead_decryptS lw fail g σ ρ h e m mlen c clen ad alen npub k) mem = none := by
  have ok := hg.ok
  have hrw := missing_rw hx
  unfold crypto_aead_decryptS
  rw [run_ifc, if_neg (by simpa using h16), run_mallocS_bind, run_mallocS_bind, run_mallocS_bind, run_mallocS_bind, run_mallocS_bind]
  unfold obtained at hrw
  rw [Nat.sub_add_cancel h16] at hrw
  unfold afterMalloc afterMalloc afterMalloc afterMalloc afterMalloc afterMalloc at hrw
  have kg : ∀ ρ s n d l, Keeps (generate_shares g.EXTERN_BI e ρ s n d l) := fun _ _ _ _ _ => keeps_generate _ _ _ _ _ _ _
  have hxe : b.1 + (x - b.1) = x := by omega
  rw [← hxe] at hrw
  unfold wanted at hb
  rw [Nat.sub_add_cancel h16] at hb
  simp only [List.mem_cons, List.not_mem_nil, or_false] at hb
  rcases hb with rfl | rfl | rfl | rfl | rfl
  · exact undefined_of_needs (i := x - h.ks) (needs_bind_left (needs_generate _ _ _ _ _ _ _ ok.K.1)) (by omega) hrw
  · exact undefined_of_needs (i := x - h.ns) (needs_bind_right (kg _ _ _ _ _) fun _ =>
      needs_bind_left (needs_generate _ _ _ _ _ _ _ ok.N.1)) (by omega) hrw
  · exact undefined_of_needs (i := x - h.as) (needs_bind_right (kg _ _ _ _ _) fun _ => needs_bind_right (kg _ _ _ _ _) fun _ =>
      needs_bind_left (needs_generate _ _ _ _ _ _ _ ok.A.1)) (by omega) hrw
  · exact undefined_of_needs (i := x - h.ms) (needs_bind_right (kg _ _ _ _ _) fun _ => needs_bind_right (kg _ _ _ _ _) fun _ =>
      needs_bind_right (kg _ _ _ _ _) fun _ => needs_bind_right (kg _ _ _ _ _) fun _ => needs_bind_right (kg _ _ _ _ _) fun _ =>
        needs_bind_left (needs_shared_dec g e ρ h.ms mlen h.cs clen h.as alen h.ns h.ks ok.M.2)) (by omega) hrw
  · have hw : 4 * (NUM_WORDS clen * g.C) = 4 * (NUM_WORDS (clen - 16) * g.C) + 4 * (NUM_WORDS 16 * g.C) := by
      have : NUM_WORDS clen = NUM_WORDS (clen - 16) + NUM_WORDS 16 := by unfold NUM_WORDS; omega
      rw [this, Nat.add_mul, Nat.mul_add]
    simp only [] at h1 h2 hxe hrw
    by_cases hlt : x < h.cs + 4 * (NUM_WORDS (clen - 16) * g.C)
    · refine undefined_of_needs (q := h.cs) (n := 4 * (NUM_WORDS (clen - 16) * g.C)) (i := x - h.cs) ?_ (by omega) hrw
      exact needs_bind_right (kg _ _ _ _ _) fun _ => needs_bind_right (kg _ _ _ _ _) fun _ =>
        needs_bind_right (kg _ _ _ _ _) fun _ => needs_bind_left (needs_generate _ _ _ _ _ _ _ ok.C.1)
    · have hxe2 : h.cs + 4 * (NUM_WORDS (clen - 16) * g.C) + (x - (h.cs + 4 * (NUM_WORDS (clen - 16) * g.C))) = h.cs + (x - h.cs) := by
        omega
      rw [← hxe2] at hrw
      refine undefined_of_needs (q := h.cs + 4 * (NUM_WORDS (clen - 16) * g.C)) (n := 4 * (NUM_WORDS 16 * g.C))
        (i := x - (h.cs + 4 * (NUM_WORDS (clen - 16) * g.C))) ?_ (by omega) hrw
      exact needs_bind_right (kg _ _ _ _ _) fun _ => needs_bind_right (kg _ _ _ _ _) fun _ =>
        needs_bind_right (kg _ _ _ _ _) fun _ => needs_bind_right (kg _ _ _ _ _) fun _ =>
          needs_bind_left (needs_generate _ _ _ _ _ _ _ ok.C.1)

/-- **C77, negative** A 32-bit target, four shares of the associated data, 1 GiB of associated data: `malloc` is asked for 0
bytes, and all calls are undefined (unless other memory happens to be behind the pointer it returns). -/
theorem C77_masked_size_overflow (g : Cfg) (hg : g.Supported) (h4 : g.AD = 4) (σ ρ : Nat → Nat → Word) (h : Heap) (e : Endian)
    (mem : Mem) (c clen m mlen ad npub k : Nat) (hx : Missing mem (obtained 32 (fun _ => false) g h (2 ^ 30) mlen) h.as) :
    (h.as, 0) ∈ obtained 32 (fun _ => false) g h (2 ^ 30) mlen ∧
    run (crypto_aead_encryptS 32 (fun _ => false) g σ ρ h e c clen m mlen ad (2 ^ 30) npub k) mem = none := by
  refine ⟨?_, C77_masked_encrypt_block_missing 32 _ g hg σ ρ h e mem c clen m mlen ad (2 ^ 30) npub k
    (h.as, 4 * (NUM_WORDS (2 ^ 30) * g.AD)) (by simp [wanted]) h.as (Nat.le_refl _) ?_ hx⟩
  · have : got 32 false (4 * (NUM_WORDS (2 ^ 30) * g.AD)) = 0 := by rw [h4]; decide
    unfold obtained
    rw [this]; simp
  · rw [h4]
    show h.as < h.as + 4 * (NUM_WORDS (2 ^ 30) * 4)
    have : 0 < 4 * (NUM_WORDS (2 ^ 30) * 4) := by decide
    omega

/-! ## Concrete cases -/

/-- The blocks of the example fit. -/
example : ∀ b ∈ wanted cfgMixed demoHeapN Demo.A.length Demo.P.length, b.2 < 2 ^ 32 := by decide

/-- The first `malloc` returns a null pointer, in an otherwise valid call. -/
example (σ ρ : Nat → Nat → Word) : run (crypto_aead_encryptS 32 (fun i => i == 0) cfgMixed σ ρ { demoHeapN with ks := 900 } .little
    200 300 100 Demo.P.length 32 Demo.A.length 16 0) Demo.memC = none := by
  refine C77_masked_encrypt_block_missing 32 _ cfgMixed cfgMixed_supported σ ρ _ _ _ _ _ _ _ _ _ _ _
    (900, 4 * (NUM_WORDS 16 * 4)) (by simp [wanted, cfgMixed]) 900 (Nat.le_refl _) (by decide) ⟨by decide +kernel, ?_⟩
  decide

/-- The 1 GiB of associated data fit in the address space of a 32-bit target: key at 0, nonce at 16, 20 bytes of message at 100,
output at 200 and 300, and associated data in the gigabyte from `2 ^ 30` on. -/
def gigMem : Mem := fun a => if 2 ^ 30 ≤ a ∧ a < 2 ^ 31 then .val 0 else Demo.mem a

example (σ ρ : Nat → Nat → Word) :
    gigMem.Holds 0 Demo.K ∧ gigMem.Holds 16 Demo.N ∧ gigMem.Holds 100 Demo.P ∧ gigMem.Writable 200 36 ∧ gigMem.Writable 300 8 ∧
    gigMem.Holds (2 ^ 30) (List.replicate (2 ^ 30) 0) ∧
    run (crypto_aead_encryptS 32 (fun _ => false) cfgFour σ ρ ⟨1000, 1100, 1200, 1300, 1500⟩ .little 200 300 100 20 (2 ^ 30) (2 ^ 30)
      16 0) gigMem = none := by
  have low : ∀ a, a < 2 ^ 30 → gigMem a = Demo.mem a := fun a ha => if_neg (by omega)
  have hh : ∀ {p : Nat} {D : List Byte}, Demo.mem.Holds p D → p + D.length < 2 ^ 30 → gigMem.Holds p D := by
    intro p D h hl i hi
    rw [low _ (by omega)]
    exact h i hi
  have hw : ∀ {p n : Nat}, Demo.mem.Writable p n → p + n < 2 ^ 30 → gigMem.Writable p n := by
    intro p n h hl i hi
    rw [low _ (by omega)]
    exact h i hi
  refine ⟨hh Demo.holdsK (by decide), hh Demo.holdsN (by decide), hh Demo.holdsP (by decide), hw Demo.out36 (by decide),
    hw Demo.encPre.outLen (by decide), ?_, ?_⟩
  · intro i hi
    rw [List.length_replicate] at hi
    rw [List.getElem_replicate]
    show (if 2 ^ 30 ≤ 2 ^ 30 + i ∧ 2 ^ 30 + i < 2 ^ 31 then Cell.val 0 else Demo.mem (2 ^ 30 + i)).byte = some 0
    rw [if_pos (by omega)]
    rfl
  · refine (C77_masked_size_overflow cfgFour (by unfold Cfg.Supported; decide) rfl σ ρ ⟨1000, 1100, 1200, 1300, 1500⟩ .little gigMem 200
      300 100 20 (2 ^ 30) 16 0 ⟨?_, ?_⟩).2
    · show (gigMem 1200).rw = false
      rw [low _ (by decide)]
      decide +kernel
    · decide

end Ascon.MaskedN
