import Verif.C.Keeps
import Verif.Model.MaskedNAlloc
import Verif.Proof.MaskedNCT
/-!
# Which memory the masked implementation needs
-/

namespace Ascon.MaskedN

open Ascon.Spec Ascon.C Ascon.Gen
open Ascon.Masked (idx U32 share_t load32 store32 length_repr32 Heap malloc mfree NUM_WORDS)
open Ascon.C.Prog (require ifc loop forUp loadB storeB loadN storeN store64 load64)

attribute [local irreducible] perm deinterleave32 interleave32

theorem keeps_load32 (e : Endian) (p : Nat) : Keeps (load32 e p) := keeps_bind (keeps_loadN p 4) fun _ => keeps_ret _
theorem keeps_store32 (e : Endian) (p : Nat) (w : U32) : Keeps (store32 e p w) := keeps_storeN _ _

theorem needs_store32 (e : Endian) (p : Nat) (w : U32) : Needs (store32 e p w) p 4 := by
  have := needs_storeN p (Masked.repr32 e w)
  rwa [length_repr32] at this

local macro "kb" : tactic => `(tactic| refine keeps_bind ?_ fun _ => ?_)

theorem keeps_LOADSHARE (bi : Bool) (e : Endian) (p ns : Nat) : Keeps (LOADSHARE bi e p ns) := by
  unfold LOADSHARE
  kb; exact keeps_load32 e p
  kb; exact keeps_load32 e _
  split <;> exact keeps_pure _

theorem keeps_STORESHARE (bi : Bool) (e : Endian) (p ns : Nat) (s : share_t) : Keeps (STORESHARE bi e p s ns) := by
  unfold STORESHARE
  simp only []
  kb; exact keeps_store32 _ _ _
  exact keeps_store32 _ _ _

theorem keeps_MLOAD (bi : Bool) (e : Endian) (p ns : Nat) : Keeps (MLOAD bi e p ns) := by
  rw [MLOAD_eq]
  repeat' first
    | exact keeps_LOADSHARE _ _ _ _
    | exact keeps_pure _
    | refine keeps_bind ?_ fun _ => ?_
    | refine keeps_ite ?_ ?_

theorem keeps_MSTORE (bi : Bool) (e : Endian) (p ns : Nat) (w : word_t) : Keeps (MSTORE bi e p w ns) := by
  rw [MSTORE_eq]
  repeat' first
    | exact keeps_STORESHARE _ _ _ _ _
    | exact keeps_pure _
    | refine keeps_bind ?_ fun _ => ?_
    | refine keeps_ite ?_ ?_

theorem keeps_P (s : MState) (nr ns : Nat) : Keeps (P s nr ns) := by
  have hr : ∀ q, Keeps (roundStep ns q) := fun q => by
    unfold roundStep
    kb; exact keeps_require _
    exact keeps_pure _
  unfold P
  refine keeps_ite ?_ (keeps_pure _)
  kb; exact hr _
  kb; exact keeps_loop hr _ _
  exact keeps_pure _

theorem keeps_xorPad (s : MState) (i len : Nat) : Keeps (xorPad s i len) := by
  unfold xorPad
  kb; exact keeps_require _
  exact keeps_pure _

local macro "kauto" : tactic => `(tactic|
  repeat' first
    | exact keeps_MLOAD _ _ _ _
    | exact keeps_MSTORE _ _ _ _ _
    | exact keeps_P _ _ _
    | exact keeps_xorPad _ _ _
    | exact keeps_pure _
    | refine keeps_ifc ?_ ?_
    | refine keeps_bind ?_ fun _ => ?_)

theorem keeps_initaead (g : Cfg) (e : Endian) (ρ : Nat → Nat → Word) (k n : Nat) : Keeps (ascon_initaead g e ρ k n) := by
  unfold ascon_initaead; kauto

theorem keeps_adata (g : Cfg) (e : Endian) (s : MState) (ad adlen : Nat) : Keeps (ascon_adata g e s ad adlen) := by
  have h1 : ∀ q, Keeps (adStep g e q) := fun ⟨s, a, l⟩ => by unfold adStep; kauto
  have h2 : ∀ q, Keeps (adFinal g e q) := fun ⟨s, a, l⟩ => by unfold adFinal; kauto
  unfold ascon_adata
  kb
  · refine keeps_ifc ?_ (keeps_pure _)
    kb; exact keeps_loop h1 _ _
    exact h2 _
  · exact keeps_pure _

theorem keeps_encrypt (g : Cfg) (e : Endian) (s : MState) (c m mlen : Nat) : Keeps (ascon_encrypt g e s c m mlen) := by
  have h1 : ∀ q, Keeps (encStep g e q) := fun ⟨s, a, b, l⟩ => by unfold encStep; kauto
  have h2 : ∀ q, Keeps (encFinal g e q) := fun ⟨s, a, b, l⟩ => by unfold encFinal; kauto
  unfold ascon_encrypt
  kb; exact keeps_loop h1 _ _
  exact h2 _

theorem keeps_final (g : Cfg) (e : Endian) (s : MState) (k : Nat) : Keeps (ascon_final g e s k) := by
  unfold ascon_final; kauto

/-! ## generate_shares -/

theorem keeps_genShare (bi : Bool) (e : Endian) (s n i d : Nat) (r : Word) : Keeps (genShare bi e s n i d r) := by
  unfold genShare
  simp only []
  kb; exact keeps_store32 _ _ _
  kb; exact keeps_store32 _ _ _
  kb; exact keeps_load32 _ _
  kb; exact keeps_store32 _ _ _
  kb; exact keeps_load32 _ _
  exact keeps_store32 _ _ _

theorem keeps_genPair (bi : Bool) (e : Endian) (ρ : Nat → Word) (s n j : Nat) : Keeps (genPair bi e ρ s n j) := by
  unfold genPair
  simp only []
  kb; exact keeps_store32 _ _ _
  kb; exact keeps_store32 _ _ _
  exact keeps_forUp (fun _ _ => keeps_genShare _ _ _ _ _ _ _) _ _ _

theorem keeps_xorData (e : Endian) (s n j : Nat) (x : Word) : Keeps (xorData e s n j x) := by
  unfold xorData
  kb; exact keeps_load32 _ _
  kb; exact keeps_store32 _ _ _
  kb; exact keeps_load32 _ _
  exact keeps_store32 _ _ _

theorem keeps_generate (bi : Bool) (e : Endian) (ρ : Nat → Word) (s n data len : Nat) :
    Keeps (generate_shares bi e ρ s n data len) := by
  unfold generate_shares
  kb; exact keeps_forUp (fun _ _ => keeps_genPair _ _ _ _ _ _) _ _ _
  kb
  · refine keeps_forUp (fun _ _ => ?_) _ _ _
    kb; exact keeps_load64 _ _
    exact keeps_xorData _ _ _ _ _
  · refine keeps_ifc ?_ (keeps_pure _)
    kb
    · refine keeps_forUp (fun _ _ => ?_) _ _ _
      kb; exact keeps_loadB _
      exact keeps_pure _
    · exact keeps_xorData _ _ _ _ _

/-- One pass of the outer loop writes `2 n` words. -/
theorem needs_genPair (bi : Bool) (e : Endian) (ρ : Nat → Word) (s n j w : Nat) (hn : 1 ≤ n) (hw : w < 2 * n) :
    Needs (genPair bi e ρ s n j) (idx s (2 * j * n + w)) 4 := by
  unfold genPair
  simp only []
  have hk : ∀ (i : Nat) (_ : Unit), Keeps (genShare bi e s n (2 * j) i (ρ (j * (n - 1) + (i - 1)))) :=
    fun _ _ => keeps_genShare _ _ _ _ _ _ _
  by_cases h0 : w = 0
  · subst h0
    exact needs_bind_left (needs_store32 e _ _)
  · refine needs_bind_right (keeps_store32 _ _ _) fun _ => ?_
    by_cases h1 : w = n
    · subst h1
      have e1 : 2 * j * w + w = (2 * j + 1) * w + 0 := by rw [Nat.add_mul]; omega
      rw [e1]
      exact needs_bind_left (needs_store32 e _ _)
    · refine needs_bind_right (keeps_store32 _ _ _) fun _ => ?_
      by_cases h2 : w < n
      · refine needs_forUp hk (j := w) (fun _ => ?_) _ _ _ (by omega) (by omega)
        unfold genShare
        exact needs_bind_left (needs_store32 e _ _)
      · refine needs_forUp hk (j := w - n) (fun _ => ?_) _ _ _ (by omega) (by omega)
        unfold genShare
        have e1 : 2 * j * n + w = (2 * j + 1) * n + (w - n) := by rw [Nat.add_mul]; omega
        rw [e1]
        exact needs_bind_right (keeps_store32 _ _ _) fun _ => needs_bind_left (needs_store32 e _ _)

/-- `generate_shares` writes its whole array of shares. -/
theorem needs_generate (bi : Bool) (e : Endian) (ρ : Nat → Word) (s n data len : Nat) (hn : 1 ≤ n) :
    Needs (generate_shares bi e ρ s n data len) s (4 * (NUM_WORDS len * n)) := by
  intro mem a m hr i hi
  have hN : NUM_WORDS len = 2 * (NUM_WORDS len / 2) := by unfold NUM_WORDS; omega
  have hj : i / (8 * n) < NUM_WORDS len / 2 := by
    apply Nat.div_lt_of_lt_mul
    rw [hN] at hi
    have : 4 * (2 * (NUM_WORDS len / 2) * n) = 8 * n * (NUM_WORDS len / 2) := by
      rw [show 8 * n = 4 * (2 * n) by omega, Nat.mul_assoc 4, Nat.mul_assoc 2 n, Nat.mul_comm n, Nat.mul_assoc 2]
    omega
  have hm : i % (8 * n) < 8 * n := Nat.mod_lt _ (by omega)
  have hd : 8 * n * (i / (8 * n)) + i % (8 * n) = i := Nat.div_add_mod i (8 * n)
  have e0 : 8 * n * (i / (8 * n)) = 4 * (2 * (i / (8 * n)) * n) := by
    rw [show 8 * n = 4 * (2 * n) by omega, Nat.mul_assoc 4, Nat.mul_assoc 2, Nat.mul_assoc 2, Nat.mul_comm n]
  have hw : Needs (generate_shares bi e ρ s n data len) (idx s (2 * (i / (8 * n)) * n + i % (8 * n) / 4)) 4 := by
    unfold generate_shares
    refine needs_bind_left ?_
    refine needs_forUp (j := i / (8 * n)) (fun _ _ => keeps_genPair _ _ _ _ _ _) (fun _ => ?_) _ _ _ (Nat.zero_le _) (by omega)
    exact needs_genPair bi e ρ s n (i / (8 * n)) (i % (8 * n) / 4) hn (by omega)
  have h := hw mem a m hr (i % (8 * n) % 4) (Nat.mod_lt _ (by omega))
  unfold idx at h
  rw [show s + 4 * (2 * (i / (8 * n)) * n + i % (8 * n) / 4) + i % (8 * n) % 4 = s + i by omega] at h
  exact h

/-! ## The tag -/

theorem needs_STORESHARE_lo (bi : Bool) (e : Endian) (p ns : Nat) (s : share_t) : Needs (STORESHARE bi e p s ns) p 4 := by
  unfold STORESHARE
  exact needs_bind_left (needs_store32 e _ _)

theorem needs_STORESHARE_hi (bi : Bool) (e : Endian) (p ns : Nat) (s : share_t) :
    Needs (STORESHARE bi e p s ns) (p + 4 * ns) 4 := by
  unfold STORESHARE
  exact needs_bind_right (keeps_store32 _ _ _) fun _ => needs_store32 e _ _

theorem needs_MSTORE (bi : Bool) (e : Endian) (p ns : Nat) (w : word_t) (d : Nat) (hd : d < ns) (hn : ns ≤ 4)
    {q : Nat} (hq : ∀ s, Needs (STORESHARE bi e (p + 4 * d) s ns) q 4) : Needs (MSTORE bi e p w ns) q 4 := by
  have hk : ∀ (c : Prop) [Decidable c] p s, Keeps (if c then STORESHARE bi e p s ns else pure ()) := fun c _ p s =>
    keeps_ite (keeps_STORESHARE _ _ _ _ _) (keeps_pure _)
  rw [MSTORE_eq]
  rcases (show d = 0 ∨ d = 1 ∨ d = 2 ∨ d = 3 by omega) with rfl | rfl | rfl | rfl
  · exact needs_bind_left (needs_ite (c := ns ≥ _) (by omega) (hq _))
  · exact needs_bind_right (hk _ _ _) fun _ => needs_bind_left (needs_ite (c := ns ≥ _) (by omega) (hq _))
  · exact needs_bind_right (hk _ _ _) fun _ => needs_bind_right (hk _ _ _) fun _ =>
      needs_bind_left (needs_ite (c := ns ≥ _) (by omega) (hq _))
  · exact needs_bind_right (hk _ _ _) fun _ => needs_bind_right (hk _ _ _) fun _ => needs_bind_right (hk _ _ _) fun _ =>
      needs_ite (c := ns ≥ _) (by omega) (hq _)

/-- `MSTORE` writes `2 ns` words. -/
theorem needs_MSTORE_all (bi : Bool) (e : Endian) (p ns : Nat) (w : word_t) (hn : ns ≤ 4) : Needs (MSTORE bi e p w ns) p (8 * ns) := by
  intro mem a m hr i hi
  by_cases h : i < 4 * ns
  · have := needs_MSTORE bi e p ns w (i / 4) (by omega) hn (fun s => needs_STORESHARE_lo bi e _ ns s) mem a m hr (i % 4)
      (Nat.mod_lt _ (by omega))
    rwa [show p + 4 * (i / 4) + i % 4 = p + i by omega] at this
  · have := needs_MSTORE bi e p ns w ((i - 4 * ns) / 4) (by omega) hn (fun s => needs_STORESHARE_hi bi e _ ns s) mem a m hr
      ((i - 4 * ns) % 4) (Nat.mod_lt _ (by omega))
    rwa [show p + 4 * ((i - 4 * ns) / 4) + 4 * ns + (i - 4 * ns) % 4 = p + i by omega] at this

theorem needs_settag (g : Cfg) (e : Endian) (s : MState) (t : Nat) (hC : g.C ≤ 4) : Needs (ascon_settag g e s t) t (16 * g.C) := by
  intro mem a m hr i hi
  unfold ascon_settag at hr
  simp only [] at hr
  by_cases h : i < 8 * g.C
  · exact needs_bind_left (needs_MSTORE_all _ e t g.C _ hC) mem a m hr i h
  · have := needs_bind_right (keeps_MSTORE _ _ _ _ _) (fun _ => needs_MSTORE_all _ e (t + 8 * g.C) g.C _ hC) mem a m hr
      (i - 8 * g.C) (by omega)
    rwa [show t + 8 * g.C + (i - 8 * g.C) = t + i by omega] at this

theorem needs_shared_tag (g : Cfg) (e : Endian) (ρ : Nat → Nat → Word) (cs clen ms mlen ads adlen npubs ks : Nat) (hC : g.C ≤ 4) :
    Needs (crypto_aead_encrypt_shared g e ρ cs clen ms mlen ads adlen npubs ks) (cs + 4 * (NUM_WORDS mlen * g.C)) (16 * g.C) := by
  unfold crypto_aead_encrypt_shared
  simp only []
  refine needs_bind_right (keeps_store64 _ _ _) fun _ => ?_
  refine needs_bind_right (keeps_initaead _ _ _ _ _) fun _ => ?_
  refine needs_bind_right (keeps_adata _ _ _ _ _) fun _ => ?_
  refine needs_bind_right (keeps_encrypt _ _ _ _ _ _) fun _ => ?_
  refine needs_bind_right (keeps_final _ _ _ _) fun _ => ?_
  exact needs_bind_left (needs_settag g e _ _ hC)

/-! ## Further combinators -/

theorem needs_ub {α : Type} (q n : Nat) : Needs (.ub : Prog α) q n := by
  intro mem a m hr
  cases hr

theorem needs_zero {α : Type} (p : Prog α) (q : Nat) : Needs p q 0 := fun _ _ _ _ i hi => absurd hi (Nat.not_lt_zero i)

theorem needs_add {α : Type} {p : Prog α} {q n n' : Nat} (h : Needs p q n) (h' : Needs p (q + n) n') : Needs p q (n + n') := by
  intro mem a m hr i hi
  by_cases hl : i < n
  · exact h mem a m hr i hl
  · have := h' mem a m hr (i - n) (by omega)
    rwa [show q + n + (i - n) = q + i by omega] at this

theorem needs_branch {α : Type} {c : Bool} {k : Prog α} {q n : Nat} (h : Needs k q n) : Needs (.branch c k) q n :=
  fun mem b m hr => h mem b m hr

theorem needs_ifc_pos {α : Type} {c : Bool} {t e : Prog α} {q n : Nat} (hc : c = true) (h : Needs t q n) : Needs (ifc c t e) q n := by
  intro mem b m hr
  rw [run_ifc, if_pos hc] at hr
  exact h mem b m hr

theorem needs_ifc_neg {α : Type} {c : Bool} {t e : Prog α} {q n : Nat} (hc : c = false) (h : Needs e q n) : Needs (ifc c t e) q n := by
  intro mem b m hr
  rw [run_ifc, if_neg (by rw [hc]; exact Bool.false_ne_true)] at hr
  exact h mem b m hr

theorem needs_ifc_bind_pos {α β : Type} {c : Bool} {t e : Prog α} {f : α → Prog β} {q n : Nat} (hc : c = true)
    (h : Needs (t >>= f) q n) : Needs (ifc c t e >>= f) q n := by
  intro mem b m hr
  rw [run_bind, run_ifc, if_pos hc, ← run_bind] at hr
  exact h mem b m hr

theorem needs_ifc_bind_neg {α β : Type} {c : Bool} {t e : Prog α} {f : α → Prog β} {q n : Nat} (hc : c = false)
    (h : Needs (e >>= f) q n) : Needs (ifc c t e >>= f) q n := by
  intro mem b m hr
  rw [run_bind, run_ifc, if_neg (by rw [hc]; exact Bool.false_ne_true), ← run_bind] at hr
  exact h mem b m hr

/-! ## The ciphertext -/

theorem needs_encFinal (g : Cfg) (hC : g.C ≤ 4) (e : Endian) (s : MState) (c m mlen : Nat) (hl : mlen < 16) :
    Needs (encFinal g e (s, c, m, mlen)) c (8 * g.C * ((mlen + 7) / 8)) := by
  unfold encFinal
  simp only []
  by_cases h8 : mlen ≥ 8
  · refine needs_ifc_bind_pos (by simpa using h8) ?_
    simp only [Masked.ret_bind', bind_assoc']
    refine needs_bind_right (keeps_MLOAD _ _ _ _) fun _ => ?_
    by_cases h0 : mlen - 8 = 0
    · rw [show 8 * g.C * ((mlen + 7) / 8) = 8 * g.C by rw [show (mlen + 7) / 8 = 1 by omega, Nat.mul_one]]
      exact needs_bind_left (needs_MSTORE_all _ e c g.C _ hC)
    · rw [show 8 * g.C * ((mlen + 7) / 8) = 8 * g.C + 8 * g.C by rw [show (mlen + 7) / 8 = 2 by omega]; omega]
      refine needs_add (needs_bind_left (needs_MSTORE_all _ e c g.C _ hC)) ?_
      refine needs_bind_right (keeps_MSTORE _ _ _ _ _) fun _ => ?_
      refine needs_bind_right (keeps_xorPad _ _ _) fun _ => ?_
      refine needs_ifc_pos (by simpa using h0) ?_
      refine needs_bind_right (keeps_MLOAD _ _ _ _) fun _ => ?_
      exact needs_bind_left (needs_MSTORE_all _ e _ g.C _ hC)
  · refine needs_ifc_bind_neg (by simpa using h8) ?_
    simp only [Masked.ret_bind']
    by_cases h0 : mlen = 0
    · rw [show 8 * g.C * ((mlen + 7) / 8) = 0 by rw [show (mlen + 7) / 8 = 0 by omega, Nat.mul_zero]]
      exact needs_zero _ _
    · rw [show 8 * g.C * ((mlen + 7) / 8) = 8 * g.C by rw [show (mlen + 7) / 8 = 1 by omega, Nat.mul_one]]
      refine needs_bind_right (keeps_xorPad _ _ _) fun _ => ?_
      refine needs_ifc_pos (by simpa using h0) ?_
      refine needs_bind_right (keeps_MLOAD _ _ _ _) fun _ => ?_
      exact needs_bind_left (needs_MSTORE_all _ e _ g.C _ hC)

theorem needs_encLoop (g : Cfg) (hC : g.C ≤ 4) (e : Endian) (fuel : Nat) : ∀ (s : MState) (c m mlen : Nat),
    Needs (loop fuel (fun (_, _, _, mlen) => decide (mlen ≥ 16)) (encStep g e) (s, c, m, mlen) >>= encFinal g e) c
      (8 * g.C * ((mlen + 7) / 8)) := by
  induction fuel with
  | zero => intro s c m mlen; exact needs_ub _ _
  | succ f ih =>
    intro s c m mlen
    unfold loop
    by_cases h : mlen ≥ 16
    · refine needs_ifc_bind_pos (by simpa using h) ?_
      unfold encStep
      simp only [Masked.ret_bind', bind_assoc']
      rw [show 8 * g.C * ((mlen + 7) / 8) = 8 * g.C + (8 * g.C + 8 * g.C * ((mlen - 16 + 7) / 8)) by
        rw [show (mlen + 7) / 8 = (mlen - 16 + 7) / 8 + 2 by omega, Nat.mul_add]; omega]
      refine needs_bind_right (keeps_MLOAD _ _ _ _) fun _ => ?_
      refine needs_add (needs_bind_left (needs_MSTORE_all _ e c g.C _ hC)) ?_
      refine needs_bind_right (keeps_MSTORE _ _ _ _ _) fun _ => ?_
      refine needs_bind_right (keeps_MLOAD _ _ _ _) fun _ => ?_
      refine needs_add (needs_bind_left (needs_MSTORE_all _ e _ g.C _ hC)) ?_
      refine needs_bind_right (keeps_MSTORE _ _ _ _ _) fun _ => ?_
      refine needs_bind_right (keeps_P _ _ _) fun s' => ?_
      rw [show c + 8 * g.C + 8 * g.C = c + 16 * g.C by omega]
      exact ih s' _ _ _
    · refine needs_ifc_bind_neg (by simpa using h) ?_
      exact needs_encFinal g hC e s c m mlen (by omega)

theorem words_eq (len n : Nat) : 4 * (NUM_WORDS len * n) = 8 * n * ((len + 7) / 8) := by
  unfold NUM_WORDS
  rw [show (len + 7) / 8 * 2 * n = 2 * (n * ((len + 7) / 8)) by
    rw [Nat.mul_comm ((len + 7) / 8), Nat.mul_assoc, Nat.mul_comm ((len + 7) / 8)], Nat.mul_assoc 8]
  omega

/-- `crypto_aead_encrypt_shared` writes the shares of the ciphertext and of the tag. -/
theorem needs_shared_enc (g : Cfg) (e : Endian) (ρ : Nat → Nat → Word) (cs clen ms mlen ads adlen npubs ks : Nat) (hC : g.C ≤ 4) :
    Needs (crypto_aead_encrypt_shared g e ρ cs clen ms mlen ads adlen npubs ks) cs (4 * (NUM_WORDS (mlen + 16) * g.C)) := by
  have hw : 4 * (NUM_WORDS (mlen + 16) * g.C) = 4 * (NUM_WORDS mlen * g.C) + 16 * g.C := by
    have : NUM_WORDS (mlen + 16) = NUM_WORDS mlen + 4 := by unfold NUM_WORDS; omega
    rw [this, Nat.add_mul]; omega
  rw [hw]
  refine needs_add ?_ (needs_shared_tag g e ρ cs clen ms mlen ads adlen npubs ks hC)
  rw [words_eq]
  unfold crypto_aead_encrypt_shared
  simp only []
  refine needs_bind_right (keeps_store64 _ _ _) fun _ => ?_
  refine needs_bind_right (keeps_initaead _ _ _ _ _) fun _ => ?_
  refine needs_bind_right (keeps_adata _ _ _ _ _) fun _ => ?_
  refine needs_bind_left ?_
  exact needs_encLoop g hC e _ _ _ _ _

/-! ## The decrypted message -/

theorem needs_decFinal (g : Cfg) (hM : g.M ≤ 4) (e : Endian) (s : MState) (m c clen : Nat) (hl : clen < 16) :
    Needs (decFinal g e (s, m, c, clen)) m (8 * g.M * ((clen + 7) / 8)) := by
  unfold decFinal
  simp only []
  by_cases h8 : clen ≥ 8
  · refine needs_ifc_bind_pos (by simpa using h8) ?_
    simp only [Masked.ret_bind', bind_assoc']
    refine needs_bind_right (keeps_MLOAD _ _ _ _) fun _ => ?_
    by_cases h0 : clen - 8 = 0
    · rw [show 8 * g.M * ((clen + 7) / 8) = 8 * g.M by rw [show (clen + 7) / 8 = 1 by omega, Nat.mul_one]]
      exact needs_bind_left (needs_MSTORE_all _ e m g.M _ hM)
    · rw [show 8 * g.M * ((clen + 7) / 8) = 8 * g.M + 8 * g.M by rw [show (clen + 7) / 8 = 2 by omega]; omega]
      refine needs_add (needs_bind_left (needs_MSTORE_all _ e m g.M _ hM)) ?_
      refine needs_bind_right (keeps_MSTORE _ _ _ _ _) fun _ => ?_
      refine needs_bind_right (keeps_xorPad _ _ _) fun _ => ?_
      refine needs_ifc_pos (by simpa using h0) ?_
      refine needs_bind_right (keeps_MLOAD _ _ _ _) fun _ => ?_
      exact needs_bind_left (needs_MSTORE_all _ e _ g.M _ hM)
  · refine needs_ifc_bind_neg (by simpa using h8) ?_
    simp only [Masked.ret_bind']
    by_cases h0 : clen = 0
    · rw [show 8 * g.M * ((clen + 7) / 8) = 0 by rw [show (clen + 7) / 8 = 0 by omega, Nat.mul_zero]]
      exact needs_zero _ _
    · rw [show 8 * g.M * ((clen + 7) / 8) = 8 * g.M by rw [show (clen + 7) / 8 = 1 by omega, Nat.mul_one]]
      refine needs_bind_right (keeps_xorPad _ _ _) fun _ => ?_
      refine needs_ifc_pos (by simpa using h0) ?_
      refine needs_bind_right (keeps_MLOAD _ _ _ _) fun _ => ?_
      exact needs_bind_left (needs_MSTORE_all _ e _ g.M _ hM)

theorem needs_decLoop (g : Cfg) (hM : g.M ≤ 4) (e : Endian) (fuel : Nat) : ∀ (s : MState) (m c clen : Nat),
    Needs (loop fuel (fun (_, _, _, clen) => decide (clen ≥ 16)) (decStep g e) (s, m, c, clen) >>= decFinal g e) m
      (8 * g.M * ((clen + 7) / 8)) := by
  induction fuel with
  | zero => intro s m c clen; exact needs_ub _ _
  | succ f ih =>
    intro s m c clen
    unfold loop
    by_cases h : clen ≥ 16
    · refine needs_ifc_bind_pos (by simpa using h) ?_
      unfold decStep
      simp only [Masked.ret_bind', bind_assoc']
      rw [show 8 * g.M * ((clen + 7) / 8) = 8 * g.M + (8 * g.M + 8 * g.M * ((clen - 16 + 7) / 8)) by
        rw [show (clen + 7) / 8 = (clen - 16 + 7) / 8 + 2 by omega, Nat.mul_add]; omega]
      refine needs_bind_right (keeps_MLOAD _ _ _ _) fun _ => ?_
      refine needs_add (needs_bind_left (needs_MSTORE_all _ e m g.M _ hM)) ?_
      refine needs_bind_right (keeps_MSTORE _ _ _ _ _) fun _ => ?_
      refine needs_bind_right (keeps_MLOAD _ _ _ _) fun _ => ?_
      refine needs_add (needs_bind_left (needs_MSTORE_all _ e _ g.M _ hM)) ?_
      refine needs_bind_right (keeps_MSTORE _ _ _ _ _) fun _ => ?_
      refine needs_bind_right (keeps_P _ _ _) fun s' => ?_
      rw [show m + 8 * g.M + 8 * g.M = m + 16 * g.M by omega]
      exact ih s' _ _ _
    · refine needs_ifc_bind_neg (by simpa using h) ?_
      exact needs_decFinal g hM e s m c clen (by omega)

theorem needs_shared_dec (g : Cfg) (e : Endian) (ρ : Nat → Nat → Word) (ms mlen cs clen ads adlen npubs ks : Nat) (hM : g.M ≤ 4) :
    Needs (crypto_aead_decrypt_shared g e ρ ms mlen cs clen ads adlen npubs ks) ms (4 * (NUM_WORDS (clen - 16) * g.M)) := by
  rw [words_eq]
  unfold crypto_aead_decrypt_shared
  simp only []
  refine needs_bind_right (keeps_store64 _ _ _) fun _ => ?_
  refine needs_bind_right (keeps_initaead _ _ _ _ _) fun _ => ?_
  refine needs_bind_right (keeps_adata _ _ _ _ _) fun _ => ?_
  refine needs_bind_left ?_
  exact needs_decLoop g hM e _ _ _ _ _

end Ascon.MaskedN
