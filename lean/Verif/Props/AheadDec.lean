import Verif.Props.Ahead
import Verif.Proof.AheadDec
/-!
# C83: decryption whose output starts inside the ciphertext, ahead of the read position

The overlap that C08 excludes: the plaintext buffer is `c + d`, at least one block ahead.  What is decrypted then, and whose tag is checked,
is not the ciphertext; and exactly when the result is nevertheless right.
-/

namespace Ascon.Props

open Ascon.C Ascon.Spec Ascon.Impl
open Ascon.Ref (length_encBody length_decBody)

attribute [local irreducible] perm

theorem decBody_append (s : State) (p q : List Byte) (h : p.length % 16 = 0) :
    (decBody s (p ++ q)).2.take p.length = (decBody s p).2 := by
  induction hn : p.length using Nat.strongRecOn generalizing s p with
  | ind n ih =>
    by_cases h0 : p.length = 0
    · have : p = [] := by simpa using h0
      subst this
      have : (decBody s []).2.length = 0 := length_decBody s []
      rw [← hn]; simp only [List.length_nil, List.take_zero]
      exact (List.length_eq_zero_iff.mp this).symm
    · have h16 : 16 ≤ p.length := by omega
      have hrl : (xorBytes (rate 16 s) (p.take 16)).length = 16 := by
        have := length_rate 16 s (by omega)
        simp [xorBytes, this]; omega
      rw [decBody_of_ge s (p ++ q) (by simp; omega), decBody_of_ge s p h16]
      simp only
      rw [List.take_append_of_le_length h16, List.drop_append_of_le_length h16, List.take_append,
        List.take_of_length_le (by omega), hrl, ← hn, show p.length - 16 = (p.drop 16).length by simp,
        ih (p.drop 16).length (by simp; omega) _ _ (by simp; omega) rfl]

theorem decBody_take (s : State) {n : Nat} {X Y : List Byte} (hn : n % 16 = 0) (hX : n ≤ X.length) (hY : n ≤ Y.length)
    (h : X.take n = Y.take n) : (decBody s X).2.take n = (decBody s Y).2.take n := by
  have hx := decBody_append s (X.take n) (X.drop n) (by rw [List.length_take, Nat.min_eq_left hX]; exact hn)
  have hy := decBody_append s (Y.take n) (Y.drop n) (by rw [List.length_take, Nat.min_eq_left hY]; exact hn)
  rw [List.take_append_drop, List.length_take, Nat.min_eq_left hX] at hx
  rw [List.take_append_drop, List.length_take, Nat.min_eq_left hY] at hy
  rw [hx, hy, h]

theorem decBody_causal (s : State) {n : Nat} {X Y : List Byte} (hl : X.length = Y.length)
    (h : ∀ x, x < 16 * n → x < X.length → X.getD x 0 = Y.getD x 0) (x : Nat) (hx : x < 16 * n) :
    (decBody s X).2.getD x 0 = (decBody s Y).2.getD x 0 := by
  by_cases hn : 16 * n ≤ X.length
  · have : X.take (16 * n) = Y.take (16 * n) := by
      apply ext_getD (by simp [hl])
      intro y hy
      rw [List.length_take] at hy
      rw [Impl.getD_take (by omega), Impl.getD_take (by omega)]
      exact h y (by omega) (by omega)
    rw [← Impl.getD_take hx, decBody_take s (by omega) hn (by omega) this, Impl.getD_take hx]
  · rw [ext_getD hl (fun x hx => h x (by omega) hx)]

/-- There is only one such string. -/
theorem decFed_unique {d : Nat} {K N A C X Y : List Byte} (hd : 16 ≤ d) (hX : Fed d C (aeadCandidate K N A (ctBody X)) X)
    (hY : Fed d C (aeadCandidate K N A (ctBody Y)) Y) : X = Y := by
  have hl : X.length = Y.length := by rw [hX.1, hY.1]
  have hlb : (ctBody X).length = (ctBody Y).length := by unfold ctBody; simp [hl]
  have key : ∀ n x, x < 16 * n → x < X.length → X.getD x 0 = Y.getD x 0 := by
    intro n
    induction n with
    | zero => intro x h; omega
    | succ n ih =>
      intro x hx hxl
      rw [hX.2 x (by rw [← hX.1]; exact hxl), hY.2 x (by rw [← hX.1]; exact hxl)]
      by_cases h : x < d
      · rw [if_pos h, if_pos h]
      · rw [if_neg h, if_neg h]
        refine decBody_causal _ (n := n) hlb (fun y hy hyl => ?_) _ (by omega)
        have hyb : y < X.length - 16 := by simpa [ctBody] using hyl
        unfold ctBody
        rw [Impl.getD_take (by omega), Impl.getD_take (by omega)]
        exact ih y hy (by omega)
  exact ext_getD hl (fun x hx => key (x + 1) x (by omega) hx)

/-! ## C83 -/

/-- **C83** Every implementation, called with a plaintext buffer that starts `d ≥ 16` bytes after the start of the ciphertext, decrypts, and
verifies the tag of, `C'`: the first `d` bytes of the ciphertext, followed by the plaintext it produces, which takes the place of the tag
too.  There is only one such string. -/
theorem C83_decrypt_ahead (i : Aead) (e : Endian) (hi : i.runsOn e) (mem : Mem) (sp mlen nsec c d ad npub k : Nat) (K N A C : List Byte)
    (h : DecAheadPre mem sp mlen c d ad npub k K N A C) :
    ∃ C', Fed d C (aeadCandidate K N A (ctBody C')) C' ∧ (∀ X, Fed d C (aeadCandidate K N A (ctBody X)) X → X = C') ∧
      ∃ r mem', run (i.decrypt e sp (c + d) mlen nsec c C.length ad A.length npub k) mem = some (r, mem') ∧
        (∀ P, aeadDecrypt K N A C' = some P → r = 0 ∧ mem'.Holds (c + d) P) ∧
        (aeadDecrypt K N A C' = none → r = -1) ∧
        mem'.Holds (c + d) (aeadCandidate K N A (ctBody C')) ∧
        ∀ a, ¬ InRange (c + d) (C.length - 16) a → ¬ InRange mlen 8 a → mem' a = mem a := by
  obtain ⟨C', hF, hr⟩ := i.decrypt_ahead e hi mem sp mlen nsec c d ad npub k K N A C h
  have h16 : 16 ≤ C'.length := by rw [hF.1]; exact h.ctMin
  refine ⟨C', hF, fun X hX => decFed_unique h.ahead hX hF, _, _, hr, fun P hP => ?_, fun hP => ?_, decPost_holds e, fun a h1 h2 => ?_⟩
  · rw [aeadDecrypt_eq h16] at hP
    split at hP
    · rename_i ht
      injection hP with hP
      rw [if_pos ht, ← hP]
      exact ⟨rfl, decPost_holds e⟩
    · cases hP
  · rw [aeadDecrypt_eq h16] at hP
    split at hP <;> simp_all
  · exact decPost_frame e h16 (by rw [hF.1]; exact h1) h2

/-- **C83** A genuine ciphertext is decrypted correctly exactly if, from position `d` on, body and tag already were its own plaintext. -/
theorem C83_decrypt_ahead_iff (i : Aead) (e : Endian) (hi : i.runsOn e) (mem : Mem) (sp mlen nsec c d ad npub k : Nat)
    (K N A P : List Byte) (h : DecAheadPre mem sp mlen c d ad npub k K N A (aeadEncrypt K N A P)) :
    ∃ r mem', run (i.decrypt e sp (c + d) mlen nsec c (aeadEncrypt K N A P).length ad A.length npub k) mem = some (r, mem') ∧
      ((r = 0 ∧ mem'.Holds (c + d) P) ↔ ∀ x, x + d < P.length + 16 → (aeadEncrypt K N A P).getD (x + d) 0 = P.getD x 0) := by
  obtain ⟨C', hF, hu, r, mem', hr, hok, hno, -, -⟩ :=
    C83_decrypt_ahead i e hi mem sp mlen nsec c d ad npub k K N A _ h
  have hd := h.ahead
  have hlen := length_aeadEncrypt K N A P
  have hdec : aeadDecrypt K N A (aeadEncrypt K N A P) = some P := aeadDecrypt_aeadEncrypt K N A P
  have hcand : aeadCandidate K N A (ctBody (aeadEncrypt K N A P)) = P := by
    rw [aeadDecrypt_eq h.ctMin] at hdec
    split at hdec
    · injection hdec
    · cases hdec
  refine ⟨r, mem', hr, fun ⟨hr0, hP⟩ x hx => ?_, fun hP => ?_⟩
  · have hE : C' = aeadEncrypt K N A P := by
      cases hq : aeadDecrypt K N A C' with
      | none => have := hno hq; rw [hr0] at this; exact absurd this (by decide)
      | some Q =>
        have hC := aeadEncrypt_of_aeadDecrypt hq
        have hl : Q.length = P.length := by
          have := congrArg List.length hC
          rw [length_aeadEncrypt, hF.1, hlen] at this; omega
        rw [hP.ext (hok Q hq).2 hl.symm, hC]
    have := hF.2 (x + d) (by rw [hlen]; omega)
    rwa [if_neg (by omega), Nat.add_sub_cancel, hE, hcand] at this
  · have : aeadEncrypt K N A P = C' := hu _ ⟨rfl, fun x hx => by
      by_cases hxd : x < d
      · rw [if_pos hxd]
      · rw [if_neg hxd, hcand, ← hP (x - d) (by omega)]
        congr 1; omega⟩
    subst this
    exact hok P hdec

/-- The 20-byte message of `Demo`, encrypted, and what takes its place if it is decrypted 16 bytes ahead. -/
def aheadCt : List Byte := aeadEncrypt Demo.K Demo.N Demo.A Demo.P

def aheadCt' : List Byte := aheadCt.take 16 ++ Demo.P.take 16 ++
  (aeadCandidate Demo.K Demo.N Demo.A (aheadCt.take 16 ++ Demo.P.take 4)).drop 16

/-- A memory for the call: the ciphertext at 200, the plaintext at 216. -/
def aheadDecMem : Mem := Demo.mem.writes 200 aheadCt

theorem aheadDecPre : DecAheadPre aheadDecMem 1000 300 200 16 32 16 0 Demo.K Demo.N Demo.A aheadCt := by
  constructor <;> first | decide +kernel | (unfold Mem.Holds; decide +kernel) |
    (unfold Mem.Writable; decide +kernel) | (unfold Mem.Free; decide +kernel) |
    (unfold Disjoint; decide +kernel)

/-- (negative) The excluded overlap does go wrong: this genuine ciphertext is rejected, by every implementation. -/
theorem C83_decrypt_ahead_rejects (i : Aead) (e : Endian) (hi : i.runsOn e) :
    ∃ mem', run (i.decrypt e 1000 (200 + 16) 300 0 200 aheadCt.length 32 Demo.A.length 16 0) aheadDecMem = some (-1, mem') := by
  obtain ⟨C', hF, hu, r, mem', hr, -, hno, -⟩ :=
    C83_decrypt_ahead i e hi aheadDecMem 1000 300 0 200 16 32 16 0 Demo.K Demo.N Demo.A aheadCt aheadDecPre
  have hc : aheadCt' = C' := hu _ (by unfold Fed; decide +kernel)
  subst hc
  rw [hno (by decide +kernel)] at hr
  exact ⟨mem', hr⟩

end Ascon.Props
