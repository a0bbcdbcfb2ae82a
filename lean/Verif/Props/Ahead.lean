import Verif.Props.Aead
import Verif.Proof.AheadTop
/-!
# C82: the output starts inside the message, ahead of the read position

The overlap that C08 excludes: `c = m + d`, at least one block ahead.  What is encrypted then is not the message, and exactly when the
result is nevertheless right.
-/

namespace Ascon.Props

open Ascon.C Ascon.Spec Ascon.Impl
open Ascon.Ref (length_encBody length_decBody)

attribute [local irreducible] perm

theorem ext_getD {X Y : List Byte} (hl : X.length = Y.length) (h : ∀ x, x < X.length → X.getD x 0 = Y.getD x 0) : X = Y := by
  apply List.ext_getElem hl
  intro i h1 h2
  rw [← getD_lt h1, ← getD_lt h2]
  exact h i h1

theorem encBody_take (s : State) {n : Nat} {X Y : List Byte} (hn : n % 16 = 0) (hX : n ≤ X.length) (hY : n ≤ Y.length)
    (h : X.take n = Y.take n) : (encBody s X).2.take n = (encBody s Y).2.take n := by
  have hx := encBody_append s (X.take n) (X.drop n) (by rw [List.length_take, Nat.min_eq_left hX]; exact hn)
  have hy := encBody_append s (Y.take n) (Y.drop n) (by rw [List.length_take, Nat.min_eq_left hY]; exact hn)
  rw [List.take_append_drop, List.length_take, Nat.min_eq_left hX] at hx
  rw [List.take_append_drop, List.length_take, Nat.min_eq_left hY] at hy
  rw [hx, hy, h]

theorem encBody_causal (s : State) {n : Nat} {X Y : List Byte} (hl : X.length = Y.length)
    (h : ∀ x, x < 16 * n → x < X.length → X.getD x 0 = Y.getD x 0) (x : Nat) (hx : x < 16 * n) :
    (encBody s X).2.getD x 0 = (encBody s Y).2.getD x 0 := by
  by_cases hn : 16 * n ≤ X.length
  · have : X.take (16 * n) = Y.take (16 * n) := by
      apply ext_getD (by simp [hl])
      intro y hy
      rw [List.length_take] at hy
      rw [Impl.getD_take (by omega), Impl.getD_take (by omega)]
      exact h y (by omega) (by omega)
    rw [← Impl.getD_take hx, encBody_take s (by omega) hn (by omega) this, Impl.getD_take hx]
  · rw [ext_getD hl (fun x hx => h x (by omega) hx)]

theorem fed_unique (s : State) {d : Nat} {P X Y : List Byte} (hd : 16 ≤ d) (hX : Fed d P (encBody s X).2 X) (hY : Fed d P (encBody s Y).2 Y) :
    X = Y := by
  have hl : X.length = Y.length := by rw [hX.1, hY.1]
  have key : ∀ n x, x < 16 * n → x < X.length → X.getD x 0 = Y.getD x 0 := by
    intro n
    induction n with
    | zero => intro x h; omega
    | succ n ih =>
      intro x hx hxl
      rw [hX.2 x (by rw [← hX.1]; exact hxl), hY.2 x (by rw [← hX.1]; exact hxl)]
      by_cases h : x < d
      · rw [if_pos h, if_pos h]
      · rw [if_neg h, if_neg h]
        exact encBody_causal s hl ih _ (by omega)
  exact ext_getD hl (fun x hx => key (x + 1) x (by omega) hx)

theorem Fed.toBody {d : Nat} {K N A P P' : List Byte} (hd : 0 < d) (h : Fed d P (aeadEncrypt K N A P') P') :
    Fed d P (encBody (aeadAd A (aeadInit K N)) P').2 P' := by
  refine ⟨h.1, fun x hx => ?_⟩
  rw [h.2 x hx]
  by_cases hxd : x < d
  · rw [if_pos hxd, if_pos hxd]
  · rw [if_neg hxd, if_neg hxd]
    have e1 : aeadEncrypt K N A P' = (encBody (aeadAd A (aeadInit K N)) P').2 ++
        aeadTag K (encBody (aeadAd A (aeadInit K N)) P').1 := rfl
    rw [e1, getD_left (by rw [length_encBody, h.1]; omega)]

/-! ## C82 -/

/-- **C82** Every implementation, called with a ciphertext buffer that starts `d ≥ 16` bytes after the start of the message, encrypts `P'`:
the first `d` bytes of the message, followed by the ciphertext it produces.  There is only one such string. -/
theorem C82_encrypt_ahead (i : Aead) (e : Endian) (hi : i.runsOn e) (mem : Mem) (sp clen m d ad nsec npub k : Nat) (K N A P : List Byte)
    (h : EncAheadPre mem sp clen m d ad npub k K N A P) :
    ∃ P', Fed d P (aeadEncrypt K N A P') P' ∧ (∀ X, Fed d P (aeadEncrypt K N A X) X → X = P') ∧
      ∃ mem', run (i.encrypt e sp (m + d) clen m P.length ad A.length nsec npub k) mem = some (0, mem') ∧
        mem'.Holds (m + d) (aeadEncrypt K N A P') ∧
        ∀ a, ¬ InRange (m + d) (P.length + 16) a → ¬ InRange clen 8 a → mem' a = mem a := by
  obtain ⟨P', hF, hr⟩ := i.encrypt_ahead e hi mem sp clen m d ad nsec npub k K N A P h
  have hd := h.ahead
  refine ⟨P', hF, fun X hX => fed_unique _ hd (Fed.toBody (by omega) hX) (Fed.toBody (by omega) hF), _, hr, holds_writes_self _ _ _, ?_⟩
  intro a h1 h2
  unfold InRange at h1 h2
  unfold encPost
  rw [writes_out (by rw [length_aeadEncrypt, hF.1]; omega), writes_out (by rw [Ref.length_repr64]; omega)]

/-- **C82** The call returns 0 in any case; the result is the ciphertext of the message exactly if the message, from position `d` on, already
was the ciphertext of its own beginning. -/
theorem C82_encrypt_ahead_iff (i : Aead) (e : Endian) (hi : i.runsOn e) (mem : Mem) (sp clen m d ad nsec npub k : Nat)
    (K N A P : List Byte) (h : EncAheadPre mem sp clen m d ad npub k K N A P) :
    ∃ mem', run (i.encrypt e sp (m + d) clen m P.length ad A.length nsec npub k) mem = some (0, mem') ∧
      (mem'.Holds (m + d) (aeadEncrypt K N A P) ↔ ∀ x, x + d < P.length → P.getD (x + d) 0 = (aeadEncrypt K N A P).getD x 0) := by
  obtain ⟨P', hF, hu, mem', hr, hh, -⟩ := C82_encrypt_ahead i e hi mem sp clen m d ad nsec npub k K N A P h
  refine ⟨mem', hr, fun hP x hx => ?_, fun hP => ?_⟩
  · have hE : aeadEncrypt K N A P = aeadEncrypt K N A P' :=
      hP.ext hh (by rw [length_aeadEncrypt, length_aeadEncrypt, hF.1])
    have : P = P' := aeadEncrypt_injective hE
    subst this
    have := hF.2 (x + d) hx
    rwa [if_neg (by omega), Nat.add_sub_cancel] at this
  · have : P = P' := hu P ⟨rfl, fun x hx => by
      by_cases hxd : x < d
      · rw [if_pos hxd]
      · rw [if_neg hxd, ← hP (x - d) (by omega)]
        congr 1; omega⟩
    rw [this]
    exact hh

/-- (negative) Of all messages that begin with the same `d` bytes, at most one value of the next byte is encrypted correctly: whatever the
implementations and the places, two messages that differ at `d` are not both encrypted correctly. -/
theorem C82_at_most_one (i j : Aead) (e f : Endian) (hi : i.runsOn e) (hj : j.runsOn f) (mem1 mem2 : Mem)
    (sp1 clen1 m1 ad1 nsec1 npub1 k1 sp2 clen2 m2 ad2 nsec2 npub2 k2 d : Nat) (K N A P Q : List Byte)
    (h1 : EncAheadPre mem1 sp1 clen1 m1 d ad1 npub1 k1 K N A P) (h2 : EncAheadPre mem2 sp2 clen2 m2 d ad2 npub2 k2 K N A Q)
    (hd : P.take d = Q.take d) (hP : d < P.length) (hQ : d < Q.length) (hne : P.getD d 0 ≠ Q.getD d 0) :
    ∃ mem1' mem2', run (i.encrypt e sp1 (m1 + d) clen1 m1 P.length ad1 A.length nsec1 npub1 k1) mem1 = some (0, mem1') ∧
      run (j.encrypt f sp2 (m2 + d) clen2 m2 Q.length ad2 A.length nsec2 npub2 k2) mem2 = some (0, mem2') ∧
      ¬ (mem1'.Holds (m1 + d) (aeadEncrypt K N A P) ∧ mem2'.Holds (m2 + d) (aeadEncrypt K N A Q)) := by
  obtain ⟨a, ra, ea⟩ := C82_encrypt_ahead_iff i e hi mem1 sp1 clen1 m1 d ad1 nsec1 npub1 k1 K N A P h1
  obtain ⟨b, rb, eb⟩ := C82_encrypt_ahead_iff j f hj mem2 sp2 clen2 m2 d ad2 nsec2 npub2 k2 K N A Q h2
  refine ⟨a, b, ra, rb, fun ⟨ha, hb⟩ => hne ?_⟩
  have h16 := h1.ahead
  have x1 := ea.mp ha 0 (by omega)
  have x2 := eb.mp hb 0 (by omega)
  rw [Nat.zero_add] at x1 x2
  rw [x1, x2]
  have e1 : ∀ X : List Byte, aeadEncrypt K N A X = (encBody (aeadAd A (aeadInit K N)) X).2 ++
      aeadTag K (encBody (aeadAd A (aeadInit K N)) X).1 := fun _ => rfl
  rw [e1, e1, getD_left (by rw [length_encBody]; omega), getD_left (by rw [length_encBody]; omega)]
  have ht : P.take 16 = Q.take 16 := by
    have := congrArg (List.take 16) hd
    rwa [List.take_take, List.take_take, Nat.min_eq_left h16] at this
  have := encBody_take (aeadAd A (aeadInit K N)) (n := 16) rfl (by omega : 16 ≤ P.length) (by omega : 16 ≤ Q.length) ht
  rw [← Impl.getD_take (n := 16) (by omega), this, Impl.getD_take (by omega)]

/-- A memory for the call: a 20-byte message at 100, the ciphertext at 116. -/
def aheadMem : Mem := Demo.mem.fill 136 40 .uninit

theorem aheadPre : EncAheadPre aheadMem 1000 300 100 16 32 16 0 Demo.K Demo.N Demo.A Demo.P := by
  constructor <;> first | decide +kernel | (unfold Mem.Holds; decide +kernel) |
    (unfold Mem.Writable; decide +kernel) | (unfold Mem.Free; decide +kernel) |
    (unfold Disjoint; decide +kernel)

/-- (negative) The excluded overlap does go wrong: for this message, with every implementation. -/
theorem C82_encrypt_ahead_wrong (i : Aead) (e : Endian) (hi : i.runsOn e) :
    ∃ mem', run (i.encrypt e 1000 (100 + 16) 300 100 Demo.P.length 32 Demo.A.length 0 16 0) aheadMem = some (0, mem') ∧
      ¬ mem'.Holds (100 + 16) (aeadEncrypt Demo.K Demo.N Demo.A Demo.P) := by
  obtain ⟨mem', hr, h⟩ := C82_encrypt_ahead_iff i e hi aheadMem 1000 300 100 16 32 0 16 0 Demo.K Demo.N Demo.A Demo.P aheadPre
  refine ⟨mem', hr, fun hh => ?_⟩
  have := h.mp hh 0 (by decide)
  revert this
  decide +kernel

end Ascon.Props
