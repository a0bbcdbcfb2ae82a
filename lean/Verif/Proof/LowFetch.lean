import Verif.Proof.GenFetch
import Verif.Model.LowAead
/-!
# src/lowsize and src/combined read and write every byte once
-/

namespace Ascon.Low

open Ascon.C Ascon.Gen
open Ascon.C.Prog (require ifc loop forUp loadB storeB)
open Ascon.Ref (getX xorX verifyTag acc_xorX acc_getX acc_verifyTag zipped)

variable {B : Backend} {e : Endian}

theorem acc_setX (s : State) (i : Nat) (w : Word) : Acc Any1 (setX s i w) [] [] := by
  unfold setX
  split <;> first | exact Acc.pure trivial | exact .ub

theorem acc_permNr (h : B.Silent e) (nr : Nat) (s : State) : Acc Any1 (permNr B e nr s) [] [] := by
  unfold permNr
  split
  · exact h.p12 _
  · exact h.p8 _

theorem acc_nrRate (comb : Bool) (mode : Nat) : Acc Any1 (nrRate comb mode) [] [] := by
  unfold nrRate
  split
  · refine Acc.bind0 (R := Any1) (Acc.ifc (fun _ => Acc.pure trivial) (fun _ => Acc.pure trivial)) fun _ _ => ?_
    refine Acc.bind0 (R := Any1) (Acc.ifc (fun _ => Acc.pure trivial) (fun _ => Acc.pure trivial)) fun _ _ => ?_
    exact Acc.pure trivial
  · exact Acc.pure trivial

/-- Does the call absorb? -/
def absorbs (comb : Bool) (mode : Nat) : Bool := !comb || has mode ASCON_ABSORB

theorem acc_ifAbsorb {α : Type} {comb : Bool} {mode n : Nat} {p : Nat} {t f : Prog α}
    (ht : Acc Any1 t (List.range' p n) []) (hf : Acc Any1 f [] []) :
    Acc Any1 (ifAbsorb comb mode t f) (List.range' p (cond (absorbs comb mode) n 0)) [] := by
  unfold ifAbsorb absorbs
  cases comb with
  | false => exact ht
  | true =>
    refine Acc.ifc (fun h => ?_) (fun h => ?_)
    · rw [h]; exact ht
    · rw [h]; exact hf

theorem acc_ifSqueeze {mode n : Nat} {p : Nat} {t f : Prog Unit}
    (ht : Acc Any1 t [] (List.range' p n)) (hf : Acc Any1 f [] []) :
    Acc Any1 (ifc (has mode ASCON_SQUEEZE) t f) [] (List.range' p (cond (has mode ASCON_SQUEEZE) n 0)) := by
  refine Acc.ifc (fun h => ?_) (fun h => ?_)
  · rw [h]; exact ht
  · rw [h]; exact hf

theorem acc_updStep (h : B.Silent e) (comb : Bool) (mode nr rate : Nat) (s : State) (i : Nat) (tmp : Word)
    (out inp len : Nat) :
    Acc (fun r => r.2.2.2 = (out + 8, inp + 8, len - 8)) (updStep B e comb mode nr rate (s, i, tmp, out, inp, len))
      (List.range' inp (cond (absorbs comb mode) 8 0)) (List.range' out (cond (has mode ASCON_SQUEEZE) 8 0)) := by
  unfold updStep
  refine Acc.bind' (acc_ifAbsorb (comb := comb) (mode := mode) (n := 8) (p := inp) ?_ (Acc.pure trivial))
    (r2 := []) (fun _ _ => ?_) (List.append_nil _).symm (List.nil_append _).symm
  · exact Acc.then0 acc_LOAD fun _ _ => Acc.bind0 (acc_xorX _ _ _) fun _ _ => Acc.pure trivial
  refine Acc.then0 (acc_ifSqueeze (mode := mode) (n := 8) (p := out) ?_ (Acc.pure trivial)) fun _ _ => ?_
  · exact Acc.bind0 (acc_getX _ _) fun _ _ => acc_STORE
  refine Acc.bind0 (R := Any1) (Acc.ifc (fun _ => acc_setX _ _ _) (fun _ => Acc.pure trivial)) fun _ _ => ?_
  refine Acc.bind0 (R := Any1) (Acc.ifc (fun _ => Acc.pure trivial) (fun _ => Acc.pure trivial)) fun _ _ => ?_
  refine Acc.bind0 (R := Any1) (Acc.ifc (fun _ => acc_permNr h _ _) (fun _ => Acc.pure trivial)) fun _ _ => ?_
  exact Acc.pure rfl

theorem acc_updFinal (h : B.Silent e) (comb : Bool) (mode : Nat) (s : State) (i : Nat) (tmp : Word)
    (out inp len : Nat) (hl : len < 8) :
    Acc Any1 (updFinal B e comb mode (s, i, tmp, out, inp, len))
      (List.range' inp (cond (absorbs comb mode) len 0)) (List.range' out (cond (has mode ASCON_SQUEEZE) len 0)) := by
  unfold updFinal
  refine Acc.bind' (acc_ifAbsorb (comb := comb) (mode := mode) (n := len) (p := inp) ?_ (Acc.pure trivial))
    (r2 := []) (fun _ _ => ?_) (List.append_nil _).symm (List.nil_append _).symm
  · exact Acc.then0 acc_LOADBYTES fun _ _ => Acc.bind0 (acc_xorX _ _ _) fun _ _ => Acc.pure trivial
  refine Acc.then0 (acc_ifSqueeze (mode := mode) (n := len) (p := out) ?_ (Acc.pure trivial)) fun _ _ => ?_
  · exact Acc.bind0 (acc_getX _ _) fun _ _ => acc_STOREBYTES
  refine Acc.bind0 (R := Any1) (Acc.ifc (fun _ => ?_) (fun _ => Acc.pure trivial)) fun _ _ => ?_
  · exact Acc.bind0 (acc_getX _ _) fun _ _ => Acc.bind0 (h.clear _ _ hl) fun _ _ => Acc.bind0 (acc_setX _ _ _) fun _ _ =>
      acc_xorX _ _ _
  exact Acc.bind0 (h.pad _ hl) fun _ _ => acc_xorX _ _ _

theorem acc_update (h : B.Silent e) (comb : Bool) (s : State) (out inp len mode : Nat) :
    Acc Any1 (ascon_update B e comb s out inp len mode)
      (List.range' inp (cond (absorbs comb mode) len 0)) (List.range' out (cond (has mode ASCON_SQUEEZE) len 0)) := by
  unfold ascon_update
  refine Acc.bind0 (acc_nrRate comb mode) ?_
  rintro ⟨nr, rate⟩ _
  have key : ∀ (b : Bool) (p : Nat), List.range' p (cond b len 0) =
      List.range' p (len / 8 * cond b 8 0) ++ List.range' (p + len / 8 * 8) (cond b (len - len / 8 * 8) 0) := by
    intro b p
    cases b with
    | false => simp
    | true => exact (range'_join rfl (by simp only [cond_true]; omega)).symm
  have key' : ∀ (b : Bool) (p i : Nat), List.range' (p + i * 8) (cond b 8 0) =
      List.range' (p + i * cond b 8 0) (cond b 8 0) := by
    intro b p i
    cases b with
    | false => rfl
    | true => rfl
  refine Acc.bind' (R := fun r => r.2.2.2 = (out + len / 8 * 8, inp + len / 8 * 8, len - len / 8 * 8)) ?_ ?_ (key _ _) (key _ _)
  · refine Acc.blocks (At := fun i (r : State × Nat × Word × Nat × Nat × Nat) =>
      r.2.2.2 = (out + i * 8, inp + i * 8, len - i * 8)) (q := len / 8) (by simp) ?_ ?_ (by omega)
    · rintro i ⟨s, j, t, a, b, d⟩ hi h
      simp only [Prod.mk.injEq] at h
      obtain ⟨rfl, rfl, rfl⟩ := h
      simp only [decide_eq_decide]
      omega
    · rintro i ⟨s, j, t, a, b, d⟩ hi h'
      simp only [Prod.mk.injEq] at h'
      obtain ⟨rfl, rfl, rfl⟩ := h'
      refine ((acc_updStep h comb mode nr rate s j t _ _ _).mono ?_).cast (key' _ _ _) (key' _ _ _)
      rintro ⟨s, j, t, a, b, d⟩ h'
      simp only [Prod.mk.injEq] at h' ⊢
      omega
  · rintro ⟨s, j, t, a, b, d⟩ h'
    simp only [Prod.mk.injEq] at h'
    obtain ⟨rfl, rfl, rfl⟩ := h'
    exact acc_updFinal h _ _ _ _ _ _ _ _ (by omega)

theorem acc_copyTag (tag t : Nat) : Acc Any1 (copyTag tag t) (List.range' t 16) (List.range' tag 16) := by
  unfold copyTag
  have := Acc.forBlocks (At := fun _ _ => True) (q := 16) (pr := t) (pw := tag) (Rr := 1) (Rw := 1)
    (body := fun i (_ : Unit) => do
      let b ← loadB (t + i)
      storeB (tag + i) b) (s := ()) trivial (fun i s _ _ => by
        rw [Nat.mul_one]
        exact Acc.bind (r1 := [t + i]) (r2 := []) (w1 := []) (w2 := [tag + i]) Acc.loadB fun _ _ =>
          Acc.storeB.mono fun _ _ => trivial)
  exact this.any

/-- The accesses of the tag at the end. -/
theorem acc_aead (h : B.Silent e) (comb : Bool) (sp tag out inp inlen ad adlen npub k mode : Nat) (r w : List Nat)
    (hab : absorbs comb mode = true) (hsq : has mode ASCON_SQUEEZE = true)
    (ht : Acc Any1 (ifc (decide (mode = ASCON_ENCRYPT)) (do copyTag tag sp; pure 0) (verifyTag tag sp)) r w) :
    Acc Any1 (ascon_aead B e comb sp tag out inp inlen ad adlen npub k mode)
      (List.range' k 16 ++ (List.range' npub 16 ++ (List.range' ad adlen ++ (List.range' inp inlen ++ r))))
      (List.range' out inlen ++ (List.range' sp 16 ++ w)) := by
  unfold ascon_aead
  refine Acc.bind' (acc_loadkey k) (fun _ _ => ?_) rfl (List.nil_append _).symm
  refine Acc.bind' (acc_initaead h _ npub) (fun _ _ => ?_) rfl (List.nil_append _).symm
  refine Acc.bind' (R := Any1) (r1 := List.range' ad adlen) (w1 := []) ?_ (fun _ _ => ?_) rfl (List.nil_append _).symm
  · refine Acc.ifc (fun _ => ?_) (fun h => ?_)
    · refine Acc.then0 ((acc_update h comb _ 0 ad adlen ASCON_ABSORB).cast ?_ ?_) fun _ _ => h.p8 _
      · have : absorbs comb ASCON_ABSORB = true := by cases comb <;> rfl
        rw [this]; rfl
      · rfl
    · have : adlen = 0 := by simpa using h
      subst this
      exact Acc.pure trivial
  refine Acc.bind' ((acc_update h comb _ out inp inlen mode).cast (by rw [hab]; rfl) (by rw [hsq]; rfl)) (fun _ _ => ?_) rfl rfl
  refine Acc.bind0 (acc_final h _ _) fun _ _ => ?_
  refine Acc.bind0 (R := Any1) (.alloc (.ret trivial)) fun _ _ => ?_
  rw [range'_split sp 8 8, List.append_assoc]
  refine Acc.bind' (r1 := []) Acc.store64 (fun _ _ => ?_) (List.nil_append _).symm rfl
  refine Acc.bind' (r1 := []) Acc.store64 (fun _ _ => ?_) (List.nil_append _).symm rfl
  refine Acc.then0 ht fun _ _ => ?_
  exact Acc.bind0 (R := Any1) (.free (.ret trivial)) fun _ _ => Acc.pure trivial

theorem acc_encrypt (h : B.Silent e) (comb : Bool) (sp c clen m mlen ad adlen nsec npub k : Nat) :
    Acc Any1 (crypto_aead_encrypt B comb e sp c clen m mlen ad adlen nsec npub k)
      (List.range' k 16 ++ (List.range' npub 16 ++ (List.range' ad adlen ++ (List.range' m mlen ++ List.range' sp 16))))
      (List.range' clen 8 ++ (List.range' c mlen ++ (List.range' sp 16 ++ List.range' (c + mlen) 16))) := by
  unfold crypto_aead_encrypt
  refine Acc.bind' (r1 := []) Acc.store64 (fun _ _ => ?_) (List.nil_append _).symm rfl
  refine acc_aead h comb sp _ _ _ _ _ _ _ _ _ _ _ (by cases comb <;> rfl) rfl ?_
  exact Acc.ifc (fun _ => (acc_copyTag _ _).then0 fun _ _ => Acc.pure trivial) (fun h => by simp at h)

theorem acc_decrypt (h : B.Silent e) (comb : Bool) (sp m mlen nsec c clen ad adlen npub k : Nat) (hc : 16 ≤ clen) :
    Acc Any1 (crypto_aead_decrypt B comb e sp m mlen nsec c clen ad adlen npub k)
      (List.range' k 16 ++ (List.range' npub 16 ++ (List.range' ad adlen ++
        (List.range' c (clen - 16) ++ zipped (c + (clen - 16)) sp 16))))
      (List.range' mlen 8 ++ (List.range' m (clen - 16) ++ (List.range' sp 16 ++ []))) := by
  unfold crypto_aead_decrypt
  refine Acc.ifc (fun h => ?_) (fun _ => ?_)
  · have := of_decide_eq_true h; omega
  refine Acc.bind' (r1 := []) Acc.store64 (fun _ _ => ?_) (List.nil_append _).symm rfl
  refine acc_aead h comb sp _ _ _ _ _ _ _ _ _ _ _ (by cases comb <;> rfl) rfl ?_
  exact Acc.ifc (fun h => absurd (of_decide_eq_true h) (by decide)) (fun h => acc_verifyTag _ _)

theorem acc_xof (h : B.Silent e) (sp out outlen inp inlen : Nat) :
    Acc Any1 (ascon_xof B e sp out outlen inp inlen) (List.range' inp inlen) (List.range' out outlen) := by
  unfold ascon_xof
  refine Acc.bind' (r1 := List.range' inp inlen) (w1 := []) (acc_update h true _ 0 inp inlen _) (fun _ _ => ?_)
    (List.append_nil _).symm (List.nil_append _).symm
  refine Acc.bind0 (h.p12 _) fun _ _ => ?_
  exact Acc.then0 (acc_update h true _ out 0 outlen _) fun _ _ => Acc.pure trivial

end Ascon.Low
