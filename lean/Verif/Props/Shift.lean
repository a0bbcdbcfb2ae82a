import Verif.Props.AheadDec
/-!
# C85: with overlapping buffers the implementations agree from one block on, and not before

C10 (agreement) assumes that the output does not start inside the input ahead of the read position.
-/

namespace Ascon.Props

open Ascon.C Ascon.Spec Ascon.Impl

attribute [local irreducible] perm

/-- **C85** From a distance of one block on, any two implementations, on machines of any byte order, produce the same output, though it is not
the ciphertext of the message (C82). -/
theorem C85_agree_from_16 (i j : Aead) (e f : Endian) (hi : i.runsOn e) (hj : j.runsOn f) (mem1 mem2 : Mem)
    (sp1 clen1 m1 ad1 nsec1 npub1 k1 sp2 clen2 m2 ad2 nsec2 npub2 k2 d : Nat) (K N A P : List Byte)
    (h1 : EncAheadPre mem1 sp1 clen1 m1 d ad1 npub1 k1 K N A P) (h2 : EncAheadPre mem2 sp2 clen2 m2 d ad2 npub2 k2 K N A P) :
    ∃ mem1' mem2' X, run (i.encrypt e sp1 (m1 + d) clen1 m1 P.length ad1 A.length nsec1 npub1 k1) mem1 = some (0, mem1') ∧
      run (j.encrypt f sp2 (m2 + d) clen2 m2 P.length ad2 A.length nsec2 npub2 k2) mem2 = some (0, mem2') ∧
      X.length = P.length + 16 ∧ mem1'.Holds (m1 + d) X ∧ mem2'.Holds (m2 + d) X := by
  obtain ⟨X, hX, -, a, ra, ha, -⟩ := C82_encrypt_ahead i e hi mem1 sp1 clen1 m1 d ad1 nsec1 npub1 k1 K N A P h1
  obtain ⟨Y, hY, hu, b, rb, hb, -⟩ := C82_encrypt_ahead j f hj mem2 sp2 clen2 m2 d ad2 nsec2 npub2 k2 K N A P h2
  have := hu X hX
  subst this
  exact ⟨a, b, _, ra, rb, by rw [length_aeadEncrypt, hX.1], ha, hb⟩

/-- **C85** The same for decryption, with the return value. -/
theorem C85_decrypt_agree_from_16 (i j : Aead) (e f : Endian) (hi : i.runsOn e) (hj : j.runsOn f) (mem1 mem2 : Mem)
    (sp1 mlen1 c1 ad1 nsec1 npub1 k1 sp2 mlen2 c2 ad2 nsec2 npub2 k2 d : Nat) (K N A C : List Byte)
    (h1 : DecAheadPre mem1 sp1 mlen1 c1 d ad1 npub1 k1 K N A C) (h2 : DecAheadPre mem2 sp2 mlen2 c2 d ad2 npub2 k2 K N A C) :
    ∃ r mem1' mem2' X, run (i.decrypt e sp1 (c1 + d) mlen1 nsec1 c1 C.length ad1 A.length npub1 k1) mem1 = some (r, mem1') ∧
      run (j.decrypt f sp2 (c2 + d) mlen2 nsec2 c2 C.length ad2 A.length npub2 k2) mem2 = some (r, mem2') ∧
      X.length = C.length - 16 ∧ mem1'.Holds (c1 + d) X ∧ mem2'.Holds (c2 + d) X := by
  obtain ⟨X, hX, -, r, a, ra, ok1, no1, ha, -⟩ := C83_decrypt_ahead i e hi mem1 sp1 mlen1 nsec1 c1 d ad1 npub1 k1 K N A C h1
  obtain ⟨Y, hY, hu, s, b, rb, ok2, no2, hb, -⟩ := C83_decrypt_ahead j f hj mem2 sp2 mlen2 nsec2 c2 d ad2 npub2 k2 K N A C h2
  have := hu X hX
  subst this
  have hrs : r = s := by
    cases hq : aeadDecrypt K N A X with
    | none => rw [no1 hq, no2 hq]
    | some Q => rw [(ok1 Q hq).1, (ok2 Q hq).1]
  subst hrs
  refine ⟨r, a, b, _, ra, rb, ?_, ha, hb⟩
  have h16 := h1.ctMin
  rw [length_candidate, length_ctBody (by rw [hX.1]; exact h16), hX.1]

/-! ## Below one block -/

/-- The return value and the `n` bytes at `p` afterwards. -/
def outBytes (r : Option (Int × Mem)) (p n : Nat) : Option (Int × List (Option Byte)) :=
  r.map fun r => (r.1, (List.range n).map fun x => (r.2 (p + x)).byte)

theorem of_outBytes {r : Option (Int × Mem)} {p n : Nat} {X : List Byte} {v : Int} (h : outBytes r p n = some (v, X.map some)) :
    ∃ a, r = some (v, a) ∧ a.Holds p X ∧ X.length = n := by
  cases r with
  | none => cases h
  | some x =>
    obtain ⟨w, a⟩ := x
    unfold outBytes at h
    simp only [Option.map_some, Option.some.injEq, Prod.mk.injEq] at h
    obtain ⟨rfl, h⟩ := h
    have hl : X.length = n := by have := congrArg List.length h; simpa using this.symm
    refine ⟨a, rfl, fun x hx => ?_, hl⟩
    have h1 : ((List.range n).map fun x => (a (p + x)).byte)[x]? = (X.map some)[x]? := by rw [h]
    rw [List.getElem?_map, List.getElem?_map, List.getElem?_range (by omega), List.getElem?_eq_getElem hx] at h1
    simpa using h1

/-- What is asked of a call that encrypts the message at `m` to `m + d`, as in C01 except for the distance. -/
structure EncShiftPre (mem : Mem) (sp clen m d ad npub k : Nat) (K N A P : List Byte) : Prop where
  key : mem.Holds k K
  keyLen : K.length = 16
  nonce : mem.Holds npub N
  nonceLen : N.length = 16
  adata : mem.Holds ad A
  msg : mem.Holds m P
  out : mem.Writable (m + d) (P.length + 16)
  outLen : mem.Writable clen 8
  sepKey : Disjoint clen 8 k 16
  sepNonce : Disjoint clen 8 npub 16
  sepAd : Disjoint clen 8 ad A.length
  sepMsg : Disjoint clen 8 m P.length
  sepOut : Disjoint clen 8 (m + d) (P.length + 16)
  stack : mem.Free sp 64

/-- The call: the 20-byte message of `Demo` at 100, the ciphertext `d` bytes further on. -/
def shiftCall (i : Aead) (d : Nat) : Prog Int := i.encrypt .little 1000 (100 + d) 300 100 Demo.P.length 32 Demo.A.length 0 16 0

theorem shiftPre : ∀ d : Fin 16, EncShiftPre aheadMem 1000 300 100 d 32 16 0 Demo.K Demo.N Demo.A Demo.P := by
  have hw : ∀ d : Fin 16, aheadMem.Writable (100 + d) (Demo.P.length + 16) := by unfold Mem.Writable; decide +kernel
  have hd : ∀ d : Fin 16, Disjoint 300 8 (100 + d) (Demo.P.length + 16) := by unfold Disjoint; decide +kernel
  intro d
  exact ⟨aheadPre.key, aheadPre.keyLen, aheadPre.nonce, aheadPre.nonceLen, aheadPre.adata, aheadPre.msg, hw d, aheadPre.outLen,
    aheadPre.sepKey, aheadPre.sepNonce, aheadPre.sepAd, aheadPre.sepMsg, hd d, aheadPre.stack⟩

def shiftOut (i : Aead) (d : Nat) : Option (Int × List (Option Byte)) := outBytes (run (shiftCall i d) aheadMem) (100 + d) 36

/-- The string that is produced. -/
def shiftVal (i : Aead) (d : Nat) : List Byte :=
  match shiftOut i d with
  | some (_, l) => l.filterMap id
  | none => []

theorem shift_check : ((List.range 16).all fun d => d == 0 ||
    (shiftOut .ref d == some (0, (shiftVal .ref d).map some) && (shiftOut .opt64 d == some (0, (shiftVal .opt64 d).map some) &&
    (shiftVal .ref d != shiftVal .opt64 d && (shiftVal .ref d != aheadCt && shiftVal .opt64 d != aheadCt))))) = true := by decide +kernel

theorem shift_ne {d : Nat} (h0 : 0 < d) (hd : d < 16) : shiftOut .ref d = some (0, (shiftVal .ref d).map some) ∧
    shiftOut .opt64 d = some (0, (shiftVal .opt64 d).map some) ∧ shiftVal .ref d ≠ shiftVal .opt64 d ∧
    shiftVal .ref d ≠ aheadCt ∧ shiftVal .opt64 d ≠ aheadCt := by
  have := List.all_eq_true.mp shift_check d (List.mem_range.mpr hd)
  rw [Bool.or_eq_true, beq_iff_eq] at this
  have := this.resolve_left (by omega)
  rwa [Bool.and_eq_true, Bool.and_eq_true, Bool.and_eq_true, Bool.and_eq_true, beq_iff_eq, beq_iff_eq, bne_iff_ne, bne_iff_ne,
    bne_iff_ne] at this

/-- **C85** (negative) For every distance below one block there is a call on which the implementations disagree: `ref` and `opt64` both
return 0, neither produces the ciphertext, and they produce different strings. -/
theorem C85_disagree_below_16 (d : Nat) (h0 : 0 < d) (h16 : d < 16) :
    ∃ (mem : Mem) (sp clen m ad nsec npub k : Nat) (K N A P X Y : List Byte) (a b : Mem), EncShiftPre mem sp clen m d ad npub k K N A P ∧
      run (Aead.encrypt .ref .little sp (m + d) clen m P.length ad A.length nsec npub k) mem = some (0, a) ∧
      run (Aead.encrypt .opt64 .little sp (m + d) clen m P.length ad A.length nsec npub k) mem = some (0, b) ∧
      a.Holds (m + d) X ∧ b.Holds (m + d) Y ∧ X.length = P.length + 16 ∧ Y.length = P.length + 16 ∧
      X ≠ Y ∧ X ≠ aeadEncrypt K N A P ∧ Y ≠ aeadEncrypt K N A P := by
  obtain ⟨r1, r2, n1, n2, n3⟩ := shift_ne h0 h16
  obtain ⟨a, ha, hX, lX⟩ := of_outBytes r1
  obtain ⟨b, hb, hY, lY⟩ := of_outBytes r2
  exact ⟨aheadMem, 1000, 300, 100, 32, 0, 16, 0, Demo.K, Demo.N, Demo.A, Demo.P, _, _, a, b, shiftPre ⟨d, h16⟩, ha, hb, hX, hY,
    lX, lY, n1, n2, n3⟩

end Ascon.Props
