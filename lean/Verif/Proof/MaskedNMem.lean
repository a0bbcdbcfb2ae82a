import Verif.Proof.MaskedNShares
import Verif.C.Freed
import Verif.Proof.MaskedAead
/-!
# Shared words and shared byte strings in memory
-/

namespace Ascon.MaskedN

open Ascon.Spec Ascon.C
open Ascon.Gen hiding ROR32 ROR64
open Ascon.C.Prog (require ifc loop forUp loadB storeB loadN storeN store64 load64)
open Ascon.Masked

attribute [local irreducible] perm deinterleave32 interleave32

theorem rel_iff {ns : Nat} {s : MState} {t : State} : Rel ns s t ↔
    (PV ns s.x0 = enc t.x0 ∧ PV ns s.x1 = enc t.x1 ∧ PV ns s.x2 = enc t.x2 ∧ PV ns s.x3 = enc t.x3 ∧
      PV ns s.x4 = enc t.x4) ∧ PV ns s.x5 = 0 := by
  unfold Rel E encS
  constructor
  · rintro ⟨h, hz⟩
    simp only [State.mk.injEq] at h
    exact ⟨h, PV_zero_iff.1 hz⟩
  · rintro ⟨⟨h0, h1, h2, h3, h4⟩, hz⟩
    exact ⟨by rw [h0, h1, h2, h3, h4], PV_zero_iff.2 hz⟩

/-- The value in registers of a share with the given value in memory (`ASCON_EXTERN_BI`). -/
def ext (bi : Bool) (y : Word) : Word := if bi then y else enc y

/-- The value in memory of a share. -/
def rep (bi : Bool) (s : share_t) : Word := if bi then pk s else interleave32 .little (pk s)

theorem enc_dec (x : Word) : enc (interleave32 .little x) = x := deinterleave32_interleave32 x

theorem ext_rep (bi : Bool) (s : share_t) : unpk (ext bi (rep bi s)) = s := by
  unfold ext rep
  cases bi
  · simp only [Bool.false_eq_true, if_false]; rw [enc_dec, unpk_pk]
  · simp only [if_true, unpk_pk]

/-- At `p` there is a sharing of the word `x` with `n` shares. -/
def SW (mem : Mem) (bi : Bool) (n p : Nat) (x : Word) : Prop :=
  ∃ f, HoldsShares mem n p f ∧ PV n (fun d => unpk (ext bi (f d))) = enc x

/-- At `p` there is a sharing of the byte string `D`. -/
def SH (mem : Mem) (bi : Bool) (n p : Nat) (D : List Byte) : Prop :=
  ∀ j, 8 * j < D.length → SW mem bi n (p + 8 * (n * j)) (Masked.wordAt D j)

/-- The size of an array of shares. -/
def sz (n len : Nat) : Nat := 8 * (n * ((len + 7) / 8))

/-- Only the `L` bytes at `p` have changed. -/
def Fr (mem mem' : Mem) (p L : Nat) : Prop :=
  (∀ a, a < p ∨ p + L ≤ a → mem' a = mem a) ∧ ∀ a, (mem a).rw = true → (mem' a).rw = true

theorem Fr.refl (mem : Mem) (p L : Nat) : Fr mem mem p L := ⟨fun _ _ => rfl, fun _ h => h⟩

theorem Fr.trans {mem m1 m2 : Mem} {p L p1 L1 p2 L2 : Nat} (h1 : Fr mem m1 p1 L1) (h2 : Fr m1 m2 p2 L2)
    (hp1 : p ≤ p1 ∧ p1 + L1 ≤ p + L) (hp2 : p ≤ p2 ∧ p2 + L2 ≤ p + L) : Fr mem m2 p L :=
  ⟨fun a ha => (h2.1 a (by omega)).trans (h1.1 a (by omega)), fun a ha => h2.2 a (h1.2 a ha)⟩

theorem Fr.mono {mem m1 : Mem} {p L p1 L1 : Nat} (h : Fr mem m1 p1 L1) (hp : p ≤ p1 ∧ p1 + L1 ≤ p + L) : Fr mem m1 p L :=
  ⟨fun a ha => h.1 a (by omega), h.2⟩

theorem Fr.writable {mem m1 : Mem} {p L q k : Nat} (h : Fr mem m1 p L) (hw : mem.Writable q k) : m1.Writable q k :=
  fun i hi => h.2 _ (hw i hi)

theorem Fr.holds {mem m1 : Mem} {p L q : Nat} {bs : List Byte} (h : Fr mem m1 p L) (hh : mem.Holds q bs)
    (hd : Disjoint p L q bs.length) : m1.Holds q bs := by
  apply holds_of_agree hh
  intro a h1 h2
  apply h.1
  unfold Disjoint at hd; omega

theorem Fr.holdsShares {mem m1 : Mem} {p L q n : Nat} {f : Nat → Word} (h : Fr mem m1 p L) (hh : HoldsShares mem n q f)
    (hd : Disjoint p L q (8 * n)) : HoldsShares m1 n q f := by
  intro d hd'
  have h0 := hh d hd'
  refine ⟨h.holds h0.1 ?_, h.holds h0.2 ?_⟩ <;> (rw [length_repr32]; unfold Disjoint at *; omega)

theorem Fr.sw {mem m1 : Mem} {bi : Bool} {p L q n : Nat} {x : Word} (h : Fr mem m1 p L) (hh : SW mem bi n q x)
    (hd : Disjoint p L q (8 * n)) : SW m1 bi n q x := by
  obtain ⟨f, h1, h2⟩ := hh
  exact ⟨f, h.holdsShares h1 hd, h2⟩

theorem idx_le {n j len : Nat} (hj : 8 * j < len) : n * j + n ≤ n * ((len + 7) / 8) := by
  have : n * (j + 1) ≤ n * ((len + 7) / 8) := Nat.mul_le_mul_left n (by omega)
  rw [Nat.mul_succ] at this
  exact this

theorem Fr.sh {mem m1 : Mem} {bi : Bool} {p L q n : Nat} {D : List Byte} (h : Fr mem m1 p L) (hh : SH mem bi n q D)
    (hd : Disjoint p L q (sz n D.length)) : SH m1 bi n q D := by
  intro j hj
  apply h.sw (hh j hj)
  have := idx_le (n := n) hj
  unfold Disjoint sz at *
  omega

theorem sh_congr {mem m1 : Mem} {bi : Bool} {q n : Nat} {D : List Byte} (hh : SH mem bi n q D)
    (h : ∀ a, q ≤ a → a < q + sz n D.length → m1 a = mem a) : SH m1 bi n q D := by
  intro j hj
  obtain ⟨f, h1, h2⟩ := hh j hj
  have := idx_le (n := n) hj
  unfold sz at h
  have hl : ∀ x, (repr32 .little x).length = 4 := fun x => length_repr32 _ x
  refine ⟨f, fun d hd => ⟨fun i hi => ?_, fun i hi => ?_⟩, h2⟩
  · rw [hl] at hi
    rw [h _ (by omega) (by omega)]
    exact (h1 d hd).1 i (by rw [hl]; exact hi)
  · rw [hl] at hi
    rw [h _ (by omega) (by omega)]
    exact (h1 d hd).2 i (by rw [hl]; exact hi)

theorem sh_only {mem : Mem} {bi : Bool} {q n : Nat} {D : List Byte} (hh : SH mem bi n q D) :
    SH (mem.only q (sz n D.length)) bi n q D :=
  sh_congr hh fun _ h1 h2 => if_pos ⟨h1, h2⟩

theorem sh_fill {mem : Mem} {bi : Bool} {q n p L : Nat} {c : Cell} {D : List Byte} (hh : SH mem bi n q D)
    (hd : Disjoint p L q (sz n D.length)) : SH (mem.fill p L c) bi n q D :=
  sh_congr hh fun _ h1 h2 => if_neg (by unfold Disjoint at hd; omega)

theorem wordAt_drop (D : List Byte) (k j : Nat) : Masked.wordAt (D.drop (8 * k)) j = Masked.wordAt D (k + j) := by
  unfold Masked.wordAt
  rw [List.drop_drop]; congr 2; omega

theorem SH.drop {mem : Mem} {bi : Bool} {n p : Nat} {D : List Byte} (h : SH mem bi n p D) (k : Nat) :
    SH mem bi n (p + 8 * (n * k)) (D.drop (8 * k)) := by
  intro j hj
  rw [List.length_drop] at hj
  have := h (k + j) (by omega)
  rw [wordAt_drop]
  rw [Nat.mul_add] at this
  rw [show p + 8 * (n * k) + 8 * (n * j) = p + 8 * (n * k + n * j) by omega]
  exact this

theorem SH.append {mem : Mem} {bi : Bool} {n p k : Nat} {X Y : List Byte} (hX : SH mem bi n p X) (hl : X.length = 8 * k)
    (hY : SH mem bi n (p + 8 * (n * k)) Y) : SH mem bi n p (X ++ Y) := by
  intro j hj
  rw [List.length_append] at hj
  by_cases h : 8 * j < X.length
  · have e : Masked.wordAt (X ++ Y) j = Masked.wordAt X j := by
      unfold Masked.wordAt
      rw [List.drop_append_of_le_length (by omega), ← le64_take8, List.take_append_of_le_length (by rw [List.length_drop]; omega), le64_take8]
    rw [e]; exact hX j h
  · obtain ⟨i, rfl⟩ : ∃ i, j = k + i := ⟨j - k, by omega⟩
    have e : Masked.wordAt (X ++ Y) (k + i) = Masked.wordAt Y i := by
      rw [← wordAt_drop]
      unfold Masked.wordAt
      rw [← hl, List.drop_left]
    rw [e, Nat.mul_add, show p + 8 * (n * k + n * i) = p + 8 * (n * k) + 8 * (n * i) by omega]
    exact hY i (by omega)

theorem SH.word {mem : Mem} {bi : Bool} {n p : Nat} {x : Word} (h : SW mem bi n p x) : SH mem bi n p (bytes64 x) := by
  intro j hj
  rw [length_bytes64] at hj
  obtain rfl : j = 0 := by omega
  have e : Masked.wordAt (bytes64 x) 0 = x := by
    unfold Masked.wordAt
    rw [Nat.mul_zero, List.drop_zero, le64_bytes64]
  rw [e]; exact h

theorem SH.nil {mem : Mem} {bi : Bool} {n p : Nat} : SH mem bi n p [] := fun j hj => by simp at hj

theorem SH.first {mem : Mem} {bi : Bool} {n p : Nat} {D : List Byte} (h : SH mem bi n p D) (hD : D ≠ []) :
    SW mem bi n p (le64 D) := by
  have := h 0 (by have := List.length_pos_iff.2 hD; omega)
  simpa [Masked.wordAt] using this

/-! ### MLOAD -/

theorem run_LOADSHARE {bi : Bool} {mem : Mem} {p ns : Nat} {x : Word} (h0 : mem.Holds p (repr32 .little (lo x)))
    (h1 : mem.Holds (p + 4 * ns) (repr32 .little (hi x))) :
    run (LOADSHARE bi .little p ns) mem = some (unpk (ext bi x), mem) := by
  unfold LOADSHARE
  rw [run_bind_of (run_load32 h0), run_bind_of (run_load32 h1)]
  cases bi
  · simp only [hilo]
    rfl
  · rfl

/-- The word loaded: the shares in memory, and zero for the others. -/
def ldw (bi : Bool) (n : Nat) (f : Nat → Word) : word_t := fun d => if d < n then unpk (ext bi (f d)) else ⟨0, 0⟩

theorem V_ldw (bi : Bool) {n n' : Nat} (h : n ≤ n') (f : Nat → Word) (i : Nat) :
    V n' (ldw bi n f) i = V n (fun d => unpk (ext bi (f d))) i := by
  induction n' with
  | zero =>
    obtain rfl : n = 0 := by omega
    rfl
  | succ m ih =>
    by_cases hm : n = m + 1
    · subst hm
      apply V_congr
      intro d hd
      unfold word_t.get ldw
      rw [if_pos hd]
    · simp only [V]
      rw [ih (by omega)]
      have : Rd (ldw bi n f) m i = 0 := by
        unfold Rd word_t.get ldw
        rw [if_neg (by omega)]
        have : (share_t.mk 0 0).get i = 0 := by unfold share_t.get; split <;> rfl
        rw [this, ROR32_zero]
      rw [this]
      exact BitVec.xor_zero

theorem run_MLOAD {bi : Bool} {mem : Mem} {p n : Nat} (hn : Ns n) {x : Word} (h : SW mem bi n p x) :
    ∃ w, (∀ n', n ≤ n' → PV n' w = enc x) ∧ run (MLOAD bi .little p n) mem = some (w, mem) := by
  obtain ⟨f, hf, hx⟩ := h
  refine ⟨ldw bi n f, fun n' hn' => ?_, ?_⟩
  · rw [← hx]
    unfold PV SV
    rw [V_ldw bi hn', V_ldw bi hn']
  · have l : ∀ d, d < n → run (LOADSHARE bi .little (p + 4 * d) n) mem = some (unpk (ext bi (f d)), mem) := fun d hd => by
      have := hf d hd
      apply run_LOADSHARE this.1
      rw [show p + 4 * d + 4 * n = p + 4 * n + 4 * d by omega]; exact this.2
    have e : ∀ w w' : word_t, (∀ d, w d = w' d) → w = w' := fun w w' h => funext h
    unfold MLOAD
    rcases hn.cases with rfl | rfl | rfl | rfl
    · have l0 := l 0 (by omega)
      simp only [ge_iff_le, Nat.le_refl, Nat.reduceLeDiff, if_true, if_false]
      refine (run_bind_of ((run_bind_of l0).trans rfl)).trans ?_
      refine congrArg (fun w => some (w, mem)) (funext fun d => ?_)
      unfold word_t.setShare ldw
      rcases d with _ | d <;> simp
    · have l0 := l 0 (by omega)
      have l1 := l 1 (by omega)
      simp only [ge_iff_le, Nat.le_refl, Nat.reduceLeDiff, if_true, if_false]
      refine (run_bind_of ((run_bind_of l0).trans rfl)).trans ?_
      refine (run_bind_of ((run_bind_of l1).trans rfl)).trans ?_
      refine congrArg (fun w => some (w, mem)) (funext fun d => ?_)
      unfold word_t.setShare ldw
      rcases d with _ | _ | d <;> simp <;> (intro; omega)
    · have l0 := l 0 (by omega)
      have l1 := l 1 (by omega)
      have l2 := l 2 (by omega)
      simp only [ge_iff_le, Nat.le_refl, Nat.reduceLeDiff, if_true, if_false]
      refine (run_bind_of ((run_bind_of l0).trans rfl)).trans ?_
      refine (run_bind_of ((run_bind_of l1).trans rfl)).trans ?_
      refine (run_bind_of ((run_bind_of l2).trans rfl)).trans ?_
      refine congrArg (fun w => some (w, mem)) (funext fun d => ?_)
      unfold word_t.setShare ldw
      rcases d with _ | _ | _ | d <;> simp <;> (intro; omega)
    · have l0 := l 0 (by omega)
      have l1 := l 1 (by omega)
      have l2 := l 2 (by omega)
      have l3 := l 3 (by omega)
      simp only [ge_iff_le, Nat.le_refl, Nat.reduceLeDiff, if_true]
      refine (run_bind_of ((run_bind_of l0).trans rfl)).trans ?_
      refine (run_bind_of ((run_bind_of l1).trans rfl)).trans ?_
      refine (run_bind_of ((run_bind_of l2).trans rfl)).trans ?_
      refine (run_bind_of ((run_bind_of l3).trans rfl)).trans ?_
      refine congrArg (fun w => some (w, mem)) (funext fun d => ?_)
      unfold word_t.setShare ldw
      rcases d with _ | _ | _ | _ | d <;> simp <;> (intro; omega)

/-! ### MSTORE -/

theorem run_STORESHARE {bi : Bool} {mem0 mem : Mem} {p n d : Nat} {f : Nat → Nat → Option U32} (h : Arr mem0 mem p n 2 f)
    (hd : d < n) (s : share_t) :
    ∃ mem', run (STORESHARE bi .little (p + 4 * d) s n) mem = some ((), mem') ∧
      Arr mem0 mem' p n 2 (upd2 (upd2 f 0 d (lo (rep bi s))) 1 d (hi (rep bi s))) := by
  obtain ⟨m1, r1, h1⟩ := h.store (r := 0) (c := d) (by omega) hd (lo (rep bi s))
  obtain ⟨m2, r2, h2⟩ := h1.store (r := 1) (c := d) (by omega) hd (hi (rep bi s))
  refine ⟨m2, ?_, h2⟩
  have e0 : idx p (0 * n + d) = p + 4 * d := by unfold idx; omega
  have e1 : idx p (1 * n + d) = p + 4 * d + 4 * n := by unfold idx; omega
  rw [e0] at r1
  rw [e1] at r2
  have l0 : (if bi then s.w0 else (FROMBI (s.w1.setWidth 64 <<< 32 ||| s.w0.setWidth 64)).setWidth 32) = lo (rep bi s) := by
    cases bi
    · rfl
    · show s.w0 = lo (pk s)
      exact (congrArg share_t.w0 (unpk_pk s)).symm
  have l1 : (if bi then s.w1 else (FROMBI (s.w1.setWidth 64 <<< 32 ||| s.w0.setWidth 64) >>> 32).setWidth 32) = hi (rep bi s) := by
    cases bi
    · rfl
    · show s.w1 = hi (pk s)
      exact (congrArg share_t.w1 (unpk_pk s)).symm
  unfold STORESHARE
  simp only [l0, l1]
  exact (run_bind_of r1).trans r2

theorem Arr.fr {mem0 mem : Mem} {s n R : Nat} {f : Nat → Nat → Option U32} (h : Arr mem0 mem s n R f) :
    Fr mem0 mem s (4 * (R * n)) := by
  refine ⟨h.out, fun a ha => ?_⟩
  by_cases hin : s ≤ a ∧ a < s + 4 * (R * n)
  · have := h.wr (a - s) (by omega)
    rw [show s + (a - s) = a by omega] at this; exact this
  · rw [h.out a (by omega)]; exact ha

theorem run_MSTORE {bi : Bool} {mem : Mem} {p n : Nat} (hn : Ns n) (w : word_t) {x : Word} (hx : PV n w = enc x)
    (hw : mem.Writable p (8 * n)) :
    ∃ mem', Fr mem mem' p (8 * n) ∧ SW mem' bi n p x ∧ run (MSTORE bi .little p w n) mem = some ((), mem') := by
  have h0 : Arr mem mem p n 2 (fun _ _ => none) := ⟨fun _ _ => rfl, by
    rw [show 4 * (2 * n) = 8 * n by omega]; exact hw, fun r c w _ _ h => by simp at h⟩
  have fin : ∀ (mem' : Mem) (g : Nat → Nat → Option U32), Arr mem mem' p n 2 g →
      (∀ d, d < n → g 0 d = some (lo (rep bi (w d))) ∧ g 1 d = some (hi (rep bi (w d)))) →
      Fr mem mem' p (8 * n) ∧ SW mem' bi n p x := by
    intro mem' g hA hg
    have hf := Arr.fr hA
    rw [show 4 * (2 * n) = 8 * n by omega] at hf
    refine ⟨hf, fun d => rep bi (w d), fun d hd => ⟨?_, ?_⟩, ?_⟩
    · have := hA.val 0 d _ (by omega) hd (hg d hd).1
      rw [show idx p (0 * n + d) = p + 4 * d by unfold idx; omega] at this; exact this
    · have := hA.val 1 d _ (by omega) hd (hg d hd).2
      rw [show idx p (1 * n + d) = p + 4 * n + 4 * d by unfold idx; omega] at this; exact this
    · rw [← hx]
      congr 1
      funext d
      exact ext_rep bi (w d)
  unfold MSTORE
  rcases hn.cases with rfl | rfl | rfl | rfl
  · obtain ⟨m1, r1, h1⟩ := run_STORESHARE (bi := bi) h0 (d := 0) (by omega) (w 0)
    obtain ⟨a, b⟩ := fin m1 _ h1 (by
      intro d hd
      obtain rfl : d = 0 := by omega
      exact ⟨rfl, rfl⟩)
    refine ⟨m1, a, b, ?_⟩
    simp only [ge_iff_le, Nat.le_refl, Nat.reduceLeDiff, if_true, if_false]
    exact (run_bind_of r1).trans rfl
  · obtain ⟨m1, r1, h1⟩ := run_STORESHARE (bi := bi) h0 (d := 0) (by omega) (w 0)
    obtain ⟨m2, r2, h2⟩ := run_STORESHARE (bi := bi) h1 (d := 1) (by omega) (w 1)
    obtain ⟨a, b⟩ := fin m2 _ h2 (by
      intro d hd
      have : d = 0 ∨ d = 1 := by omega
      rcases this with rfl | rfl <;> exact ⟨rfl, rfl⟩)
    refine ⟨m2, a, b, ?_⟩
    simp only [ge_iff_le, Nat.le_refl, Nat.reduceLeDiff, if_true, if_false]
    exact (run_bind_of r1).trans ((run_bind_of r2).trans rfl)
  · obtain ⟨m1, r1, h1⟩ := run_STORESHARE (bi := bi) h0 (d := 0) (by omega) (w 0)
    obtain ⟨m2, r2, h2⟩ := run_STORESHARE (bi := bi) h1 (d := 1) (by omega) (w 1)
    obtain ⟨m3, r3, h3⟩ := run_STORESHARE (bi := bi) h2 (d := 2) (by omega) (w 2)
    obtain ⟨a, b⟩ := fin m3 _ h3 (by
      intro d hd
      have : d = 0 ∨ d = 1 ∨ d = 2 := by omega
      rcases this with rfl | rfl | rfl <;> exact ⟨rfl, rfl⟩)
    refine ⟨m3, a, b, ?_⟩
    simp only [ge_iff_le, Nat.le_refl, Nat.reduceLeDiff, if_true, if_false]
    exact (run_bind_of r1).trans ((run_bind_of r2).trans ((run_bind_of r3).trans rfl))
  · obtain ⟨m1, r1, h1⟩ := run_STORESHARE (bi := bi) h0 (d := 0) (by omega) (w 0)
    obtain ⟨m2, r2, h2⟩ := run_STORESHARE (bi := bi) h1 (d := 1) (by omega) (w 1)
    obtain ⟨m3, r3, h3⟩ := run_STORESHARE (bi := bi) h2 (d := 2) (by omega) (w 2)
    obtain ⟨m4, r4, h4⟩ := run_STORESHARE (bi := bi) h3 (d := 3) (by omega) (w 3)
    obtain ⟨a, b⟩ := fin m4 _ h4 (by
      intro d hd
      have : d = 0 ∨ d = 1 ∨ d = 2 ∨ d = 3 := by omega
      rcases this with rfl | rfl | rfl | rfl <;> exact ⟨rfl, rfl⟩)
    refine ⟨m4, a, b, ?_⟩
    simp only [ge_iff_le, Nat.le_refl, Nat.reduceLeDiff, if_true]
    exact (run_bind_of r1).trans ((run_bind_of r2).trans ((run_bind_of r3).trans r4))

end Ascon.MaskedN
