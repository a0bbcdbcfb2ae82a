import Verif.Model.Avr
import Verif.Proof.AsmRound
/-!
# Symbolic execution of AVR code

The symbolic machine keeps the distance of `Z` from the start of the state as a number; the bytes are described by
polynomials (Verif/Proof/Anf.lean).
-/

namespace Ascon.Avr

open Ascon.C
open Ascon.Asm (Poly Sym Rel eval setR getD_setR szip pop2 snot known)

structure SM where
  r : List Sym
  c : Option Poly
  t : Option Poly
  cell : List Sym
  off : Nat

structure SM.Rel (V : Nat) (base : BitVec 16) (s : SM) (m : M) : Prop where
  r : ∀ i, Asm.Rel V (s.r.getD i []) (m.r i)
  c : ∀ p, s.c = some p → eval V p = m.c
  t : ∀ p, s.t = some p → eval V p = m.t
  cell : ∀ i, Asm.Rel V (s.cell.getD i []) (m.cell i)
  z : m.z = base + BitVec.ofNat 16 s.off

/-- Register `d` may be written by ordinary instructions. -/
def okReg (d : Nat) : Bool := Nat.ble d 29

/-- The list of an optional element. -/
def optL : Option Poly → Sym
  | none => []
  | some p => [p]

/-- Symbolic execution of one instruction; `none` if it is not supported. -/
def symStep (s : SM) : Instr → Option SM
  | .movw d a =>
    bif okReg (d + 1) then
      some { s with r := setR (setR s.r d (s.r.getD a [])) (d + 1) (s.r.getD (a + 1) []) } else none
  | .mov d a => bif okReg d then some { s with r := setR s.r d (s.r.getD a []) } else none
  | .ldi d k => bif okReg d then some { s with r := setR s.r d (Asm.sbits k) } else none
  | .and d a => bif okReg d then some { s with r := setR s.r d (szip (pop2 .and) (s.r.getD d []) (s.r.getD a [])) } else none
  | .or d a => bif okReg d then some { s with r := setR s.r d (szip (pop2 .or) (s.r.getD d []) (s.r.getD a [])) } else none
  | .eor d a => bif okReg d then some { s with r := setR s.r d (szip (pop2 .xor) (s.r.getD d []) (s.r.getD a [])) } else none
  | .com d => bif okReg d then some { s with r := setR s.r d (snot (s.r.getD d [])), c := none } else none
  | .lsl d =>
    bif okReg d then
      some { s with r := setR s.r d ([] :: (s.r.getD d []).take 7), c := (s.r.getD d [])[7]? } else none
  | .rol d =>
    match s.c with
    | none => none
    | some p =>
      bif okReg d then
        some { s with r := setR s.r d (p :: (s.r.getD d []).take 7), c := (s.r.getD d [])[7]? } else none
  | .ror d =>
    bif okReg d && Nat.beq (s.r.getD d []).length 8 then
      some { s with r := setR s.r d ((s.r.getD d []).drop 1 ++ optL s.c)
                    c := (s.r.getD d [])[0]? } else none
  | .adc d a =>
    match s.c, s.r.getD d [] with
    | some p, [] :: l =>
      match known 8 (s.r.getD a []) with
      | some 0 => bif okReg d then some { s with r := setR s.r d (p :: l), c := none } else none
      | _ => none
    | _, _ => none
  | .add d _ => bif okReg d then some { s with r := setR s.r d [], c := none } else none
  | .bst d b => some { s with t := (s.r.getD d [])[b]? }
  | .bld d b =>
    match s.t with
    | none => none
    | some p =>
      bif okReg d && (Nat.beq b 7 && Nat.ble 7 (s.r.getD d []).length) then
        some { s with r := setR s.r d ((s.r.getD d []).take 7 ++ [p]) } else none
  | .ldd d q =>
    bif okReg d && Nat.ble (s.off + q) 39 then some { s with r := setR s.r d (s.cell.getD (s.off + q) []) } else none
  | .std q a =>
    bif Nat.ble (s.off + q) 39 then some { s with cell := setR s.cell (s.off + q) (s.r.getD a []) } else none
  | .stzi a =>
    bif Nat.ble s.off 39 then
      some { s with r := setR (setR s.r 30 []) 31 [], cell := setR s.cell s.off (s.r.getD a []), off := s.off + 1 }
    else none
  | .sbiwZ k =>
    bif Nat.ble k s.off then some { s with r := setR (setR s.r 30 []) 31 [], c := none, off := s.off - k } else none
  | _ => none

def symExec : List Instr → SM → Option SM
  | [], s => some s
  | i :: is, s =>
    match symStep s i with
    | none => none
    | some s' => symExec is s'

/-! ## Soundness -/

theorem M.setZ_z (m : M) (v : BitVec 16) : (m.setZ v).z = v := by
  show ((v >>> 8).setWidth 8 : Byte) ++ (v.setWidth 8 : Byte) = v
  apply BitVec.eq_of_getLsbD_eq
  intro i hi
  rw [BitVec.getLsbD_append]
  by_cases h : i < 8
  · simp [h]
  · simp only [h, if_false, BitVec.getLsbD_setWidth, BitVec.getLsbD_ushiftRight]
    rw [show 8 + (i - 8) = i by omega, decide_eq_true (by omega : i - 8 < 8), Bool.true_and]

theorem pos_of {V : Nat} {base : BitVec 16} {s : SM} {m : M} (h : SM.Rel V base s m) {q : Nat} (hq : s.off + q < 40) :
    m.pos base q = some (s.off + q) := by
  unfold M.pos
  rw [h.z]
  have : base + BitVec.ofNat 16 s.off + BitVec.ofNat 16 q - base = BitVec.ofNat 16 (s.off + q) := by
    rw [BitVec.ofNat_add]
    generalize BitVec.ofNat 16 s.off = a
    generalize BitVec.ofNat 16 q = b
    apply BitVec.eq_of_toNat_eq
    simp only [BitVec.toNat_sub, BitVec.toNat_add]
    omega
  rw [this, BitVec.toNat_ofNat, Nat.mod_eq_of_lt (by omega)]
  simp [hq]

theorem SM.Rel.setReg {V : Nat} {base : BitVec 16} {s : SM} {m : M} (h : SM.Rel V base s m) {d : Nat}
    (hd : okReg d = true) {v : Sym} {b : Byte} (hv : Asm.Rel V v b) {c' : Option Poly} {cb : Bool}
    (hc : ∀ p, c' = some p → eval V p = cb) :
    SM.Rel V base { s with r := setR s.r d v, c := c' } { m.set d b with c := cb } where
  r i := by
    show Asm.Rel V ((setR s.r d v).getD i []) (if i = d then b else m.r i)
    rw [getD_setR]
    split
    · exact hv
    · exact h.r i
  c := hc
  t := h.t
  cell := h.cell
  z := by
    have : d ≤ 29 := Nat.le_of_ble_eq_true hd
    show (if (31 : Nat) = d then b else m.r 31) ++ (if (30 : Nat) = d then b else m.r 30)
      = base + BitVec.ofNat 16 s.off
    rw [if_neg (by omega), if_neg (by omega)]
    exact h.z

theorem SM.Rel.setReg' {V : Nat} {base : BitVec 16} {s : SM} {m : M} (h : SM.Rel V base s m) {d : Nat}
    (hd : okReg d = true) {v : Sym} {b : Byte} (hv : Asm.Rel V v b) :
    SM.Rel V base { s with r := setR s.r d v } (m.set d b) :=
  h.setReg hd hv h.c

theorem SM.Rel.setZ' {V : Nat} {base : BitVec 16} {s : SM} {m : M} (h : SM.Rel V base s m) {o : Nat} {v : BitVec 16}
    (hv : v = base + BitVec.ofNat 16 o) :
    SM.Rel V base { s with r := setR (setR s.r 30 []) 31 [], off := o } (m.setZ v) where
  r i := by
    show Asm.Rel V ((setR (setR s.r 30 []) 31 []).getD i []) (if i = 31 then _ else if i = 30 then _ else m.r i)
    rw [getD_setR, getD_setR]
    split
    · exact Asm.Rel.nil _ _
    · split
      · exact Asm.Rel.nil _ _
      · exact h.r i
  c := h.c
  t := h.t
  cell := h.cell
  z := by rw [M.setZ_z, hv]

theorem SM.Rel.setCell {V : Nat} {base : BitVec 16} {s : SM} {m : M} (h : SM.Rel V base s m) (d : Nat)
    {v : Sym} {b : Byte} (hv : Asm.Rel V v b) :
    SM.Rel V base { s with cell := setR s.cell d v } { m with cell := fun j => if j = d then b else m.cell j } where
  r := h.r
  c := h.c
  t := h.t
  cell i := by
    show Asm.Rel V ((setR s.cell d v).getD i []) (if i = d then b else m.cell i)
    rw [getD_setR]
    split
    · exact hv
    · exact h.cell i
  z := h.z

/-- Bit `j` of a described byte. -/
theorem Rel_get {V : Nat} {s : Sym} {a : Byte} (h : Asm.Rel V s a) {j : Nat} {p : Poly} (hp : s[j]? = some p) :
    eval V p = a.getLsbD j := by
  obtain ⟨hj, rfl⟩ := List.getElem?_eq_some_iff.mp hp
  exact h.2 j hj

theorem Rel_shl {V : Nat} {s : Sym} {a : Byte} (h : Asm.Rel V s a) {p : Poly} {b : Bool} (hp : eval V p = b) :
    Asm.Rel V (p :: s.take 7) (a <<< 1 ||| (if b then 1 else 0)) := by
  have hl : (p :: s.take 7).length ≤ 8 := by simp; omega
  refine ⟨hl, ?_⟩
  intro j hj
  have hj8 : j < 8 := by omega
  cases j with
  | zero => rw [List.getElem_cons_zero, hp]; cases b <;> simp
  | succ j =>
    have hs : j < s.length := by simp at hj; omega
    rw [List.getElem_cons_succ, List.getElem_take, h.2 j hs]
    have : (if b = true then (1 : Byte) else 0).getLsbD (j + 1) = false := by
      cases b
      · simp
      · have : j + 1 < 8 := hj8
        simp only [if_true]
        have h8 : j = 0 ∨ j = 1 ∨ j = 2 ∨ j = 3 ∨ j = 4 ∨ j = 5 ∨ j = 6 := by omega
        rcases h8 with rfl | rfl | rfl | rfl | rfl | rfl | rfl <;> rfl
    rw [BitVec.getLsbD_or, this, BitVec.getLsbD_shiftLeft]
    simp
    omega

theorem Rel_shr {V : Nat} {s : Sym} {a : Byte} (h : Asm.Rel V s a) (hl : s.length = 8) {c : Option Poly} {b : Bool}
    (hc : ∀ p, c = some p → eval V p = b) :
    Asm.Rel V (s.drop 1 ++ optL c) (a >>> 1 ||| (if b then 0x80 else 0)) := by
  have key : ∀ j, j < 7 → (if b = true then (0x80 : Byte) else 0).getLsbD j = false := by
    intro j hj
    have h8 : j = 0 ∨ j = 1 ∨ j = 2 ∨ j = 3 ∨ j = 4 ∨ j = 5 ∨ j = 6 := by omega
    cases b <;> rcases h8 with rfl | rfl | rfl | rfl | rfl | rfl | rfl <;> rfl
  have low : ∀ j (hj : j < 7), eval V (s[1 + j]'(by omega)) = (a >>> 1 ||| (if b then 0x80 else 0)).getLsbD j := by
    intro j hj
    rw [h.2 (1 + j) (by omega), BitVec.getLsbD_or, key j hj, BitVec.getLsbD_ushiftRight, Bool.or_false]
  cases c with
  | none =>
    rw [show optL none = [] from rfl]
    refine ⟨by simp; omega, ?_⟩
    intro j hj
    have hj7 : j < 7 := by simp at hj; omega
    simp only [List.append_nil]
    rw [List.getElem_drop]
    exact low j hj7
  | some p =>
    rw [show optL (some p) = [p] from rfl]
    refine ⟨by simp; omega, ?_⟩
    intro j hj
    by_cases h7 : j < 7
    · rw [List.getElem_append_left (by simp; omega), List.getElem_drop]
      exact low j h7
    · have hj8 : j = 7 := by simp at hj; omega
      subst hj8
      rw [List.getElem_append_right (by simp; omega)]
      simp only [List.length_drop, hl, Nat.sub_self, List.getElem_cons_zero]
      rw [hc p rfl, BitVec.getLsbD_or, BitVec.getLsbD_ushiftRight, BitVec.getLsbD_of_ge a (1 + 7) (by omega)]
      cases b <;> rfl

theorem adc_bits (a : Byte) (b : Bool) (h : a.getLsbD 0 = false) :
    a + 0 + (if b then 1 else 0) = a ||| (if b then 1 else 0) := by
  revert a b; decide +kernel

theorem or1_bit (a : Byte) (b : Bool) (h : a.getLsbD 0 = false) (j : Nat) (hj : j < 8) :
    (a ||| (if b then 1 else 0)).getLsbD j = if j = 0 then b else a.getLsbD j := by
  rw [BitVec.getLsbD_or]
  by_cases h0 : j = 0
  · subst h0; rw [h]; cases b <;> rfl
  · rw [if_neg h0]
    have h8 : j = 1 ∨ j = 2 ∨ j = 3 ∨ j = 4 ∨ j = 5 ∨ j = 6 ∨ j = 7 := by omega
    have : (if b = true then (1 : Byte) else 0).getLsbD j = false := by
      cases b <;> rcases h8 with rfl | rfl | rfl | rfl | rfl | rfl | rfl <;> rfl
    rw [this, Bool.or_false]

theorem Rel_bld {V : Nat} {s : Sym} {a : Byte} (h : Asm.Rel V s a) (hl : 7 ≤ s.length) {p : Poly} {b : Bool}
    (hp : eval V p = b) :
    Asm.Rel V (s.take 7 ++ [p]) ((a &&& ~~~((1 : Byte) <<< 7)) ||| (if b then (1 : Byte) <<< 7 else 0)) := by
  have hm : ∀ j, j < 7 → ((1 : Byte) <<< 7).getLsbD j = false := by
    intro j hj
    have h8 : j = 0 ∨ j = 1 ∨ j = 2 ∨ j = 3 ∨ j = 4 ∨ j = 5 ∨ j = 6 := by omega
    rcases h8 with rfl | rfl | rfl | rfl | rfl | rfl | rfl <;> rfl
  refine ⟨by simp; omega, ?_⟩
  intro j hj
  by_cases h7 : j < 7
  · rw [List.getElem_append_left (by simp; omega), List.getElem_take, h.2 j (by omega)]
    rw [BitVec.getLsbD_or, BitVec.getLsbD_and, BitVec.getLsbD_not, hm j h7, decide_eq_true (by omega : j < 8)]
    cases b
    · simp
    · simp only [if_true, hm j h7]; simp
  · have hj8 : j = 7 := by simp at hj; omega
    subst hj8
    rw [List.getElem_append_right (by simp; omega)]
    simp only [List.length_take, show min 7 s.length = 7 by omega, Nat.sub_self, List.getElem_cons_zero, hp]
    rw [BitVec.getLsbD_or, BitVec.getLsbD_and, BitVec.getLsbD_not]
    cases b
    · simp
    · simp

theorem symStep_sound {V : Nat} {base : BitVec 16} {s t : SM} {m : M} (i : Instr) (h : SM.Rel V base s m)
    (he : symStep s i = some t) : ∃ m', step base m i = some m' ∧ SM.Rel V base t m' ∧ m'.stk = m.stk := by
  cases i with
  | movw d a =>
    cases hd : okReg (d + 1) <;> simp only [symStep, hd, cond_false, cond_true] at he
    · exact absurd he (by simp)
    · injection he with he; subst he
      have hd' : okReg d = true := by
        have : d + 1 ≤ 29 := Nat.le_of_ble_eq_true hd
        exact Nat.ble_eq_true_of_le (by omega)
      exact ⟨_, rfl, (h.setReg' hd' (h.r a)).setReg' hd (h.r (a + 1)), rfl⟩
  | mov d a =>
    cases hd : okReg d <;> simp only [symStep, hd, cond_false, cond_true] at he
    · exact absurd he (by simp)
    · injection he with he; subst he
      exact ⟨_, rfl, h.setReg' hd (h.r a), rfl⟩
  | ldi d k =>
    cases hd : okReg d <;> simp only [symStep, hd, cond_false, cond_true] at he
    · exact absurd he (by simp)
    · injection he with he; subst he
      exact ⟨_, rfl, h.setReg' hd (Asm.Rel.sbits V k), rfl⟩
  | clr d => exact absurd he (by simp [symStep])
  | and d a =>
    cases hd : okReg d <;> simp only [symStep, hd, cond_false, cond_true] at he
    · exact absurd he (by simp)
    · injection he with he; subst he
      exact ⟨_, rfl, h.setReg' hd (Asm.Rel.bit .and (h.r d) (h.r a)), rfl⟩
  | or d a =>
    cases hd : okReg d <;> simp only [symStep, hd, cond_false, cond_true] at he
    · exact absurd he (by simp)
    · injection he with he; subst he
      exact ⟨_, rfl, h.setReg' hd (Asm.Rel.bit .or (h.r d) (h.r a)), rfl⟩
  | eor d a =>
    cases hd : okReg d <;> simp only [symStep, hd, cond_false, cond_true] at he
    · exact absurd he (by simp)
    · injection he with he; subst he
      exact ⟨_, rfl, h.setReg' hd (Asm.Rel.bit .xor (h.r d) (h.r a)), rfl⟩
  | com d =>
    cases hd : okReg d <;> simp only [symStep, hd, cond_false, cond_true] at he
    · exact absurd he (by simp)
    · injection he with he; subst he
      exact ⟨_, rfl, h.setReg hd (Asm.Rel.not (h.r d)) (by simp), rfl⟩
  | lsl d =>
    cases hd : okReg d <;> simp only [symStep, hd, cond_false, cond_true] at he
    · exact absurd he (by simp)
    · injection he with he; subst he
      have := Rel_shl (h.r d) (p := []) (b := false) rfl
      rw [if_neg (by simp), show (0 : Byte) = 0#8 from rfl, BitVec.or_zero] at this
      exact ⟨_, rfl, h.setReg hd this fun p hp => Rel_get (j := 7) (h.r d) hp, rfl⟩
  | rol d =>
    simp only [symStep] at he
    cases hc : s.c with
    | none => rw [hc] at he; exact absurd he (by simp)
    | some p =>
      rw [hc] at he
      cases hd : okReg d <;> simp only [hd, cond_false, cond_true] at he
      · exact absurd he (by simp)
      · injection he with he; subst he
        exact ⟨_, rfl, h.setReg hd (Rel_shl (h.r d) (h.c p hc)) fun p hp => Rel_get (j := 7) (h.r d) hp, rfl⟩
  | ror d =>
    simp only [symStep] at he
    cases hb : (okReg d && Nat.beq (s.r.getD d []).length 8) <;> rw [hb] at he
    · exact absurd he (by simp)
    · rw [Bool.and_eq_true] at hb
      simp only [cond_true] at he
      injection he with he; subst he
      exact ⟨_, rfl, h.setReg hb.1 (Rel_shr (h.r d) (Nat.eq_of_beq_eq_true hb.2) fun p hp => h.c p hp)
        fun p hp => Rel_get (j := 0) (h.r d) hp, rfl⟩
  | adc d a =>
    simp only [symStep] at he
    split at he
    · rename_i p l hc hl
      split at he
      · rename_i hk
        cases hd : okReg d <;> simp only [hd, cond_false, cond_true] at he
        · exact absurd he (by simp)
        · injection he with he; subst he
          have ha : m.r a = 0 := by
            apply BitVec.eq_of_toNat_eq
            rw [Asm.known_sound (h.r a) hk]; rfl
          have hr := h.r d
          rw [hl] at hr
          have h0 : (m.r d).getLsbD 0 = false := by
            have := hr.2 0 (by simp)
            rw [← this]; rfl
          refine ⟨_, rfl, h.setReg hd ?_ (by simp), rfl⟩
          rw [ha, adc_bits _ _ h0]
          refine ⟨by simpa using hr.1, ?_⟩
          intro j hj
          have hj8 : j < 8 := by have := hr.1; simp only [List.length_cons] at this hj; omega
          rw [or1_bit _ _ h0 j hj8]
          cases j with
          | zero => simpa using h.c p hc
          | succ j =>
            have := hr.2 (j + 1) (by simpa using hj)
            simpa using this
      · exact absurd he (by simp)
    · exact absurd he (by simp)
  | add d a =>
    cases hd : okReg d <;> simp only [symStep, hd, cond_false, cond_true] at he
    · exact absurd he (by simp)
    · injection he with he; subst he
      exact ⟨_, rfl, h.setReg hd (Asm.Rel.nil _ _) (by simp), rfl⟩
  | sub d a => exact absurd he (by simp [symStep])
  | subi d k => exact absurd he (by simp [symStep])
  | swap d => exact absurd he (by simp [symStep])
  | bst d b =>
    simp only [symStep] at he
    injection he with he; subst he
    exact ⟨_, rfl, ⟨h.r, h.c, fun p hp => Rel_get (h.r d) hp, h.cell, h.z⟩, rfl⟩
  | bld d b =>
    simp only [symStep] at he
    cases ht : s.t with
    | none => rw [ht] at he; exact absurd he (by simp)
    | some p =>
      rw [ht] at he
      simp only at he
      cases hb : (okReg d && (Nat.beq b 7 && Nat.ble 7 (s.r.getD d []).length)) <;> rw [hb] at he
      · exact absurd he (by simp)
      · simp only [Bool.and_eq_true] at hb
        obtain ⟨h1, h2, h3⟩ := hb
        simp only [cond_true] at he
        injection he with he; subst he
        have : b = 7 := Nat.eq_of_beq_eq_true h2
        subst this
        have := h.setReg' h1 (Rel_bld (h.r d) (Nat.le_of_ble_eq_true h3) (h.t p ht))
        rw [ht] at this
        exact ⟨_, rfl, this, rfl⟩
  | ldd d q =>
    simp only [symStep] at he
    cases hb : (okReg d && Nat.ble (s.off + q) 39) <;> rw [hb] at he
    · exact absurd he (by simp)
    · rw [Bool.and_eq_true] at hb
      simp only [cond_true] at he
      injection he with he; subst he
      have hq : s.off + q < 40 := by have := Nat.le_of_ble_eq_true hb.2; omega
      refine ⟨_, ?_, h.setReg' hb.1 (h.cell (s.off + q)), rfl⟩
      simp only [step, pos_of h hq, Option.map_some]
  | std q a =>
    simp only [symStep] at he
    cases hb : Nat.ble (s.off + q) 39 <;> rw [hb] at he
    · exact absurd he (by simp)
    · simp only [cond_true] at he
      injection he with he; subst he
      have hq : s.off + q < 40 := by have := Nat.le_of_ble_eq_true hb; omega
      refine ⟨_, ?_, h.setCell (s.off + q) (h.r a), rfl⟩
      simp only [step, pos_of h hq, Option.map_some]
  | stzi a =>
    simp only [symStep] at he
    cases hb : Nat.ble s.off 39 <;> rw [hb] at he
    · exact absurd he (by simp)
    · simp only [cond_true] at he
      injection he with he; subst he
      have hq : s.off + 0 < 40 := by have := Nat.le_of_ble_eq_true hb; omega
      refine ⟨_, ?_, (h.setCell s.off (h.r a)).setZ' (o := s.off + 1) (v := m.z + 1) ?_, rfl⟩
      · simp only [step, pos_of h hq, Option.map_some]
        rfl
      · rw [h.z, BitVec.ofNat_add]
        exact BitVec.add_assoc _ _ _
  | sbiwZ k =>
    simp only [symStep] at he
    cases hb : Nat.ble k s.off <;> rw [hb] at he
    · exact absurd he (by simp)
    · simp only [cond_true] at he
      injection he with he; subst he
      have hk : k ≤ s.off := Nat.le_of_ble_eq_true hb
      have h' := h.setZ' (o := s.off - k) (v := m.z - BitVec.ofNat 16 k) (by
        rw [h.z, ← Nat.sub_add_cancel hk, BitVec.ofNat_add]
        generalize s.off - k = o
        rw [Nat.add_sub_cancel]
        generalize BitVec.ofNat 16 o = x
        generalize BitVec.ofNat 16 k = y
        apply BitVec.eq_of_toNat_eq
        simp only [BitVec.toNat_sub, BitVec.toNat_add]
        omega)
      exact ⟨_, rfl, ⟨h'.r, by simp, h'.t, h'.cell, h'.z⟩, rfl⟩
  | push a => exact absurd he (by simp [symStep])
  | pop d => exact absurd he (by simp [symStep])

theorem symExec_sound {V : Nat} {base : BitVec 16} {t : SM} (is : List Instr) {s : SM} {m : M} (h : SM.Rel V base s m)
    (he : symExec is s = some t) : ∃ m', exec base is m = some m' ∧ SM.Rel V base t m' ∧ m'.stk = m.stk := by
  induction is generalizing s m with
  | nil =>
    simp only [symExec, Option.some.injEq] at he
    subst he
    exact ⟨m, rfl, h, rfl⟩
  | cons i is ih =>
    unfold symExec at he
    cases hs : symStep s i with
    | none => rw [hs] at he; exact absurd he (by simp)
    | some s' =>
      rw [hs] at he
      obtain ⟨m1, h1, h2, h3⟩ := symStep_sound i h hs
      obtain ⟨m2, h4, h5, h6⟩ := ih h2 he
      exact ⟨m2, by simp only [exec, h1, Option.bind_some, h4], h5, h6.trans h3⟩

end Ascon.Avr
