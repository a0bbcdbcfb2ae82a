import Verif.Proof.XtPerm
/-!
# Memory equal outside a set of addresses
-/

namespace Ascon.Xt

open Ascon.C Ascon.Spec

/-- `mem'` agrees with `mem` outside `D`, and nothing became inaccessible. -/
structure Fr (D : Nat → Prop) (mem mem' : Mem) : Prop where
  same : ∀ a, ¬ D a → mem' a = mem a
  live : ∀ a, (mem a).rw = true → (mem' a).rw = true

variable {D : Nat → Prop} {mem mem1 mem2 : Mem}

theorem Fr.refl (D : Nat → Prop) (mem : Mem) : Fr D mem mem := ⟨fun _ _ => rfl, fun _ h => h⟩

theorem Fr.trans (h : Fr D mem mem1) (h' : Fr D mem1 mem2) : Fr D mem mem2 :=
  ⟨fun a ha => (h'.same a ha).trans (h.same a ha), fun a ha => h'.live a (h.live a ha)⟩

theorem live_writes (mem : Mem) (p : Nat) (bs : List Byte) (a : Nat) (h : (mem a).rw = true) : (mem.writes p bs a).rw = true := by
  have hw : mem.Writable a 1 := by
    intro i hi; obtain rfl : i = 0 := by omega
    exact h
  simpa using (hw.writes (q := p) (bs := bs)) 0 (by omega)

theorem Fr.write (p : Nat) (bs : List Byte) (h : ∀ a, p ≤ a → a < p + bs.length → D a) : Fr D mem (mem.writes p bs) := by
  refine ⟨fun a ha => writes_out ?_, live_writes mem p bs⟩
  by_cases h1 : p ≤ a ∧ a < p + bs.length
  · exact absurd (h a h1.1 h1.2) ha
  · omega

theorem Fr.writes (h : Fr D mem mem1) (p : Nat) (bs : List Byte) (hd : ∀ a, p ≤ a → a < p + bs.length → D a) :
    Fr D mem (mem1.writes p bs) := h.trans (.write p bs hd)

theorem Fr.congr (h : Fr D mem mem1) (p : Nat) (bs : List Byte) : Fr D (mem.writes p bs) (mem1.writes p bs) := by
  refine ⟨fun a ha => ?_, fun a ha => ?_⟩
  · by_cases h1 : p ≤ a ∧ a < p + bs.length
    · rw [writes_in h1.1 h1.2, writes_in h1.1 h1.2]
    · rw [writes_out (by omega), writes_out (by omega), h.same a ha]
  · by_cases h1 : p ≤ a ∧ a < p + bs.length
    · rw [writes_in h1.1 h1.2] at ha ⊢; exact ha
    · rw [writes_out (by omega)] at ha ⊢; exact h.live a ha

theorem Fr.holds (h : Fr D mem mem1) {p : Nat} {bs : List Byte} (hd : ∀ a, p ≤ a → a < p + bs.length → ¬ D a)
    (hh : mem.Holds p bs) : mem1.Holds p bs := by
  intro i hi
  rw [h.same _ (hd _ (by omega) (by omega))]
  exact hh i hi

theorem Fr.writable (h : Fr D mem mem1) {p n : Nat} (hw : mem.Writable p n) : mem1.Writable p n :=
  fun i hi => h.live _ (hw i hi)

theorem Fr.mono {D' : Nat → Prop} (h : Fr D mem mem1) (hd : ∀ a, D a → D' a) : Fr D' mem mem1 :=
  ⟨fun a ha => h.same a fun h' => ha (hd a h'), h.live⟩

end Ascon.Xt
