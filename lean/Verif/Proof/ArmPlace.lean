import Verif.Model.ArmPlace
import Verif.Proof.Place
/-!
# The registers chosen by the compiler do not matter
-/

namespace Ascon.Arm

open Ascon.C Ascon.Asm Ascon.Gen

/-- What `check` has to accept: all word operands are inputs, stay below 10, and the pushes are balanced. -/
def okPlace (o : Operands) (z : Bool) (code : List (Instr 32)) : Bool :=
  words.all (fun i => o.inout.contains i) &&
  match check o ⟨o.inout, false, 0⟩ code with
  | some q => q.depth == 0 && (q.z || !z)
  | none => false

theorem okPlace_iff {o : Operands} {z : Bool} {code : List (Instr 32)} (h : okPlace o z code = true) :
    (∀ i ∈ words, i ∈ o.inout) ∧
      ∃ q, check o ⟨o.inout, false, 0⟩ code = some q ∧ q.depth = 0 ∧ (z = true → q.z = true) := by
  simp only [okPlace, Bool.and_eq_true, List.all_eq_true, List.contains_iff_mem] at h
  refine ⟨h.1, ?_⟩
  cases hc : check o ⟨o.inout, false, 0⟩ code with
  | none => rw [hc] at h; simp at h
  | some q =>
    rw [hc] at h
    have h2 : (q.depth == 0 && (q.z || !z)) = true := h.2
    rw [Bool.and_eq_true] at h2
    refine ⟨q, rfl, ?_, ?_⟩
    · simpa using h2.1
    · intro hz
      simpa [hz] using h2.2

theorem sim_load {o : Operands} {ρ : Alloc} {val : Nat → BitVec 32} {m m' : M 32}
    (hm : ∀ i ∈ o.inout ++ o.imm, m.r i = val i) (hs : m.stk = []) (hl : o.Loaded ρ val m') :
    Sim o ρ val m' ⟨o.inout, false, 0⟩ m m' := by
  refine ⟨fun i hi => List.mem_append_left _ hi, ?_, ?_, fun h => Bool.noConfusion h, ?_, ?_, fun _ _ => rfl⟩
  · intro i hi
    rw [hl i hi, hm i (List.mem_append_left _ hi)]
  · intro i hi
    exact hm i (List.mem_append_right _ hi)
  · rw [hs]; rfl
  · rw [hs]; rfl

theorem storePlaced_sim {o : Operands} {ρ : Alloc} {val : Nat → BitVec 32} {m0 m m' : M 32} {q : Known}
    (hw : ∀ i ∈ words, i ∈ q.regs) (h : Sim o ρ val m0 q m m') (e : Endian) :
    storePlaced e ρ m' = storeRegs e m := by
  have hr := fun i hi => h.eq i (hw i hi)
  unfold storePlaced storeRegs
  simp only []
  rw [hr 0 (by decide), hr 1 (by decide), hr 2 (by decide), hr 3 (by decide), hr 4 (by decide), hr 5 (by decide),
    hr 6 (by decide), hr 7 (by decide), hr 8 (by decide), hr 9 (by decide)]

theorem Sim.preserved {o : Operands} {ρ : Alloc} {val : Nat → BitVec 32} {m0 m m' : M 32} {q : Known}
    (h : Sim o ρ val m0 q m m') (hd : q.depth = 0) : o.Preserved ρ m0 m' := by
  refine ⟨h.other, ?_⟩
  have : m.stk = [] := List.eq_nil_of_length_eq_zero (h.depth.trans hd)
  rw [h.stk, this]; rfl

/-- A straight-line statement on machine registers. -/
theorem exec_placed {o : Operands} {ρ : Alloc} (hv : o.Valid ρ) {code : List (Instr 32)} (hc : okPlace o false code = true)
    (e : Endian) (rom : Nat → Option Byte) (init : Nat → BitVec 32) (s : State) (m' : M 32)
    (hl : o.Loaded ρ (loadRegs e s init).r m') :
    Both (fun a b => storePlaced e ρ b = storeRegs e a ∧ o.Preserved ρ m' b) (exec rom code (loadRegs e s init))
      (exec rom (code.map (Instr.place o ρ (loadRegs e s init).r)) m') := by
  obtain ⟨hw, q, h1, h2, -⟩ := okPlace_iff hc
  have h := exec_place hv rom code (sim_load (m := loadRegs e s init) (fun _ _ => rfl) rfl hl) h1
  revert h
  cases exec rom code (loadRegs e s init) <;>
    cases exec rom (code.map (Instr.place o ρ (loadRegs e s init).r)) m' <;> intro h
  · trivial
  · exact h
  · exact h
  · exact ⟨storePlaced_sim (fun i hi => mem_check code h1 (hw i hi)) h e, Sim.preserved h h2⟩

theorem blockP_eq {o : Operands} (p : Placement o) {code : List (Instr 32)} (hc : okPlace o false code = true) (e : Endian)
    (init : Nat → BitVec 32) (s : State) : blockP o p e code init s = block e code init s := by
  have h := exec_placed p.valid hc e (fun _ => none) init s _ (Operands.loaded_load p.valid (loadRegs e s init).r p.m0)
  unfold blockP block
  simp only []
  revert h
  cases exec (fun _ => none) code (loadRegs e s init) <;>
    cases exec (fun _ => none) (code.map (Instr.place o p.ρ (loadRegs e s init).r))
      (o.load p.ρ (loadRegs e s init).r p.m0) <;> intro h
  · rfl
  · exact h.elim
  · exact h.elim
  · simp only [h.1]

/-- Two programs with the same recorded jumps and related results. -/
inductive Same (P : M 32 → M 32 → Prop) : Prog (M 32) → Prog (M 32) → Prop
  | ub : Same P .ub .ub
  | ret {a b} : P a b → Same P (.ret a) (.ret b)
  | branch {c x y} : Same P x y → Same P (.branch c x) (.branch c y)

theorem Same.bind {P : M 32 → M 32 → Prop} {x y : Prog (M 32)} (h : Same P x y) {β : Type} {f g : M 32 → Prog β}
    (hfg : ∀ a b, P a b → f a = g b) : x >>= f = y >>= g := by
  induction h with
  | ub => rfl
  | ret h => exact hfg _ _ h
  | @branch c x y _ ih => exact congrArg (Prog.branch c) ih

theorem Same.run {P : M 32 → M 32 → Prop} {x y : Prog (M 32)} (h : Same P x y) {a : M 32} {mem mem' : Mem}
    (hr : run x mem = some (a, mem')) : ∃ b, run y mem = some (b, mem') ∧ P a b := by
  induction h with
  | ub => cases hr
  | @ret a' b h =>
    obtain ⟨rfl, rfl⟩ : a' = a ∧ mem = mem' := by simpa [Ascon.C.run] using hr
    exact ⟨b, rfl, h⟩
  | branch _ ih => exact ih hr

/-- A loop on machine registers. -/
theorem doWhile_placed {o : Operands} {ρ : Alloc} (hv : o.Valid ρ) {body : List (Instr 32)} (hc : okPlace o true body = true)
    (e : Endian) (rom : Nat → Option Byte) (val : Nat → BitVec 32) (m0 : M 32) (fuel : Nat) :
    ∀ {m m' : M 32}, Sim o ρ val m0 ⟨o.inout, false, 0⟩ m m' →
      Same (fun a b => storePlaced e ρ b = storeRegs e a ∧ o.Preserved ρ m0 b ∧ b.z = true) (doWhile rom body fuel m)
        (doWhile rom (body.map (Instr.place o ρ val)) fuel m') := by
  obtain ⟨hw, q, h1, h2, h3⟩ := okPlace_iff hc
  induction fuel with
  | zero => intro m m' _; exact .ub
  | succ n ih =>
    intro m m' h
    have hx := exec_place hv rom body h h1
    unfold doWhile
    revert hx
    cases exec rom body m <;> cases exec rom (body.map (Instr.place o ρ val)) m' <;> intro hx
    · exact .ub
    · exact hx.elim
    · exact hx.elim
    · rename_i a b
      have hz : b.z = a.z := hx.z (h3 rfl)
      simp only [hz]
      refine .branch ?_
      cases haz : a.z with
      | true =>
        refine .ret ⟨storePlaced_sim (fun i hi => mem_check body h1 (hw i hi)) hx e, Sim.preserved hx h2, ?_⟩
        rw [hz, haz]
      | false =>
        refine ih ⟨fun i hi => List.mem_append_left _ hi, fun i hi => hx.eq i (mem_check body h1 hi), hx.imm, ?_, hx.stk,
          hx.depth.trans h2, hx.other⟩
        intro h; cases h

theorem roundLoopP_eq {o : Operands} (p : Placement o) {body : List (Instr 32)} (hc : okPlace o true body = true) (e : Endian)
    (rom : Nat → Option Byte) (init : Nat → BitVec 32) (s : State) :
    roundLoopP o p e rom body init s = roundLoop e rom body init s := by
  unfold roundLoopP roundLoop
  simp only []
  refine (Same.bind (doWhile_placed p.valid hc e rom (loadRegs e s init).r _ 16
    (sim_load (m := loadRegs e s init) (fun _ _ => rfl) rfl
      (Operands.loaded_load p.valid (loadRegs e s init).r p.m0))) ?_).symm
  intro a b h
  rw [h.1]

theorem unrolledP_eq (pick : Pick) {o5 o : Operands} {inl : Bool} {r5 r : List (Instr 32)} (h5 : okPlace o5 false r5 = true)
    (h : okPlace o false r = true) (imm : Word → Nat → BitVec 32) (K : Consts) (nr : Nat) (e : Endian) (s : State) :
    unrolledP pick o5 o inl r5 r imm K nr e s = unrolled inl r5 r imm K nr e s := by
  have e5 : blockRP pick o5 e r5 imm K = blockR e r5 imm K := by
    funext s i; exact blockP_eq _ h5 e _ s
  have e1 : blockRP pick o e r imm K = blockR e r imm K := by
    funext s i; exact blockP_eq _ h e _ s
  unfold unrolledP unrolled
  rw [e5, e1]
  split
  · rfl
  · rfl
  · rename_i h1 h2
    split
    · exact (h1 rfl).elim
    · exact (h2 rfl).elim
    · rfl

/-- The permutations do not depend on the choice of the registers. -/
theorem Inline.P_eq (i : Inline) (pick : Pick) (e : Endian) :
    i.P pick 12 e = i.core.backend.P12 e ∧ i.P pick 8 e = i.core.backend.P8 e := by
  cases i with
  | armv6 => exact ⟨funext fun s => unrolledP_eq pick (by decide +kernel) (by decide +kernel) _ _ 12 e s, funext fun s => unrolledP_eq pick (by decide +kernel) (by decide +kernel) _ _ 8 e s⟩
  | armv7m => exact ⟨funext fun s => unrolledP_eq pick (by decide +kernel) (by decide +kernel) _ _ 12 e s, funext fun s => unrolledP_eq pick (by decide +kernel) (by decide +kernel) _ _ 8 e s⟩
  | bi32_armv6 => exact ⟨funext fun s => unrolledP_eq pick (by decide +kernel) (by decide +kernel) _ _ 12 e s, funext fun s => unrolledP_eq pick (by decide +kernel) (by decide +kernel) _ _ 8 e s⟩
  | bi32_armv7m => exact ⟨funext fun s => unrolledP_eq pick (by decide +kernel) (by decide +kernel) _ _ 12 e s, funext fun s => unrolledP_eq pick (by decide +kernel) (by decide +kernel) _ _ 8 e s⟩
  | armv6_lowsize => exact ⟨funext fun s => roundLoopP_eq _ (by decide +kernel) e _ _ s, funext fun s => roundLoopP_eq _ (by decide +kernel) e _ _ s⟩
  | armv6m => exact ⟨funext fun s => roundLoopP_eq _ (by decide +kernel) e _ _ s, funext fun s => roundLoopP_eq _ (by decide +kernel) e _ _ s⟩
  | armv7m_small => exact ⟨funext fun s => roundLoopP_eq _ (by decide +kernel) e _ _ s, funext fun s => roundLoopP_eq _ (by decide +kernel) e _ _ s⟩
  | bi32_armv6m => exact ⟨funext fun s => roundLoopP_eq _ (by decide +kernel) e _ _ s, funext fun s => roundLoopP_eq _ (by decide +kernel) e _ _ s⟩
  | bi32_armv7m_small => exact ⟨funext fun s => roundLoopP_eq _ (by decide +kernel) e _ _ s, funext fun s => roundLoopP_eq _ (by decide +kernel) e _ _ s⟩

theorem Inline.backend_eq (i : Inline) (pick : Pick) : i.backend pick = i.core.backend := by
  unfold Inline.backend
  have h12 : (fun e => i.P pick 12 e) = i.core.backend.P12 := funext fun e => (i.P_eq pick e).1
  have h8 : (fun e => i.P pick 8 e) = i.core.backend.P8 := funext fun e => (i.P_eq pick e).2
  rw [h12, h8]

end Ascon.Arm
