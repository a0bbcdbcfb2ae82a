import Verif.Proof.RvOld
/-!
# `ascon_permute` of asm_bi32_rv32b/ascon.S

The round constants are read from a table in memory (`bi32_rom` at the address `rc`): the even bits are added before, the odd
bits within the straight-line block that is checked symbolically.
-/

namespace Ascon.Rv

open Ascon.C Ascon.Spec Ascon.Asm Ascon.Gen
open Ascon.Masked (U32)
open Ascon.Arm (idσ loaded_of_at)
open Impl (set_ne set_eq ofNat_add)

attribute [local irreducible] perm

/-- Events of `n` rounds with the table at `rc`. -/
def permT (rc : Nat) : Nat → List Event
  | 0 => [.read (rc + 24), .branch false]
  | n + 1 => [.read (rc + (22 - 2 * n)), .branch true, .read (rc + (23 - 2 * n))] ++ permT rc n

/-- A constant with variables in its odd bits and zero even bits. -/
def csOdd : Sym := (List.range 64).map fun j => if j % 2 = 1 then pvar (320 + j) else []

/-- The even, the odd bits. -/
def evenOf (c : Word) : Word := c &&& 0x5555555555555555
def oddOf (c : Word) : Word := c &&& 0xaaaaaaaaaaaaaaaa

theorem even_odd (c : Word) : evenOf c ^^^ oddOf c = c :=
  Lin.ext ((Lin.id.and _).xor (Lin.id.and _)) Lin.id (by decide +kernel) c

theorem odd_bit (c : Word) (j : Nat) (hj : j < 64) : (oddOf c).getLsbD j = (c.getLsbD j && decide (j % 2 = 1)) := by
  unfold oddOf
  rw [BitVec.getLsbD_and]
  congr 1
  have : ∀ j : Fin 64, (0xaaaaaaaaaaaaaaaa#64).getLsbD j.val = decide (j.val % 2 = 1) := by decide
  exact this ⟨j, hj⟩

theorem rel_csOdd (s : State) (c : Word) : Rel (assign s (oddOf c)) csOdd (oddOf c) := by
  constructor
  · decide
  · intro j hj
    have hj' : j < 64 := hj
    simp only [csOdd, List.getElem_map, List.getElem_range]
    by_cases h : j % 2 = 1
    · rw [if_pos h, eval_pvar, testBit_assign_c]
    · rw [if_neg h, odd_bit c j hj']
      simp [h, eval]

theorem check_bi32 : checkBlock 2 bi32Pos csOdd [[], [], outSym 32 bi32Pos csOdd 1] (fun _ => none) bi32_ascon_permuteBody idσ
    (fun _ => true) = true := by
  decide +kernel

theorem tame_bi32 : tame bi32_ascon_permuteBody = true := by decide +kernel

theorem round_split (c : Word) (s : State) : round c s = round (oddOf c) { s with x2 := s.x2 ^^^ evenOf c } := by
  unfold round addConst
  congr 2
  simp only [BitVec.xor_assoc, even_odd]

/-- One round: the block. -/
theorem biBody (c : Word) (s : State) (m : Regs) (hl : Loaded 2 (deinterleave32 .little) { s with x2 := s.x2 ^^^ evenOf c } m)
    (hs : m.stk = []) (h2 : m.r t2 = chunk 32 1 (deinterleave32 .little (oddOf c))) :
    ∃ m', exec (fun _ => none) bi32_ascon_permuteBody m = some m' ∧ Loaded 2 (deinterleave32 .little) (round c s) m' ∧ m'.stk = [] := by
  obtain ⟨m', e1, e2, e3, -⟩ := checkBlock_sound bi32_perm (by decide : 32 * 2 = 64) check_bi32
      (rel_csOdd { s with x2 := s.x2 ^^^ evenOf c } c) (by decide) hl hs (fun j => by
        match j with
        | 0 => exact Rel.nil _ _
        | 1 => exact Rel.nil _ _
        | 2 =>
          show Rel _ _ (m.r 12)
          rw [show m.r 12 = _ from h2]
          exact rel_outSym bi32_perm (by decide : 32 * 2 = 64) (rel_csOdd _ c) (by decide) (by decide)
        | j + 3 => exact Rel.nil _ _)
  rw [round_split]
  exact ⟨m', e1, loaded_of_at e2, e3⟩

/-- The constants in the table. -/
theorem bi32_table (n : Nat) (hn : n < 12) :
    ∃ e o : Byte, bi32_rom[22 - 2 * n]? = some e ∧ bi32_rom[23 - 2 * n]? = some o ∧ e ≠ 0 ∧
      chunk 32 0 (deinterleave32 .little (evenOf (constLeft (n + 1)))) = e.setWidth 32 ∧
      chunk 32 1 (deinterleave32 .little (evenOf (constLeft (n + 1)))) = 0 ∧
      chunk 32 1 (deinterleave32 .little (oddOf (constLeft (n + 1)))) = o.setWidth 32 := by
  have : ∀ n : Fin 12,
    bi32_rom[22 - 2 * n.val]? = some (bi32_rom.getD (22 - 2 * n.val) 0) ∧ bi32_rom[23 - 2 * n.val]? = some (bi32_rom.getD (23 - 2 * n.val) 0) ∧
      bi32_rom.getD (22 - 2 * n.val) 0 ≠ 0 ∧
      chunk 32 0 (deinterleave32 .little (evenOf (constLeft (n.val + 1)))) = (bi32_rom.getD (22 - 2 * n.val) 0).setWidth 32 ∧
      chunk 32 1 (deinterleave32 .little (evenOf (constLeft (n.val + 1)))) = 0 ∧
      chunk 32 1 (deinterleave32 .little (oddOf (constLeft (n.val + 1)))) = (bi32_rom.getD (23 - 2 * n.val) 0).setWidth 32 := by
    decide +kernel
  exact ⟨_, _, this ⟨n, hn⟩⟩

theorem holds_at {mem : Mem} {p : Nat} {l : List Byte} (h : mem.Holds p l) {i : Nat} {b : Byte} (hi : l[i]? = some b) :
    (mem (p + i)).byte = some b := by
  obtain ⟨hl, hb⟩ := List.getElem?_eq_some_iff.mp hi
  have := h i hl
  rw [this, hb]

namespace RvBi32

variable {rc : Nat} {base : U32}

set_option maxRecDepth 10000 in
theorem len : (bi32_code (BitVec.ofNat 32 rc)).length = 352 := by
  simp only [bi32_code, List.length_append, List.length_map]
  rfl

theorem blk (i : Nat) (hi : i < bi32_ascon_permuteBody.length) :
    (bi32_code (BitVec.ofNat 32 rc))[3 + i]? = some (.alu bi32_ascon_permuteBody[i]) := by
  have : bi32_code (BitVec.ofNat 32 rc) = bi32_ascon_permute (BitVec.ofNat 32 rc) ++ (bi32_ascon_permuteBody.map .alu ++
      (bi32_ascon_permuteEnd (BitVec.ofNat 32 rc) ++ bi32_ascon_to_bi32_rev8 (BitVec.ofNat 32 rc) ++
      bi32_ascon_from_bi32_rev8 (BitVec.ofNat 32 rc) ++ bi32_ascon_memcpy (BitVec.ofNat 32 rc) ++
      bi32_ascon_duplex (BitVec.ofNat 32 rc) ++ bi32_ascon_core (BitVec.ofNat 32 rc))) := by
    simp only [bi32_code, List.append_assoc]
  rw [this, List.getElem?_append_right (by simp [bi32_ascon_permute]), List.getElem?_append_left (by simp [bi32_ascon_permute]; omega)]
  simp [hi, bi32_ascon_permute]

/-- The loop, entered at its condition. -/
theorem permLoop (hrc : rc + 25 ≤ 2 ^ 32) (n : Nat) (hn : n ≤ 12) (s : State) (m : Regs) (mem : Mem) (r : Nat)
    (hl : Loaded 2 (deinterleave32 .little) s m) (hst : m.stk = []) (h1 : m.r t1 = BitVec.ofNat 32 (rc + (24 - 2 * n)))
    (h0 : m.r t0 = at_ base r) (hr : r < 352) (hrom : mem.Holds rc bi32_rom) :
    Goes (bi32_code (BitVec.ofNat 32 rc)) base 74 m mem fun t pc' m' mem' => t = permT rc n ∧ pc' = r ∧
      Loaded 2 (deinterleave32 .little) (perm n s) m' ∧ m'.stk = [] ∧ (∀ r, 17 ≤ r → m'.r r = m.r r) ∧ mem' = mem := by
  induction n generalizing s m with
  | zero =>
    refine .lbuAt rfl h1 (by omega) (holds_at hrom (i := 24) (b := 0) rfl) (.br false rfl ?_ rfl (.jalr rfl (r := r) ?_ (by rw [len]; exact hr) (by rw [len]; decide)
      (.done ⟨rfl, rfl, ?_, hst, ?_, rfl⟩)))
    · simp only [Opnd.get, set_eq]; decide
    · rw [set_ne (by decide)]; exact h0
    · intro a b ha hb
      rw [perm_zero, set_ne (by show 2 * a + b ≠ 12; omega)]
      exact hl a b ha hb
    · intro r hr
      rw [set_ne (by show r ≠ 12; omega)]
  | succ n ih =>
    obtain ⟨e, o, he, ho, hne, c0, c1, c2⟩ := bi32_table n (by omega)
    have e22 : 24 - 2 * (n + 1) = 22 - 2 * n := by omega
    rw [e22] at h1
    refine .lbuAt rfl h1 (by omega) (b := e) (by exact holds_at hrom he) (.br (pc1 := 1) true rfl ?_ rfl ?_)
    · simp only [Opnd.get, set_eq]
      show Cmp.eval _ _ 0 = true
      simp only [Cmp.eval, bne_iff_ne]
      intro hh
      apply hne
      apply BitVec.eq_of_toNat_eq
      have := congrArg BitVec.toNat hh
      have he := e.isLt
      simp only [BitVec.toNat_setWidth] at this
      rw [Nat.mod_eq_of_lt (by omega)] at this
      exact this
    refine .alu rfl rfl (.lbuAt (p := rc + (22 - 2 * n)) rfl ?_ (by omega) (b := o) ?_ ?_)
    · rw [set_ne (by decide), set_ne (by decide)]; exact h1
    · rw [show rc + (22 - 2 * n) + 1 = rc + (23 - 2 * n) by omega]; exact holds_at hrom ho
    obtain ⟨f0, f1, f2, f3, f4, f5, f6, f7, f8, f9⟩ := loaded_iff.mp hl
    have dx := Lin.deinterleave32 .little
    obtain ⟨m', e1, e2, e3⟩ := biBody (constLeft (n + 1)) s (((m.set t2 (e.setWidth 32)).set s5 (m.r s5 ^^^ e.setWidth 32)).set t2 (o.setWidth 32)) (loaded_iff.mpr ⟨by
        simp (disch := decide) only [set_ne]; exact f0, by
        simp (disch := decide) only [set_ne]; exact f1, by
        simp (disch := decide) only [set_ne]; exact f2, by
        simp (disch := decide) only [set_ne]; exact f3, by
        simp (disch := decide) only [set_ne, set_eq]
        show _ = chunk 32 0 (deinterleave32 .little (s.x2 ^^^ evenOf (constLeft (n + 1))))
        rw [dx, Lin.chunk, c0, f4], by
        simp (disch := decide) only [set_ne]
        show _ = chunk 32 1 (deinterleave32 .little (s.x2 ^^^ evenOf (constLeft (n + 1))))
        rw [dx, Lin.chunk, c1, f5]; exact (BitVec.xor_zero).symm, by
        simp (disch := decide) only [set_ne]; exact f6, by
        simp (disch := decide) only [set_ne]; exact f7, by
        simp (disch := decide) only [set_ne]; exact f8, by
        simp (disch := decide) only [set_ne]; exact f9⟩) (by exact hst) (by rw [set_eq]; exact c2.symm)
    have k := fun r hr => tame_keep (r := r) tame_bi32 e1 hr
    refine .alus (is := bi32_ascon_permuteBody) (pc := 3) blk (by
      rw [← e1]; simp (disch := decide) only [Opnd.get, set_eq, set_ne]; rfl) (.alu rfl rfl ?_)
    refine (ih (by omega) (round (constLeft (n + 1)) s) _ ?_ (by exact e3) ?_ ?_).mono ?_
    · intro a b ha hb
      rw [set_ne (by show 2 * a + b ≠ 10; omega)]
      exact e2 a b ha hb
    · rw [set_eq]
      show m'.r t1 + 2 = _
      rw [k t1 (by decide), set_ne (by decide), set_ne (by decide), set_ne (by decide), h1]
      show BitVec.ofNat 32 (rc + (22 - 2 * n)) + BitVec.ofNat 32 2 = _
      rw [ofNat_add]; congr 1; omega
    · rw [set_ne (by decide), k t0 (by decide), set_ne (by decide), set_ne (by decide), set_ne (by decide)]; exact h0
    · rintro t pc' m2 mem2 ⟨rfl, rfl, h3, h4, h5, rfl⟩
      refine ⟨?_, rfl, ?_, h4, ?_, rfl⟩
      · simp only [permT, List.cons_append, List.nil_append, List.cons.injEq, true_and, and_true, Event.read.injEq]
        exact ⟨rfl, by omega⟩
      · rw [perm_succ n (by omega)]; exact h3
      · intro r hr
        rw [h5 r hr, set_ne (by show r ≠ 10; omega), k r (by omega), set_ne (by show r ≠ 12; omega), set_ne (by show r ≠ 4; omega),
          set_ne (by show r ≠ 12; omega)]

end RvBi32

end Ascon.Rv
