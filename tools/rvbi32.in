set_option maxHeartbeats 2000000

variable {rc : Nat} {base : U32}

/-- Call of `ascon_permute`. -/
theorem call_perm (hrc : rc + 25 ≤ 2 ^ 32) (n : Nat) (_ : 0 < n) (hn : n ≤ 12) {pc : Nat} {rel : Int}
    (hf : @CODE@[pc]? = some (.jal (some t0) rel))
    (hd : dest pc rel = 0) (hpc : pc + 1 < @LEN@) (s : State) (m : Regs) (mem : Mem) (hl : @I@.St s m)
    (h1 : m.r t1 = BitVec.ofNat 32 (rc + (24 - 2 * n))) (hrom : mem.Holds @I@.rc @I@.rom) :
    Goes @CODE@ base pc m mem fun t pc' m' mem' => t = permT rc n ∧ pc' = pc + 1 ∧ @I@.St (perm n s) m' ∧
      (∀ r, 17 ≤ r → m'.r r = m.r r) ∧ mem' = mem := by
  refine .jal hf hd (.j rfl (pc1 := 74) rfl ?_)
  refine (permLoop hrc n hn s _ mem (pc + 1) ?_ (by exact hl.2) (by rw [set_ne (by decide)]; exact h1) set_eq hpc hrom).mono ?_
  · intro a b ha hb
    rw [set_ne (by show 2 * a + b ≠ 11; omega)]
    exact hl.1 a b ha hb
  · rintro t pc' m' mem' ⟨rfl, rfl, h3, h4, h5, rfl⟩
    exact ⟨rfl, rfl, ⟨h3, h4⟩, fun r hr => by rw [h5 r hr, set_ne (by show r ≠ 11; omega)], rfl⟩

theorem cnt8 : BitVec.ofNat 32 rc + (8 : U32) = BitVec.ofNat 32 (rc + (24 - 2 * 8)) := ofNat_add rc 8
theorem cnt12 : BitVec.ofNat 32 rc + (0 : U32) = BitVec.ofNat 32 (rc + (24 - 2 * 12)) := ofNat_add rc 0
theorem enc_xor (a b : Word) : @I@.enc (a ^^^ b) = @I@.enc a ^^^ @I@.enc b := Lin.deinterleave32 .little a b
theorem iv_chunks : chunk 32 0 (@I@.enc Variant.v12.iv) = 0x200000 ∧ chunk 32 1 (@I@.enc Variant.v12.iv) = 0x88220000 := by
  show chunk 32 0 (deinterleave32 .little Variant.v12.iv) = 0x200000 ∧ chunk 32 1 (deinterleave32 .little Variant.v12.iv) = 0x88220000
  decide +kernel
theorem sep_chunks : chunk 32 0 (@I@.enc Variant.v12.sep) = 1 ∧ chunk 32 1 (@I@.enc Variant.v12.sep) = 0 := by
  show chunk 32 0 (deinterleave32 .little Variant.v12.sep) = 1 ∧ chunk 32 1 (deinterleave32 .little Variant.v12.sep) = 0
  decide +kernel

/-- The subroutine `ascon_to_bi32_rev8`. -/
theorem call_to (w0 w1 : Word) {pc : Nat} {rel : Int} (hf : @CODE@[pc]? = some (.jal (some t0) rel))
    (hd : dest pc rel = @TO@) (hpc : pc + 1 < @LEN@) (m : Regs) (mem : Mem) (h : Raw w0 w1 m) :
    Goes @CODE@ base pc m mem fun t pc' m' mem' => t = [] ∧ pc' = pc + 1 ∧ InT @I@.enc (rv w0) (rv w1) m' ∧
      (∀ r, (r < 10 ∨ 17 ≤ r) → m'.r r = m.r r) ∧ m'.stk = m.stk ∧ mem' = mem := by
  obtain ⟨h0, h1, h2, h3⟩ := h
  refine .jal hf hd (.op1 rfl (.op1 rfl (.op1 rfl (.op1 rfl (.op2 rfl (.op2 rfl ?_))))))
  simp (disch := decide) only [Op1.fn, Opnd.get, set_eq, set_ne, h0, h1, (to_bi32 w0).1, (to_bi32 w0).2]
  refine .op1 rfl (.op1 rfl (.op1 rfl (.op1 rfl (.op2 rfl (.op2 rfl ?_)))))
  simp (disch := decide) only [Op1.fn, Opnd.get, set_eq, set_ne, h2, h3, (to_bi32 w1).1, (to_bi32 w1).2]
  refine .jalr rfl (r := pc + 1) ?_ (by rw [len]; exact hpc) (by rw [len]; decide) (.done ⟨rfl, rfl, ?_, ?_, rfl, rfl⟩)
  · simp (disch := decide) only [set_eq, set_ne]
  · unfold InT; simp (disch := decide) only [set_eq, set_ne]; exact ⟨rfl, rfl, rfl, rfl⟩
  · intro r hr
    have n1 : r ≠ t1 := by show r ≠ 10; omega
    have n0 : r ≠ t0 := by show r ≠ 11; omega
    have n3 : r ≠ t3 := by show r ≠ 13; omega
    have n4 : r ≠ t4 := by show r ≠ 14; omega
    have n5 : r ≠ t5 := by show r ≠ 15; omega
    have n6 : r ≠ t6 := by show r ≠ 16; omega
    simp only [set_ne n0, set_ne n1, set_ne n3, set_ne n4, set_ne n5, set_ne n6]

/-- The subroutine `ascon_from_bi32_rev8`. -/
theorem call_from (x y : Word) {pc : Nat} {rel : Int} (hf : @CODE@[pc]? = some (.jal (some t0) rel))
    (hd : dest pc rel = @FROM@) (hpc : pc + 1 < @LEN@) (m : Regs) (mem : Mem) (h : InT @I@.enc x y m) :
    Goes @CODE@ base pc m mem fun t pc' m' mem' => t = [] ∧ pc' = pc + 1 ∧ Raw (rv x) (rv y) m' ∧
      (∀ r, (r < 10 ∨ 17 ≤ r) → m'.r r = m.r r) ∧ m'.stk = m.stk ∧ mem' = mem := by
  obtain ⟨h0, h1, h2, h3⟩ := h
  refine .jal hf hd (.op2 rfl (.op2 rfl (.op1 rfl (.op1 rfl (.op1 rfl (.op1 rfl ?_))))))
  simp (disch := decide) only [Op1.fn, Opnd.get, set_eq, set_ne, h0, h1]
  refine .op2 rfl (.op2 rfl (.op1 rfl (.op1 rfl (.op1 rfl (.op1 rfl ?_)))))
  simp (disch := decide) only [Op1.fn, Opnd.get, set_eq, set_ne, h2, h3]
  refine .jalr rfl (r := pc + 1) ?_ (by rw [len]; exact hpc) (by rw [len]; decide) (.done ⟨rfl, rfl, ?_, ?_, rfl, rfl⟩)
  · simp (disch := decide) only [set_eq, set_ne]
  · unfold Raw; simp (disch := decide) only [set_eq, set_ne]
    exact ⟨(from_bi32 x).2, (from_bi32 x).1, (from_bi32 y).2, (from_bi32 y).1⟩
  · intro r hr
    have n1 : r ≠ t1 := by show r ≠ 10; omega
    have n0 : r ≠ t0 := by show r ≠ 11; omega
    have n3 : r ≠ t3 := by show r ≠ 13; omega
    have n4 : r ≠ t4 := by show r ≠ 14; omega
    have n5 : r ≠ t5 := by show r ≠ 15; omega
    have n6 : r ≠ t6 := by show r ≠ 16; omega
    simp only [set_ne n0, set_ne n1, set_ne n3, set_ne n4, set_ne n5, set_ne n6]
@@@@  refine .op2 rfl (.op2 rfl (.op1 rfl (.op1 rfl (.op1 rfl (.op1 rfl ?_)))))
  simp (disch := decide) only [Op1.fn, Opnd.get, set_eq, set_ne, f0, f1]
  refine .swAt (p := op) (chunk 32 0 (rv s.x0)) rfl (by simp (disch := decide) only [set_ne]; exact h0) (by
    simp (disch := decide) only [Opnd.get, set_ne, set_eq]; exact (from_bi32 s.x0).2) (by omega) (by omega) (hw.mono (by omega) (by omega)) ?_
  refine .swAt (p := op) (chunk 32 1 (rv s.x0)) rfl (by simp (disch := decide) only [set_ne]; exact h0) (by
    simp (disch := decide) only [Opnd.get, set_ne, set_eq]; exact (from_bi32 s.x0).1) (by omega) (by omega) (hw.writes.mono (by omega) (by omega)) ?_
  refine .op2 rfl (.op2 rfl (.op1 rfl (.op1 rfl (.op1 rfl (.op1 rfl ?_)))))
  simp (disch := decide) only [Op1.fn, Opnd.get, set_eq, set_ne, f2, f3]
  refine .swAt (p := op) (chunk 32 0 (rv s.x1)) rfl (by simp (disch := decide) only [set_ne]; exact h0) (by
    simp (disch := decide) only [Opnd.get, set_ne, set_eq]; exact (from_bi32 s.x1).2) (by omega) (by omega) (hw.writes.writes.mono (by omega) (by omega)) ?_
  refine .swAt (p := op) (chunk 32 1 (rv s.x1)) rfl (by simp (disch := decide) only [set_ne]; exact h0) (by
    simp (disch := decide) only [Opnd.get, set_ne, set_eq]; exact (from_bi32 s.x1).1) (by omega) (by omega) (hw.writes.writes.writes.mono (by omega) (by omega)) ?_
  refine .done ⟨?_, rfl, ?_, rfl, ?_⟩
  · simp only [List.append_assoc, Nat.add_zero, List.append_nil]
  · intro r hr
    have n1 : r ≠ t1 := by show r ≠ 10; omega
    have n0 : r ≠ t0 := by show r ≠ 11; omega
    have n2 : r ≠ t2 := by show r ≠ 12; omega
    simp only [set_ne n0, set_ne n1, set_ne n2]
  · rw [v12_rate, writes_block]
