import Verif.Proof.AsmRound
import Verif.Proof.Backends
import Verif.Model.ArmPerm
/-!
# The ARM permutations compute the Ascon permutation

Each block of inline assembly is checked by kernel evaluation of a symbolic execution (`checkBlock`), valid for all
states and constants.
-/

namespace Ascon.Arm

open Ascon.C Ascon.Spec Ascon.Asm Ascon.Gen

/-! ## Registers and states -/

theorem chunk0 (x : Word) : chunk 32 0 x = unionW0 .little x := by simp [chunk, unionW0]
theorem chunk1 (x : Word) : chunk 32 1 x = unionW1 .little x := by simp [chunk, unionW1]

theorem unionX_union (e : Endian) (x : Word) : unionX e (unionW0 e x) (unionW1 e x) = x := by
  cases e <;>
  · apply BitVec.eq_of_getLsbD_eq; intro i hi
    simp only [unionX, unionW0, unionW1, BitVec.getLsbD_or, BitVec.getLsbD_shiftLeft, BitVec.getLsbD_setWidth,
      BitVec.getLsbD_ushiftRight, hi, decide_true, Bool.true_and]
    by_cases h : i < 32
    · simp [h]
    · simp [h, show i - 32 < 32 by omega, show 32 + (i - 32) = i by omega, show i - 32 < 64 by omega]

theorem loaded_loadRegs (enc : Word → Word) (s : State) (init : Nat → BitVec 32) :
    Loaded 2 enc s (loadRegs .little (encS enc s) init) := by
  intro k h hk hh
  have hk' : k = 0 ∨ k = 1 ∨ k = 2 ∨ k = 3 ∨ k = 4 := by omega
  have hh' : h = 0 ∨ h = 1 := by omega
  rcases hk' with rfl | rfl | rfl | rfl | rfl <;> rcases hh' with rfl | rfl <;>
    first | rw [chunk0]; rfl | rw [chunk1]; rfl

/-- Where `ROUND5` leaves the words. -/
def rot5 (s : State) : State := ⟨s.x3, s.x4, s.x0, s.x1, s.x2⟩

theorem storeRegs_id {enc : Word → Word} {s : State} {m : M 32} (h : LoadedAt 2 [0, 1, 2, 3, 4] enc s m) :
    storeRegs .little m = encS enc s := by
  have e : ∀ k, k < 5 → unionX .little (m.r (2 * [0, 1, 2, 3, 4].getD k 0 + 0)) (m.r (2 * [0, 1, 2, 3, 4].getD k 0 + 1)) =
      enc (word s k) := fun k hk => by
    rw [h k 0 hk (by omega), h k 1 hk (by omega), chunk0, chunk1, unionX_union]
  have e0 := e 0 (by omega); have e1 := e 1 (by omega); have e2 := e 2 (by omega)
  have e3 := e 3 (by omega); have e4 := e 4 (by omega)
  show State.mk _ _ _ _ _ = _
  exact congr (congr (congr (congr (congrArg _ e0) e1) e2) e3) e4

theorem storeRegs_rot5 {enc : Word → Word} {s : State} {m : M 32} (h : LoadedAt 2 [2, 3, 4, 0, 1] enc s m) :
    storeRegs .little m = rot5 (encS enc s) := by
  have e : ∀ k, k < 5 → unionX .little (m.r (2 * [2, 3, 4, 0, 1].getD k 0 + 0)) (m.r (2 * [2, 3, 4, 0, 1].getD k 0 + 1)) =
      enc (word s k) := fun k hk => by
    rw [h k 0 hk (by omega), h k 1 hk (by omega), chunk0, chunk1, unionX_union]
  have e0 := e 0 (by omega); have e1 := e 1 (by omega); have e2 := e 2 (by omega)
  have e3 := e 3 (by omega); have e4 := e 4 (by omega)
  show State.mk _ _ _ _ _ = _
  exact congr (congr (congr (congr (congrArg _ e3) e4) e0) e1) e2

/-- The state whose halves are swapped on a big-endian target. -/
def swapE : Endian → State → State
  | .little, s => s
  | .big, s => ⟨unionX .little (unionW0 .big s.x0) (unionW1 .big s.x0), unionX .little (unionW0 .big s.x1) (unionW1 .big s.x1),
      unionX .little (unionW0 .big s.x2) (unionW1 .big s.x2), unionX .little (unionW0 .big s.x3) (unionW1 .big s.x3),
      unionX .little (unionW0 .big s.x4) (unionW1 .big s.x4)⟩

theorem unionW0_unionX (a b : BitVec 32) : unionW0 .little (unionX .little a b) = a := by
  apply BitVec.eq_of_getLsbD_eq; intro i hi
  simp [unionX, unionW0, hi]

theorem unionW1_unionX (a b : BitVec 32) : unionW1 .little (unionX .little a b) = b := by
  apply BitVec.eq_of_getLsbD_eq; intro i hi
  simp [unionX, unionW1, hi, show 32 + i < 64 by omega, show ¬ 32 + i < 32 by omega, show i < 64 by omega]

theorem loadRegs_swapE (e : Endian) (s : State) (init : Nat → BitVec 32) :
    loadRegs e s init = loadRegs .little (swapE e s) init := by
  cases e with
  | little => rfl
  | big => simp only [loadRegs, swapE, unionW0_unionX, unionW1_unionX]

/-! ## Straight-line blocks -/

theorem idPerm : BitPerm (fun w : Word => w) (fun i => i) := ⟨fun _ h => h, fun _ _ _ => rfl⟩

/-- Constant: 32 variables, the other bits are 0. -/
def csOpt : Sym := (List.range 32).map (fun j => pvar (320 + j)) ++ List.replicate 32 []
def cReg : Sym := (List.range 32).map (fun j => pvar (320 + j))

theorem lt_of_bits (c : Word) (hc : c.toNat < 2 ^ 32) (i : Nat) (hi : 32 ≤ i) : c.getLsbD i = false := by
  exact Nat.testBit_lt_two_pow (Nat.lt_of_lt_of_le hc (Nat.pow_le_pow_right (by omega) hi))

theorem rel_csOpt (s : State) (c : Word) (hc : c.toNat < 2 ^ 32) : Rel (assign s c) csOpt c := by
  constructor
  · decide
  · intro j hj
    have hj' : j < 64 := hj
    by_cases h : j < 32
    · simp only [csOpt]
      rw [List.getElem_append_left (by simpa using h)]
      simp only [List.getElem_map, List.getElem_range]
      rw [eval_pvar, testBit_assign_c]
    · simp only [csOpt]
      rw [List.getElem_append_right (by simpa using h)]
      simp only [List.getElem_replicate, eval]
      rw [lt_of_bits c hc j (by omega)]

theorem rel_cReg (s : State) (c : Word) : Rel (assign s c) cReg (c.setWidth 32 : BitVec 32) := by
  constructor
  · decide
  · intro j hj
    have hj' : j < 32 := hj
    simp only [cReg, List.getElem_map, List.getElem_range]
    rw [eval_pvar, testBit_assign_c]
    simp [hj']

/-- 64 variables for the constant of the interleaved implementations. -/
def csBi : Sym := (List.range 64).map (fun j => pvar (320 + j))

theorem rel_csBi (s : State) (c : Word) : Rel (assign s c) csBi c := by
  constructor
  · decide
  · intro j hj
    have hj' : j < 64 := hj
    simp only [csBi, List.getElem_map, List.getElem_range]
    rw [eval_pvar, testBit_assign_c]

theorem rel_outBi (s : State) (c : Word) (h : Nat) (hh : h < 2) :
    Rel (assign s c) (outSym 32 bi32Pos csBi h) (chunk 32 h (deinterleave32 .little c)) :=
  rel_outSym bi32_perm (by decide : 32 * 2 = 64) (rel_csBi s c) (by decide) hh

theorem blockOk_of {enc : Word → Word} {π : Nat → Nat} (hp : BitPerm enc π) {code : List (Instr 32)}
    {imm : Word → Nat → BitVec 32} {rot : State → State} {σ : List Nat} {cs : Sym} {extra : List Sym} {ok : Word → Prop}
    (hrot : ∀ s m, LoadedAt 2 σ enc s m → storeRegs .little m = rot (encS enc s))
    (hc : checkBlock 2 π cs extra (fun _ => none) code σ (fun _ => true) = true) (hcl : cs.length = 64)
    (hcs : ∀ s c, ok c → Rel (assign s c) cs c)
    (hx : ∀ s c, ok c → ∀ i, Rel (assign s c) (extra.getD i []) (imm (enc c) (10 + i))) (s : State) (c : Word) (hok : ok c) :
    block .little code (imm (enc c)) (encS enc s) = .ret (rot (encS enc (round c s))) := by
  obtain ⟨m', h1, h2, -, -⟩ := checkBlock_sound hp (by decide : 32 * 2 = 64) hc (hcs s c hok) hcl
    (loaded_loadRegs enc s (imm (enc c))) rfl (fun i => by
      have : (loadRegs .little (encS enc s) (imm (enc c))).r (5 * 2 + i) = imm (enc c) (10 + i) := by
        show (match 10 + i with | 0 => _ | 1 => _ | 2 => _ | 3 => _ | 4 => _ | 5 => _ | 6 => _ | 7 => _ | 8 => _ | 9 => _ | i => _) = _
        split <;> first | omega | rfl
      rw [this]; exact hx s c hok i)
  unfold block
  rw [h1]
  simp only
  rw [hrot _ _ h2]

/-! ## Unrolled permutations -/

section
variable {inl : Bool} {R5 R : State → Nat → Prog State} {f5 f : Nat → State → State}

theorem P12ROUNDS5_total (h5 : ∀ i s, i < 12 → R5 s i = .ret (f5 i s)) (h : ∀ i s, i < 12 → R s i = .ret (f i s)) (s : State) :
    ∃ t, P12ROUNDS5 inl R5 R s = .ret t := by
  cases inl <;> exact ⟨_, by simp [P12ROUNDS5, h5, h, bind, Prog.bind, pure]; rfl⟩

theorem P8ROUNDS5_total (h5 : ∀ i s, i < 12 → R5 s i = .ret (f5 i s)) (h : ∀ i s, i < 12 → R s i = .ret (f i s)) (s : State) :
    ∃ t, P8ROUNDS5 inl R5 R s = .ret t := by
  cases inl <;> exact ⟨_, by simp [P8ROUNDS5, h5, h, bind, Prog.bind, pure]; rfl⟩

theorem P6ROUNDS5_total (h5 : ∀ i s, i < 12 → R5 s i = .ret (f5 i s)) (h : ∀ i s, i < 12 → R s i = .ret (f i s)) (s : State) :
    ∃ t, P6ROUNDS5 inl R5 R s = .ret t := by
  cases inl <;> exact ⟨_, by simp [P6ROUNDS5, h5, h, bind, Prog.bind, pure]; rfl⟩

theorem P12ROUNDS5_eq (h5 : ∀ i s, i < 12 → R5 s i = .ret (rot5 (f i s))) (h : ∀ i s, i < 12 → R s i = .ret (f i s))
    (s : State) : P12ROUNDS5 inl R5 R s =
      .ret (f 11 (f 10 (f 9 (f 8 (f 7 (f 6 (f 5 (f 4 (f 3 (f 2 (f 1 (f 0 s)))))))))))) := by
  have bind5 : ∀ i s (k : State → Prog State), i < 12 → (R5 s i >>= k) = k (rot5 (f i s)) := fun i s k hi => by
    rw [h5 i s hi]; rfl
  have bind1 : ∀ i s (k : State → Prog State), i < 12 → (R s i >>= k) = k (f i s) := fun i s k hi => by rw [h i s hi]; rfl
  obtain ⟨a0, a1, a2, a3, a4⟩ := s
  unfold P12ROUNDS5
  simp only
  rw [bind5 0 _ _ (by omega)]
  rcases e0 : f 0 ⟨a0, a1, a2, a3, a4⟩ with ⟨b0, c0, d0, g0, h0⟩
  simp only [rot5]
  rw [bind5 1 _ _ (by omega)]
  rcases e1 : f 1 ⟨b0, c0, d0, g0, h0⟩ with ⟨b1, c1, d1, g1, h1⟩
  simp only [rot5]
  rw [bind5 2 _ _ (by omega)]
  rcases e2 : f 2 ⟨b1, c1, d1, g1, h1⟩ with ⟨b2, c2, d2, g2, h2⟩
  simp only [rot5]
  rw [bind5 3 _ _ (by omega)]
  rcases e3 : f 3 ⟨b2, c2, d2, g2, h2⟩ with ⟨b3, c3, d3, g3, h3⟩
  simp only [rot5]
  rw [bind5 4 _ _ (by omega)]
  rcases e4 : f 4 ⟨b3, c3, d3, g3, h3⟩ with ⟨b4, c4, d4, g4, h4⟩
  simp only [rot5]
  rw [bind5 5 _ _ (by omega)]
  rcases e5 : f 5 ⟨b4, c4, d4, g4, h4⟩ with ⟨b5, c5, d5, g5, h5⟩
  simp only [rot5]
  rw [bind5 6 _ _ (by omega)]
  rcases e6 : f 6 ⟨b5, c5, d5, g5, h5⟩ with ⟨b6, c6, d6, g6, h6⟩
  simp only [rot5]
  rw [bind5 7 _ _ (by omega)]
  rcases e7 : f 7 ⟨b6, c6, d6, g6, h6⟩ with ⟨b7, c7, d7, g7, h7⟩
  simp only [rot5]
  rw [bind5 8 _ _ (by omega)]
  rcases e8 : f 8 ⟨b7, c7, d7, g7, h7⟩ with ⟨b8, c8, d8, g8, h8⟩
  simp only [rot5]
  rw [bind5 9 _ _ (by omega)]
  rcases e9 : f 9 ⟨b8, c8, d8, g8, h8⟩ with ⟨b9, c9, d9, g9, h9⟩
  simp only [rot5]
  cases inl
  · simp only [Bool.false_eq_true, if_false]
    rw [bind5 10 _ _ (by omega)]
    rcases e10 : f 10 ⟨b9, c9, d9, g9, h9⟩ with ⟨b10, c10, d10, g10, h10⟩
    simp only [rot5]
    rw [bind5 11 _ _ (by omega)]
    rcases e11 : f 11 ⟨b10, c10, d10, g10, h10⟩ with ⟨b11, c11, d11, g11, h11⟩
    simp only [rot5]
    rfl
  · simp only [if_true]
    rw [bind1 10 _ _ (by omega)]
    rcases e10 : f 10 ⟨b9, c9, d9, g9, h9⟩ with ⟨b10, c10, d10, g10, h10⟩
    rw [h 11 _ (by omega)]

theorem P8ROUNDS5_eq (h5 : ∀ i s, i < 12 → R5 s i = .ret (rot5 (f i s))) (h : ∀ i s, i < 12 → R s i = .ret (f i s))
    (s : State) : P8ROUNDS5 inl R5 R s =
      .ret (f 11 (f 10 (f 9 (f 8 (f 7 (f 6 (f 5 (f 4 s)))))))) := by
  have bind5 : ∀ i s (k : State → Prog State), i < 12 → (R5 s i >>= k) = k (rot5 (f i s)) := fun i s k hi => by
    rw [h5 i s hi]; rfl
  have bind1 : ∀ i s (k : State → Prog State), i < 12 → (R s i >>= k) = k (f i s) := fun i s k hi => by rw [h i s hi]; rfl
  obtain ⟨a0, a1, a2, a3, a4⟩ := s
  unfold P8ROUNDS5
  simp only
  rw [bind5 4 _ _ (by omega)]
  rcases e4 : f 4 ⟨a0, a1, a2, a3, a4⟩ with ⟨b4, c4, d4, g4, h4⟩
  simp only [rot5]
  rw [bind5 5 _ _ (by omega)]
  rcases e5 : f 5 ⟨b4, c4, d4, g4, h4⟩ with ⟨b5, c5, d5, g5, h5⟩
  simp only [rot5]
  rw [bind5 6 _ _ (by omega)]
  rcases e6 : f 6 ⟨b5, c5, d5, g5, h5⟩ with ⟨b6, c6, d6, g6, h6⟩
  simp only [rot5]
  rw [bind5 7 _ _ (by omega)]
  rcases e7 : f 7 ⟨b6, c6, d6, g6, h6⟩ with ⟨b7, c7, d7, g7, h7⟩
  simp only [rot5]
  rw [bind5 8 _ _ (by omega)]
  rcases e8 : f 8 ⟨b7, c7, d7, g7, h7⟩ with ⟨b8, c8, d8, g8, h8⟩
  simp only [rot5]
  cases inl
  · simp only [Bool.false_eq_true, if_false]
    rw [bind5 9 _ _ (by omega)]
    rcases e9 : f 9 ⟨b8, c8, d8, g8, h8⟩ with ⟨b9, c9, d9, g9, h9⟩
    simp only [rot5]
    rw [bind5 10 _ _ (by omega)]
    rcases e10 : f 10 ⟨b9, c9, d9, g9, h9⟩ with ⟨b10, c10, d10, g10, h10⟩
    simp only [rot5]
    rw [bind5 11 _ _ (by omega)]
    rcases e11 : f 11 ⟨b10, c10, d10, g10, h10⟩ with ⟨b11, c11, d11, g11, h11⟩
    simp only [rot5]
    rfl
  · simp only [if_true]
    rw [bind1 9 _ _ (by omega)]
    rcases e9 : f 9 ⟨b8, c8, d8, g8, h8⟩ with ⟨b9, c9, d9, g9, h9⟩
    rw [bind1 10 _ _ (by omega)]
    rcases e10 : f 10 ⟨b9, c9, d9, g9, h9⟩ with ⟨b10, c10, d10, g10, h10⟩
    rw [h 11 _ (by omega)]

theorem P6ROUNDS5_eq (h5 : ∀ i s, i < 12 → R5 s i = .ret (rot5 (f i s))) (h : ∀ i s, i < 12 → R s i = .ret (f i s))
    (s : State) : P6ROUNDS5 inl R5 R s =
      .ret (f 11 (f 10 (f 9 (f 8 (f 7 (f 6 s)))))) := by
  have bind5 : ∀ i s (k : State → Prog State), i < 12 → (R5 s i >>= k) = k (rot5 (f i s)) := fun i s k hi => by
    rw [h5 i s hi]; rfl
  have bind1 : ∀ i s (k : State → Prog State), i < 12 → (R s i >>= k) = k (f i s) := fun i s k hi => by rw [h i s hi]; rfl
  obtain ⟨a0, a1, a2, a3, a4⟩ := s
  unfold P6ROUNDS5
  simp only
  rw [bind5 6 _ _ (by omega)]
  rcases e6 : f 6 ⟨a0, a1, a2, a3, a4⟩ with ⟨b6, c6, d6, g6, h6⟩
  simp only [rot5]
  rw [bind5 7 _ _ (by omega)]
  rcases e7 : f 7 ⟨b6, c6, d6, g6, h6⟩ with ⟨b7, c7, d7, g7, h7⟩
  simp only [rot5]
  rw [bind5 8 _ _ (by omega)]
  rcases e8 : f 8 ⟨b7, c7, d7, g7, h7⟩ with ⟨b8, c8, d8, g8, h8⟩
  simp only [rot5]
  rw [bind5 9 _ _ (by omega)]
  rcases e9 : f 9 ⟨b8, c8, d8, g8, h8⟩ with ⟨b9, c9, d9, g9, h9⟩
  simp only [rot5]
  rw [bind5 10 _ _ (by omega)]
  rcases e10 : f 10 ⟨b9, c9, d9, g9, h9⟩ with ⟨b10, c10, d10, g10, h10⟩
  simp only [rot5]
  cases inl
  · simp only [Bool.false_eq_true, if_false]
    rw [bind5 11 _ _ (by omega)]
    rcases e11 : f 11 ⟨b10, c10, d10, g10, h10⟩ with ⟨b11, c11, d11, g11, h11⟩
    simp only [rot5]
    rfl
  · simp only [if_true]
    rw [h 11 _ (by omega)]

end

/-- Round constant `RCi`. -/
def rc (i : Nat) : Word := roundConsts.getD (4 + i) 0

/-- The round on encoded states. -/
def encRound (enc dec : Word → Word) (i : Nat) (s : State) : State := encS enc (round (rc i) (encS dec s))

theorem encS_encS {enc dec : Word → Word} (hd : ∀ x, dec (enc x) = x) (s : State) : encS dec (encS enc s) = s := by
  simp only [encS, hd]

theorem unrolled_ok {inl : Bool} {enc dec : Word → Word} (hd : ∀ x, dec (enc x) = x) (he : ∀ x, enc (dec x) = x)
    {r5 r : List (Instr 32)} {imm : Word → Nat → BitVec 32} {K : Consts} (hK : ∀ i, i < 12 → K.RCs.getD i 0 = enc (rc i))
    (h5 : ∀ s i, i < 12 → block .little r5 (imm (enc (rc i))) (encS enc s) = .ret (rot5 (encS enc (round (rc i) s))))
    (h : ∀ s i, i < 12 → block .little r (imm (enc (rc i))) (encS enc s) = .ret (encS enc (round (rc i) s)))
    (nr : Nat) (hn : nr = 12 ∨ nr = 8 ∨ nr = 6) : PermOk enc nr (unrolled inl r5 r imm K nr .little) := by
  have g5 : ∀ i s, i < 12 → blockR .little r5 imm K s i = .ret (rot5 (encRound enc dec i s)) := fun i s hi => by
    unfold blockR
    rw [hK i hi, ← encS_encS (enc := dec) (dec := enc) he s, h5 _ i hi]
    simp only [encRound, encS_encS he]
  have g : ∀ i s, i < 12 → blockR .little r imm K s i = .ret (encRound enc dec i s) := fun i s hi => by
    unfold blockR
    rw [hK i hi, ← encS_encS (enc := dec) (dec := enc) he s, h _ i hi]
    simp only [encRound, encS_encS he]
  intro s mem
  rcases hn with rfl | rfl | rfl
  · show run (P12ROUNDS5 inl (blockR .little r5 imm K) (blockR .little r imm K) (encS enc s)) mem = _
    rw [P12ROUNDS5_eq g5 g]
    simp only [encRound, encS_encS hd]
    rfl
  · show run (P8ROUNDS5 inl (blockR .little r5 imm K) (blockR .little r imm K) (encS enc s)) mem = _
    rw [P8ROUNDS5_eq g5 g]
    simp only [encRound, encS_encS hd]
    rfl
  · show run (P6ROUNDS5 inl (blockR .little r5 imm K) (blockR .little r imm K) (encS enc s)) mem = _
    rw [P6ROUNDS5_eq g5 g]
    simp only [encRound, encS_encS hd]
    rfl

theorem unrolled_ct {inl : Bool} {enc dec : Word → Word} (he : ∀ x, enc (dec x) = x)
    {r5 r : List (Instr 32)} {imm : Word → Nat → BitVec 32} {K : Consts} (hK : ∀ i, i < 12 → K.RCs.getD i 0 = enc (rc i))
    (h5 : ∀ s i, i < 12 → block .little r5 (imm (enc (rc i))) (encS enc s) = .ret (rot5 (encS enc (round (rc i) s))))
    (h : ∀ s i, i < 12 → block .little r (imm (enc (rc i))) (encS enc s) = .ret (encS enc (round (rc i) s)))
    (e : Endian) (nr : Nat) (hn : nr = 12 ∨ nr = 8 ∨ nr = 6) : PermCT (unrolled inl r5 r imm K nr e) := by
  have tot : ∀ {code : List (Instr 32)} {rot : State → State},
      (∀ s i, i < 12 → block .little code (imm (enc (rc i))) (encS enc s) = .ret (rot (encS enc (round (rc i) s)))) →
      ∃ g : Nat → State → State, ∀ i s, i < 12 → blockR e code imm K s i = .ret (g i s) := by
    intro code rot hh
    have : ∀ i, ∀ s, ∃ t, i < 12 → blockR e code imm K s i = .ret t := fun i s => by
      by_cases hi : i < 12
      · have hs : ∃ u, encS enc u = swapE e s := ⟨_, encS_encS (enc := dec) (dec := enc) he _⟩
        obtain ⟨u, hu⟩ := hs
        have := hh u i hi
        unfold block at this
        unfold blockR block
        rw [loadRegs_swapE, ← hu, hK i hi]
        cases hm : exec (fun _ => none) code (loadRegs .little (encS enc u) (imm (enc (rc i)))) with
        | none => rw [hm] at this; exact absurd this (by simp)
        | some m => exact ⟨_, fun _ => rfl⟩
      · exact ⟨s, fun h => absurd h hi⟩
    exact ⟨fun i s => Classical.choose (this i s), fun i s => Classical.choose_spec (this i s)⟩
  obtain ⟨g5, hg5⟩ := tot h5
  obtain ⟨g, hg⟩ := tot (rot := fun s => s) h
  intro s t
  rcases hn with rfl | rfl | rfl
  · obtain ⟨a, ha⟩ := P12ROUNDS5_total (inl := inl) hg5 hg s
    obtain ⟨b, hb⟩ := P12ROUNDS5_total (inl := inl) hg5 hg t
    show Sim Any (P12ROUNDS5 inl _ _ s) (P12ROUNDS5 inl _ _ t)
    rw [ha, hb]; exact Sim.ret trivial
  · obtain ⟨a, ha⟩ := P8ROUNDS5_total (inl := inl) hg5 hg s
    obtain ⟨b, hb⟩ := P8ROUNDS5_total (inl := inl) hg5 hg t
    show Sim Any (P8ROUNDS5 inl _ _ s) (P8ROUNDS5 inl _ _ t)
    rw [ha, hb]; exact Sim.ret trivial
  · obtain ⟨a, ha⟩ := P6ROUNDS5_total (inl := inl) hg5 hg s
    obtain ⟨b, hb⟩ := P6ROUNDS5_total (inl := inl) hg5 hg t
    show Sim Any (P6ROUNDS5 inl _ _ s) (P6ROUNDS5 inl _ _ t)
    rw [ha, hb]; exact Sim.ret trivial

/-! ## The blocks -/

/-- Operand registers 10, 11, …: temporaries unknown, `C_l` symbolic. -/
def extraOpt : List Sym := [[], [], [], [], [], cReg]
/-- The same with `C_e` and `C_o`. -/
def extraBi : List Sym := [[], [], [], [], [], outSym 32 bi32Pos csBi 0, outSym 32 bi32Pos csBi 1]

theorem rel_getD_of {V : Nat} {init : Nat → BitVec 32} {l : List Sym} {off : Nat}
    (h : ∀ i (hi : i < l.length), Rel V l[i] (init (off + i))) (i : Nat) : Rel V (l.getD i []) (init (off + i)) := by
  by_cases hi : i < l.length
  · rw [← List.getElem_eq_getD (h := hi)]; exact h i hi
  · rw [List.getD_eq_getElem?_getD, List.getElem?_eq_none (by omega)]; exact Rel.nil _ _

theorem rel_extraOpt (s : State) (c : Word) (i : Nat) : Rel (assign s c) (extraOpt.getD i []) (immOpt c (10 + i)) := by
  apply rel_getD_of
  intro i hi
  have hi' : i < 6 := hi
  have : i = 0 ∨ i = 1 ∨ i = 2 ∨ i = 3 ∨ i = 4 ∨ i = 5 := by omega
  rcases this with rfl | rfl | rfl | rfl | rfl | rfl <;> first | exact rel_cReg s c | exact Rel.nil _ _

theorem rel_extraBi (s : State) (c : Word) (i : Nat) :
    Rel (assign s c) (extraBi.getD i []) (immBi32 (deinterleave32 .little c) (10 + i)) := by
  apply rel_getD_of
  intro i hi
  have hi' : i < 7 := hi
  have : i = 0 ∨ i = 1 ∨ i = 2 ∨ i = 3 ∨ i = 4 ∨ i = 5 ∨ i = 6 := by omega
  rcases this with rfl | rfl | rfl | rfl | rfl | rfl | rfl <;> first
    | exact Rel.nil _ _
    | (have := rel_outBi s c 0 (by omega); rw [chunk0] at this; exact this)
    | (have := rel_outBi s c 1 (by omega); rw [chunk1] at this; exact this)

theorem rc_lt (i : Nat) (hi : i < 12) : (rc i).toNat < 2 ^ 32 := by
  have : ∀ i : Fin 12, (rc i.val).toNat < 2 ^ 32 := by decide
  exact this ⟨i, hi⟩

abbrev idσ : List Nat := [0, 1, 2, 3, 4]
abbrev rotσ : List Nat := [2, 3, 4, 0, 1]
abbrev okBlock (code : List (Instr 32)) (σ : List Nat) : Bool :=
  checkBlock 2 (fun i => i) csOpt extraOpt (fun _ => none) code σ (fun _ => true)
abbrev okBlockBi (code : List (Instr 32)) (σ : List Nat) : Bool :=
  checkBlock 2 bi32Pos csBi extraBi (fun _ => none) code σ (fun _ => true)

theorem okBlock_sound {code : List (Instr 32)} (hc : okBlock code idσ = true) (s : State) (c : Word)
    (hlt : c.toNat < 2 ^ 32) : block .little code (immOpt c) (encS (fun w => w) s) = .ret (encS (fun w => w) (round c s)) :=
  blockOk_of idPerm (rot := fun s => s) (ok := fun c => c.toNat < 2 ^ 32) (fun _ _ => storeRegs_id) hc (by decide) rel_csOpt
    (fun s c _ => rel_extraOpt s c) s c hlt

theorem okBlock5_sound {code : List (Instr 32)} (hc : okBlock code rotσ = true) (s : State) (c : Word)
    (hlt : c.toNat < 2 ^ 32) :
    block .little code (immOpt c) (encS (fun w => w) s) = .ret (rot5 (encS (fun w => w) (round c s))) :=
  blockOk_of idPerm (ok := fun c => c.toNat < 2 ^ 32) (fun _ _ => storeRegs_rot5) hc (by decide) rel_csOpt
    (fun s c _ => rel_extraOpt s c) s c hlt

theorem okBlockBi_sound {code : List (Instr 32)} (hc : okBlockBi code idσ = true) (s : State) (c : Word) :
    block .little code (immBi32 (deinterleave32 .little c)) (encS (deinterleave32 .little) s) =
      .ret (encS (deinterleave32 .little) (round c s)) :=
  blockOk_of bi32_perm (rot := fun s => s) (ok := fun _ => True) (fun _ _ => storeRegs_id) hc (by decide)
    (fun s c _ => rel_csBi s c) (fun s c _ => rel_extraBi s c) s c trivial

theorem okBlockBi5_sound {code : List (Instr 32)} (hc : okBlockBi code rotσ = true) (s : State) (c : Word) :
    block .little code (immBi32 (deinterleave32 .little c)) (encS (deinterleave32 .little) s) =
      .ret (rot5 (encS (deinterleave32 .little) (round c s))) :=
  blockOk_of bi32_perm (ok := fun _ => True) (fun _ _ => storeRegs_rot5) hc (by decide)
    (fun s c _ => rel_csBi s c) (fun s c _ => rel_extraBi s c) s c trivial

/-! ## Loops -/

theorem bind_jumps {α β : Type} (n : Nat) (a : α) (f : α → β) : (jumps n a >>= fun x => pure (f x)) = jumps n (f a) := by
  induction n with
  | zero => rfl
  | succ n ih => exact congrArg (Prog.branch true) ih

theorem sim_jumps {α : Type} (n : Nat) (a b : α) : Sim Any (jumps n a) (jumps n b) := by
  induction n with
  | zero => exact .branch (.ret trivial)
  | succ n ih => exact .branch ih

/-- What a loop establishes: from `n` rounds left, it jumps back `n - 1` times and applies `n` rounds. -/
def LoopOk (enc : Word → Word) (rom : Nat → Option Byte) (body : List (Instr 32)) (n : Nat) (init : Nat → BitVec 32) : Prop :=
  ∀ s, ∃ m', doWhile rom body 16 (loadRegs .little (encS enc s) init) = jumps (n - 1) m' ∧
    LoadedAt 2 [0, 1, 2, 3, 4] enc (perm n s) m'

theorem roundLoop_ok {enc : Word → Word} {rom : Nat → Option Byte} {body : List (Instr 32)} {n : Nat}
    {init : Nat → BitVec 32} (h : LoopOk enc rom body n init) : PermOk enc n (roundLoop .little rom body init) := by
  intro s mem
  obtain ⟨m', h1, h2⟩ := h s
  unfold roundLoop
  rw [h1, bind_jumps, run_jumps, storeRegs_id h2]

theorem roundLoop_ct {enc dec : Word → Word} (he : ∀ x, enc (dec x) = x) {rom : Nat → Option Byte}
    {body : List (Instr 32)} {n : Nat} {init : Nat → BitVec 32} (h : LoopOk enc rom body n init) (e : Endian) :
    PermCT (roundLoop e rom body init) := by
  have tot : ∀ s, ∃ t, roundLoop e rom body init s = jumps (n - 1) t := fun s => by
    obtain ⟨m', h1, -⟩ := h (encS dec (swapE e s))
    rw [encS_encS (enc := dec) (dec := enc) he] at h1
    unfold roundLoop
    rw [loadRegs_swapE, h1, bind_jumps]
    exact ⟨_, rfl⟩
  intro s t
  obtain ⟨a, ha⟩ := tot s
  obtain ⟨b, hb⟩ := tot t
  rw [ha, hb]
  exact sim_jumps _ _ _

theorem loaded_of_at {q : Nat} {enc : Word → Word} {s : State} {m : M 32} (h : LoadedAt q [0, 1, 2, 3, 4] enc s m) :
    Loaded q enc s m := by
  intro k h' hk hh
  have := h k h' hk hh
  have hk' : k = 0 ∨ k = 1 ∨ k = 2 ∨ k = 3 ∨ k = 4 := by omega
  rcases hk' with rfl | rfl | rfl | rfl | rfl <;> exact this

theorem at_of_loaded {q : Nat} {enc : Word → Word} {s : State} {m : M 32} (h : Loaded q enc s m) :
    LoadedAt q [0, 1, 2, 3, 4] enc s m := by
  intro k h' hk hh
  have := h k h' hk hh
  have hk' : k = 0 ∨ k = 1 ∨ k = 2 ∨ k = 3 ∨ k = 4 := by omega
  rcases hk' with rfl | rfl | rfl | rfl | rfl <;> exact this

/-! ### Plain words: the constant is in a register and is decremented by 15 -/

/-- `i` rounds are left: the constant register holds `60 + 15 i`. -/
structure InvOpt (cr : Nat) (i : Nat) (s : State) (m : M 32) : Prop where
  loaded : Loaded 2 (fun w => w) s m
  stk : m.stk = []
  c : m.r cr = BitVec.ofNat 32 (60 + 15 * i)

/-- Symbolic constant in register `cr`, others unknown. -/
def extraLoop (cr : Nat) : List Sym := List.replicate (cr - 10) [] ++ [cReg]

theorem constLeft_eq (i : Nat) (hi : i < 12) : constLeft (i + 1) = BitVec.ofNat 64 (60 + 15 * (i + 1)) := by
  have : ∀ i : Fin 12, constLeft (i.val + 1) = BitVec.ofNat 64 (60 + 15 * (i.val + 1)) := by decide
  exact this ⟨i, hi⟩

theorem optLoop_step {cr : Nat} (hcr : 10 ≤ cr) {pre : List (Instr 32)}
    (hc : checkBlock 2 (fun i => i) csOpt (extraLoop cr) (fun _ => none) pre idσ
      (fun t => symEq (t.r.getD cr []) cReg) = true)
    (i : Nat) (s : State) (m : M 32) (hi : i < 12) (hI : InvOpt cr (i + 1) s m) :
    ∃ m', exec (fun _ => none) (pre ++ [.sub cr (.reg cr) (.imm 15), .cmp (.reg cr) (.imm 60)]) m = some m' ∧
      m'.z = decide (i = 0) ∧ InvOpt cr i (round (constLeft (i + 1)) s) m' := by
  have hcl := constLeft_eq i hi
  have hlt : (constLeft (i + 1)).toNat < 2 ^ 32 := by
    rw [hcl, BitVec.toNat_ofNat, Nat.mod_eq_of_lt (by omega)]; omega
  have hreg : (constLeft (i + 1)).setWidth 32 = m.r cr := by
    rw [hI.c, hcl, BitVec.setWidth_ofNat_of_le (by omega)]
  obtain ⟨m', h1, h2, h3, t, h4, h5⟩ := checkBlock_sound idPerm (by decide : 32 * 2 = 64) hc
    (rel_csOpt s (constLeft (i + 1)) hlt) (by decide) hI.loaded hI.stk (fun j => by
      by_cases hj : j = cr - 10
      · have e : (extraLoop cr).getD j [] = cReg := by
          subst hj; simp [extraLoop, List.getD_eq_getElem?_getD]
        rw [e, show 5 * 2 + j = cr by omega, ← hreg]
        exact rel_cReg s _
      · have e : (extraLoop cr).getD j [] = [] := by
          simp only [extraLoop, List.getD_eq_getElem?_getD, List.getElem?_append, List.length_replicate]
          split
          · rename_i h; simp [h]
          · rw [List.getElem?_eq_none (by simp; omega)]; rfl
        rw [e]; exact Rel.nil _ _)
  have hc' : m'.r cr = m.r cr := by
    have r1 := h5.r cr
    rw [symEq_eq h4] at r1
    rw [← hreg]
    exact rel_full_eq r1 (rel_cReg s _) (by decide)
  have e1 : m'.r cr - 15 = BitVec.ofNat 32 (60 + 15 * i) := by
    rw [hc', hI.c]
    apply BitVec.eq_of_toNat_eq
    rw [BitVec.toNat_sub]; simp; omega
  have e2 : (BitVec.ofNat 32 (60 + 15 * i) == 60) = decide (i = 0) := by
    rw [Bool.eq_iff_iff, beq_iff_eq, decide_eq_true_iff]
    constructor
    · intro h
      have := congrArg BitVec.toNat h
      rw [BitVec.toNat_ofNat, Nat.mod_eq_of_lt (by omega)] at this
      have e : (60 : BitVec 32).toNat = 60 := rfl
      omega
    · intro h; subst h; rfl
  refine ⟨⟨fun j => if j = cr then BitVec.ofNat 32 (60 + 15 * i) else m'.r j, m'.stk, decide (i = 0)⟩, ?_, rfl, ?_, h3, ?_⟩
  · rw [exec_append, h1]
    simp only [Option.bind_some, exec, step, M.set, Opnd.get, if_true, e1, e2]
  · intro k h hk hh
    have := loaded_of_at h2 k h hk hh
    simp only
    rw [if_neg (by omega)]; exact this
  · simp

theorem optLoop_ok {cr : Nat} (hcr : 10 ≤ cr) {pre body : List (Instr 32)}
    (hb : body = pre ++ [.sub cr (.reg cr) (.imm 15), .cmp (.reg cr) (.imm 60)])
    (hc : checkBlock 2 (fun i => i) csOpt (extraLoop cr) (fun _ => none) pre idσ
      (fun t => symEq (t.r.getD cr []) cReg) = true)
    (n : Nat) (h0 : 0 < n) (hn : n ≤ 12) (init : Nat → BitVec 32) (hi : init cr = BitVec.ofNat 32 (60 + 15 * n)) :
    LoopOk (fun w => w) (fun _ => none) body n init := by
  intro s
  subst hb
  obtain ⟨n, rfl⟩ : ∃ k, n = k + 1 := ⟨n - 1, by omega⟩
  have hI : InvOpt cr (n + 1) s (loadRegs .little (encS (fun w => w) s) init) := by
    refine ⟨loaded_loadRegs _ _ _, rfl, ?_⟩
    rw [← hi]
    show (match cr with | 0 => _ | 1 => _ | 2 => _ | 3 => _ | 4 => _ | 5 => _ | 6 => _ | 7 => _ | 8 => _ | 9 => _ | i => _) = _
    split <;> first | omega | rfl
  obtain ⟨m', h1, h2⟩ := doWhile_rounds (optLoop_step hcr hc) n (by omega) s _ hI
    16 (by omega)
  exact ⟨m', h1, at_of_loaded h2.loaded⟩

/-! ### Interleaved words: the constants are loaded from the table -/

/-- `i` rounds are left: the pointer `cr` is `24 - 2 i`, the end pointer `er` is 24. -/
structure InvBi (cr er : Nat) (i : Nat) (s : State) (m : M 32) : Prop where
  loaded : Loaded 2 (deinterleave32 .little) s m
  stk : m.stk = []
  c : m.r cr = BitVec.ofNat 32 (24 - 2 * i)
  e : m.r er = 24

def extraBiLoop (cr er i : Nat) : List Sym := (List.range 8).map fun j =>
  if 10 + j = cr then sbits (BitVec.ofNat 32 (24 - 2 * i)) else if 10 + j = er then sbits (24 : BitVec 32) else []

def postBiLoop (cr er i : Nat) (t : SM) : Bool :=
  known 32 (t.r.getD cr []) == some (24 - 2 * i) && known 32 (t.r.getD er []) == some 24 &&
    t.z == some (decide (i = 0))

theorem biLoop_step {cr er : Nat} {body : List (Instr 32)}
    (hc : ∀ i : Fin 12, checkBlock 2 bi32Pos (sbits (constLeft (i.val + 1))) (extraBiLoop cr er (i.val + 1)) bi32Rom body idσ
      (postBiLoop cr er i.val) = true)
    (i : Nat) (s : State) (m : M 32) (hi : i < 12) (hI : InvBi cr er (i + 1) s m) :
    ∃ m', exec bi32Rom body m = some m' ∧
      m'.z = decide (i = 0) ∧ InvBi cr er i (round (constLeft (i + 1)) s) m' := by
  obtain ⟨m', h1, h2, h3, t, h4, h5⟩ := checkBlock_sound bi32_perm (by decide : 32 * 2 = 64) (hc ⟨i, hi⟩)
    (Rel.sbits (assign s (constLeft (i + 1))) (constLeft (i + 1))) (by simp [sbits]) hI.loaded hI.stk (fun j => by
      by_cases hj : j < 8
      · have e : (extraBiLoop cr er (i + 1)).getD j [] = if 10 + j = cr then sbits (BitVec.ofNat 32 (24 - 2 * (i + 1)))
            else if 10 + j = er then sbits (24 : BitVec 32) else [] := by
          simp [extraBiLoop, List.getD_eq_getElem?_getD, hj]
        rw [e]
        show Rel _ _ (m.r (10 + j))
        split
        · rename_i h; rw [h, hI.c]; exact Rel.sbits _ _
        · split
          · rename_i h; rw [h, hI.e]; exact Rel.sbits _ _
          · exact Rel.nil _ _
      · have e : (extraBiLoop cr er (i + 1)).getD j [] = [] := by
          rw [List.getD_eq_getElem?_getD, List.getElem?_eq_none (by simp [extraBiLoop]; omega)]; rfl
        rw [e]; exact Rel.nil _ _)
  simp only [postBiLoop, Bool.and_eq_true, beq_iff_eq] at h4
  obtain ⟨⟨k1, k2⟩, k3⟩ := h4
  exact ⟨m', h1, h5.z _ k3, loaded_of_at h2, h3, post_known h5 k1, post_known h5 k2⟩

theorem biLoop_ok {cr er : Nat} (hcr : 10 ≤ cr) (her : 10 ≤ er) {body : List (Instr 32)}
    (hc : ∀ i : Fin 12, checkBlock 2 bi32Pos (sbits (constLeft (i.val + 1))) (extraBiLoop cr er (i.val + 1)) bi32Rom body idσ
      (postBiLoop cr er i.val) = true)
    (n : Nat) (h0 : 0 < n) (hn : n ≤ 12) (init : Nat → BitVec 32) (hi : init cr = BitVec.ofNat 32 (24 - 2 * n))
    (hi2 : init er = 24) : LoopOk (deinterleave32 .little) bi32Rom body n init := by
  intro s
  obtain ⟨n, rfl⟩ : ∃ k, n = k + 1 := ⟨n - 1, by omega⟩
  have hr : ∀ j, 10 ≤ j → (loadRegs .little (encS (deinterleave32 .little) s) init).r j = init j := fun j hj => by
    show (match j with | 0 => _ | 1 => _ | 2 => _ | 3 => _ | 4 => _ | 5 => _ | 6 => _ | 7 => _ | 8 => _ | 9 => _ | i => _) = _
    split <;> first | omega | rfl
  have hI : InvBi cr er (n + 1) s (loadRegs .little (encS (deinterleave32 .little) s) init) :=
    ⟨loaded_loadRegs _ _ _, rfl, by rw [hr _ hcr, hi], by rw [hr _ her, hi2]⟩
  obtain ⟨m', h1, h2⟩ := doWhile_rounds (biLoop_step hc) n (by omega) s _ hI 16 (by omega)
  exact ⟨m', h1, at_of_loaded h2.loaded⟩

end Ascon.Arm
