import Verif.Proof.AnfRound
/-!
# Checking a block of assembly that computes one round

The state words are held in registers of `w` bits, `64 / w` per word, encoded by a permutation `π` of the bits.
`checkBlock` executes the block symbolically and compares with the symbolic round; `checkBlock_sound` concludes
that the block computes the round for every state.
-/

namespace Ascon.Asm

open Ascon.C Ascon.Spec Ascon.Gen

variable {w : Nat}

/-- Part `h` of a word held in `w`-bit registers. -/
def chunk (w h : Nat) (x : Word) : BitVec w := (x >>> (w * h)).setWidth w

theorem getLsbD_chunk (w h j : Nat) (x : Word) (hj : j < w) : (chunk w h x).getLsbD j = x.getLsbD (w * h + j) := by
  simp [chunk, hj]

/-- The registers `q k + h` hold the parts of the encoded state. -/
def Loaded (q : Nat) (enc : Word → Word) (s : State) (m : M w) : Prop :=
  ∀ k h, k < 5 → h < q → m.r (q * k + h) = chunk w h (enc (word s k))

/-- The registers `q σ(k) + h` hold the parts of the encoded state. -/
def LoadedAt (q : Nat) (σ : List Nat) (enc : Word → Word) (s : State) (m : M w) : Prop :=
  ∀ k h, k < 5 → h < q → m.r (q * σ.getD k 0 + h) = chunk w h (enc (word s k))

/-- `64 j + i ↦` variable of bit `i` of word `j`, for one register. -/
def inSym (w : Nat) (π : Nat → Nat) (k h : Nat) : Sym := (List.range w).map fun j => pvar (64 * k + π (w * h + j))

/-- The part `h` of the encoding of a symbolic word. -/
def outSym (w : Nat) (π : Nat → Nat) (t : Sym) (h : Nat) : Sym := (List.range w).map fun j => t.getD (π (w * h + j)) []

/-- Initial symbolic machine: the state in the first `5 q` registers, then `extra`. -/
def initSM (w q : Nat) (π : Nat → Nat) (extra : List Sym) : SM where
  r := (List.range (5 * q)).map (fun i => inSym w π (i / q) (i % q)) ++ extra
  stk := []
  z := none

def polyEq : Poly → Poly → Bool
  | [], [] => true
  | a :: p, b :: q => bif Nat.beq a b then polyEq p q else false
  | _, _ => false

def symEq : Sym → Sym → Bool
  | [], [] => true
  | a :: p, b :: q => bif polyEq a b then symEq p q else false
  | _, _ => false

theorem polyEq_eq {p q : Poly} (h : polyEq p q = true) : p = q := by
  induction p generalizing q with
  | nil => cases q with
    | nil => rfl
    | cons => simp [polyEq] at h
  | cons a p ih => cases q with
    | nil => simp [polyEq] at h
    | cons b q =>
      unfold polyEq at h
      cases hb : Nat.beq a b <;> rw [hb] at h
      · simp at h
      · rw [Nat.eq_of_beq_eq_true hb, ih h]

theorem symEq_eq {p q : Sym} (h : symEq p q = true) : p = q := by
  induction p generalizing q with
  | nil => cases q with
    | nil => rfl
    | cons => simp [symEq] at h
  | cons a p ih => cases q with
    | nil => simp [symEq] at h
    | cons b q =>
      unfold symEq at h
      cases hb : polyEq a b <;> rw [hb] at h
      · simp at h
      · rw [polyEq_eq hb, ih h]

/-- The registers of word `d` hold the symbolic word `x`. -/
def checkParts (w q : Nat) (π : Nat → Nat) (x : Sym) (t : SM) (d : Nat) : Nat → Bool
  | 0 => true
  | h + 1 => symEq (t.r.getD (q * d + h) []) (outSym w π x h) && checkParts w q π x t d h

def checkWord (w q : Nat) (π : Nat → Nat) (x : Sym) (t : SM) (d : Nat) : Bool := checkParts w q π x t d q

theorem checkParts_sound {q d n : Nat} {π : Nat → Nat} {x : Sym} {t : SM} (hc : checkParts w q π x t d n = true)
    (h : Nat) (hh : h < n) : t.r.getD (q * d + h) [] = outSym w π x h := by
  induction n with
  | zero => omega
  | succ n ih =>
    simp only [checkParts, Bool.and_eq_true] at hc
    by_cases h1 : h = n
    · subst h1; exact symEq_eq hc.1
    · exact ih hc.2 (by omega)

/-- The block computes the round with the constant given symbolically by `cs`; `post` is a further condition on
the final symbolic machine. -/
def checkBlock (q : Nat) (π : Nat → Nat) (cs : Sym) (extra : List Sym) (rom : Nat → Option Byte) (code : List (Instr w))
    (σ : List Nat) (post : SM → Bool) : Bool :=
  match symExec rom code (initSM w q π extra) with
  | none => false
  | some t => checkWord w q π (roundSym cs 0) t (σ.getD 0 0) && checkWord w q π (roundSym cs 1) t (σ.getD 1 0) &&
    checkWord w q π (roundSym cs 2) t (σ.getD 2 0) && checkWord w q π (roundSym cs 3) t (σ.getD 3 0) &&
    checkWord w q π (roundSym cs 4) t (σ.getD 4 0) && (t.stk.isEmpty && post t)

theorem rel_inSym {q : Nat} {enc : Word → Word} {π : Nat → Nat} (hp : BitPerm enc π) (hq : w * q = 64) {s : State} {V : Nat}
    (hV : ∀ k j, k < 5 → j < 64 → V.testBit (64 * k + j) = (word s k).getLsbD j) {k h : Nat} (hk : k < 5) (hh : h < q) :
    Rel V (inSym w π k h) (chunk w h (enc (word s k))) := by
  constructor
  · simp [inSym]
  · intro j hj
    have hj' : j < w := by simpa [inSym] using hj
    have hlt : w * h + j < 64 := by
      have : w * h + w ≤ w * q := by rw [← Nat.mul_succ]; exact Nat.mul_le_mul_left _ hh
      omega
    simp only [inSym, List.getElem_map, List.getElem_range]
    rw [eval_pvar, getLsbD_chunk _ _ _ _ hj', hp.bit _ _ hlt, hV _ _ hk (hp.lt _ hlt)]

theorem rel_initSM {q : Nat} {enc : Word → Word} {π : Nat → Nat} (hp : BitPerm enc π) (hq : w * q = 64) {s : State}
    {V : Nat} (hV : ∀ k j, k < 5 → j < 64 → V.testBit (64 * k + j) = (word s k).getLsbD j) {extra : List Sym}
    {m : M w} (hl : Loaded q enc s m) (hs : m.stk = [])
    (hx : ∀ i, Rel V (extra.getD i []) (m.r (5 * q + i))) : SM.Rel V (initSM w q π extra) m where
  r i := by
    have hq0 : 0 < q := by rcases Nat.eq_zero_or_pos q with rfl | h <;> omega
    by_cases hi : i < 5 * q
    · have : (initSM w q π extra).r.getD i [] = inSym w π (i / q) (i % q) := by
        simp [initSM, List.getD_eq_getElem?_getD, hi, List.getElem?_append]
      rw [this]
      have h5 : i / q < 5 := Nat.div_lt_of_lt_mul (by rw [Nat.mul_comm]; exact hi)
      have := rel_inSym hp hq hV h5 (Nat.mod_lt i hq0)
      rw [← hl _ _ h5 (Nat.mod_lt i hq0), Nat.div_add_mod] at this
      exact this
    · have : (initSM w q π extra).r.getD i [] = extra.getD (i - 5 * q) [] := by
        simp [initSM, List.getD_eq_getElem?_getD, List.getElem?_append, hi]
      rw [this]
      have := hx (i - 5 * q)
      rwa [Nat.add_sub_cancel' (by omega)] at this
  stk := by simp [initSM, hs]
  z := by intro b h; simp [initSM] at h

theorem rel_full_eq {V : Nat} {s : Sym} {a b : BitVec w} (ha : Rel V s a) (hb : Rel V s b) (hl : s.length = w) : a = b := by
  apply BitVec.eq_of_getLsbD_eq
  intro i hi
  rw [← ha.2 i (by omega), ← hb.2 i (by omega)]

theorem rel_outSym {q : Nat} {enc : Word → Word} {π : Nat → Nat} (hp : BitPerm enc π) (hq : w * q = 64) {V : Nat} {x : Sym}
    {a : Word} (hx : Rel V x a) (hl : x.length = 64) {h : Nat} (hh : h < q) :
    Rel V (outSym w π x h) (chunk w h (enc a)) := by
  constructor
  · simp [outSym]
  · intro j hj
    have hj' : j < w := by simpa [outSym] using hj
    have hlt : w * h + j < 64 := by
      have : w * h + w ≤ w * q := by rw [← Nat.mul_succ]; exact Nat.mul_le_mul_left _ hh
      omega
    simp only [outSym, List.getElem_map, List.getElem_range]
    have h2 := hp.lt _ hlt
    rw [getLsbD_chunk _ _ _ _ hj', hp.bit _ _ hlt, ← List.getElem_eq_getD (h := by omega)]
    exact hx.2 _ (by omega)

theorem length_roundSym (cs : Sym) (k : Nat) : (roundSym cs k).length = 64 := by
  simp [roundSym, szip_eq, sror, full, substSym]
  omega

theorem checkBlock_sound {q : Nat} {enc : Word → Word} {π : Nat → Nat} (hp : BitPerm enc π) (hq : w * q = 64) {cs : Sym}
    {extra : List Sym} {rom : Nat → Option Byte} {code : List (Instr w)} {σ : List Nat} {post : SM → Bool}
    (hc : checkBlock q π cs extra rom code σ post = true) {s : State} {c : Word}
    (hcs : Rel (assign s c) cs c) (hcl : cs.length = 64) {m : M w} (hl : Loaded q enc s m) (hs : m.stk = [])
    (hx : ∀ i, Rel (assign s c) (extra.getD i []) (m.r (5 * q + i))) :
    ∃ m', exec rom code m = some m' ∧ LoadedAt q σ enc (round c s) m' ∧ m'.stk = [] ∧
      ∃ t, post t = true ∧ SM.Rel (assign s c) t m' := by
  have hV := testBit_assign s c
  unfold checkBlock at hc
  cases he : symExec rom code (initSM w q π extra) with
  | none => rw [he] at hc; exact absurd hc (by simp)
  | some t =>
    rw [he] at hc
    obtain ⟨m', hm, hr⟩ := symExec_sound code (rel_initSM hp hq hV hl hs hx) he
    simp only [Bool.and_eq_true] at hc
    obtain ⟨⟨⟨⟨⟨h0, h1⟩, h2⟩, h3⟩, h4⟩, hst, hpost⟩ := hc
    refine ⟨m', hm, ?_, ?_, t, hpost, hr⟩
    · intro k h hk hh
      have hck : checkWord w q π (roundSym cs k) t (σ.getD k 0) = true := by
        have hk' : k = 0 ∨ k = 1 ∨ k = 2 ∨ k = 3 ∨ k = 4 := by omega
        rcases hk' with rfl | rfl | rfl | rfl | rfl <;> assumption
      have e1 := checkParts_sound hck h hh
      have r1 := hr.r (q * σ.getD k 0 + h)
      rw [e1] at r1
      exact rel_full_eq r1 (rel_outSym hp hq (rel_roundSym hk hV hcs hcl) (length_roundSym cs k) hh)
        (by simp [outSym])
    · have := hr.stk.1
      rw [List.isEmpty_iff.mp hst] at this
      exact List.length_eq_zero_iff.mp this.symm

/-- A known register has that value. -/
theorem post_known {V : Nat} {t : SM} {m : M w} (hr : SM.Rel V t m) {i n : Nat} (h : known w (t.r.getD i []) = some n) :
    m.r i = BitVec.ofNat w n := by
  have := known_sound (hr.r i) h
  apply BitVec.eq_of_toNat_eq
  rw [← this]; simp

theorem exec_append (rom : Nat → Option Byte) (a b : List (Instr w)) (m : M w) :
    exec rom (a ++ b) m = (exec rom a m).bind (exec rom b) := by
  induction a generalizing m with
  | nil => rfl
  | cons i a ih =>
    simp only [List.cons_append, exec]
    cases step rom m i with
    | none => rfl
    | some m' => exact ih m'

/-! ## Loops -/

/-- `n` backward jumps, then the exit. -/
def jumps {α : Type} : Nat → α → Prog α
  | 0, a => .branch false (.ret a)
  | n + 1, a => .branch true (jumps n a)

/-- `i` rounds are left: the constant of the next one. -/
def constLeft (i : Nat) : Word := roundConsts.getD (16 - i) 0

theorem perm_succ (i : Nat) (hi : i < 16) (s : State) : perm (i + 1) s = perm i (round (constLeft (i + 1)) s) := by
  have h16 : roundConsts.length = 16 := rfl
  unfold perm constLeft
  rw [List.drop_eq_getElem_cons (by omega : 16 - (i + 1) < roundConsts.length), List.foldl_cons,
    show 16 - (i + 1) + 1 = 16 - i by omega, List.getElem_eq_getD (fallback := 0)]

theorem doWhile_rounds {rom : Nat → Option Byte} {body : List (Instr w)} {Inv : Nat → State → M w → Prop}
    (hstep : ∀ i s m, i < 12 → Inv (i + 1) s m →
      ∃ m', exec rom body m = some m' ∧ m'.z = decide (i = 0) ∧ Inv i (round (constLeft (i + 1)) s) m')
    (n : Nat) (hn : n < 12) (s : State) (m : M w) (hI : Inv (n + 1) s m) (f : Nat) (hf : n < f) :
    ∃ m', doWhile rom body f m = jumps n m' ∧ Inv 0 (perm (n + 1) s) m' := by
  induction n generalizing s m f with
  | zero =>
    obtain ⟨f, rfl⟩ : ∃ g, f = g + 1 := ⟨f - 1, by omega⟩
    obtain ⟨m', h1, h2, h3⟩ := hstep 0 s m hn hI
    refine ⟨m', ?_, ?_⟩
    · simp [doWhile, h1, h2, jumps]
    · rw [perm_succ 0 (by omega)]; exact h3
  | succ n ih =>
    obtain ⟨f, rfl⟩ : ∃ g, f = g + 1 := ⟨f - 1, by omega⟩
    obtain ⟨m1, h1, h2, h3⟩ := hstep (n + 1) s m hn hI
    obtain ⟨m', h4, h5⟩ := ih (by omega) _ m1 h3 f (by omega)
    refine ⟨m', ?_, ?_⟩
    · have : m1.z = false := by rw [h2]; simp
      simp [doWhile, h1, this, jumps, h4]
    · rw [perm_succ (n + 1) (by omega)]; exact h5

theorem run_jumps {α : Type} (n : Nat) (a : α) (mem : Mem) : run (jumps n a) mem = some (a, mem) := by
  induction n with
  | zero => rfl
  | succ n ih => exact ih

end Ascon.Asm
