import Verif.C.Fetch
import Verif.C.Lemmas
/-!
# Inputs in memory that somebody else writes

The caller's input buffers may lie in memory that another party (another thread or process, a device, an untrusted host)
modifies while the call runs.  `runShared I adv n p mem` is the execution of `p` where every read of an address in `I`
returns whatever the other party has put there at that moment: the reads of `I` return `adv n`, `adv (n + 1)`, …, so
quantifying over `adv` quantifies over all behaviours of the other party, including those that depend on what it sees.

(Such accesses are a data race for the C standard; the model gives them the meaning they have for the machine.  Whether a
compiler may introduce second reads is a separate question.)
-/

namespace Ascon.C

variable {α : Type}

def runShared (I : Nat → Bool) (adv : Nat → Byte) : Nat → Prog α → Mem → Option (α × Mem)
  | _, .ret a, mem => some (a, mem)
  | n, .load a k, mem =>
    match (mem a).byte with
    | some b => if I a then runShared I adv (n + 1) (k (adv n)) mem else runShared I adv n (k b) mem
    | none => none
  | n, .store a b k, mem => if (mem a).rw then runShared I adv n k (mem.writes a [b]) else none
  | n, .branch _ k, mem => runShared I adv n k mem
  | n, .alloc p l k, mem => runShared I adv n k (mem.fill p l .uninit)
  | n, .free p l k, mem => runShared I adv n k (mem.fill p l .unalloc)
  | _, .ub, _ => none

/-- A cell with another value. -/
def Cell.setByte : Cell → Byte → Cell
  | .val _, b => .val b
  | .const _, b => .const b
  | c, _ => c

theorem Cell.setByte_byte (c : Cell) (b : Byte) : (c.setByte b).byte = c.byte.map fun _ => b := by cases c <;> rfl

theorem Cell.setByte_rw (c : Cell) (b : Byte) : (c.setByte b).rw = c.rw := by cases c <;> rfl

/-- The memory in which the addresses of `I` hold the bytes `f`. -/
def Mem.refresh (I : Nat → Bool) (f : Nat → Byte) (mem : Mem) : Mem := fun a => if I a then (mem a).setByte (f a) else mem a

theorem refresh_writes {I : Nat → Bool} {f : Nat → Byte} {mem : Mem} {a : Nat} {b : Byte} (h : I a = false) :
    (mem.refresh I f).writes a [b] = (mem.writes a [b]).refresh I f := by
  funext x
  unfold Mem.writes Mem.refresh
  by_cases hx : x = a
  · subst hx
    simp [h]
  · have : ¬ (a ≤ x ∧ x < a + [b].length) := by simp; omega
    simp only [dif_neg this]

theorem refresh_fill {I : Nat → Bool} {f : Nat → Byte} {mem : Mem} {p n : Nat} {c : Cell} (h : ∀ b, c.setByte b = c) :
    (mem.refresh I f).fill p n c = (mem.fill p n c).refresh I f := by
  funext x
  unfold Mem.fill Mem.refresh
  by_cases hx : p ≤ x ∧ x < p + n
  · simp only [if_pos hx, h, ite_self]
  · simp only [if_neg hx]

/-- **A program whose reads of the shared addresses are all different behaves as if the shared memory had been constant**,
with the bytes that were fetched.  (`f` gives every address the byte that its one fetch returned.) -/
theorem Acc.shared {R : α → Prop} {p : Prog α} {rs ws : List Nat} (h : Acc R p rs ws) {I : Nat → Bool}
    {adv f : Nat → Byte} :
    ∀ (n : Nat) (mem : Mem), (∀ a ∈ ws, I a = false) →
      (∀ j (hj : j < (rs.filter I).length), f (rs.filter I)[j] = adv (n + j)) →
      run p (mem.refresh I f) = (runShared I adv n p mem).map fun x => (x.1, x.2.refresh I f) := by
  induction h with
  | ret h => intro n mem _ _; rfl
  | @load a k rs ws h ih =>
    intro n mem hw hf
    unfold run runShared
    by_cases hI : I a = true
    · have hb : (mem.refresh I f a).byte = (mem a).byte.map fun _ => f a := by
        unfold Mem.refresh; rw [if_pos hI, Cell.setByte_byte]
      rw [hb]
      rw [List.filter_cons, if_pos hI] at hf
      have h0 : f a = adv n := hf 0 (by simp)
      cases (mem a).byte with
      | none => rfl
      | some b =>
        simp only [Option.map_some, if_pos hI]
        rw [h0]
        refine ih _ (n + 1) mem hw fun j hj => ?_
        have := hf (j + 1) (by simpa using hj)
        rw [show n + 1 + j = n + (j + 1) by omega]
        exact this
    · have hb : (mem.refresh I f a).byte = (mem a).byte := by unfold Mem.refresh; rw [if_neg hI]
      rw [hb]
      rw [List.filter_cons, if_neg hI] at hf
      cases (mem a).byte with
      | none => rfl
      | some b =>
        simp only [if_neg hI]
        exact ih _ n mem hw hf
  | @store a b k rs ws h ih =>
    intro n mem hw hf
    have ha : I a = false := hw a (by simp)
    unfold run runShared
    have hb : (mem.refresh I f a).rw = (mem a).rw := by unfold Mem.refresh; simp [ha]
    rw [hb]
    split
    · rw [refresh_writes ha]
      exact ih n _ (fun x hx => hw x (by simp [hx])) hf
    · rfl
  | branch h ih => intro n mem hw hf; exact ih n mem hw hf
  | alloc h ih =>
    intro n mem hw hf
    unfold run runShared
    rw [refresh_fill (fun _ => rfl)]
    exact ih n _ hw hf
  | free h ih =>
    intro n mem hw hf
    unfold run runShared
    rw [refresh_fill (fun _ => rfl)]
    exact ih n _ hw hf
  | ub => intro n mem _ _; rfl

/-! ## Buffers -/

/-- The address lies in one of the buffers (start, length). -/
def InSegs (segs : List (Nat × Nat)) (a : Nat) : Bool := segs.any fun s => decide (s.1 ≤ a ∧ a < s.1 + s.2)

/-- The addresses of the buffers in order. -/
def addrs (segs : List (Nat × Nat)) : List Nat := segs.flatMap fun s => List.range' s.1 s.2

/-- No two of the buffers overlap. -/
def Separate (segs : List (Nat × Nat)) : Prop := segs.Pairwise fun s t => Disjoint s.1 s.2 t.1 t.2

theorem mem_addrs {segs : List (Nat × Nat)} {a : Nat} : a ∈ addrs segs ↔ InSegs segs a = true := by
  simp [addrs, InSegs, List.mem_range'_1]

theorem filter_addrs (segs : List (Nat × Nat)) : (addrs segs).filter (InSegs segs) = addrs segs :=
  List.filter_eq_self.2 fun _ ha => mem_addrs.1 ha

/-- The bytes fetched: the fetches `n`, …, `n + l - 1`. -/
def fetched (adv : Nat → Byte) (n l : Nat) : List Byte := (List.range l).map fun i => adv (n + i)

@[simp] theorem length_fetched (adv : Nat → Byte) (n l : Nat) : (fetched adv n l).length = l := by simp [fetched]

/-- The byte fetched from an address, if the buffers are read in order, starting with fetch `n`. -/
def assign (adv : Nat → Byte) : List (Nat × Nat) → Nat → Nat → Byte
  | [], _, _ => 0
  | (p, l) :: t, n, a => if p ≤ a ∧ a < p + l then adv (n + (a - p)) else assign adv t (n + l) a

theorem assign_addrs (adv : Nat → Byte) : ∀ (segs : List (Nat × Nat)) (n : Nat), Separate segs →
    ∀ j (hj : j < (addrs segs).length), assign adv segs n (addrs segs)[j] = adv (n + j) := by
  intro segs
  induction segs with
  | nil => intro n _ j hj; simp [addrs] at hj
  | cons s t ih =>
    obtain ⟨p, l⟩ := s
    intro n hs j hj
    have hs' := List.pairwise_cons.1 hs
    have ha : addrs ((p, l) :: t) = List.range' p l ++ addrs t := by simp [addrs]
    have hlen : (addrs ((p, l) :: t)).length = l + (addrs t).length := by rw [ha]; simp
    by_cases hjl : j < l
    · have : (addrs ((p, l) :: t))[j] = p + j := by
        simp only [ha]
        rw [List.getElem_append_left (by simpa using hjl)]
        simp
      rw [this]
      unfold assign
      rw [if_pos (by omega), Nat.add_sub_cancel_left]
    · have hj' : j - l < (addrs t).length := by omega
      have : (addrs ((p, l) :: t))[j] = (addrs t)[j - l] := by
        simp only [ha]
        rw [List.getElem_append_right (by simpa using hjl)]
        simp
      rw [this]
      have hm : InSegs t (addrs t)[j - l] = true := mem_addrs.1 (List.getElem_mem hj')
      have hnot : ¬ (p ≤ (addrs t)[j - l] ∧ (addrs t)[j - l] < p + l) := by
        intro hc
        unfold InSegs at hm
        rw [List.any_eq_true] at hm
        obtain ⟨x, hx1, hx2⟩ := hm
        have := hs'.1 x hx1
        have hx2 := of_decide_eq_true hx2
        unfold Disjoint at this
        simp only at this
        omega
      unfold assign
      rw [if_neg hnot, ih (n + l) hs'.2 (j - l) hj']
      congr 1
      omega

/-- The refreshed memory holds the fetched bytes. -/
theorem holds_refresh {adv : Nat → Byte} {segs : List (Nat × Nat)} {mem : Mem} {p : Nat} {bs : List Byte} {pre : List (Nat × Nat)}
    {post : List (Nat × Nat)} {l : Nat} (hseg : segs = pre ++ (p, l) :: post) (hs : Separate segs) (hl : bs.length = l)
    (h : mem.Holds p bs) :
    (mem.refresh (InSegs segs) (assign adv segs 0)).Holds p (fetched adv (addrs pre).length l) := by
  intro i hi
  rw [length_fetched] at hi
  have hin : InSegs segs (p + i) = true := by
    unfold InSegs
    rw [List.any_eq_true]
    exact ⟨(p, l), by rw [hseg]; simp, by simp; omega⟩
  unfold Mem.refresh
  rw [if_pos hin, Cell.setByte_byte, h i (by omega)]
  have ha : addrs segs = addrs pre ++ (List.range' p l ++ addrs post) := by rw [hseg]; simp [addrs]
  have hj : (addrs pre).length + i < (addrs segs).length := by rw [ha]; simp; omega
  have hget : (addrs segs)[(addrs pre).length + i] = p + i := by
    simp only [ha]
    rw [List.getElem_append_right (by omega), List.getElem_append_left (by simp; omega)]
    simp
  have := assign_addrs adv segs 0 hs _ hj
  rw [hget] at this
  simp only [Option.map_some, fetched, List.getElem_map, List.getElem_range]
  rw [this, Nat.zero_add]

theorem writable_refresh {I : Nat → Bool} {f : Nat → Byte} {mem : Mem} {p n : Nat} (h : mem.Writable p n) :
    (mem.refresh I f).Writable p n := by
  intro i hi
  unfold Mem.refresh
  split
  · rw [Cell.setByte_rw]; exact h i hi
  · exact h i hi

theorem free_refresh {I : Nat → Bool} {f : Nat → Byte} {mem : Mem} {p n : Nat} (h : mem.Free p n) :
    (mem.refresh I f).Free p n := by
  intro i hi
  unfold Mem.refresh
  rw [h i hi]
  split <;> rfl

/-- Linearization: a program that reads the buffers `segs` once, in order, and writes none of them, run on a memory where
`segs` is shared, behaves as `run` does on the memory holding the fetched bytes. -/
theorem Acc.linearize {R : α → Prop} {p : Prog α} {rs' ws' : List Nat} (h : Acc R p rs' ws') {segs : List (Nat × Nat)}
    (adv : Nat → Byte) (mem : Mem) (hs : Separate segs) (hr : rs'.filter (InSegs segs) = addrs segs)
    (hw : ∀ a ∈ ws', InSegs segs a = false) {r : α} {mem1 : Mem}
    (hrun : run p (mem.refresh (InSegs segs) (assign adv segs 0)) = some (r, mem1)) :
    ∃ mem', runShared (InSegs segs) adv 0 p mem = some (r, mem') ∧ ∀ a, InSegs segs a = false → mem' a = mem1 a := by
  have := h.shared (I := InSegs segs) (adv := adv) (f := assign adv segs 0) 0 mem hw (by
    rw [hr]
    intro j hj
    exact assign_addrs adv segs 0 hs j hj)
  rw [hrun] at this
  cases hx : runShared (InSegs segs) adv 0 p mem with
  | none => rw [hx] at this; cases this
  | some x =>
    rw [hx] at this
    simp only [Option.map_some, Option.some.injEq, Prod.mk.injEq] at this
    refine ⟨x.2, by rw [this.1], fun a ha => ?_⟩
    rw [this.2]
    unfold Mem.refresh
    simp [ha]

end Ascon.C
