import Verif.Proof.Registry
import Verif.C.Ahead
/-!
# Encryption into a buffer that starts ahead of the message

Block loops of 16 bytes that write at `c ≥ m + 16`: what is read at a distance of `c - m` or more from the start of the message is what
the loop has written there.
-/

namespace Ascon.Impl

open Ascon.C Ascon.C.Prog Ascon.Spec

attribute [local irreducible] perm

theorem getD_lt {l : List Byte} {x : Nat} (h : x < l.length) : l.getD x 0 = l[x] := by
  rw [List.getD_eq_getElem?_getD, List.getElem?_eq_getElem h]; rfl

theorem getD_left {a b : List Byte} {x : Nat} (h : x < a.length) : (a ++ b).getD x 0 = a.getD x 0 := by
  rw [List.getD_eq_getElem?_getD, List.getD_eq_getElem?_getD, List.getElem?_append_left h]

theorem getD_right {a b : List Byte} {x : Nat} (h : a.length ≤ x) : (a ++ b).getD x 0 = b.getD (x - a.length) 0 := by
  rw [List.getD_eq_getElem?_getD, List.getD_eq_getElem?_getD, List.getElem?_append_right h]

theorem getD_drop {a : List Byte} {n x : Nat} : (a.drop n).getD x 0 = a.getD (n + x) 0 := by
  rw [List.getD_eq_getElem?_getD, List.getD_eq_getElem?_getD, List.getElem?_drop]

theorem getD_take {a : List Byte} {n x : Nat} (h : x < n) : (a.take n).getD x 0 = a.getD x 0 := by
  rw [List.getD_eq_getElem?_getD, List.getD_eq_getElem?_getD, List.getElem?_take, if_pos h]

/-- What is found at `m` after `W` has been written at `m + d`. -/
theorem overlay {mem : Mem} {m d : Nat} {Q W : List Byte} (h : mem.Holds m Q) :
    ∃ Q' : List Byte, Q'.length = Q.length ∧ (mem.writes (m + d) W).Holds m Q' ∧
      ∀ x, x < Q.length → Q'.getD x 0 = if x < d ∨ d + W.length ≤ x then Q.getD x 0 else W.getD (x - d) 0 := by
  refine ⟨(List.range Q.length).map fun x => if x < d ∨ d + W.length ≤ x then Q.getD x 0 else W.getD (x - d) 0, by simp, ?_, ?_⟩
  · intro i hi
    have hi' : i < Q.length := by simpa using hi
    simp only [List.getElem_map, List.getElem_range]
    split
    · rw [writes_out (by omega), h i hi', getD_lt hi']
    · rw [writes_in (by omega) (by omega), Cell.byte_val, getD_lt (by omega)]
      congr 2; omega
  · intro x hx
    rw [getD_lt (by simpa using hx)]
    simp only [List.getElem_map, List.getElem_range]

theorem ahead_gen {ξ ρ : Type} (nxt : State → List Byte → State) (out : State → List Byte → List Byte) (Bd : State → List Byte → State × List Byte)
    (hout : ∀ s b, b.length = 16 → (out s b).length = 16)
    (hge : ∀ s P, 16 ≤ P.length → Bd s P = ((Bd (nxt s (P.take 16)) (P.drop 16)).1, out s (P.take 16) ++ (Bd (nxt s (P.take 16)) (P.drop 16)).2))
    (body : ξ → State → Nat → Nat → Nat → Prog ρ) (good : ξ → Nat → Prop) (R : State → Nat → Nat → ρ)
    (hblock : ∀ x mem s c m P, good x P.length → Mem.Holds mem m P → 16 ≤ P.length → mem.Writable c 16 → m + 16 ≤ c →
      ∃ x', good x' (P.length - 16) ∧ run (body x s c m P.length) mem =
        run (body x' (nxt s (P.take 16)) (c + 16) (m + 16) (P.length - 16)) (mem.writes c (out s (P.take 16))))
    (hlast : ∀ x mem s c m l, good x l.length → Mem.Holds mem m l → l.length < 16 → mem.Writable c l.length → m + l.length ≤ c →
      run (body x s c m l.length) mem = some (R (Bd s l).1 (c + l.length) (m + l.length), mem.writes c (Bd s l).2))
    (x : ξ) (mem : Mem) (s : State) (m d : Nat) (P : List Byte) (hg : good x P.length) (h : mem.Holds m P)
    (hw : mem.Writable (m + d) P.length) (hd : 16 ≤ d) :
    ∃ P', Fed d P (Bd s P').2 P' ∧ run (body x s (m + d) m P.length) mem =
      some (R (Bd s P').1 (m + d + P.length) (m + P.length), mem.writes (m + d) (Bd s P').2) := by
  induction hn : P.length using Nat.strongRecOn generalizing x mem s m P with
  | ind n ih =>
    subst hn
    by_cases h16 : 16 ≤ P.length
    · have hr : (out s (P.take 16)).length = 16 := hout _ _ (by simp; omega)
      obtain ⟨x', g', e'⟩ := hblock x mem s (m + d) m P hg h h16 (hw.mono (by omega) (by omega)) (by omega)
      have hdl : (P.drop 16).length = P.length - 16 := List.length_drop
      obtain ⟨Q, q1, q2, q3⟩ := overlay (d := d - 16) (W := out s (P.take 16)) (h.drop 16 h16)
      rw [show m + 16 + (d - 16) = m + d by omega] at q2
      obtain ⟨Q', ⟨f1, f2⟩, f3⟩ := ih Q.length (by omega) x' (mem.writes (m + d) (out s (P.take 16)))
        (nxt s (P.take 16)) (m + 16) Q (by rw [q1, hdl]; exact g') q2
        ((hw.mono (by omega) (by omega)).writes) rfl
      have htl : (P.take 16).length = 16 := by simp; omega
      have hlen : (P.take 16 ++ Q').length = P.length := by rw [List.length_append, f1, q1, hdl, htl]; omega
      have he : Bd s (P.take 16 ++ Q') = ((Bd (nxt s (P.take 16)) Q').1,
          out s (P.take 16) ++ (Bd (nxt s (P.take 16)) Q').2) := by
        rw [hge _ _ (by rw [hlen]; exact h16), List.take_append_of_le_length (by omega), List.take_of_length_le (by omega),
          List.drop_append_of_le_length (by omega), List.drop_of_length_le (by omega), List.nil_append]
      refine ⟨P.take 16 ++ Q', ⟨hlen, fun y hy => ?_⟩, ?_⟩
      · rw [he]
        show _ = if y < d then _ else (out _ _ ++ (Bd _ Q').2).getD (y - d) 0
        by_cases hy16 : y < 16
        · rw [getD_left (by omega), if_pos (by omega), getD_take hy16]
        · rw [getD_right (by omega), htl, f2 (y - 16) (by omega)]
          by_cases hyd : y < d
          · rw [if_pos (by omega), if_pos hyd, q3 _ (by omega), if_pos (by omega), getD_drop]
            congr 1; omega
          · rw [if_neg hyd]
            by_cases hyd2 : y < d + 16
            · rw [if_pos (by omega), getD_left (by omega), q3 _ (by omega), if_neg (by rw [hr]; omega)]
              congr 1; omega
            · rw [if_neg (by omega), getD_right (by omega), hr]
              congr 1; omega
      · rw [e', he, writes_append, hr, show m + d + 16 = m + 16 + d by omega]
        rw [q1, hdl] at f3
        rw [f3]
        congr 3 <;> omega
    · refine ⟨P, ⟨rfl, fun y hy => by rw [if_pos (by omega)]⟩, ?_⟩
      exact hlast x mem s (m + d) m P hg h (by omega) hw (by omega)

theorem ahead_body {ξ ρ : Type} (body : ξ → State → Nat → Nat → Nat → Prog ρ) (good : ξ → Nat → Prop) (R : State → Nat → ρ)
    (hblock : ∀ x mem s c m P, good x P.length → Mem.Holds mem m P → 16 ≤ P.length → mem.Writable c 16 → m + 16 ≤ c →
      ∃ x', good x' (P.length - 16) ∧ run (body x s c m P.length) mem =
        run (body x' (perm 8 (xorIn s (P.take 16))) (c + 16) (m + 16) (P.length - 16)) (mem.writes c (rate 16 (xorIn s (P.take 16)))))
    (hlast : ∀ x mem s c m l, good x l.length → Mem.Holds mem m l → l.length < 16 → mem.Writable c l.length → m + l.length ≤ c →
      run (body x s c m l.length) mem = some (R (encBody s l).1 (c + l.length), mem.writes c (encBody s l).2))
    (x : ξ) (mem : Mem) (s : State) (m d : Nat) (P : List Byte) (hg : good x P.length) (h : mem.Holds m P)
    (hw : mem.Writable (m + d) P.length) (hd : 16 ≤ d) :
    ∃ P', Fed d P (encBody s P').2 P' ∧ run (body x s (m + d) m P.length) mem =
      some (R (encBody s P').1 (m + d + P.length), mem.writes (m + d) (encBody s P').2) :=
  ahead_gen (fun s b => perm 8 (xorIn s b)) (fun s b => rate 16 (xorIn s b)) encBody (fun _ _ _ => length_rate _ _ (by omega)) encBody_of_ge
    body good (fun s c _ => R s c) hblock hlast x mem s m d P hg h hw hd

theorem aheadDec_body {ξ ρ : Type} (body : ξ → State → Nat → Nat → Nat → Prog ρ) (good : ξ → Nat → Prop) (R : State → Nat → ρ)
    (hblock : ∀ x mem s m c C, good x C.length → Mem.Holds mem c C → 16 ≤ C.length → mem.Writable m 16 → c + 16 ≤ m →
      ∃ x', good x' (C.length - 16) ∧ run (body x s m c C.length) mem =
        run (body x' (perm 8 (xorIn s (xorBytes (rate 16 s) (C.take 16)))) (m + 16) (c + 16) (C.length - 16))
          (mem.writes m (xorBytes (rate 16 s) (C.take 16))))
    (hlast : ∀ x mem s m c l, good x l.length → Mem.Holds mem c l → l.length < 16 → mem.Writable m l.length → c + l.length ≤ m →
      run (body x s m c l.length) mem = some (R (decBody s l).1 (c + l.length), mem.writes m (decBody s l).2))
    (x : ξ) (mem : Mem) (s : State) (c d : Nat) (C : List Byte) (hg : good x C.length) (h : mem.Holds c C)
    (hw : mem.Writable (c + d) C.length) (hd : 16 ≤ d) :
    ∃ C', Fed d C (decBody s C').2 C' ∧ run (body x s (c + d) c C.length) mem =
      some (R (decBody s C').1 (c + C.length), mem.writes (c + d) (decBody s C').2) :=
  ahead_gen (fun s b => perm 8 (xorIn s (xorBytes (rate 16 s) b))) (fun s b => xorBytes (rate 16 s) b) decBody
    (fun s b hb => by rw [length_xorBytes, length_rate _ _ (by omega), hb]; rfl) decBody_of_ge
    body good (fun s _ c => R s c) hblock hlast x mem s c d C hg h hw hd

/-- The same for a loop of block steps followed by a step for the last block. -/
theorem ahead_loop {τ ρ : Type} (E : State → τ) (R : State → Nat → ρ)
    {cond : τ × Nat × Nat × Nat → Bool} {step : τ × Nat × Nat × Nat → Prog (τ × Nat × Nat × Nat)} {fin : τ × Nat × Nat × Nat → Prog ρ}
    (hc : ∀ s c m n, cond (s, c, m, n) = decide (n ≥ 16))
    (hstep : ∀ (mem : Mem) (s : State) (c m n : Nat) (P : List Byte), mem.Holds m P → 16 ≤ P.length →
      mem.Writable c 16 → (c ≤ m ∨ m + P.length ≤ c) →
      run (step (E s, c, m, n)) mem = some ((E (perm 8 (xorIn s (P.take 16))), c + 16, m + 16, n - 16),
        mem.writes c (rate 16 (xorIn s (P.take 16)))))
    (hfin : ∀ (mem : Mem) (t : State) (c m : Nat) (l : List Byte), mem.Holds m l → l.length < 16 → mem.Writable c l.length →
      (c ≤ m ∨ m + l.length ≤ c) → run (fin (E t, c, m, l.length)) mem =
        some (R (xorIn t (pad 16 l)) (c + l.length), mem.writes c (rate l.length (xorIn t (pad 16 l)))))
    (mem : Mem) (s : State) (m d : Nat) (P : List Byte) (h : mem.Holds m P) (hw : mem.Writable (m + d) P.length) (hd : 16 ≤ d) :
    ∃ P', Fed d P (encBody s P').2 P' ∧ run (loop (P.length + 1) cond step (E s, m + d, m, P.length) >>= fin) mem =
      some (R (encBody s P').1 (m + d + P.length), mem.writes (m + d) (encBody s P').2) := by
  refine ahead_body (fun f s c m n => loop f cond step (E s, c, m, n) >>= fin) (fun f n => n < f) R ?_ ?_ (P.length + 1) mem s m d P
    (Nat.lt_succ_self _) h hw hd
  · intro f mem s c m P hf h h16 hw hcm
    obtain ⟨g, rfl⟩ : ∃ g, f = g + 1 := ⟨f - 1, by omega⟩
    refine ⟨g, by omega, ?_⟩
    have hl : (P.take 16).length = 16 := by simp; omega
    have := hstep mem s c m P.length (P.take 16) (h.take 16) (by omega) hw (.inr (by omega))
    rw [List.take_take, Nat.min_self] at this
    rw [run_bind, run_loop_step (by rw [hc]; simpa using h16) this, ← run_bind]
  · intro f mem s c m l hf h h16 hw hcm
    obtain ⟨g, rfl⟩ : ∃ g, f = g + 1 := ⟨f - 1, by omega⟩
    rw [run_bind_of (run_loop_done (by rw [hc]; simpa using h16)), hfin mem s c m l h h16 hw (.inr hcm), encBody_of_lt s l h16]

theorem Fed.body {d : Nat} {P P' T C : List Byte} (hd : 0 < d) (h : Fed d P C P') (hC : C.length = P'.length) : Fed d P (C ++ T) P' :=
  ⟨h.1, fun x hx => by rw [h.2 x hx, getD_left (by rw [hC, h.1]; omega)]⟩

theorem aheadDec_loop {τ ρ : Type} (E : State → τ) (R : State → Nat → ρ)
    {cond : τ × Nat × Nat × Nat → Bool} {step : τ × Nat × Nat × Nat → Prog (τ × Nat × Nat × Nat)} {fin : τ × Nat × Nat × Nat → Prog ρ}
    (hc : ∀ s m c n, cond (s, m, c, n) = decide (n ≥ 16))
    (hstep : ∀ (mem : Mem) (s : State) (m c n : Nat) (C : List Byte), mem.Holds c C → 16 ≤ C.length →
      mem.Writable m 16 → (m ≤ c ∨ c + C.length ≤ m) →
      run (step (E s, m, c, n)) mem = some ((E (perm 8 (xorIn s (xorBytes (rate 16 s) (C.take 16)))), m + 16, c + 16, n - 16),
        mem.writes m (xorBytes (rate 16 s) (C.take 16))))
    (hfin : ∀ (mem : Mem) (t : State) (m c : Nat) (l : List Byte), mem.Holds c l → l.length < 16 → mem.Writable m l.length →
      (m ≤ c ∨ c + l.length ≤ m) → run (fin (E t, m, c, l.length)) mem =
        some (R (xorIn t (pad 16 (xorBytes (rate l.length t) l))) (c + l.length), mem.writes m (xorBytes (rate l.length t) l)))
    (mem : Mem) (s : State) (c d : Nat) (C : List Byte) (h : mem.Holds c C) (hw : mem.Writable (c + d) C.length) (hd : 16 ≤ d) :
    ∃ C', Fed d C (decBody s C').2 C' ∧ run (loop (C.length + 1) cond step (E s, c + d, c, C.length) >>= fin) mem =
      some (R (decBody s C').1 (c + C.length), mem.writes (c + d) (decBody s C').2) := by
  refine aheadDec_body (fun f s m c n => loop f cond step (E s, m, c, n) >>= fin) (fun f n => n < f) R ?_ ?_ (C.length + 1) mem s c d C
    (Nat.lt_succ_self _) h hw hd
  · intro f mem s m c C hf h h16 hw hcm
    obtain ⟨g, rfl⟩ : ∃ g, f = g + 1 := ⟨f - 1, by omega⟩
    refine ⟨g, by omega, ?_⟩
    have hl : (C.take 16).length = 16 := by simp; omega
    have := hstep mem s m c C.length (C.take 16) (h.take 16) (by omega) hw (.inr (by omega))
    rw [List.take_take, Nat.min_self] at this
    rw [run_bind, run_loop_step (by rw [hc]; simpa using h16) this, ← run_bind]
  · intro f mem s m c l hf h h16 hw hcm
    obtain ⟨g, rfl⟩ : ∃ g, f = g + 1 := ⟨f - 1, by omega⟩
    rw [run_bind_of (run_loop_done (by rw [hc]; simpa using h16)), hfin mem s m c l h h16 hw (.inr hcm), decBody_of_lt s l h16]

/-- After the loop, what is found at `c` is a string whose body is what has been decrypted; its last 16 bytes are the tag that is compared. -/
theorem decAhead_mem {mem : Mem} {s : State} {c d : Nat} {C B : List Byte} (h16 : 16 ≤ C.length) (hd : 16 ≤ d) (h : mem.Holds c C)
    (hF : Fed d (ctBody C) (decBody s B).2 B) :
    ∃ C', ctBody C' = B ∧ Fed d C (decBody s (ctBody C')).2 C' ∧
      (mem.writes (c + d) (decBody s B).2).Holds (c + (C.length - 16)) (ctTag C') := by
  have hbl : (ctBody C).length = C.length - 16 := by simp [ctBody]
  have hlen : (decBody s B).2.length = C.length - 16 := by rw [Ref.length_decBody, hF.1, hbl]
  obtain ⟨C', h1, h2, h3⟩ := overlay (d := d) (W := (decBody s B).2) h
  have hb : ctBody C' = B := by
    apply List.ext_getElem (by rw [hF.1, hbl, ← h1]; simp [ctBody])
    intro x hx hx'
    rw [← getD_lt hx, ← getD_lt hx', hF.2 x (by rw [← hF.1]; exact hx')]
    have hx2 : x < C.length - 16 := by rw [← hbl, ← hF.1]; exact hx'
    unfold ctBody
    rw [getD_take (by rw [h1]; exact hx2), h3 x (by omega)]
    by_cases hxd : x < d
    · rw [if_pos (by omega), if_pos hxd, getD_take hx2]
    · rw [if_neg (by omega), if_neg hxd]
  refine ⟨C', hb, ⟨h1, fun x hx => ?_⟩, ?_⟩
  · rw [h3 x hx, hb]
    by_cases hxd : x < d
    · rw [if_pos (by omega), if_pos hxd]
    · rw [if_neg (by omega), if_neg hxd]
  · have := h2.drop (C'.length - 16) (by omega)
    unfold ctTag
    rwa [h1] at this ⊢

theorem encAhead_of {e : Endian} {X : Prog Int} {mem : Mem} {clen m d : Nat} {K N A P : List Byte} (hd : 16 ≤ d)
    (h : ∃ P', Fed d P (encBody (aeadAd A (aeadInit K N)) P').2 P' ∧ run X mem =
      some (0, (mem.writes clen (repr64 e (BitVec.ofNat 64 (P.length + 16)))).writes (m + d) (aeadEncrypt K N A P'))) :
    ∃ P', Fed d P (aeadEncrypt K N A P') P' ∧ run X mem = some (0, encPost e mem (m + d) clen K N A P') := by
  obtain ⟨P', hF, hr⟩ := h
  refine ⟨P', Fed.body (by omega) hF (Ref.length_encBody _ _), ?_⟩
  rw [hr, ← hF.1]
  rfl

theorem decAhead_of {e : Endian} {X : Prog Int} {mem : Mem} {mlen c d : Nat} {K N A C : List Byte}
    (h : ∃ C', Fed d C (decBody (aeadAd A (aeadInit K N)) (ctBody C')).2 C' ∧ run X mem =
      some (if ctTag C' = aeadDecTag K N A (ctBody C') then 0 else -1,
        (mem.writes mlen (repr64 e (BitVec.ofNat 64 (C.length - 16)))).writes (c + d) (aeadCandidate K N A (ctBody C')))) :
    ∃ C', Fed d C (aeadCandidate K N A (ctBody C')) C' ∧ run X mem =
      some (if ctTag C' = aeadDecTag K N A (ctBody C') then 0 else -1, decPost e mem (c + d) mlen K N A C') := by
  obtain ⟨C', hF, hr⟩ := h
  refine ⟨C', hF, ?_⟩
  rw [hr, ← hF.1]
  rfl

end Ascon.Impl
