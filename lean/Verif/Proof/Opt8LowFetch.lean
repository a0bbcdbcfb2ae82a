import Verif.Proof.Opt8Fetch
/-!
# The byte-oriented low-size code reads and writes every byte once
-/

namespace Ascon.Opt8

open Ascon.C
open Ascon.C.Prog (require ifc loop forUp loadB storeB)

variable {V : Perms} {e : Endian}

theorem acc_when_true {c : Bool} {s : State} {t : Prog State} {rs ws : List Nat} (hc : c = true)
    (h : Acc Any1 t rs ws) : Acc Any1 (when c s t) rs ws := by
  subst hc; exact Acc.ifc (fun _ => h) (fun h => by cases h)

theorem acc_when_false {c : Bool} {s : State} {t : Prog State} (hc : c = false) : Acc Any1 (when c s t) [] [] := by
  subst hc; exact Acc.ifc (fun h => by cases h) (fun _ => Acc.pure trivial)

theorem acc_when_any {c : Bool} {s : State} {t : Prog State} (h : Acc Any1 t [] []) : Acc Any1 (when c s t) [] [] :=
  Acc.ifc (fun _ => h) (fun _ => Acc.pure trivial)

theorem acc_whenU_true {c : Bool} {t : Prog Unit} {rs ws : List Nat} (hc : c = true)
    (h : Acc Any1 t rs ws) : Acc Any1 (whenU c t) rs ws := by
  subst hc; exact Acc.ifc (fun _ => h) (fun h => by cases h)

theorem acc_whenU_false {c : Bool} {t : Prog Unit} (hc : c = false) : Acc Any1 (whenU c t) [] [] := by
  subst hc; exact Acc.ifc (fun h => by cases h) (fun _ => Acc.pure trivial)

theorem acc_permNr (h : V.Silent e) (nr : Nat) (s : State) : Acc Any1 (permNr V e nr s) [] [] := by
  unfold permNr
  split
  · exact h.p12 _
  · exact h.p8 _

/-- An optional statement. -/
theorem acc_when {c : Bool} {s : State} {t : Prog State} {rs ws : List Nat} (h : Acc Any1 t rs ws) :
    Acc Any1 (when c s t) (if c then rs else []) (if c then ws else []) := by
  cases c with
  | true => exact acc_when_true rfl h
  | false => exact acc_when_false rfl

theorem acc_whenU {c : Bool} {t : Prog Unit} {rs ws : List Nat} (h : Acc Any1 t rs ws) :
    Acc Any1 (whenU c t) (if c then rs else []) (if c then ws else []) := by
  cases c with
  | true => exact acc_whenU_true rfl h
  | false => exact acc_whenU_false rfl

theorem acc_nrRate {cfg : Cfg} {mode : Nat} (p : Nat × Nat) (h : cfg ≠ .comb → p = if cfg = .aead then (8, 16) else (12, 8))
    (h' : cfg = .comb → p = if (mode &&& ASCON_HASH) != 0 then (12, 8) else (8, 16)) :
    Acc (fun r => r = p) (nrRate cfg mode) [] [] := by
  cases cfg with
  | aead => exact Acc.pure (h (by simp)).symm
  | hash => exact Acc.pure (h (by simp)).symm
  | comb =>
    have h' := h' rfl
    subst h'
    unfold nrRate
    cases hm : ((mode &&& ASCON_HASH) != 0) with
    | true => exact .branch (.branch (.ret rfl))
    | false => exact .branch (.branch (.ret rfl))

/-- The loop of `ascon_update` and the final block, given the step. -/
theorem acc_update_of {cfg : Cfg} {mode nr rate a b : Nat} (hr : 0 < rate) (hr8 : rate = 8 ∨ rate = 16)
    (hnr : Acc (fun r => r = (nr, rate)) (nrRate cfg mode) [] [])
    (ha : a = 0 ∨ a = 1) (hb : b = 0 ∨ b = 1)
    (hstep : ∀ s c m n, rate ≤ n → Acc (fun r => r.2 = (c + rate, m + rate, n - rate)) (updStep V cfg mode nr rate e (s, c, m, n))
      (List.range' m (a * rate)) (List.range' c (b * rate)))
    (hfin : ∀ s c m n, n < rate → Acc Any1 (updFinal cfg mode e (s, c, m, n))
      (List.range' m (a * n)) (List.range' c (b * n)))
    (s : State) (c m n : Nat) :
    Acc Any1 (ascon_update V cfg e s c m n mode) (List.range' m (a * n)) (List.range' c (b * n)) := by
  unfold ascon_update
  refine Acc.bind0 hnr ?_
  rintro ⟨_, _⟩ h
  cases h
  have hdm : n / rate * rate ≤ n := Nat.div_mul_le_self n rate
  have hmod : n - n / rate * rate < rate := by
    have h1 := Nat.mod_lt n hr
    have h2 := Nat.div_add_mod' n rate
    omega
  have key : ∀ (b p : Nat), b = 0 ∨ b = 1 → List.range' p (b * n) =
      List.range' p (n / rate * (b * rate)) ++ List.range' (p + n / rate * rate) (b * (n - n / rate * rate)) := by
    intro b p hb
    rcases hb with rfl | rfl
    · simp
    · simp only [Nat.one_mul]
      exact (range'_join rfl (by omega)).symm
  have key' : ∀ (b p i : Nat), b = 0 ∨ b = 1 → List.range' (p + i * rate) (b * rate) =
      List.range' (p + i * (b * rate)) (b * rate) := by
    intro b p i hb
    rcases hb with rfl | rfl
    · simp
    · simp only [Nat.one_mul]
  refine Acc.bind' (R := fun r => r.2 = (c + n / rate * rate, m + n / rate * rate, n - n / rate * rate)) ?_ ?_
    (key _ _ ha) (key _ _ hb)
  · refine Acc.blocks (At := fun i (r : State × Nat × Nat × Nat) =>
      r.2 = (c + i * rate, m + i * rate, n - i * rate)) (q := n / rate) (by simp) ?_ ?_ ?_
    · rintro i ⟨s, x, y, d⟩ hi h
      simp only [Prod.mk.injEq] at h
      obtain ⟨rfl, rfl, rfl⟩ := h
      simp only [decide_eq_decide]
      have h1 : i * rate ≤ n / rate * rate := Nat.mul_le_mul_right _ hi
      constructor
      · intro h
        rcases Nat.lt_or_ge i (n / rate) with h' | h'
        · exact h'
        · have : i = n / rate := by omega
          subst this; omega
      · intro h
        have : (i + 1) * rate ≤ n / rate * rate := Nat.mul_le_mul_right _ h
        rw [Nat.add_mul] at this
        omega
    · rintro i ⟨s, x, y, d⟩ hi h'
      simp only [Prod.mk.injEq] at h'
      obtain ⟨rfl, rfl, rfl⟩ := h'
      have : (i + 1) * rate ≤ n / rate * rate := Nat.mul_le_mul_right _ hi
      rw [Nat.add_mul] at this
      refine ((hstep s _ _ _ (by omega)).mono ?_).cast (key' _ _ _ ha) (key' _ _ _ hb)
      rintro ⟨s, x, y, d⟩ h'
      simp only [Prod.mk.injEq] at h' ⊢
      obtain ⟨rfl, rfl, rfl⟩ := h'
      rw [Nat.add_mul]
      omega
    · have := Nat.div_le_self n rate
      omega
  · rintro ⟨s, x, y, d⟩ h'
    simp only [Prod.mk.injEq] at h'
    obtain ⟨rfl, rfl, rfl⟩ := h'
    exact hfin _ _ _ _ hmod

theorem acc_updStep (h : V.Silent e) {cfg : Cfg} {mode nr rate : Nat} (s : State) (c m n : Nat) {rs ws : List Nat}
    (hr : (if decide (mode = 1 ∨ mode = 9) then List.range' m 8 else []) ++
      (if cfg.hasAead then ((if decide (mode = 3) then List.range' m 8 else []) ++ ((if decide (mode = 7) then List.range' m 8 else []) ++
        ((if decide (mode = 1) then List.range' (m + 8) 8 else []) ++
          ((if decide (mode = 3) then List.range' (m + 8) 8 else []) ++
            (if decide (mode = 7) then List.range' (m + 8) 8 else []))))) else []) = rs)
    (hw : (if cfg.hasHash then (if decide (mode = 2 ∨ mode = 10) then List.range' c 8 else []) else []) ++
      (if cfg.hasAead then ((if decide (mode = 3) then List.range' c 8 else []) ++ ((if decide (mode = 7) then List.range' c 8 else []) ++
        ((if decide (mode = 1) then [] else []) ++
          ((if decide (mode = 3) then List.range' (c + 8) 8 else []) ++
            (if decide (mode = 7) then List.range' (c + 8) 8 else []))))) else []) = ws) :
    Acc (fun r => r.2 = (c + rate, m + rate, n - rate)) (updStep V cfg mode nr rate e (s, c, m, n)) rs ws := by
  unfold updStep
  subst hr hw
  cases cfg with
  | aead =>
    refine Acc.cast (Acc.bind (acc_when acc_ABSORB) fun _ _ =>
      Acc.bind (acc_when acc_ENCRYPT) fun _ _ => Acc.bind (acc_when acc_DECRYPT) fun _ _ =>
      Acc.bind (acc_when acc_ABSORB) fun _ _ => Acc.bind (acc_when acc_ENCRYPT) fun _ _ =>
      Acc.bind (acc_when acc_DECRYPT) fun _ _ => Acc.bind (acc_permNr h _ _) fun _ _ => Acc.pure rfl) ?_ ?_
    · simp only [Cfg.hasAead, Cfg.hasHash, if_true, if_false, Bool.false_eq_true, List.append_nil, List.nil_append, List.append_assoc, ite_self]
    · simp only [Cfg.hasAead, Cfg.hasHash, if_true, if_false, Bool.false_eq_true, List.append_nil, List.nil_append, List.append_assoc, ite_self]
  | hash =>
    refine Acc.cast (Acc.bind (acc_when acc_ABSORB) fun _ _ => Acc.bind (acc_whenU acc_SQUEEZE) fun _ _ =>
      Acc.bind (R := Any1) (Acc.pure trivial) fun _ _ =>
      Acc.bind (acc_when_any (acc_permNr h _ _)) fun _ _ => Acc.pure rfl) ?_ ?_
    · simp only [Cfg.hasAead, Cfg.hasHash, if_true, if_false, Bool.false_eq_true, List.append_nil, List.nil_append, List.append_assoc, ite_self]
    · simp only [Cfg.hasAead, Cfg.hasHash, if_true, if_false, Bool.false_eq_true, List.append_nil, List.nil_append, List.append_assoc, ite_self]
  | comb =>
    refine Acc.cast (Acc.bind (acc_when acc_ABSORB) fun _ _ => Acc.bind (acc_whenU acc_SQUEEZE) fun _ _ =>
      Acc.bind (acc_when acc_ENCRYPT) fun _ _ => Acc.bind (acc_when acc_DECRYPT) fun _ _ =>
      Acc.bind (acc_when acc_ABSORB) fun _ _ => Acc.bind (acc_when acc_ENCRYPT) fun _ _ =>
      Acc.bind (acc_when acc_DECRYPT) fun _ _ => Acc.bind (acc_when_any (acc_permNr h _ _)) fun _ _ => Acc.pure rfl) ?_ ?_
    · simp only [Cfg.hasAead, Cfg.hasHash, if_true, if_false, Bool.false_eq_true, List.append_nil, List.nil_append, List.append_assoc, ite_self]
    · simp only [Cfg.hasAead, Cfg.hasHash, if_true, if_false, Bool.false_eq_true, List.append_nil, List.nil_append, List.append_assoc, ite_self]

/-- The first part of the final block of the AEAD builds. -/
theorem acc_final1 {mode : Nat} (s : State) (c m n : Nat) {k : Nat} (hk : k = 8 ∧ n ≥ 8 ∨ k = 0 ∧ n < 8) :
    Acc (fun r : State × Nat × Nat × Nat × Nat => r.2.2 = (c + k, m + k, n - k)) (ifc (decide (n ≥ 8))
          (do
            let s ← when (decide (mode = 1)) s (ABSORB e s 0 m 8)
            let s ← when (decide (mode = 3)) s (ENCRYPT e s 0 c m 8)
            let s ← when (decide (mode = 7)) s (DECRYPT e s 0 c m 8)
            pure (s, 1, c + 8, m + 8, n - 8))
          (pure (s, 0, c, m, n)))
      ((if decide (mode = 1) then List.range' m k else []) ++ ((if decide (mode = 3) then List.range' m k else []) ++
        (if decide (mode = 7) then List.range' m k else [])))
      ((if decide (mode = 3) then List.range' c k else []) ++ (if decide (mode = 7) then List.range' c k else [])) := by
  refine Acc.ifc (fun h => ?_) (fun h => ?_)
  · have := of_decide_eq_true h
    have : k = 8 := by omega
    subst this
    refine Acc.cast (Acc.bind (acc_when acc_ABSORB) fun _ _ => Acc.bind (acc_when acc_ENCRYPT) fun _ _ =>
      Acc.bind (acc_when acc_DECRYPT) fun _ _ => Acc.pure rfl) ?_ ?_
    · simp only [List.append_nil]
    · simp only [List.append_nil, ite_self, List.nil_append]
  · have := of_decide_eq_false h
    have : k = 0 := by omega
    subst this
    refine Acc.cast (rs := []) (ws := []) (Acc.pure rfl) ?_ ?_
    · simp only [List.range'_zero, ite_self, List.append_nil]
    · simp only [List.range'_zero, ite_self, List.append_nil]

theorem acc_updFinal (cfg : Cfg) {mode : Nat} (s : State) (c m n : Nat) {k : Nat} {rs ws : List Nat}
    (hk : if cfg.hasAead then (k = 8 ∧ n ≥ 8 ∨ k = 0 ∧ n < 8) else k = 0)
    (hr : (if cfg.hasAead then ((if decide (mode = 1) then List.range' m k else []) ++
        ((if decide (mode = 3) then List.range' m k else []) ++ ((if decide (mode = 7) then List.range' m k else []) ++
        ((if decide (mode = 3) then List.range' (m + k) (n - k) else []) ++
          (if decide (mode = 7) then List.range' (m + k) (n - k) else []))))) else []) ++
        (if decide (mode = 1 ∨ mode = 9) then List.range' (m + k) (n - k) else []) = rs)
    (hw : (if cfg.hasAead then ((if decide (mode = 3) then List.range' c k else []) ++
        ((if decide (mode = 7) then List.range' c k else []) ++
        ((if decide (mode = 3) then List.range' (c + k) (n - k) else []) ++
          (if decide (mode = 7) then List.range' (c + k) (n - k) else [])))) else []) ++
        (if cfg.hasHash then (if decide (mode = 2 ∨ mode = 10) then List.range' (c + k) (n - k) else []) else []) = ws) :
    Acc Any1 (updFinal cfg mode e (s, c, m, n)) rs ws := by
  unfold updFinal
  subst hr hw
  cases cfg with
  | aead =>
    refine Acc.bind' (acc_final1 s c m n hk)
      (r2 := ((if decide (mode = 3) then List.range' (m + k) (n - k) else []) ++
          ((if decide (mode = 7) then List.range' (m + k) (n - k) else []) ++
            (if decide (mode = 1 ∨ mode = 9) then List.range' (m + k) (n - k) else []))))
      (w2 := ((if decide (mode = 3) then List.range' (c + k) (n - k) else []) ++
          (if decide (mode = 7) then List.range' (c + k) (n - k) else []))) ?_ ?_ ?_
    · rintro ⟨s, i, x, y, d⟩ h'
      simp only [Prod.mk.injEq] at h'
      obtain ⟨rfl, rfl, rfl⟩ := h'
      refine Acc.cast (Acc.bind (acc_when acc_ENCRYPT) fun _ _ => Acc.bind (acc_when acc_DECRYPT) fun _ _ =>
        Acc.bind (Acc.pure (R := fun r => r = _) rfl) fun _ h => by
          subst h; exact Acc.bind (acc_when acc_ABSORB) fun _ _ => acc_xorB) ?_ ?_
      · simp only [Cfg.hasAead, Cfg.hasHash, if_true, if_false, Bool.false_eq_true, List.append_nil, List.nil_append, List.append_assoc, ite_self]
      · simp only [Cfg.hasAead, Cfg.hasHash, if_true, if_false, Bool.false_eq_true, List.append_nil, List.nil_append, List.append_assoc, ite_self]
    · simp only [Cfg.hasAead, Cfg.hasHash, if_true, if_false, Bool.false_eq_true, List.append_nil, List.nil_append, List.append_assoc, ite_self]
    · simp only [Cfg.hasAead, Cfg.hasHash, if_true, if_false, Bool.false_eq_true, List.append_nil, List.nil_append, List.append_assoc, ite_self]
  | comb =>
    refine Acc.bind' (acc_final1 s c m n hk)
      (r2 := ((if decide (mode = 3) then List.range' (m + k) (n - k) else []) ++
          ((if decide (mode = 7) then List.range' (m + k) (n - k) else []) ++
            (if decide (mode = 1 ∨ mode = 9) then List.range' (m + k) (n - k) else []))))
      (w2 := ((if decide (mode = 3) then List.range' (c + k) (n - k) else []) ++
          ((if decide (mode = 7) then List.range' (c + k) (n - k) else []) ++
            (if decide (mode = 2 ∨ mode = 10) then List.range' (c + k) (n - k) else [])))) ?_ ?_ ?_
    · rintro ⟨s, i, x, y, d⟩ h'
      simp only [Prod.mk.injEq] at h'
      obtain ⟨rfl, rfl, rfl⟩ := h'
      refine Acc.cast (Acc.bind (acc_when acc_ENCRYPT) fun _ _ => Acc.bind (acc_when acc_DECRYPT) fun _ _ =>
        Acc.bind (Acc.pure (R := fun r => r = _) rfl) fun _ h => by
          subst h; exact Acc.bind (acc_when acc_ABSORB) fun _ _ => Acc.bind (acc_whenU acc_SQUEEZE) fun _ _ => acc_xorB) ?_ ?_
      · simp only [Cfg.hasAead, Cfg.hasHash, if_true, if_false, Bool.false_eq_true, List.append_nil, List.nil_append, List.append_assoc, ite_self]
      · simp only [Cfg.hasAead, Cfg.hasHash, if_true, if_false, Bool.false_eq_true, List.append_nil, List.nil_append, List.append_assoc, ite_self]
    · simp only [Cfg.hasAead, Cfg.hasHash, if_true, if_false, Bool.false_eq_true, List.append_nil, List.nil_append, List.append_assoc, ite_self]
    · simp only [Cfg.hasAead, Cfg.hasHash, if_true, if_false, Bool.false_eq_true, List.append_nil, List.nil_append, List.append_assoc, ite_self]
  | hash =>
    have hk : k = 0 := hk
    subst hk
    refine Acc.cast (Acc.bind (Acc.pure (R := fun r => r = _) rfl) fun _ h => by
      subst h; exact Acc.bind (acc_when acc_ABSORB) fun _ _ => Acc.bind (acc_whenU acc_SQUEEZE) fun _ _ => acc_xorB) ?_ ?_
    · simp only [Cfg.hasAead, Cfg.hasHash, if_true, if_false, Bool.false_eq_true, List.append_nil, List.nil_append, List.append_assoc, ite_self]
      rfl
    · simp only [Cfg.hasAead, Cfg.hasHash, if_true, if_false, Bool.false_eq_true, List.append_nil, List.nil_append, List.append_assoc, ite_self]
      rfl

theorem acc_updFinal_aead {cfg : Cfg} (hc : cfg ≠ .hash) {mode b : Nat}
    (hm : mode = 1 ∧ b = 0 ∨ mode = 3 ∧ b = 1 ∨ mode = 7 ∧ b = 1) (s : State) (c m n : Nat) :
    Acc Any1 (updFinal cfg mode e (s, c, m, n)) (List.range' m n) (List.range' c (b * n)) := by
  let k := if n ≥ 8 then 8 else 0
  have hk : k = 8 ∧ n ≥ 8 ∨ k = 0 ∧ n < 8 := by simp only [k]; split <;> omega
  have ha : cfg.hasAead = true := by cases cfg <;> first | rfl | exact absurd rfl hc
  have hs : ∀ p, List.range' p n = List.range' p k ++ List.range' (p + k) (n - k) :=
    fun p => (range'_join rfl (by omega)).symm
  refine acc_updFinal cfg s c m n (k := k) (by rw [ha]; exact hk) ?_ ?_
  · rw [ha, hs m]
    rcases hm with ⟨rfl, rfl⟩ | ⟨rfl, rfl⟩ | ⟨rfl, rfl⟩ <;> simp
  · rw [ha]
    rcases hm with ⟨rfl, rfl⟩ | ⟨rfl, rfl⟩ | ⟨rfl, rfl⟩
    · simp
    · rw [Nat.one_mul, hs c]; simp
    · rw [Nat.one_mul, hs c]; simp

theorem acc_updFinal_hash {cfg : Cfg} (hc : cfg ≠ .aead) {mode a b : Nat}
    (hm : mode = 9 ∧ a = 1 ∧ b = 0 ∨ mode = 10 ∧ a = 0 ∧ b = 1) (s : State) (c m n : Nat) (hn : n < 8) :
    Acc Any1 (updFinal cfg mode e (s, c, m, n)) (List.range' m (a * n)) (List.range' c (b * n)) := by
  have hh : cfg.hasHash = true := by cases cfg <;> first | rfl | exact absurd rfl hc
  refine acc_updFinal cfg s c m n (k := 0) (by split <;> omega) ?_ ?_
  · rcases hm with ⟨rfl, rfl, rfl⟩ | ⟨rfl, rfl, rfl⟩ <;> simp
  · rw [hh]
    rcases hm with ⟨rfl, rfl, rfl⟩ | ⟨rfl, rfl, rfl⟩ <;> simp

/-- AEAD modes: absorb (1), encrypt (3), decrypt (7). -/
theorem acc_update_aead (h : V.Silent e) (cfg : Cfg) (hcfg : cfg ≠ .hash) (mode b : Nat)
    (hm : mode = 1 ∧ b = 0 ∨ mode = 3 ∧ b = 1 ∨ mode = 7 ∧ b = 1) (s : State) (c m n : Nat) :
    Acc Any1 (ascon_update V cfg e s c m n mode) (List.range' m n) (List.range' c (b * n)) := by
  refine (acc_update_of (nr := 8) (rate := 16) (a := 1) (b := b) (by decide) (.inr rfl) ?_ (.inr rfl) (by omega) ?_ ?_ s c m n).cast
    (by rw [Nat.one_mul]) rfl
  · refine acc_nrRate _ (fun hc => ?_) (fun hc => ?_)
    · cases cfg with
      | aead => rfl
      | hash => exact absurd rfl hcfg
      | comb => exact absurd rfl hc
    · rcases hm with ⟨rfl, rfl⟩ | ⟨rfl, rfl⟩ | ⟨rfl, rfl⟩ <;> rfl
  · intro s c m n hn
    have hs : ∀ p, List.range' p 16 = List.range' p 8 ++ List.range' (p + 8) 8 := fun p => range'_split p 8 8
    have ha : cfg.hasAead = true := by cases cfg <;> first | rfl | exact absurd rfl hcfg
    refine acc_updStep h s c m n ?_ ?_
    · rw [ha, Nat.one_mul, hs]
      rcases hm with ⟨rfl, rfl⟩ | ⟨rfl, rfl⟩ | ⟨rfl, rfl⟩ <;> simp
    · rw [ha]
      rcases hm with ⟨rfl, rfl⟩ | ⟨rfl, rfl⟩ | ⟨rfl, rfl⟩
      · simp
      · rw [Nat.one_mul, hs]; simp
      · rw [Nat.one_mul, hs]; simp
  · intro s c m n hn
    rw [Nat.one_mul]
    exact acc_updFinal_aead hcfg hm s c m n

/-- Hash modes: absorb (9), squeeze (10). -/
theorem acc_update_hash (h : V.Silent e) (cfg : Cfg) (hcfg : cfg ≠ .aead) (mode a b : Nat)
    (hm : mode = 9 ∧ a = 1 ∧ b = 0 ∨ mode = 10 ∧ a = 0 ∧ b = 1) (s : State) (c m n : Nat) :
    Acc Any1 (ascon_update V cfg e s c m n mode) (List.range' m (a * n)) (List.range' c (b * n)) := by
  refine acc_update_of (nr := 12) (rate := 8) (a := a) (b := b) (by decide) (.inl rfl) ?_ (by omega) (by omega) ?_ ?_ s c m n
  · refine acc_nrRate _ (fun hc => ?_) (fun hc => ?_)
    · cases cfg with
      | aead => exact absurd rfl hcfg
      | hash => rfl
      | comb => exact absurd rfl hc
    · rcases hm with ⟨rfl, rfl, rfl⟩ | ⟨rfl, rfl, rfl⟩ <;> rfl
  · intro s c m n hn
    have ha : cfg.hasHash = true := by cases cfg <;> first | rfl | exact absurd rfl hcfg
    refine acc_updStep h s c m n ?_ ?_
    · rcases hm with ⟨rfl, rfl, rfl⟩ | ⟨rfl, rfl, rfl⟩ <;> simp
    · rw [ha]
      rcases hm with ⟨rfl, rfl, rfl⟩ | ⟨rfl, rfl, rfl⟩ <;> simp
  · intro s c m n hn
    exact acc_updFinal_hash hcfg hm s c m n hn

theorem acc_lowAdata (h : V.Silent e) (cfg : Cfg) (hcfg : cfg ≠ .hash) (s : State) (p n : Nat) :
    Acc Any1 (lowAdata V cfg e s p n) (List.range' p n) [] := by
  unfold lowAdata
  refine Acc.then0 (R := Any1) (Acc.ifc (fun _ => ?_) (fun h => ?_)) fun _ _ => acc_xorB
  · exact Acc.then0 ((acc_update_aead h cfg hcfg 1 0 (by omega) s 0 p n).cast rfl (by simp)) fun _ _ => h.p8 _
  · have : n = 0 := by simpa using h
    subst this
    exact Acc.pure trivial

theorem acc_low_encrypt (h : V.Silent e) (cfg : Cfg) (hcfg : cfg ≠ .hash) (sp c clen m mlen ad adlen nsec npub k : Nat) :
    Acc Any1 (low_crypto_aead_encrypt V cfg e sp c clen m mlen ad adlen nsec npub k)
      (List.range' k 16 ++ List.range' npub 16 ++ List.range' ad adlen ++ List.range' m mlen)
      (List.range' clen 8 ++ List.range' c (mlen + 16)) := by
  unfold low_crypto_aead_encrypt low_ascon_aead_encrypt
  refine Acc.cast (Acc.bind Acc.store64 fun _ _ => Acc.bind (acc_loadkey k) fun _ _ =>
    Acc.bind (acc_initaead h _ npub) fun _ _ => Acc.bind (acc_lowAdata h cfg hcfg _ ad adlen) fun _ _ =>
    Acc.bind (acc_update_aead h cfg hcfg 3 1 (by omega) _ c m mlen) fun _ _ => Acc.bind (acc_final h _ _) fun _ _ =>
    Acc.bind (acc_gettag _ _) fun _ _ => Acc.pure trivial) ?_ ?_
  · oacc_list
  · rw [range'_split c mlen 16, Nat.one_mul]
    oacc_list

theorem acc_low_decrypt (h : V.Silent e) (cfg : Cfg) (hcfg : cfg ≠ .hash) (sp m mlen nsec c clen ad adlen npub k : Nat)
    (hc : 16 ≤ clen) :
    Acc Any1 (low_crypto_aead_decrypt V cfg e sp m mlen nsec c clen ad adlen npub k)
      (List.range' k 16 ++ List.range' npub 16 ++ List.range' ad adlen ++ List.range' c clen)
      (List.range' mlen 8 ++ List.range' m (clen - 16)) := by
  unfold low_crypto_aead_decrypt low_ascon_aead_decrypt
  refine Acc.ifc (fun h => ?_) (fun _ => ?_)
  · have := of_decide_eq_true h; omega
  refine Acc.cast (Acc.bind Acc.store64 fun _ _ => Acc.bind (acc_loadkey k) fun _ _ =>
    Acc.bind (acc_initaead h _ npub) fun _ _ => Acc.bind (acc_lowAdata h cfg hcfg _ ad adlen) fun _ _ =>
    Acc.bind (acc_update_aead h cfg hcfg 7 1 (by omega) _ m c (clen - 16)) fun _ _ => Acc.bind (acc_final h _ _) fun _ _ =>
    acc_verify _ _) ?_ ?_
  · rw [show List.range' c clen = List.range' c (clen - 16) ++ List.range' (c + (clen - 16)) 16 from
      (range'_join rfl (by omega)).symm]
    oacc_list
  · rw [Nat.one_mul]
    oacc_list

theorem acc_low_xof (h : V.Silent e) (cfg : Cfg) (hcfg : cfg ≠ .aead) (ivs : State) (sp out outlen inp inlen : Nat) :
    Acc Any1 (low_ascon_xof V cfg ivs e sp out outlen inp inlen) (List.range' inp inlen) (List.range' out outlen) := by
  unfold low_ascon_xof
  refine Acc.cast (Acc.bind (acc_update_hash h cfg hcfg 9 1 0 (by omega) _ 0 inp inlen) fun _ _ =>
    Acc.bind (h.p12 _) fun _ _ =>
    Acc.bind (acc_update_hash h cfg hcfg 10 0 1 (by omega) _ out 0 outlen) fun _ _ => Acc.pure trivial) ?_ ?_
  · simp
  · simp

end Ascon.Opt8
