import Verif.Proof.Esp32CT
/-!
# Alignment of the word accesses of the esp32 implementation

With buffers aligned to `al` the code is the same as on a target without alignment requirement (as programs, hence with
the same results, traces and intermediate memories); with any other buffer that is accessed by words it is undefined.
-/

namespace Ascon.Esp32

open Ascon.Spec Ascon.C Ascon.Gen
open Ascon.C.Prog (require ifc loop forUp loadB storeB loadN storeN store64 load64)
open Ascon.Masked (U32 load32 store32)

attribute [local irreducible] perm

theorem mod_add4 {al p : Nat} (h4 : al ∣ 4) (hp : p % al = 0) : (p + 4) % al = 0 :=
  Nat.mod_eq_zero_of_dvd (Nat.dvd_add (Nat.dvd_of_mod_eq_zero hp) h4)
theorem mod_add8 {al p : Nat} (h4 : al ∣ 4) (hp : p % al = 0) : (p + 8) % al = 0 := mod_add4 h4 (mod_add4 h4 hp)
theorem mod_add16 {al p : Nat} (h4 : al ∣ 4) (hp : p % al = 0) : (p + 16) % al = 0 := mod_add8 h4 (mod_add8 h4 hp)

theorem loadPair_eq {al : Nat} (h4 : al ∣ 4) (e : Endian) {p : Nat} (hp : p % al = 0) :
    loadPair al e p = loadPair 1 e p := by
  unfold loadPair load32A
  rw [hp, mod_add4 h4 hp, Nat.mod_one, Nat.mod_one]

theorem storePair_eq {al : Nat} (h4 : al ∣ 4) (e : Endian) {p : Nat} (w : Word) (hp : p % al = 0) :
    storePair al e p w = storePair 1 e p w := by
  unfold storePair store32A
  rw [hp, mod_add4 h4 hp, Nat.mod_one, Nat.mod_one]

/-- What a step does after the permutation. -/
def stepCore (al : Nat) (e : Endian) (mode : Mode) (s : State) (out inp : Nat) : Prog State := do
  let t0 ← loadPair al e inp
  let s := { s with x0 := xorParts e s.x0 t0 }
  let t1 ← loadPair al e (inp + 8)
  let s := { s with x1 := xorParts e s.x1 t1 }
  ifc (decide (mode ≠ .AD))
    (do
      storePair al e out s.x0
      storePair al e (out + 8) s.x1)
    (pure ())
  let s ← ifc (decide (mode = .DEC)) (pure { s with x0 := t0, x1 := t1 }) (pure s)
  P e s PB_START_ROUND

theorem duplexStep_eq' (al : Nat) (e : Endian) (mode : Mode) (s : State) (out inp len : Nat) :
    duplexStep al e mode (s, out, inp, len) =
      stepCore al e mode s out inp >>= fun s => pure (s, out + 16, inp + 16, len - 16) := by
  unfold duplexStep stepCore
  simp only [bind_assoc']

theorem stepCore_eq {al : Nat} (h4 : al ∣ 4) (e : Endian) (mode : Mode) (s : State) {out inp : Nat}
    (hi : inp % al = 0) (ho : mode = .AD ∨ out % al = 0) : stepCore al e mode s out inp = stepCore 1 e mode s out inp := by
  unfold stepCore
  rw [loadPair_eq h4 e hi, loadPair_eq h4 e (mod_add8 h4 hi)]
  rcases ho with rfl | ho
  · rfl
  · simp only [storePair_eq h4 e _ ho, storePair_eq h4 e _ (mod_add8 h4 ho)]

theorem loop_eq {al : Nat} (h4 : al ∣ 4) (e : Endian) (mode : Mode) (f : Nat) (s : State) (out inp len : Nat)
    (hi : 16 ≤ len → inp % al = 0) (ho : mode = .AD ∨ (16 ≤ len → out % al = 0)) :
    loop f (fun (_, _, _, len) => decide (len ≥ 16)) (duplexStep al e mode) (s, out, inp, len) =
      loop f (fun (_, _, _, len) => decide (len ≥ 16)) (duplexStep 1 e mode) (s, out, inp, len) := by
  induction f generalizing s out inp len with
  | zero => rfl
  | succ f ih =>
    unfold loop
    by_cases h : len ≥ 16
    · simp only [decide_eq_true h]
      rw [duplexStep_eq', duplexStep_eq', stepCore_eq h4 e mode s (hi h) (by
        rcases ho with ho | ho
        · exact .inl ho
        · exact .inr (ho h))]
      simp only [bind_assoc', pure_bind']
      have : (fun s => loop f (fun (x : State × Nat × Nat × Nat) => match x with | (_, _, _, len) => decide (len ≥ 16))
          (duplexStep al e mode) (s, out + 16, inp + 16, len - 16)) =
          (fun s => loop f (fun (x : State × Nat × Nat × Nat) => match x with | (_, _, _, len) => decide (len ≥ 16))
          (duplexStep 1 e mode) (s, out + 16, inp + 16, len - 16)) := by
        funext s'
        refine ih s' _ _ _ (fun _ => mod_add16 h4 (hi h)) ?_
        rcases ho with ho | ho
        · exact .inl ho
        · exact .inr fun _ => mod_add16 h4 (ho h)
      rw [this]
    · simp only [decide_eq_false h]; rfl

theorem duplex_eq {al : Nat} (h4 : al ∣ 4) (e : Endian) (mode : Mode) (s : State) (out inp len : Nat)
    (hi : 16 ≤ len → inp % al = 0) (ho : mode = .AD ∨ (16 ≤ len → out % al = 0)) :
    ascon_duplex al e s out inp len mode = ascon_duplex 1 e s out inp len mode := by
  unfold ascon_duplex
  rw [loop_eq h4 e mode _ s out inp len hi ho]

theorem core_eq {al : Nat} (h4 : al ∣ 4) (e : Endian) (lw out inp tlen ad adlen npub k : Nat) (mode : Mode)
    (hk : k % al = 0) (hn : npub % al = 0) (ha : 16 ≤ ulong lw adlen → ad % al = 0)
    (hi : 16 ≤ ulong lw tlen → inp % al = 0) (ho : mode = .AD ∨ (16 ≤ ulong lw tlen → out % al = 0)) :
    ascon_core al e lw out inp tlen ad adlen npub k mode = ascon_core 1 e lw out inp tlen ad adlen npub k mode := by
  unfold ascon_core
  rw [loadPair_eq h4 e hk, loadPair_eq h4 e (mod_add8 h4 hk), loadPair_eq h4 e hn, loadPair_eq h4 e (mod_add8 h4 hn)]
  simp only [duplex_eq h4 e mode _ out inp _ hi ho, duplex_eq h4 e .AD _ 0 ad _ ha (.inl rfl)]

theorem encrypt_eq {al : Nat} (h4 : al ∣ 4) (e : Endian) (lw sp c clen m mlen ad adlen nsec npub k : Nat)
    (hk : k % al = 0) (hn : npub % al = 0) (ha : 16 ≤ ulong lw adlen → ad % al = 0)
    (hm : 16 ≤ ulong lw mlen → m % al = 0) (hc : 16 ≤ ulong lw mlen → c % al = 0) :
    crypto_aead_encrypt al lw e sp c clen m mlen ad adlen nsec npub k =
      crypto_aead_encrypt 1 lw e sp c clen m mlen ad adlen nsec npub k := by
  unfold crypto_aead_encrypt
  rw [core_eq h4 e lw c m mlen ad adlen npub k .ENC hk hn ha hm (.inr hc)]

/-! ### Undefined otherwise -/

theorem run_bind_inv {α β : Type} {p : Prog α} {f : α → Prog β} {mem mem' : Mem} {b : β}
    (h : run (p >>= f) mem = some (b, mem')) :
    ∃ a m, run p mem = some (a, m) ∧ run (f a) m = some (b, mem') := by
  rw [run_bind] at h
  cases hp : run p mem with
  | none => rw [hp] at h; cases h
  | some q => rw [hp] at h; exact ⟨q.1, q.2, rfl, h⟩

theorem require_inv {b : Bool} {mem : Mem} {q : Unit × Mem} (h : run (require b) mem = some q) : b = true := by
  cases b
  · cases h
  · rfl

theorem loadPair_inv {al : Nat} {e : Endian} {p : Nat} {mem : Mem} {q : Word × Mem}
    (h : run (loadPair al e p) mem = some q) : p % al = 0 := by
  unfold loadPair load32A at h
  obtain ⟨_, _, h1, _⟩ := run_bind_inv h
  obtain ⟨_, _, h2, _⟩ := run_bind_inv h1
  exact of_decide_eq_true (require_inv h2)

theorem storePair_inv {al : Nat} {e : Endian} {p : Nat} {w : Word} {mem : Mem} {q : Unit × Mem}
    (h : run (storePair al e p w) mem = some q) : p % al = 0 := by
  unfold storePair store32A at h
  obtain ⟨_, _, h1, _⟩ := run_bind_inv h
  obtain ⟨_, _, h2, _⟩ := run_bind_inv h1
  exact of_decide_eq_true (require_inv h2)

theorem ifc_inv {α : Type} {c : Bool} {t e : Prog α} {mem : Mem} {q : α × Mem} (hc : c = true)
    (h : run (ifc c t e) mem = some q) : run t mem = some q := by
  subst hc; exact h

theorem stepCore_inv {al : Nat} {e : Endian} {mode : Mode} {s : State} {out inp : Nat} {mem : Mem} {q : State × Mem}
    (h : run (stepCore al e mode s out inp) mem = some q) : inp % al = 0 ∧ (mode ≠ .AD → out % al = 0) := by
  unfold stepCore at h
  obtain ⟨_, _, h1, h⟩ := run_bind_inv h
  obtain ⟨_, _, _, h⟩ := run_bind_inv h
  obtain ⟨_, _, h3, h⟩ := run_bind_inv h
  refine ⟨loadPair_inv h1, fun hm => ?_⟩
  obtain ⟨_, _, h4, _⟩ := run_bind_inv (ifc_inv (decide_eq_true hm) h3)
  exact storePair_inv h4

theorem duplex_inv {al : Nat} {e : Endian} {mode : Mode} {s : State} {out inp len : Nat} {mem : Mem} {q : State × Mem}
    (h : run (ascon_duplex al e s out inp len mode) mem = some q) (h16 : 16 ≤ len) :
    inp % al = 0 ∧ (mode ≠ .AD → out % al = 0) := by
  unfold ascon_duplex at h
  obtain ⟨_, _, h1, _⟩ := run_bind_inv h
  unfold loop at h1
  have h2 := ifc_inv (decide_eq_true h16) h1
  obtain ⟨_, _, h3, _⟩ := run_bind_inv h2
  rw [duplexStep_eq'] at h3
  obtain ⟨_, _, h4, _⟩ := run_bind_inv h3
  exact stepCore_inv h4

theorem core_inv {al : Nat} {e : Endian} {lw out inp tlen ad adlen npub k : Nat} {mode : Mode} {mem : Mem}
    {q : State × Mem} (hmode : mode ≠ .AD)
    (h : run (ascon_core al e lw out inp tlen ad adlen npub k mode) mem = some q) :
    k % al = 0 ∧ npub % al = 0 ∧ (16 ≤ ulong lw adlen → ad % al = 0) ∧
      (16 ≤ ulong lw tlen → inp % al = 0 ∧ out % al = 0) := by
  unfold ascon_core at h
  obtain ⟨_, _, h1, h⟩ := run_bind_inv h
  obtain ⟨_, _, _, h⟩ := run_bind_inv h
  obtain ⟨_, _, h3, h⟩ := run_bind_inv h
  obtain ⟨_, _, _, h⟩ := run_bind_inv h
  obtain ⟨_, _, _, h⟩ := run_bind_inv h
  obtain ⟨_, _, h6, h⟩ := run_bind_inv h
  obtain ⟨_, _, h7, _⟩ := run_bind_inv h
  refine ⟨loadPair_inv h1, loadPair_inv h3, fun ha => ?_, fun hm => ?_⟩
  · have hne : adlen ≠ 0 := by rintro rfl; rw [ulong_zero] at ha; omega
    obtain ⟨_, _, h8, _⟩ := run_bind_inv (ifc_inv (decide_eq_true hne) h6)
    exact (duplex_inv h8 ha).1
  · exact ⟨(duplex_inv h7 hm).1, (duplex_inv h7 hm).2 hmode⟩

theorem encrypt_inv {al : Nat} {e : Endian} {lw sp c clen m mlen ad adlen nsec npub k : Nat} {mem : Mem} {q : Int × Mem}
    (h : run (crypto_aead_encrypt al lw e sp c clen m mlen ad adlen nsec npub k) mem = some q) :
    k % al = 0 ∧ npub % al = 0 ∧ (16 ≤ ulong lw adlen → ad % al = 0) ∧
      (16 ≤ ulong lw mlen → m % al = 0 ∧ c % al = 0) := by
  unfold crypto_aead_encrypt at h
  obtain ⟨_, _, _, h⟩ := run_bind_inv h
  obtain ⟨_, _, h1, _⟩ := run_bind_inv h
  exact core_inv (by decide) h1

/-! ### Decryption: `*mlen` is read back -/

/-- With `*mlen` writable, decryption of aligned buffers runs the same code. -/
theorem decrypt_run_eq {al : Nat} (h4 : al ∣ 4) (e : Endian) (lw sp m mlen nsec c clen ad adlen npub k : Nat) (mem : Mem)
    (hcl : clen < 2 ^ 64) (hw : mem.Writable mlen 8)
    (hk : k % al = 0) (hn : npub % al = 0) (ha : 16 ≤ ulong lw adlen → ad % al = 0)
    (hc : 16 ≤ ulong lw (clen - 16) → c % al = 0) (hm : 16 ≤ ulong lw (clen - 16) → m % al = 0) :
    run (crypto_aead_decrypt al lw e sp m mlen nsec c clen ad adlen npub k) mem =
      run (crypto_aead_decrypt 1 lw e sp m mlen nsec c clen ad adlen npub k) mem ∧
    trace (crypto_aead_decrypt al lw e sp m mlen nsec c clen ad adlen npub k) mem =
      trace (crypto_aead_decrypt 1 lw e sp m mlen nsec c clen ad adlen npub k) mem := by
  unfold crypto_aead_decrypt
  by_cases h16 : clen < 16
  · simp only [ifc, decide_eq_true h16]
    exact ⟨rfl, rfl⟩
  · simp only [ifc, decide_eq_false h16]
    have hml : (mem.writes mlen (repr64 e (BitVec.ofNat 64 (clen - 16)))).Holds mlen
      (repr64 e (BitVec.ofNat 64 (clen - 16))) := holds_writes_self _ _ _
    have ht : (BitVec.ofNat 64 (clen - 16)).toNat = clen - 16 := by
      rw [BitVec.toNat_ofNat, Nat.mod_eq_of_lt (by omega)]
    have hs := Ref.run_store64 (e := e) (w := BitVec.ofNat 64 (clen - 16)) hw
    have hl := run_load64 hml
    have hq := core_eq h4 e lw m c (BitVec.ofNat 64 (clen - 16)).toNat ad adlen npub k .DEC hk hn ha (by rwa [ht])
      (.inr (by rwa [ht]))
    constructor
    · simp only [run, Bool.false_eq_true, if_false]
      rw [run_bind_of hs, run_bind_of hl, run_bind_of hs, run_bind_of hl, hq]
    · simp only [trace, Bool.false_eq_true, if_false]
      congr 1
      rw [trace_bind, trace_bind, hs]
      simp only []
      rw [trace_bind, trace_bind, hl]
      simp only []
      rw [hq]

theorem decrypt_inv {al : Nat} {e : Endian} {lw sp m mlen nsec c clen ad adlen npub k : Nat} {mem : Mem} {q : Int × Mem}
    (hcl : clen < 2 ^ 64) (hw : mem.Writable mlen 8) (h16 : 16 ≤ clen)
    (h : run (crypto_aead_decrypt al lw e sp m mlen nsec c clen ad adlen npub k) mem = some q) :
    k % al = 0 ∧ npub % al = 0 ∧ (16 ≤ ulong lw adlen → ad % al = 0) ∧
      (16 ≤ ulong lw (clen - 16) → c % al = 0 ∧ m % al = 0) := by
  unfold crypto_aead_decrypt at h
  rw [run_ifc_neg (by simpa using h16), run_bind_of (Ref.run_store64 hw),
    run_bind_of (run_load64 (holds_writes_self _ _ _)), BitVec.toNat_ofNat, Nat.mod_eq_of_lt (by omega)] at h
  obtain ⟨_, _, h1, _⟩ := run_bind_inv h
  exact core_inv (by decide) h1

/-! ### Hash -/

theorem absorb_eq {al : Nat} (h4 : al ∣ 4) (e : Endian) (f : Nat) (s : State) (inp len : Nat)
    (hi : 8 ≤ len → inp % al = 0) :
    loop f (fun (_, _, len) => decide (len ≥ 8)) (absorbStep al e) (s, inp, len) =
      loop f (fun (_, _, len) => decide (len ≥ 8)) (absorbStep 1 e) (s, inp, len) := by
  induction f generalizing s inp len with
  | zero => rfl
  | succ f ih =>
    unfold loop
    by_cases h : len ≥ 8
    · simp only [decide_eq_true h]
      unfold absorbStep
      simp only
      rw [loadPair_eq h4 e (hi h)]
      simp only [bind_assoc', pure_bind']
      have : (fun s => loop f (fun (x : State × Nat × Nat) => match x with | (_, _, len) => decide (len ≥ 8))
          (absorbStep al e) (s, inp + 8, len - 8)) =
          (fun s => loop f (fun (x : State × Nat × Nat) => match x with | (_, _, len) => decide (len ≥ 8))
          (absorbStep 1 e) (s, inp + 8, len - 8)) := by
        funext s'
        exact ih s' _ _ fun _ => mod_add8 h4 (hi h)
      unfold absorbStep at this
      simp only at this
      rw [this]
    · simp only [decide_eq_false h]; rfl

theorem squeeze_eq {al : Nat} (h4 : al ∣ 4) (e : Endian) (f : Nat) (s : State) (out len : Nat)
    (hi : 8 < len → out % al = 0) :
    loop f (fun (_, _, len) => decide (len > 8)) (squeezeStep al e) (s, out, len) =
      loop f (fun (_, _, len) => decide (len > 8)) (squeezeStep 1 e) (s, out, len) := by
  induction f generalizing s out len with
  | zero => rfl
  | succ f ih =>
    unfold loop
    by_cases h : len > 8
    · simp only [decide_eq_true h]
      unfold squeezeStep
      simp only
      rw [storePair_eq h4 e _ (hi h)]
      simp only [bind_assoc', pure_bind']
      have : (fun s => loop f (fun (x : State × Nat × Nat) => match x with | (_, _, len) => decide (len > 8))
          (squeezeStep al e) (s, out + 8, len - 8)) =
          (fun s => loop f (fun (x : State × Nat × Nat) => match x with | (_, _, len) => decide (len > 8))
          (squeezeStep 1 e) (s, out + 8, len - 8)) := by
        funext s'
        exact ih s' _ _ fun _ => mod_add8 h4 (hi h)
      unfold squeezeStep at this
      simp only at this
      rw [this]
    · simp only [decide_eq_false h]; rfl

theorem hash_eq {al : Nat} (h4 : al ∣ 4) (iv : State) (n lw : Nat) (e : Endian) (sp out inp inlen : Nat)
    (hi : 8 ≤ ulong lw inlen → inp % al = 0) (ho : 8 < n → out % al = 0) :
    crypto_hash iv n al lw e sp out inp inlen = crypto_hash iv n 1 lw e sp out inp inlen := by
  unfold crypto_hash
  simp only [squeeze_eq h4 e _ _ out n ho]
  rw [absorb_eq h4 e _ iv inp _ hi]

theorem hash_inv {al : Nat} {iv : State} {n lw : Nat} {e : Endian} {sp out inp inlen : Nat} {mem : Mem} {q : Int × Mem}
    (h : run (crypto_hash iv n al lw e sp out inp inlen) mem = some q) :
    (8 ≤ ulong lw inlen → inp % al = 0) ∧ (8 < n → out % al = 0) := by
  unfold crypto_hash at h
  simp only at h
  obtain ⟨_, _, h1, h⟩ := run_bind_inv h
  obtain ⟨_, _, _, h⟩ := run_bind_inv h
  obtain ⟨_, _, _, h⟩ := run_bind_inv h
  obtain ⟨_, _, h4, h⟩ := run_bind_inv h
  constructor
  · intro h8
    unfold loop at h1
    obtain ⟨_, _, h2, _⟩ := run_bind_inv (ifc_inv (decide_eq_true h8) h1)
    unfold absorbStep at h2
    obtain ⟨_, _, h3, _⟩ := run_bind_inv h2
    exact loadPair_inv h3
  · intro h8
    unfold loop at h4
    obtain ⟨_, _, h2, _⟩ := run_bind_inv (ifc_inv (decide_eq_true h8) h4)
    unfold squeezeStep at h2
    obtain ⟨_, _, h3, _⟩ := run_bind_inv h2
    exact storePair_inv h3

end Ascon.Esp32
