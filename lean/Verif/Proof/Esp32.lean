import Verif.Proof.Esp32Perm
import Verif.Proof.MaskedShares
import Verif.Proof.SpecAead
import Verif.Proof.SpecSponge
import Verif.Proof.LowAead
/-!
# The esp32 implementation: duplex, core, AEAD, hash
-/

namespace Ascon.Esp32

open Ascon.Spec Ascon.C Ascon.Gen
open Ascon.C.Prog (require ifc loop forUp loadB storeB loadN storeN store64 load64)
open Ascon.Masked (U32 pk load32 store32 value32 repr32 run_load32 run_store32)

attribute [local irreducible] perm

/-! ### Words and their halves -/

theorem union_parts (e : Endian) (x : Word) : union e (lPart e x) (hPart e x) = x := by
  cases e <;> exact Masked.pk_unpk x

theorem lPart_xor (e : Endian) (x y : Word) : lPart e (x ^^^ y) = lPart e x ^^^ lPart e y := by
  cases e <;> simp [lPart, BitVec.ushiftRight_xor_distrib]

theorem hPart_xor (e : Endian) (x y : Word) : hPart e (x ^^^ y) = hPart e x ^^^ hPart e y := by
  cases e <;> simp [hPart, BitVec.ushiftRight_xor_distrib]

theorem xorParts_eq (e : Endian) (x y : Word) : xorParts e x y = x ^^^ y := by
  unfold xorParts
  rw [← lPart_xor, ← hPart_xor, union_parts]

theorem repr_parts_little (x : Word) :
    repr32 .little (x.setWidth 32) ++ repr32 .little ((x >>> 32).setWidth 32) = bytes64 x := by
  have h0 : ∀ i, i < 4 → ((x.setWidth 32 >>> (8 * i)).setWidth 8 : Byte) = (x >>> (8 * i)).setWidth 8 := by
    intro i hi
    apply BitVec.eq_of_getLsbD_eq; intro j hj
    simp only [BitVec.getLsbD_setWidth, BitVec.getLsbD_ushiftRight, hj, decide_true, Bool.true_and]
    rw [decide_eq_true (by omega), Bool.true_and]
  have h1 : ∀ i, i < 4 → ((((x >>> 32).setWidth 32 : U32) >>> (8 * i)).setWidth 8 : Byte) =
      (x >>> (8 * (i + 4))).setWidth 8 := by
    intro i hi
    apply BitVec.eq_of_getLsbD_eq; intro j hj
    simp only [BitVec.getLsbD_setWidth, BitVec.getLsbD_ushiftRight, hj, decide_true, Bool.true_and]
    rw [decide_eq_true (by omega), Bool.true_and]
    congr 1; omega
  have hl : (List.range 4).map (fun i => ((x.setWidth 32 >>> (8 * i)).setWidth 8 : Byte)) =
      (List.range 4).map fun i => (x >>> (8 * i)).setWidth 8 :=
    List.map_congr_left fun i hi => h0 i (List.mem_range.mp hi)
  have hh : (List.range 4).map (fun i => ((((x >>> 32).setWidth 32 : U32) >>> (8 * i)).setWidth 8 : Byte)) =
      (List.range 4).map fun i => (x >>> (8 * (i + 4))).setWidth 8 :=
    List.map_congr_left fun i hi => h1 i (List.mem_range.mp hi)
  unfold repr32
  simp only
  rw [hl, hh]
  rfl

theorem repr_parts (e : Endian) (x : Word) : repr32 e (lPart e x) ++ repr32 e (hPart e x) = repr64 e x := by
  cases e
  · exact repr_parts_little x
  · show (repr32 .little _).reverse ++ (repr32 .little _).reverse = (bytes64 x).reverse
    rw [← repr_parts_little x, List.reverse_append]
    rfl

theorem length_repr32 (e : Endian) (w : U32) : (repr32 e w).length = 4 := by cases e <;> simp [repr32]

theorem repr64_value64 (e : Endian) (bs : List Byte) (h : bs.length = 8) : repr64 e (value64 e bs) = bs := by
  cases e
  · exact bytes64_le64 bs h
  · show (bytes64 (le64 bs.reverse)).reverse = bs
    rw [bytes64_le64 _ (by simpa using h), List.reverse_reverse]

theorem load32A_one (e : Endian) (p : Nat) : load32A 1 e p = load32 e p := by
  unfold load32A
  rw [Nat.mod_one]
  rfl

theorem store32A_one (e : Endian) (p : Nat) (w : U32) : store32A 1 e p w = store32 e p w := by
  unfold store32A
  rw [Nat.mod_one]
  rfl

theorem run_loadPair {e : Endian} {mem : Mem} {p : Nat} {bs : List Byte} (h : mem.Holds p bs) (hl : 8 ≤ bs.length) :
    run (loadPair 1 e p) mem = some (le64 (bs.take 8), mem) := by
  have h8 : (bs.take 8).length = 8 := by simp; omega
  have ht := h.take 8
  generalize bs.take 8 = b at *
  have hb := repr64_value64 e b h8
  rw [← hb, ← repr_parts, holds_append, length_repr32] at ht
  unfold loadPair
  rw [load32A_one, load32A_one]
  rw [run_bind_of (run_load32 ht.1), run_bind_of (run_load32 ht.2), union_parts, U64LE_value64 e b h8]
  rfl

theorem run_loadPair8 {e : Endian} {mem : Mem} {p : Nat} {bs : List Byte} (h : mem.Holds p bs) (hl : 16 ≤ bs.length) :
    run (loadPair 1 e (p + 8)) mem = some (le64 ((bs.drop 8).take 8), mem) :=
  run_loadPair (h.drop 8 (by omega)) (by simp; omega)

theorem run_storePair {e : Endian} {mem : Mem} {p : Nat} {w : Word} (h : mem.Writable p 8) :
    run (storePair 1 e p w) mem = some ((), mem.writes p (bytes64 w)) := by
  unfold storePair
  simp only [store32A_one]
  rw [run_bind_of (run_store32 (h.mono (by omega) (by omega))), run_store32 (h.writes.mono (by omega) (by omega)),
    ← repr64_U64LE e w, ← repr_parts, writes_append, length_repr32]

/-! ### The padded last block -/

theorem tail_bytes (r : Nat) (l : List Byte) (h : l.length < r) :
    (overwrite (List.replicate r 0) l).set l.length ((overwrite (List.replicate r 0) l).getD l.length 0 ^^^ 0x01) =
      pad r l := by
  obtain ⟨k, hk⟩ : ∃ k, r - l.length = k + 1 := ⟨r - l.length - 1, by omega⟩
  have ho : overwrite (List.replicate r (0 : Byte)) l = l ++ 0 :: List.replicate k 0 := by
    unfold overwrite
    rw [List.drop_replicate, hk, List.replicate_succ]
  rw [ho]
  have hg : (l ++ (0 : Byte) :: List.replicate k 0).getD l.length 0 = 0 := by simp [List.getD]
  rw [hg, List.set_append_right _ _ (by omega), Nat.sub_self]
  unfold pad
  rw [Nat.mod_eq_of_lt h, show r - 1 - l.length = k by omega]
  rfl

theorem length_pad8 (l : List Byte) (h : l.length < 8) : (pad 8 l).length = 8 := by
  rw [pad_length 8 l (by omega), Nat.div_eq_of_lt h]

/-! ### core.c: ascon_duplex -/

theorem run_adStep {e : Endian} {mem : Mem} (s : State) (out p n : Nat) (M : List Byte)
    (hM : mem.Holds p M) (h16 : 16 ≤ M.length) :
    run (duplexStep 1 e .AD (s, out, p, n)) mem =
      some ((perm 8 (xorIn s (M.take 16)), out + 16, p + 16, n - 16), mem) := by
  unfold duplexStep
  simp only
  rw [run_bind_of (run_loadPair hM (by omega)), run_bind_of (run_loadPair8 hM h16),
    run_bind_of (a := ()) (mem' := mem) (run_ifc_neg (by decide)), run_bind,
    run_ifc_neg (by decide)]
  simp only [run_pure', Option.bind_some]
  rw [run_bind_of (run_PB _ _ _), Low.xorIn_take16 s M h16, xorParts_eq, xorParts_eq]
  rfl

theorem run_adFinal {e : Endian} {mem : Mem} (s : State) (out p : Nat) (M : List Byte)
    (hM : mem.Holds p M) (h16 : M.length < 16) :
    run (duplexFinal e .AD (s, out, p, M.length)) mem = some (xorIn s (pad 16 M), mem) := by
  unfold duplexFinal
  simp only
  have hp := length_pad16 M h16
  rw [run_bind_of (run_loadN' hM rfl), run_bind_of (run_require (decide_eq_true h16)), tail_bytes 16 M h16,
    U64LE_value64 e _ (by simp [hp]), U64LE_value64 e _ (by simp [hp]), run_bind, run_ifc_neg (by decide)]
  simp only [run_pure', Option.bind_some]
  rw [run_ifc_neg (by decide), xorParts_eq, xorParts_eq, xorIn_of_le16 s _ (by omega)]
  rfl

theorem run_duplex_ad {e : Endian} {mem : Mem} (s : State) (out p : Nat) (M : List Byte) (hM : mem.Holds p M) :
    run (ascon_duplex 1 e s out p M.length .AD) mem =
      some (xorIn (absorb 8 s (fullBlocks 16 M)) (pad 16 (lastBlock 16 M)), mem) := by
  unfold ascon_duplex
  suffices ∀ (f : Nat) (s : State) (out p : Nat) (M : List Byte), mem.Holds p M → M.length < f →
      run (loop f (fun (_, _, _, len) => decide (len ≥ 16)) (duplexStep 1 e .AD) (s, out, p, M.length) >>=
        duplexFinal e .AD) mem =
      some (xorIn (absorb 8 s (fullBlocks 16 M)) (pad 16 (lastBlock 16 M)), mem) from
    this _ s out p M hM (by omega)
  clear hM
  intro f s out p M hM hf
  induction hn : M.length using Nat.strongRecOn generalizing f s out p M with
  | ind n ih =>
    subst hn
    obtain ⟨f, rfl⟩ : ∃ g, f = g + 1 := ⟨f - 1, by omega⟩
    by_cases h16 : 16 ≤ M.length
    · rw [run_bind, Ascon.C.run_loop_step (by simp; omega) (run_adStep s out p _ M hM h16), ← run_bind]
      have := ih (M.drop 16).length (by simp; omega) f (perm 8 (xorIn s (M.take 16))) (out + 16) (p + 16)
        (M.drop 16) (hM.drop 16 h16) (by simp; omega) rfl
      rw [fullBlocks_of_ge 16 M (by omega) h16, lastBlock_of_ge 16 M (by omega) h16]
      simp only [absorb, List.foldl_cons, List.length_drop] at this ⊢
      exact this
    · rw [fullBlocks_of_lt 16 M (by omega), lastBlock_of_lt 16 M (by omega), run_bind,
        Ascon.C.run_loop_done (by simp; omega)]
      exact run_adFinal s out p M hM (by omega)

theorem run_encStep {e : Endian} {mem : Mem} (s : State) (c m n : Nat) (M : List Byte)
    (hM : mem.Holds m M) (h16 : 16 ≤ M.length) (hw : mem.Writable c 16) :
    run (duplexStep 1 e .ENC (s, c, m, n)) mem =
      some ((perm 8 (xorIn s (M.take 16)), c + 16, m + 16, n - 16),
        mem.writes c (rate 16 (xorIn s (M.take 16)))) := by
  unfold duplexStep
  simp only
  rw [run_bind_of (run_loadPair hM (by omega)), run_bind_of (run_loadPair8 hM h16), run_bind, run_ifc_pos (by decide),
    run_bind_of (run_storePair (hw.mono (by omega) (by omega))),
    run_storePair (hw.writes.mono (by omega) (by omega))]
  simp only [Option.bind_some]
  rw [run_bind, run_ifc_neg (by decide)]
  simp only [run_pure', Option.bind_some]
  rw [run_bind_of (run_PB _ _ _), Low.xorIn_take16 s M h16, xorParts_eq, xorParts_eq, rate_16, writes_append,
    length_bytes64]
  rfl

theorem run_encFinal {e : Endian} {mem : Mem} (s : State) (c m : Nat) (M : List Byte)
    (hM : mem.Holds m M) (h16 : M.length < 16) (hw : mem.Writable c M.length) :
    run (duplexFinal e .ENC (s, c, m, M.length)) mem =
      some (xorIn s (pad 16 M), mem.writes c (rate M.length (xorIn s (pad 16 M)))) := by
  unfold duplexFinal
  simp only
  have hp := length_pad16 M h16
  rw [run_bind_of (run_loadN' hM rfl), run_bind_of (run_require (decide_eq_true h16)), tail_bytes 16 M h16,
    U64LE_value64 e _ (by simp [hp]), U64LE_value64 e _ (by simp [hp]), run_bind, run_ifc_pos (by decide),
    repr64_U64LE, repr64_U64LE, xorParts_eq, xorParts_eq, xorIn_of_le16 s _ (by omega)]
  have hr : ∀ t : State, (bytes64 t.x0 ++ bytes64 t.x1).take M.length = rate M.length t := by
    intro t
    rw [← rate_16]; unfold rate; rw [List.take_take, Nat.min_eq_left (by omega)]
  rw [run_bind_of (run_storeN (hw.mono (by omega) (by simp [length_bytes64]; omega))),
    run_pure']
  simp only [Option.bind_some]
  rw [run_ifc_neg (by decide), run_pure', ← hr]

theorem run_duplex_enc {e : Endian} {mem : Mem} (s : State) (c m : Nat) (P : List Byte)
    (hm : mem.Holds m P) (hw : mem.Writable c P.length) (ho : c ≤ m ∨ m + P.length ≤ c) :
    run (ascon_duplex 1 e s c m P.length .ENC) mem = some ((encBody s P).1, mem.writes c (encBody s P).2) := by
  unfold ascon_duplex
  suffices ∀ (f : Nat) (mem : Mem) (s : State) (c m : Nat) (P : List Byte), mem.Holds m P →
      mem.Writable c P.length → (c ≤ m ∨ m + P.length ≤ c) → P.length < f →
      run (loop f (fun (_, _, _, len) => decide (len ≥ 16)) (duplexStep 1 e .ENC) (s, c, m, P.length) >>=
        duplexFinal e .ENC) mem = some ((encBody s P).1, mem.writes c (encBody s P).2) from
    this _ mem s c m P hm hw ho (by omega)
  clear ho hw hm
  intro f mem s c m P hm hw ho hf
  induction hn : P.length using Nat.strongRecOn generalizing f mem s c m P with
  | ind n ih =>
    subst hn
    obtain ⟨f, rfl⟩ : ∃ g, f = g + 1 := ⟨f - 1, by omega⟩
    by_cases h16 : 16 ≤ P.length
    · rw [run_bind, Ascon.C.run_loop_step (by simp; omega)
        (run_encStep s c m _ P hm h16 (hw.mono (by omega) (by omega))), ← run_bind]
      have hr : (rate 16 (xorIn s (P.take 16))).length = 16 := length_rate 16 _ (by omega)
      have := ih (P.drop 16).length (by simp; omega) f (mem.writes c (rate 16 (xorIn s (P.take 16))))
        (perm 8 (xorIn s (P.take 16))) (c + 16) (m + 16) (P.drop 16) (by
          apply (hm.drop 16 h16).writes_disjoint
          unfold Disjoint; rw [hr]; simp only [List.length_drop]; omega)
        (hw.writes.mono (by omega) (by simp; omega)) (by simp; omega) (by simp; omega) rfl
      rw [encBody_of_ge s P h16]
      simp only
      rw [writes_append, hr, ← this, List.length_drop]
    · rw [encBody_of_lt s P (by omega), run_bind, Ascon.C.run_loop_done (by simp; omega)]
      exact run_encFinal s c m P hm (by omega) hw

theorem run_decStep {e : Endian} {mem : Mem} (s : State) (m c n : Nat) (C : List Byte)
    (hC : mem.Holds c C) (h16 : 16 ≤ C.length) (hw : mem.Writable m 16) :
    run (duplexStep 1 e .DEC (s, m, c, n)) mem =
      some ((perm 8 (xorIn s (xorBytes (rate 16 s) (C.take 16))), m + 16, c + 16, n - 16),
        mem.writes m (xorBytes (rate 16 s) (C.take 16))) := by
  unfold duplexStep
  simp only
  rw [run_bind_of (run_loadPair hC (by omega)), run_bind_of (run_loadPair8 hC h16), run_bind, run_ifc_pos (by decide),
    run_bind_of (run_storePair (hw.mono (by omega) (by omega))),
    run_storePair (hw.writes.mono (by omega) (by omega))]
  simp only [Option.bind_some]
  rw [run_bind, run_ifc_pos (by decide)]
  simp only [run_pure', Option.bind_some]
  rw [run_bind_of (run_PB _ _ _), Low.xorIn_dec16 s C h16, xorParts_eq, xorParts_eq, Low.xorBytes_rate16 s C h16,
    writes_append, length_bytes64]
  rfl

/-- A state is determined by its first 16 bytes and the other three words. -/
theorem setRate (s : State) (l : List Byte) (hl : l.length = 16) :
    ({ s with x0 := le64 (l.take 8), x1 := le64 (l.drop 8) } : State) = xorIn s (xorBytes (rate 16 s) l) := by
  have := Low.xorIn_dec16 s l (by omega)
  rw [List.take_of_length_le (by omega)] at this
  rw [this, List.take_of_length_le (i := 8) (l := l.drop 8) (by simp; omega)]
  rfl

theorem dec_tail (s : State) (C : List Byte) (h : C.length < 16) :
    C ++ (rate 16 (xorIn s (pad 16 C))).drop C.length =
      xorBytes (rate 16 s) (pad 16 (xorBytes (rate C.length s) C)) := by
  rw [rate_xorIn16 s _ 16 (length_pad16 C h) (by omega), List.take_of_length_le (by rw [length_pad16 C h]; omega)]
  have hx : (xorBytes (rate C.length s) C).length = C.length := by
    rw [length_xorBytes, length_rate _ _ (by omega)]; omega
  have hr : rate 16 s = rate C.length s ++ (rate 16 s).drop C.length := by
    conv => lhs; rw [← List.take_append_drop C.length (rate 16 s)]
    congr 1
    unfold rate; rw [List.take_take, Nat.min_eq_left (by omega)]
  have hrl : (rate C.length s).length = C.length := length_rate _ _ (by omega)
  rw [hr]
  generalize (rate 16 s).drop C.length = r2
  unfold pad
  rw [hx]
  generalize (1 : Byte) :: List.replicate (16 - 1 - C.length % 16) 0 = z
  have happ : ∀ a b : List Byte, a.length = C.length → b.length = C.length →
      xorBytes (a ++ r2) (b ++ z) = xorBytes a b ++ xorBytes r2 z := by
    intro a b ha hb
    simp only [xorBytes]
    rw [List.zipWith_append (by omega)]
  rw [happ _ _ hrl rfl, happ _ _ hrl hx, List.drop_append_of_le_length (by omega),
    List.drop_of_length_le (by omega), List.nil_append, xorBytes_self_cancel _ _ (by omega)]

theorem run_decFinal {e : Endian} {mem : Mem} (s : State) (m c : Nat) (C : List Byte)
    (hC : mem.Holds c C) (h16 : C.length < 16) (hw : mem.Writable m C.length) (ho : Disjoint m C.length c C.length) :
    run (duplexFinal e .DEC (s, m, c, C.length)) mem =
      some (xorIn s (pad 16 (xorBytes (rate C.length s) C)), mem.writes m (xorBytes (rate C.length s) C)) := by
  unfold duplexFinal
  simp only
  have hp := length_pad16 C h16
  have hr : ∀ t : State, (bytes64 t.x0 ++ bytes64 t.x1).take C.length = rate C.length t := by
    intro t
    rw [← rate_16]; unfold rate; rw [List.take_take, Nat.min_eq_left (by omega)]
  rw [run_bind_of (run_loadN' hC rfl), run_bind_of (run_require (decide_eq_true h16)), tail_bytes 16 C h16,
    U64LE_value64 e _ (by simp [hp]), U64LE_value64 e _ (by simp [hp]), run_bind, run_ifc_pos (by decide),
    repr64_U64LE, repr64_U64LE, xorParts_eq, xorParts_eq,
    run_bind_of (run_storeN (hw.mono (by omega) (by simp [length_bytes64]; omega))), run_pure']
  simp only [Option.bind_some]
  have hx : ({ s with x0 := s.x0 ^^^ le64 ((pad 16 C).take 8), x1 := s.x1 ^^^ le64 ((pad 16 C).drop 8) } : State) =
      xorIn s (pad 16 C) := (xorIn_of_le16 s _ (by omega)).symm
  have hrt := hr (xorIn s (pad 16 C))
  have h2 := rate_16 (xorIn s (pad 16 C))
  rw [← hx] at hrt h2
  simp only at hrt h2
  rw [hrt, hx, rate_xorIn_pad s C h16]
  have hl : (xorBytes (rate C.length s) C).length = C.length := by
    rw [length_xorBytes, length_rate _ _ (by omega)]; omega
  rw [run_ifc_pos (by decide), run_bind_of (run_loadN' (hC.writes_disjoint (by rw [hl]; exact ho)) rfl), run_pure']
  rw [← h2, hx]
  unfold overwrite
  rw [dec_tail s C h16]
  have hL : (xorBytes (rate 16 s) (pad 16 (xorBytes (rate C.length s) C))).length = 16 := by
    rw [length_xorBytes, length_rate _ _ (by omega), length_pad16 _ (by omega)]; rfl
  rw [U64LE_value64 e _ (by simp [hL]), U64LE_value64 e _ (by simp [hL])]
  have := setRate s _ hL
  rw [xorBytes_self_cancel _ _ (by rw [length_rate _ _ (by omega), length_pad16 _ (by omega)]; omega)] at this
  rw [← this]

theorem run_duplex_dec {e : Endian} {mem : Mem} (s : State) (m c : Nat) (C : List Byte)
    (hc : mem.Holds c C) (hw : mem.Writable m C.length) (ho : m ≤ c ∨ c + C.length ≤ m)
    (hd : Disjoint m (C.length % 16) c (C.length % 16)) :
    run (ascon_duplex 1 e s m c C.length .DEC) mem = some ((decBody s C).1, mem.writes m (decBody s C).2) := by
  unfold ascon_duplex
  suffices ∀ (f : Nat) (mem : Mem) (s : State) (m c : Nat) (C : List Byte), mem.Holds c C →
      mem.Writable m C.length → (m ≤ c ∨ c + C.length ≤ m) → Disjoint m (C.length % 16) c (C.length % 16) →
      C.length < f →
      run (loop f (fun (_, _, _, len) => decide (len ≥ 16)) (duplexStep 1 e .DEC) (s, m, c, C.length) >>=
        duplexFinal e .DEC) mem = some ((decBody s C).1, mem.writes m (decBody s C).2) from
    this _ mem s m c C hc hw ho hd (by omega)
  clear ho hw hc hd
  intro f mem s m c C hc hw ho hd hf
  induction hn : C.length using Nat.strongRecOn generalizing f mem s m c C with
  | ind n ih =>
    subst hn
    obtain ⟨f, rfl⟩ : ∃ g, f = g + 1 := ⟨f - 1, by omega⟩
    by_cases h16 : 16 ≤ C.length
    · rw [run_bind, Ascon.C.run_loop_step (by simp; omega)
        (run_decStep s m c _ C hc h16 (hw.mono (by omega) (by omega))), ← run_bind]
      have hr : (xorBytes (rate 16 s) (C.take 16)).length = 16 := by
        rw [length_xorBytes, length_rate 16 _ (by omega)]; simp; omega
      have := ih (C.drop 16).length (by simp; omega) f (mem.writes m (xorBytes (rate 16 s) (C.take 16)))
        (perm 8 (xorIn s (xorBytes (rate 16 s) (C.take 16)))) (m + 16) (c + 16) (C.drop 16) (by
          apply (hc.drop 16 h16).writes_disjoint
          unfold Disjoint; rw [hr]; simp only [List.length_drop]; omega)
        (hw.writes.mono (by omega) (by simp; omega)) (by simp; omega) (by
          unfold Disjoint at *; simp only [List.length_drop]; omega) (by simp; omega) rfl
      rw [decBody_of_ge s C h16]
      simp only
      rw [writes_append, hr, ← this, List.length_drop]
    · rw [decBody_of_lt s C (by omega), run_bind, Ascon.C.run_loop_done (by simp; omega)]
      exact run_decFinal s m c C hc (by omega) hw (by
        rw [Nat.mod_eq_of_lt (by omega)] at hd; exact hd)

end Ascon.Esp32
