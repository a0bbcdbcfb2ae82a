import Verif.Proof.Esp32
import Verif.Proof.MaskedTop
/-!
# The esp32 implementation: AEAD and hash interface
-/

namespace Ascon.Esp32

open Ascon.Spec Ascon.C Ascon.Gen
open Ascon.C.Prog (require ifc loop forUp loadB storeB loadN storeN store64 load64)
open Ascon.Masked (U32)

attribute [local irreducible] perm

theorem drop8_take8 (l : List Byte) (h : l.length = 16) : (l.drop 8).take 8 = l.drop 8 :=
  List.take_of_length_le (by simp; omega)

/-- The state after `ascon_core`: tag words in memory byte order. -/
def outState (e : Endian) (t : State) : State := { t with x3 := U64LE e t.x3, x4 := U64LE e t.x4 }

theorem outState_addKey (e : Endian) (K : List Byte) (t : State) :
    ({ t with x3 := U64LE e (xorParts e t.x3 (le64 (K.take 8))), x4 := U64LE e (xorParts e t.x4 (le64 (K.drop 8))) } : State) =
      outState e (addKeyLast K t) := by
  rw [xorParts_eq, xorParts_eq]; rfl

theorem ulong_zero (lw : Nat) : ulong lw 0 = 0 := Nat.zero_mod _

theorem run_adPart {e : Endian} {mem : Mem} (s : State) (ad adlen lw : Nat) (A : List Byte)
    (ha : mem.Holds ad A) (hl : A.length = ulong lw adlen) (hA : adlen = 0 ∨ A ≠ []) :
    run (ifc (decide (adlen ≠ 0))
        (do
          let s ← ascon_duplex 1 e s 0 ad (ulong lw adlen) .AD
          P e s PB_START_ROUND)
        (pure s)) mem = some (if A = [] then s else absorb 8 s (fullBlocks 16 (pad 16 A)), mem) := by
  by_cases h0 : adlen = 0
  · have : A = [] := by rw [h0, ulong_zero] at hl; exact List.eq_nil_of_length_eq_zero hl
    rw [run_ifc_neg (by simpa using h0), if_pos this]; rfl
  · have hne : A ≠ [] := by simpa [h0] using hA
    rw [run_ifc_pos (by simpa using h0), if_neg hne, ← hl, run_bind_of (run_duplex_ad s 0 ad A ha), run_PB,
      fullBlocks_pad 16 A (by omega)]
    simp only [absorb, List.foldl_append, List.foldl_cons, List.foldl_nil]

/-- `ascon_core`, given what its last call of `ascon_duplex` does. -/
theorem run_core {e : Endian} {mem mem' : Mem} {s' : State} {lw out inp tlen ad adlen npub k : Nat} {mode : Mode}
    {K N A : List Byte} (hk : mem.Holds k K) (hK : K.length = 16) (hn : mem.Holds npub N) (hN : N.length = 16)
    (ha : mem.Holds ad A) (hl : A.length = ulong lw adlen) (hA : adlen = 0 ∨ A ≠ [])
    (hd : run (ascon_duplex 1 e (aeadAd A (aeadInit K N)) out inp (ulong lw tlen) mode) mem = some (s', mem')) :
    run (ascon_core 1 e lw out inp tlen ad adlen npub k mode) mem =
      some (outState e (addKeyLast K (perm 12 (addKeyMid K s'))), mem') := by
  unfold ascon_core
  rw [run_bind_of (run_loadPair hk (by omega)), run_bind_of (run_loadPair8 hk (by omega)),
    run_bind_of (run_loadPair hn (by omega)), run_bind_of (run_loadPair8 hn (by omega)), drop8_take8 K hK,
    drop8_take8 N hN]
  simp only [union_parts]
  have hi : ∀ t : State, ({ t with x3 := xorParts e t.x3 (le64 (K.take 8)), x4 := xorParts e t.x4 (le64 (K.drop 8)) } : State) =
      addKeyLast K t := by
    intro t; simp only [xorParts_eq, addKeyLast]
  have hP := run_PA e ⟨ASCON_128A_IV, le64 (K.take 8), le64 (K.drop 8), le64 (N.take 8), le64 (N.drop 8)⟩ mem
  have h0 : ∀ iv, iv = ivAead →
      addKeyLast K (perm 12 ⟨iv, le64 (K.take 8), le64 (K.drop 8), le64 (N.take 8), le64 (N.drop 8)⟩) =
      aeadInit K N := by intro iv h; subst h; rfl
  have h0 := h0 ASCON_128A_IV rfl
  generalize perm 12 ⟨ASCON_128A_IV, le64 (K.take 8), le64 (K.drop 8), le64 (N.take 8), le64 (N.drop 8)⟩ = t at hP h0
  rw [run_bind_of hP, hi, h0]
  generalize aeadInit K N = s0 at *
  have hq := run_adPart (e := e) s0 ad adlen lw A ha hl hA
  have h1 : ∀ q : State, q = (if A = [] then s0 else absorb 8 s0 (fullBlocks 16 (pad 16 A))) →
      aeadAd A s0 = { q with x4 := q.x4 ^^^ 0x8000000000000000 } := by
    intro q h; subst h; rfl
  generalize hQ : (if A = [] then s0 else absorb 8 s0 (fullBlocks 16 (pad 16 A))) = q at hq
  rw [run_bind_of hq]
  rw [h1 q hQ.symm] at hd
  rw [run_bind_of hd]
  have h2 : ({ s' with x2 := xorParts e s'.x2 (le64 (K.take 8)), x3 := xorParts e s'.x3 (le64 (K.drop 8)) } : State) =
      addKeyMid K s' := by simp only [xorParts_eq, addKeyMid]
  have hP2 := run_PA e (addKeyMid K s') mem'
  generalize perm 12 (addKeyMid K s') = t2 at hP2 ⊢
  rw [h2, run_bind_of hP2, run_pure']
  exact congrArg (fun q => some (q, mem')) (outState_addKey e K t2)

theorem tagByte_eq (e : Endian) (t : State) (i : Nat) :
    tagByte e (outState e t) i = (bytes64 t.x3 ++ bytes64 t.x4).getD i 0 := by
  unfold tagByte outState
  simp only [repr64_U64LE]

theorem run_storeTag (p : Nat) (T pre : List Byte) (mem : Mem) (f : Nat → Byte)
    (hf : ∀ i, i < T.length → f (pre.length + i) = T.getD i 0) (hw : mem.Writable (p + pre.length) T.length) :
    run (forUp (fun i (_ : Unit) => storeB (p + i) (f i)) T.length pre.length ()) mem =
      some ((), mem.writes (p + pre.length) T) := by
  induction T generalizing pre mem with
  | nil => simp [forUp, run, writes_nil]
  | cons b bs ih =>
    have hb := hf 0 (by simp)
    simp only [Nat.add_zero, List.getD_cons_zero] at hb
    rw [List.length_cons, forUp]
    show run ((_ : Prog Unit) >>= _) mem = _
    rw [run_bind_of (Ref.run_storeB (a := p + pre.length) (hw 0 (by simp))), hb]
    have := ih (pre ++ [b]) (mem.writes (p + pre.length) [b]) (by
      intro i hi
      have := hf (i + 1) (by simpa using hi)
      rw [List.getD_cons_succ] at this
      rw [← this]; congr 1; simp; omega) (hw.writes.mono (by simp) (by simp; omega))
    simp only [List.length_append, List.length_cons, List.length_nil, Nat.zero_add] at this
    rw [this, writes_cons (bs := bs)]
    rfl

theorem run_load64 {e : Endian} {mem : Mem} {p : Nat} {w : Word} (h : mem.Holds p (repr64 e w)) :
    run (load64 e p) mem = some (w, mem) := by
  unfold load64
  rw [run_bind_of (run_loadN' h (Ref.length_repr64 e w).symm)]
  show some (value64 e (repr64 e w), mem) = _
  cases e
  · show some (le64 (bytes64 w), mem) = _
    rw [le64_bytes64]
  · show some (le64 (bytes64 w).reverse.reverse, mem) = _
    rw [List.reverse_reverse, le64_bytes64]

theorem run_cmpTag {e : Endian} {mem : Mem} (c mlen n : Nat) (t : State) (as bs pre : List Byte) (r : U32)
    (hm : mem.Holds mlen (repr64 e (BitVec.ofNat 64 n))) (hn : n < 2 ^ 64)
    (hb : bytes64 t.x3 ++ bytes64 t.x4 = pre ++ bs)
    (ha : mem.Holds (c + (n + pre.length)) as) (hl : as.length = bs.length) :
    run (forUp (fun i (result : U32) => do
        let ml ← load64 e mlen
        let b ← loadB (c + (ml.toNat + i))
        pure (result ||| (b.setWidth 32 ^^^ (tagByte e (outState e t) i).setWidth 32))) as.length pre.length r) mem =
      some (r ||| Ref.orDiff as bs, mem) := by
  induction as generalizing bs pre r with
  | nil => simp [forUp, run, Ref.orDiff]
  | cons a as ih =>
    cases bs with
    | nil => simp at hl
    | cons b bs =>
      rw [holds_cons] at ha
      have hb' : tagByte e (outState e t) pre.length = b := by
        rw [tagByte_eq, hb]; simp [List.getD]
      rw [List.length_cons, forUp]
      show run ((_ : Prog U32) >>= _) mem = _
      rw [run_bind, run_bind_of (run_load64 hm), BitVec.toNat_ofNat, Nat.mod_eq_of_lt hn,
        run_bind_of (Ref.run_loadB ha.1)]
      simp only [run_pure', Option.bind_some]
      have := ih bs (pre ++ [b]) (r ||| (a.setWidth 32 ^^^ b.setWidth 32)) (by rw [hb]; simp) (by
        have := ha.2
        rwa [show c + (n + pre.length) + 1 = c + (n + (pre ++ [b]).length) by simp; omega] at this)
        (by simpa using hl)
      simp only [List.length_append, List.length_cons, List.length_nil, Nat.zero_add] at this
      rw [hb', this]
      simp only [Ref.orDiff, BitVec.or_assoc, BitVec.setWidth_xor]

theorem cmp_result (T T' : List Byte) (h : T.length = T'.length) :
    (((((0 : U32) ||| Ref.orDiff T T') - 1).sshiftRight 8 &&& 1) - 1).toInt = if T = T' then 0 else -1 := by
  rw [show (0 : BitVec 32) ||| Ref.orDiff T T' = Ref.orDiff T T' by simp, Ref.result_eq _ (Ref.orDiff_lt T T')]
  simp only [Ref.orDiff_eq_zero T T' h]

/-- `crypto_aead_encrypt` for any lengths: only the first `mlen mod 2^lw` bytes of the plaintext and
`adlen mod 2^lw` bytes of the associated data matter. -/
theorem run_encrypt {e : Endian} {mem : Mem} {lw sp c clen m mlen ad adlen nsec npub k : Nat} {K N A P : List Byte}
    (hk : mem.Holds k K) (hK : K.length = 16) (hn : mem.Holds npub N) (hN : N.length = 16)
    (ha : mem.Holds ad A) (hl : A.length = ulong lw adlen) (hA : adlen = 0 ∨ A ≠ [])
    (hm : mem.Holds m P) (hP : P.length = ulong lw mlen)
    (hw : mem.Writable c (mlen + 16)) (hcl : mem.Writable clen 8)
    (sK : Disjoint clen 8 k 16) (sN : Disjoint clen 8 npub 16) (sA : Disjoint clen 8 ad A.length)
    (sM : Disjoint clen 8 m P.length) (ho : c ≤ m ∨ m + P.length ≤ c) :
    run (crypto_aead_encrypt 1 lw e sp c clen m mlen ad adlen nsec npub k) mem =
      some (0, ((mem.writes clen (repr64 e (BitVec.ofNat 64 (mlen + 16)))).writes c
        ((aeadEncrypt K N A P).take P.length)).writes (c + mlen) ((aeadEncrypt K N A P).drop P.length)) := by
  unfold crypto_aead_encrypt
  rw [run_bind_of (Ref.run_store64 hcl)]
  have hsep : ∀ {q : Nat} {bs : List Byte}, mem.Holds q bs → Disjoint clen 8 q bs.length →
      (mem.writes clen (repr64 e (BitVec.ofNat 64 (mlen + 16)))).Holds q bs := fun hq hd =>
    hq.writes_disjoint (by rwa [Ref.length_repr64])
  have hk := hsep hk (by rwa [hK])
  have hn := hsep hn (by rwa [hN])
  have ha := hsep ha sA
  have hm := hsep hm sM
  have hw : (mem.writes clen (repr64 e (BitVec.ofNat 64 (mlen + 16)))).Writable c (mlen + 16) := hw.writes
  generalize mem.writes clen (repr64 e (BitVec.ofNat 64 (mlen + 16))) = mem1 at *
  have hle : P.length ≤ mlen := by rw [hP]; exact Nat.mod_le _ _
  have hd := run_duplex_enc (e := e) (aeadAd A (aeadInit K N)) c m P hm (hw.mono (by omega) (by omega)) ho
  rw [hP] at hd
  rw [run_bind_of (run_core hk hK hn hN ha hl hA hd), take_aeadEncrypt, drop_aeadEncrypt]
  generalize encBody (aeadAd A (aeadInit K N)) P = r at *
  have e2 : aeadTag K r.1 = bytes64 (addKeyLast K (perm 12 (addKeyMid K r.1))).x3 ++
      bytes64 (addKeyLast K (perm 12 (addKeyMid K r.1))).x4 := rfl
  have htl : (aeadTag K r.1).length = 16 := Ref.length_aeadTag _ _
  generalize aeadTag K r.1 = T at *
  generalize addKeyLast K (perm 12 (addKeyMid K r.1)) = t at *
  have := run_storeTag (c + mlen) T [] (mem1.writes c r.2) (tagByte e (outState e t)) (by
    intro i _
    rw [tagByte_eq, e2]; simp) (by rw [htl]; exact hw.writes.mono (by simp) (by simp; omega))
  rw [htl] at this
  simp only [List.length_nil, Nat.add_zero] at this
  have hb : (fun i (_ : Unit) => storeB (c + (mlen + i)) (tagByte e (outState e t) i)) =
      fun i (_ : Unit) => storeB (c + mlen + i) (tagByte e (outState e t) i) := by
    funext i _; rw [Nat.add_assoc]
  rw [hb, run_bind_of this]
  rfl

/-- `crypto_aead_decrypt` for any lengths, given what `ascon_duplex` does. -/
theorem run_decrypt_gen {e : Endian} {mem : Mem} {lw sp m mlen nsec c clen ad adlen npub k : Nat}
    {K N A C T P' : List Byte} {s' : State}
    (hk : mem.Holds k K) (hK : K.length = 16) (hn : mem.Holds npub N) (hN : N.length = 16)
    (ha : mem.Holds ad A) (hl : A.length = ulong lw adlen) (hA : adlen = 0 ∨ A ≠ [])
    (h16 : 16 ≤ clen) (hcl : clen < 2 ^ 64)
    (hc : mem.Holds c C) (hC : C.length = ulong lw (clen - 16)) (ht : mem.Holds (c + (clen - 16)) T) (hT : T.length = 16)
    (hw : mem.Writable m C.length) (hml : mem.Writable mlen 8)
    (sK : Disjoint mlen 8 k 16) (sN : Disjoint mlen 8 npub 16) (sA : Disjoint mlen 8 ad A.length)
    (sC : Disjoint mlen 8 c clen) (sM : Disjoint mlen 8 m C.length)
    (ho : m ≤ c ∨ c + clen ≤ m) (hlen : P'.length = C.length)
    (hdup : ∀ mem1 : Mem, mem1.Holds c C → mem1.Writable m C.length →
      run (ascon_duplex 1 e (aeadAd A (aeadInit K N)) m c C.length .DEC) mem1 = some (s', mem1.writes m P')) :
    run (crypto_aead_decrypt 1 lw e sp m mlen nsec c clen ad adlen npub k) mem =
      some (if T = aeadTag K s' then 0 else -1,
        (mem.writes mlen (repr64 e (BitVec.ofNat 64 (clen - 16)))).writes m P') := by
  unfold crypto_aead_decrypt
  have hle : C.length ≤ clen - 16 := by rw [hC]; exact Nat.mod_le _ _
  rw [run_ifc_neg (by simpa using h16), run_bind_of (Ref.run_store64 hml)]
  have hsep : ∀ {q : Nat} {bs : List Byte}, mem.Holds q bs → Disjoint mlen 8 q bs.length →
      (mem.writes mlen (repr64 e (BitVec.ofNat 64 (clen - 16)))).Holds q bs := fun hq hd =>
    hq.writes_disjoint (by rwa [Ref.length_repr64])
  have hk := hsep hk (by rwa [hK])
  have hn := hsep hn (by rwa [hN])
  have ha := hsep ha sA
  have hc := hsep hc (by unfold Disjoint at *; omega)
  have ht := hsep ht (by rw [hT]; unfold Disjoint at *; omega)
  have hw : (mem.writes mlen (repr64 e (BitVec.ofNat 64 (clen - 16)))).Writable m C.length := hw.writes
  have hml : (mem.writes mlen (repr64 e (BitVec.ofNat 64 (clen - 16)))).Holds mlen
      (repr64 e (BitVec.ofNat 64 (clen - 16))) := holds_writes_self _ _ _
  generalize mem.writes mlen (repr64 e (BitVec.ofNat 64 (clen - 16))) = mem1 at *
  rw [run_bind_of (run_load64 hml), BitVec.toNat_ofNat, Nat.mod_eq_of_lt (by omega)]
  have hdu := hdup mem1 hc hw
  rw [hC] at hdu
  rw [run_bind_of (run_core hk hK hn hN ha hl hA hdu)]
  have e3 : aeadTag K s' = bytes64 (addKeyLast K (perm 12 (addKeyMid K s'))).x3 ++
      bytes64 (addKeyLast K (perm 12 (addKeyMid K s'))).x4 := rfl
  have htag : (aeadTag K s').length = 16 := Ref.length_aeadTag _ _
  generalize aeadTag K s' = T' at *
  generalize addKeyLast K (perm 12 (addKeyMid K s')) = t at *
  have ht2 : (mem1.writes m P').Holds (c + (clen - 16)) T := by
    apply ht.writes_disjoint
    unfold Disjoint; rw [hlen]; omega
  have hml2 : (mem1.writes m P').Holds mlen (repr64 e (BitVec.ofNat 64 (clen - 16))) := by
    apply hml.writes_disjoint
    rw [hlen, Ref.length_repr64]
    unfold Disjoint at *; omega
  have := run_cmpTag c mlen (clen - 16) t T T' [] 0 hml2 (by omega)
    (by rw [List.nil_append]; exact e3.symm) (by rw [List.length_nil, Nat.add_zero]; exact ht2) (by omega)
  rw [hT, List.length_nil] at this
  refine (run_bind_of this).trans ?_
  exact congrArg (fun q => some (q, mem1.writes m P')) (cmp_result T T' (by omega))

/-- `crypto_aead_decrypt` for any lengths. -/
theorem run_decrypt {e : Endian} {mem : Mem} {lw sp m mlen nsec c clen ad adlen npub k : Nat} {K N A C T : List Byte}
    (hk : mem.Holds k K) (hK : K.length = 16) (hn : mem.Holds npub N) (hN : N.length = 16)
    (ha : mem.Holds ad A) (hl : A.length = ulong lw adlen) (hA : adlen = 0 ∨ A ≠ [])
    (h16 : 16 ≤ clen) (hcl : clen < 2 ^ 64)
    (hc : mem.Holds c C) (hC : C.length = ulong lw (clen - 16)) (ht : mem.Holds (c + (clen - 16)) T) (hT : T.length = 16)
    (hw : mem.Writable m C.length) (hml : mem.Writable mlen 8)
    (sK : Disjoint mlen 8 k 16) (sN : Disjoint mlen 8 npub 16) (sA : Disjoint mlen 8 ad A.length)
    (sC : Disjoint mlen 8 c clen) (sM : Disjoint mlen 8 m C.length)
    (ho : m ≤ c ∨ c + clen ≤ m) (hd : Disjoint m (C.length % 16) c (C.length % 16)) :
    run (crypto_aead_decrypt 1 lw e sp m mlen nsec c clen ad adlen npub k) mem =
      some (if T = aeadDecTag K N A C then 0 else -1,
        (mem.writes mlen (repr64 e (BitVec.ofNat 64 (clen - 16)))).writes m (aeadCandidate K N A C)) := by
  have hle : C.length ≤ clen - 16 := by rw [hC]; exact Nat.mod_le _ _
  exact run_decrypt_gen hk hK hn hN ha hl hA h16 hcl hc hC ht hT hw hml sK sN sA sC sM ho
    (Ref.length_decBody (aeadAd A (aeadInit K N)) C) fun mem1 hc1 hw1 =>
      run_duplex_dec (aeadAd A (aeadInit K N)) m c C hc1 hw1 (by omega) hd

/-- Decryption in place: the last, partial block of the state is computed from the *plaintext*. -/
def decBodyInPlace (s : State) (C : List Byte) : State × List Byte :=
  let r := decBlocks s (fullBlocks 16 C)
  (xorIn r.1 (pad 16 (lastBlock 16 C)), r.2 ++ xorBytes (rate (lastBlock 16 C).length r.1) (lastBlock 16 C))

theorem decBodyInPlace_of_ge (s : State) (c : List Byte) (h : 16 ≤ c.length) :
    decBodyInPlace s c = ((decBodyInPlace (perm 8 (xorIn s (xorBytes (rate 16 s) (c.take 16)))) (c.drop 16)).1,
      xorBytes (rate 16 s) (c.take 16) ++
        (decBodyInPlace (perm 8 (xorIn s (xorBytes (rate 16 s) (c.take 16)))) (c.drop 16)).2) := by
  unfold decBodyInPlace
  rw [fullBlocks_of_ge 16 c (by omega) h, lastBlock_of_ge 16 c (by omega) h]
  simp only [decBlocks, List.append_assoc]

theorem decBodyInPlace_of_lt (s : State) (c : List Byte) (h : c.length < 16) :
    decBodyInPlace s c = (xorIn s (pad 16 c), xorBytes (rate c.length s) c) := by
  unfold decBodyInPlace
  rw [fullBlocks_of_lt 16 c h, lastBlock_of_lt 16 c h]
  simp only [decBlocks, List.nil_append]

theorem length_decBodyInPlace (s : State) (C : List Byte) : (decBodyInPlace s C).2.length = C.length := by
  have h := Ref.length_decBody s C
  unfold decBodyInPlace
  unfold decBody at h
  exact h

theorem run_decFinal_inPlace {e : Endian} {mem : Mem} (s : State) (c : Nat) (C : List Byte)
    (hC : mem.Holds c C) (h16 : C.length < 16) (hw : mem.Writable c C.length) :
    run (duplexFinal e .DEC (s, c, c, C.length)) mem =
      some (xorIn s (pad 16 C), mem.writes c (xorBytes (rate C.length s) C)) := by
  unfold duplexFinal
  simp only
  have hp := length_pad16 C h16
  have hr : ∀ t : State, (bytes64 t.x0 ++ bytes64 t.x1).take C.length = rate C.length t := by
    intro t
    rw [← rate_16]; unfold rate; rw [List.take_take, Nat.min_eq_left (by omega)]
  rw [run_bind_of (run_loadN' hC rfl), run_bind_of (run_require (decide_eq_true h16)), tail_bytes 16 C h16,
    U64LE_value64 e _ (by simp [hp]), U64LE_value64 e _ (by simp [hp]), run_bind, run_ifc_pos (by decide),
    repr64_U64LE, repr64_U64LE, xorParts_eq, xorParts_eq,
    run_bind_of (run_storeN (hw.mono (by omega) (by simp [length_bytes64]; omega))), run_pure']
  simp only [Option.bind_some]
  have hx : ({ s with x0 := s.x0 ^^^ le64 ((pad 16 C).take 8), x1 := s.x1 ^^^ le64 ((pad 16 C).drop 8) } : State) =
      xorIn s (pad 16 C) := (xorIn_of_le16 s _ (by omega)).symm
  have hrt := hr (xorIn s (pad 16 C))
  have h2 := rate_16 (xorIn s (pad 16 C))
  rw [← hx] at hrt h2
  simp only at hrt h2
  rw [hrt, hx, rate_xorIn_pad s C h16]
  have hl : (xorBytes (rate C.length s) C).length = C.length := by
    rw [length_xorBytes, length_rate _ _ (by omega)]; omega
  rw [run_ifc_pos (by decide), run_bind_of (run_loadN' (holds_writes_self mem c _) hl.symm), run_pure']
  rw [← h2, hx]
  have ho : overwrite (rate 16 (xorIn s (pad 16 C))) (xorBytes (rate C.length s) C) = rate 16 (xorIn s (pad 16 C)) := by
    unfold overwrite
    rw [← rate_xorIn_pad s C h16, length_rate _ _ (by omega)]
    have : rate C.length (xorIn s (pad 16 C)) = (rate 16 (xorIn s (pad 16 C))).take C.length := by
      unfold rate; rw [List.take_take, Nat.min_eq_left (by omega)]
    rw [this, List.take_append_drop]
  rw [ho, rate_16]
  rw [U64LE_value64 e _ (by simp [length_bytes64]), U64LE_value64 e _ (by simp [length_bytes64]),
    take8_bytes64_append, drop8_bytes64_append, le64_bytes64, le64_bytes64, ← hx]

theorem run_duplex_inPlace {e : Endian} {mem : Mem} (s : State) (c : Nat) (C : List Byte)
    (hc : mem.Holds c C) (hw : mem.Writable c C.length) :
    run (ascon_duplex 1 e s c c C.length .DEC) mem =
      some ((decBodyInPlace s C).1, mem.writes c (decBodyInPlace s C).2) := by
  unfold ascon_duplex
  suffices ∀ (f : Nat) (mem : Mem) (s : State) (c : Nat) (C : List Byte), mem.Holds c C →
      mem.Writable c C.length → C.length < f →
      run (loop f (fun (_, _, _, len) => decide (len ≥ 16)) (duplexStep 1 e .DEC) (s, c, c, C.length) >>=
        duplexFinal e .DEC) mem = some ((decBodyInPlace s C).1, mem.writes c (decBodyInPlace s C).2) from
    this _ mem s c C hc hw (by omega)
  clear hw hc
  intro f mem s c C hc hw hf
  induction hn : C.length using Nat.strongRecOn generalizing f mem s c C with
  | ind n ih =>
    subst hn
    obtain ⟨f, rfl⟩ : ∃ g, f = g + 1 := ⟨f - 1, by omega⟩
    by_cases h16 : 16 ≤ C.length
    · rw [run_bind, Ascon.C.run_loop_step (by simp; omega)
        (run_decStep s c c _ C hc h16 (hw.mono (by omega) (by omega))), ← run_bind]
      have hr : (xorBytes (rate 16 s) (C.take 16)).length = 16 := by
        rw [length_xorBytes, length_rate 16 _ (by omega)]; simp; omega
      have := ih (C.drop 16).length (by simp; omega) f (mem.writes c (xorBytes (rate 16 s) (C.take 16)))
        (perm 8 (xorIn s (xorBytes (rate 16 s) (C.take 16)))) (c + 16) (C.drop 16) (by
          apply (hc.drop 16 h16).writes_disjoint
          unfold Disjoint; rw [hr]; simp only [List.length_drop]; omega)
        (hw.writes.mono (by omega) (by simp; omega)) (by simp; omega) rfl
      rw [decBodyInPlace_of_ge s C h16]
      simp only
      rw [writes_append, hr, ← this, List.length_drop]
    · rw [decBodyInPlace_of_lt s C (by omega), run_bind, Ascon.C.run_loop_done (by simp; omega)]
      exact run_decFinal_inPlace s c C hc (by omega) hw

/-- Inputs shorter than a tag: `*mlen` is set to 0, and -1 is returned. -/
theorem dec_short {e : Endian} {mem : Mem} {lw sp m mlen nsec c clen ad adlen npub k : Nat} (h : clen < 16)
    (hw : mem.Writable mlen 8) :
    run (crypto_aead_decrypt 1 lw e sp m mlen nsec c clen ad adlen npub k) mem =
      some (-1, mem.writes mlen (repr64 e 0)) := by
  unfold crypto_aead_decrypt
  rw [run_ifc_pos (by simpa using h), run_bind_of (Ref.run_store64 hw)]
  rfl

/-! ### hash.c -/

theorem run_absorb {e : Endian} {mem : Mem} (s : State) (p : Nat) (M : List Byte) (hM : mem.Holds p M) :
    run (loop (M.length + 1) (fun (_, _, len) => decide (len ≥ 8)) (absorbStep 1 e) (s, p, M.length) >>= absorbFinal e) mem =
      some (xorIn (absorb 12 s (fullBlocks 8 M)) (pad 8 (lastBlock 8 M)), mem) := by
  suffices ∀ (f : Nat) (s : State) (p : Nat) (M : List Byte), mem.Holds p M → M.length < f →
      run (loop f (fun (_, _, len) => decide (len ≥ 8)) (absorbStep 1 e) (s, p, M.length) >>= absorbFinal e) mem =
      some (xorIn (absorb 12 s (fullBlocks 8 M)) (pad 8 (lastBlock 8 M)), mem) from
    this _ s p M hM (by omega)
  clear hM
  intro f s p M hM hf
  induction hn : M.length using Nat.strongRecOn generalizing f s p M with
  | ind n ih =>
    subst hn
    obtain ⟨f, rfl⟩ : ∃ g, f = g + 1 := ⟨f - 1, by omega⟩
    by_cases h8 : 8 ≤ M.length
    · have step : run (absorbStep 1 e (s, p, M.length)) mem =
          some ((perm 12 (xorIn s (M.take 8)), p + 8, M.length - 8), mem) := by
        unfold absorbStep
        simp only
        rw [run_bind_of (run_loadPair hM h8), run_bind_of (run_PA _ _ _), xorParts_eq,
          xorIn_of_le8 s _ (by simp; omega)]
        rfl
      rw [run_bind, Ascon.C.run_loop_step (by simp; omega) step, ← run_bind]
      have := ih (M.drop 8).length (by simp; omega) f (perm 12 (xorIn s (M.take 8))) (p + 8)
        (M.drop 8) (hM.drop 8 h8) (by simp; omega) rfl
      rw [fullBlocks_of_ge 8 M (by omega) h8, lastBlock_of_ge 8 M (by omega) h8]
      simp only [absorb, List.foldl_cons, List.length_drop] at this ⊢
      exact this
    · rw [fullBlocks_of_lt 8 M (by omega), lastBlock_of_lt 8 M (by omega), run_bind,
        Ascon.C.run_loop_done (by simp; omega)]
      simp only [Option.bind_some]
      unfold absorbFinal
      simp only
      have hp := length_pad8 M (by omega)
      rw [run_bind_of (run_loadN' hM rfl), run_bind_of (run_require (decide_eq_true (by omega))),
        tail_bytes 8 M (by omega), U64LE_value64 e _ hp, xorParts_eq, xorIn_of_le8 _ _ (by omega)]
      rfl

theorem run_squeeze {e : Endian} {mem : Mem} (s : State) (out n : Nat) (hn : 0 < n) (hw : mem.Writable out n) :
    ∃ r mem', run (loop (n + 1) (fun (_, _, len) => decide (len > 8)) (squeezeStep 1 e) (s, out, n)) mem = some (r, mem') ∧
      run (storeN r.2.1 ((repr64 e (U64LE e r.1.x0)).take r.2.2)) mem' = some ((), mem.writes out (squeeze 8 s n)) := by
  suffices ∀ (f : Nat) (mem : Mem) (s : State) (out n : Nat), 0 < n → mem.Writable out n → n < f →
      ∃ r mem', run (loop f (fun (_, _, len) => decide (len > 8)) (squeezeStep 1 e) (s, out, n)) mem = some (r, mem') ∧
      run (storeN r.2.1 ((repr64 e (U64LE e r.1.x0)).take r.2.2)) mem' = some ((), mem.writes out (squeeze 8 s n)) from
    this _ mem s out n hn hw (by omega)
  clear hw hn
  intro f mem s out n hn hw hf
  induction n using Nat.strongRecOn generalizing f mem s out with
  | ind n ih =>
    obtain ⟨f, rfl⟩ : ∃ g, f = g + 1 := ⟨f - 1, by omega⟩
    by_cases h8 : 8 < n
    · have step : run (squeezeStep 1 e (s, out, n)) mem =
          some ((perm 12 s, out + 8, n - 8), mem.writes out (rate 8 s)) := by
        unfold squeezeStep
        simp only
        rw [run_bind_of (run_storePair (hw.mono (by omega) (by omega))), run_bind_of (run_PA _ _ _), rate_8]
        rfl
      rw [Ascon.C.run_loop_step (by simp; omega) step]
      obtain ⟨r, mem', h1, h2⟩ := ih (n - 8) (by omega) f (mem.writes out (rate 8 s)) (perm 12 s) (out + 8)
        (by omega) (hw.writes.mono (by omega) (by omega)) (by omega)
      refine ⟨r, mem', h1, ?_⟩
      rw [h2, squeeze_of_ge 8 s n (by omega) (by omega) (by omega), writes_append, length_rate 8 s (by omega)]
    · rw [Ascon.C.run_loop_done (by simp; omega)]
      refine ⟨_, _, rfl, ?_⟩
      simp only
      rw [repr64_U64LE, run_storeN (hw.mono (by omega) (by simp [length_bytes64]; omega)),
        squeeze_of_le 8 s n (by omega) (by omega), rate_le8 n s (by omega)]

/-- `crypto_hash` reads only the first `inlen mod 2^lw` bytes. -/
theorem run_hash (iv : State) (n lw : Nat) {e : Endian} {mem : Mem} {sp out inp inlen : Nat} {M : List Byte} (h0 : 0 < n)
    (hM : mem.Holds inp M) (hl : M.length = ulong lw inlen) (hw : mem.Writable out n) :
    run (crypto_hash iv n 1 lw e sp out inp inlen) mem =
      some (0, mem.writes out (squeeze 8 (absorb 12 iv (fullBlocks 8 (pad 8 M))) n)) := by
  unfold crypto_hash
  simp only
  rw [← hl, ← bind_assoc', run_bind_of (run_absorb iv inp M hM), run_bind_of (run_PA _ _ _)]
  have hp : perm 12 (xorIn (absorb 12 iv (fullBlocks 8 M)) (pad 8 (lastBlock 8 M))) =
      absorb 12 iv (fullBlocks 8 (pad 8 M)) := (absorb_pad8 iv M).symm
  rw [hp]
  obtain ⟨r, mem', h1, h2⟩ := run_squeeze (e := e) (absorb 12 iv (fullBlocks 8 (pad 8 M))) out n h0 hw
  rw [run_bind_of h1, run_bind_of h2]
  rfl

theorem run_hash256 (lw : Nat) {e : Endian} {mem : Mem} {sp out inp inlen : Nat} {M : List Byte}
    (hM : mem.Holds inp M) (hl : M.length = ulong lw inlen) (hw : mem.Writable out 32) :
    run (hash256 1 lw e sp out inp inlen) mem = some (0, mem.writes out (Spec.hash256 M)) := by
  unfold hash256 Spec.hash256
  rw [run_hash _ 32 lw (by omega) hM hl hw, hash_ivs]

theorem run_xof128 (lw : Nat) {e : Endian} {mem : Mem} {sp out inp inlen : Nat} {M : List Byte}
    (hM : mem.Holds inp M) (hl : M.length = ulong lw inlen) (hw : mem.Writable out 64) :
    run (xof128 1 lw e sp out inp inlen) mem = some (0, mem.writes out (Spec.xof128 M 64)) := by
  unfold xof128 Spec.xof128
  rw [run_hash _ 64 lw (by omega) hM hl hw, xof_ivs]

end Ascon.Esp32
