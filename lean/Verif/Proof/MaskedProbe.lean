import Verif.Model.MaskedProbe
import Verif.Spec.Probing
import Verif.Proof.MaskedRound
import Verif.Proof.PermBij
/-!
# First-order probing security of the masked permutation: proof

Invariant: if the state is a uniformly random sharing of some value, it is one again after each gate or layer; so the
security of any number of rounds follows from that of the single gates and layers.
-/

namespace Ascon.Masked.Probe

open Ascon.Masked Ascon.Spec

/-- `S ⊕ ror(m, 5)`, half by half. -/
def xr (S m : Val) : Val := fun k i => S k i ^^^ ROR32 (m k i) 5

/-- The sharing of `S` with masks `m`. -/
def share (S m : Val) : St := fun d => if d = 0 then xr S m else m

theorem share0 (S m : Val) : share S m 0 = xr S m := rfl
theorem share1 (S m : Val) : share S m 1 = m := rfl

theorem two {p : Fin 2 → Prop} (h0 : p 0) (h1 : p 1) : ∀ d, p d := by
  intro d
  match d with
  | 0 => exact h0
  | 1 => exact h1

theorem st_ext {s t : St} (h0 : s 0 = t 0) (h1 : s 1 = t 1) : s = t := funext (two h0 h1)

theorem ROR32_5_27 (x : U32) : ROR32 (ROR32 x 5) 27 = x := by
  rw [ROR32_comm _ _ _ (by omega) (by omega)]; exact ROR32_27_5 x

theorem xx (a b : U32) : a ^^^ (a ^^^ b) = b := by
  rw [← BitVec.xor_assoc, BitVec.xor_self, BitVec.zero_xor]
theorem xx' (a b : U32) : a ^^^ b ^^^ b = a := by
  rw [BitVec.xor_assoc, BitVec.xor_self, BitVec.xor_zero]

theorem x3 (a b c : U32) : a ^^^ c = b ^^^ (c ^^^ (a ^^^ b)) := by
  apply BitVec.eq_of_getLsbD_eq; intro i hi
  simp only [BitVec.getLsbD_xor]
  cases a.getLsbD i <;> cases b.getLsbD i <;> cases c.getLsbD i <;> rfl

/-! ## Same distribution -/

theorem sameDist_refl {M V : Type} {f g : M → V} (h : ∀ m, f m = g m) : SameDist f g :=
  ⟨id, id, fun _ => rfl, fun _ => rfl, h⟩

/-- The masks that turn the sharing of `S` into one of `S'` with the same share 0 for the words in `T`. -/
def shift (T : Fin 6 → Bool) (S S' m : Val) : Val := fun k i =>
  if T k then m k i ^^^ ROR32 (S k i ^^^ S' k i) 27 else m k i

theorem shift_shift (T : Fin 6 → Bool) (S S' m : Val) : shift T S' S (shift T S S' m) = m := by
  funext k i
  unfold shift
  by_cases h : T k
  · simp only [h, if_true]; rw [BitVec.xor_comm (S' k i), xx']
  · simp only [h]; rfl

/-- A value that depends on one share of each word only. -/
theorem sel {V : Type} (T : Fin 6 → Bool) (p : St → V)
    (hp : ∀ s s' : St, (∀ k i, s (if T k then 0 else 1) k i = s' (if T k then 0 else 1) k i) → p s = p s') (S S' : Val) :
    SameDist (fun m => p (share S m)) (fun m => p (share S' m)) := by
  refine ⟨shift T S S', shift T S' S, shift_shift T S S', shift_shift T S' S, fun m => hp _ _ fun k i => ?_⟩
  by_cases h : T k
  · simp only [h, if_true, share0, xr, shift]
    rw [ROR32_xor _ _ _ (by omega), ROR32_27_5]
    exact x3 _ _ _
  · simp [h, share1, shift]

/-- `m` with `v` in half `i` of word `c`. -/
def upd (m : Val) (c : Fin 6) (i : Fin 2) (v : U32) : Val := fun k j => if k = c ∧ j = i then v else m k j

theorem upd_same (m : Val) (c : Fin 6) (i : Fin 2) (v : U32) : upd m c i v c i = v := by simp [upd]
theorem upd_upd (m : Val) (c : Fin 6) (i : Fin 2) (v w : U32) : upd (upd m c i v) c i w = upd m c i w := by
  funext k j; unfold upd; split <;> rfl
theorem upd_self (m : Val) (c : Fin 6) (i : Fin 2) : upd m c i (m c i) = m := by
  funext k j; unfold upd; split
  · next h => rw [h.1, h.2]
  · rfl
theorem upd_ne (m : Val) {c a : Fin 6} (h : a ≠ c) (i j : Fin 2) (v : U32) : upd m c i v a j = m a j := by
  simp [upd, h]

/-- A value blinded by the mask of `c`. -/
theorem blind {V : Type} (c : Fin 6) (i : Fin 2) (G : Val → Val → U32) (hG : ∀ S m v, G S (upd m c i v) = G S m)
    (h : U32 → V) (p : St → V) (hp : ∀ S m, p (share S m) = h (m c i ^^^ G S m)) (S S' : Val) :
    SameDist (fun m => p (share S m)) (fun m => p (share S' m)) := by
  have inv : ∀ S S' m, upd (upd m c i (m c i ^^^ (G S m ^^^ G S' m))) c i
      (upd m c i (m c i ^^^ (G S m ^^^ G S' m)) c i ^^^
        (G S' (upd m c i (m c i ^^^ (G S m ^^^ G S' m))) ^^^ G S (upd m c i (m c i ^^^ (G S m ^^^ G S' m))))) = m := by
    intro S S' m
    rw [upd_upd, hG, hG, upd_same, BitVec.xor_comm (G S' m), xx', upd_self]
  refine ⟨fun m => upd m c i (m c i ^^^ (G S m ^^^ G S' m)), fun m => upd m c i (m c i ^^^ (G S' m ^^^ G S m)),
    inv S S', inv S' S, fun m => ?_⟩
  simp only []
  rw [hp, hp, hG, upd_same, ← BitVec.xor_assoc, xx']

/-! ## Good pieces of code -/

/-- The code turns uniform sharings into uniform sharings, and no single value that appears depends on the secret. -/
structure Good (f : Op) : Prop where
  ex : ∃ (F : Val → Val) (π π' : Val → Val → Val), (∀ S m, (f (share S m)).1 = share (F S) (π S m)) ∧
    (∀ S m, π' S (π S m) = m) ∧ ∀ S m, π S (π' S m) = m
  len : ∃ n, ∀ s, (f s).2.length = n
  probe : ∀ (S S' : Val) (j : Nat), SameDist (fun m => (f (share S m)).2[j]?) (fun m => (f (share S' m)).2[j]?)

theorem Good.then {f g : Op} (hf : Good f) (hg : Good g) : Good (f.then g) := by
  obtain ⟨F, π, π', h1, h2, h3⟩ := hf.ex
  obtain ⟨F2, π2, π2', k1, k2, k3⟩ := hg.ex
  obtain ⟨n, hn⟩ := hf.len
  obtain ⟨n2, hn2⟩ := hg.len
  have e1 : ∀ s, (f.then g s).1 = (g (f s).1).1 := fun s => rfl
  have e2 : ∀ s, (f.then g s).2 = (f s).2 ++ (g (f s).1).2 := fun s => rfl
  refine ⟨⟨fun S => F2 (F S), fun S m => π2 (F S) (π S m), fun S m => π' S (π2' (F S) m), fun S m => ?_, fun S m => ?_,
    fun S m => ?_⟩, ⟨n + n2, fun s => ?_⟩, fun S S' j => ?_⟩
  · rw [e1, h1, k1]
  · simp only [k2, h2]
  · simp only [h3, k3]
  · rw [e2, List.length_append, hn, hn2]
  · by_cases hj : j < n
    · obtain ⟨φ, ψ, p1, p2, p3⟩ := hf.probe S S' j
      refine ⟨φ, ψ, p1, p2, fun m => ?_⟩
      simp only [e2]
      rw [List.getElem?_append_left (by rw [hn]; exact hj), List.getElem?_append_left (by rw [hn]; exact hj)]
      exact p3 m
    · obtain ⟨φ, ψ, p1, p2, p3⟩ := hg.probe (F S) (F S') (j - n)
      refine ⟨fun m => π' S' (φ (π S m)), fun m => π' S (ψ (π S' m)), fun m => ?_, fun m => ?_, fun m => ?_⟩
      · simp only [h3, p1, h2]
      · simp only [h3, p2, h2]
      · simp only [e2]
        rw [List.getElem?_append_right (by rw [hn]; omega), List.getElem?_append_right (by rw [hn]; omega), hn, hn,
          h1, h1, h3]
        exact p3 _

theorem good_nil : Good (seq []) :=
  ⟨⟨id, fun _ m => m, fun _ m => m, fun _ _ => rfl, fun _ _ => rfl, fun _ _ => rfl⟩, ⟨0, fun _ => rfl⟩,
    fun _ _ _ => sameDist_refl fun _ => rfl⟩

theorem good_seq : ∀ l : List Op, (∀ f ∈ l, Good f) → Good (seq l)
  | [], _ => good_nil
  | f :: l, h => (h f (List.mem_cons_self ..)).then (good_seq l fun g hg => h g (List.mem_cons_of_mem _ hg))

theorem then_assoc (f g h : Op) : (f.then g).then h = f.then (g.then h) := by
  funext s
  simp only [Op.then, List.append_assoc]

/-! ## Code that works on one share only -/

/-- The code changes share `d` by `A`, and shows values of share `d` only. -/
structure OnShare (d : Fin 2) (f : Op) (A : Val → Val) (L : Val → List U32) : Prop where
  eq : ∀ s, f s = (fun d' => if d' = d then A (s d) else s d', L (s d))
  len : ∃ n, ∀ v, (L v).length = n

theorem OnShare.then {d : Fin 2} {f g : Op} {A B : Val → Val} {L M : Val → List U32} (hf : OnShare d f A L)
    (hg : OnShare d g B M) : OnShare d (f.then g) (fun v => B (A v)) (fun v => L v ++ M (A v)) := by
  refine ⟨fun s => ?_, ?_⟩
  · unfold Op.then
    simp only [hf.eq, hg.eq, if_true]
    congr 1
    funext d'
    by_cases h : d' = d <;> simp [h]
  · obtain ⟨n, hn⟩ := hf.len
    obtain ⟨m, hm⟩ := hg.len
    exact ⟨n + m, fun v => by rw [List.length_append, hn, hm]⟩

theorem OnShare.nil (d : Fin 2) : OnShare d (seq []) (fun v => v) (fun _ => []) := by
  refine ⟨fun s => ?_, 0, fun _ => rfl⟩
  show (s, _) = _
  congr 1
  funext d'
  by_cases h : d' = d <;> simp [h]

/-- Code on share 0, then code on share 1, or the other way round. -/
theorem good_pair {f g : Op} {A0 A1 B F : Val → Val} {L0 L1 : Val → List U32} (hf : OnShare 0 f A0 L0)
    (hg : OnShare 1 g A1 L1) (hF : ∀ S m, A0 (xr S m) = xr (F S) (A1 m)) (h1 : ∀ m, B (A1 m) = m) (h2 : ∀ m, A1 (B m) = m) :
    Good (f.then g) ∧ Good (g.then f) := by
  have e1 : ∀ s : St, f.then g s = (fun d => if d = 0 then A0 (s 0) else A1 (s 1), L0 (s 0) ++ L1 (s 1)) := by
    intro s
    unfold Op.then
    simp only [hf.eq, hg.eq]
    exact Prod.ext (st_ext rfl rfl) rfl
  have e2 : ∀ s : St, g.then f s = (fun d => if d = 0 then A0 (s 0) else A1 (s 1), L1 (s 1) ++ L0 (s 0)) := by
    intro s
    unfold Op.then
    simp only [hf.eq, hg.eq]
    exact Prod.ext (st_ext rfl rfl) rfl
  obtain ⟨n0, hn0⟩ := hf.len
  obtain ⟨n1, hn1⟩ := hg.len
  have p0 : ∀ (j : Nat) (S S' : Val), SameDist (fun m => (L0 (share S m 0))[j]?) (fun m => (L0 (share S' m 0))[j]?) :=
    fun j => sel (fun _ => true) (fun s => (L0 (s 0))[j]?) fun s s' h => by
      have : s 0 = s' 0 := funext fun k => funext fun i => h k i
      simp only [this]
  have p1 : ∀ (j : Nat) (S S' : Val), SameDist (fun m => (L1 (share S m 1))[j]?) (fun m => (L1 (share S' m 1))[j]?) :=
    fun j => sel (fun _ => false) (fun s => (L1 (s 1))[j]?) fun s s' h => by
      have : s 1 = s' 1 := funext fun k => funext fun i => h k i
      simp only [this]
  have hst : ∀ S m, (fun d : Fin 2 => if d = 0 then A0 (share S m 0) else A1 (share S m 1)) = share (F S) (A1 m) := by
    intro S m
    exact st_ext (hF S m) rfl
  refine ⟨⟨⟨F, fun _ m => A1 m, fun _ m => B m, fun S m => ?_, fun _ m => h1 m, fun _ m => h2 m⟩, ⟨n0 + n1, fun s => ?_⟩,
    fun S S' j => ?_⟩, ⟨⟨F, fun _ m => A1 m, fun _ m => B m, fun S m => ?_, fun _ m => h1 m, fun _ m => h2 m⟩,
    ⟨n1 + n0, fun s => ?_⟩, fun S S' j => ?_⟩⟩
  · rw [e1]; exact hst S m
  · rw [e1]; simp only [List.length_append, hn0, hn1]
  · simp only [e1]
    by_cases hj : j < n0
    · have q : ∀ v w, (L0 v ++ L1 w)[j]? = (L0 v)[j]? := fun v w =>
        List.getElem?_append_left (by rw [hn0]; exact hj)
      simp only [q]
      exact p0 j S S'
    · have q : ∀ v w, (L0 v ++ L1 w)[j]? = (L1 w)[j - n0]? := fun v w => by
        rw [List.getElem?_append_right (by rw [hn0]; omega), hn0]
      simp only [q]
      exact p1 _ S S'
  · rw [e2]; exact hst S m
  · rw [e2]; simp only [List.length_append, hn0, hn1]
  · simp only [e2]
    by_cases hj : j < n1
    · have q : ∀ v w, (L1 v ++ L0 w)[j]? = (L1 v)[j]? := fun v w =>
        List.getElem?_append_left (by rw [hn1]; exact hj)
      simp only [q]
      exact p1 j S S'
    · have q : ∀ v w, (L1 v ++ L0 w)[j]? = (L0 w)[j - n1]? := fun v w => by
        rw [List.getElem?_append_right (by rw [hn1]; omega), hn1]
      simp only [q]
      exact p0 _ S S'

theorem then_nil (f : Op) : f.then (seq []) = f := by
  funext s; simp [Op.then, seq]

theorem good_on0 {f : Op} {A0 F : Val → Val} {L0 : Val → List U32} (hf : OnShare 0 f A0 L0)
    (hF : ∀ S m, A0 (xr S m) = xr (F S) m) : Good f := by
  have := (good_pair hf (OnShare.nil 1) (B := fun m => m) (F := F) hF (fun _ => rfl) fun _ => rfl).1
  rwa [then_nil] at this

/-! ### Linear maps on one share -/

/-- Compatible with sharing, and invertible. -/
structure VLin (A : Val → Val) : Prop where
  hom : ∀ S m, A (xr S m) = xr (A S) (A m)
  inv : ∃ B : Val → Val, (∀ m, B (A m) = m) ∧ ∀ m, A (B m) = m

theorem VLin.comp {A B : Val → Val} (hA : VLin A) (hB : VLin B) : VLin (fun v => B (A v)) := by
  obtain ⟨a, a1, a2⟩ := hA.inv
  obtain ⟨b, b1, b2⟩ := hB.inv
  exact ⟨fun S m => by rw [hA.hom, hB.hom], fun v => a (b v), fun m => by simp only [b1, a1], fun m => by simp only [a2, b2]⟩

theorem VLin.id : VLin (fun v => v) := ⟨fun _ _ => rfl, fun v => v, fun _ => rfl, fun _ => rfl⟩

/-- `x[k].w[i] ^= x[k'].w[i]` -/
def xv (k k' : Fin 6) (i : Fin 2) (v : Val) : Val := upd v k i (v k i ^^^ v k' i)

theorem lin_xv {k k' : Fin 6} (h : k' ≠ k) (i : Fin 2) : VLin (xv k k' i) := by
  have inv : ∀ m, xv k k' i (xv k k' i m) = m := by
    intro m
    unfold xv
    rw [upd_upd, upd_same, upd_ne _ h, xx', upd_self]
  refine ⟨fun S m => ?_, xv k k' i, inv, inv⟩
  funext a b
  unfold xv upd xr
  by_cases hab : a = k ∧ b = i
  · simp only [hab, and_self, if_true]
    rw [ROR32_xor _ _ _ (by omega), xor4]
  · simp only [hab, if_false]

theorem on_xorInto (d : Fin 2) (k k' : Fin 6) (i : Fin 2) :
    OnShare d (xorInto d k k' i) (xv k k' i) (fun v => [v k i ^^^ v k' i]) := by
  refine ⟨fun s => ?_, 1, fun _ => rfl⟩
  unfold xorInto
  simp only
  congr 1
  funext d' a b
  unfold put xv upd
  by_cases h : d' = d
  · subst h; simp
  · simp [h]

theorem on_put0 (k : Fin 6) (i : Fin 2) (g : U32 → U32) :
    OnShare 0 (fun s => (put s 0 k i (g (s 0 k i)), [g (s 0 k i)])) (fun v => upd v k i (g (v k i)))
      (fun v => [g (v k i)]) := by
  refine ⟨fun s => ?_, 1, fun _ => rfl⟩
  refine Prod.ext ?_ rfl
  funext d' a b
  unfold put upd
  by_cases h : d' = 0
  · subst h; simp
  · simp [h]

theorem hom_put0 (k : Fin 6) (i : Fin 2) (g : U32 → U32) (hg : ∀ x y, g (x ^^^ y) = g x ^^^ y) (S m : Val) :
    upd (xr S m) k i (g (xr S m k i)) = xr (upd S k i (g (S k i))) m := by
  funext a b
  unfold upd xr
  by_cases h : a = k ∧ b = i
  · simp only [h, and_self, if_true]; rw [hg]
  · simp only [h, if_false]

theorem not_xor' (x y : U32) : ~~~(x ^^^ y) = ~~~x ^^^ y := by
  apply BitVec.eq_of_getLsbD_eq; intro i hi
  simp only [BitVec.getLsbD_xor, BitVec.getLsbD_not, hi, decide_true, Bool.true_and]
  cases x.getLsbD i <;> cases y.getLsbD i <;> rfl

theorem xorc (C x y : U32) : x ^^^ y ^^^ C = x ^^^ C ^^^ y := by
  rw [BitVec.xor_assoc, BitVec.xor_comm y, ← BitVec.xor_assoc]

theorem good_xorConst (k : Fin 6) (i : Fin 2) (C : U32) : Good (xorConst k i C) :=
  good_on0 (on_put0 k i (· ^^^ C)) (hom_put0 k i (· ^^^ C) fun x y => xorc C x y)

theorem on_affine1 (i d : Fin 2) : ∃ L, OnShare d (affine1 i d) (fun v => xv 4 3 i (xv 0 4 i (xv 2 1 i v))) L :=
  ⟨_, (on_xorInto d 2 1 i).then ((on_xorInto d 0 4 i).then ((on_xorInto d 4 3 i).then (OnShare.nil d)))⟩

theorem lin_affine1 (i : Fin 2) : VLin (fun v => xv 4 3 i (xv 0 4 i (xv 2 1 i v))) :=
  ((lin_xv (by decide) i).comp (lin_xv (by decide) i)).comp (lin_xv (by decide) i)

theorem good_affine1 (i : Fin 2) : Good ((affine1 i 0).then (affine1 i 1)) := by
  obtain ⟨L0, h0⟩ := on_affine1 i 0
  obtain ⟨L1, h1⟩ := on_affine1 i 1
  have hl := lin_affine1 i
  obtain ⟨B, b1, b2⟩ := hl.inv
  exact (good_pair h0 h1 hl.hom b1 b2).1

theorem on_affine2 (i d : Fin 2) :
    ∃ L, OnShare d (affine2 i d) (fun v => xv 3 2 i (xv 0 4 i (xv 1 0 i (xv 2 5 i v)))) L :=
  ⟨_, (on_xorInto d 2 5 i).then ((on_xorInto d 1 0 i).then ((on_xorInto d 0 4 i).then ((on_xorInto d 3 2 i).then
    (OnShare.nil d))))⟩

theorem lin_affine2 (i : Fin 2) : VLin (fun v => xv 3 2 i (xv 0 4 i (xv 1 0 i (xv 2 5 i v)))) :=
  (((lin_xv (by decide) i).comp (lin_xv (by decide) i)).comp (lin_xv (by decide) i)).comp (lin_xv (by decide) i)

theorem good_affine2 (i : Fin 2) : Good ((affine2 i 0).then ((notInto 2 i).then (affine2 i 1))) := by
  obtain ⟨L0, h0⟩ := on_affine2 i 0
  obtain ⟨L1, h1⟩ := on_affine2 i 1
  have hl := lin_affine2 i
  obtain ⟨B, b1, b2⟩ := hl.inv
  have hn : OnShare 0 (notInto 2 i) _ _ := on_put0 2 i (fun x => ~~~x)
  have h := h0.then hn
  rw [← then_assoc]
  refine (good_pair h h1 (F := fun S => upd (xv 3 2 i (xv 0 4 i (xv 1 0 i (xv 2 5 i S)))) 2 i
    (~~~(xv 3 2 i (xv 0 4 i (xv 1 0 i (xv 2 5 i S))) 2 i))) (fun S m => ?_) b1 b2).1
  have := hl.hom S m
  rw [this]
  exact hom_put0 2 i (fun x => ~~~x) (fun x y => not_xor' x y) _ _

/-! ### The linear layer -/

/-- `linWord` on word `k`. -/
def lv (k : Fin 6) (v : Val) : Val := fun a b =>
  if a = k then
    let w := linWord ⟨v k 0, v k 1⟩ (linParams k).1 (linParams k).2.1 (linParams k).2.2.1 (linParams k).2.2.2.1
      (linParams k).2.2.2.2.1 (linParams k).2.2.2.2.2
    if b = 0 then w.w0 else w.w1
  else v a b

theorem on_linearWord (d : Fin 2) (k : Fin 6) : ∃ L, OnShare d (linearWord d k) (lv k) L := by
  refine ⟨fun v => (linearWord 0 k (fun _ => v)).2, fun s => ?_, 8, fun v => rfl⟩
  · refine Prod.ext ?_ ?_
    · funext d' a b
      show put (put s d k 0 _) d k 1 _ d' a b = _
      unfold put
      by_cases hd : d' = d
      · by_cases ha : a = k
        · subst hd; subst ha
          revert b
          refine two ?_ ?_
          · simp [lv, linWord, share_t.get, half]; rfl
          · simp [lv, linWord, share_t.get, half]; rfl
        · simp [hd, ha, lv]
      · simp [hd]
    · rfl

theorem lin_lv (k : Fin 6) (h : (linParams k).2.1 < 32 ∧ (linParams k).2.2.1 < 32 ∧ (linParams k).2.2.2.2.1 < 32 ∧
    (linParams k).2.2.2.2.2 < 32) (g : share_t → share_t)
    (h1 : ∀ w, g (linWord w (linParams k).1 (linParams k).2.1 (linParams k).2.2.1 (linParams k).2.2.2.1
      (linParams k).2.2.2.2.1 (linParams k).2.2.2.2.2) = w)
    (h2 : ∀ w, linWord (g w) (linParams k).1 (linParams k).2.1 (linParams k).2.2.1 (linParams k).2.2.2.1
      (linParams k).2.2.2.2.1 (linParams k).2.2.2.2.2 = w) : VLin (lv k) := by
  refine ⟨fun S m => ?_, fun v a b => if a = k then (if b = 0 then (g ⟨v k 0, v k 1⟩).w0 else (g ⟨v k 0, v k 1⟩).w1) else v a b,
    fun m => ?_, fun m => ?_⟩
  · funext a b
    unfold lv xr
    by_cases ha : a = k
    · simp only [ha, if_true]
      have e := linWord_xor ⟨S k 0, S k 1⟩ ⟨ROR32 (m k 0) 5, ROR32 (m k 1) 5⟩ (linParams k).1 (linParams k).2.1
        (linParams k).2.2.1 (linParams k).2.2.2.1 (linParams k).2.2.2.2.1 (linParams k).2.2.2.2.2 h
      have e' := linWord_ror ⟨m k 0, m k 1⟩ 5 (linParams k).1 (linParams k).2.1
        (linParams k).2.2.1 (linParams k).2.2.2.1 (linParams k).2.2.2.2.1 (linParams k).2.2.2.2.2 h (by omega)
      rw [e'] at e
      rw [e]
      by_cases hb : b = 0 <;> simp [hb]
    · simp only [ha, if_false]
  · funext a b
    by_cases ha : a = k
    · subst ha
      simp only [lv, if_true, if_neg (show ¬ ((1 : Fin 2) = 0) by decide)]
      rw [show ∀ w : share_t, share_t.mk w.w0 w.w1 = w from fun _ => rfl, h1]
      revert b
      exact two rfl rfl
    · simp only [ha, if_false, lv]
  · funext a b
    by_cases ha : a = k
    · subst ha
      simp only [lv, if_true, if_neg (show ¬ ((1 : Fin 2) = 0) by decide)]
      rw [show ∀ w : share_t, share_t.mk w.w0 w.w1 = w from fun _ => rfl, h2]
      revert b
      exact two rfl rfl
    · simp only [ha, if_false, lv]

/-- The inverse of `linWord`, given how it looks on interleaved words. -/
theorem lin_inv {f : share_t → share_t} {r1 r2 : Nat}
    (h1 : ∀ x, Gen.bi32ROR .little (Gen.deinterleave32 .little x) r1 = Gen.deinterleave32 .little (x.rotateRight r1))
    (h2 : ∀ x, Gen.bi32ROR .little (Gen.deinterleave32 .little x) r2 = Gen.deinterleave32 .little (x.rotateRight r2))
    (hf : ∀ s, pk (f s) = pk s ^^^ Gen.bi32ROR .little (pk s ^^^ Gen.bi32ROR .little (pk s) r1) r2) :
    ∃ g : share_t → share_t, (∀ w, g (f w) = w) ∧ ∀ w, f (g w) = w := by
  have key : ∀ x, pk (f (unpk (Gen.deinterleave32 .little x))) = Gen.deinterleave32 .little (lin r2 (r1 + r2) x) := by
    intro x
    rw [hf, pk_unpk, h1, ← Gen.bi32_perm.xor, h2, ← Gen.bi32_perm.xor, Gen.lin2]
    rfl
  have hu : ∀ w, unpk (Gen.deinterleave32 .little (Gen.interleave32 .little (pk w))) = w := fun w => by
    rw [Gen.deinterleave32_interleave32, unpk_pk]
  refine ⟨fun w => unpk (Gen.deinterleave32 .little (linInv r2 (r1 + r2) (Gen.interleave32 .little (pk w)))),
    fun w => ?_, fun w => ?_⟩
  · have := key (Gen.interleave32 .little (pk w))
    rw [hu] at this
    simp only [this, Gen.interleave32_deinterleave32, linInv_lin, hu]
  · have := key (linInv r2 (r1 + r2) (Gen.interleave32 .little (pk w)))
    rw [lin_linInv, Gen.deinterleave32_interleave32] at this
    rw [← unpk_pk (f _), this, unpk_pk]

theorem lv_lin : VLin (lv 0) ∧ VLin (lv 1) ∧ VLin (lv 2) ∧ VLin (lv 3) ∧ VLin (lv 4) := by
  have hr := Gen.bi32_ror
  refine ⟨?_, ?_, ?_, ?_, ?_⟩
  · obtain ⟨g, g1, g2⟩ := lin_inv (fun x => hr x 9 (by decide)) (fun x => hr x 19 (by decide)) pk_lin0
    exact lin_lv 0 (by decide) g g1 g2
  · obtain ⟨g, g1, g2⟩ := lin_inv (fun x => hr x 22 (by decide)) (fun x => hr x 39 (by decide)) pk_lin1
    exact lin_lv 1 (by decide) g g1 g2
  · obtain ⟨g, g1, g2⟩ := lin_inv (fun x => hr x 5 (by decide)) (fun x => hr x 1 (by decide)) pk_lin2
    exact lin_lv 2 (by decide) g g1 g2
  · obtain ⟨g, g1, g2⟩ := lin_inv (fun x => hr x 7 (by decide)) (fun x => hr x 10 (by decide)) pk_lin3
    exact lin_lv 3 (by decide) g g1 g2
  · obtain ⟨g, g1, g2⟩ := lin_inv (fun x => hr x 34 (by decide)) (fun x => hr x 7 (by decide)) pk_lin4
    exact lin_lv 4 (by decide) g g1 g2

theorem on_linear (d : Fin 2) : ∃ L, OnShare d (linear d) (fun v => lv 4 (lv 3 (lv 2 (lv 1 (lv 0 v))))) L := by
  obtain ⟨L0, h0⟩ := on_linearWord d 0
  obtain ⟨L1, h1⟩ := on_linearWord d 1
  obtain ⟨L2, h2⟩ := on_linearWord d 2
  obtain ⟨L3, h3⟩ := on_linearWord d 3
  obtain ⟨L4, h4⟩ := on_linearWord d 4
  exact ⟨_, h0.then (h1.then (h2.then (h3.then (h4.then (OnShare.nil d)))))⟩

theorem good_linear : Good ((linear 1).then (linear 0)) := by
  obtain ⟨L0, h0⟩ := on_linear 0
  obtain ⟨L1, h1⟩ := on_linear 1
  obtain ⟨v0, v1, v2, v3, v4⟩ := lv_lin
  have hl : VLin (fun v => lv 4 (lv 3 (lv 2 (lv 1 (lv 0 v))))) := (((v0.comp v1).comp v2).comp v3).comp v4
  obtain ⟨B, b1, b2⟩ := hl.inv
  exact (good_pair h0 h1 hl.hom b1 b2).2

/-! ## Fresh sharing of zero from the old mask -/

theorem ROR32_7_25 (x : U32) : ROR32 (ROR32 x 7) 25 = x := by
  apply BitVec.eq_of_getLsbD_eq; intro i hi
  rw [getLsbD_ROR32 _ _ _ (by omega) hi, getLsbD_ROR32 _ _ _ (by omega) (Nat.mod_lt _ (by omega))]
  congr 1; omega

theorem good_reuse (k : Fin 6) : Good (reuse k) := by
  refine ⟨⟨fun S a b => if a = k then 0 else S a b, fun _ m a b => if a = k then ROR32 (m a b) 7 else m a b,
    fun _ m a b => if a = k then ROR32 (m a b) 25 else m a b, fun S m => ?_, fun S m => ?_, fun S m => ?_⟩,
    ⟨8, fun _ => rfl⟩, fun S S' j => sel (fun _ => false) (fun s => (reuse k s).2[j]?) (fun s s' h => ?_) S S'⟩
  · unfold reuse
    simp only [share1, rot1, BitVec.zero_xor]
    refine st_ext ?_ ?_
    · funext a b
      by_cases ha : a = k
      · subst ha; revert b
        refine two ?_ ?_ <;> simp [put, share, xr]
      · simp [put, ha, share, xr]
    · funext a b
      by_cases ha : a = k
      · subst ha; revert b
        refine two ?_ ?_ <;> simp [put, share]
      · simp [put, ha, share]
  · funext a b
    by_cases ha : a = k
    · simp only [ha, if_true, ROR32_7_25]
    · simp only [ha, if_false]
  · funext a b
    by_cases ha : a = k
    · simp only [ha, if_true]; rw [ROR32_comm _ _ _ (by omega) (by omega), ROR32_7_25]
    · simp only [ha, if_false]
  · have h0 : s 1 k 0 = s' 1 k 0 := h k 0
    have h1 : s 1 k 1 = s' 1 k 1 := h k 1
    simp only [reuse, h0, h1]

/-! ## The shared Toffoli gate -/

theorem mxorbic_eq {c a b : Fin 6} (hca : a ≠ c) (hcb : b ≠ c) (i : Fin 2) (s : St) :
    mxorbic c a b i s =
      (put (put s 1 c i (s 1 a i &&& s 1 b i ^^^ (s 1 a i &&& ~~~(ROR32 (s 0 b i) 27) ^^^ s 1 c i))) 0 c i
        (s 0 a i &&& ROR32 (s 1 b i) 5 ^^^ (s 0 a i &&& ~~~(s 0 b i) ^^^ s 0 c i)),
       [s 0 b i, s 0 a i &&& ~~~(s 0 b i), s 0 a i &&& ~~~(s 0 b i) ^^^ s 0 c i,
        ROR32 (s 0 b i) 27, s 1 a i &&& ~~~(ROR32 (s 0 b i) 27), s 1 a i &&& ~~~(ROR32 (s 0 b i) 27) ^^^ s 1 c i,
        s 1 b i, s 1 a i &&& s 1 b i, s 1 a i &&& s 1 b i ^^^ (s 1 a i &&& ~~~(ROR32 (s 0 b i) 27) ^^^ s 1 c i),
        ROR32 (s 1 b i) 5, s 0 a i &&& ROR32 (s 1 b i) 5,
        s 0 a i &&& ROR32 (s 1 b i) 5 ^^^ (s 0 a i &&& ~~~(s 0 b i) ^^^ s 0 c i)]) := by
  unfold mxorbic
  simp only [seq, Op.then, eorBicRor, eorAndRor, rot0, rotm1, rot1', ROR32_by0]
  refine Prod.ext ?_ ?_
  · funext d k j
    by_cases hk : k = c
    · by_cases hj : j = i
      · subst hk; subst hj; revert d
        refine two ?_ ?_ <;> simp [put, hca, hcb]
      · simp [put, hj]
    · simp [put, hk]
  · simp [put, hca, hcb]

/-- What the gate adds to the mask of `c`. -/
def gateMask (a b : Fin 6) (i : Fin 2) (S m : Val) : U32 :=
  m a i &&& m b i ^^^ (m a i &&& ~~~(ROR32 (S b i ^^^ ROR32 (m b i) 5) 27))

theorem gateMask_upd {c a b : Fin 6} (hca : a ≠ c) (hcb : b ≠ c) (i : Fin 2) (S m : Val) (v : U32) :
    gateMask a b i S (upd m c i v) = gateMask a b i S m := by
  unfold gateMask
  rw [upd_ne _ hca, upd_ne _ hcb]

theorem gate_c1 (a b : Fin 6) (c : Fin 6) (i : Fin 2) (S m : Val) :
    share S m 1 a i &&& share S m 1 b i ^^^ (share S m 1 a i &&& ~~~(ROR32 (share S m 0 b i) 27) ^^^ share S m 1 c i) =
      m c i ^^^ gateMask a b i S m := by
  show m a i &&& m b i ^^^ (m a i &&& ~~~(ROR32 (S b i ^^^ ROR32 (m b i) 5) 27) ^^^ m c i) = _
  unfold gateMask
  rw [← BitVec.xor_assoc, BitVec.xor_comm]

theorem gate_c0 (a b : Fin 6) (c : Fin 6) (i : Fin 2) (S m : Val) :
    share S m 0 a i &&& ROR32 (share S m 1 b i) 5 ^^^ (share S m 0 a i &&& ~~~(share S m 0 b i) ^^^ share S m 0 c i) =
      (S c i ^^^ (S a i &&& ~~~(S b i))) ^^^ ROR32 (m c i ^^^ gateMask a b i S m) 5 := by
  show (S a i ^^^ ROR32 (m a i) 5) &&& ROR32 (m b i) 5 ^^^
      ((S a i ^^^ ROR32 (m a i) 5) &&& ~~~(S b i ^^^ ROR32 (m b i) 5) ^^^ (S c i ^^^ ROR32 (m c i) 5)) = _
  unfold gateMask
  rw [ROR32_xor _ _ _ (by omega), ROR32_xor _ _ _ (by omega), ROR32_and _ _ _ (by omega), ROR32_and _ _ _ (by omega),
    ROR32_not _ _ (by omega), ROR32_27_5]
  generalize ROR32 (m a i) 5 = x, ROR32 (m b i) 5 = y, ROR32 (m c i) 5 = z, S a i = u, S b i = v, S c i = w
  apply BitVec.eq_of_getLsbD_eq; intro j hj
  simp only [BitVec.getLsbD_xor, BitVec.getLsbD_and, BitVec.getLsbD_not, hj, decide_true, Bool.true_and]
  generalize x.getLsbD j = x, y.getLsbD j = y, z.getLsbD j = z, u.getLsbD j = u, v.getLsbD j = v, w.getLsbD j = w
  revert x y z u v w; decide

theorem good_mxorbic {c a b : Fin 6} (hca : a ≠ c) (hcb : b ≠ c) (hab : a ≠ b) (i : Fin 2) : Good (mxorbic c a b i) := by
  have hG := fun S m v => gateMask_upd hca hcb i S m v
  refine ⟨⟨fun S => upd S c i (S c i ^^^ (S a i &&& ~~~(S b i))), fun S m => upd m c i (m c i ^^^ gateMask a b i S m),
    fun S m => upd m c i (m c i ^^^ gateMask a b i S m), fun S m => ?_, fun S m => ?_, fun S m => ?_⟩,
    ⟨12, fun s => by rw [mxorbic_eq hca hcb]; rfl⟩, fun S S' j => ?_⟩
  · rw [mxorbic_eq hca hcb]
    simp only [gate_c1, gate_c0]
    refine st_ext ?_ ?_
    · funext k j
      by_cases hk : k = c ∧ j = i
      · simp [put, hk, share, xr, upd]
      · simp [put, hk, share, xr, upd]
    · funext k j
      by_cases hk : k = c ∧ j = i
      · simp [put, hk, share, upd]
      · simp [put, hk, share, upd]
  · simp only [upd_upd, hG, upd_same, xx', upd_self]
  · simp only [upd_upd, hG, upd_same, xx', upd_self]
  · simp only [mxorbic_eq hca hcb]
    have sb : ∀ (q : U32 → U32 → U32 → U32) (da db dc : Bool), SameDist
        (fun m => q (share S m (if da then 0 else 1) a i) (share S m (if db then 0 else 1) b i)
          (share S m (if dc then 0 else 1) c i))
        (fun m => q (share S' m (if da then 0 else 1) a i) (share S' m (if db then 0 else 1) b i)
          (share S' m (if dc then 0 else 1) c i)) := by
      intro q da db dc
      refine sel (fun k => if k = a then da else if k = b then db else dc)
        (fun s => q (s (if da then 0 else 1) a i) (s (if db then 0 else 1) b i) (s (if dc then 0 else 1) c i))
        (fun s s' h => ?_) S S'
      have ha := h a i
      have hb := h b i
      have hc := h c i
      simp only [if_true, if_neg hab.symm, if_neg hca.symm, if_neg hcb.symm] at ha hb hc
      simp only [ha, hb, hc]
    have some : ∀ {f g : Val → U32}, SameDist f g → SameDist (fun m => some (f m)) (fun m => some (g m)) := by
      rintro f g ⟨φ, ψ, h1, h2, h3⟩
      exact ⟨φ, ψ, h1, h2, fun m => by simp only [h3 m]⟩
    match j with
    | 0 => exact some (sb (fun _ y _ => y) true true true)
    | 1 => exact some (sb (fun x y _ => x &&& ~~~y) true true true)
    | 2 => exact some (sb (fun x y z => x &&& ~~~y ^^^ z) true true true)
    | 3 => exact some (sb (fun _ y _ => ROR32 y 27) true true true)
    | 4 => exact some (sb (fun x y _ => x &&& ~~~(ROR32 y 27)) false true true)
    | 5 => exact some (sb (fun x y z => x &&& ~~~(ROR32 y 27) ^^^ z) false true false)
    | 6 => exact some (sb (fun _ y _ => y) true false true)
    | 7 => exact some (sb (fun x y _ => x &&& y) false false true)
    | 8 =>
      exact some (blind c i (gateMask a b i) hG id
        (fun s => s 1 a i &&& s 1 b i ^^^ (s 1 a i &&& ~~~(ROR32 (s 0 b i) 27) ^^^ s 1 c i))
        (fun S m => gate_c1 a b c i S m) S S')
    | 9 => exact some (sb (fun _ y _ => ROR32 y 5) true false true)
    | 10 => exact some (sb (fun x y _ => x &&& ROR32 y 5) true false true)
    | 11 =>
      refine some (blind c i (fun S m => gateMask a b i S m ^^^ ROR32 (S c i ^^^ (S a i &&& ~~~(S b i))) 27)
        (fun S m v => by rw [hG]) (fun x => ROR32 x 5)
        (fun s => s 0 a i &&& ROR32 (s 1 b i) 5 ^^^ (s 0 a i &&& ~~~(s 0 b i) ^^^ s 0 c i))
        (fun S m => ?_) S S')
      simp only [gate_c0]
      rw [← BitVec.xor_assoc, ROR32_xor _ (ROR32 _ 27) _ (by omega), ROR32_27_5, BitVec.xor_comm]
    | j + 12 => exact sameDist_refl fun _ => rfl

/-! ## The whole permutation -/

theorem good_sbox (i : Fin 2) : Good (sbox i) := by
  have e : sbox i = ((affine1 i 0).then (affine1 i 1)).then ((mxorbic 5 4 3 i).then ((mxorbic 4 1 0 i).then
      ((mxorbic 1 3 2 i).then ((mxorbic 3 0 4 i).then ((mxorbic 0 2 1 i).then
        ((affine2 i 0).then ((notInto 2 i).then (affine2 i 1)))))))) := by
    unfold sbox
    simp only [seq, then_assoc]
    rw [show (fun s => (s, [])) = seq [] from rfl, then_nil]
  rw [e]
  exact (good_affine1 i).then ((good_mxorbic (by decide) (by decide) (by decide) i).then
    ((good_mxorbic (by decide) (by decide) (by decide) i).then ((good_mxorbic (by decide) (by decide) (by decide) i).then
    ((good_mxorbic (by decide) (by decide) (by decide) i).then ((good_mxorbic (by decide) (by decide) (by decide) i).then
    (good_affine2 i))))))

theorem good_round (C_o C_e : Byte) : Good (round C_o C_e) := by
  have e : round C_o C_e = (xorConst 2 0 (C_e.setWidth 32)).then ((sbox 0).then ((xorConst 2 1 (C_o.setWidth 32)).then
      ((sbox 1).then ((reuse 5).then ((linear 1).then (linear 0)))))) := by
    unfold round
    simp only [seq]
    rw [show (fun s => (s, [])) = seq [] from rfl, then_nil]
  rw [e]
  exact (good_xorConst _ _ _).then ((good_sbox 0).then ((good_xorConst _ _ _).then ((good_sbox 1).then
    ((good_reuse 5).then good_linear))))

theorem good_rounds (i n : Nat) : Good (rounds i n) := by
  refine good_seq _ fun f hf => ?_
  obtain ⟨j, -, rfl⟩ := List.mem_map.1 hf
  exact good_round _ _

theorem good_perm (nr : Nat) : Good (perm nr) := good_rounds _ _

end Ascon.Masked.Probe
