/-!
# First-order probing security

A computation draws uniformly distributed masks `m : M` (`M` finite); one intermediate value is observed.  `f m` is the
value observed when the secret is one thing, `g m` when it is another.
-/

namespace Ascon.Spec

/-- `f` and `g` have the same distribution over uniform masks: they differ only by a renaming (a bijection) of the masks. -/
def SameDist {M V : Type} (f g : M → V) : Prop :=
  ∃ φ ψ : M → M, (∀ m, ψ (φ m) = m) ∧ (∀ m, φ (ψ m) = m) ∧ ∀ m, f m = g (φ m)

/-- In numbers: among all masks (`l` lists each once), each value is observed equally often. -/
theorem SameDist.count {M V : Type} {f g : M → V} (h : SameDist f g) (p : V → Bool) (l : List M)
    (hn : l.Nodup) (ha : ∀ m, m ∈ l) : l.countP (fun m => p (f m)) = l.countP (fun m => p (g m)) := by
  obtain ⟨φ, ψ, h1, h2, h3⟩ := h
  have inj : ∀ a b, φ a = φ b → a = b := fun a b he => by rw [← h1 a, ← h1 b, he]
  have hp : (l.map φ).Perm l := by
    refine (List.perm_ext_iff_of_nodup ?_ hn).2 fun m => ⟨fun _ => ha m, fun _ => ?_⟩
    · exact (List.pairwise_map.2 (hn.imp fun hne he => hne (inj _ _ he)))
    · exact List.mem_map.2 ⟨ψ m, ha _, h2 m⟩
  rw [← hp.countP_eq (fun m => p (g m)), List.countP_map]
  congr 1
  funext m
  simp only [Function.comp, h3 m]

end Ascon.Spec
