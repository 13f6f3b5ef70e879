/-
Existence of solutions by a dimension count, on the space of the values at the grid nodes.
-/
import Mathlib.LinearAlgebra.Dual.Lemmas
import Mathlib.LinearAlgebra.FiniteDimensional.Lemmas
import Verif.Props.Unique

namespace Cafes.Props
open Cafes Cafes.Spec
variable {d n NP NV : ℕ}

/-- A linear map whose kernel is a line and whose range is in a hyperplane reaches the hyperplane. -/
theorem range_of_kernel {E : Type*} [AddCommGroup E] [Module ℝ E] [FiniteDimensional ℝ E]
    (T : E →ₗ[ℝ] E) (φ : E →ₗ[ℝ] ℝ) (e x0 : E) (hx0 : φ x0 ≠ 0)
    (hker : ∀ x, T x = 0 → ∃ k : ℝ, x = k • e) (hran : ∀ x, φ (T x) = 0) (f : E) (hf : φ f = 0) :
    ∃ x, T x = f := by
  have h1 : LinearMap.range T ≤ LinearMap.ker φ := by
    rintro _ ⟨x, rfl⟩
    exact hran x
  have h2 : Module.finrank ℝ (LinearMap.ker T) ≤ 1 := by
    have : LinearMap.ker T ≤ Submodule.span ℝ {e} := by
      intro x hx
      obtain ⟨k, hk⟩ := hker x hx
      exact hk ▸ Submodule.smul_mem _ _ (Submodule.mem_span_singleton_self e)
    refine (Submodule.finrank_mono this).trans ?_
    exact (finrank_span_le_card ({e} : Set E)).trans (by simp)
  have h3 := LinearMap.finrank_range_add_finrank_ker T
  have h4 := LinearMap.finrank_range_add_finrank_ker φ
  have h5 : Module.finrank ℝ (LinearMap.range φ) = 1 := by
    have : LinearMap.range φ = ⊤ := by
      rw [LinearMap.range_eq_top]
      intro y
      refine ⟨(y / φ x0) • x0, ?_⟩
      rw [map_smul, smul_eq_mul, div_mul_cancel₀ _ hx0]
    rw [this, finrank_top, Module.finrank_self]
  have h6 := Submodule.eq_of_le_of_finrank_le h1 (by omega)
  have : f ∈ LinearMap.range T := h6 ▸ hf
  exact this

/-- A field given by its values at the nodes of a finite set, zero elsewhere. -/
noncomputable def extend (S : Finset (Pos d ℤ)) (x : S → Fin n → ℝ) : NodeVec d n ℝ :=
  fun g c => if hg : g ∈ S then x ⟨g, hg⟩ c else 0

theorem extend_comb (S : Finset (Pos d ℤ)) (a b : ℝ) (x y : S → Fin n → ℝ) :
    extend S (a • x + b • y) = a • extend S x + b • extend S y := by
  funext g c
  unfold extend
  simp only [Pi.add_apply, Pi.smul_apply, smul_eq_mul]
  split_ifs <;> simp

theorem extend_mem (S : Finset (Pos d ℤ)) (x : S → Fin n → ℝ) (g : Pos d ℤ) (hg : g ∈ S) (c : Fin n) :
    extend S x g c = x ⟨g, hg⟩ c := dif_pos hg

/-- The operator `F` combines linearly. -/
def Combines {X Y : Type*} [AddCommGroup X] [Module ℝ X] [AddCommGroup Y] [Module ℝ Y] (F : X → Y) : Prop :=
  ∀ (a b : ℝ) (x y : X), F (a • x + b • y) = a • F x + b • F y

theorem diagBlock_combines (L : Fin d → Dir) (hL : ∀ i, (L i).WF)
    (elem : Pos d ℤ → Fin NP → Pos d ℤ) (hel : IsQ1 elem) (M : Fin NP → Fin NP → ℝ) :
    Combines (blockMatrix L (diagBlockMult (n := n) L elem M)) := by
  intro a b x y
  funext g c
  simp only [Pi.add_apply, Pi.smul_apply, smul_eq_mul]
  rw [diagBlock_global L hL elem hel, diagBlock_global L hL elem hel, diagBlock_global L hL elem hel,
    Finset.mul_sum, Finset.mul_sum, ← Finset.sum_add_distrib]
  refine Finset.sum_congr rfl fun e _ => ?_
  rw [Finset.mul_sum, Finset.mul_sum, ← Finset.sum_add_distrib]
  refine Finset.sum_congr rfl fun k _ => ?_
  split_ifs
  · rw [Finset.mul_sum, Finset.mul_sum, ← Finset.sum_add_distrib]
    exact Finset.sum_congr rfl fun j _ => by
      simp only [Pi.add_apply, Pi.smul_apply, smul_eq_mul]; ring
  · ring

theorem tensorBlock_combines (L : Fin d → Dir) (hL : ∀ i, (L i).WF)
    (elem : Pos d ℤ → Fin NP → Pos d ℤ) (hel : IsQ1 elem)
    (M : Fin NP → Fin NP → Fin n → Fin n → ℝ) :
    Combines (blockMatrix L (tensorBlockMult L elem M)) := by
  intro a b x y
  funext g c
  simp only [Pi.add_apply, Pi.smul_apply, smul_eq_mul]
  rw [tensorBlock_global L hL elem hel, tensorBlock_global L hL elem hel,
    tensorBlock_global L hL elem hel, Finset.mul_sum, Finset.mul_sum, ← Finset.sum_add_distrib]
  refine Finset.sum_congr rfl fun e _ => ?_
  rw [Finset.mul_sum, Finset.mul_sum, ← Finset.sum_add_distrib]
  refine Finset.sum_congr rfl fun k _ => ?_
  split_ifs
  · rw [Finset.mul_sum, Finset.mul_sum, ← Finset.sum_add_distrib]
    refine Finset.sum_congr rfl fun j _ => ?_
    rw [Finset.mul_sum, Finset.mul_sum, ← Finset.sum_add_distrib]
    exact Finset.sum_congr rfl fun b _ => by
      simp only [Pi.add_apply, Pi.smul_apply, smul_eq_mul]; ring
  · ring

/-- Boundary conditions on the output keep linearity. -/
theorem dirichlet_combines (L : Fin d → Dir) (hL : ∀ i, (L i).WF) (rs : List (Fin d → ℕ))
    (hrs : AllProcs L rs) (bc : BC d ℝ) (a b : ℝ) (x x' y y' : NodeVec d d ℝ) :
    setDirichletOnVec L rs bc (a • x + b • x') (a • y + b • y') =
      a • setDirichletOnVec L rs bc x y + b • setDirichletOnVec L rs bc x' y' := by
  funext g c
  simp only [Pi.add_apply, Pi.smul_apply, smul_eq_mul]
  rw [C25_vec L hL rs hrs, C25_vec L hL rs hrs, C25_vec L hL rs hrs]
  split_ifs <;> simp

theorem blockBC_combines (L : Fin d → Dir) (hL : ∀ i, (L i).WF) (rs : List (Fin d → ℕ))
    (hrs : AllProcs L rs) (bc : BC d ℝ)
    (apply : (Fin d → ℕ) → NodeVec d d ℝ → NodeVec d d ℝ → NodeVec d d ℝ)
    (hlin : Combines (blockMatrix L apply)) : Combines (blockMatrixBC L rs bc apply) := by
  intro a b x y
  unfold blockMatrixBC
  rw [hlin a b x y, dirichlet_combines L hL rs hrs]

/-- An injective operator on the fields of a grid is onto. -/
theorem onto_of_injective (S : Finset (Pos d ℤ)) (F : NodeVec d n ℝ → NodeVec d n ℝ) (hF : Combines F)
    (hinj : ∀ u u', (∀ g ∈ S, ∀ c, F u g c = F u' g c) → ∀ g ∈ S, ∀ c, u g c = u' g c)
    (f : NodeVec d n ℝ) : ∃ u, ∀ g ∈ S, ∀ c, F u g c = f g c := by
  let T : (S → Fin n → ℝ) →ₗ[ℝ] (S → Fin n → ℝ) := IsLinearMap.mk' (fun x g c => F (extend S x) g c)
    { map_add := fun x y => by
        have := hF 1 1 (extend S x) (extend S y)
        rw [← extend_comb] at this
        simp only [one_smul] at this
        funext g c; rw [this]; rfl
      map_smul := fun a x => by
        have := hF a 0 (extend S x) (extend S x)
        rw [← extend_comb] at this
        simp only [zero_smul, add_zero] at this
        funext g c; rw [this]; rfl }
  have hT : Function.Injective T := by
    intro x y hxy
    funext g c
    have := hinj (extend S x) (extend S y)
      (fun g hg c => congrFun (congrFun hxy ⟨g, hg⟩) c) g.1 g.2 c
    rwa [extend_mem S x g.1 g.2, extend_mem S y g.1 g.2] at this
  obtain ⟨x, hx⟩ := (LinearMap.injective_iff_surjective.1 hT) (fun g c => f g.1 c)
  exact ⟨extend S x, fun g hg c => congrFun (congrFun hx ⟨g, hg⟩) c⟩

section pair
variable {n' : ℕ} (S : Finset (Pos d ℤ)) (S' : Finset (Pos d ℤ))
  (F : NodeVec d n ℝ × NodeVec d n' ℝ → NodeVec d n ℝ × NodeVec d n' ℝ) (hF : Combines F)

/-- The operator on the values at the grid nodes. -/
noncomputable def onGrid : (S → Fin n → ℝ) × (S' → Fin n' → ℝ) →ₗ[ℝ] (S → Fin n → ℝ) × (S' → Fin n' → ℝ) :=
  IsLinearMap.mk' (fun x => (fun g c => (F (extend S x.1, extend S' x.2)).1 g c,
      fun g c => (F (extend S x.1, extend S' x.2)).2 g c))
    { map_add := fun x y => by
        have := hF 1 1 (extend S x.1, extend S' x.2) (extend S y.1, extend S' y.2)
        rw [Prod.smul_mk, Prod.smul_mk, Prod.mk_add_mk, ← extend_comb, ← extend_comb] at this
        simp only [one_smul] at this
        simp only [Prod.fst_add, Prod.snd_add, this]
        rfl
      map_smul := fun a x => by
        have := hF a 0 (extend S x.1, extend S' x.2) (extend S x.1, extend S' x.2)
        rw [Prod.smul_mk, Prod.smul_mk, Prod.mk_add_mk, ← extend_comb, ← extend_comb] at this
        simp only [zero_smul, add_zero] at this
        simp only [Prod.smul_fst, Prod.smul_snd, this]
        rfl }
end pair

end Cafes.Props
