/-
Property theorems: C93, the discrete velocity is determined by the data.
-/
import Verif.Lemmas.Propagate
import Verif.Lemmas.GradKernel

namespace Cafes.Props
open Cafes Cafes.Spec
variable {d n NP NV : ℕ}

/-- Some wall of the grid carries a condition for every component of the velocity. -/
def WallHeld {C : Type*} (L : Fin d → Dir) (bc : ℕ → Fin d → Option C) : Prop :=
  ∃ g ∈ gridNodes L, ∃ f, OnFace L g f ∧ ∀ c, (bc f c).isSome

/-- Each component of the velocity is imposed on some wall of the grid (not the same one for all). -/
def ComponentsHeld {C : Type*} (L : Fin d → Dir) (bc : ℕ → Fin d → Option C) : Prop :=
  ∀ c, ∃ g ∈ gridNodes L, ∃ f, OnFace L g f ∧ (bc f c).isSome

theorem WallHeld.components {C : Type*} {L : Fin d → Dir} {bc : ℕ → Fin d → Option C}
    (hw : WallHeld L bc) : ComponentsHeld L bc := by
  obtain ⟨g, hg, f, hf, hc⟩ := hw
  exact fun c => ⟨g, hg, f, hf, hc c⟩

/-- The residual of a difference is orthogonal to it when the constrained entries vanish. -/
theorem dot_residual_zero (L : Fin d → Dir) (P : Pos d ℤ → Fin n → Prop) (w y : NodeVec d n ℝ)
    (h1 : ∀ g ∈ gridNodes L, ∀ c, P g c → w g c = 0)
    (h2 : ∀ g ∈ gridNodes L, ∀ c, ¬ P g c → y g c = 0) : dot L w y = 0 := by
  unfold dot
  refine Finset.sum_eq_zero fun g hg => Finset.sum_eq_zero fun c _ => ?_
  by_cases hP : P g c
  · rw [h1 g hg c hP, zero_mul]
  · rw [h2 g hg c hP, mul_zero]

theorem diagBlock_sub (L : Fin d → Dir) (hL : ∀ i, (L i).WF)
    (elem : Pos d ℤ → Fin NP → Pos d ℤ) (hel : IsQ1 elem) (M : Fin NP → Fin NP → ℝ)
    (x y : NodeVec d n ℝ) (g : Pos d ℤ) (c : Fin n) :
    blockMatrix L (diagBlockMult L elem M) (x - y) g c =
      blockMatrix L (diagBlockMult L elem M) x g c - blockMatrix L (diagBlockMult L elem M) y g c := by
  rw [diagBlock_global L hL elem hel, diagBlock_global L hL elem hel, diagBlock_global L hL elem hel,
    ← Finset.sum_sub_distrib]
  refine Finset.sum_congr rfl fun e _ => ?_
  rw [← Finset.sum_sub_distrib]
  refine Finset.sum_congr rfl fun k _ => ?_
  split_ifs
  · rw [← Finset.sum_sub_distrib]
    exact Finset.sum_congr rfl fun j _ => by simp only [Pi.sub_apply]; ring
  · ring

theorem tensorBlock_sub (L : Fin d → Dir) (hL : ∀ i, (L i).WF)
    (elem : Pos d ℤ → Fin NP → Pos d ℤ) (hel : IsQ1 elem) (M : Fin NP → Fin NP → Fin n → Fin n → ℝ)
    (x y : NodeVec d n ℝ) (g : Pos d ℤ) (c : Fin n) :
    blockMatrix L (tensorBlockMult L elem M) (x - y) g c =
      blockMatrix L (tensorBlockMult L elem M) x g c
        - blockMatrix L (tensorBlockMult L elem M) y g c := by
  rw [tensorBlock_global L hL elem hel, tensorBlock_global L hL elem hel,
    tensorBlock_global L hL elem hel, ← Finset.sum_sub_distrib]
  refine Finset.sum_congr rfl fun e _ => ?_
  rw [← Finset.sum_sub_distrib]
  refine Finset.sum_congr rfl fun k _ => ?_
  split_ifs
  · rw [← Finset.sum_sub_distrib]
    refine Finset.sum_congr rfl fun j _ => ?_
    rw [← Finset.sum_sub_distrib]
    exact Finset.sum_congr rfl fun b _ => by simp only [Pi.sub_apply]; ring
  · ring

/-- Two fields with the same image by the operator with boundary conditions: their difference
vanishes on the constrained dofs and has no energy. -/
theorem bc_difference (L : Fin d → Dir) (hL : ∀ i, (L i).WF) (rs : List (Fin d → ℕ))
    (hrs : AllProcs L rs) (bc : BC d ℝ)
    (apply : (Fin d → ℕ) → NodeVec d d ℝ → NodeVec d d ℝ → NodeVec d d ℝ)
    (hsub : ∀ x y g c, blockMatrix L apply (x - y) g c =
      blockMatrix L apply x g c - blockMatrix L apply y g c)
    (u u' : NodeVec d d ℝ)
    (heq : ∀ g ∈ gridNodes L, ∀ c,
      blockMatrixBC L rs bc apply u g c = blockMatrixBC L rs bc apply u' g c) :
    (∀ g ∈ gridNodes L, ∀ c, Constrained L bc g c → (u - u') g c = 0) ∧
    dot L (u - u') (blockMatrix L apply (u - u')) = 0 := by
  have h1 : ∀ g ∈ gridNodes L, ∀ c, Constrained L bc g c → (u - u') g c = 0 := by
    intro g hg c hc
    have := heq g hg c
    rw [C25_matrix L hL rs hrs bc apply u g hg, C25_matrix L hL rs hrs bc apply u' g hg, if_pos hc,
      if_pos hc] at this
    simp [this]
  refine ⟨h1, dot_residual_zero L (Constrained L bc) _ _ h1 ?_⟩
  intro g hg c hc
  have := heq g hg c
  rw [C25_matrix L hL rs hrs bc apply u g hg, C25_matrix L hL rs hrs bc apply u' g hg, if_neg hc,
    if_neg hc] at this
  rw [hsub, this, sub_self]

section operators

/-- C93 (2D, velocity operators): the Laplacian and strain tensor shell matrices with boundary
conditions are injective. Two velocity fields with the same image coincide at every node of the grid:
for the Laplacian as soon as each component is imposed on some wall, for the strain tensor as soon as
some wall holds all the components. Any grid, any process grid. -/
theorem C93_operator2 (L : Fin 2 → Dir) (hL : ∀ i, (L i).WF) (hne : ∀ i, 1 ≤ (L i).nElem)
    (h : Pos 2 ℝ) (hh : ∀ c, 0 < h c) (rs : List (Fin 2 → ℕ)) (hrs : AllProcs L rs) (bc : BC 2 ℝ)
    (u u' : NodeVec 2 2 ℝ) :
    (ComponentsHeld L bc → (∀ g ∈ gridNodes L, ∀ c,
        blockMatrixBC L rs bc (diagBlockMult L getElement2 (matElemLaplacian2 h)) u g c =
        blockMatrixBC L rs bc (diagBlockMult L getElement2 (matElemLaplacian2 h)) u' g c) →
      ∀ g ∈ gridNodes L, ∀ c, u g c = u' g c) ∧
    (WallHeld L bc → (∀ g ∈ gridNodes L, ∀ c,
        blockMatrixBC L rs bc (tensorBlockMult L getElement2 (matElemStrain2 h)) u g c =
        blockMatrixBC L rs bc (tensorBlockMult L getElement2 (matElemStrain2 h)) u' g c) →
      ∀ g ∈ gridNodes L, ∀ c, u g c = u' g c) := by
  refine ⟨fun hb heq g hg c => ?_, fun hb heq g hg c => ?_⟩
  · obtain ⟨h1, h2⟩ := bc_difference L hL rs hrs bc _ (diagBlock_sub L hL _ isQ1_2 _) u u' heq
    obtain ⟨g0, -, f, hf, hs⟩ := hb c
    exact sub_eq_zero.1 (lap2_definite L hL hne h hh (u - u') h2 c f g0 hf
      (fun g hg hgf => h1 g hg c ⟨f, hgf, hs⟩) g hg)
  · obtain ⟨h1, h2⟩ := bc_difference L hL rs hrs bc _ (tensorBlock_sub L hL _ isQ1_2 _) u u' heq
    obtain ⟨g0, -, f, hf, hs⟩ := hb
    exact sub_eq_zero.1 (strain2_definite L hL hne h hh (u - u') h2 f g0 hf
      (fun g hg hgf c => h1 g hg c ⟨f, hgf, hs c⟩) g hg c)

/-- C93 (3D, velocity operators). -/
theorem C93_operator3 (L : Fin 3 → Dir) (hL : ∀ i, (L i).WF) (hne : ∀ i, 1 ≤ (L i).nElem)
    (h : Pos 3 ℝ) (hh : ∀ c, 0 < h c) (rs : List (Fin 3 → ℕ)) (hrs : AllProcs L rs) (bc : BC 3 ℝ)
    (u u' : NodeVec 3 3 ℝ) :
    (ComponentsHeld L bc → (∀ g ∈ gridNodes L, ∀ c,
        blockMatrixBC L rs bc (diagBlockMult L getElement3 (matElemLaplacian3 h)) u g c =
        blockMatrixBC L rs bc (diagBlockMult L getElement3 (matElemLaplacian3 h)) u' g c) →
      ∀ g ∈ gridNodes L, ∀ c, u g c = u' g c) ∧
    (WallHeld L bc → (∀ g ∈ gridNodes L, ∀ c,
        blockMatrixBC L rs bc (tensorBlockMult L getElement3 (matElemStrain3 h)) u g c =
        blockMatrixBC L rs bc (tensorBlockMult L getElement3 (matElemStrain3 h)) u' g c) →
      ∀ g ∈ gridNodes L, ∀ c, u g c = u' g c) := by
  refine ⟨fun hb heq g hg c => ?_, fun hb heq g hg c => ?_⟩
  · obtain ⟨h1, h2⟩ := bc_difference L hL rs hrs bc _ (diagBlock_sub L hL _ isQ1_3 _) u u' heq
    obtain ⟨g0, -, f, hf, hs⟩ := hb c
    exact sub_eq_zero.1 (lap3_definite L hL hne h hh (u - u') h2 c f g0 hf
      (fun g hg hgf => h1 g hg c ⟨f, hgf, hs⟩) g hg)
  · obtain ⟨h1, h2⟩ := bc_difference L hL rs hrs bc _ (tensorBlock_sub L hL _ isQ1_3 _) u u' heq
    obtain ⟨g0, -, f, hf, hs⟩ := hb
    exact sub_eq_zero.1 (strain3_definite L hL hne h hh (u - u') h2 f g0 hf
      (fun g hg hgf c => h1 g hg c ⟨f, hgf, hs c⟩) g hg c)

end operators

section stokes
variable (N : Fin d → ℤ) (per : Fin d → Bool)
  (lx : Fin d → List ℤ) (hne : ∀ i, lx i ≠ []) (hW : ∀ i, (presLayout N per lx i).WF)
  (elemP : Pos d ℤ → Fin NP → Pos d ℤ) (elemV : Pos d ℤ → Fin NV → Pos d ℤ) (hel : IsQ1 elemP)
  (off : Fin NV → Fin d → Fin 3) (hoff : Is4Q1 elemV off)
  (apply : (Fin d → ℕ) → NodeVec d d ℝ → NodeVec d d ℝ → NodeVec d d ℝ)
  (B : Fin NP → Fin NV → Fin d → ℝ)
include hne hW hel hoff

/-- The coupled operator of a difference. -/
theorem stokes_sub (hsub : ∀ x y g c, blockMatrix (velLayout N per lx) apply (x - y) g c =
      blockMatrix (velLayout N per lx) apply x g c - blockMatrix (velLayout N per lx) apply y g c)
    (u u' : NodeVec d d ℝ) (p p' : NodeVec d 1 ℝ) :
    (∀ g c, (stokesMatrix (velLayout N per lx) (presLayout N per lx) apply elemP elemV B
        (u - u') (p - p')).1 g c =
      (stokesMatrix (velLayout N per lx) (presLayout N per lx) apply elemP elemV B u p).1 g c -
      (stokesMatrix (velLayout N per lx) (presLayout N per lx) apply elemP elemV B u' p').1 g c) ∧
    (∀ g c, (stokesMatrix (velLayout N per lx) (presLayout N per lx) apply elemP elemV B
        (u - u') (p - p')).2 g c =
      (stokesMatrix (velLayout N per lx) (presLayout N per lx) apply elemP elemV B u p).2 g c -
      (stokesMatrix (velLayout N per lx) (presLayout N per lx) apply elemP elemV B u' p').2 g c) := by
  refine ⟨fun g c => ?_, fun g c => ?_⟩
  · simp only [vel_out N per lx hne hW elemP elemV hel off hoff]
    rw [hsub, add_sub_add_comm, ← Finset.sum_sub_distrib]
    congr 1
    refine Finset.sum_congr rfl fun e _ => ?_
    rw [← Finset.sum_sub_distrib]
    refine Finset.sum_congr rfl fun k _ => ?_
    split_ifs
    · rw [← Finset.sum_sub_distrib]
      exact Finset.sum_congr rfl fun j _ => by simp only [Pi.sub_apply]; ring
    · ring
  · simp only [pres_out N per lx hne hW elemP elemV hel off hoff]
    rw [← Finset.sum_sub_distrib]
    refine Finset.sum_congr rfl fun e _ => ?_
    rw [← Finset.sum_sub_distrib]
    refine Finset.sum_congr rfl fun k _ => ?_
    split_ifs
    · rw [← Finset.sum_sub_distrib]
      refine Finset.sum_congr rfl fun j _ => ?_
      rw [← Finset.sum_sub_distrib]
      exact Finset.sum_congr rfl fun c _ => by simp only [Pi.sub_apply]; ring
    · ring

/-- Two pairs with the same image by the coupled operator with boundary conditions: the velocity
difference vanishes on the constrained dofs, has no energy, and the residual of the difference
vanishes on the other dofs. -/
theorem stokes_difference (hsub : ∀ x y g c, blockMatrix (velLayout N per lx) apply (x - y) g c =
      blockMatrix (velLayout N per lx) apply x g c - blockMatrix (velLayout N per lx) apply y g c)
    (rs : List (Fin d → ℕ)) (hrs : AllProcs (velLayout N per lx) rs) (bc : BC d ℝ)
    (u u' : NodeVec d d ℝ) (p p' : NodeVec d 1 ℝ)
    (hv : ∀ g ∈ gridNodes (velLayout N per lx), ∀ c,
      (stokesMatrixBC (velLayout N per lx) (presLayout N per lx) rs bc apply elemP elemV B u p).1 g c =
      (stokesMatrixBC (velLayout N per lx) (presLayout N per lx) rs bc apply elemP elemV B u' p').1 g c)
    (hp : ∀ q ∈ gridNodes (presLayout N per lx),
      (stokesMatrixBC (velLayout N per lx) (presLayout N per lx) rs bc apply elemP elemV B u p).2 q 0 =
      (stokesMatrixBC (velLayout N per lx) (presLayout N per lx) rs bc apply elemP elemV B u' p').2 q 0) :
    (∀ g ∈ gridNodes (velLayout N per lx), ∀ c, Constrained (velLayout N per lx) bc g c →
      (u - u') g c = 0) ∧
    dot (velLayout N per lx) (u - u') (blockMatrix (velLayout N per lx) apply (u - u')) = 0 ∧
    (∀ g ∈ gridNodes (velLayout N per lx), ∀ c, ¬ Constrained (velLayout N per lx) bc g c →
      (stokesMatrix (velLayout N per lx) (presLayout N per lx) apply elemP elemV B
        (u - u') (p - p')).1 g c = 0) := by
  have hvw := velLayout_wf N per lx hne hW
  have hs := stokes_sub N per lx hne hW elemP elemV hel off hoff apply B hsub u u' p p'
  have h1 : ∀ g ∈ gridNodes (velLayout N per lx), ∀ c, Constrained (velLayout N per lx) bc g c →
      (u - u') g c = 0 := by
    intro g hg c hc
    have := hv g hg c
    unfold stokesMatrixBC at this
    simp only at this
    rw [C25_vec _ hvw rs hrs, C25_vec _ hvw rs hrs, if_pos ⟨hg, hc⟩, if_pos ⟨hg, hc⟩] at this
    simp [this]
  have h3 : ∀ g ∈ gridNodes (velLayout N per lx), ∀ c, ¬ Constrained (velLayout N per lx) bc g c →
      (stokesMatrix (velLayout N per lx) (presLayout N per lx) apply elemP elemV B
        (u - u') (p - p')).1 g c = 0 := by
    intro g hg c hc
    have := hv g hg c
    unfold stokesMatrixBC at this
    simp only at this
    rw [C25_vec _ hvw rs hrs, C25_vec _ hvw rs hrs, if_neg fun hh => hc hh.2,
      if_neg fun hh => hc hh.2] at this
    rw [hs.1, this, sub_self]
  refine ⟨h1, ?_, h3⟩
  rw [← energy N per lx hne hW elemP elemV hel off hoff apply B (u - u') (p - p'),
    dot_residual_zero _ (Constrained (velLayout N per lx) bc) _ _ h1 h3, zero_add]
  unfold dot
  refine Finset.sum_eq_zero fun q hq => Finset.sum_eq_zero fun c _ => ?_
  have := hp q hq
  unfold stokesMatrixBC at this
  simp only at this
  have hc : c = 0 := Subsingleton.elim _ _
  subst hc
  rw [hs.2, this, sub_self, mul_zero]

end stokes

theorem vel_nElem (N : Fin d → ℤ) (per : Fin d → Bool) (lx : Fin d → List ℤ) (hN : ∀ i, 2 ≤ N i)
    (i : Fin d) : 1 ≤ (velLayout N per lx i).nElem := by
  have := hN i
  simp only [velLayout, velDir, Dir.nElem, meshVel]
  split_ifs <;> omega

/-- C93 (2D, velocity): two velocity/pressure pairs with the same image by the matrix-free Stokes
operator with boundary conditions have the same velocity at every node of the grid: when some wall
holds all the components for the strain tensor, when each component is held on some wall for the
Laplacian. -/
theorem C93_velocity2 (N : Fin 2 → ℤ) (per : Fin 2 → Bool) (lx : Fin 2 → List ℤ)
    (hne : ∀ i, lx i ≠ []) (hW : ∀ i, (presLayout N per lx i).WF) (hN : ∀ i, 2 ≤ N i)
    (h : Pos 2 ℝ) (hh : ∀ c, 0 < h c) (rs : List (Fin 2 → ℕ)) (hrs : AllProcs (velLayout N per lx) rs)
    (bc : BC 2 ℝ) (u u' : NodeVec 2 2 ℝ) (p p' : NodeVec 2 1 ℝ) :
    (WallHeld (velLayout N per lx) bc →
      (∀ g ∈ gridNodes (velLayout N per lx), ∀ c,
        (stokesMatrixBC (velLayout N per lx) (presLayout N per lx) rs bc
          (tensorBlockMult (velLayout N per lx) getElement2 (matElemStrain2 h))
          getElement2 getElement4Q1_2 (matElemPressure2 h) u p).1 g c =
        (stokesMatrixBC (velLayout N per lx) (presLayout N per lx) rs bc
          (tensorBlockMult (velLayout N per lx) getElement2 (matElemStrain2 h))
          getElement2 getElement4Q1_2 (matElemPressure2 h) u' p').1 g c) →
      (∀ q ∈ gridNodes (presLayout N per lx),
        (stokesMatrixBC (velLayout N per lx) (presLayout N per lx) rs bc
          (tensorBlockMult (velLayout N per lx) getElement2 (matElemStrain2 h))
          getElement2 getElement4Q1_2 (matElemPressure2 h) u p).2 q 0 =
        (stokesMatrixBC (velLayout N per lx) (presLayout N per lx) rs bc
          (tensorBlockMult (velLayout N per lx) getElement2 (matElemStrain2 h))
          getElement2 getElement4Q1_2 (matElemPressure2 h) u' p').2 q 0) →
      ∀ g ∈ gridNodes (velLayout N per lx), ∀ c, u g c = u' g c) ∧
    (ComponentsHeld (velLayout N per lx) bc →
      (∀ g ∈ gridNodes (velLayout N per lx), ∀ c,
        (stokesMatrixBC (velLayout N per lx) (presLayout N per lx) rs bc
          (diagBlockMult (velLayout N per lx) getElement2 (matElemLaplacian2 h))
          getElement2 getElement4Q1_2 (matElemPressure2 h) u p).1 g c =
        (stokesMatrixBC (velLayout N per lx) (presLayout N per lx) rs bc
          (diagBlockMult (velLayout N per lx) getElement2 (matElemLaplacian2 h))
          getElement2 getElement4Q1_2 (matElemPressure2 h) u' p').1 g c) →
      (∀ q ∈ gridNodes (presLayout N per lx),
        (stokesMatrixBC (velLayout N per lx) (presLayout N per lx) rs bc
          (diagBlockMult (velLayout N per lx) getElement2 (matElemLaplacian2 h))
          getElement2 getElement4Q1_2 (matElemPressure2 h) u p).2 q 0 =
        (stokesMatrixBC (velLayout N per lx) (presLayout N per lx) rs bc
          (diagBlockMult (velLayout N per lx) getElement2 (matElemLaplacian2 h))
          getElement2 getElement4Q1_2 (matElemPressure2 h) u' p').2 q 0) →
      ∀ g ∈ gridNodes (velLayout N per lx), ∀ c, u g c = u' g c) := by
  have hv := velLayout_wf N per lx hne hW
  have hel := vel_nElem N per lx hN
  refine ⟨fun hb e1 e2 g hg c => ?_, fun hb e1 e2 g hg c => ?_⟩
  · obtain ⟨h1, h2, -⟩ := stokes_difference N per lx hne hW _ _ isQ1_2 _ is4Q1_2 _ _
      (tensorBlock_sub _ hv _ isQ1_2 _) rs hrs bc u u' p p' e1 e2
    obtain ⟨g0, -, f, hf, hs⟩ := hb
    exact sub_eq_zero.1 (strain2_definite _ hv hel h hh (u - u') h2 f g0 hf
      (fun g hg hgf c => h1 g hg c ⟨f, hgf, hs c⟩) g hg c)
  · obtain ⟨h1, h2, -⟩ := stokes_difference N per lx hne hW _ _ isQ1_2 _ is4Q1_2 _ _
      (diagBlock_sub _ hv _ isQ1_2 _) rs hrs bc u u' p p' e1 e2
    obtain ⟨g0, -, f, hf, hs⟩ := hb c
    exact sub_eq_zero.1 (lap2_definite _ hv hel h hh (u - u') h2 c f g0 hf
      (fun g hg hgf => h1 g hg c ⟨f, hgf, hs⟩) g hg)

/-- C93 (3D, velocity). -/
theorem C93_velocity3 (N : Fin 3 → ℤ) (per : Fin 3 → Bool) (lx : Fin 3 → List ℤ)
    (hne : ∀ i, lx i ≠ []) (hW : ∀ i, (presLayout N per lx i).WF) (hN : ∀ i, 2 ≤ N i)
    (h : Pos 3 ℝ) (hh : ∀ c, 0 < h c) (rs : List (Fin 3 → ℕ)) (hrs : AllProcs (velLayout N per lx) rs)
    (bc : BC 3 ℝ) (u u' : NodeVec 3 3 ℝ) (p p' : NodeVec 3 1 ℝ) :
    (WallHeld (velLayout N per lx) bc →
      (∀ g ∈ gridNodes (velLayout N per lx), ∀ c,
        (stokesMatrixBC (velLayout N per lx) (presLayout N per lx) rs bc
          (tensorBlockMult (velLayout N per lx) getElement3 (matElemStrain3 h))
          getElement3 getElement4Q1_3 (matElemPressure3 h) u p).1 g c =
        (stokesMatrixBC (velLayout N per lx) (presLayout N per lx) rs bc
          (tensorBlockMult (velLayout N per lx) getElement3 (matElemStrain3 h))
          getElement3 getElement4Q1_3 (matElemPressure3 h) u' p').1 g c) →
      (∀ q ∈ gridNodes (presLayout N per lx),
        (stokesMatrixBC (velLayout N per lx) (presLayout N per lx) rs bc
          (tensorBlockMult (velLayout N per lx) getElement3 (matElemStrain3 h))
          getElement3 getElement4Q1_3 (matElemPressure3 h) u p).2 q 0 =
        (stokesMatrixBC (velLayout N per lx) (presLayout N per lx) rs bc
          (tensorBlockMult (velLayout N per lx) getElement3 (matElemStrain3 h))
          getElement3 getElement4Q1_3 (matElemPressure3 h) u' p').2 q 0) →
      ∀ g ∈ gridNodes (velLayout N per lx), ∀ c, u g c = u' g c) ∧
    (ComponentsHeld (velLayout N per lx) bc →
      (∀ g ∈ gridNodes (velLayout N per lx), ∀ c,
        (stokesMatrixBC (velLayout N per lx) (presLayout N per lx) rs bc
          (diagBlockMult (velLayout N per lx) getElement3 (matElemLaplacian3 h))
          getElement3 getElement4Q1_3 (matElemPressure3 h) u p).1 g c =
        (stokesMatrixBC (velLayout N per lx) (presLayout N per lx) rs bc
          (diagBlockMult (velLayout N per lx) getElement3 (matElemLaplacian3 h))
          getElement3 getElement4Q1_3 (matElemPressure3 h) u' p').1 g c) →
      (∀ q ∈ gridNodes (presLayout N per lx),
        (stokesMatrixBC (velLayout N per lx) (presLayout N per lx) rs bc
          (diagBlockMult (velLayout N per lx) getElement3 (matElemLaplacian3 h))
          getElement3 getElement4Q1_3 (matElemPressure3 h) u p).2 q 0 =
        (stokesMatrixBC (velLayout N per lx) (presLayout N per lx) rs bc
          (diagBlockMult (velLayout N per lx) getElement3 (matElemLaplacian3 h))
          getElement3 getElement4Q1_3 (matElemPressure3 h) u' p').2 q 0) →
      ∀ g ∈ gridNodes (velLayout N per lx), ∀ c, u g c = u' g c) := by
  have hv := velLayout_wf N per lx hne hW
  have hel := vel_nElem N per lx hN
  refine ⟨fun hb e1 e2 g hg c => ?_, fun hb e1 e2 g hg c => ?_⟩
  · obtain ⟨h1, h2, -⟩ := stokes_difference N per lx hne hW _ _ isQ1_3 _ is4Q1_3 _ _
      (tensorBlock_sub _ hv _ isQ1_3 _) rs hrs bc u u' p p' e1 e2
    obtain ⟨g0, -, f, hf, hs⟩ := hb
    exact sub_eq_zero.1 (strain3_definite _ hv hel h hh (u - u') h2 f g0 hf
      (fun g hg hgf c => h1 g hg c ⟨f, hgf, hs c⟩) g hg c)
  · obtain ⟨h1, h2, -⟩ := stokes_difference N per lx hne hW _ _ isQ1_3 _ is4Q1_3 _ _
      (diagBlock_sub _ hv _ isQ1_3 _) rs hrs bc u u' p p' e1 e2
    obtain ⟨g0, -, f, hf, hs⟩ := hb c
    exact sub_eq_zero.1 (lap3_definite _ hv hel h hh (u - u') h2 c f g0 hf
      (fun g hg hgf => h1 g hg c ⟨f, hgf, hs⟩) g hg)

/-! ### The pressure -/

/-- At least two coarse cells in all the directions but one. -/
def Fine (N : Fin d → ℤ) : Prop := (∀ i, 2 ≤ N i) ∧ ∀ i j, i ≠ j → 3 ≤ N i ∨ 3 ≤ N j

theorem inner_free (N : Fin d → ℤ) (per : Fin d → Bool) (lx : Fin d → List ℤ) {C : Type*}
    (bc : ℕ → Fin d → Option C) (g : Pos d ℤ) (hg : Inner N g) :
    g ∈ gridNodes (velLayout N per lx) ∧ ∀ c, ¬ Constrained (velLayout N per lx) bc g c := by
  constructor
  · rw [mem_gridNodes]
    intro i
    have := hg i
    simp only [velLayout, velDir, meshVel]
    split_ifs <;> omega
  · rintro c ⟨f, ⟨i, hp, hf⟩, -⟩
    have := hg i
    simp only [velLayout, velDir, meshVel] at hp hf
    simp only [hp, Bool.false_eq_true, if_false] at hf
    rcases hf with ⟨-, hf⟩ | ⟨-, hf⟩ <;> omega

/-- Every pressure node of the grid is a node `0..N-1` of the cells, periodic directions included. -/
theorem pres_node (N : Fin d → ℤ) (per : Fin d → Bool) (lx : Fin d → List ℤ) (q : Pos d ℤ)
    (hq : q ∈ gridNodes (presLayout N per lx)) :
    wrap (presLayout N per lx) q = q ∧ ∀ i, 0 ≤ q i ∧ q i ≤ N i - 1 := by
  refine ⟨wrap_grid _ q hq, fun i => ?_⟩
  have := (mem_gridNodes _ q).1 hq i
  simp only [presLayout, presDir, meshPres] at this
  split_ifs at this <;> omega

/-- The pressure gradient determines the pressure up to a constant (2D). -/
theorem pressure_const2 (N : Fin 2 → ℤ) (per : Fin 2 → Bool) (lx : Fin 2 → List ℤ)
    (hne : ∀ i, lx i ≠ []) (hW : ∀ i, (presLayout N per lx i).WF) (hN : Fine N)
    (h : Pos 2 ℝ) (hh : ∀ c, 0 < h c) (w : NodeVec 2 2 ℝ) (r : NodeVec 2 1 ℝ)
    (hz : ∀ g, Inner N g → ∀ c, (bAndBT2 N per lx h w r).1 g c = 0) :
    ∀ q ∈ gridNodes (presLayout N per lx), r q 0 = r (fun _ => 0) 0 := by
  have hz' : ∀ g, Inner N g → ∀ c : Fin 2,
      op1 (fun a k => JP (decide (c = 0)) a k (h 0)) (N 0 - 1) (fun x =>
      op1 (fun a k => JP (decide (c = 1)) a k (h 1)) (N 1 - 1) (fun y =>
        r (wrap (presLayout N per lx) ![x, y]) 0) (g 1)) (g 0) = 0 := by
    intro g hg c
    rw [← gradient2 N per lx h hh r g hg c]
    have := hz g hg c
    unfold bAndBT2 offDiagMatrix at this
    rw [vel_out N per lx hne hW _ _ isQ1_2 _ is4Q1_2,
      block_id_zero N per lx hne hW _ _ isQ1_2 _ is4Q1_2, zero_add] at this
    refine neg_eq_zero.1 (Eq.trans ?_ this)
    rw [← Finset.sum_neg_distrib]
    refine Finset.sum_congr rfl fun e _ => ?_
    rw [← Finset.sum_neg_distrib]
    refine Finset.sum_congr rfl fun k _ => ?_
    split_ifs
    · rw [Finset.sum_neg_distrib]
    · simp
  intro q hq
  obtain ⟨hw, hb⟩ := pres_node N per lx q hq
  have h0 := hN.1 0; have h1 := hN.1 1
  have hi : ∀ g0 g1 : ℤ, 1 ≤ g0 → g0 ≤ 2 * (N 0 - 1) - 1 → 1 ≤ g1 → g1 ≤ 2 * (N 1 - 1) - 1 →
      Inner N ![g0, g1] := by
    intro g0 g1 a b c e i
    fin_cases i
    · exact ⟨a, b⟩
    · exact ⟨c, e⟩
  have := kernel2 h hh (N 0 - 1) (N 1 - 1) (by omega) (by omega)
    (fun x y => r (wrap (presLayout N per lx) ![x, y]) 0)
    ((hN.2 0 1 (by decide)).imp (by omega) (by omega))
    (fun g0 g1 a b c e => hz' _ (hi g0 g1 a b c e) 0)
    (fun g0 g1 a b c e => hz' _ (hi g0 g1 a b c e) 1) (q 0) (q 1) (hb 0).1 (hb 0).2 (hb 1).1 (hb 1).2
  have e1 : (![q 0, q 1] : Pos 2 ℤ) = q := by funext i; fin_cases i <;> rfl
  have e2 : wrap (presLayout N per lx) ![0, 0] = fun _ => 0 := by
    funext i; unfold wrap; fin_cases i <;> simp
  simp only [e1, e2, hw] at this
  exact this

/-- The pressure gradient determines the pressure up to a constant (3D). -/
theorem pressure_const3 (N : Fin 3 → ℤ) (per : Fin 3 → Bool) (lx : Fin 3 → List ℤ)
    (hne : ∀ i, lx i ≠ []) (hW : ∀ i, (presLayout N per lx i).WF) (hN : Fine N)
    (h : Pos 3 ℝ) (hh : ∀ c, 0 < h c) (w : NodeVec 3 3 ℝ) (r : NodeVec 3 1 ℝ)
    (hz : ∀ g, Inner N g → ∀ c, (bAndBT3 N per lx h w r).1 g c = 0) :
    ∀ q ∈ gridNodes (presLayout N per lx), r q 0 = r (fun _ => 0) 0 := by
  have hz' : ∀ g, Inner N g → ∀ c : Fin 3,
      op1 (fun a k => JP (decide (c = 0)) a k (h 0)) (N 0 - 1) (fun x =>
      op1 (fun a k => JP (decide (c = 1)) a k (h 1)) (N 1 - 1) (fun y =>
        op1 (fun a k => JP (decide (c = 2)) a k (h 2)) (N 2 - 1) (fun z =>
          r (wrap (presLayout N per lx) ![x, y, z]) 0) (g 2)) (g 1)) (g 0) = 0 := by
    intro g hg c
    rw [← gradient3 N per lx h hh r g hg c]
    have := hz g hg c
    unfold bAndBT3 offDiagMatrix at this
    rw [vel_out N per lx hne hW _ _ isQ1_3 _ is4Q1_3,
      block_id_zero N per lx hne hW _ _ isQ1_3 _ is4Q1_3, zero_add] at this
    refine neg_eq_zero.1 (Eq.trans ?_ this)
    rw [← Finset.sum_neg_distrib]
    refine Finset.sum_congr rfl fun e _ => ?_
    rw [← Finset.sum_neg_distrib]
    refine Finset.sum_congr rfl fun k _ => ?_
    split_ifs
    · rw [Finset.sum_neg_distrib]
    · simp
  intro q hq
  obtain ⟨hw, hb⟩ := pres_node N per lx q hq
  have h0 := hN.1 0; have h1 := hN.1 1; have h2 := hN.1 2
  have hi : ∀ g0 g1 g2 : ℤ, 1 ≤ g0 → g0 ≤ 2 * (N 0 - 1) - 1 → 1 ≤ g1 → g1 ≤ 2 * (N 1 - 1) - 1 →
      1 ≤ g2 → g2 ≤ 2 * (N 2 - 1) - 1 → Inner N ![g0, g1, g2] := by
    intro g0 g1 g2 a b c e f k i
    fin_cases i
    · exact ⟨a, b⟩
    · exact ⟨c, e⟩
    · exact ⟨f, k⟩
  have := kernel3 h hh (N 0 - 1) (N 1 - 1) (N 2 - 1) (by omega) (by omega) (by omega)
    (fun x y z => r (wrap (presLayout N per lx) ![x, y, z]) 0)
    (by
      have a := hN.2 0 1 (by decide); have b := hN.2 0 2 (by decide); have c := hN.2 1 2 (by decide)
      omega)
    (fun g0 g1 g2 a b c e f k => hz' _ (hi g0 g1 g2 a b c e f k) 0)
    (fun g0 g1 g2 a b c e f k => hz' _ (hi g0 g1 g2 a b c e f k) 1)
    (fun g0 g1 g2 a b c e f k => hz' _ (hi g0 g1 g2 a b c e f k) 2)
    (q 0) (q 1) (q 2) (hb 0).1 (hb 0).2 (hb 1).1 (hb 1).2 (hb 2).1 (hb 2).2
  have e1 : (![q 0, q 1, q 2] : Pos 3 ℤ) = q := by funext i; fin_cases i <;> rfl
  have e2 : wrap (presLayout N per lx) ![0, 0, 0] = fun _ => 0 := by
    funext i; unfold wrap; fin_cases i <;> simp
  simp only [e1, e2, hw] at this
  exact this

/-- An operator sees the values at the grid nodes only. -/
theorem diagBlock_null (L : Fin d → Dir) (hL : ∀ i, (L i).WF)
    (elem : Pos d ℤ → Fin NP → Pos d ℤ) (hel : IsQ1 elem) (M : Fin NP → Fin NP → ℝ)
    (x : NodeVec d n ℝ) (hx : ∀ g ∈ gridNodes L, ∀ c, x g c = 0) (g : Pos d ℤ) (c : Fin n) :
    blockMatrix L (diagBlockMult L elem M) x g c = 0 := by
  rw [diagBlock_global L hL elem hel]
  refine Finset.sum_eq_zero fun e he => Finset.sum_eq_zero fun k _ => ?_
  split_ifs
  · exact Finset.sum_eq_zero fun j _ => by rw [hx _ (wrap_q1_mem L elem hel e he j), zero_mul]
  · rfl

theorem tensorBlock_null (L : Fin d → Dir) (hL : ∀ i, (L i).WF)
    (elem : Pos d ℤ → Fin NP → Pos d ℤ) (hel : IsQ1 elem) (M : Fin NP → Fin NP → Fin n → Fin n → ℝ)
    (x : NodeVec d n ℝ) (hx : ∀ g ∈ gridNodes L, ∀ c, x g c = 0) (g : Pos d ℤ) (c : Fin n) :
    blockMatrix L (tensorBlockMult L elem M) x g c = 0 := by
  rw [tensorBlock_global L hL elem hel]
  refine Finset.sum_eq_zero fun e he => Finset.sum_eq_zero fun k _ => ?_
  split_ifs
  · exact Finset.sum_eq_zero fun j _ => Finset.sum_eq_zero fun b _ => by
      rw [hx _ (wrap_q1_mem L elem hel e he j)]; simp
  · rfl

/-- C93 (2D, pressure): on a grid with at least two coarse cells in all the directions but one, two
velocity/pressure pairs with the same image by the matrix-free Stokes operator with boundary conditions
have pressures that differ by a constant. -/
theorem C93_pressure2 (N : Fin 2 → ℤ) (per : Fin 2 → Bool) (lx : Fin 2 → List ℤ)
    (hne : ∀ i, lx i ≠ []) (hW : ∀ i, (presLayout N per lx i).WF) (hN : Fine N)
    (h : Pos 2 ℝ) (hh : ∀ c, 0 < h c) (rs : List (Fin 2 → ℕ)) (hrs : AllProcs (velLayout N per lx) rs)
    (bc : BC 2 ℝ) (u u' : NodeVec 2 2 ℝ) (p p' : NodeVec 2 1 ℝ) :
    (WallHeld (velLayout N per lx) bc →
      (∀ g ∈ gridNodes (velLayout N per lx), ∀ c,
        (stokesMatrixBC (velLayout N per lx) (presLayout N per lx) rs bc
          (tensorBlockMult (velLayout N per lx) getElement2 (matElemStrain2 h))
          getElement2 getElement4Q1_2 (matElemPressure2 h) u p).1 g c =
        (stokesMatrixBC (velLayout N per lx) (presLayout N per lx) rs bc
          (tensorBlockMult (velLayout N per lx) getElement2 (matElemStrain2 h))
          getElement2 getElement4Q1_2 (matElemPressure2 h) u' p').1 g c) →
      (∀ q ∈ gridNodes (presLayout N per lx),
        (stokesMatrixBC (velLayout N per lx) (presLayout N per lx) rs bc
          (tensorBlockMult (velLayout N per lx) getElement2 (matElemStrain2 h))
          getElement2 getElement4Q1_2 (matElemPressure2 h) u p).2 q 0 =
        (stokesMatrixBC (velLayout N per lx) (presLayout N per lx) rs bc
          (tensorBlockMult (velLayout N per lx) getElement2 (matElemStrain2 h))
          getElement2 getElement4Q1_2 (matElemPressure2 h) u' p').2 q 0) →
      ∃ k, ∀ q ∈ gridNodes (presLayout N per lx), p q 0 = p' q 0 + k) ∧
    (ComponentsHeld (velLayout N per lx) bc →
      (∀ g ∈ gridNodes (velLayout N per lx), ∀ c,
        (stokesMatrixBC (velLayout N per lx) (presLayout N per lx) rs bc
          (diagBlockMult (velLayout N per lx) getElement2 (matElemLaplacian2 h))
          getElement2 getElement4Q1_2 (matElemPressure2 h) u p).1 g c =
        (stokesMatrixBC (velLayout N per lx) (presLayout N per lx) rs bc
          (diagBlockMult (velLayout N per lx) getElement2 (matElemLaplacian2 h))
          getElement2 getElement4Q1_2 (matElemPressure2 h) u' p').1 g c) →
      (∀ q ∈ gridNodes (presLayout N per lx),
        (stokesMatrixBC (velLayout N per lx) (presLayout N per lx) rs bc
          (diagBlockMult (velLayout N per lx) getElement2 (matElemLaplacian2 h))
          getElement2 getElement4Q1_2 (matElemPressure2 h) u p).2 q 0 =
        (stokesMatrixBC (velLayout N per lx) (presLayout N per lx) rs bc
          (diagBlockMult (velLayout N per lx) getElement2 (matElemLaplacian2 h))
          getElement2 getElement4Q1_2 (matElemPressure2 h) u' p').2 q 0) →
      ∃ k, ∀ q ∈ gridNodes (presLayout N per lx), p q 0 = p' q 0 + k) := by
  have hv := velLayout_wf N per lx hne hW
  refine ⟨fun hb e1 e2 => ?_, fun hb e1 e2 => ?_⟩
  · have hu := (C93_velocity2 N per lx hne hW hN.1 h hh rs hrs bc u u' p p').1 hb e1 e2
    obtain ⟨-, -, h3⟩ := stokes_difference N per lx hne hW _ _ isQ1_2 _ is4Q1_2 _ _
      (tensorBlock_sub _ hv _ isQ1_2 _) rs hrs bc u u' p p' e1 e2
    have h0 : ∀ g ∈ gridNodes (velLayout N per lx), ∀ c, (u - u') g c = 0 :=
      fun g hg c => sub_eq_zero.2 (hu g hg c)
    have hk := pressure_const2 N per lx hne hW hN h hh (u - u') (p - p') fun g hg c => by
      obtain ⟨a, b⟩ := inner_free N per lx bc g hg
      have := h3 g a c (b c)
      rwa [(stokes_split N per lx hne hW _ _ isQ1_2 _ is4Q1_2 _ _ _ _).1,
        tensorBlock_null _ hv _ isQ1_2 _ _ h0, zero_add] at this
    refine ⟨(p - p') (fun _ => 0) 0, fun q hq => ?_⟩
    rw [← hk q hq]
    simp
  · have hu := (C93_velocity2 N per lx hne hW hN.1 h hh rs hrs bc u u' p p').2 hb e1 e2
    obtain ⟨-, -, h3⟩ := stokes_difference N per lx hne hW _ _ isQ1_2 _ is4Q1_2 _ _
      (diagBlock_sub _ hv _ isQ1_2 _) rs hrs bc u u' p p' e1 e2
    have h0 : ∀ g ∈ gridNodes (velLayout N per lx), ∀ c, (u - u') g c = 0 :=
      fun g hg c => sub_eq_zero.2 (hu g hg c)
    have hk := pressure_const2 N per lx hne hW hN h hh (u - u') (p - p') fun g hg c => by
      obtain ⟨a, b⟩ := inner_free N per lx bc g hg
      have := h3 g a c (b c)
      rwa [(stokes_split N per lx hne hW _ _ isQ1_2 _ is4Q1_2 _ _ _ _).1,
        diagBlock_null _ hv _ isQ1_2 _ _ h0, zero_add] at this
    refine ⟨(p - p') (fun _ => 0) 0, fun q hq => ?_⟩
    rw [← hk q hq]
    simp

/-- C93 (3D, pressure): on a grid with at least two coarse cells in all the directions but one, two
velocity/pressure pairs with the same image by the matrix-free Stokes operator with boundary conditions
have pressures that differ by a constant. -/
theorem C93_pressure3 (N : Fin 3 → ℤ) (per : Fin 3 → Bool) (lx : Fin 3 → List ℤ)
    (hne : ∀ i, lx i ≠ []) (hW : ∀ i, (presLayout N per lx i).WF) (hN : Fine N)
    (h : Pos 3 ℝ) (hh : ∀ c, 0 < h c) (rs : List (Fin 3 → ℕ)) (hrs : AllProcs (velLayout N per lx) rs)
    (bc : BC 3 ℝ) (u u' : NodeVec 3 3 ℝ) (p p' : NodeVec 3 1 ℝ) :
    (WallHeld (velLayout N per lx) bc →
      (∀ g ∈ gridNodes (velLayout N per lx), ∀ c,
        (stokesMatrixBC (velLayout N per lx) (presLayout N per lx) rs bc
          (tensorBlockMult (velLayout N per lx) getElement3 (matElemStrain3 h))
          getElement3 getElement4Q1_3 (matElemPressure3 h) u p).1 g c =
        (stokesMatrixBC (velLayout N per lx) (presLayout N per lx) rs bc
          (tensorBlockMult (velLayout N per lx) getElement3 (matElemStrain3 h))
          getElement3 getElement4Q1_3 (matElemPressure3 h) u' p').1 g c) →
      (∀ q ∈ gridNodes (presLayout N per lx),
        (stokesMatrixBC (velLayout N per lx) (presLayout N per lx) rs bc
          (tensorBlockMult (velLayout N per lx) getElement3 (matElemStrain3 h))
          getElement3 getElement4Q1_3 (matElemPressure3 h) u p).2 q 0 =
        (stokesMatrixBC (velLayout N per lx) (presLayout N per lx) rs bc
          (tensorBlockMult (velLayout N per lx) getElement3 (matElemStrain3 h))
          getElement3 getElement4Q1_3 (matElemPressure3 h) u' p').2 q 0) →
      ∃ k, ∀ q ∈ gridNodes (presLayout N per lx), p q 0 = p' q 0 + k) ∧
    (ComponentsHeld (velLayout N per lx) bc →
      (∀ g ∈ gridNodes (velLayout N per lx), ∀ c,
        (stokesMatrixBC (velLayout N per lx) (presLayout N per lx) rs bc
          (diagBlockMult (velLayout N per lx) getElement3 (matElemLaplacian3 h))
          getElement3 getElement4Q1_3 (matElemPressure3 h) u p).1 g c =
        (stokesMatrixBC (velLayout N per lx) (presLayout N per lx) rs bc
          (diagBlockMult (velLayout N per lx) getElement3 (matElemLaplacian3 h))
          getElement3 getElement4Q1_3 (matElemPressure3 h) u' p').1 g c) →
      (∀ q ∈ gridNodes (presLayout N per lx),
        (stokesMatrixBC (velLayout N per lx) (presLayout N per lx) rs bc
          (diagBlockMult (velLayout N per lx) getElement3 (matElemLaplacian3 h))
          getElement3 getElement4Q1_3 (matElemPressure3 h) u p).2 q 0 =
        (stokesMatrixBC (velLayout N per lx) (presLayout N per lx) rs bc
          (diagBlockMult (velLayout N per lx) getElement3 (matElemLaplacian3 h))
          getElement3 getElement4Q1_3 (matElemPressure3 h) u' p').2 q 0) →
      ∃ k, ∀ q ∈ gridNodes (presLayout N per lx), p q 0 = p' q 0 + k) := by
  have hv := velLayout_wf N per lx hne hW
  refine ⟨fun hb e1 e2 => ?_, fun hb e1 e2 => ?_⟩
  · have hu := (C93_velocity3 N per lx hne hW hN.1 h hh rs hrs bc u u' p p').1 hb e1 e2
    obtain ⟨-, -, h3⟩ := stokes_difference N per lx hne hW _ _ isQ1_3 _ is4Q1_3 _ _
      (tensorBlock_sub _ hv _ isQ1_3 _) rs hrs bc u u' p p' e1 e2
    have h0 : ∀ g ∈ gridNodes (velLayout N per lx), ∀ c, (u - u') g c = 0 :=
      fun g hg c => sub_eq_zero.2 (hu g hg c)
    have hk := pressure_const3 N per lx hne hW hN h hh (u - u') (p - p') fun g hg c => by
      obtain ⟨a, b⟩ := inner_free N per lx bc g hg
      have := h3 g a c (b c)
      rwa [(stokes_split N per lx hne hW _ _ isQ1_3 _ is4Q1_3 _ _ _ _).1,
        tensorBlock_null _ hv _ isQ1_3 _ _ h0, zero_add] at this
    refine ⟨(p - p') (fun _ => 0) 0, fun q hq => ?_⟩
    rw [← hk q hq]
    simp
  · have hu := (C93_velocity3 N per lx hne hW hN.1 h hh rs hrs bc u u' p p').2 hb e1 e2
    obtain ⟨-, -, h3⟩ := stokes_difference N per lx hne hW _ _ isQ1_3 _ is4Q1_3 _ _
      (diagBlock_sub _ hv _ isQ1_3 _) rs hrs bc u u' p p' e1 e2
    have h0 : ∀ g ∈ gridNodes (velLayout N per lx), ∀ c, (u - u') g c = 0 :=
      fun g hg c => sub_eq_zero.2 (hu g hg c)
    have hk := pressure_const3 N per lx hne hW hN h hh (u - u') (p - p') fun g hg c => by
      obtain ⟨a, b⟩ := inner_free N per lx bc g hg
      have := h3 g a c (b c)
      rwa [(stokes_split N per lx hne hW _ _ isQ1_3 _ is4Q1_3 _ _ _ _).1,
        diagBlock_null _ hv _ isQ1_3 _ _ h0, zero_add] at this
    refine ⟨(p - p') (fun _ => 0) 0, fun q hq => ?_⟩
    rw [← hk q hq]
    simp

/-- The hypotheses are met by the grid of `6 x 6` pressure nodes split on `3 x 2` processes, second
direction periodic, with the lower wall of the first direction held. -/
example : (∀ i, (![[2, 3, 1], [2, 3]] : Fin 2 → List ℤ) i ≠ []) ∧
    (∀ i, (presLayout (fun _ => 6) (fun i => decide (i = 1)) ![[2, 3, 1], [2, 3]] i).WF) ∧
    WallHeld (velLayout (fun _ => 6) (fun i => decide (i = 1)) ![[2, 3, 1], [2, 3]])
      (fun f _ => if f = 0 then some (fun _ : Pos 2 ℝ => (1:ℝ)) else none) ∧
    Fine (fun _ : Fin 2 => 6) := by
  refine ⟨?_, ?_, ⟨![0, 3], ?_, 0, ⟨0, rfl, Or.inl ⟨rfl, rfl⟩⟩, fun c => rfl⟩,
    fun _ => by norm_num, fun _ _ _ => by norm_num⟩
  · intro i; fin_cases i <;> decide
  · intro i; fin_cases i <;> exact ⟨by decide, by decide⟩
  · rw [mem_gridNodes]; intro i; fin_cases i <;> decide

end Cafes.Props
