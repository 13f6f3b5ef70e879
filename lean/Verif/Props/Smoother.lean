/-
Property theorems: C99, the velocity operator given to the conjugate gradient smoothers.
-/
import Verif.Props.Jacobi

namespace Cafes.Props
open Cafes Cafes.Spec

/-! ### C99 -/

/-- The vector vanishes at the constrained dofs. -/
def ZeroHeld {d : ℕ} (L : Fin d → Dir) (bc : BC d ℝ) (u : NodeVec d d ℝ) : Prop :=
  ∀ g ∈ gridNodes L, ∀ c, Constrained L bc g c → u g c = 0

/-- The operator `A` is symmetric positive definite on the vectors that vanish at the constrained dofs, and maps them
to such vectors. -/
structure SPDOnFree {d : ℕ} (L : Fin d → Dir) (bc : BC d ℝ) (A : NodeVec d d ℝ → NodeVec d d ℝ) : Prop where
  maps : ∀ u, ZeroHeld L bc u → ZeroHeld L bc (A u)
  symm : ∀ u v, ZeroHeld L bc u → ZeroHeld L bc v → dot L v (A u) = dot L u (A v)
  pos : ∀ u, ZeroHeld L bc u → (∃ g ∈ gridNodes L, ∃ c, u g c ≠ 0) → 0 < dot L u (A u)

section generic
variable {d : ℕ} (L : Fin d → Dir) (hL : ∀ i, (L i).WF) (rs : List (Fin d → ℕ)) (hrs : AllProcs L rs) (bc : BC d ℝ)
  (A : (Fin d → ℕ) → NodeVec d d ℝ → NodeVec d d ℝ → NodeVec d d ℝ)
include hL hrs

/-- Against a vector that vanishes at the constrained dofs the rows of the conditions do not count. -/
theorem dot_bc (u v : NodeVec d d ℝ) (hv : ZeroHeld L bc v) :
    dot L v (blockMatrixBC L rs bc A u) = dot L v (blockMatrix L A u) := by
  unfold dot blockMatrixBC
  refine Finset.sum_congr rfl fun g hg => Finset.sum_congr rfl fun c _ => ?_
  rw [C25_vec L hL rs hrs]
  split_ifs with h
  · rw [hv g hg c h.2]; ring
  · rfl

theorem maps_bc (u : NodeVec d d ℝ) (hu : ZeroHeld L bc u) : ZeroHeld L bc (blockMatrixBC L rs bc A u) := by
  intro g hg c hc
  unfold blockMatrixBC
  rw [C25_vec L hL rs hrs, if_pos ⟨hg, hc⟩]
  exact hu g hg c hc

theorem spd_bc (hs : ∀ u v, dot L v (blockMatrix L A u) = dot L u (blockMatrix L A v))
    (hp : ∀ u, ZeroHeld L bc u → (∃ g ∈ gridNodes L, ∃ c, u g c ≠ 0) → 0 < dot L u (blockMatrix L A u)) :
    SPDOnFree L bc (blockMatrixBC L rs bc A) where
  maps := maps_bc L hL rs hrs bc A
  symm u v hu hv := by rw [dot_bc L hL rs hrs bc A u v hv, dot_bc L hL rs hrs bc A v u hu]; exact hs u v
  pos u hu hne := by rw [dot_bc L hL rs hrs bc A u u hu]; exact hp u hu hne

open Classical in
/-- The operator with its Dirichlet rows is not symmetric when a component is held somewhere and free elsewhere: the
indicators of the free and of the constrained dofs of the component tell. -/
theorem asymmetric_bc (c : Fin d) (hm : ∃ g ∈ gridNodes L, ¬ Constrained L bc g c)
    (hsub : ∀ x y g b, blockMatrix L A (x - y) g b = blockMatrix L A x g b - blockMatrix L A y g b)
    (hk : ∀ g b, blockMatrix L A (fun _ b => if b = c then 1 else 0) g b = 0)
    (hp : ∀ u, ZeroHeld L bc u → (∃ g ∈ gridNodes L, ∃ c, u g c ≠ 0) → 0 < dot L u (blockMatrix L A u)) :
    ∃ u v, ZeroHeld L bc v ∧ dot L v (blockMatrixBC L rs bc A u) < 0 ∧ dot L u (blockMatrixBC L rs bc A v) = 0 := by
  obtain ⟨g1, hg1, hf⟩ := hm
  set v : NodeVec d d ℝ := fun g b => if b = c ∧ ¬ Constrained L bc g b then 1 else 0 with hvdef
  set one : NodeVec d d ℝ := fun _ b => if b = c then 1 else 0 with hone
  have hv : ZeroHeld L bc v := fun g hg b hb => if_neg fun h => h.2 hb
  have hne : ∃ g ∈ gridNodes L, ∃ b, v g b ≠ 0 := ⟨g1, hg1, c, by rw [hvdef]; simp [hf]⟩
  refine ⟨one - v, v, hv, ?_, ?_⟩
  · rw [dot_bc L hL rs hrs bc A _ v hv]
    have e : dot L v (blockMatrix L A (one - v)) = - dot L v (blockMatrix L A v) := by
      unfold dot
      rw [← Finset.sum_neg_distrib]
      refine Finset.sum_congr rfl fun g _ => ?_
      rw [← Finset.sum_neg_distrib]
      refine Finset.sum_congr rfl fun b _ => ?_
      rw [hsub, hk]; ring
    rw [e]
    have := hp v hv hne
    linarith
  · unfold dot
    refine Finset.sum_eq_zero fun g hg => Finset.sum_eq_zero fun b _ => ?_
    have hz := maps_bc L hL rs hrs bc A v hv g hg b
    by_cases hb : b = c
    · by_cases hc : Constrained L bc g b
      · rw [hz hc, mul_zero]
      · have : (one - v) g b = 0 := by
          simp only [Pi.sub_apply, hone, hvdef, hb, if_true, true_and]
          rw [if_pos (hb ▸ hc)]; ring
        rw [this, zero_mul]
    · have : (one - v) g b = 0 := by
        simp [hone, hvdef, hb]
      rw [this, zero_mul]

end generic

theorem lap2_pos (L : Fin 2 → Dir) (hL : ∀ i, (L i).WF) (hne : ∀ i, 1 ≤ (L i).nElem) (h : Pos 2 ℝ) (hh : ∀ c, 0 < h c)
    (bc : BC 2 ℝ) (hb : ComponentsHeld L bc) (u : NodeVec 2 2 ℝ) (hu : ZeroHeld L bc u)
    (hnz : ∃ g ∈ gridNodes L, ∃ c, u g c ≠ 0) : 0 < dot L u (laplacian2 L h u) := by
  refine lt_of_le_of_ne ((C15_psd2 L hL h hh).1 u) fun h0 => ?_
  obtain ⟨g, hg, c, hn⟩ := hnz
  obtain ⟨g0, -, f, hf, hs⟩ := hb c
  exact hn (lap2_definite L hL hne h hh u h0.symm c f g0 hf (fun g hg hgf => hu g hg c ⟨f, hgf, hs⟩) g hg)

theorem lap3_pos (L : Fin 3 → Dir) (hL : ∀ i, (L i).WF) (hne : ∀ i, 1 ≤ (L i).nElem) (h : Pos 3 ℝ) (hh : ∀ c, 0 < h c)
    (bc : BC 3 ℝ) (hb : ComponentsHeld L bc) (u : NodeVec 3 3 ℝ) (hu : ZeroHeld L bc u)
    (hnz : ∃ g ∈ gridNodes L, ∃ c, u g c ≠ 0) : 0 < dot L u (laplacian3 L h u) := by
  refine lt_of_le_of_ne ((C15_psd3 L hL h hh).1 u) fun h0 => ?_
  obtain ⟨g, hg, c, hn⟩ := hnz
  obtain ⟨g0, -, f, hf, hs⟩ := hb c
  exact hn (lap3_definite L hL hne h hh u h0.symm c f g0 hf (fun g hg hgf => hu g hg c ⟨f, hgf, hs⟩) g hg)

theorem strain2_pos (L : Fin 2 → Dir) (hL : ∀ i, (L i).WF) (hne : ∀ i, 1 ≤ (L i).nElem) (h : Pos 2 ℝ) (hh : ∀ c, 0 < h c)
    (bc : BC 2 ℝ) (hb : WallHeld L bc) (u : NodeVec 2 2 ℝ) (hu : ZeroHeld L bc u)
    (hnz : ∃ g ∈ gridNodes L, ∃ c, u g c ≠ 0) : 0 < dot L u (strain2 L h u) := by
  refine lt_of_le_of_ne ((C15_psd2 (n := 2) L hL h hh).2 u) fun h0 => ?_
  obtain ⟨g, hg, c, hn⟩ := hnz
  obtain ⟨g0, -, f, hf, hs⟩ := hb
  exact hn (strain2_definite L hL hne h hh u h0.symm f g0 hf (fun g hg hgf c => hu g hg c ⟨f, hgf, hs c⟩) g hg c)

theorem strain3_pos (L : Fin 3 → Dir) (hL : ∀ i, (L i).WF) (hne : ∀ i, 1 ≤ (L i).nElem) (h : Pos 3 ℝ) (hh : ∀ c, 0 < h c)
    (bc : BC 3 ℝ) (hb : WallHeld L bc) (u : NodeVec 3 3 ℝ) (hu : ZeroHeld L bc u)
    (hnz : ∃ g ∈ gridNodes L, ∃ c, u g c ≠ 0) : 0 < dot L u (strain3 L h u) := by
  refine lt_of_le_of_ne ((C15_psd3 (n := 3) L hL h hh).2 u) fun h0 => ?_
  obtain ⟨g, hg, c, hn⟩ := hnz
  obtain ⟨g0, -, f, hf, hs⟩ := hb
  exact hn (strain3_definite L hL hne h hh u h0.symm f g0 hf (fun g hg hgf c => hu g hg c ⟨f, hgf, hs c⟩) g hg c)

/-- C99 (2D, on the free dofs): the velocity operators with their Dirichlet rows map the vectors that vanish at the
constrained dofs to such vectors, and are symmetric positive definite there: the Laplacian as soon as each component is
held somewhere, the strain tensor as soon as one wall holds all of them. -/
theorem C99_free2 (L : Fin 2 → Dir) (hL : ∀ i, (L i).WF) (hne : ∀ i, 1 ≤ (L i).nElem) (h : Pos 2 ℝ)
    (hh : ∀ c, 0 < h c) (rs : List (Fin 2 → ℕ)) (hrs : AllProcs L rs) (bc : BC 2 ℝ) :
    (ComponentsHeld L bc → SPDOnFree L bc (blockMatrixBC L rs bc (diagBlockMult L getElement2 (matElemLaplacian2 h)))) ∧
    (WallHeld L bc → SPDOnFree L bc (blockMatrixBC L rs bc (tensorBlockMult L getElement2 (matElemStrain2 h)))) :=
  ⟨fun hb => spd_bc L hL rs hrs bc _ (fun u v => (C15_symmetric2 L hL h hh).1 v u) (lap2_pos L hL hne h hh bc hb),
   fun hb => spd_bc L hL rs hrs bc _ (fun u v => (C15_symmetric2 (n := 2) L hL h hh).2.2 v u)
     (strain2_pos L hL hne h hh bc hb)⟩

/-- C99 (2D, on all the dofs): the same operators are not symmetric as soon as a component has a free node. -/
theorem C99_asymmetric2 (L : Fin 2 → Dir) (hL : ∀ i, (L i).WF) (hne : ∀ i, 1 ≤ (L i).nElem) (h : Pos 2 ℝ)
    (hh : ∀ c, 0 < h c) (rs : List (Fin 2 → ℕ)) (hrs : AllProcs L rs) (bc : BC 2 ℝ) (c : Fin 2)
    (hf : ∃ g ∈ gridNodes L, ¬ Constrained L bc g c) :
    (ComponentsHeld L bc → ∃ u v, ZeroHeld L bc v ∧
      dot L v (blockMatrixBC L rs bc (diagBlockMult L getElement2 (matElemLaplacian2 h)) u) < 0 ∧
      dot L u (blockMatrixBC L rs bc (diagBlockMult L getElement2 (matElemLaplacian2 h)) v) = 0) ∧
    (WallHeld L bc → ∃ u v, ZeroHeld L bc v ∧
      dot L v (blockMatrixBC L rs bc (tensorBlockMult L getElement2 (matElemStrain2 h)) u) < 0 ∧
      dot L u (blockMatrixBC L rs bc (tensorBlockMult L getElement2 (matElemStrain2 h)) v) = 0) :=
  ⟨fun hb => asymmetric_bc L hL rs hrs bc _ c hf (diagBlock_sub L hL _ isQ1_2 _)
     (fun g b => (C16_kernel2 L hL h hh).1 _ g b) (lap2_pos L hL hne h hh bc hb),
   fun hb => asymmetric_bc L hL rs hrs bc _ c hf (tensorBlock_sub L hL _ isQ1_2 _)
     (fun g b => (C16_kernel2 (n := 2) L hL h hh).2.1 _ g b) (strain2_pos L hL hne h hh bc hb)⟩

/-- C99 (2D, Jacobi): the diagonal given to the Jacobi preconditioner of the smoother is strictly positive at every
dof. -/
theorem C99_jacobi2 (L : Fin 2 → Dir) (hL : ∀ i, (L i).WF) (hne : ∀ i, 1 ≤ (L i).nElem) (h : Pos 2 ℝ)
    (hh : ∀ c, 0 < h c) (g : Pos 2 ℤ) (hg : g ∈ gridNodes L) (c : Fin 2) : 0 < diagLaplacian2 L h g c := by
  unfold diagLaplacian2
  rw [diagDiag_global L hL _ isQ1_2]
  have hp : ∀ k, 0 < matElemLaplacian2 h k k := fun k => by
    rw [lap2_tensor h hh]
    exact Finset.sum_pos (fun p _ => jprod_pos h hh p _) ⟨0, Finset.mem_univ _⟩
  obtain ⟨e, he, hc⟩ := exists_corner L hne g hg
  obtain ⟨k, hk⟩ := ((C09_element2 e).2.2 g).2 hc
  have hw : wrap L (getElement2 e k) = g := by rw [hk]; exact wrap_grid L g hg
  have hn : ∀ e k, 0 ≤ (if wrap L (getElement2 e k) = g then matElemLaplacian2 h k k else 0) := fun e k => by
    split_ifs
    · exact (hp k).le
    · exact le_rfl
  refine Finset.sum_pos' (fun e _ => Finset.sum_nonneg fun k _ => hn e k) ⟨e, he, ?_⟩
  refine Finset.sum_pos' (fun k _ => hn e k) ⟨k, Finset.mem_univ _, ?_⟩
  rw [if_pos hw]; exact hp k

/-- C99 (3D, on the free dofs): the velocity operators with their Dirichlet rows map the vectors that vanish at the
constrained dofs to such vectors, and are symmetric positive definite there: the Laplacian as soon as each component is
held somewhere, the strain tensor as soon as one wall holds all of them. -/
theorem C99_free3 (L : Fin 3 → Dir) (hL : ∀ i, (L i).WF) (hne : ∀ i, 1 ≤ (L i).nElem) (h : Pos 3 ℝ)
    (hh : ∀ c, 0 < h c) (rs : List (Fin 3 → ℕ)) (hrs : AllProcs L rs) (bc : BC 3 ℝ) :
    (ComponentsHeld L bc → SPDOnFree L bc (blockMatrixBC L rs bc (diagBlockMult L getElement3 (matElemLaplacian3 h)))) ∧
    (WallHeld L bc → SPDOnFree L bc (blockMatrixBC L rs bc (tensorBlockMult L getElement3 (matElemStrain3 h)))) :=
  ⟨fun hb => spd_bc L hL rs hrs bc _ (fun u v => (C15_symmetric3 L hL h hh).1 v u) (lap3_pos L hL hne h hh bc hb),
   fun hb => spd_bc L hL rs hrs bc _ (fun u v => (C15_symmetric3 (n := 3) L hL h hh).2.2 v u)
     (strain3_pos L hL hne h hh bc hb)⟩

/-- C99 (3D, on all the dofs): the same operators are not symmetric as soon as a component has a free node. -/
theorem C99_asymmetric3 (L : Fin 3 → Dir) (hL : ∀ i, (L i).WF) (hne : ∀ i, 1 ≤ (L i).nElem) (h : Pos 3 ℝ)
    (hh : ∀ c, 0 < h c) (rs : List (Fin 3 → ℕ)) (hrs : AllProcs L rs) (bc : BC 3 ℝ) (c : Fin 3)
    (hf : ∃ g ∈ gridNodes L, ¬ Constrained L bc g c) :
    (ComponentsHeld L bc → ∃ u v, ZeroHeld L bc v ∧
      dot L v (blockMatrixBC L rs bc (diagBlockMult L getElement3 (matElemLaplacian3 h)) u) < 0 ∧
      dot L u (blockMatrixBC L rs bc (diagBlockMult L getElement3 (matElemLaplacian3 h)) v) = 0) ∧
    (WallHeld L bc → ∃ u v, ZeroHeld L bc v ∧
      dot L v (blockMatrixBC L rs bc (tensorBlockMult L getElement3 (matElemStrain3 h)) u) < 0 ∧
      dot L u (blockMatrixBC L rs bc (tensorBlockMult L getElement3 (matElemStrain3 h)) v) = 0) :=
  ⟨fun hb => asymmetric_bc L hL rs hrs bc _ c hf (diagBlock_sub L hL _ isQ1_3 _)
     (fun g b => (C16_kernel3 L hL h hh).1 _ g b) (lap3_pos L hL hne h hh bc hb),
   fun hb => asymmetric_bc L hL rs hrs bc _ c hf (tensorBlock_sub L hL _ isQ1_3 _)
     (fun g b => (C16_kernel3 (n := 3) L hL h hh).2.1 _ g b) (strain3_pos L hL hne h hh bc hb)⟩

/-- C99 (3D, Jacobi): the diagonal given to the Jacobi preconditioner of the smoother is strictly positive at every
dof. -/
theorem C99_jacobi3 (L : Fin 3 → Dir) (hL : ∀ i, (L i).WF) (hne : ∀ i, 1 ≤ (L i).nElem) (h : Pos 3 ℝ)
    (hh : ∀ c, 0 < h c) (g : Pos 3 ℤ) (hg : g ∈ gridNodes L) (c : Fin 3) : 0 < diagLaplacian3 L h g c := by
  unfold diagLaplacian3
  rw [diagDiag_global L hL _ isQ1_3]
  have hp : ∀ k, 0 < matElemLaplacian3 h k k := fun k => by
    rw [lap3_tensor h hh]
    exact Finset.sum_pos (fun p _ => jprod_pos h hh p _) ⟨0, Finset.mem_univ _⟩
  obtain ⟨e, he, hc⟩ := exists_corner L hne g hg
  obtain ⟨k, hk⟩ := ((C09_element3 e).2.2 g).2 hc
  have hw : wrap L (getElement3 e k) = g := by rw [hk]; exact wrap_grid L g hg
  have hn : ∀ e k, 0 ≤ (if wrap L (getElement3 e k) = g then matElemLaplacian3 h k k else 0) := fun e k => by
    split_ifs
    · exact (hp k).le
    · exact le_rfl
  refine Finset.sum_pos' (fun e _ => Finset.sum_nonneg fun k _ => hn e k) ⟨e, he, ?_⟩
  refine Finset.sum_pos' (fun k _ => hn e k) ⟨k, Finset.mem_univ _, ?_⟩
  rw [if_pos hw]; exact hp k

/-- The hypotheses are met by a mesh of several processes with walls in one direction and conditions on all the
walls: the walls are held and there are free nodes. -/
example : ∃ (L : Fin 2 → Dir) (bc : BC 2 ℝ), (∀ i, (L i).WF) ∧ (∀ i, 1 ≤ (L i).nElem) ∧ WallHeld L bc ∧
    ∀ c, ∃ g ∈ gridNodes L, ¬ Constrained L bc g c := by
  refine ⟨![exDir, exDirP], fun _ _ => some fun _ => 0, ?_, ?_, ?_, ?_⟩
  · intro i; fin_cases i
    · exact exDir_wf
    · exact exDirP_wf
  · intro i; fin_cases i <;> decide
  · refine ⟨![0, 0], ?_, 0, ⟨0, rfl, Or.inl ⟨rfl, rfl⟩⟩, fun _ => rfl⟩
    rw [mem_gridNodes]; intro i; fin_cases i <;> decide
  · intro c
    refine ⟨![1, 0], ?_, ?_⟩
    · rw [mem_gridNodes]; intro i; fin_cases i <;> decide
    · rintro ⟨f, ⟨i, hp, h⟩, -⟩
      fin_cases i
      · rcases h with ⟨-, h⟩ | ⟨-, h⟩
        · exact absurd h (by decide)
        · exact absurd h (by decide)
      · exact absurd hp (by decide)

end Cafes.Props
