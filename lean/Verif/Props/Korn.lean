/-
Property theorems: C98, spectral equivalence of the operators and of their preconditioners.
-/
import Verif.Lemmas.Korn
import Verif.Props.Exact
import Verif.Props.Unique
import Verif.Props.WeakForm

namespace Cafes.Props
open Cafes Cafes.Spec

/-! ### C98 -/

/-- The velocity vanishes at all the nodes of the walls. -/
def VanishesOnWalls {d : ℕ} (L : Fin d → Dir) (v : NodeVec d d ℝ) : Prop :=
  ∀ g ∈ gridNodes L, ∀ f, OnFace L g f → ∀ c, v g c = 0

/-- Divergence, in the cell `e`, of the finite element velocity of nodal values `v` (2D). -/
noncomputable def divQ2 (L : Fin 2 → Dir) (h : Pos 2 ℝ) (v : NodeVec 2 2 ℝ) (e : Pos 2 ℤ) (x y : ℝ) : ℝ :=
  ∑ a, grad2 (field2 L h v e a) x y a

/-- Divergence, in the cell `e`, of the finite element velocity of nodal values `v` (3D). -/
noncomputable def divQ3 (L : Fin 3 → Dir) (h : Pos 3 ℝ) (v : NodeVec 3 3 ℝ) (e : Pos 3 ℤ) (x y z : ℝ) : ℝ :=
  ∑ a, grad3 (field3 L h v e a) x y z a

/-- Products of sums of gradients integrated on a cell. -/
theorem gram2 (h : Pos 2 ℝ) (hh : ∀ c, 0 < h c) (v u : Fin 4 × Fin 2 → ℝ) :
    int2 h (fun x y => (∑ p : Fin 4 × Fin 2, v p * grad2 (phi2 h p.1) x y p.2) *
      ∑ q : Fin 4 × Fin 2, u q * grad2 (phi2 h q.1) x y q.2) =
    ∑ p : Fin 4 × Fin 2, ∑ q : Fin 4 × Fin 2, v p * u q *
      ∏ i, J (decide (p.2 = i)) (decide (q.2 = i)) (bit2 p.1 i) (bit2 q.1 i) (h i) := by
  rw [int2_bilin h (fun (p : Fin 4 × Fin 2) x y => grad2 (phi2 h p.1) x y p.2)
    (fun (p : Fin 4 × Fin 2) x y => grad2 (phi2 h p.1) x y p.2)
    (fun p q => (cont_grad2 h p.1 p.2).mul (cont_grad2 h q.1 q.2))]
  refine Finset.sum_congr rfl fun p _ => Finset.sum_congr rfl fun q _ => ?_
  rw [int2_gg h (fun c => (hh c).ne'), Fin.prod_univ_two]

theorem gram3 (h : Pos 3 ℝ) (hh : ∀ c, 0 < h c) (v u : Fin 8 × Fin 3 → ℝ) :
    int3 h (fun x y z => (∑ p : Fin 8 × Fin 3, v p * grad3 (phi3 h p.1) x y z p.2) *
      ∑ q : Fin 8 × Fin 3, u q * grad3 (phi3 h q.1) x y z q.2) =
    ∑ p : Fin 8 × Fin 3, ∑ q : Fin 8 × Fin 3, v p * u q *
      ∏ i, J (decide (p.2 = i)) (decide (q.2 = i)) (bit3 p.1 i) (bit3 q.1 i) (h i) := by
  rw [int3_bilin h (fun (p : Fin 8 × Fin 3) x y z => grad3 (phi3 h p.1) x y z p.2)
    (fun (p : Fin 8 × Fin 3) x y z => grad3 (phi3 h p.1) x y z p.2)
    (fun p q => (cont_grad3 h p.1 p.2).mul (cont_grad3 h q.1 q.2))]
  refine Finset.sum_congr rfl fun p _ => Finset.sum_congr rfl fun q _ => ?_
  rw [int3_gg h (fun c => (hh c).ne'), Fin.prod_univ_three]

theorem gram_psd2 (h : Pos 2 ℝ) (hh : ∀ c, 0 < h c) (c : Fin 4 × Fin 2 → ℝ) :
    0 ≤ ∑ x : Fin 4 × Fin 2, ∑ y : Fin 4 × Fin 2, c x * c y *
      ∏ i, J (decide (x.2 = i)) (decide (y.2 = i)) (bit2 x.1 i) (bit2 y.1 i) (h i) := by
  rw [← gram2 h hh]
  exact int2_nonneg h hh _ fun s t => mul_self_nonneg _

theorem gram_psd3 (h : Pos 3 ℝ) (hh : ∀ c, 0 < h c) (c : Fin 8 × Fin 3 → ℝ) :
    0 ≤ ∑ x : Fin 8 × Fin 3, ∑ y : Fin 8 × Fin 3, c x * c y *
      ∏ i, J (decide (x.2 = i)) (decide (y.2 = i)) (bit3 x.1 i) (bit3 y.1 i) (h i) := by
  rw [← gram3 h hh]
  exact int3_nonneg h hh _ fun s t r => mul_self_nonneg _

/-- Sum of the forms of the components as a sum on the cells. -/
theorem bform_cells {d NE : ℕ} (L : Fin d → Dir) (elem : Pos d ℤ → Fin NE → Pos d ℤ) (off : Fin NE → Fin d → Fin 2)
    (h : Pos d ℝ) (v u : NodeVec d d ℝ) :
    ∑ a, ∑ b, bform L elem off h a b (fun g => v g a) (fun g => u g b) = ∑ e ∈ gridElems L,
      ∑ x : Fin NE × Fin d, ∑ y : Fin NE × Fin d, v (wrap L (elem e x.1)) x.2 * u (wrap L (elem e y.1)) y.2 *
        ∏ i, J (decide (x.2 = i)) (decide (y.2 = i)) (off x.1 i) (off y.1 i) (h i) := by
  unfold bform
  simp only [Fintype.sum_prod_type]
  have : ∀ a : Fin d, ∑ b, ∑ e ∈ gridElems L, ∑ k1, ∑ k2, v (wrap L (elem e k1)) a * u (wrap L (elem e k2)) b *
      ∏ i, J (decide (a = i)) (decide (b = i)) (off k1 i) (off k2 i) (h i) =
      ∑ e ∈ gridElems L, ∑ k1, ∑ k2, ∑ b, v (wrap L (elem e k1)) a * u (wrap L (elem e k2)) b *
      ∏ i, J (decide (a = i)) (decide (b = i)) (off k1 i) (off k2 i) (h i) := by
    intro a
    rw [Finset.sum_comm]
    refine Finset.sum_congr rfl fun e _ => ?_
    rw [Finset.sum_comm]
    refine Finset.sum_congr rfl fun k1 _ => ?_
    rw [Finset.sum_comm]
  simp only [this]
  rw [Finset.sum_comm]
  refine Finset.sum_congr rfl fun e _ => ?_
  rw [Finset.sum_comm]

theorem bform_div2 (L : Fin 2 → Dir) (h : Pos 2 ℝ) (hh : ∀ c, 0 < h c) (v u : NodeVec 2 2 ℝ) :
    ∑ a, ∑ b, bform L getElement2 bit2 h a b (fun g => v g a) (fun g => u g b) =
      ∑ e ∈ gridElems L, int2 h (fun x y => divQ2 L h v e x y * divQ2 L h u e x y) := by
  rw [bform_cells]
  refine Finset.sum_congr rfl fun e _ => ?_
  rw [← gram2 h hh (fun p => v (wrap L (getElement2 e p.1)) p.2) (fun p => u (wrap L (getElement2 e p.1)) p.2)]
  congr 1
  funext x y
  simp only [divQ2, grad_field2, Fintype.sum_prod_type_right]

theorem bform_div3 (L : Fin 3 → Dir) (h : Pos 3 ℝ) (hh : ∀ c, 0 < h c) (v u : NodeVec 3 3 ℝ) :
    ∑ a, ∑ b, bform L getElement3 bit3 h a b (fun g => v g a) (fun g => u g b) =
      ∑ e ∈ gridElems L, int3 h (fun x y z => divQ3 L h v e x y z * divQ3 L h u e x y z) := by
  rw [bform_cells]
  refine Finset.sum_congr rfl fun e _ => ?_
  rw [← gram3 h hh (fun p => v (wrap L (getElement3 e p.1)) p.2) (fun p => u (wrap L (getElement3 e p.1)) p.2)]
  congr 1
  funext x y z
  simp only [divQ3, grad_field3, Fintype.sum_prod_type_right]

/-- C98 (identity, 2D): against every velocity `v` that vanishes on the walls, the strain operator is the Laplacian
operator plus the operator of the divergences, for every velocity `u`. -/
theorem C98_identity2 (L : Fin 2 → Dir) (hL : ∀ i, (L i).WF) (h : Pos 2 ℝ) (hh : ∀ c, 0 < h c) (v u : NodeVec 2 2 ℝ)
    (hv : VanishesOnWalls L v) :
    dot L v (strain2 L h u) = dot L v (laplacian2 L h u) +
      ∑ e ∈ gridElems L, int2 h (fun x y => divQ2 L h v e x y * divQ2 L h u e x y) := by
  rw [← bform_div2 L h hh]
  refine (strain_split L hL getElement2 isQ1_2 bit2 h _ _ (strain2_tensor h hh) (lap2_tensor h hh) v u).trans ?_
  refine congrArg₂ (· + ·) rfl ?_
  refine Finset.sum_congr rfl fun a _ => Finset.sum_congr rfl fun b _ => ?_
  exact bform_swap L getElement2 bit2 h bit2_bij elem2_bit (wrap_q1_mem L getElement2 isQ1_2) b a _ _
    fun g hg f hf => hv g hg f hf a

/-- C98 (identity, 3D). -/
theorem C98_identity3 (L : Fin 3 → Dir) (hL : ∀ i, (L i).WF) (h : Pos 3 ℝ) (hh : ∀ c, 0 < h c) (v u : NodeVec 3 3 ℝ)
    (hv : VanishesOnWalls L v) :
    dot L v (strain3 L h u) = dot L v (laplacian3 L h u) +
      ∑ e ∈ gridElems L, int3 h (fun x y z => divQ3 L h v e x y z * divQ3 L h u e x y z) := by
  rw [← bform_div3 L h hh]
  refine (strain_split L hL getElement3 isQ1_3 bit3 h _ _ (strain3_tensor h hh) (lap3_tensor h hh) v u).trans ?_
  refine congrArg₂ (· + ·) rfl ?_
  refine Finset.sum_congr rfl fun a _ => Finset.sum_congr rfl fun b _ => ?_
  exact bform_swap L getElement3 bit3 h bit3_bij elem3_bit (wrap_q1_mem L getElement3 isQ1_3) b a _ _
    fun g hg f hf => hv g hg f hf a

/-- C98 (bounds, 2D): on the velocities that vanish on the walls the strain operator is between once and twice the
Laplacian operator; the upper bound holds for all the velocities. -/
theorem C98_bounds2 (L : Fin 2 → Dir) (hL : ∀ i, (L i).WF) (h : Pos 2 ℝ) (hh : ∀ c, 0 < h c) (u : NodeVec 2 2 ℝ) :
    (VanishesOnWalls L u → dot L u (laplacian2 L h u) ≤ dot L u (strain2 L h u)) ∧
      dot L u (strain2 L h u) ≤ 2 * dot L u (laplacian2 L h u) := by
  constructor
  · intro hu
    rw [C98_identity2 L hL h hh u u hu]
    exact le_add_of_nonneg_right (Finset.sum_nonneg fun e _ => int2_nonneg h hh _ fun s t => mul_self_nonneg _)
  · have e1 := strain_split L hL getElement2 isQ1_2 bit2 h _ _ (strain2_tensor h hh) (lap2_tensor h hh) u u
    have e2 := exchanged_le L getElement2 bit2 h (gram_psd2 h hh) u
    rw [← lap_bform L hL getElement2 isQ1_2 bit2 h _ (lap2_tensor h hh) u u] at e2
    unfold strain2 laplacian2
    linarith

/-- C98 (bounds, 3D). -/
theorem C98_bounds3 (L : Fin 3 → Dir) (hL : ∀ i, (L i).WF) (h : Pos 3 ℝ) (hh : ∀ c, 0 < h c) (u : NodeVec 3 3 ℝ) :
    (VanishesOnWalls L u → dot L u (laplacian3 L h u) ≤ dot L u (strain3 L h u)) ∧
      dot L u (strain3 L h u) ≤ 2 * dot L u (laplacian3 L h u) := by
  constructor
  · intro hu
    rw [C98_identity3 L hL h hh u u hu]
    exact le_add_of_nonneg_right (Finset.sum_nonneg fun e _ => int3_nonneg h hh _ fun s t r => mul_self_nonneg _)
  · have e1 := strain_split L hL getElement3 isQ1_3 bit3 h _ _ (strain3_tensor h hh) (lap3_tensor h hh) u u
    have e2 := exchanged_le L getElement3 bit3 h (gram_psd3 h hh) u
    rw [← lap_bform L hL getElement3 isQ1_3 bit3 h _ (lap3_tensor h hh) u u] at e2
    unfold strain3 laplacian3
    linarith

/-- All the components of the velocity are imposed on all the walls. -/
def AllHeld {d : ℕ} {C : Type*} (L : Fin d → Dir) (bc : ℕ → Fin d → Option C) : Prop :=
  ∀ g ∈ gridNodes L, ∀ f, OnFace L g f → ∀ c, (bc f c).isSome

/-- A generalised eigenvector of the constrained operators: eigenvalue 1, or it vanishes at the constrained dofs and
the quadratic forms are in the ratio of the eigenvalue. -/
theorem eigen_cases {d : ℕ} (L : Fin d → Dir) (hL : ∀ i, (L i).WF) (rs : List (Fin d → ℕ)) (hrs : AllProcs L rs)
    (bc : BC d ℝ) (A B : (Fin d → ℕ) → NodeVec d d ℝ → NodeVec d d ℝ → NodeVec d d ℝ) (u : NodeVec d d ℝ) (lam : ℝ)
    (heq : ∀ g ∈ gridNodes L, ∀ c, blockMatrixBC L rs bc A u g c = lam * blockMatrixBC L rs bc B u g c) :
    lam = 1 ∨ ((∀ g ∈ gridNodes L, ∀ c, Constrained L bc g c → u g c = 0) ∧
      dot L u (blockMatrix L A u) = lam * dot L u (blockMatrix L B u)) := by
  by_cases h1 : lam = 1
  · exact Or.inl h1
  right
  have hz : ∀ g ∈ gridNodes L, ∀ c, Constrained L bc g c → u g c = 0 := by
    intro g hg c hc
    have := heq g hg c
    unfold blockMatrixBC at this
    rw [C25_vec L hL rs hrs, C25_vec L hL rs hrs, if_pos ⟨hg, hc⟩, if_pos ⟨hg, hc⟩] at this
    by_contra hne
    exact h1 (mul_right_cancel₀ hne (by linarith))
  refine ⟨hz, ?_⟩
  unfold dot
  rw [Finset.mul_sum]
  refine Finset.sum_congr rfl fun g hg => ?_
  rw [Finset.mul_sum]
  refine Finset.sum_congr rfl fun c _ => ?_
  by_cases hc : Constrained L bc g c
  · rw [hz g hg c hc]; ring
  · have := heq g hg c
    unfold blockMatrixBC at this
    rw [C25_vec L hL rs hrs, C25_vec L hL rs hrs, if_neg fun hh => hc hh.2, if_neg fun hh => hc hh.2] at this
    rw [this]; ring

theorem vanishes_of_held {d : ℕ} (L : Fin d → Dir) (bc : BC d ℝ) (hb : AllHeld L bc) (u : NodeVec d d ℝ)
    (hz : ∀ g ∈ gridNodes L, ∀ c, Constrained L bc g c → u g c = 0) : VanishesOnWalls L u :=
  fun g hg f hf c => hz g hg c ⟨f, hf, hb g hg f hf c⟩

/-- C98 (eigenvalues, 2D): with the velocity imposed on all the walls, of which there is at least one, every eigenvalue
of the strain operator preconditioned by the Laplacian operator (both with the rows of the boundary conditions) is in
[1, 2], whatever the sizes, steps and decomposition of the mesh. -/
theorem C98_eigenvalues2 (L : Fin 2 → Dir) (hL : ∀ i, (L i).WF) (hne : ∀ i, 1 ≤ (L i).nElem) (h : Pos 2 ℝ)
    (hh : ∀ c, 0 < h c) (rs : List (Fin 2 → ℕ)) (hrs : AllProcs L rs) (bc : BC 2 ℝ) (hb : AllHeld L bc)
    (hw : ∃ i, (L i).periodic = false) (u : NodeVec 2 2 ℝ) (hu : ∃ g ∈ gridNodes L, ∃ c, u g c ≠ 0) (lam : ℝ)
    (heq : ∀ g ∈ gridNodes L, ∀ c,
      blockMatrixBC L rs bc (tensorBlockMult L getElement2 (matElemStrain2 h)) u g c =
      lam * blockMatrixBC L rs bc (diagBlockMult L getElement2 (matElemLaplacian2 h)) u g c) :
    1 ≤ lam ∧ lam ≤ 2 := by
  rcases eigen_cases L hL rs hrs bc _ _ u lam heq with h1 | ⟨hz, hd⟩
  · rw [h1]; norm_num
  have hv := vanishes_of_held L bc hb u hz
  obtain ⟨b1, b2⟩ := C98_bounds2 L hL h hh u
  have b1 := b1 hv
  have hd' : dot L u (strain2 L h u) = lam * dot L u (laplacian2 L h u) := hd
  have hpos : 0 < dot L u (laplacian2 L h u) := by
    refine lt_of_le_of_ne ((C15_psd2 L hL h hh).1 u) fun h0 => ?_
    obtain ⟨g, hg, c, hne0⟩ := hu
    obtain ⟨i, hi⟩ := hw
    exact hne0 (lap2_definite L hL hne h hh u h0.symm c (2 * i.1) (fun _ => 0) ⟨i, hi, Or.inl ⟨rfl, rfl⟩⟩
      (fun g hg hf => hv g hg _ hf c) g hg)
  rw [hd'] at b1 b2
  exact ⟨le_of_mul_le_mul_right (by linarith) hpos, le_of_mul_le_mul_right b2 hpos⟩

/-- C98 (eigenvalues, 3D). -/
theorem C98_eigenvalues3 (L : Fin 3 → Dir) (hL : ∀ i, (L i).WF) (hne : ∀ i, 1 ≤ (L i).nElem) (h : Pos 3 ℝ)
    (hh : ∀ c, 0 < h c) (rs : List (Fin 3 → ℕ)) (hrs : AllProcs L rs) (bc : BC 3 ℝ) (hb : AllHeld L bc)
    (hw : ∃ i, (L i).periodic = false) (u : NodeVec 3 3 ℝ) (hu : ∃ g ∈ gridNodes L, ∃ c, u g c ≠ 0) (lam : ℝ)
    (heq : ∀ g ∈ gridNodes L, ∀ c,
      blockMatrixBC L rs bc (tensorBlockMult L getElement3 (matElemStrain3 h)) u g c =
      lam * blockMatrixBC L rs bc (diagBlockMult L getElement3 (matElemLaplacian3 h)) u g c) :
    1 ≤ lam ∧ lam ≤ 2 := by
  rcases eigen_cases L hL rs hrs bc _ _ u lam heq with h1 | ⟨hz, hd⟩
  · rw [h1]; norm_num
  have hv := vanishes_of_held L bc hb u hz
  obtain ⟨b1, b2⟩ := C98_bounds3 L hL h hh u
  have b1 := b1 hv
  have hd' : dot L u (strain3 L h u) = lam * dot L u (laplacian3 L h u) := hd
  have hpos : 0 < dot L u (laplacian3 L h u) := by
    refine lt_of_le_of_ne ((C15_psd3 L hL h hh).1 u) fun h0 => ?_
    obtain ⟨g, hg, c, hne0⟩ := hu
    obtain ⟨i, hi⟩ := hw
    exact hne0 (lap3_definite L hL hne h hh u h0.symm c (2 * i.1) (fun _ => 0) ⟨i, hi, Or.inl ⟨rfl, rfl⟩⟩
      (fun g hg hf => hv g hg _ hf c) g hg)
  rw [hd'] at b1 b2
  exact ⟨le_of_mul_le_mul_right (by linarith) hpos, le_of_mul_le_mul_right b2 hpos⟩

end Cafes.Props
