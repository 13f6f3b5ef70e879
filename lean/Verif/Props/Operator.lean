/-
Property theorems for the matrix-free operators on arbitrary meshes and process grids: C15, C16, C17,
C24 and the single-field part of C21.
-/
import Verif.Lemmas.OperatorForm
import Verif.Props.Energy

namespace Cafes.Props
open Cafes
variable {d n N : ℕ}

/-! ### Generic facts -/

section generic
variable {K : Type*} [CommRing K] (L : Fin d → Dir) (hL : ∀ i, (L i).WF)
  (elem : Pos d ℤ → Fin N → Pos d ℤ) (hel : IsQ1 elem)
include hL hel

theorem dot_diagBlock_symm (M : Fin N → Fin N → K) (hM : ∀ i j, M i j = M j i)
    (z x : NodeVec d n K) :
    dot L z (blockMatrix L (diagBlockMult L elem M) x)
      = dot L x (blockMatrix L (diagBlockMult L elem M) z) := by
  rw [dot_diagBlock L hL elem hel, dot_diagBlock L hL elem hel]
  refine Finset.sum_congr rfl fun e _ => ?_
  simp only [Finset.mul_sum]
  rw [Finset.sum_comm, Finset.sum_congr rfl fun c _ => Finset.sum_comm, Finset.sum_comm]
  refine Finset.sum_congr rfl fun i _ => Finset.sum_congr rfl fun c _ =>
    Finset.sum_congr rfl fun j _ => ?_
  rw [hM j i]; ring

theorem dot_tensorBlock_symm (M : Fin N → Fin N → Fin n → Fin n → K)
    (hM : ∀ i j a b, M i j a b = M j i b a) (z x : NodeVec d n K) :
    dot L z (blockMatrix L (tensorBlockMult L elem M) x)
      = dot L x (blockMatrix L (tensorBlockMult L elem M) z) := by
  rw [dot_tensorBlock L hL elem hel, dot_tensorBlock L hL elem hel]
  refine Finset.sum_congr rfl fun e _ => ?_
  have key : ∀ x z : NodeVec d n K, (∑ k1, ∑ c, z (wrap L (elem e k1)) c *
        ∑ k2, ∑ c2, x (wrap L (elem e k2)) c2 * M k1 k2 c c2) =
      ∑ p : Fin N × Fin n, ∑ q : Fin N × Fin n, z (wrap L (elem e p.1)) p.2 *
        (x (wrap L (elem e q.1)) q.2 * M p.1 q.1 p.2 q.2) := by
    intro x z
    simp only [Fintype.sum_prod_type, Finset.mul_sum]
  rw [key, key, Finset.sum_comm]
  refine Finset.sum_congr rfl fun p _ => Finset.sum_congr rfl fun q _ => ?_
  rw [hM q.1 p.1]; ring

theorem sum_diagBlock (M : Fin N → Fin N → K) (x : NodeVec d n K) (c : Fin n) :
    ∑ g ∈ gridNodes L, blockMatrix L (diagBlockMult L elem M) x g c =
      ∑ e ∈ gridElems L, ∑ k1, ∑ k2, x (wrap L (elem e k2)) c * M k1 k2 := by
  have h := dot_diagBlock L hL elem hel M (fun _ c' => if c' = c then 1 else 0) x
  unfold dot at h
  simpa using h

end generic

theorem dot_diagBlock_eq (L : Fin d → Dir) (hL : ∀ i, (L i).WF)
    (elem : Pos d ℤ → Fin N → Pos d ℤ) (hel : IsQ1 elem) (M : Fin N → Fin N → ℝ)
    (x : NodeVec d n ℝ) :
    dot L x (blockMatrix L (diagBlockMult L elem M) x) = ∑ e ∈ gridElems L, ∑ c,
      ∑ k1, ∑ k2, x (wrap L (elem e k1)) c * x (wrap L (elem e k2)) c * M k1 k2 := by
  rw [dot_diagBlock L hL elem hel]
  refine Finset.sum_congr rfl fun e _ => ?_
  rw [Finset.sum_comm]
  simp only [Finset.mul_sum, mul_assoc]

theorem dot_tensorBlock_eq (L : Fin d → Dir) (hL : ∀ i, (L i).WF)
    (elem : Pos d ℤ → Fin N → Pos d ℤ) (hel : IsQ1 elem) (M : Fin N → Fin N → Fin n → Fin n → ℝ)
    (x : NodeVec d n ℝ) :
    dot L x (blockMatrix L (tensorBlockMult L elem M) x) = ∑ e ∈ gridElems L,
      ∑ p : Fin N × Fin n, ∑ q : Fin N × Fin n,
        x (wrap L (elem e p.1)) p.2 * x (wrap L (elem e q.1)) q.2 * M p.1 q.1 p.2 q.2 := by
  rw [dot_tensorBlock L hL elem hel]
  refine Finset.sum_congr rfl fun e _ => ?_
  simp only [Fintype.sum_prod_type, Finset.mul_sum, mul_assoc]

/-- Every node of a grid with at least one element per direction is a corner of an element. -/
theorem exists_corner (L : Fin d → Dir) (hne : ∀ i, 1 ≤ (L i).nElem) (g : Pos d ℤ)
    (hg : g ∈ gridNodes L) : ∃ e ∈ gridElems L, ∀ i, g i = e i ∨ g i = e i + 1 := by
  refine ⟨fun i => if g i < (L i).nElem then g i else g i - 1, ?_, ?_⟩
  · rw [mem_gridElems]
    intro i
    have h1 := (mem_gridNodes L g).1 hg i
    have h2 := hne i
    split_ifs with h
    · exact ⟨h1.1, h⟩
    · unfold Dir.nElem at h h2 ⊢
      split_ifs at h h2 ⊢ <;> omega
  · intro i
    dsimp only
    split_ifs <;> omega

theorem wrap_grid (L : Fin d → Dir) (g : Pos d ℤ) (hg : g ∈ gridNodes L) : wrap L g = g := by
  funext i
  have := (mem_gridNodes L g).1 hg i
  unfold wrap
  split_ifs
  · exact Int.emod_eq_of_lt this.1 this.2
  · rfl

/-! ### C15: symmetry and positivity -/

/-- C15 (2D): the matrix-free Laplacian, mass and strain operators are symmetric for the Euclidean
product of nodal vectors, on every mesh (any periodicity) and every process grid. -/
theorem C15_symmetric2 (L : Fin 2 → Dir) (hL : ∀ i, (L i).WF) (h : Pos 2 ℝ) (hh : ∀ c, 0 < h c) :
    (∀ z x : NodeVec 2 n ℝ, dot L z (laplacian2 L h x) = dot L x (laplacian2 L h z)) ∧
    (∀ z x : NodeVec 2 n ℝ, dot L z (mass2 L h x) = dot L x (mass2 L h z)) ∧
    (∀ z x : NodeVec 2 2 ℝ, dot L z (strain2 L h x) = dot L x (strain2 L h z)) :=
  ⟨dot_diagBlock_symm L hL _ isQ1_2 _ fun i j => (C14_symmetric2 h hh i j).1,
   dot_diagBlock_symm L hL _ isQ1_2 _ fun i j => (C14_symmetric2 h hh i j).2.1,
   dot_tensorBlock_symm L hL _ isQ1_2 _ fun i j a b => (C14_symmetric2 h hh i j).2.2 a b⟩

/-- C15 (3D): symmetry. -/
theorem C15_symmetric3 (L : Fin 3 → Dir) (hL : ∀ i, (L i).WF) (h : Pos 3 ℝ) (hh : ∀ c, 0 < h c) :
    (∀ z x : NodeVec 3 n ℝ, dot L z (laplacian3 L h x) = dot L x (laplacian3 L h z)) ∧
    (∀ z x : NodeVec 3 n ℝ, dot L z (mass3 L h x) = dot L x (mass3 L h z)) ∧
    (∀ z x : NodeVec 3 3 ℝ, dot L z (strain3 L h x) = dot L x (strain3 L h z)) :=
  ⟨dot_diagBlock_symm L hL _ isQ1_3 _ fun i j => (C14_symmetric3 h hh i j).1,
   dot_diagBlock_symm L hL _ isQ1_3 _ fun i j => (C14_symmetric3 h hh i j).2.1,
   dot_tensorBlock_symm L hL _ isQ1_3 _ fun i j a b => (C14_symmetric3 h hh i j).2.2 a b⟩

/-- C15 (2D): the diffusion operators are positive semi-definite. -/
theorem C15_psd2 (L : Fin 2 → Dir) (hL : ∀ i, (L i).WF) (h : Pos 2 ℝ) (hh : ∀ c, 0 < h c) :
    (∀ x : NodeVec 2 n ℝ, 0 ≤ dot L x (laplacian2 L h x)) ∧
    (∀ x : NodeVec 2 2 ℝ, 0 ≤ dot L x (strain2 L h x)) := by
  refine ⟨fun x => ?_, fun x => ?_⟩
  · unfold laplacian2
    rw [dot_diagBlock_eq L hL _ isQ1_2]
    exact Finset.sum_nonneg fun e _ => Finset.sum_nonneg fun c _ =>
      (C14_psd2 h hh).1 fun k => x (wrap L (getElement2 e k)) c
  · unfold strain2
    rw [dot_tensorBlock_eq L hL _ isQ1_2]
    exact Finset.sum_nonneg fun e _ =>
      (C14_psd2 h hh).2 fun p => x (wrap L (getElement2 e p.1)) p.2

/-- C15 (3D): the diffusion operators are positive semi-definite. -/
theorem C15_psd3 (L : Fin 3 → Dir) (hL : ∀ i, (L i).WF) (h : Pos 3 ℝ) (hh : ∀ c, 0 < h c) :
    (∀ x : NodeVec 3 n ℝ, 0 ≤ dot L x (laplacian3 L h x)) ∧
    (∀ x : NodeVec 3 3 ℝ, 0 ≤ dot L x (strain3 L h x)) := by
  refine ⟨fun x => ?_, fun x => ?_⟩
  · unfold laplacian3
    rw [dot_diagBlock_eq L hL _ isQ1_3]
    exact Finset.sum_nonneg fun e _ => Finset.sum_nonneg fun c _ =>
      (C14_psd3 h hh).1 fun k => x (wrap L (getElement3 e k)) c
  · unfold strain3
    rw [dot_tensorBlock_eq L hL _ isQ1_3]
    exact Finset.sum_nonneg fun e _ =>
      (C14_psd3 h hh).2 fun p => x (wrap L (getElement3 e p.1)) p.2

theorem mass_posdef (L : Fin d → Dir) (hL : ∀ i, (L i).WF)
    (elem : Pos d ℤ → Fin N → Pos d ℤ) (hel : IsQ1 elem) (M : Fin N → Fin N → ℝ)
    (hc : ∀ e g : Pos d ℤ, (∀ i, g i = e i ∨ g i = e i + 1) → ∃ k, elem e k = g)
    (hne : ∀ i, 1 ≤ (L i).nElem) (κ : ℝ) (hκ : 0 < κ)
    (hM : ∀ x : Fin N → ℝ, κ * ∑ i, x i ^ 2 ≤ ∑ i, ∑ j, x i * x j * M i j) (x : NodeVec d n ℝ) :
    κ * dot L x x ≤ dot L x (blockMatrix L (diagBlockMult L elem M) x) := by
  rw [dot_diagBlock_eq L hL _ hel]
  have h1 : κ * (∑ e ∈ gridElems L, ∑ c, ∑ k, x (wrap L (elem e k)) c ^ 2) ≤
      ∑ e ∈ gridElems L, ∑ c, ∑ k1, ∑ k2,
        x (wrap L (elem e k1)) c * x (wrap L (elem e k2)) c * M k1 k2 := by
    rw [Finset.mul_sum]
    refine Finset.sum_le_sum fun e _ => ?_
    rw [Finset.mul_sum]
    exact Finset.sum_le_sum fun c _ => hM fun k => x (wrap L (elem e k)) c
  refine le_trans (mul_le_mul_of_nonneg_left ?_ hκ.le) h1
  -- each node is counted at least once
  have h2 : ∑ e ∈ gridElems L, ∑ c, ∑ k, x (wrap L (elem e k)) c ^ 2 =
      ∑ g ∈ gridNodes L, ∑ e ∈ gridElems L, ∑ k, if wrap L (elem e k) = g then
        ∑ c, x g c ^ 2 else 0 := by
    conv_rhs => rw [Finset.sum_comm]
    refine Finset.sum_congr rfl fun e he => ?_
    rw [Finset.sum_comm]
    conv_rhs => rw [Finset.sum_comm]
    refine Finset.sum_congr rfl fun k _ => ?_
    rw [Finset.sum_ite_eq]
    simp [wrap_q1_mem L elem hel e he k]
  rw [h2]
  unfold dot
  refine Finset.sum_le_sum fun g hg => ?_
  obtain ⟨e, he, hge⟩ := exists_corner L hne g hg
  obtain ⟨k, hk⟩ := hc e g hge
  have hnn : 0 ≤ ∑ c, x g c ^ 2 := Finset.sum_nonneg fun c _ => sq_nonneg _
  have h3 : (if wrap L (elem e k) = g then ∑ c, x g c ^ 2 else 0) = ∑ c, x g c * x g c := by
    rw [hk, wrap_grid L g hg, if_pos rfl]; simp only [sq]
  rw [← h3]
  refine le_trans ?_ (Finset.single_le_sum (f := fun e => ∑ k, if wrap L (elem e k) = g then
        ∑ c, x g c ^ 2 else 0) (fun e _ => Finset.sum_nonneg fun k _ => ?_) he)
  · exact Finset.single_le_sum (f := fun k => if wrap L (elem e k) = g then
        ∑ c, x g c ^ 2 else 0) (fun k _ => by split_ifs <;> simp [hnn]) (Finset.mem_univ k)
  · split_ifs <;> simp [hnn]

/-- C15 (2D): the mass operator is positive definite (coercive), with an explicit constant that does
not depend on the grid size. -/
theorem C15_mass_posdef2 (L : Fin 2 → Dir) (hL : ∀ i, (L i).WF) (hne : ∀ i, 1 ≤ (L i).nElem)
    (h : Pos 2 ℝ) (hh : ∀ c, 0 < h c) (x : NodeVec 2 n ℝ) :
    h 0 * h 1 / 36 * dot L x x ≤ dot L x (mass2 L h x) :=
  mass_posdef L hL _ isQ1_2 _ (fun e g hg => ((C09_element2 e).2.2 g).2 hg) hne _
    (by have := hh 0; have := hh 1; positivity) (fun x => (C14_mass_posdef2 h hh x).2) x

/-- C15 (3D): the mass operator is positive definite. -/
theorem C15_mass_posdef3 (L : Fin 3 → Dir) (hL : ∀ i, (L i).WF) (hne : ∀ i, 1 ≤ (L i).nElem)
    (h : Pos 3 ℝ) (hh : ∀ c, 0 < h c) (x : NodeVec 3 n ℝ) :
    h 0 * h 1 * h 2 / 216 * dot L x x ≤ dot L x (mass3 L h x) :=
  mass_posdef L hL _ isQ1_3 _ (fun e g hg => ((C09_element3 e).2.2 g).2 hg) hne _
    (by have := hh 0; have := hh 1; have := hh 2; positivity)
    (fun x => (C14_mass_posdef3 h hh x).2) x

example : (∀ i, ((![exDir, exDirP] : Fin 2 → Dir) i).WF) ∧
    ∀ i, 1 ≤ ((![exDir, exDirP] : Fin 2 → Dir) i).nElem := by
  constructor <;> intro i <;> fin_cases i
  · exact exDir_wf
  · exact exDirP_wf
  · decide
  · decide

/-! ### C16: constants and rigid motions -/

/-- C16 (2D): the Laplacian of a constant field is zero at every node, and the strain operator
annihilates translations, on every mesh; on meshes that are not periodic the strain operator
annihilates every rigid motion `t + w k x X`. -/
theorem C16_kernel2 (L : Fin 2 → Dir) (hL : ∀ i, (L i).WF) (h : Pos 2 ℝ) (hh : ∀ c, 0 < h c) :
    (∀ (t : Fin n → ℝ) g c, laplacian2 L h (fun _ => t) g c = 0) ∧
    (∀ (t : Fin 2 → ℝ) g c, strain2 L h (fun _ => t) g c = 0) ∧
    ((∀ i, (L i).periodic = false) → ∀ (t : Fin 2 → ℝ) (w : ℝ) g c,
      strain2 L h (fun p b => t b +
        w * (![-((p 1 : ℝ) * h 1), (p 0 : ℝ) * h 0] : Pos 2 ℝ) b) g c = 0) := by
  refine ⟨fun t g c => ?_, fun t g c => ?_, fun hp t w g c => ?_⟩
  · unfold laplacian2
    rw [diagBlock_global L hL _ isQ1_2]
    refine Finset.sum_eq_zero fun e _ => Finset.sum_eq_zero fun k _ => ?_
    split_ifs
    · rw [← (C14_kernel2 h hh).1 k (t c)]
      exact Finset.sum_congr rfl fun j _ => mul_comm _ _
    · rfl
  · unfold strain2
    rw [tensorBlock_global L hL _ isQ1_2]
    refine Finset.sum_eq_zero fun e _ => Finset.sum_eq_zero fun k _ => ?_
    split_ifs
    · have := (C14_kernel2 h hh).2 e t 0 k c
      simp only [zero_mul, add_zero] at this
      rw [← this]
      exact Finset.sum_congr rfl fun j _ => Finset.sum_congr rfl fun b _ => mul_comm _ _
    · rfl
  · unfold strain2
    rw [tensorBlock_global L hL _ isQ1_2]
    have hw : ∀ p, wrap L p = p := fun p => by funext i; simp [wrap, hp i]
    refine Finset.sum_eq_zero fun e _ => Finset.sum_eq_zero fun k _ => ?_
    split_ifs
    · rw [← (C14_kernel2 h hh).2 e t w k c]
      refine Finset.sum_congr rfl fun j _ => Finset.sum_congr rfl fun b _ => ?_
      rw [hw, mul_comm]
    · rfl

/-- C16 (3D): constants, translations, rigid motions `t + w x X`. -/
theorem C16_kernel3 (L : Fin 3 → Dir) (hL : ∀ i, (L i).WF) (h : Pos 3 ℝ) (hh : ∀ c, 0 < h c) :
    (∀ (t : Fin n → ℝ) g c, laplacian3 L h (fun _ => t) g c = 0) ∧
    (∀ (t : Fin 3 → ℝ) g c, strain3 L h (fun _ => t) g c = 0) ∧
    ((∀ i, (L i).periodic = false) → ∀ (t w : Pos 3 ℝ) g c,
      strain3 L h (fun p b => t b +
        (![w 1 * ((p 2 : ℝ) * h 2) - w 2 * ((p 1 : ℝ) * h 1),
           w 2 * ((p 0 : ℝ) * h 0) - w 0 * ((p 2 : ℝ) * h 2),
           w 0 * ((p 1 : ℝ) * h 1) - w 1 * ((p 0 : ℝ) * h 0)] : Pos 3 ℝ) b) g c = 0) := by
  refine ⟨fun t g c => ?_, fun t g c => ?_, fun hp t w g c => ?_⟩
  · unfold laplacian3
    rw [diagBlock_global L hL _ isQ1_3]
    refine Finset.sum_eq_zero fun e _ => Finset.sum_eq_zero fun k _ => ?_
    split_ifs
    · rw [← (C14_kernel3 h hh).1 k (t c)]
      exact Finset.sum_congr rfl fun j _ => mul_comm _ _
    · rfl
  · unfold strain3
    rw [tensorBlock_global L hL _ isQ1_3]
    refine Finset.sum_eq_zero fun e _ => Finset.sum_eq_zero fun k _ => ?_
    split_ifs
    · have := (C14_kernel3 h hh).2 e t 0 k c
      rw [← this]
      refine Finset.sum_congr rfl fun j _ => Finset.sum_congr rfl fun b _ => ?_
      fin_cases b <;> simp [mul_comm]
    · rfl
  · unfold strain3
    rw [tensorBlock_global L hL _ isQ1_3]
    have hw : ∀ p, wrap L p = p := fun p => by funext i; simp [wrap, hp i]
    refine Finset.sum_eq_zero fun e _ => Finset.sum_eq_zero fun k _ => ?_
    split_ifs
    · rw [← (C14_kernel3 h hh).2 e t w k c]
      refine Finset.sum_congr rfl fun j _ => Finset.sum_congr rfl fun b _ => ?_
      rw [hw, mul_comm]
    · rfl

/-! ### C17: measure of the domain -/

theorem card_gridElems (L : Fin d → Dir) (hne : ∀ i, 0 ≤ (L i).nElem) :
    ((gridElems L).card : ℤ) = ∏ i, (L i).nElem := by
  unfold gridElems
  rw [Fintype.card_piFinset]
  push_cast
  refine Finset.prod_congr rfl fun i _ => ?_
  have := hne i
  simp; omega

/-- C17 (2D): summing the entries of the mass operator applied to the constant 1 gives the area of
the mesh. -/
theorem C17_measure2 (L : Fin 2 → Dir) (hL : ∀ i, (L i).WF) (hne : ∀ i, 0 ≤ (L i).nElem)
    (h : Pos 2 ℝ) (c : Fin n) :
    ∑ g ∈ gridNodes L, mass2 L h (fun _ _ => (1 : ℝ)) g c
      = ((L 0).nElem * h 0) * ((L 1).nElem * h 1) := by
  unfold mass2
  rw [sum_diagBlock L hL _ isQ1_2]
  have hs : ∑ i, ∑ j, matElemMass2d i j = 1 := by decide +kernel
  have : ∑ k1, ∑ k2, 1 * matElemMass2 h k1 k2 = h 0 * h 1 := by
    unfold matElemMass2
    simp only [one_mul, ← Finset.mul_sum]
    have h2 := congrArg (fun q : ℚ => (q : ℝ)) hs
    push_cast at h2
    rw [h2, mul_one]
  rw [Finset.sum_congr rfl fun e _ => this, Finset.sum_const, nsmul_eq_mul]
  have hc := card_gridElems L hne
  have hc' : ((gridElems L).card : ℝ) = (L 0).nElem * (L 1).nElem := by
    have := congrArg (fun q : ℤ => (q : ℝ)) hc
    simpa [Fin.prod_univ_two] using this
  rw [hc']; ring

/-- C17 (3D): ... the volume of the mesh. -/
theorem C17_measure3 (L : Fin 3 → Dir) (hL : ∀ i, (L i).WF) (hne : ∀ i, 0 ≤ (L i).nElem)
    (h : Pos 3 ℝ) (c : Fin n) :
    ∑ g ∈ gridNodes L, mass3 L h (fun _ _ => (1 : ℝ)) g c
      = ((L 0).nElem * h 0) * ((L 1).nElem * h 1) * ((L 2).nElem * h 2) := by
  unfold mass3
  rw [sum_diagBlock L hL _ isQ1_3]
  have hs : ∑ i, ∑ j, matElemMass3d i j = 1 := by decide +kernel
  have : ∑ k1, ∑ k2, 1 * matElemMass3 h k1 k2 = h 0 * h 1 * h 2 := by
    unfold matElemMass3
    simp only [one_mul, ← Finset.mul_sum]
    have h2 := congrArg (fun q : ℚ => (q : ℝ)) hs
    push_cast at h2
    rw [h2, mul_one]
  rw [Finset.sum_congr rfl fun e _ => this, Finset.sum_const, nsmul_eq_mul]
  have hc := card_gridElems L hne
  have hc' : ((gridElems L).card : ℝ) = (L 0).nElem * (L 1).nElem * (L 2).nElem := by
    have := congrArg (fun q : ℤ => (q : ℝ)) hc
    simpa [Fin.prod_univ_three] using this
  rw [hc']; ring

/-! ### C24: the diagonal -/

theorem diag_eq {K : Type*} [CommRing K] (L : Fin d → Dir) (hL : ∀ i, (L i).WF)
    (elem : Pos d ℤ → Fin N → Pos d ℤ) (hel : IsQ1 elem) (hinj : ∀ e, Function.Injective (elem e))
    (hper : ∀ i, (L i).periodic = true → 2 ≤ (L i).m) (M : Fin N → Fin N → K)
    (g : Pos d ℤ) (c : Fin n) :
    diagMatrix L (diagDiagBlockMult L elem M) g c =
      blockMatrix L (diagBlockMult L elem M)
        (fun p b => if p = g ∧ b = c then 1 else 0) g c := by
  rw [diagDiag_global L hL elem hel, diagBlock_global L hL elem hel]
  refine Finset.sum_congr rfl fun e _ => Finset.sum_congr rfl fun k _ => ?_
  split_ifs with hk
  · rw [Finset.sum_eq_single k]
    · simp [hk]
    · intro j _ hj
      rw [if_neg, zero_mul]
      rintro ⟨hg, -⟩
      apply hj
      apply hinj e
      funext i
      have h1 := congrFun (hg.trans hk.symm) i
      have h2 := hel e j i
      have h3 := hel e k i
      unfold wrap at h1
      split_ifs at h1 with hp
      · have hm := hper i hp
        have h4 := Int.emod_emod_of_dvd (elem e j i - elem e k i) (dvd_refl (L i).m)
        have h5 : (elem e j i - elem e k i) % (L i).m = 0 := by
          rw [Int.sub_emod, h1, sub_self, Int.zero_emod]
        obtain ⟨q, hq⟩ := Int.dvd_of_emod_eq_zero h5
        have : elem e j i - elem e k i = 0 := by
          rcases h2 with h2 | h2 <;> rcases h3 with h3 | h3
          · omega
          · exfalso
            have h6 : (L i).m * q = -1 := by omega
            have h7 : (L i).m ∣ 1 := ⟨-q, by linarith⟩
            have := Int.le_of_dvd one_pos h7
            omega
          · exfalso
            have h6 : (L i).m * q = 1 := by omega
            have := Int.le_of_dvd one_pos ⟨q, h6.symm⟩
            omega
          · omega
        omega
      · exact h1
    · simp
  · rfl

/-- C24 (2D): the vector computed by the diagonal shell operation has, at every node and component,
the diagonal entry of the matrix-free operator (its value on the unit vector of that dof), for the
Laplacian and the mass operators; two points at least are required in periodic directions. -/
theorem C24_diagonal2 (L : Fin 2 → Dir) (hL : ∀ i, (L i).WF)
    (hper : ∀ i, (L i).periodic = true → 2 ≤ (L i).m) (h : Pos 2 ℝ) (g : Pos 2 ℤ) (c : Fin n) :
    diagLaplacian2 L h g c = laplacian2 L h (fun p b => if p = g ∧ b = c then 1 else 0) g c ∧
    diagMass2 L h g c = mass2 L h (fun p b => if p = g ∧ b = c then 1 else 0) g c :=
  ⟨diag_eq L hL _ isQ1_2 (fun e => (C09_element2 e).2.1) hper _ g c,
   diag_eq L hL _ isQ1_2 (fun e => (C09_element2 e).2.1) hper _ g c⟩

/-- C24 (3D). -/
theorem C24_diagonal3 (L : Fin 3 → Dir) (hL : ∀ i, (L i).WF)
    (hper : ∀ i, (L i).periodic = true → 2 ≤ (L i).m) (h : Pos 3 ℝ) (g : Pos 3 ℤ) (c : Fin n) :
    diagLaplacian3 L h g c = laplacian3 L h (fun p b => if p = g ∧ b = c then 1 else 0) g c ∧
    diagMass3 L h g c = mass3 L h (fun p b => if p = g ∧ b = c then 1 else 0) g c :=
  ⟨diag_eq L hL _ isQ1_3 (fun e => (C09_element3 e).2.1) hper _ g c,
   diag_eq L hL _ isQ1_3 (fun e => (C09_element3 e).2.1) hper _ g c⟩

/-! ### C21: independence of the domain decomposition -/

theorem sameGrid_elems {L L' : Fin d → Dir} (hs : SameGrid L L') : gridElems L = gridElems L' := by
  unfold gridElems
  congr 1; funext i
  unfold Dir.nElem
  rw [(hs i).1, (hs i).2]

theorem sameGrid_wrap {L L' : Fin d → Dir} (hs : SameGrid L L') : wrap L = wrap L' := by
  funext p i
  unfold wrap
  rw [(hs i).1, (hs i).2]

/-- C21 (single field, 2D): two runs on the same grid with different process grids and ownership
ranges compute the same nodal vectors: Laplacian, mass, strain operator and both diagonals. -/
theorem C21_single2 (L L' : Fin 2 → Dir) (hL : ∀ i, (L i).WF) (hL' : ∀ i, (L' i).WF)
    (hs : SameGrid L L') (h : Pos 2 ℝ) :
    (∀ x : NodeVec 2 n ℝ, laplacian2 L h x = laplacian2 L' h x) ∧
    (∀ x : NodeVec 2 n ℝ, mass2 L h x = mass2 L' h x) ∧
    (∀ x : NodeVec 2 2 ℝ, strain2 L h x = strain2 L' h x) ∧
    (diagLaplacian2 L h : NodeVec 2 n ℝ) = diagLaplacian2 L' h ∧
    (diagMass2 L h : NodeVec 2 n ℝ) = diagMass2 L' h := by
  refine ⟨fun x => ?_, fun x => ?_, fun x => ?_, ?_, ?_⟩ <;> funext g c
  · unfold laplacian2
    rw [diagBlock_global L hL _ isQ1_2, diagBlock_global L' hL' _ isQ1_2, sameGrid_elems hs, sameGrid_wrap hs]
  · unfold mass2
    rw [diagBlock_global L hL _ isQ1_2, diagBlock_global L' hL' _ isQ1_2, sameGrid_elems hs, sameGrid_wrap hs]
  · unfold strain2
    rw [tensorBlock_global L hL _ isQ1_2, tensorBlock_global L' hL' _ isQ1_2, sameGrid_elems hs, sameGrid_wrap hs]
  · unfold diagLaplacian2
    rw [diagDiag_global L hL _ isQ1_2, diagDiag_global L' hL' _ isQ1_2, sameGrid_elems hs, sameGrid_wrap hs]
  · unfold diagMass2
    rw [diagDiag_global L hL _ isQ1_2, diagDiag_global L' hL' _ isQ1_2, sameGrid_elems hs, sameGrid_wrap hs]

/-- C21 (single field, 3D). -/
theorem C21_single3 (L L' : Fin 3 → Dir) (hL : ∀ i, (L i).WF) (hL' : ∀ i, (L' i).WF)
    (hs : SameGrid L L') (h : Pos 3 ℝ) :
    (∀ x : NodeVec 3 n ℝ, laplacian3 L h x = laplacian3 L' h x) ∧
    (∀ x : NodeVec 3 n ℝ, mass3 L h x = mass3 L' h x) ∧
    (∀ x : NodeVec 3 3 ℝ, strain3 L h x = strain3 L' h x) ∧
    (diagLaplacian3 L h : NodeVec 3 n ℝ) = diagLaplacian3 L' h ∧
    (diagMass3 L h : NodeVec 3 n ℝ) = diagMass3 L' h := by
  refine ⟨fun x => ?_, fun x => ?_, fun x => ?_, ?_, ?_⟩ <;> funext g c
  · unfold laplacian3
    rw [diagBlock_global L hL _ isQ1_3, diagBlock_global L' hL' _ isQ1_3, sameGrid_elems hs, sameGrid_wrap hs]
  · unfold mass3
    rw [diagBlock_global L hL _ isQ1_3, diagBlock_global L' hL' _ isQ1_3, sameGrid_elems hs, sameGrid_wrap hs]
  · unfold strain3
    rw [tensorBlock_global L hL _ isQ1_3, tensorBlock_global L' hL' _ isQ1_3, sameGrid_elems hs, sameGrid_wrap hs]
  · unfold diagLaplacian3
    rw [diagDiag_global L hL _ isQ1_3, diagDiag_global L' hL' _ isQ1_3, sameGrid_elems hs, sameGrid_wrap hs]
  · unfold diagMass3
    rw [diagDiag_global L hL _ isQ1_3, diagDiag_global L' hL' _ isQ1_3, sameGrid_elems hs, sameGrid_wrap hs]

/-- The one process layout is one of the layouts compared by C21. -/
theorem C21_one_process (L : Fin d → Dir) (hm : ∀ i, 0 < (L i).m) :
    (∀ i, Dir.WF ⟨(L i).m, (L i).periodic, [(L i).m]⟩) ∧
    SameGrid L (fun i => ⟨(L i).m, (L i).periodic, [(L i).m]⟩) :=
  ⟨fun i => ⟨by simp, by simpa using hm i⟩, fun _ => ⟨rfl, rfl⟩⟩

end Cafes.Props
