/-
Property theorems: C98, the diagonals used by the Jacobi preconditioners.
-/
import Verif.Props.Korn

namespace Cafes.Props
open Cafes Cafes.Spec

/-- Form of a diagonal matrix: sum over the nodes and the components of `D u²`. -/
noncomputable def diagForm {d n : ℕ} (L : Fin d → Dir) (D u : NodeVec d n ℝ) : ℝ :=
  ∑ g ∈ gridNodes L, ∑ c, D g c * u g c ^ 2

section generic
variable {d n N : ℕ} (L : Fin d → Dir) (hL : ∀ i, (L i).WF) (elem : Pos d ℤ → Fin N → Pos d ℤ) (hel : IsQ1 elem)
include hL hel

theorem diagForm_cells (M : Fin N → Fin N → ℝ) (u : NodeVec d n ℝ) :
    diagForm L (diagMatrix L (diagDiagBlockMult L elem M)) u = ∑ e ∈ gridElems L, ∑ c,
      ∑ k, u (wrap L (elem e k)) c ^ 2 * M k k := by
  have h := dot_scatter L L elem (wrap_q1_mem L elem hel) (fun _ k (_ : Fin n) => M k k)
    (fun g c => u g c ^ 2) _ (fun g _ c => diagDiag_global L hL elem hel M g c)
  rw [Finset.sum_congr rfl fun e _ => Finset.sum_comm] at h
  rw [← h]
  unfold diagForm dot
  exact Finset.sum_congr rfl fun g _ => Finset.sum_congr rfl fun c _ => mul_comm _ _

/-- Comparison of an operator with its diagonal from the comparison on a cell. -/
theorem diag_le (M : Fin N → Fin N → ℝ) (K : ℝ)
    (hM : ∀ x : Fin N → ℝ, ∑ i, ∑ j, x i * x j * M i j ≤ K * ∑ i, x i ^ 2 * M i i) (u : NodeVec d n ℝ) :
    dot L u (blockMatrix L (diagBlockMult L elem M) u) ≤
      K * diagForm L (diagMatrix L (diagDiagBlockMult L elem M)) u := by
  rw [diagForm_cells L hL elem hel, dot_diagBlock_eq L hL elem hel, Finset.mul_sum]
  refine Finset.sum_le_sum fun e _ => ?_
  rw [Finset.mul_sum]
  exact Finset.sum_le_sum fun c _ => hM _

theorem diag_ge (M : Fin N → Fin N → ℝ) (K : ℝ)
    (hM : ∀ x : Fin N → ℝ, K * ∑ i, x i ^ 2 * M i i ≤ ∑ i, ∑ j, x i * x j * M i j) (u : NodeVec d n ℝ) :
    K * diagForm L (diagMatrix L (diagDiagBlockMult L elem M)) u ≤
      dot L u (blockMatrix L (diagBlockMult L elem M) u) := by
  rw [diagForm_cells L hL elem hel, dot_diagBlock_eq L hL elem hel, Finset.mul_sum]
  refine Finset.sum_le_sum fun e _ => ?_
  rw [Finset.mul_sum]
  exact Finset.sum_le_sum fun c _ => hM _

end generic

/-- A positive symmetric matrix is at most its size times its diagonal. -/
theorem psd_le_diag {N : ℕ} (M : Fin N → Fin N → ℝ) (hs : ∀ i j, M i j = M j i)
    (hp : ∀ x : Fin N → ℝ, 0 ≤ ∑ i, ∑ j, x i * x j * M i j) (x : Fin N → ℝ) :
    ∑ i, ∑ j, x i * x j * M i j ≤ N * ∑ i, x i ^ 2 * M i i := by
  have key : ∀ i j, 2 * (x i * x j * M i j) ≤ x i ^ 2 * M i i + x j ^ 2 * M j j := by
    intro i j
    by_cases hij : i = j
    · subst hij; nlinarith
    have := hp (fun k => (if k = i then x i else 0) - (if k = j then x j else 0))
    simp only [sub_mul, mul_sub, Finset.sum_sub_distrib, ite_mul, mul_ite, zero_mul, mul_zero, Finset.sum_ite_eq',
      Finset.mem_univ, if_true, Finset.sum_ite_irrel, Finset.sum_const_zero] at this
    have h2 := hs i j
    rw [← h2] at this
    nlinarith
  have h1 : ∑ i, ∑ j, 2 * (x i * x j * M i j) ≤ ∑ i, ∑ j, (x i ^ 2 * M i i + x j ^ 2 * M j j) :=
    Finset.sum_le_sum fun i _ => Finset.sum_le_sum fun j _ => key i j
  simp only [Finset.sum_add_distrib, Finset.sum_const, Finset.card_univ, Fintype.card_fin, nsmul_eq_mul,
    ← Finset.mul_sum] at h1
  linarith

/-- A matrix with nonnegative entries whose rows have the sum `K` times the diagonal. -/
theorem rows_le_diag {N : ℕ} (M : Fin N → Fin N → ℝ) (hs : ∀ i j, M i j = M j i) (hn : ∀ i j, 0 ≤ M i j) (K : ℝ)
    (hr : ∀ i, ∑ j, M i j = K * M i i) (x : Fin N → ℝ) :
    ∑ i, ∑ j, x i * x j * M i j ≤ K * ∑ i, x i ^ 2 * M i i := by
  have key : ∀ i j, 2 * (x i * x j * M i j) ≤ x i ^ 2 * M i j + x j ^ 2 * M i j := by
    intro i j
    nlinarith [mul_nonneg (hn i j) (sq_nonneg (x i - x j))]
  have h1 : ∑ i, ∑ j, 2 * (x i * x j * M i j) ≤ ∑ i, ∑ j, (x i ^ 2 * M i j + x j ^ 2 * M i j) :=
    Finset.sum_le_sum fun i _ => Finset.sum_le_sum fun j _ => key i j
  have e1 : ∑ i, ∑ j, x i ^ 2 * M i j = K * ∑ i, x i ^ 2 * M i i := by
    simp only [← Finset.mul_sum, hr]
    rw [Finset.mul_sum]
    exact Finset.sum_congr rfl fun i _ => by ring
  have e2 : ∑ i, ∑ j, x j ^ 2 * M i j = K * ∑ i, x i ^ 2 * M i i := by
    rw [← e1]
    refine Finset.sum_comm.trans ?_
    exact Finset.sum_congr rfl fun i _ => Finset.sum_congr rfl fun j _ => by rw [hs]
  simp only [Finset.sum_add_distrib, ← Finset.mul_sum (s := Finset.univ) (a := (2:ℝ))] at h1
  rw [e1, e2] at h1
  linarith

/-- C98 (Jacobi, 2D): the forms of the Laplacian and of the strain operator are at most 4 and 8 times the form of the
diagonal given to the Jacobi preconditioner of the velocities. -/
theorem C98_jacobi2 (L : Fin 2 → Dir) (hL : ∀ i, (L i).WF) (h : Pos 2 ℝ) (hh : ∀ c, 0 < h c) (u : NodeVec 2 2 ℝ) :
    dot L u (laplacian2 L h u) ≤ 4 * diagForm L (diagLaplacian2 L h) u ∧
      dot L u (strain2 L h u) ≤ 8 * diagForm L (diagLaplacian2 L h) u := by
  have h1 : dot L u (laplacian2 L h u) ≤ 4 * diagForm L (diagLaplacian2 L h) u :=
    diag_le L hL getElement2 isQ1_2 _ _ (fun x => by
      have := psd_le_diag _ (fun i j => (C14_symmetric2 h hh i j).1) (C14_psd2 h hh).1 x
      exact_mod_cast this) u
  refine ⟨h1, ?_⟩
  have := (C98_bounds2 L hL h hh u).2
  linarith

/-- C98 (Jacobi, 3D): at most 8 and 16 times. -/
theorem C98_jacobi3 (L : Fin 3 → Dir) (hL : ∀ i, (L i).WF) (h : Pos 3 ℝ) (hh : ∀ c, 0 < h c) (u : NodeVec 3 3 ℝ) :
    dot L u (laplacian3 L h u) ≤ 8 * diagForm L (diagLaplacian3 L h) u ∧
      dot L u (strain3 L h u) ≤ 16 * diagForm L (diagLaplacian3 L h) u := by
  have h1 : dot L u (laplacian3 L h u) ≤ 8 * diagForm L (diagLaplacian3 L h) u :=
    diag_le L hL getElement3 isQ1_3 _ _ (fun x => by
      have := psd_le_diag _ (fun i j => (C14_symmetric3 h hh i j).1) (C14_psd3 h hh).1 x
      exact_mod_cast this) u
  refine ⟨h1, ?_⟩
  have := (C98_bounds3 L hL h hh u).2
  linarith

theorem mass_diag2 (h : Pos 2 ℝ) (i : Fin 4) : matElemMass2 h i i = h 0 * h 1 / 9 := by
  have : ∀ i, matElemMass2d i i = 1 / 9 := by decide +kernel
  unfold matElemMass2; rw [this]; push_cast; ring

theorem mass_diag3 (h : Pos 3 ℝ) (i : Fin 8) : matElemMass3 h i i = h 0 * h 1 * h 2 / 27 := by
  have : ∀ i, matElemMass3d i i = 1 / 27 := by decide +kernel
  unfold matElemMass3; rw [this]; push_cast; ring

theorem mass_row2 (h : Pos 2 ℝ) (i : Fin 4) : ∑ j, matElemMass2 h i j = 9 / 4 * matElemMass2 h i i := by
  have : ∀ i, ∑ j, matElemMass2d i j = 1 / 4 := by decide +kernel
  have h2 := congrArg (fun q : ℚ => (q : ℝ)) (this i)
  push_cast at h2
  rw [mass_diag2]
  unfold matElemMass2
  rw [← Finset.mul_sum, h2]; ring

theorem mass_row3 (h : Pos 3 ℝ) (i : Fin 8) : ∑ j, matElemMass3 h i j = 27 / 8 * matElemMass3 h i i := by
  have : ∀ i, ∑ j, matElemMass3d i j = 1 / 8 := by decide +kernel
  have h2 := congrArg (fun q : ℚ => (q : ℝ)) (this i)
  push_cast at h2
  rw [mass_diag3]
  unfold matElemMass3
  rw [← Finset.mul_sum, h2]; ring

theorem mass_nonneg2 (h : Pos 2 ℝ) (hh : ∀ c, 0 < h c) (i j : Fin 4) : 0 ≤ matElemMass2 h i j := by
  have : ∀ i j, 0 ≤ matElemMass2d i j := by decide +kernel
  have h2 : (0 : ℝ) ≤ (matElemMass2d i j : ℝ) := by exact_mod_cast this i j
  unfold matElemMass2
  exact mul_nonneg (mul_nonneg (hh 0).le (hh 1).le) h2

theorem mass_nonneg3 (h : Pos 3 ℝ) (hh : ∀ c, 0 < h c) (i j : Fin 8) : 0 ≤ matElemMass3 h i j := by
  have : ∀ i j, 0 ≤ matElemMass3d i j := by decide +kernel
  have h2 : (0 : ℝ) ≤ (matElemMass3d i j : ℝ) := by exact_mod_cast this i j
  unfold matElemMass3
  exact mul_nonneg (mul_nonneg (mul_nonneg (hh 0).le (hh 1).le) (hh 2).le) h2

/-- C98 (pressure, 2D): the mass operator is between 1/4 and 9/4 times the diagonal given to the Jacobi preconditioner
of the pressure. -/
theorem C98_mass2 {n : ℕ} (L : Fin 2 → Dir) (hL : ∀ i, (L i).WF) (h : Pos 2 ℝ) (hh : ∀ c, 0 < h c) (p : NodeVec 2 n ℝ) :
    1 / 4 * diagForm L (diagMass2 L h) p ≤ dot L p (mass2 L h p) ∧
      dot L p (mass2 L h p) ≤ 9 / 4 * diagForm L (diagMass2 L h) p := by
  constructor
  · refine diag_ge L hL getElement2 isQ1_2 _ _ (fun x => ?_) p
    refine le_trans (le_of_eq ?_) (C14_mass_posdef2 h hh x).2
    simp only [mass_diag2, ← Finset.sum_mul]; ring
  · exact diag_le L hL getElement2 isQ1_2 _ _ (rows_le_diag _ (fun i j => (C14_symmetric2 h hh i j).2.1)
      (mass_nonneg2 h hh) _ (mass_row2 h)) p

/-- C98 (pressure, 3D): between 1/8 and 27/8 times. -/
theorem C98_mass3 {n : ℕ} (L : Fin 3 → Dir) (hL : ∀ i, (L i).WF) (h : Pos 3 ℝ) (hh : ∀ c, 0 < h c) (p : NodeVec 3 n ℝ) :
    1 / 8 * diagForm L (diagMass3 L h) p ≤ dot L p (mass3 L h p) ∧
      dot L p (mass3 L h p) ≤ 27 / 8 * diagForm L (diagMass3 L h) p := by
  constructor
  · refine diag_ge L hL getElement3 isQ1_3 _ _ (fun x => ?_) p
    refine le_trans (le_of_eq ?_) (C14_mass_posdef3 h hh x).2
    simp only [mass_diag3, ← Finset.sum_mul]; ring
  · exact diag_le L hL getElement3 isQ1_3 _ _ (rows_le_diag _ (fun i j => (C14_symmetric3 h hh i j).2.1)
      (mass_nonneg3 h hh) _ (mass_row3 h)) p

/-- The diagonal of the tensor operator. -/
theorem tensor_diag {d N : ℕ} (L : Fin d → Dir) (hL : ∀ i, (L i).WF)
    (elem : Pos d ℤ → Fin N → Pos d ℤ) (hel : IsQ1 elem) (hinj : ∀ e, Function.Injective (elem e))
    (hper : ∀ i, (L i).periodic = true → 2 ≤ (L i).m) (M : Fin N → Fin N → Fin d → Fin d → ℝ)
    (g : Pos d ℤ) (c : Fin d) :
    blockMatrix L (tensorBlockMult L elem M) (fun p b => if p = g ∧ b = c then 1 else 0) g c =
      ∑ e ∈ gridElems L, ∑ k, if wrap L (elem e k) = g then M k k c c else 0 := by
  have h := diag_eq L hL elem hel hinj hper (fun k1 k2 => M k1 k2 c c) g c
  rw [diagDiag_global L hL elem hel, diagBlock_global L hL elem hel] at h
  rw [tensorBlock_global L hL elem hel, h]
  refine Finset.sum_congr rfl fun e _ => Finset.sum_congr rfl fun k _ => ?_
  split_ifs
  · refine Finset.sum_congr rfl fun k2 _ => ?_
    rw [Finset.sum_eq_single c]
    · intro b _ hb
      simp [hb]
    · simp
  · rfl

theorem jprod_pos {d : ℕ} (h : Pos d ℝ) (hh : ∀ c, 0 < h c) (p : Fin d) (o : Fin d → Fin 2) :
    0 < ∏ i, J (decide (p = i)) (decide (p = i)) (o i) (o i) (h i) := by
  refine Finset.prod_pos fun i _ => ?_
  have h1 := hh i
  by_cases hp : p = i <;> simp only [hp, decide_true, decide_false, J] <;>
    [(have : (0 : ℝ) < (k1 (o i) (o i) : ℝ) := by
        have : ∀ b, 0 < k1 b b := by decide +kernel
        exact_mod_cast this (o i)
      positivity);
     (have : (0 : ℝ) < (m1 (o i) (o i) : ℝ) := by
        have : ∀ b, 0 < m1 b b := by decide +kernel
        exact_mod_cast this (o i)
      positivity)]

/-- Diagonal entries of the element strain matrix. -/
theorem strain_entry {d N : ℕ} (h : Pos d ℝ) (hh : ∀ c, 0 < h c) (off : Fin N → Fin d → Fin 2)
    (M : Fin N → Fin N → Fin d → Fin d → ℝ) (K : Fin N → Fin N → ℝ)
    (hM : ∀ k1 k2 a b, M k1 k2 a b = ∑ p, ∑ q, strainCoef a b p q *
      ∏ i, J (decide (p = i)) (decide (q = i)) (off k1 i) (off k2 i) (h i))
    (hK : ∀ k1 k2, K k1 k2 = ∑ p, ∏ i, J (decide (p = i)) (decide (p = i)) (off k1 i) (off k2 i) (h i))
    (k : Fin N) (c : Fin d) : K k k < M k k c c ∧ M k k c c ≤ 2 * K k k := by
  have e : M k k c c = K k k + ∏ i, J (decide (c = i)) (decide (c = i)) (off k i) (off k i) (h i) := by
    rw [hM, hK]
    simp only [strainCoef, add_mul, Finset.sum_add_distrib]
    congr 1
    · simp
    · simp only [ite_and, ite_mul, one_mul, zero_mul]
      simp
  have hle : ∏ i, J (decide (c = i)) (decide (c = i)) (off k i) (off k i) (h i) ≤ K k k := by
    rw [hK]
    exact Finset.single_le_sum (f := fun p => ∏ i, J (decide (p = i)) (decide (p = i)) (off k i) (off k i) (h i))
      (fun p _ => (jprod_pos h hh p _).le) (Finset.mem_univ c)
  have := jprod_pos h hh c (off k)
  constructor <;> linarith

section diag
variable {d N : ℕ} (L : Fin d → Dir) (hL : ∀ i, (L i).WF) (hne : ∀ i, 1 ≤ (L i).nElem)
  (elem : Pos d ℤ → Fin N → Pos d ℤ) (hel : IsQ1 elem) (hinj : ∀ e, Function.Injective (elem e))
  (hsur : ∀ e g, (∀ i, g i = e i ∨ g i = e i + 1) → ∃ k, elem e k = g)
  (hper : ∀ i, (L i).periodic = true → 2 ≤ (L i).m)
include hL hne hel hinj hsur hper

theorem strain_diag (M : Fin N → Fin N → Fin d → Fin d → ℝ) (K : Fin N → Fin N → ℝ)
    (hMK : ∀ k c, K k k < M k k c c ∧ M k k c c ≤ 2 * K k k) (g : Pos d ℤ) (hg : g ∈ gridNodes L) (c : Fin d) :
    diagMatrix L (diagDiagBlockMult L elem K) g c <
      blockMatrix L (tensorBlockMult L elem M) (fun p b => if p = g ∧ b = c then 1 else 0) g c ∧
    blockMatrix L (tensorBlockMult L elem M) (fun p b => if p = g ∧ b = c then 1 else 0) g c ≤
      2 * diagMatrix L (diagDiagBlockMult L elem K) g c := by
  rw [tensor_diag L hL elem hel hinj hper, diagDiag_global L hL elem hel]
  constructor
  · obtain ⟨e, he, hc⟩ := exists_corner L hne g hg
    obtain ⟨k, hk⟩ := hsur e g hc
    have hw : wrap L (elem e k) = g := by rw [hk]; exact wrap_grid L g hg
    refine Finset.sum_lt_sum (fun e _ => Finset.sum_le_sum fun k _ => ?_) ⟨e, he, ?_⟩
    · split_ifs
      · exact (hMK k c).1.le
      · exact le_rfl
    · refine Finset.sum_lt_sum (fun k _ => ?_) ⟨k, Finset.mem_univ _, ?_⟩
      · split_ifs
        · exact (hMK k c).1.le
        · exact le_rfl
      · rw [if_pos hw, if_pos hw]; exact (hMK k c).1
  · rw [Finset.mul_sum]
    refine Finset.sum_le_sum fun e _ => ?_
    rw [Finset.mul_sum]
    refine Finset.sum_le_sum fun k _ => ?_
    split_ifs
    · exact (hMK k c).2
    · simp

end diag

/-- C98 (diagonal, 2D): with the strain operator the diagonal given to the Jacobi preconditioner is never the diagonal of
the operator: at every dof it is strictly smaller, and at least its half. -/
theorem C98_diagonal2 (L : Fin 2 → Dir) (hL : ∀ i, (L i).WF) (hne : ∀ i, 1 ≤ (L i).nElem)
    (hper : ∀ i, (L i).periodic = true → 2 ≤ (L i).m) (h : Pos 2 ℝ) (hh : ∀ c, 0 < h c) (g : Pos 2 ℤ)
    (hg : g ∈ gridNodes L) (c : Fin 2) :
    diagLaplacian2 L h g c < strain2 L h (fun p b => if p = g ∧ b = c then 1 else 0) g c ∧
      strain2 L h (fun p b => if p = g ∧ b = c then 1 else 0) g c ≤ 2 * diagLaplacian2 L h g c :=
  strain_diag L hL hne getElement2 isQ1_2 (fun e => (C09_element2 e).2.1) (fun e g hg => ((C09_element2 e).2.2 g).2 hg)
    hper _ _ (strain_entry h hh bit2 _ _ (strain2_tensor h hh) (lap2_tensor h hh)) g hg c

/-- C98 (diagonal, 3D). -/
theorem C98_diagonal3 (L : Fin 3 → Dir) (hL : ∀ i, (L i).WF) (hne : ∀ i, 1 ≤ (L i).nElem)
    (hper : ∀ i, (L i).periodic = true → 2 ≤ (L i).m) (h : Pos 3 ℝ) (hh : ∀ c, 0 < h c) (g : Pos 3 ℤ)
    (hg : g ∈ gridNodes L) (c : Fin 3) :
    diagLaplacian3 L h g c < strain3 L h (fun p b => if p = g ∧ b = c then 1 else 0) g c ∧
      strain3 L h (fun p b => if p = g ∧ b = c then 1 else 0) g c ≤ 2 * diagLaplacian3 L h g c :=
  strain_diag L hL hne getElement3 isQ1_3 (fun e => (C09_element3 e).2.1) (fun e g hg => ((C09_element3 e).2.2 g).2 hg)
    hper _ _ (strain_entry h hh bit3 _ _ (strain3_tensor h hh) (lap3_tensor h hh)) g hg c

/-- A concrete mesh of several processes with one wall pair and one periodic direction, and a condition on all the
components of all the walls, meet the hypotheses. -/
example : ∃ (L : Fin 2 → Dir) (bc : BC 2 ℝ), (∀ i, (L i).WF) ∧ (∀ i, 1 ≤ (L i).nElem) ∧
    (∀ i, (L i).periodic = true → 2 ≤ (L i).m) ∧ (∃ i, (L i).periodic = false) ∧ AllHeld L bc := by
  refine ⟨![exDir, exDirP], fun _ _ => some fun _ => 0, ?_, ?_, ?_, ⟨0, rfl⟩, fun _ _ _ _ _ => rfl⟩
  · intro i; fin_cases i
    · exact exDir_wf
    · exact exDirP_wf
  · intro i; fin_cases i <;> decide
  · intro i; fin_cases i <;> decide

end Cafes.Props
