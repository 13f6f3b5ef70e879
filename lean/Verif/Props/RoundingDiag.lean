/-
Property theorem C122, the diagonal of the operators (the Jacobi preconditioners) in floating point.
-/
import Verif.Props.Rounding
import Verif.Props.Smoother

namespace Cafes.Props
open Cafes Cafes.Spec Cafes.Rounding
variable {d n N : ℕ}

section
variable {A : Arith} {u : ℝ} (hA : Rounds A u) (L : Fin d → Dir) (hL : ∀ i, (L i).WF) {ord : Order d n} (ho : IsOrder L ord)
  (elem : Pos d ℤ → Fin N → Pos d ℤ) (hel : IsQ1 elem) (hs : Shift elem)
include hL hel

theorem count_diagDiag (hs : Shift elem) (g : Pos d ℤ) (c : Fin n) :
    Cafes.diagMatrix L (Cafes.diagDiagBlockMult L elem fun _ _ => (1 : ℤ)) g c ≤ (N : ℕ) := by
  rw [diagDiag_global L hL elem hel]
  have := count_le L L elem 1 (shift_inj hs) g
  simpa using this

theorem diagDiag_pos (hcor : ∀ g ∈ gridNodes L, ∃ e ∈ gridElems L, ∃ k, wrap L (elem e k) = g) (M : Fin N → Fin N → ℝ)
    (hM : ∀ k, 0 < M k k) (g : Pos d ℤ) (hg : g ∈ gridNodes L) (c : Fin n) :
    0 < Cafes.diagMatrix L (Cafes.diagDiagBlockMult L elem M) g c := by
  rw [diagDiag_global L hL elem hel]
  obtain ⟨e, he, k, hw⟩ := hcor g hg
  have hn : ∀ e k, 0 ≤ (if wrap L (elem e k) = g then M k k else 0) := fun e k => by
    split_ifs
    · exact (hM k).le
    · exact le_rfl
  refine Finset.sum_pos' (fun e _ => Finset.sum_nonneg fun k _ => hn e k) ⟨e, he, ?_⟩
  refine Finset.sum_pos' (fun k _ => hn e k) ⟨k, Finset.mem_univ _, ?_⟩
  rw [if_pos hw]; exact hM k

include hA ho hs

theorem err_diagDiag (M : Fin N → Fin N → ℝ) (hM : ∀ k, 0 ≤ M k k) (g : Pos d ℤ) (hg : g ∈ gridNodes L) (c : Fin n) :
    |Rounding.diagMatrix A ord (Rounding.diagDiagBlockMult A L elem M) g c -
      Cafes.diagMatrix L (Cafes.diagDiagBlockMult L elem M) g c| ≤
      gamma u (1 + N + 3 ^ d) * Cafes.diagMatrix L (Cafes.diagDiagBlockMult L elem M) g c := by
  have := err_localToGlobal hA ho _ _ _ _ (fun r => follows_diagDiag (n := n) hA L elem M r) g c N
    (count_diagDiag L hL elem hel hs g c)
  have h2 := err_mono hA.nonneg (Nat.add_le_add_left (copies_le hL ho g hg c) (1 + N)) this
  have e : Cafes.diagMatrix L (Cafes.diagDiagBlockMult L elem fun i j => |M i j|) g c =
      Cafes.diagMatrix L (Cafes.diagDiagBlockMult L elem M) g c := by
    rw [diagDiag_global L hL elem hel, diagDiag_global L hL elem hel]
    simp only [abs_of_nonneg (hM _)]
  have h3 := h2.1
  have e' : Cafes.localToGlobalAdd L (fun r => Cafes.diagDiagBlockMult L elem (fun i j => |M i j|) r 0) 0 g c =
      Cafes.diagMatrix L (Cafes.diagDiagBlockMult L elem M) g c := e
  rw [e'] at h3
  exact h3

end

section
variable {A : Arith} {u : ℝ} (hA : Rounds A u)
include hA

/-- C122 (diagonal, 2D): in floating point, on every decomposition, whatever the order in which the values of the processes
arrive, the diagonal returned by a shell matrix whose element matrix has a nonnegative diagonal has a relative error of at most
14 roundings in each entry. If the diagonal of the element matrix is positive and 14 roundings are less than the value, the
computed entry is positive: the Jacobi preconditioner never divides by zero. -/
theorem C122_diagonal2 (L : Fin 2 → Dir) (hL : ∀ i, (L i).WF) (ord : Order 2 n) (ho : IsOrder L ord) (M : Fin 4 → Fin 4 → ℝ)
    (hM : ∀ k, 0 ≤ M k k) (g : Pos 2 ℤ) (hg : g ∈ gridNodes L) (c : Fin n) :
    |Rounding.diagMatrix A ord (Rounding.diagDiagBlockMult A L getElement2 M) g c -
      Cafes.diagMatrix L (Cafes.diagDiagBlockMult L getElement2 M) g c| ≤
      gamma u 14 * Cafes.diagMatrix L (Cafes.diagDiagBlockMult L getElement2 M) g c ∧
    ((∀ i, 1 ≤ (L i).nElem) → (∀ k, 0 < M k k) → gamma u 14 < 1 →
      0 < Rounding.diagMatrix A ord (Rounding.diagDiagBlockMult A L getElement2 M) g c) := by
  have h := err_diagDiag hA L hL ho getElement2 isQ1_2 shift2 M hM g hg c
  refine ⟨h, fun hne hM' hu => ?_⟩
  have hp := diagDiag_pos L hL getElement2 isQ1_2 (fun g hg => by
    obtain ⟨e, he, hc⟩ := exists_corner L hne g hg
    obtain ⟨k, hk⟩ := ((C09_element2 e).2.2 g).2 hc
    exact ⟨e, he, k, by rw [hk]; exact wrap_grid L g hg⟩) M hM' g hg c
  have h1 := (abs_le.1 h).1
  have h2 : gamma u 14 * Cafes.diagMatrix L (Cafes.diagDiagBlockMult L getElement2 M) g c <
    1 * Cafes.diagMatrix L (Cafes.diagDiagBlockMult L getElement2 M) g c := mul_lt_mul_of_pos_right hu hp
  have h3 : -(gamma u 14 * Cafes.diagMatrix L (Cafes.diagDiagBlockMult L getElement2 M) g c) ≤
    Rounding.diagMatrix A ord (Rounding.diagDiagBlockMult A L getElement2 M) g c -
      Cafes.diagMatrix L (Cafes.diagDiagBlockMult L getElement2 M) g c := h1
  linarith

/-- C122 (diagonal, 3D): the relative error is of at most 36 roundings. -/
theorem C122_diagonal3 (L : Fin 3 → Dir) (hL : ∀ i, (L i).WF) (ord : Order 3 n) (ho : IsOrder L ord) (M : Fin 8 → Fin 8 → ℝ)
    (hM : ∀ k, 0 ≤ M k k) (g : Pos 3 ℤ) (hg : g ∈ gridNodes L) (c : Fin n) :
    |Rounding.diagMatrix A ord (Rounding.diagDiagBlockMult A L getElement3 M) g c -
      Cafes.diagMatrix L (Cafes.diagDiagBlockMult L getElement3 M) g c| ≤
      gamma u 36 * Cafes.diagMatrix L (Cafes.diagDiagBlockMult L getElement3 M) g c ∧
    ((∀ i, 1 ≤ (L i).nElem) → (∀ k, 0 < M k k) → gamma u 36 < 1 →
      0 < Rounding.diagMatrix A ord (Rounding.diagDiagBlockMult A L getElement3 M) g c) := by
  have h := err_diagDiag hA L hL ho getElement3 isQ1_3 shift3 M hM g hg c
  refine ⟨h, fun hne hM' hu => ?_⟩
  have hp := diagDiag_pos L hL getElement3 isQ1_3 (fun g hg => by
    obtain ⟨e, he, hc⟩ := exists_corner L hne g hg
    obtain ⟨k, hk⟩ := ((C09_element3 e).2.2 g).2 hc
    exact ⟨e, he, k, by rw [hk]; exact wrap_grid L g hg⟩) M hM' g hg c
  have h1 := (abs_le.1 h).1
  have h2 : gamma u 36 * Cafes.diagMatrix L (Cafes.diagDiagBlockMult L getElement3 M) g c <
    1 * Cafes.diagMatrix L (Cafes.diagDiagBlockMult L getElement3 M) g c := mul_lt_mul_of_pos_right hu hp
  have h3 : -(gamma u 36 * Cafes.diagMatrix L (Cafes.diagDiagBlockMult L getElement3 M) g c) ≤
    Rounding.diagMatrix A ord (Rounding.diagDiagBlockMult A L getElement3 M) g c -
      Cafes.diagMatrix L (Cafes.diagDiagBlockMult L getElement3 M) g c := h1
  linarith

end

/-- Concrete case: in `double` the diagonal of the Laplacian on a 2D mesh is positive on every decomposition, for
every order of arrival. -/
theorem C122_jacobi2 (L : Fin 2 → Dir) (hL : ∀ i, (L i).WF) (hne : ∀ i, 1 ≤ (L i).nElem) (ord : Order 2 n) (ho : IsOrder L ord)
    (h : Pos 2 ℝ) (hh : ∀ c, 0 < h c) (g : Pos 2 ℤ) (hg : g ∈ gridNodes L) (c : Fin n) :
    0 < Rounding.diagMatrix (binary 53) ord (Rounding.diagDiagBlockMult (binary 53) L getElement2 (matElemLaplacian2 h)) g c := by
  have hp : ∀ k, 0 < matElemLaplacian2 h k k := fun k => by
    rw [lap2_tensor h hh]
    exact Finset.sum_pos (fun p _ => jprod_pos h hh p _) ⟨0, Finset.mem_univ _⟩
  refine (C122_diagonal2 (C122_binary 53).1 L hL ord ho _ (fun k => (hp k).le) g hg c).2 hne hp ?_
  unfold gamma
  norm_num

end Cafes.Props
