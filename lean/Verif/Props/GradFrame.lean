import Verif.Props.Cutoff
import Mathlib.Analysis.Calculus.FDeriv.Mul
import Mathlib.Analysis.Calculus.FDeriv.Pi
import Mathlib.Analysis.Calculus.Deriv.Pi
import Mathlib.Analysis.Calculus.Deriv.Prod
import Mathlib.Analysis.Calculus.FDeriv.Add
import Mathlib.Analysis.Calculus.Deriv.Comp

/-!
C63: the gradient of the singular velocity in the mesh frame
(cafes/particle/singularity/singularity.hpp:322-361, 444-458).
-/

namespace Cafes.Props
open Cafes Cafes.Geometry Cafes.Sing

variable {d : ℕ}

/-- The point `X` moved to the abscissa `t` in direction `l`. -/
abbrev moved (X : Pos d ℝ) (l : Fin d) (t : ℝ) : Pos d ℝ := Function.update X l t

/-- `G i j` is the partial derivative of the component `i` of `u` in direction `j` at `X`, and `u` is
differentiable there. -/
def IsGradient (u : Pos d ℝ → Pos d ℝ) (G : Fin d → Fin d → ℝ) (X : Pos d ℝ) : Prop :=
  ∀ i, DifferentiableAt ℝ (fun Y => u Y i) X ∧
    ∀ j, HasDerivAt (fun t => u (moved X j t) i) (G i j) (X j)

theorem hasDerivAt_moved (X : Pos d ℝ) (l : Fin d) (t : ℝ) :
    HasDerivAt (moved X l) (Pi.single l 1) t := by
  rw [hasDerivAt_pi]
  intro i
  by_cases h : i = l
  · subst h
    simpa [moved] using hasDerivAt_id' t
  · have : (fun t => moved X l t i) = fun _ => X i := by
      funext t; simp [moved, h]
    rw [this]
    simpa [h] using hasDerivAt_const t (X i)

/-- The derivative along a direction of a function with given partial derivatives. -/
theorem fderiv_of_partials {f : Pos d ℝ → ℝ} {X : Pos d ℝ} (hf : DifferentiableAt ℝ f X) (g : Fin d → ℝ)
    (hg : ∀ j, HasDerivAt (fun t => f (moved X j t)) (g j) (X j)) (v : Pos d ℝ) :
    fderiv ℝ f X v = ∑ j, g j * v j := by
  have e : ∀ j, fderiv ℝ f X (Pi.single j 1) = g j := by
    intro j
    have h1 : HasFDerivAt f (fderiv ℝ f X) (moved X j (X j)) := by
      simpa [moved] using hf.hasFDerivAt
    have := h1.comp_hasDerivAt (X j) (hasDerivAt_moved X j (X j))
    exact this.unique (hg j)
  have hv : v = ∑ j, v j • (Pi.single j (1 : ℝ) : Pos d ℝ) := by
    funext i
    simp [Finset.sum_apply, Pi.single_apply]
  conv_lhs => rw [hv]
  rw [map_sum]
  refine Finset.sum_congr rfl fun j _ => ?_
  rw [map_smul, e, smul_eq_mul, mul_comm]

theorem hasDerivAt_posInRef (S : Singularity d) (X : Pos d ℝ) (l : Fin d) (t : ℝ) :
    HasDerivAt (fun t => posInRef S (moved X l t)) (fun k => S.base k l) t := by
  rw [hasDerivAt_pi]
  intro k
  simp only [posInRef, innerProd_eq, dot]
  have : (∑ i, (if i = l then (1 : ℝ) else 0) * S.base k i) = S.base k l := by simp
  rw [← this]
  have h2 : (fun t => ∑ i, (moved X l t i - S.origin i) * S.base k i) =
      ∑ i, fun t => (moved X l t i - S.origin i) * S.base k i := by
    funext t; simp
  rw [h2]
  refine HasDerivAt.sum fun i _ => ?_
  have := (hasDerivAt_pi.1 (hasDerivAt_moved X l t)) i
  rw [Pi.single_apply] at this
  exact hd_mulc _ (by simpa using hd_sub this (hasDerivAt_const t (S.origin i)))

/-- C63 (change of frame): if `G` is the gradient of the field in the contact frame, then the tensor
returned in the mesh frame is the gradient of the field returned in the mesh frame. The frame need not
be orthonormal. -/
theorem C63_change_of_frame (S : Singularity d) (u : Pos d ℝ → Pos d ℝ) (G : Fin d → Fin d → ℝ)
    (X : Pos d ℝ) (h : IsGradient u G (posInRef S X)) (k l : Fin d) :
    HasDerivAt (fun t => toMesh S.base (u (posInRef S (moved X l t))) k)
      (gradToMesh S.base G k l) (X l) := by
  simp only [toMesh_eq, gradToMesh_eq]
  have h2 : (fun t => ∑ m, S.base m k * u (posInRef S (moved X l t)) m) =
      ∑ m, fun t => S.base m k * u (posInRef S (moved X l t)) m := by
    funext t; simp
  rw [h2]
  refine HasDerivAt.sum fun m _ => ?_
  have e : ∑ n, S.base m k * S.base n l * G m n = S.base m k * ∑ n, G m n * S.base n l := by
    rw [Finset.mul_sum]; exact Finset.sum_congr rfl fun n _ => by ring
  rw [e]
  refine hd_cmul _ ?_
  obtain ⟨hm, hp⟩ := h m
  rw [← fderiv_of_partials hm (G m) hp]
  have h1 : HasFDerivAt (fun Y => u Y m) (fderiv ℝ (fun Y => u Y m) (posInRef S X))
      (posInRef S (moved X l (X l))) := by
    simpa [moved] using hm.hasFDerivAt
  exact h1.comp_hasDerivAt (X l) (hasDerivAt_posInRef S X l (X l))

/-- C63 (divergence): for an orthonormal frame the trace of the tensor in the mesh frame is its trace in
the contact frame. -/
theorem C63_trace (S : Singularity d) (h : Orthonormal S.base) (G : Fin d → Fin d → ℝ) :
    ∑ k, gradToMesh S.base G k k = ∑ m, G m m := by
  simp only [gradToMesh_eq]
  rw [Finset.sum_comm]
  refine Finset.sum_congr rfl fun m _ => ?_
  rw [Finset.sum_comm]
  have : ∀ n, ∑ k, S.base m k * S.base n k * G m n = if m = n then G m n else 0 := by
    intro n
    rw [← Finset.sum_mul]
    have := h m n
    rw [dot] at this
    rw [this]
    split_ifs <;> simp
  simp [this]

end Cafes.Props
