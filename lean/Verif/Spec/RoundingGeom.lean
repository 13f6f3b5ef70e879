/-
What is asked of the rounding of the machine (IEEE arithmetic: the exact result rounded to a representable number).
-/
import Verif.Spec.Rounding
import Verif.Model.RoundingGeom

namespace Cafes.RoundGeom
open Cafes Cafes.Rounding

/-- A rounding with a relative error of at most `u`, increasing, that leaves the integers up to `K` as they are. -/
structure Correct (rnd : ℝ → ℝ) (u : ℝ) (K : ℤ) : Prop where
  nonneg : 0 ≤ u
  err : ∀ x, |rnd x - x| ≤ u * |x|
  mono : Monotone rnd
  int : ∀ k : ℤ, |k| ≤ K → rnd k = k

/-- The test has the same answer at all the points whose distance to the node is at most the error of `n` roundings. -/
def Decided {d : ℕ} (u : ℝ) (c : Pos d ℝ → Bool) (h : Pos d ℝ) (n : ℕ) (p : Pos d ℤ) : Prop :=
  ∀ x : Pos d ℝ, (∀ i, |x i - p i * h i| ≤ gamma u n * (p i * h i)) → c x = c (fun i => (p i : ℝ) * h i)

end Cafes.RoundGeom
