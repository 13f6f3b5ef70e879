/-
Specification vocabulary for geometry: scalar product, squared distance, super-ellipses.
-/
import Verif.Model.Geometry
import Verif.Spec.Box

namespace Cafes.Geometry
open Cafes
variable {d : ℕ} {K : Type*}

/-- Scalar product. -/
def dot [CommRing K] (x y : Pos d K) : K := ∑ i, x i * y i

/-- Squared euclidean distance. -/
def distSq [CommRing K] (x y : Pos d K) : K := ∑ i, (x i - y i) ^ 2

/-- The plane vector `x` seen in space. -/
def embed [Zero K] (x : Pos 2 K) : Pos 3 K := ![x 0, x 1, 0]

/-- Rodrigues' formula: the rotation of angle `a` around the unit axis `k`. -/
noncomputable def rodrigues (a : ℝ) (k p : Pos 3 ℝ) : Pos 3 ℝ :=
  fun i => Real.cos a * p i + Real.sin a * cross3 k p i + (1 - Real.cos a) * dot k p * k i

/-- The rotation of angle `a` of the plane. -/
noncomputable def planeRot (a : ℝ) (p : Pos 2 ℝ) : Pos 2 ℝ :=
  ![Real.cos a * p 0 - Real.sin a * p 1, Real.sin a * p 0 + Real.cos a * p 1]

end Cafes.Geometry
