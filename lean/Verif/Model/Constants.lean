/-
Model of the geometric constants of circles and spheres: cafes/particle/geometry/circle.hpp and sphere.hpp.
-/
import Verif.Model.Geometry

namespace Cafes.Geometry
open Cafes

/-- `circle::surface_area` (cafes/particle/geometry/circle.hpp:54-57). -/
noncomputable def circleSurface (S : Shape 2) : ℝ := 2 * Real.pi * S.s 0
/-- `circle::volume` (circle.hpp:59-62). -/
noncomputable def circleVolume (S : Shape 2) : ℝ := Real.pi * S.s 0 * S.s 0
/-- `circle::Cd_R` (circle.hpp:64-67). -/
noncomputable def circleCd (S : Shape 2) : ℝ := 1 / (S.s 0 * S.s 0)
/-- `circle::Ci_R` (circle.hpp:69-72). -/
noncomputable def circleCi (S : Shape 2) : ℝ := 2 / (S.s 0 * S.s 0)

/-- `sphere::surface_area` (cafes/particle/geometry/sphere.hpp:54-57). -/
noncomputable def sphereSurface (S : Shape 3) : ℝ := 4 * Real.pi * S.s 0 * S.s 0
/-- `sphere::volume` (sphere.hpp:59-62). -/
noncomputable def sphereVolume (S : Shape 3) : ℝ := 4 / 3 * Real.pi * S.s 0 * S.s 0 * S.s 0
/-- `sphere::Cd_R` (sphere.hpp:64-67). -/
noncomputable def sphereCd (S : Shape 3) : ℝ := 1.5 / (S.s 0 * S.s 0)
/-- `sphere::Ci_R` (sphere.hpp:69-72). -/
noncomputable def sphereCi (S : Shape 3) : ℝ := 2.5 / (S.s 0 * S.s 0)

end Cafes.Geometry
