/-
The localisation of the particles on the mesh in floating point: `bounding_box(h)`, `find_fluid_points_insides` and
`find_surf_points_insides` with each operation followed by a rounding `rnd`, in the order of the code. Without rounding these
are the functions of Verif/Model/Geometry.lean and Verif/Model/Particle.lean (`C125_exact`).

Simplifications: numbers are real numbers (no overflow, no NaN); `contains` and the real bounding box are given, as the code
computes them; the conversions of `int` to `double` are exact.
-/
import Verif.Model.Particle

namespace Cafes.RoundGeom
open Cafes Cafes.Geometry Cafes.Particle

variable {d : ℕ} (rnd : ℝ → ℝ)

/-- `bounding_box(h)` (cafes/particle/geometry/super_ellipsoid.hpp:123-127). -/
noncomputable def intBox (b : Box d ℝ) (h : Pos d ℝ) : Box d ℤ :=
  ⟨fun i => truncInt (rnd (rnd (b.bl i / h i) - 1)), fun i => truncInt (rnd (rnd (b.ur i / h i) + 1))⟩

/-- The loop `for(x=.., ix=..; ix<hi; x+=h, ++ix)` (cafes/particle/particle.hpp:119-120, 137-139). -/
noncomputable def coordLoop (h : ℝ) (hi i : ℕ) (x : ℝ) : List (ℕ × ℝ) :=
  if i < hi then (i, x) :: coordLoop h hi (i + 1) (rnd (x + h)) else []
termination_by hi - i

/-- One direction of the loops of `find_fluid_points_insides` (cafes/particle/particle.hpp:119-120, 137-139). -/
noncomputable def dirLoop (b : Box d ℤ) (h : Pos d ℝ) (i : Fin d) : List (ℕ × ℝ) :=
  coordLoop rnd (h i) (toSize (b.ur i)) (toSize (b.bl i)) (rnd (b.bl i * h i))

/-- `find_fluid_points_insides` in 2D (cafes/particle/particle.hpp:111-127). -/
noncomputable def fluidPoints2 (contains : Pos 2 ℝ → Bool) (b : Box 2 ℤ) (h : Pos 2 ℝ) : List (Pos 2 ℤ) :=
  (dirLoop rnd b h 1).foldl (fun that y =>
    (dirLoop rnd b h 0).foldl (fun that x =>
      if contains ![x.2, y.2] then that ++ [![(x.1 : ℤ), (y.1 : ℤ)]] else that) that) []

/-- `find_fluid_points_insides` in 3D (cafes/particle/particle.hpp:129-146). -/
noncomputable def fluidPoints3 (contains : Pos 3 ℝ → Bool) (b : Box 3 ℤ) (h : Pos 3 ℝ) : List (Pos 3 ℤ) :=
  (dirLoop rnd b h 2).foldl (fun that z =>
    (dirLoop rnd b h 1).foldl (fun that y =>
      (dirLoop rnd b h 0).foldl (fun that x =>
        if contains ![x.2, y.2, z.2] then that ++ [![(x.1 : ℤ), (y.1 : ℤ), (z.1 : ℤ)]] else that)
        that) that) []

/-- `static_cast<position<int>>(surf_p[i]/h)` (cafes/particle/particle.hpp:155, 173). -/
noncomputable def surfIndex (h p : Pos d ℝ) : Pos d ℤ := fun i => truncInt (rnd (p i / h i))

/-- `find_surf_points_insides` (cafes/particle/particle.hpp:148-161). -/
noncomputable def surfPoints (ps : List (Pos d ℝ)) (b : Box d ℤ) (h : Pos d ℝ) : List (Pos d ℤ × Pos d ℝ) :=
  ps.foldl (fun that p =>
    let pi := surfIndex rnd h p
    if b.pointInside pi then that ++ [(pi, fun i => rnd (p i - rnd ((pi i : ℝ) * h i)))] else that) []

end Cafes.RoundGeom
