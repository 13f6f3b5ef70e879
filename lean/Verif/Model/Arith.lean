/-
Model of the operators of cafes/particle/physics/force.hpp and velocity.hpp, of the conversions and rounding of
cafes/particle/geometry/position.hpp, and of the compound operators that take their scalar by reference.

Simplification: `double` is the reals (or any field).
-/
import Verif.Model.Geometry

namespace Cafes.Geometry
open Cafes
variable {d : ℕ} {K : Type*}

section force
variable [Field K]

/-- `force& operator*=(double scale)` (cafes/particle/physics/force.hpp:70-74). -/
def forceScaleAssign (f : Pos d K) (scale : K) : Pos d K := compLoop (fun _ x => x * scale) f
/-- `force& operator+=(double scale)` (force.hpp:76-80). -/
def forceShiftAssign (f : Pos d K) (scale : K) : Pos d K := compLoop (fun _ x => x + scale) f
/-- `force& operator+=(force)` (force.hpp:82-86). -/
def forceAddAssign (f g : Pos d K) : Pos d K := compLoop (fun i x => x + g i) f
/-- `force& operator-=(force)` (force.hpp:88-92). -/
def forceSubAssign (f g : Pos d K) : Pos d K := compLoop (fun i x => x - g i) f
/-- `void fill(double value)` (force.hpp:94-97). -/
def forceFill (f : Pos d K) (value : K) : Pos d K := compLoop (fun _ _ => value) f
/-- `operator*(force, double)` (force.hpp:100-105): a copy is scaled. -/
def forceScale (f : Pos d K) (scale : K) : Pos d K := forceScaleAssign f scale
/-- `operator*(double, force)` (force.hpp:107-112). -/
def forceScaleL (scale : K) (f : Pos d K) : Pos d K := forceScaleAssign f scale
/-- `operator+(force, double)` (force.hpp:114-119). -/
def forceShift (f : Pos d K) (scale : K) : Pos d K := forceShiftAssign f scale
/-- `operator+(double, force)` (force.hpp:121-126). -/
def forceShiftL (scale : K) (f : Pos d K) : Pos d K := forceShiftAssign f scale
/-- `operator+(force, force)` (force.hpp:128-133). -/
def forceAdd (f g : Pos d K) : Pos d K := forceAddAssign f g
/-- `operator-(force, force)` (force.hpp:135-140). -/
def forceSub (f g : Pos d K) : Pos d K := forceSubAssign f g
/-- `velocity& operator+=(velocity)` and `operator+(velocity, velocity)` (cafes/particle/physics/velocity.hpp:58-80). -/
def velAdd (v w : Pos d K) : Pos d K := compLoop (fun i x => x + w i) v

end force

/-- The compound operators whose scalar is a reference (`position& operator+=(T const& v)`, `operator-=`, `operator/=`,
cafes/particle/geometry/position.hpp:121-144; `vector& operator*=(T const& c)`, `operator/=`,
cafes/particle/geometry/vector.hpp:100-104, 124-128), called with one of the components of the object itself,
`a op= a[k]`: at every turn of the loop the scalar is read again from the array being modified. -/
def selfLoop (op : K → K → K) (a : Pos d K) (k : Fin d) : Pos d K :=
  (List.finRange d).foldl (fun a i => Function.update a i (op (a i) (a k))) a

/-- The free functions `operator+(position, T const&)`, `operator-`, `operator/` (position.hpp:157-164, 175-182,
239-246) called with a component of their own argument: the loop runs over the copy `that{p}`, the reference still
points into `p`. -/
def copyLoop (op : K → K → K) (p : Pos d K) (k : Fin d) : Pos d K := compLoop (fun _ x => op x (p k)) p

/-- `position(position<U, Dimensions> const& p)` from `double` to `int` (position.hpp:57-61): `static_cast<int>` drops
the fractional part. Simplification: `int` is ℤ (no overflow). -/
noncomputable def posToInt (p : Pos d ℝ) : Pos d ℤ := fun i => truncInt (p i)

/-- `ceil(position<double>)` (position.hpp:248-254): a position of doubles holding the ceilings, converted to a position
of integers by the return. -/
noncomputable def posCeil (p : Pos d ℝ) : Pos d ℤ := posToInt fun i => (⌈p i⌉ : ℝ)

/-- `floor(position<double>)` (position.hpp:256-262). -/
noncomputable def posFloor (p : Pos d ℝ) : Pos d ℤ := posToInt fun i => (⌊p i⌋ : ℝ)

end Cafes.Geometry
