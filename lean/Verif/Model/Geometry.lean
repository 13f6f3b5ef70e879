/-
Model of cafes/particle/geometry: vector.hpp, cross_product.hpp, quaternion.hpp, linspace.hpp,
uniform_sampling.hpp, super_ellipsoid.hpp, circle.hpp, sphere.hpp, and cafes/particle/physics/force.hpp.

Simplification: `double` is modelled by the real numbers (or by any field where only the field operations
are used).
-/
import Verif.Model.Box
import Mathlib.Analysis.SpecialFunctions.Pow.Real
import Mathlib.Analysis.SpecialFunctions.Trigonometric.Basic

namespace Cafes.Geometry
open Cafes

variable {d : ℕ} {K : Type*}

/-- `for(i=0; i<Dimensions; ++i) (*this)[i] = f(i, (*this)[i])`: the loop common to the compound
assignment operators (e.g. cafes/particle/geometry/vector.hpp:96). -/
def compLoop (f : Fin d → K → K) (a : Pos d K) : Pos d K :=
  (List.finRange d).foldl (fun a i => Function.update a i (f i (a i))) a

section vector
variable [Field K]

/-- `vector& operator*=(vector)` (cafes/particle/geometry/vector.hpp:94-98). -/
def vecMulVec (a v : Pos d K) : Pos d K := compLoop (fun i x => x * v i) a
/-- `vector& operator*=(T)` (vector.hpp:100-104); also `operator*` (139-149). -/
def vecMulScal (a : Pos d K) (c : K) : Pos d K := compLoop (fun _ x => x * c) a
/-- `vector& operator+=(vector)` (vector.hpp:106-110); also `operator+` (152-156). -/
def vecAddVec (a v : Pos d K) : Pos d K := compLoop (fun i x => x + v i) a
/-- `vector& operator-=(vector)` (vector.hpp:112-116). -/
def vecSubVec (a v : Pos d K) : Pos d K := compLoop (fun i x => x - v i) a
/-- `vector& operator+=(velocity)` (vector.hpp:118-122): the code is `(*this)[i] -= v[i]`. -/
def vecAddVel (a v : Pos d K) : Pos d K := compLoop (fun i x => x - v i) a
/-- `vector& operator/=(T)` (vector.hpp:124-128); also `operator/` (184-196). -/
def vecDivScal (a : Pos d K) (c : K) : Pos d K := compLoop (fun _ x => x / c) a
/-- unary `operator-(vector)` (vector.hpp:159-163). -/
def vecNeg (v : Pos d K) : Pos d K := vecMulScal v (-1)
/-- `operator-(vector p, velocity v)` (vector.hpp:166-172): `v` is converted to a vector. -/
def vecSubVel (p v : Pos d K) : Pos d K := vecSubVec p v
/-- `operator-(velocity v, vector p)` (vector.hpp:175-181): the code returns `that{p} -= v`. -/
def velSubVec (v p : Pos d K) : Pos d K := vecSubVec p v

/-- `position& operator+=(position)`, `operator-=`, `operator*=`, `operator/=`
(cafes/particle/geometry/position.hpp:91-144). -/
def posAdd (a p : Pos d K) : Pos d K := compLoop (fun i x => x + p i) a
/-- `position& operator-=(position)` (position.hpp:103-107). -/
def posSub (a p : Pos d K) : Pos d K := compLoop (fun i x => x - p i) a
/-- `position& operator*=(array)` (position.hpp:97-101). -/
def posMul (a p : Pos d K) : Pos d K := compLoop (fun i x => x * p i) a
/-- `position& operator/=(array)` (position.hpp:133-138). -/
def posDiv (a p : Pos d K) : Pos d K := compLoop (fun i x => x / p i) a
/-- `position& operator+=(T)` (position.hpp:121-125). -/
def posAddScal (a : Pos d K) (c : K) : Pos d K := compLoop (fun _ x => x + c) a
/-- `position& operator-=(T)` (position.hpp:127-131). -/
def posSubScal (a : Pos d K) (c : K) : Pos d K := compLoop (fun _ x => x - c) a

/-- `cross_product(T<U,2>, T<U,2>)` (cafes/particle/geometry/cross_product.hpp:39-49). -/
def cross2 (x y : Pos 2 K) : K := x 0 * y 1 - x 1 * y 0
/-- `cross_product(double rz, T<U,2>)` (cross_product.hpp:51-56) and `cross_product(T<U,1>, T<U,2>)`
(59-64). -/
def crossZ (rz : K) (x : Pos 2 K) : Pos 2 K := ![-rz * x 1, rz * x 0]
/-- `cross_product(T<U,2>, double rz)` (cross_product.hpp:66-71) and (73-78). -/
def crossZr (x : Pos 2 K) (rz : K) : Pos 2 K := ![rz * x 1, -rz * x 0]
/-- `cross_product(T<U,3>, T<U,3>)` (cross_product.hpp:80-86). -/
def cross3 (x y : Pos 3 K) : Pos 3 K :=
  ![x 1 * y 2 - x 2 * y 1, x 2 * y 0 - x 0 * y 2, x 0 * y 1 - x 1 * y 0]

/-! quaternion.hpp -/

/-- `struct quaternion` (cafes/particle/geometry/quaternion.hpp:54-58): four components `x y z w`. -/
abbrev Quat (K : Type*) := Pos 4 K

/-- `inner_product(components_, components_)` (quaternion.hpp:92). -/
def normSq (q : Quat K) : K := (List.finRange 4).foldl (fun s i => s + q i * q i) 0

/-- `normalize` (quaternion.hpp:90-94): divides by the inner product, not by its square root. -/
def normalize (q : Quat K) : Quat K := vecDivScal q (normSq q)

/-- `conj` (quaternion.hpp:96-101). -/
def conj (q : Quat K) : Quat K := fun i => if i.1 < 3 then -q i else q i

/-- `rotate(position<double,2>)` (quaternion.hpp:113-122). -/
def rotate2 (q : Quat K) (p : Pos 2 K) : Pos 2 K :=
  let x := q 0; let y := q 1; let z := q 2; let w := q 3
  ![(1 - 2*y*y - 2*z*z) * p 0 + (2*x*y - 2*z*w) * p 1,
    (2*x*y + 2*z*w) * p 0 + (1 - 2*x*x - 2*z*z) * p 1]

/-- `rotate(position<double,3>)` (quaternion.hpp:124-134). -/
def rotate3 (q : Quat K) (p : Pos 3 K) : Pos 3 K :=
  let x := q 0; let y := q 1; let z := q 2; let w := q 3
  ![(1 - 2*y*y - 2*z*z) * p 0 + (2*x*y - 2*z*w) * p 1 + (2*x*z + 2*y*w) * p 2,
    (2*x*y + 2*z*w) * p 0 + (1 - 2*x*x - 2*z*z) * p 1 + (2*y*z - 2*x*w) * p 2,
    (2*x*z - 2*y*w) * p 0 + (2*y*z + 2*x*w) * p 1 + (1 - 2*x*x - 2*y*y) * p 2]

/-- `is_rotate` (quaternion.hpp:136-139). -/
def isRotate [DecidableEq K] (q : Quat K) : Bool := (List.finRange 4).any fun i => decide (q i ≠ 0)

end vector

/-- `quaternion(angle, axes)` (quaternion.hpp:62-69). -/
noncomputable def quat (angle : ℝ) (axes : Pos 3 ℝ) : Quat ℝ :=
  normalize ![Real.sin (angle / 2) * axes 0, Real.sin (angle / 2) * axes 1,
    Real.sin (angle / 2) * axes 2, Real.cos (angle / 2)]

/-- `quaternion(angle)` (quaternion.hpp:71-74): rotation around `z`. -/
noncomputable def quatZ (angle : ℝ) : Quat ℝ := quat angle ![0, 0, 1]

/-- The value-initialised quaternion `{}`, default argument of the shapes (super_ellipsoid.hpp:68, 74). -/
def quat0 [Zero K] : Quat K := fun _ => 0

/-! linspace.hpp -/

/-- `linspace` (cafes/particle/geometry/linspace.hpp:39-53) for `num ≥ 0`; `none` when the loop runs
with a division by zero in `step` (the code then produces NaN). -/
def linspace [Field K] (beg end_ : K) (num : ℕ) (includeEnd : Bool) : Option (List K) :=
  let ns : ℤ := if includeEnd then (num : ℤ) - 1 else num
  if ns = 0 ∧ num ≠ 0 then none
  else
    let step := (end_ - beg) / (ns : K)
    some ((List.range num).map fun (i : ℕ) => beg + (i : K) * step)

/-! super_ellipsoid.hpp -/

/-- Conversion of a `double` to an `int` (used by `position<int>(position<double>)`,
cafes/particle/geometry/position.hpp:59-63): truncation towards zero. -/
noncomputable def truncInt (x : ℝ) : ℤ := if 0 ≤ x then ⌊x⌋ else ⌈x⌉

/-- `super_ellipsoid<double, d>` (cafes/particle/geometry/super_ellipsoid.hpp:49-78): the members
`n_ = 2/n`, `e_ = 2/e`. -/
structure Shape (d : ℕ) where
  center : Pos d ℝ
  s : Pos d ℝ
  n_ : ℝ
  e_ : ℝ
  q : Quat ℝ

/-- 2D constructor (super_ellipsoid.hpp:68-72). -/
noncomputable def mkShape2 (c s : Pos 2 ℝ) (n : ℝ) (q : Quat ℝ) : Shape 2 := ⟨c, s, 2 / n, 0, q⟩
/-- 3D constructor (super_ellipsoid.hpp:74-78). -/
noncomputable def mkShape3 (c s : Pos 3 ℝ) (n e : ℝ) (q : Quat ℝ) : Shape 3 := ⟨c, s, 2 / n, 2 / e, q⟩
/-- `circle` (cafes/particle/geometry/circle.hpp:49-52). -/
noncomputable def circle (c : Pos 2 ℝ) (r : ℝ) (q : Quat ℝ) : Shape 2 := mkShape2 c (fun _ => r) 2 q
/-- `sphere` (cafes/particle/geometry/sphere.hpp:49-52). -/
noncomputable def sphere (c : Pos 3 ℝ) (r : ℝ) (q : Quat ℝ) : Shape 3 := mkShape3 c (fun _ => r) 2 2 q

/-- The smallest box containing a list of points: the loop of super_ellipsoid.hpp:109-116. -/
noncomputable def hull (p0 : Pos d ℝ) (l : List (Pos d ℝ)) : Box d ℝ :=
  l.foldl (fun b p =>
    ⟨fun i => if b.bl i > p i then p i else b.bl i, fun i => if b.ur i < p i then p i else b.ur i⟩)
    ⟨p0, p0⟩

/-- `bounding_box()` (super_ellipsoid.hpp:86-121), for a given `get_box_points` and `rotate`. -/
noncomputable def boundingBoxWith (points : Box d ℝ → List (Pos d ℝ)) (rot : Pos d ℝ → Pos d ℝ)
    (isRot : Bool) (center s : Pos d ℝ) : Box d ℝ :=
  let that : Box d ℝ := ⟨compLoop (fun i x => x - s i) center, compLoop (fun i x => x + s i) center⟩
  if isRot then
    match (points that).map fun p => posAdd (rot (posSub p center)) center with
    | [] => that
    | p0 :: l => hull p0 l
  else that

/-- `bounding_box()` in 2D (super_ellipsoid.hpp:86-121). -/
noncomputable def Shape.boundingBox2 (S : Shape 2) : Box 2 ℝ :=
  boundingBoxWith Box.points2 (rotate2 S.q) (isRotate S.q) S.center S.s
/-- `bounding_box()` in 3D (super_ellipsoid.hpp:86-121). -/
noncomputable def Shape.boundingBox3 (S : Shape 3) : Box 3 ℝ :=
  boundingBoxWith Box.points3 (rotate3 S.q) (isRotate S.q) S.center S.s

/-- `bounding_box(h)` (super_ellipsoid.hpp:123-127): the two corners are converted to integers. -/
noncomputable def intBox (b : Box d ℝ) (h : Pos d ℝ) : Box d ℤ :=
  ⟨fun i => truncInt (posSubScal (posDiv b.bl h) 1 i), fun i => truncInt (posAddScal (posDiv b.ur h) 1 i)⟩

/-- `implicit` in 2D (super_ellipsoid.hpp:316-324). -/
noncomputable def Shape.implicit2 (S : Shape 2) (p : Pos 2 ℝ) : ℝ :=
  let r := 2 / S.n_
  let pos := posSub p S.center
  let pos := if isRotate S.q then rotate2 (conj S.q) pos else pos
  |pos 0 / S.s 0| ^ r + |pos 1 / S.s 1| ^ r

/-- `implicit` in 3D (super_ellipsoid.hpp:326-338): the rotation is not used. -/
noncomputable def Shape.implicit3 (S : Shape 3) (p : Pos 3 ℝ) : ℝ :=
  let r1 := 2 / S.n_
  let r2 := S.e_ / S.n_
  let r3 := 2 / S.e_
  (|(p 0 - S.center 0) / S.s 0| ^ r3 + |(p 1 - S.center 1) / S.s 1| ^ r3) ^ r2 +
    |(p 2 - S.center 2) / S.s 2| ^ r1

/-- `contains` (super_ellipsoid.hpp:309-312), 2D. -/
noncomputable def Shape.contains2 (S : Shape 2) (p : Pos 2 ℝ) : Bool := decide (S.implicit2 p < 1)
/-- `contains` (super_ellipsoid.hpp:309-312), 3D. -/
noncomputable def Shape.contains3 (S : Shape 3) (p : Pos 3 ℝ) : Bool := decide (S.implicit3 p < 1)

/-- `c(w, m)` (super_ellipsoid.hpp:340-344): `copysign(pow(abs(cos w), m), cos w)`. Simplification:
the sign of a zero cosine is taken as positive (the result is then zero for `m > 0`). -/
noncomputable def cFun (w m : ℝ) : ℝ :=
  if 0 ≤ Real.cos w then |Real.cos w| ^ m else -|Real.cos w| ^ m
/-- `s(w, m)` (super_ellipsoid.hpp:346-350). -/
noncomputable def sFun (w m : ℝ) : ℝ :=
  if 0 ≤ Real.sin w then |Real.sin w| ^ m else -|Real.sin w| ^ m

/-- `at(u)` (super_ellipsoid.hpp:268-274). -/
noncomputable def Shape.at2 (S : Shape 2) (u : ℝ) : Pos 2 ℝ :=
  ![S.s 0 * cFun u S.n_ + S.center 0, S.s 1 * sFun u S.n_ + S.center 1]
/-- `radial(u)` (super_ellipsoid.hpp:276-282). -/
noncomputable def Shape.radial2 (S : Shape 2) (u : ℝ) : Pos 2 ℝ :=
  ![S.s 0 * cFun u S.n_, S.s 1 * sFun u S.n_]
/-- `at(u, v)` (super_ellipsoid.hpp:284-292). -/
noncomputable def Shape.at3 (S : Shape 3) (u v : ℝ) : Pos 3 ℝ :=
  ![S.s 0 * cFun v S.n_ * cFun u S.e_ + S.center 0, S.s 1 * cFun v S.n_ * sFun u S.e_ + S.center 1,
    S.s 2 * sFun v S.n_ + S.center 2]
/-- `radial(u, v)` (super_ellipsoid.hpp:294-302). -/
noncomputable def Shape.radial3 (S : Shape 3) (u v : ℝ) : Pos 3 ℝ :=
  ![S.s 0 * cFun v S.n_ * cFun u S.e_, S.s 1 * cFun v S.n_ * sFun u S.e_, S.s 2 * sFun v S.n_]

/-- `surface(u_samples)` (super_ellipsoid.hpp:129-139). -/
noncomputable def Shape.surfaceSamples2 (S : Shape 2) (u : List ℝ) : List (Pos 2 ℝ) := u.map S.at2
/-- `surface(u_samples, v_samples)` (super_ellipsoid.hpp:196-214), equal lengths. -/
noncomputable def Shape.surfaceSamples3 (S : Shape 3) (u v : List ℝ) : List (Pos 3 ℝ) :=
  List.zipWith S.at3 u v

/-! uniform_sampling.hpp -/

/-- `theta` (cafes/particle/geometry/uniform_sampling.hpp:44-56). -/
noncomputable def thetaStep (r1 r2 theta eps k tol : ℝ) : ℝ :=
  if theta ≥ tol then
    k / eps * Real.cos theta * Real.sin theta /
      Real.sqrt (r1 * r1 * Real.cos theta ^ (2 * eps) * Real.sin theta ^ (4 : ℝ) +
        r2 * r2 * Real.sin theta ^ (2 * eps) * Real.cos theta ^ (4 : ℝ))
  else if theta > 0 then |k / r2 + theta ^ eps| ^ (1 / eps) - theta
  else |k / r2| ^ (1 / eps)

/-- The loop `while (eta < M_PI/4)` of `uniform_sampling` (uniform_sampling.hpp:66-77) started at `eta`:
`Etas eps k tol eta l` means that it terminates, having recorded `save_eta = l`. -/
inductive Etas (eps k tol : ℝ) : ℝ → List ℝ → Prop
  | stop (eta : ℝ) (h : ¬ eta < Real.pi / 4) : Etas eps k tol eta []
  | step (eta : ℝ) (l : List ℝ) (h : eta < Real.pi / 4)
      (rest : Etas eps k tol (eta + thetaStep 1 1 eta eps k tol) l) : Etas eps k tol eta (eta :: l)

/-- The points of the first quadrant (uniform_sampling.hpp:70-85). -/
noncomputable def quadrant (r : Pos 2 ℝ) (eps : ℝ) (etas : List ℝ) : List (Pos 2 ℝ) :=
  (etas.map fun eta => ![r 0 * Real.cos eta ^ eps, r 1 * Real.sin eta ^ eps]) ++
  (etas.reverse.map fun eta => ![r 0 * Real.sin eta ^ eps, r 1 * Real.cos eta ^ eps])

/-- `uniform_sampling` in 2D once `save_eta` is known (uniform_sampling.hpp:86-97): the three
reflections, then the first point is erased. -/
noncomputable def uniformSampling (r : Pos 2 ℝ) (eps : ℝ) (etas : List ℝ) : List (Pos 2 ℝ) :=
  let that := quadrant r eps etas
  let size := that.length
  let at_ := fun (l : List (Pos 2 ℝ)) (i : ℕ) => l.getD i (fun _ => 0)
  let idx := (List.range size).drop 1
  let that := idx.foldl (fun l i => l ++ [![-(at_ l (size - i - 1) 0), at_ l (size - i - 1) 1]]) that
  let that := idx.foldl (fun l i => l ++ [![-(at_ l i 0), -(at_ l i 1)]]) that
  let that := idx.foldl (fun l i => l ++ [![at_ l (size - i - 1) 0, -(at_ l (size - i - 1) 1)]]) that
  that.drop 1

/-- `surface(k, tol)` in 2D (super_ellipsoid.hpp:173-182), once `save_eta` is known. -/
noncomputable def Shape.surface2 (S : Shape 2) (etas : List ℝ) : List (Pos 2 ℝ) :=
  let that := uniformSampling S.s S.n_ etas
  let that := if isRotate S.q then that.map (rotate2 S.q) else that
  that.map fun p => posAdd p S.center

end Cafes.Geometry
