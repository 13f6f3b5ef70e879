/-
Model of the sampling of the surface of a super-ellipsoid in 3D: the overload `surface(k, tol)` for
`std::array<double, 2>` (cafes/particle/geometry/super_ellipsoid.hpp:216-244) and the ring sampling
`uniform_sampling(r, eps, k, z, phi, tol)` (cafes/particle/geometry/uniform_sampling.hpp:99-148).
-/
import Verif.Model.Geometry

namespace Cafes.Geometry
open Cafes

/-! `std::vector`, as far as the overload relies on it: the elements and the capacity. -/

/-- A `std::vector`: its elements and its capacity (used at super_ellipsoid.hpp:219). -/
structure CVec (α : Type*) where
  data : List α
  cap : ℕ

/-- The vector declared at super_ellipsoid.hpp:219. -/
def CVec.empty {α : Type*} : CVec α := ⟨[], 0⟩

/-- Appending elements at the end: `that.insert(that.end(), first, last)` (super_ellipsoid.hpp:237-238) and
`that.push_back(x)` (super_ellipsoid.hpp:241). The boolean tells whether the elements have been moved to a new
block, of capacity `grow size cap need` (`grow` is the growth policy of the standard library), which invalidates
all the iterators and references to the elements. -/
def CVec.append {α : Type*} (grow : ℕ → ℕ → ℕ → ℕ) (v : CVec α) (l : List α) : CVec α × Bool :=
  let need := v.data.length + l.length
  if need ≤ v.cap then (⟨v.data ++ l, v.cap⟩, false) else (⟨v.data ++ l, grow v.data.length v.cap need⟩, true)

/-- What the growth policies of the standard libraries in use have in common: a vector whose `need` elements
do not fit is given room for them, and at most twice its former capacity if this is enough
(libstdc++: `size + max(size, n)`; libc++: `max(2 cap, need)`; MSVC: `max(cap + cap / 2, need)`). -/
def Growth (grow : ℕ → ℕ → ℕ → ℕ) : Prop :=
  ∀ size cap need, size ≤ cap → cap < need →
    need ≤ grow size cap need ∧ grow size cap need ≤ max (2 * cap) need

/-- `std::for_each(that.begin(), that.end(), [&](auto& p){ that.push_back(f(p)); })`
(super_ellipsoid.hpp:241): `mirrorFrom grow f m i v ok` runs the last `m` iterations, from the element of index
`i`, through the iterators obtained before the loop; `ok` tells that these are still valid. Dereferencing an
invalid iterator is undefined behaviour: the result is then `none`. -/
def mirrorFrom {α : Type*} (grow : ℕ → ℕ → ℕ → ℕ) (f : α → α) : ℕ → ℕ → CVec α → Bool → Option (CVec α)
  | 0, _, v, _ => some v
  | m + 1, i, v, ok =>
    if ok then
      match v.data[i]? with
      | none => none
      | some p =>
        let r := v.append grow [f p]
        mirrorFrom grow f m (i + 1) r.1 (!r.2)
    else none

/-! `uniform_sampling` in 3D -/

/-- The loop `while (eta < M_PI/4)` of the ring sampling (uniform_sampling.hpp:109-126) started at `eta`:
`RingEtas eps k phi tol eta l` means that it terminates, having recorded `save_eta = l`. -/
inductive RingEtas (eps k phi tol : ℝ) : ℝ → List ℝ → Prop
  | stop (eta : ℝ) (h : ¬ eta < Real.pi / 4) : RingEtas eps k phi tol eta []
  | step (eta : ℝ) (l : List ℝ) (h : eta < Real.pi / 4)
      (rest : RingEtas eps k phi tol
        (if phi = 0 then Real.pi / 4 else eta + thetaStep phi phi eta eps k tol) l) :
      RingEtas eps k phi tol eta (eta :: l)

/-- The points of the first quadrant of a ring (uniform_sampling.hpp:109-135). -/
noncomputable def quadrant3 (r : Pos 3 ℝ) (eps z phi : ℝ) (etas : List ℝ) : List (Pos 3 ℝ) :=
  (etas.map fun eta => ![r 0 * Real.cos eta ^ eps * phi, r 1 * Real.sin eta ^ eps * phi, z]) ++
  (etas.reverse.map fun eta => ![r 0 * Real.sin eta ^ eps * phi, r 1 * Real.cos eta ^ eps * phi, z])

/-- `uniform_sampling` in 3D once `save_eta` is known (uniform_sampling.hpp:136-148): the three reflections,
then the first point is erased. -/
noncomputable def uniformSampling3 (r : Pos 3 ℝ) (eps z phi : ℝ) (etas : List ℝ) : List (Pos 3 ℝ) :=
  let that := quadrant3 r eps z phi etas
  let size := that.length
  let at_ := fun (l : List (Pos 3 ℝ)) (i : ℕ) => l.getD i (fun _ => 0)
  let idx := (List.range size).drop 1
  let that := idx.foldl (fun l i => l ++ [![-(at_ l (size - i - 1) 0), at_ l (size - i - 1) 1,
    at_ l (size - i - 1) 2]]) that
  let that := idx.foldl (fun l i => l ++ [![-(at_ l i 0), -(at_ l i 1), at_ l i 2]]) that
  let that := idx.foldl (fun l i => l ++ [![at_ l (size - i - 1) 0, -(at_ l (size - i - 1) 1),
    at_ l (size - i - 1) 2]]) that
  that.drop 1

/-! `surface` in 3D -/

/-- The loop `while (omega1 < M_PI/4)` (super_ellipsoid.hpp:224-240) started at `omega1`, `omega2` and with the
points `v`: `Rings grow S k tol omega1 omega2 v v'` means that it terminates with the points `v'`. -/
inductive Rings (grow : ℕ → ℕ → ℕ → ℕ) (S : Shape 3) (k : Fin 2 → ℝ) (tol : ℝ) :
    ℝ → ℝ → CVec (Pos 3 ℝ) → CVec (Pos 3 ℝ) → Prop
  | stop (omega1 omega2 : ℝ) (v : CVec (Pos 3 ℝ)) (h : ¬ omega1 < Real.pi / 4) :
      Rings grow S k tol omega1 omega2 v v
  | step (omega1 omega2 : ℝ) (v v' : CVec (Pos 3 ℝ)) (eta1 eta2 : List ℝ) (h : omega1 < Real.pi / 4)
      (h1 : RingEtas S.n_ (k 0) (Real.cos omega1 ^ S.e_) tol 0 eta1)
      (h2 : RingEtas S.n_ (k 0) (Real.sin omega2 ^ S.e_) tol 0 eta2)
      (rest : Rings grow S k tol (omega1 + thetaStep 1 1 omega1 S.e_ (k 1) tol)
        (omega2 + thetaStep 1 1 omega2 S.e_ (k 1) tol)
        ((v.append grow (uniformSampling3 S.s S.n_ (S.s 2 * Real.sin omega1 ^ S.e_)
          (Real.cos omega1 ^ S.e_) eta1)).1.append grow
          (uniformSampling3 S.s S.n_ (S.s 2 * Real.cos omega2 ^ S.e_) (Real.sin omega2 ^ S.e_) eta2)).1 v') :
      Rings grow S k tol omega1 omega2 v v'

/-- `surface(k, tol)` in 3D (super_ellipsoid.hpp:216-244) terminates with the result `res`, `none` standing for
undefined behaviour. The rotation of the shape is not used. -/
def Surface3 (grow : ℕ → ℕ → ℕ → ℕ) (S : Shape 3) (k : Fin 2 → ℝ) (tol : ℝ)
    (res : Option (List (Pos 3 ℝ))) : Prop :=
  ∃ v : CVec (Pos 3 ℝ), Rings grow S k tol 0 0 CVec.empty v ∧
    res = (mirrorFrom grow (fun p => ![p 0, p 1, -p 2]) v.data.length 0 v true).map
      fun v => v.data.map fun p => ![p 0 + S.center 0, p 1 + S.center 1, p 2 + S.center 2]

end Cafes.Geometry
