/-
Model of the index arithmetic of the NtoD operator: cafes/problem/ntod.hpp.

As written the templates of this file do not instantiate: `forces_torques_with_control` takes a
`std::vector<geometry::vector<double, Dimensions>>` and is given a `std::vector<double>` (ntod.hpp:104-119), and in 2D
`angular_velocity_` is a `double` (cafes/particle/particle.hpp:77-79) on which ntod.hpp:86 uses `[2]`; the tests of NtoD
are commented out in tests/CMakeLists.txt. Only the loops over the particles, which fix the layout of the vectors, are
modelled.
-/
import Mathlib.Data.List.Basic
import Mathlib.Data.Fintype.Basic

namespace Cafes.Ntod

/-- The loop of `create_Mat_and_Vec` (cafes/problem/ntod.hpp:190-201): the local size, `inter ipart` telling whether
the box of the particle intersects the box of the process, `D` components of force, `T` of torque. -/
def localSize (D T n : ℕ) (inter : ℕ → Bool) : ℕ :=
  (List.range n).foldl (fun size i => if inter i then size + 1 else size) 0 * (D + T)

/-- The two inner loops on one particle (cafes/problem/ntod.hpp:83-90, 130-133, 283-286): the slots `num++` for the
`D` translations, then for the `T` rotations, and the new value of `num`. -/
def partSlots (D T num : ℕ) : List ℕ × ℕ :=
  (List.range (D + T)).foldl (fun s _ => (s.1 ++ [s.2], s.2 + 1)) ([], num)

/-- The loops over the particles (cafes/problem/ntod.hpp:77-92, 124-135, 277-298): the slots of `x`, `y` or `sol` used
for each particle, with its number. -/
def slots (D T n : ℕ) (inter : ℕ → Bool) : List (ℕ × List ℕ) × ℕ :=
  (List.range n).foldl (fun s i =>
    if inter i then
      let r := partSlots D T s.2
      (s.1 ++ [(i, r.1)], r.2)
    else s) ([], 0)

/-- The entry of the vector `torques` (of size `n * T`) that is read for the rotation `d` of the particle `i`
(cafes/problem/ntod.hpp:133): `torques[ipart*Dimensions + d]`; `none` when it is out of bounds. -/
def torqueEntry {K : Type*} (D : ℕ) (torques : List K) (i d : ℕ) : Option K := torques[i * D + d]?

/-- The entry of the vector `forces` (of size `n * D`) that is read (cafes/problem/ntod.hpp:131). -/
def forceEntry {K : Type*} (D : ℕ) (forces : List K) (i d : ℕ) : Option K := forces[i * D + d]?

end Cafes.Ntod
