/-
Model of cafes/particle/particle.hpp, cafes/particle/forces_torques.hpp and
cafes/problem/particle_operator.hpp.

`double` is modelled by the real numbers. A particle is described by what these functions use of it:
`contains`, the integer bounding box `bounding_box(h)`, the list of its surface points
`surface(dpart)`, its centre, velocities, force and the scalars of its shape.
-/
import Verif.Model.Geometry
import Verif.Model.Iterate
import Verif.Model.Operator

namespace Cafes.Particle
open Cafes Cafes.Geometry

variable {d : ℕ} {A : Type*}

/-! particle.hpp: points inside a particle -/

/-- Conversion of an `int` to `std::size_t` (64 bits), cafes/particle/particle.hpp:118-120: a negative
value wraps around. -/
def toSize (x : ℤ) : ℕ := (x % 2 ^ 64).toNat

/-- The loop `for(x=.., ix=..; ix<hi; x+=h, ++ix)` (particle.hpp:119-120, 137-139): the successive values
of `(ix, x)`. -/
noncomputable def coordLoop (h : ℝ) (hi i : ℕ) (x : ℝ) : List (ℕ × ℝ) :=
  if i < hi then (i, x) :: coordLoop h hi (i + 1) (x + h) else []
termination_by hi - i

/-- One direction of the loops of `find_fluid_points_insides`: from `b.bottom_left` to `b.upper_right`,
both converted to `size_t` (the comparison `ix<b.upper_right[0]` is unsigned). -/
noncomputable def dirLoop (b : Box d ℤ) (h : Pos d ℝ) (i : Fin d) : List (ℕ × ℝ) :=
  coordLoop (h i) (toSize (b.ur i)) (toSize (b.bl i)) (b.bl i * h i)

/-- `find_fluid_points_insides` in 2D (particle.hpp:111-127). -/
noncomputable def fluidPoints2 (contains : Pos 2 ℝ → Bool) (b : Box 2 ℤ) (h : Pos 2 ℝ) : List (Pos 2 ℤ) :=
  (dirLoop b h 1).foldl (fun that y =>
    (dirLoop b h 0).foldl (fun that x =>
      if contains ![x.2, y.2] then that ++ [![(x.1 : ℤ), (y.1 : ℤ)]] else that) that) []

/-- `find_fluid_points_insides` in 3D (particle.hpp:129-146). -/
noncomputable def fluidPoints3 (contains : Pos 3 ℝ → Bool) (b : Box 3 ℤ) (h : Pos 3 ℝ) : List (Pos 3 ℤ) :=
  (dirLoop b h 2).foldl (fun that z =>
    (dirLoop b h 1).foldl (fun that y =>
      (dirLoop b h 0).foldl (fun that x =>
        if contains ![x.2, y.2, z.2] then that ++ [![(x.1 : ℤ), (y.1 : ℤ), (z.1 : ℤ)]] else that)
        that) that) []

/-- `static_cast<position<int>>(surf_p[i]/h)` (particle.hpp:155, 173). -/
noncomputable def surfIndex (h p : Pos d ℝ) : Pos d ℤ := fun i => truncInt (posDiv p h i)

/-- `find_surf_points_insides` (particle.hpp:148-161). -/
noncomputable def surfPoints (ps : List (Pos d ℝ)) (b : Box d ℤ) (h : Pos d ℝ) :
    List (Pos d ℤ × Pos d ℝ) :=
  ps.foldl (fun that p =>
    let pi := surfIndex h p
    if b.pointInside pi then that ++ [(pi, posSub p (posMul (fun i => (pi i : ℝ)) h))] else that) []

/-- `find_radial_surf_points_insides` (particle.hpp:163-179). -/
noncomputable def radialPoints (ps : List (Pos d ℝ)) (b : Box d ℤ) (h center : Pos d ℝ) :
    List (Pos d ℝ) :=
  ps.foldl (fun that p =>
    let pi := surfIndex h p
    if b.pointInside pi then that ++ [posSub p center] else that) []

/-- `kernel_num_count` (particle.hpp:230-242) run by `algorithm::iterate(new_box, ..)`
(particle.hpp:288). -/
noncomputable def numCount (contains : Pos d ℝ → Bool) (b : Box d ℤ) (h : Pos d ℝ) (scale : ℕ)
    (num : ℕ) : ℕ :=
  let hs : Pos d ℝ := fun i => h i / scale
  iterate b (fun pos num =>
    iterate (⟨fun _ => 0, fun _ => (scale : ℤ)⟩ : Box d ℤ) (fun ps num =>
      if contains (posAdd (posMul (fun i => (pos i : ℝ)) h) (posMul (fun i => (ps i : ℝ)) hs))
      then num + 1 else num) num) num

/-- What the particle functions use of a particle (`struct particle`, particle.hpp:70-109): `A` is the
type of the angular velocity (a number in 2D, a vector in 3D). -/
structure Part (d : ℕ) (A : Type*) where
  contains : Pos d ℝ → Bool
  bbox : Box d ℤ
  surface : List (Pos d ℝ)
  center : Pos d ℝ
  velocity : Pos d ℝ
  omega : A
  rho : ℝ
  force : Pos d ℝ
  volume : ℝ
  area : ℝ
  cdR : ℝ
  ciR : ℝ

/-- The vectors filled by `set_materials` for one particle on one process. -/
structure PartData (d : ℕ) where
  surf : List (Pos d ℤ × Pos d ℝ)
  radial : List (Pos d ℝ)
  nb : ℕ
  num : ℕ

/-- The state of the vectors after their first `resize` (particle.hpp:256-259). -/
def PartData.empty : PartData d := ⟨[], [], 0, 0⟩

/-- Body of the particle loop of `set_materials` (particle.hpp:273-291), `fluid` being
`find_fluid_points_insides` in the dimension at hand. Returns the new vectors and the number of interior
nodes. -/
noncomputable def partMaterials (fluid : (Pos d ℝ → Bool) → Box d ℤ → Pos d ℝ → List (Pos d ℤ))
    (box : Box d ℤ) (h : Pos d ℝ) (scale : ℕ) (p : Part d A) (old : PartData d) : PartData d × ℕ :=
  if box.intersect p.bbox then
    let nb := box.boxInside p.bbox
    let spts := surfPoints p.surface nb h
    (⟨spts, radialPoints p.surface nb h p.center, spts.length, numCount p.contains nb h scale old.num⟩,
      (fluid p.contains nb h).length)
  else (old, 0)

/-- The size returned by `set_materials` (particle.hpp:252-298) on the process owning `box`. -/
noncomputable def materialsSize (fluid : (Pos d ℝ → Bool) → Box d ℤ → Pos d ℝ → List (Pos d ℤ))
    (box : Box d ℤ) (h : Pos d ℝ) (scale : ℕ) (parts : List (Part d A)) : ℕ :=
  parts.foldl (fun s p => s + (partMaterials fluid box h scale p PartData.empty).2) 0

/-- `set_materials` (particle.hpp:244-298) for one particle on all the processes `r`: the local loop, then
the reductions of `nb_surf_points` and `num` (particle.hpp:294-295). The argument `old` is the content of
the vectors before the call (`resize` keeps it when the size does not change). -/
noncomputable def setMaterials (fluid : (Pos d ℝ → Bool) → Box d ℤ → Pos d ℝ → List (Pos d ℤ))
    (L : Fin d → Dir) (h : Pos d ℝ) (scale : ℕ) (p : Part d A) (old : (Fin d → ℕ) → PartData d) :
    (Fin d → ℕ) → PartData d :=
  let loc := fun r => (partMaterials fluid (getDMBounds L r true) h scale p (old r)).1
  fun r => ⟨(loc r).surf, (loc r).radial, ∑ s ∈ procs L, (loc s).nb, ∑ s ∈ procs L, (loc s).num⟩

/-! particle_operator.hpp: control vector -/

/-- The nodes of a particle visited by a process: `overlap_box` (particle_operator.hpp:85-87,
forces_torques.hpp:87-89) or `box_inside` (particle_operator.hpp:430-432, 471-473) of its box and of the
bounding box, then `find_fluid_points_insides`. -/
noncomputable def partNodes (fluid : (Pos d ℝ → Bool) → Box d ℤ → Pos d ℝ → List (Pos d ℤ))
    (clip : Box d ℤ → Box d ℤ → Box d ℤ) (box : Box d ℤ) (h : Pos d ℝ) (p : Part d A) : List (Pos d ℤ) :=
  if box.intersect p.bbox then fluid p.contains (clip box p.bbox) h else []

/-- `u = petsc_u.at_g(ind); u[i] = v` (particle_operator.hpp:90-96). -/
def setAt {n : ℕ} (u : NodeVec d n ℝ) (p : Pos d ℤ) (c : Fin n) (v : ℝ) : NodeVec d n ℝ :=
  fun q e => if q = p ∧ e = c then v else u q e

/-- `set_rhs_problem_impl` (cafes/problem/particle_operator.hpp:72-103) on one process: `px` is the array
of the control vector; the state is `(num, u)`. -/
noncomputable def setRhsImpl (fluid : (Pos d ℝ → Bool) → Box d ℤ → Pos d ℝ → List (Pos d ℤ))
    (box : Box d ℤ) (h : Pos d ℝ) (px : ℕ → ℝ) (applyForces : Bool) (parts : List (Part d A))
    (u : NodeVec d d ℝ) : ℕ × NodeVec d d ℝ :=
  parts.foldl (fun s p =>
    (partNodes fluid Box.overlap box h p).foldl (fun s ind =>
      (List.finRange d).foldl (fun s i =>
        (s.1 + 1, setAt s.2 ind i (if applyForces then px s.1 + p.rho * p.force i else px s.1))) s) s)
    (0, u)

/-- `set_rhs_problem` up to the mass matrix (particle_operator.hpp:112-118): the force vector is set to
zero, then each process `r` (acting in the order `rs`) writes at the nodes of its box; `pxs r` is its part of
the control vector. -/
noncomputable def controlField (fluid : (Pos d ℝ → Bool) → Box d ℤ → Pos d ℝ → List (Pos d ℤ))
    (L : Fin d → Dir) (rs : List (Fin d → ℕ)) (h : Pos d ℝ) (pxs : (Fin d → ℕ) → ℕ → ℝ)
    (applyForces : Bool) (parts : List (Part d A)) : NodeVec d d ℝ :=
  rs.foldl (fun u r => (setRhsImpl fluid (getDMBounds L r true) h (pxs r) applyForces parts u).2) 0

/-- `set_rhs_problem` (particle_operator.hpp:105-129): the force vector times the mass matrix (`mass` is the
velocity block of `apply_mass_matrix`) is added to the right-hand side. -/
noncomputable def setRhsProblem (fluid : (Pos d ℝ → Bool) → Box d ℤ → Pos d ℝ → List (Pos d ℤ))
    (L : Fin d → Dir) (rs : List (Fin d → ℕ)) (h : Pos d ℝ) (mass : NodeVec d d ℝ → NodeVec d d ℝ)
    (pxs : (Fin d → ℕ) → ℕ → ℝ) (applyForces : Bool) (parts : List (Part d A)) (rhs : NodeVec d d ℝ) :
    NodeVec d d ℝ :=
  fun q c => rhs q c + mass (controlField fluid L rs h pxs applyForces parts) q c

/-- `compute_y` without mean (particle_operator.hpp:452-487) on one process: `sol` is the solution, the
state is `(num, py)`. -/
noncomputable def computeY (fluid : (Pos d ℝ → Bool) → Box d ℤ → Pos d ℝ → List (Pos d ℤ))
    (box : Box d ℤ) (h : Pos d ℝ) (sol : NodeVec d d ℝ) (parts : List (Part d A))
    (py : ℕ → ℝ) : ℕ × (ℕ → ℝ) :=
  parts.foldl (fun s p =>
    (partNodes fluid Box.boxInside box h p).foldl (fun s ind =>
      (List.finRange d).foldl (fun s c =>
        (s.1 + 1, Function.update s.2 s.1 (sol ind c))) s) s)
    (0, py)

/-- The two cross products used with a type `A` of angular velocities: `cross_product(r, g)` and
`cross_product(omega, r)`. -/
structure Spin (d : ℕ) (A : Type*) where
  cross : Pos d ℝ → Pos d ℝ → A
  act : A → Pos d ℝ → Pos d ℝ

/-- 2D (cafes/particle/geometry/cross_product.hpp:39-56). -/
noncomputable def spin2 : Spin 2 ℝ := ⟨cross2, crossZ⟩
/-- 3D (cross_product.hpp:80-86). -/
noncomputable def spin3 : Spin 3 (Pos 3 ℝ) := ⟨cross3, cross3⟩

/-- `compute_y` with the mean and the mean rotation of each particle (particle_operator.hpp:409-450). -/
noncomputable def computeYMean (S : Spin d A)
    (fluid : (Pos d ℝ → Bool) → Box d ℤ → Pos d ℝ → List (Pos d ℤ))
    (box : Box d ℤ) (h : Pos d ℝ) (sol : NodeVec d d ℝ) (parts : List (Part d A × Pos d ℝ × A))
    (py : ℕ → ℝ) : ℕ × (ℕ → ℝ) :=
  parts.foldl (fun s q =>
    (partNodes fluid Box.boxInside box h q.1).foldl (fun s ind =>
      let r : Pos d ℝ := fun i => ind i * h i - q.1.center i
      let tmp := vecAddVec q.2.1 (vecMulScal (S.act q.2.2 r) q.1.ciR)
      (List.finRange d).foldl (fun s c =>
        (s.1 + 1, Function.update s.2 s.1 (sol ind c - tmp c))) s) s)
    (0, py)

/-- Accumulation of `forces_torques_with_control` for one particle on one process
(cafes/particle/forces_torques.hpp:79-97, `set_torques` 36-60): the state is
`(icontrol, force, torque)`. -/
noncomputable def forceLoop [Add A] (S : Spin d A) (h : Pos d ℝ) (pc : ℕ → ℝ) (center : Pos d ℝ)
    (nodes : List (Pos d ℤ)) (s : ℕ × Pos d ℝ × A) : ℕ × Pos d ℝ × A :=
  nodes.foldl (fun s ind =>
    let t := (List.finRange d).foldl (fun (t : ℕ × Pos d ℝ × Pos d ℝ) c =>
      (t.1 + 1, Function.update t.2.1 c (t.2.1 c + pc t.1), Function.update t.2.2 c (pc t.1)))
      (s.1, s.2.1, fun _ => 0)
    (t.1, t.2.1, s.2.2 + S.cross (fun i => ind i * h i - center i) t.2.2)) s

/-- The forces and torques of one process before the reductions (forces_torques.hpp:79-101);
`nbInt` is `integration_points_size`. -/
noncomputable def localForces [AddCommGroup A] [Module ℝ A] (S : Spin d A)
    (fluid : (Pos d ℝ → Bool) → Box d ℤ → Pos d ℝ → List (Pos d ℤ))
    (box : Box d ℤ) (h : Pos d ℝ) (pc : ℕ → ℝ) (parts : List (Part d A × ℕ)) :
    ℕ × List (Pos d ℝ × A) :=
  parts.foldl (fun s q =>
    let t := forceLoop S h pc q.1.center (partNodes fluid Box.overlap box h q.1) (s.1, fun _ => 0, 0)
    (t.1, s.2 ++ [(vecMulScal t.2.1 (q.1.volume / (q.2 : ℝ)), (q.1.volume / (q.2 : ℝ)) • t.2.2)])) (0, [])

/-- `MPI_Allreduce(.., MPI_SUM, ..)` of arrays indexed by particles (forces_torques.hpp:104-105): the
entries of all the processes are added, entry by entry. -/
def allReduce {M : Type*} [AddCommMonoid M] (R : Finset (Fin d → ℕ)) (f : (Fin d → ℕ) → List M) (i : ℕ) : M :=
  ∑ r ∈ R, (f r).getD i 0

/-- The final loop of `forces_torques_with_control` when singularities are on (forces_torques.hpp:114-119):
`forces[ipart*Dimensions][d] += sing_forces[ipart][d]`; `none` when the index is out of bounds. -/
def addSingForces (forces : List (Pos d ℝ)) (sing : List (Pos d ℝ)) : Option (List (Pos d ℝ)) :=
  (List.range sing.length).foldl (fun acc ipart => acc.bind fun l =>
    if ipart * d < l.length then some (l.modify (ipart * d) fun f => fun c => f c + sing.getD ipart 0 c)
    else none) (some forces)

/-! particle_operator.hpp: surface fields -/

/-- `interp_rigid_motion_` (particle_operator.hpp:131-151) at one surface point:
`g -= velocity - cross_product(omega, r)`, the subtraction being `operator-(velocity, vector)` of
vector.hpp:175-181. -/
noncomputable def rigidMotion (S : Spin d A) (p : Part d A) (g r : Pos d ℝ) : Pos d ℝ :=
  vecSubVec g (velSubVec p.velocity (S.act p.omega r))

/-- `interp_fluid_to_surf` at one surface point, without rigid motion (particle_operator.hpp:167-178):
`bf` is `P1_integration(., h)`, `elem` is `get_element`, `sol` the ghosted solution. -/
noncomputable def interpPoint {N : ℕ} (bf : Pos d ℝ → Fin N → ℝ) (elem : Pos d ℤ → Fin N → Pos d ℤ)
    (sol : NodeVec d d ℝ) (pt : Pos d ℤ × Pos d ℝ) : Pos d ℝ :=
  (List.finRange N).foldl (fun g j =>
    (List.finRange d).foldl (fun (g : Pos d ℝ) c =>
      Function.update g c (g c + sol (elem pt.1 j) c * bf pt.2 j)) g) (fun _ => 0)

/-- `simple_layer` (particle_operator.hpp:195-231) for one particle: `data` has for each process the pairs
`(g, radial)` of its surface points, `nb` is `nb_surf_points`. The result is the mean, the mean rotation
and the new values of `g` on each process. -/
noncomputable def simpleLayer [AddCommGroup A] [Module ℝ A] (S : Spin d A) (cdR : ℝ) (nb : ℕ)
    (data : List (List (Pos d ℝ × Pos d ℝ))) : Pos d ℝ × A × List (List (Pos d ℝ)) :=
  let mean : Pos d ℝ := (data.map fun l => l.foldl (fun m x => vecAddVec m x.1) (fun _ => 0)).sum
  let cp : A := (data.map fun l => l.foldl (fun m x => m + S.cross x.2 x.1) 0).sum
  let mean := vecDivScal mean (nb : ℝ)
  let cp := (cdR / nb) • cp
  (mean, cp, data.map fun l => l.map fun x => vecSubVec x.1 (vecAddVec mean (S.act cp x.2)))

/-- `SL_to_Rhs` for one surface point (particle_operator.hpp:248-256). -/
noncomputable def spreadPoint {N : ℕ} (bf : Pos d ℝ → Fin N → ℝ) (elem : Pos d ℤ → Fin N → Pos d ℤ)
    (gammak : ℝ) (g : Pos d ℝ) (pt : Pos d ℤ × Pos d ℝ) (u : NodeVec d d ℝ) : NodeVec d d ℝ :=
  (List.finRange N).foldl (fun u j =>
    (List.finRange d).foldl (fun u c => addAt u (elem pt.1 j) c (g c * bf pt.2 j * gammak)) u) u

/-- `SL_to_Rhs` on one process (particle_operator.hpp:242-258): for each particle `(area, nb, points)`. -/
noncomputable def spreadLocal {N : ℕ} (bf : Pos d ℝ → Fin N → ℝ) (elem : Pos d ℤ → Fin N → Pos d ℤ)
    (parts : List (ℝ × ℕ × List (Pos d ℝ × (Pos d ℤ × Pos d ℝ)))) : NodeVec d d ℝ :=
  parts.foldl (fun u q =>
    let gammak := q.1 / (q.2.1 : ℝ)
    q.2.2.foldl (fun u x => spreadPoint bf elem gammak x.1 x.2 u) u) 0

/-- `SL_to_Rhs` before `SetNullDirichletOnRHS` (particle_operator.hpp:233-265). -/
noncomputable def slToRhs {N : ℕ} (L : Fin d → Dir) (bf : Pos d ℝ → Fin N → ℝ)
    (elem : Pos d ℤ → Fin N → Pos d ℤ)
    (parts : (Fin d → ℕ) → List (ℝ × ℕ × List (Pos d ℝ × (Pos d ℤ × Pos d ℝ)))) : NodeVec d d ℝ :=
  localToGlobalAdd L (fun r => spreadLocal bf elem (parts r)) 0

/-- `kernel_projection` and `projection_impl` for one particle on one process, before the division and the
reduction (particle_operator.hpp:306-378): the state is `(mean, cross)`. -/
noncomputable def projectLoop [Add A] {N : ℕ} (S : Spin d A) (bf : Pos d ℝ → Fin N → ℝ)
    (elem : Pos d ℤ → Fin N → Pos d ℤ) (sol : NodeVec d d ℝ) (contains : Pos d ℝ → Bool)
    (center h : Pos d ℝ) (scale : ℕ) (b : Box d ℤ) (s : Pos d ℝ × A) : Pos d ℝ × A :=
  let hs : Pos d ℝ := fun i => h i / scale
  iterate b (fun pos s =>
    iterate (⟨fun _ => 0, fun _ => (scale : ℤ)⟩ : Box d ℤ) (fun ps s =>
      let corner := posMul (fun i => (ps i : ℝ)) hs
      let pts := posAdd (posMul (fun i => (pos i : ℝ)) h) corner
      if contains pts then
        let tmp := interpPoint bf elem sol (pos, corner)
        let r : Pos d ℝ := fun i => pts i - center i
        (vecAddVec s.1 tmp, s.2 + S.cross r tmp)
      else s) s) s

/-- `projection` for one particle (particle_operator.hpp:340-407): local sums divided by `num`, then summed
over the processes; `sols r` is the ghosted solution of process `r`. -/
noncomputable def projection [AddCommGroup A] [Module ℝ A] {N : ℕ} (S : Spin d A) (L : Fin d → Dir)
    (bf : Pos d ℝ → Fin N → ℝ) (elem : Pos d ℤ → Fin N → Pos d ℤ) (x : NodeVec d d ℝ) (p : Part d A)
    (h : Pos d ℝ) (scale num : ℕ) : Pos d ℝ × A :=
  let loc := fun r =>
    let box := getDMBounds L r true
    let s := if box.intersect p.bbox then
      projectLoop S bf elem (globalToLocal L x) p.contains p.center h scale (box.boxInside p.bbox)
        (fun _ => 0, 0)
      else (fun _ => 0, 0)
    (vecDivScal s.1 (num : ℝ), (num : ℝ)⁻¹ • s.2)
  (∑ r ∈ procs L, (loc r).1, ∑ r ∈ procs L, (loc r).2)

end Cafes.Particle
