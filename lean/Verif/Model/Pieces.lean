/-
The concrete pieces put together by the drivers of Verif/Model/Dton.lean, from the models of
cafes/problem/particle_operator.hpp (Verif/Model/Particle.lean), of cafes/fem/bc.hpp and cafes/fem/rhs.hpp
(Verif/Model/Dirichlet.lean) and of cafes/particle/singularity/add_singularity.hpp (Verif/Model/AddSing.lean).

The fluid vectors are the pairs (velocity, pressure) of the composite mesh; a control vector has one array per
process; a field on the surfaces is indexed by the process, the particle and the number of the surface point.
-/
import Verif.Model.Dton
import Verif.Model.StokesRhs
import Verif.Model.AddSing

namespace Cafes.Driver
open Cafes Cafes.Particle Cafes.Geometry Cafes.AddSing

variable {d N : ℕ} {A : Type*}

/-- The data of a particle problem: the context of the fluid problem (cafes/problem/context.hpp:40-75) and the
context of the particles (context.hpp:77-104). -/
structure Setup (d N : ℕ) (A : Type*) where
  /-- velocity mesh -/
  L : Fin d → Dir
  /-- the processes -/
  rs : List (Fin d → ℕ)
  h : Pos d ℝ
  /-- `bc_` -/
  bc : BC d ℝ
  /-- `rhs_` -/
  src : Fin d → Cond d ℝ
  /-- `P1_integration(., h)` -/
  bf : Pos d ℝ → Fin N → ℝ
  /-- `P1_integration_grad(., h)` -/
  bfg : Pos d ℝ → Fin N → Pos d ℝ
  /-- `get_element` -/
  elem : Pos d ℤ → Fin N → Pos d ℤ
  /-- `getMatElemMass(h)` -/
  M : Fin N → Fin N → ℝ
  /-- `find_fluid_points_insides` -/
  fluid : (Pos d ℝ → Bool) → Box d ℤ → Pos d ℝ → List (Pos d ℤ)
  S : Spin d A
  parts : List (Part d A)
  /-- `scale` of the context -/
  scale : ℕ
  /-- the pairs of particles with a singularity -/
  pairs : List (Pair d)
  /-- `sing.scale` -/
  singScale : ℕ

/-- `surf_points`, `radial_vec`, `nb_surf_points`, `num` of the particle `i` on the process `r` after the call of
`set_materials` in `create_Mat_and_Vec` (dton.hpp:145-160, sem.hpp:132-143). -/
noncomputable def Setup.data (D : Setup d N A) (i : ℕ) (r : Fin d → ℕ) : PartData d :=
  match D.parts[i]? with
  | some p => setMaterials D.fluid D.L D.h D.scale p (fun _ => PartData.empty) r
  | none => PartData.empty

/-- The velocity part of `apply_mass_matrix` (cafes/fem/matrixFree.hpp:271-294). -/
noncomputable def Setup.mass (D : Setup d N A) : NodeVec d d ℝ → NodeVec d d ℝ :=
  blockMatrix D.L (diagBlockMult D.L D.elem D.M)

/-- Fields on the surfaces: process, particle, surface point. -/
abbrev SurfField (d : ℕ) := (Fin d → ℕ) → ℕ → ℕ → Pos d ℝ

/-- `interp_fluid_to_surf` (particle_operator.hpp:153-193) without rigid motion. -/
noncomputable def Setup.interp (D : Setup d N A) (u : NodeVec d d ℝ) : SurfField d := fun r i k =>
  match (D.data i r).surf[k]? with
  | some pt => interpPoint D.bf D.elem (globalToLocal D.L u) pt
  | none => 0

/-- `interp_rigid_motion_` (particle_operator.hpp:131-151) on all the surface points. -/
noncomputable def Setup.rigidOn (D : Setup d N A) (g : SurfField d) : SurfField d := fun r i k =>
  match D.parts[i]?, (D.data i r).radial[k]? with
  | some p, some x => rigidMotion D.S p (g r i k) x
  | _, _ => g r i k

/-- `SL_to_Rhs` (particle_operator.hpp:233-265) before `SetNullDirichletOnRHS`. -/
noncomputable def Setup.sl (D : Setup d N A) (g : SurfField d) : NodeVec d d ℝ :=
  slToRhs D.L D.bf D.elem fun r => D.parts.zipIdx.map fun p =>
    (p.1.area, (D.data p.2 r).nb, (D.data p.2 r).surf.zipIdx.map fun s => (g r p.2 s.2, s.1))

/-- `simple_layer` (particle_operator.hpp:195-231) on all the particles: the new field. -/
noncomputable def Setup.layer [AddCommGroup A] [Module ℝ A] (D : Setup d N A) (g : SurfField d) : SurfField d :=
  fun r i k =>
  match D.parts[i]? with
  | some p =>
    let res := (simpleLayer D.S p.cdR (D.data i r).nb (D.rs.map fun r' =>
      (D.data i r').radial.zipIdx.map fun x => (g r' i x.2, x.1))).2.2
    (res.getD (D.rs.idxOf r) []).getD k 0
  | none => 0

/-- `compute_y` (particle_operator.hpp:452-487) on all the processes. -/
noncomputable def Setup.y (D : Setup d N A) (u : NodeVec d d ℝ) : (Fin d → ℕ) → ℕ → ℝ := fun r =>
  (computeY D.fluid (getDMBounds D.L r true) D.h u D.parts 0).2

/-- `projection` then `compute_y` with the means (sem.hpp:87-89). -/
noncomputable def Setup.yMean [AddCommGroup A] [Module ℝ A] (D : Setup d N A) (u : NodeVec d d ℝ) :
    (Fin d → ℕ) → ℕ → ℝ := fun r =>
  (computeYMean D.S D.fluid (getDMBounds D.L r true) D.h u (D.parts.zipIdx.map fun p =>
    (p.1, projection D.S D.L D.bf D.elem u p.1 D.h D.scale (D.data p.2 r).num)) 0).2

/-- The pieces of the drivers for the data `D`, the fluid solver being `solve`. -/
noncomputable def Setup.pieces [AddCommGroup A] [Module ℝ A] (D : Setup d N A)
    (solve : NodeVec d d ℝ × NodeVec d 1 ℝ → NodeVec d d ℝ × NodeVec d 1 ℝ) :
    Fluid (NodeVec d d ℝ × NodeVec d 1 ℝ) ((Fin d → ℕ) → ℕ → ℝ) (SurfField d) where
  solve := solve
  source := (if hasCondition D.src then setRhs D.L D.rs D.src D.h (diagBlockMult D.L D.elem D.M) 0 else 0, 0)
  setBC v := (setDirichletOnRHS D.L D.rs D.bc D.h v.1, v.2)
  setNull v := (setNullDirichletOnRHS D.L D.rs D.bc v.1, v.2)
  ctl x := (D.mass (controlField D.fluid D.L D.rs D.h x false D.parts), 0)
  ext := (D.mass (controlField D.fluid D.L D.rs D.h 0 true D.parts), 0)
  sing := (addInFluid D.L D.bfg D.elem D.singScale D.h D.pairs 0, 0)
  interp v := D.interp v.1
  rigid := D.rigidOn 0
  sl g := (D.sl g, 0)
  y v := D.y v.1
  layer := D.layer
  yMean v := D.yMean v.1

end Cafes.Driver
