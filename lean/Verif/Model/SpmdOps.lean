/-
The functions of the particle problems as programs of the processes (Verif/Model/Spmd.lean): every process has its own
memory, with its own part of the vectors, and the processes only meet in the collective operations.

Simplification: the pressure part of the force vector of `set_rhs_problem` is zero and stays zero in
`apply_mass_matrix`; its ghost exchanges, which carry zeros, are left out.
-/
import Verif.Model.Spmd
import Verif.Model.Pieces
import Verif.Model.Work
import Verif.Model.SemPost

namespace Cafes.Spmd
open Cafes Cafes.Particle Cafes.Driver Cafes.Geometry

variable {d N : ℕ} {A : Type}

/-- The processes. -/
abbrev Rank (L : Fin d → Dir) := {r : Fin d → ℕ // r ∈ procs L}

/-- The collective operations of the library. -/
inductive Kind
  /-- `MPI_Allreduce(MPI_IN_PLACE, .., MPI_INT, MPI_SUM, ..)` (particle.hpp:294-295) -/
  | sumInt
  /-- `MPI_Allreduce(MPI_IN_PLACE, .., MPI_DOUBLE, MPI_SUM, ..)` of vectors (forces_torques.hpp:104,
  particle_operator.hpp:212, 403) -/
  | sumVec
  /-- `MPI_Allreduce(MPI_IN_PLACE, .., MPI_DOUBLE, MPI_SUM, ..)` of torques (forces_torques.hpp:105,
  particle_operator.hpp:213, 404) -/
  | sumRot
  /-- `petsc_vec::global_to_local(INSERT_VALUES)` (cafes/petsc/vec.hpp:180-190) -/
  | ghosts
  /-- `petsc_vec::local_to_global(ADD_VALUES)` (cafes/petsc/vec.hpp:168-178) -/
  | assemble
  /-- `problem.solve()` (cafes/problem/stokes.hpp:401-411): `KSPSolve` -/
  | solve

/-- The messages. -/
def Kind.Val (d : ℕ) (A : Type) : Kind → Type
  | sumInt => List ℕ
  | sumVec => List (Pos d ℝ)
  | sumRot => List A
  | ghosts => NodeVec d d ℝ
  | assemble => NodeVec d d ℝ
  | solve => NodeVec d d ℝ × NodeVec d 1 ℝ

/-- The sum, entry by entry, of the arrays of all the processes (contract of `MPI_Allreduce` with `MPI_SUM`), for an
array of `n` entries. -/
def sumLists {ι M : Type} [Fintype ι] [AddCommMonoid M] (n : ℕ) (a : ι → List M) : List M :=
  (List.range n).map fun k => ∑ j, (a j).getD k 0

/-- What is held by the processes, as a function of all the grid coordinates. -/
def everywhere {V : Type} [Zero V] (L : Fin d → Dir) (v : Rank L → V) : (Fin d → ℕ) → V :=
  fun r => if h : r ∈ procs L then v ⟨r, h⟩ else 0

/-- The vector whose parts are held by the processes (contract of the global vectors of PETSc: every node has its value
on the process that owns it). -/
noncomputable def glue {n : ℕ} (L : Fin d → Dir) (v : (Fin d → ℕ) → NodeVec d n ℝ) : NodeVec d n ℝ :=
  fun g c => ∑ r ∈ procs L, if (getDMBounds L r false).pointInside g then v r g c else 0

/-- What the collective operations do on the meshes `L` (velocity) and `Lp` (pressure), with the fluid solver `slv`. -/
noncomputable def comm [AddCommGroup A] (L Lp : Fin d → Dir)
    (slv : NodeVec d d ℝ × NodeVec d 1 ℝ → NodeVec d d ℝ × NodeVec d 1 ℝ) : Comm (Rank L) where
  Kind := Kind
  Val := Kind.Val d A
  comb k := match k with
    | .sumInt => fun (a : Rank L → List ℕ) i => sumLists (a i).length a
    | .sumVec => fun (a : Rank L → List (Pos d ℝ)) i => sumLists (a i).length a
    | .sumRot => fun (a : Rank L → List A) i => sumLists (a i).length a
    | .ghosts => fun (v : Rank L → NodeVec d d ℝ) _ => globalToLocal L (glue L (everywhere L v))
    | .assemble => fun (v : Rank L → NodeVec d d ℝ) _ => localToGlobalAdd L (everywhere L v) 0
    | .solve => fun (v : Rank L → NodeVec d d ℝ × NodeVec d 1 ℝ) _ =>
      slv (glue L (everywhere L fun r => (v r).1), glue Lp (everywhere L fun r => (v r).2))

/-- The memory of a process. -/
structure Mem (d : ℕ) (A : Type) where
  /-- the flags of the context (cafes/problem/context.hpp:101-103) -/
  flags : Flags
  /-- its part of the control vectors -/
  x : ℕ → ℝ
  y : ℕ → ℝ
  /-- its part of `problem.rhs` and `problem.sol` -/
  rhs : NodeVec d d ℝ × NodeVec d 1 ℝ
  sol : NodeVec d d ℝ × NodeVec d 1 ℝ
  /-- its part of the work vectors: `tmp` of `set_rhs` or `forces` of `set_rhs_problem`, and `mass_mult` -/
  tmp : NodeVec d d ℝ
  mm : NodeVec d d ℝ
  /-- its ghosted work arrays, the one that is read and the one that is written -/
  la : NodeVec d d ℝ
  lb : NodeVec d d ℝ
  /-- `surf_points`, `radial_vec`, `nb_surf_points`, `num` -/
  surf : ℕ → List (Pos d ℤ × Pos d ℝ)
  radial : ℕ → List (Pos d ℝ)
  nb : List ℕ
  num : List ℕ
  /-- `g`, `mean`, `cross_prod` -/
  g : ℕ → ℕ → Pos d ℝ
  mean : List (Pos d ℝ)
  cross : List A

section
variable [AddCommGroup A] [Module ℝ A] (D : Setup d N A) (Lp : Fin d → Dir)
  (slv : NodeVec d d ℝ × NodeVec d 1 ℝ → NodeVec d d ℝ × NodeVec d 1 ℝ) (r : Fin d → ℕ)

/-- The programs of the processes. -/
abbrev Code := Stmt (comm (A := A) D.L Lp slv) (Mem d A)

/-- The values of a global vector on the nodes of the process `r` of the mesh `L`. -/
def ownPart {n : ℕ} (L : Fin d → Dir) (r : Fin d → ℕ) (v old : NodeVec d n ℝ) : NodeVec d n ℝ :=
  fun p => if (getDMBounds L r false).pointInside p then v p else old p

/-- `petsc_vec::global_to_local` (cafes/petsc/vec.hpp:180-190): the ghosted window is filled. -/
def readGhosts (send : Mem d A → NodeVec d d ℝ) : Code D Lp slv :=
  .coll Kind.ghosts (fun _ => 0) send fun s (v : NodeVec d d ℝ) =>
    { s with la := fun p => if p ∈ (ghostWindow D.L r).visited then v p else s.la p }

/-- `petsc_vec::fill(0.)` (cafes/petsc/vec.hpp:192-200). -/
def fillLocal : Code D Lp slv :=
  .loc fun s => { s with lb := fun p => if p ∈ (ghostWindow D.L r).visited then 0 else s.lb p }

/-- `petsc_vec::local_to_global(ADD_VALUES)` (cafes/petsc/vec.hpp:168-178) to `problem.rhs`. -/
def addToRhs : Code D Lp slv :=
  .coll Kind.assemble (fun _ => 0) (fun s => s.lb) fun s (v : NodeVec d d ℝ) =>
    { s with rhs := (ownPart D.L r (fun p c => s.rhs.1 p c + v p c) s.rhs.1, s.rhs.2) }

/-- `mass_mult` (cafes/fem/operator.hpp) on the ghosted arrays. -/
def massLocal : Code D Lp slv := .loc fun s => { s with lb := diagBlockMult D.L D.elem D.M r s.la s.lb }

/-- `set_rhs` (cafes/fem/rhs.hpp:87-113). -/
noncomputable def setRhsProg : Code D Lp slv := seqs [
  .loc fun s => { s with tmp := fun _ _ => 0 },
  .loc fun s => { s with tmp := Cafes.setRhsImpl D.L r D.src D.h s.tmp },
  readGhosts D Lp slv r fun s => s.tmp,
  fillLocal D Lp slv r,
  massLocal D Lp slv r,
  addToRhs D Lp slv r]

/-- `SetDirichletOnRHS` (cafes/fem/bc.hpp:151-164) on the part of the process. -/
noncomputable def bcProg : Code D Lp slv :=
  .loc fun s => { s with rhs := (setDirichletImpl D.L r D.bc (kernelFuncOnBC D.h) s.rhs.1, s.rhs.2) }

/-- `SetNullDirichletOnRHS` (cafes/fem/bc.hpp:166-178) on the part of the process. -/
noncomputable def nullProg : Code D Lp slv :=
  .loc fun s => { s with rhs := (setDirichletImpl D.L r D.bc (kernelConstOnBC 0) s.rhs.1, s.rhs.2) }

/-- `stokes::setup_RHS` (cafes/problem/stokes.hpp:311-326). -/
noncomputable def setupRhsProg : Code D Lp slv := seqs [
  .ite (fun _ => hasCondition D.src) (setRhsProg D Lp slv r) .skip,
  bcProg D Lp slv r]

/-- `add_singularity_in_fluid` (cafes/particle/singularity/add_singularity.hpp:522-590): the loop on the pairs, where
each process only looks at the pairs that meet its box, waits for nobody. -/
noncomputable def inFluidProg : Code D Lp slv := seqs [
  fillLocal D Lp slv r,
  .loc fun s => { s with lb := (AddSing.pairsLoop D.singScale D.h (getDMBounds D.L r true)
    (AddSing.stKernel D.bfg D.elem (AddSing.coef d D.singScale)) D.pairs s.lb) },
  addToRhs D Lp slv r]

/-- `set_rhs_problem` (cafes/problem/particle_operator.hpp:105-129); `VecAXPY` is local. -/
noncomputable def controlProg (af : Mem d A → Bool) : Code D Lp slv := seqs [
  .loc fun s => { s with tmp := fun _ _ => 0 },
  .loc fun s => { s with tmp :=
    (Particle.setRhsImpl D.fluid (getDMBounds D.L r true) D.h s.x (af s) D.parts s.tmp).2 },
  .loc fun s => { s with mm := fun _ _ => 0 },
  readGhosts D Lp slv r fun s => s.tmp,
  fillLocal D Lp slv r,
  massLocal D Lp slv r,
  .coll Kind.assemble (fun _ => 0) (fun s => s.lb) fun s (v : NodeVec d d ℝ) =>
    { s with mm := ownPart D.L r (fun p c => s.mm p c + v p c) s.mm },
  .loc fun s => { s with rhs := (fun p c => s.rhs.1 p c + s.mm p c, s.rhs.2) }]

/-- `init_problem` (cafes/problem/particle_operator.hpp:273-303). -/
noncomputable def initProg (af : Mem d A → Bool) : Code D Lp slv := seqs [
  .ite (fun s => s.flags.computeRhs) (setupRhsProg D Lp slv r) .skip,
  .ite (fun s => s.flags.computeSing) (inFluidProg D Lp slv r) .skip,
  controlProg D Lp slv r af,
  .ite (fun s => s.flags.computeRhs) (bcProg D Lp slv r) (nullProg D Lp slv r)]

/-- `problem.solve()` (cafes/problem/stokes.hpp:401-411): each process gets its part of the solution. -/
def solveProg : Code D Lp slv :=
  .coll Kind.solve (fun _ => 0) (fun s => s.rhs) fun s (v : NodeVec d d ℝ × NodeVec d 1 ℝ) =>
    { s with sol := (ownPart D.L r v.1 s.sol.1, ownPart Lp r v.2 s.sol.2) }

/-- `g.resize(..)` of the new vector `g` (dton.hpp:78-82, sem.hpp:70-73) and `interp_fluid_to_surf`
(cafes/problem/particle_operator.hpp:153-193) with `interp_rigid_motion_` (131-151). -/
noncomputable def interpProg (rigid : Mem d A → Bool) : Code D Lp slv := seqs [
  .loc fun s => { s with g := fun _ _ _ => 0 },
  readGhosts D Lp slv r fun s => s.sol.1,
  .loc fun s => { s with g := fun i k =>
    match (s.surf i)[k]? with
    | some pt => interpPoint D.bf D.elem s.la pt
    | none => s.g i k },
  .ite rigid (.loc fun s => { s with g := fun i k =>
    match D.parts[i]?, (s.radial i)[k]? with
    | some p, some x => rigidMotion D.S p (s.g i k) x
    | _, _ => s.g i k }) .skip]

/-- The two reductions of `mean` and `cross_prod` (particle_operator.hpp:212-213, 403-404). -/
def reduceProg : Code D Lp slv := .seq
  (.coll Kind.sumVec (fun s => s.mean.length * d) (fun s => s.mean) fun s (v : List (Pos d ℝ)) => { s with mean := v })
  (.coll Kind.sumRot (fun s => s.cross.length * if d = 2 then 1 else 3) (fun s => s.cross)
    fun s (v : List A) => { s with cross := v })

/-- The new vectors `mean` and `cross_prod` (sem.hpp:78-82), then `simple_layer`
(cafes/problem/particle_operator.hpp:195-231). -/
noncomputable def layerProg : Code D Lp slv := seqs [
  .loc fun s => { s with mean := List.replicate D.parts.length (fun _ => 0), cross := List.replicate D.parts.length 0 },
  .loc fun s => { s with
    mean := s.mean.mapIdx fun i m => (List.range (s.surf i).length).foldl (fun m k => vecAddVec m (s.g i k)) m
    cross := s.cross.mapIdx fun i m => (List.range (s.surf i).length).foldl
      (fun m k => m + D.S.cross ((s.radial i).getD k 0) (s.g i k)) m },
  reduceProg D Lp slv,
  .loc fun s => { s with
    mean := s.mean.mapIdx fun i m => vecDivScal m (s.nb.getD i 0 : ℝ)
    cross := s.cross.mapIdx fun i m =>
      ((D.parts[i]?.elim 0 fun p => p.cdR) / (s.nb.getD i 0 : ℝ)) • m },
  .loc fun s => { s with g := (fun i k =>
    if i < D.parts.length ∧ k < (s.surf i).length then
      vecSubVec (s.g i k) (vecAddVec (s.mean.getD i 0) (D.S.act (s.cross.getD i 0) ((s.radial i).getD k 0)))
    else s.g i k) }]

/-- `SL_to_Rhs` (cafes/problem/particle_operator.hpp:233-271). -/
noncomputable def slProg : Code D Lp slv := seqs [
  .loc fun s => { s with rhs := (fun _ _ => 0, fun _ _ => 0) },
  fillLocal D Lp slv r,
  .loc fun s => { s with lb := Work.spreadFrom D.bf D.elem (D.parts.zipIdx.map fun p =>
    (p.1.area, s.nb.getD p.2 0, (s.surf p.2).zipIdx.map fun q => (s.g p.2 q.2, q.1))) s.lb },
  addToRhs D Lp slv r,
  nullProg D Lp slv r]

/-- The body of the particle loop of `projection_impl` (cafes/problem/particle_operator.hpp:363-377): the branch is
taken by the processes whose box meets the particle. -/
noncomputable def projBody (q : Part d A × ℕ) : Code D Lp slv := seqs [
  .loc fun s => { s with mean := s.mean.set q.2 (fun _ => 0), cross := s.cross.set q.2 0 },
  .ite (fun _ => (getDMBounds D.L r true).intersect q.1.bbox)
    (.loc fun s =>
      let t := projectLoop D.S D.bf D.elem s.la q.1.contains q.1.center D.h D.scale
        ((getDMBounds D.L r true).boxInside q.1.bbox) (s.mean.getD q.2 0, s.cross.getD q.2 0)
      { s with mean := s.mean.set q.2 t.1, cross := s.cross.set q.2 t.2 })
    .skip,
  .loc fun s => { s with
    mean := s.mean.set q.2 (vecDivScal (s.mean.getD q.2 0) (s.num.getD q.2 0 : ℝ))
    cross := s.cross.set q.2 ((s.num.getD q.2 0 : ℝ)⁻¹ • s.cross.getD q.2 0) }]

/-- `projection` (cafes/problem/particle_operator.hpp:340-407). -/
noncomputable def projProg : Code D Lp slv := seqs [
  readGhosts D Lp slv r fun s => s.sol.1,
  seqs (D.parts.zipIdx.map fun q => projBody D Lp slv r q),
  reduceProg D Lp slv]

/-- The body of the particle loop of `set_materials` (cafes/particle/particle.hpp:273-291): the branch is taken by the
processes whose box meets the particle. -/
noncomputable def materialsBody (q : Part d A × ℕ) : Code D Lp slv :=
  .ite (fun _ => (getDMBounds D.L r true).intersect q.1.bbox)
    (.loc fun s =>
      let t := (partMaterials D.fluid (getDMBounds D.L r true) D.h D.scale q.1
        ⟨s.surf q.2, s.radial q.2, s.nb.getD q.2 0, s.num.getD q.2 0⟩).1
      { s with
        surf := Function.update s.surf q.2 t.surf
        radial := Function.update s.radial q.2 t.radial
        nb := s.nb.set q.2 t.nb
        num := s.num.set q.2 t.num })
    .skip

/-- `set_materials` (cafes/particle/particle.hpp:244-298), on the new vectors of `create_Mat_and_Vec` (dton.hpp:145-160,
sem.hpp:132-143). -/
noncomputable def materialsProg : Code D Lp slv := seqs [
  .loc fun s => { s with
    surf := fun _ => [], radial := fun _ => []
    nb := List.replicate D.parts.length 0, num := List.replicate D.parts.length 0 },
  seqs (D.parts.zipIdx.map fun q => materialsBody D Lp slv r q),
  .coll Kind.sumInt (fun _ => D.parts.length) (fun s => s.nb) fun s (v : List ℕ) => { s with nb := v },
  .coll Kind.sumInt (fun _ => D.parts.length) (fun s => s.num) fun s (v : List ℕ) => { s with num := v }]

/-- `DtoN_matrix` (cafes/problem/dton.hpp:58-99). -/
noncomputable def dtonProg : Code D Lp slv := seqs [
  .loc fun s => { s with rhs := (fun _ _ => 0, fun _ _ => 0) },
  initProg D Lp slv r fun _ => false,
  solveProg D Lp slv r,
  interpProg D Lp slv r fun s => s.flags.addRigid,
  slProg D Lp slv r,
  solveProg D Lp slv r,
  .loc fun s => { s with y := (computeY D.fluid (getDMBounds D.L r true) D.h s.sol.1 D.parts s.y).2 }]

/-- `sem_matrix` (cafes/problem/sem.hpp:54-94). -/
noncomputable def semProg : Code D Lp slv := seqs [
  .loc fun s => { s with rhs := (fun _ _ => 0, fun _ _ => 0) },
  initProg D Lp slv r fun s => s.flags.computeRhs,
  solveProg D Lp slv r,
  interpProg D Lp slv r fun _ => false,
  layerProg D Lp slv,
  slProg D Lp slv r,
  solveProg D Lp slv r,
  projProg D Lp slv r,
  .loc fun s => { s with y := (computeYMean D.S D.fluid (getDMBounds D.L r true) D.h s.sol.1
    (D.parts.zipIdx.map fun p => (p.1, s.mean.getD p.2 0, s.cross.getD p.2 0)) s.y).2 }]

/-- `forces_torques_with_control` (cafes/particle/forces_torques.hpp:65-122) as called by `SEM::get_new_forces_torques`
(cafes/problem/sem.hpp:240-260), without singularity: the results are left in `mean` and `cross`; the control is `x`. -/
noncomputable def forcesProg : Code D Lp slv := .seq
  (.loc fun s =>
    let t := (localForces D.S D.fluid (getDMBounds D.L r true) D.h s.x
      (D.parts.zipIdx.map fun q => (q.1, s.num.getD q.2 0))).2
    { s with mean := t.map Prod.fst, cross := t.map Prod.snd })
  (reduceProg D Lp slv)

/-- What the user, or the Krylov solver of the control, asks of a problem: apply the operator of DtoN or of SEM to a
control, or compute the forces of a control. -/
inductive Op
  | dton
  | sem
  | forces

/-- One call: the flags and the control `X r` of the process `r` are in its memory when the call begins. -/
structure Call (d : ℕ) where
  op : Op
  fl : Flags
  X : (Fin d → ℕ) → ℕ → ℝ

/-- The program of the process `r` for a call. -/
noncomputable def callProg (c : Call d) : Code D Lp slv := .seq
  (.loc fun s => { s with flags := c.fl, x := c.X r })
  (match c.op with
    | .dton => dtonProg D Lp slv r
    | .sem => semProg D Lp slv r
    | .forces => forcesProg D Lp slv r)

/-- A history: `create_Mat_and_Vec`, which runs `set_materials`, then any calls. -/
noncomputable def historyProg (cs : List (Call d)) : Code D Lp slv :=
  .seq (materialsProg D Lp slv r) (seqs (cs.map fun c => callProg D Lp slv r c))

end
end Cafes.Spmd
