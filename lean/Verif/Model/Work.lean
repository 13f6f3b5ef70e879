/-
Model of the life of the work arrays of the library: `petsc_vec` (cafes/petsc/vec.hpp) and the functions that use it,
with the recycled arrays of PETSc and their old contents.

Contract of PETSc: `DMGetLocalVector` (`DMGetGlobalVector`) hands out an array that was given back before, with its
last content, or a new one whose content is whatever `mem` says; `DMRestoreLocalVector` (`DMRestoreGlobalVector`) gives
it back without clearing it. Two arrays are the same memory when their numbers are equal.
-/
import Verif.Model.Dirichlet
import Verif.Model.Particle
import Verif.Model.AddSing

namespace Cafes.Work
variable {d n : ℕ} {K A : Type*}

/-- The arrays of a mesh: their contents by number, the numbers of those given back, and the number of arrays ever
created (contract of `DMGetLocalVector`, `DMRestoreLocalVector`, `DMGetGlobalVector`, `DMRestoreGlobalVector`). -/
structure Pool (A : Type*) where
  mem : ℕ → A
  free : List ℕ
  next : ℕ

/-- `DMGetLocalVector` (cafes/petsc/vec.hpp:103), `DMGetGlobalVector` (cafes/fem/rhs.hpp:97,
cafes/problem/particle_operator.hpp:113-114). -/
def Pool.get (P : Pool A) : ℕ × Pool A :=
  match P.free with
  | [] => (P.next, { P with next := P.next + 1 })
  | i :: t => (i, { P with free := t })

/-- `DMRestoreLocalVector` (cafes/petsc/vec.hpp:221), `DMRestoreGlobalVector` (cafes/fem/rhs.hpp:109,
cafes/problem/particle_operator.hpp:124-125): the content stays. -/
def Pool.put (P : Pool A) (i : ℕ) : Pool A := { P with free := i :: P.free }

/-- A write in the array `i`. -/
def Pool.set (P : Pool A) (i : ℕ) (a : A) : Pool A := { P with mem := Function.update P.mem i a }

/-- A local array of a mesh on all the processes. -/
abbrev Arr (d n : ℕ) (K : Type*) := (Fin d → ℕ) → NodeVec d n K

/-- `petsc_vec::global_to_local(INSERT_VALUES)` (cafes/petsc/vec.hpp:180-190) in the local array `i`: only the ghosted
window of each process is written. -/
def g2l (L : Fin d → Dir) (x : NodeVec d n K) (i : ℕ) (P : Pool (Arr d n K)) : Pool (Arr d n K) :=
  P.set i fun r p => if p ∈ (ghostWindow L r).visited then x (wrap L p) else P.mem i r p

/-- `petsc_vec::fill` (cafes/petsc/vec.hpp:192-200) of the local array `i`. -/
def fill (L : Fin d → Dir) (v : K) (i : ℕ) (P : Pool (Arr d n K)) : Pool (Arr d n K) :=
  P.set i fun r p => if p ∈ (ghostWindow L r).visited then fun _ => v else P.mem i r p

/-- A kernel run by every process on its part of the local array `i`. -/
def onProcs (f : (Fin d → ℕ) → NodeVec d n K → NodeVec d n K) (i : ℕ) (P : Pool (Arr d n K)) : Pool (Arr d n K) :=
  P.set i fun r => f r (P.mem i r)

section
variable [CommRing K]

/-- `diag_block_matrix` for one mesh (cafes/fem/matrixFree.hpp:46-81), and the body of its loop for several meshes
(106-122, where `bc` does nothing). `y` is the previous content of the output; `bc x y` is `SetDirichletOnVec` or
nothing. The vectors are destroyed in the reverse order of their construction. -/
def runBlock (L : Fin d → Dir) (apply : (Fin d → ℕ) → NodeVec d n K → NodeVec d n K → NodeVec d n K)
    (bc : NodeVec d n K → NodeVec d n K → NodeVec d n K) (x _y : NodeVec d n K) (P : Pool (Arr d n K)) :
    NodeVec d n K × Pool (Arr d n K) :=
  let y : NodeVec d n K := fun _ _ => 0
  let (ix, P) := P.get
  let (iy, P) := P.get
  let P := g2l L x ix P
  let P := fill L 0 iy P
  let P := onProcs (fun r yl => apply r (P.mem ix r) yl) iy P
  let y := localToGlobalAdd L (P.mem iy) y
  let y := bc x y
  (y, (P.put iy).put ix)

/-- `diag_diag_block_matrix` (cafes/fem/matrixFree.hpp:124-153, 155-193). -/
def runDiag (L : Fin d → Dir) (applyDiag : (Fin d → ℕ) → NodeVec d n K → NodeVec d n K) (_x : NodeVec d n K)
    (P : Pool (Arr d n K)) : NodeVec d n K × Pool (Arr d n K) :=
  let (ix, P) := P.get
  let P := fill L 0 ix P
  let P := onProcs applyDiag ix P
  let x : NodeVec d n K := fun _ _ => 0
  let x := localToGlobalAdd L (P.mem ix) x
  (x, P.put ix)

/-- `stokes_matrix` (cafes/fem/matrixFree.hpp:196-247), the velocity and pressure meshes having their own arrays. -/
def runStokes {NP NV : ℕ} (Lv Lp : Fin d → Dir)
    (apply : (Fin d → ℕ) → NodeVec d n K → NodeVec d n K → NodeVec d n K)
    (elemP : Pos d ℤ → Fin NP → Pos d ℤ) (elemV : Pos d ℤ → Fin NV → Pos d ℤ) (B : Fin NP → Fin NV → Fin n → K)
    (bc : NodeVec d n K → NodeVec d n K → NodeVec d n K)
    (x _y : NodeVec d n K × NodeVec d 1 K) (Pv : Pool (Arr d n K)) (Pp : Pool (Arr d 1 K)) :
    (NodeVec d n K × NodeVec d 1 K) × Pool (Arr d n K) × Pool (Arr d 1 K) :=
  let y : NodeVec d n K × NodeVec d 1 K := (fun _ _ => 0, fun _ _ => 0)
  let (x0, Pv) := Pv.get
  let (x1, Pp) := Pp.get
  let (y0, Pv) := Pv.get
  let (y1, Pp) := Pp.get
  let Pv := fill Lv 0 y0 (g2l Lv x.1 x0 Pv)
  let Pp := fill Lp 0 y1 (g2l Lp x.2 x1 Pp)
  let Pv := onProcs (fun r yl => apply r (Pv.mem x0 r) yl) y0 Pv
  let out := fun r => offDiagBlockMult Lp elemP elemV B r (Pv.mem x0 r) (Pp.mem x1 r) (Pv.mem y0 r, Pp.mem y1 r)
  let Pv := Pv.set y0 fun r => (out r).1
  let Pp := Pp.set y1 fun r => (out r).2
  let y := (localToGlobalAdd Lv (Pv.mem y0) y.1, localToGlobalAdd Lp (Pp.mem y1) y.2)
  let y := (bc x.1 y.1, y.2)
  (y, (Pv.put y0).put x0, (Pp.put y1).put x1)

/-- `diag_block_matrix` for the two meshes (cafes/fem/matrixFree.hpp:82-122) with `mass_mult`, as in
`apply_mass_matrix` (271-294). -/
def runMass (Lv Lp : Fin d → Dir) (mv : (Fin d → ℕ) → NodeVec d n K → NodeVec d n K → NodeVec d n K)
    (mp : (Fin d → ℕ) → NodeVec d 1 K → NodeVec d 1 K → NodeVec d 1 K) (x y : NodeVec d n K × NodeVec d 1 K)
    (Pv : Pool (Arr d n K)) (Pp : Pool (Arr d 1 K)) :
    (NodeVec d n K × NodeVec d 1 K) × Pool (Arr d n K) × Pool (Arr d 1 K) :=
  let (v, Pv) := runBlock Lv mv (fun _ y => y) x.1 y.1 Pv
  let (p, Pp) := runBlock Lp mp (fun _ y => y) x.2 y.2 Pp
  ((v, p), Pv, Pp)

/-- `set_rhs` (cafes/fem/rhs.hpp:87-113): the source is written in a global work vector of the composite mesh (`Pg`),
which is given back before the two `petsc_vec` are destroyed. -/
def runSetRhs (L : Fin d → Dir) (rs : List (Fin d → ℕ)) (src : Fin d → Cond d K) (h : Pos d K)
    (mv : (Fin d → ℕ) → NodeVec d d K → NodeVec d d K → NodeVec d d K) (rhs : NodeVec d d K × NodeVec d 1 K)
    (Pg : Pool (NodeVec d d K × NodeVec d 1 K)) (Pv : Pool (Arr d d K)) :
    (NodeVec d d K × NodeVec d 1 K) × Pool (NodeVec d d K × NodeVec d 1 K) × Pool (Arr d d K) :=
  let (t, Pg) := Pg.get
  let Pg := Pg.set t (fun _ _ => 0, fun _ _ => 0)
  let (ix, Pv) := Pv.get
  let Pg := Pg.set t (rs.foldl (fun y r => setRhsImpl L r src h y) (Pg.mem t).1, (Pg.mem t).2)
  let (iy, Pv) := Pv.get
  let Pv := g2l L (Pg.mem t).1 ix Pv
  let Pv := fill L 0 iy Pv
  let Pv := onProcs (fun r yl => mv r (Pv.mem ix r) yl) iy Pv
  let rhs := (localToGlobalAdd L (Pv.mem iy) rhs.1, rhs.2)
  let Pg := Pg.put t
  (rhs, Pg, (Pv.put iy).put ix)

end

/-- `set_rhs_problem_impl` on the processes `rs` (cafes/problem/particle_operator.hpp:72-103), on the content `u` of
the velocity part of the vector of the forces. -/
noncomputable def writeControl {B : Type*} (fluid : (Pos d ℝ → Bool) → Box d ℤ → Pos d ℝ → List (Pos d ℤ))
    (L : Fin d → Dir) (rs : List (Fin d → ℕ)) (h : Pos d ℝ) (pxs : (Fin d → ℕ) → ℕ → ℝ) (applyForces : Bool)
    (parts : List (Particle.Part d B)) (u : NodeVec d d ℝ) : NodeVec d d ℝ :=
  rs.foldl (fun u r => (Particle.setRhsImpl fluid (getDMBounds L r true) h (pxs r) applyForces parts u).2) u

/-- `set_rhs_problem` (cafes/problem/particle_operator.hpp:105-129): two global work vectors, a `petsc_vec` that lives
until the end, and the product by the mass matrix in between. `write` is `set_rhs_problem_impl`. -/
noncomputable def runSetRhsProblem (Lv Lp : Fin d → Dir) (write : NodeVec d d ℝ → NodeVec d d ℝ)
    (mv : (Fin d → ℕ) → NodeVec d d ℝ → NodeVec d d ℝ → NodeVec d d ℝ)
    (mp : (Fin d → ℕ) → NodeVec d 1 ℝ → NodeVec d 1 ℝ → NodeVec d 1 ℝ) (rhs : NodeVec d d ℝ × NodeVec d 1 ℝ)
    (Pg : Pool (NodeVec d d ℝ × NodeVec d 1 ℝ)) (Pv : Pool (Arr d d ℝ)) (Pp : Pool (Arr d 1 ℝ)) :
    (NodeVec d d ℝ × NodeVec d 1 ℝ) × Pool (NodeVec d d ℝ × NodeVec d 1 ℝ) × Pool (Arr d d ℝ) × Pool (Arr d 1 ℝ) :=
  let (f, Pg) := Pg.get
  let (m, Pg) := Pg.get
  let Pg := Pg.set f (fun _ _ => 0, fun _ _ => 0)
  let (i, Pv) := Pv.get
  let Pg := Pg.set f (write (Pg.mem f).1, (Pg.mem f).2)
  let (out, Pv, Pp) := runMass Lv Lp mv mp (Pg.mem f) (Pg.mem m) Pv Pp
  let Pg := Pg.set m out
  let rhs : NodeVec d d ℝ × NodeVec d 1 ℝ :=
    (fun q c => rhs.1 q c + (Pg.mem m).1 q c, fun q c => rhs.2 q c + (Pg.mem m).2 q c)
  let Pg := (Pg.put m).put f
  (rhs, Pg, Pv.put i, Pp)

/-- The loops of `SL_to_Rhs` (cafes/problem/particle_operator.hpp:244-258) on the content `u` of the local array. -/
noncomputable def spreadFrom {N : ℕ} (bf : Pos d ℝ → Fin N → ℝ) (elem : Pos d ℤ → Fin N → Pos d ℤ)
    (parts : List (ℝ × ℕ × List (Pos d ℝ × (Pos d ℤ × Pos d ℝ)))) (u : NodeVec d d ℝ) : NodeVec d d ℝ :=
  parts.foldl (fun u q =>
    let gammak := q.1 / (q.2.1 : ℝ)
    q.2.2.foldl (fun u x => Particle.spreadPoint bf elem gammak x.1 x.2 u) u) u

/-- `SL_to_Rhs` (cafes/problem/particle_operator.hpp:233-271): the whole right-hand side is set to zero; the second
`petsc_vec` only serves the boundary conditions `bc`. -/
noncomputable def runSL {N : ℕ} (L : Fin d → Dir) (bf : Pos d ℝ → Fin N → ℝ) (elem : Pos d ℤ → Fin N → Pos d ℤ)
    (parts : (Fin d → ℕ) → List (ℝ × ℕ × List (Pos d ℝ × (Pos d ℤ × Pos d ℝ))))
    (bc : NodeVec d d ℝ → NodeVec d d ℝ) (_rhs : NodeVec d d ℝ × NodeVec d 1 ℝ) (Pv : Pool (Arr d d ℝ)) :
    (NodeVec d d ℝ × NodeVec d 1 ℝ) × Pool (Arr d d ℝ) :=
  let rhs : NodeVec d d ℝ × NodeVec d 1 ℝ := (fun _ _ => 0, fun _ _ => 0)
  let (i, Pv) := Pv.get
  let Pv := fill L 0 i Pv
  let Pv := onProcs (fun r u => spreadFrom bf elem (parts r) u) i Pv
  let rhs := (localToGlobalAdd L (Pv.mem i) rhs.1, rhs.2)
  let (j, Pv) := Pv.get
  let rhs := (bc rhs.1, rhs.2)
  (rhs, (Pv.put j).put i)

/-- `add_singularity_in_fluid` (cafes/particle/singularity/add_singularity.hpp:522-590). -/
noncomputable def runInFluid {N : ℕ} (L : Fin d → Dir) (bfg : Pos d ℝ → Fin N → Pos d ℝ)
    (elem : Pos d ℤ → Fin N → Pos d ℤ) (scale : ℕ) (h : Pos d ℝ) (pairs : List (AddSing.Pair d))
    (rhs : NodeVec d d ℝ × NodeVec d 1 ℝ) (Pv : Pool (Arr d d ℝ)) :
    (NodeVec d d ℝ × NodeVec d 1 ℝ) × Pool (Arr d d ℝ) :=
  let (i, Pv) := Pv.get
  let Pv := fill L 0 i Pv
  let Pv := onProcs (fun r u => AddSing.pairsLoop scale h (getDMBounds L r true)
    (AddSing.stKernel bfg elem (AddSing.coef d scale)) pairs u) i Pv
  ((localToGlobalAdd L (Pv.mem i) rhs.1, rhs.2), Pv.put i)

/-- `add_singularity_to_last_sol` (cafes/particle/singularity/add_singularity.hpp:593-643). -/
noncomputable def runLastSol {N : ℕ} (L : Fin d → Dir) (bf : Pos d ℝ → Fin N → ℝ)
    (elem : Pos d ℤ → Fin N → Pos d ℤ) (scale : ℕ) (h : Pos d ℝ) (pairs : List (AddSing.Pair d))
    (sol : NodeVec d d ℝ × NodeVec d 1 ℝ) (Pv : Pool (Arr d d ℝ)) :
    (NodeVec d d ℝ × NodeVec d 1 ℝ) × Pool (Arr d d ℝ) :=
  let (i, Pv) := Pv.get
  let Pv := g2l L sol.1 i Pv
  let Pv := onProcs (fun r u => AddSing.pairsLoop scale h (getDMBounds L r true)
    (AddSing.addKernel bf elem (AddSing.coef d scale)) pairs u) i Pv
  ((AddSing.localToGlobalInsert L (Pv.mem i), sol.2), Pv.put i)

/-- `interp_fluid_to_surf` without rigid motion (cafes/problem/particle_operator.hpp:153-193): the value at the surface
point `pt` of the process `r`, read in the local array. -/
noncomputable def runInterp {N : ℕ} (L : Fin d → Dir) (bf : Pos d ℝ → Fin N → ℝ) (elem : Pos d ℤ → Fin N → Pos d ℤ)
    (sol : NodeVec d d ℝ) (Pv : Pool (Arr d d ℝ)) :
    ((Fin d → ℕ) → Pos d ℤ × Pos d ℝ → Pos d ℝ) × Pool (Arr d d ℝ) :=
  let (i, Pv) := Pv.get
  let Pv := g2l L sol i Pv
  (fun r pt => Particle.interpPoint bf elem (Pv.mem i r) pt, Pv.put i)

end Cafes.Work
