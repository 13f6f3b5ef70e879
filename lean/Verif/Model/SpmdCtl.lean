/-
The drivers of the particle problems as programs of the processes (Verif/Model/Spmd.lean): `create_Mat_and_Vec`,
`setup_RHS`, `solve` and `solve_last_problem` of cafes/problem/dton.hpp and cafes/problem/sem.hpp, with the Krylov solver
of the control (`KSPSolve` on the shell matrix) as any program made of products with the operator, reductions (`VecDot`,
`VecNorm`, ..), operations entry by entry (`VecAXPY`, `VecCopy`, `VecScale`, ..), computations on scalars, and tests on
scalars.

Simplifications: the control vectors and the scalars of a method are numbered (0 is `sol`, 1 is `rhs`); the argument of
a product is copied before the product, since PETSc asks that the result is another vector; sums of reals do not depend
on the order; the error codes are left out.
-/
import Verif.Model.SpmdOps
import Verif.Model.SpmdMat

namespace Cafes.Spmd
open Cafes Cafes.Particle Cafes.Driver Cafes.Geometry

/-! ### A program inside a bigger one -/

section
variable {ι : Type}

/-- The collective operations of `C` and of `C'`. -/
def Comm.plus (C C' : Comm ι) : Comm ι where
  Kind := C.Kind ⊕ C'.Kind
  Val k := match k with
    | .inl k => C.Val k
    | .inr k => C'.Val k
  comb k := match k with
    | .inl k => C.comb k
    | .inr k => C'.comb k

/-- A program on the memory `S`, run in a bigger memory `S'` of which `S` is the part `get`. -/
def Stmt.lift {C : Comm ι} (C' : Comm ι) {S S' : Type} (get : S' → S) (put : S' → S → S') :
    Stmt C S → Stmt (C.plus C') S'
  | .loc f => .loc fun m => put m (f (get m))
  | .coll k count send recv => .coll (C := C.plus C') (Sum.inl k) (fun m => count (get m)) (fun m => send (get m))
      fun m (v : C.Val k) => put m (recv (get m) v)
  | .skip => .skip
  | .seq a b => .seq (a.lift C' get put) (b.lift C' get put)
  | .ite c a b => .ite (fun m => c (get m)) (a.lift C' get put) (b.lift C' get put)

end

variable {d N : ℕ} {A : Type}

/-- The other collective operations of a driver. -/
inductive DKind
  /-- the reduction of `VecDot`, `VecNorm`, .. -/
  | sum
  /-- `petsc_vec::local_to_global(INSERT_VALUES)` (cafes/petsc/vec.hpp:168-178) -/
  | insert

/-- The messages. -/
def DKind.Val (d : ℕ) : DKind → Type
  | sum => ℝ
  | insert => NodeVec d d ℝ

/-- What they do. -/
noncomputable def dcomm (L : Fin d → Dir) : Comm (Rank L) where
  Kind := DKind
  Val := DKind.Val d
  comb k := match k with
    | .sum => fun (a : Rank L → ℝ) _ => (∑ j, (a j : ℝ) : ℝ)
    | .insert => fun (v : Rank L → NodeVec d d ℝ) _ => AddSing.localToGlobalInsert L (everywhere L v)

/-- The memory of a process: the memory of the operators, its part of the control vectors, the scalars. -/
structure DMem (d : ℕ) (A : Type) where
  base : Mem d A
  v : ℕ → ℕ → ℝ
  s : ℕ → ℝ

section
variable [AddCommGroup A] [Module ℝ A] (D : Setup d N A) (Lp : Fin d → Dir)
  (slv : NodeVec d d ℝ × NodeVec d 1 ℝ → NodeVec d d ℝ × NodeVec d 1 ℝ) (r : Fin d → ℕ)

/-- The number of entries of a control vector on the process `r` (`size * Dimensions`, dton.hpp:162, sem.hpp:144), where
`size` is the result of `set_materials`. -/
noncomputable def ctlSize : ℕ := d * materialsSize D.fluid (getDMBounds D.L r true) D.h D.scale D.parts

/-- The collective operations of a driver. -/
noncomputable abbrev drvComm : Comm (Rank D.L) := (comm (A := A) D.L Lp slv).plus (dcomm D.L)

/-- The programs. -/
abbrev DCode := Stmt (drvComm D Lp slv) (DMem d A)

/-- A program of Verif/Model/SpmdOps.lean. -/
noncomputable def inner (p : Code D Lp slv) : DCode D Lp slv :=
  p.lift (dcomm D.L) DMem.base fun m s => { m with base := s }

/-- The two operators. -/
inductive Oper
  /-- `DtoN_matrix` -/
  | dton
  /-- `sem_matrix` -/
  | sem

/-- The program of an operator. -/
noncomputable def Oper.prog (o : Oper) : Code D Lp slv :=
  match o with
  | .dton => dtonProg D Lp slv r
  | .sem => semProg D Lp slv r

/-- `MatMult(A, x, y)` (the shell matrices of dton.hpp:161-170 and sem.hpp:144-145): `x` is the vector `i`, `y` the
vector `j`. -/
noncomputable def multProg (o : Oper) (i j : ℕ) : DCode D Lp slv := seqs [
  .loc fun m => { m with base := { m.base with x := m.v i, y := m.v j } },
  inner D Lp slv (o.prog D Lp slv r),
  .loc fun m => { m with v := Function.update m.v j m.base.y }]

/-- `init_problem(*ctx, sol, apply_forces)` (dton.hpp:260, 289, sem.hpp:202) with the vector `i`. -/
noncomputable def initCtlProg (af : Bool) (i : ℕ) : DCode D Lp slv := .seq
  (.loc fun m => { m with base := { m.base with x := m.v i } })
  (inner D Lp slv (initProg D Lp slv r fun _ => af))

/-- `add_singularity_to_last_sol` (cafes/particle/singularity/add_singularity.hpp:593-643) on `problem.sol`. -/
noncomputable def lastSolProg : DCode D Lp slv := seqs [
  inner D Lp slv (readGhosts D Lp slv r fun s => s.sol.1),
  .loc fun m => { m with base := { m.base with la := (AddSing.pairsLoop D.singScale D.h (getDMBounds D.L r true)
    (AddSing.addKernel D.bf D.elem (AddSing.coef d D.singScale)) D.pairs m.base.la) } },
  .coll (C := drvComm D Lp slv) (Sum.inr DKind.insert) (fun _ => 0) (fun m => m.base.la) fun m (v : NodeVec d d ℝ) =>
    { m with base := { m.base with sol := (ownPart D.L r v m.base.sol.1, m.base.sol.2) } }]

/-- The instructions of a driver and of a Krylov method. The operations entry by entry may look at the scalars and at
the same entry of all the vectors. -/
inductive Cmd
  /-- the driver sets the flags of the context -/
  | flags (f : Flags → Flags)
  /-- `MatMult` -/
  | mult (o : Oper) (i j : ℕ)
  /-- `VecSet(ctx->problem.rhs, 0.)` -/
  | zeroRhs
  /-- `init_problem` -/
  | init (af : Bool) (i : ℕ)
  /-- `ctx->problem.solve()` -/
  | solve
  /-- `add_singularity_to_last_sol` -/
  | lastSol
  /-- a reduction: the scalar `k` becomes the sum over all the entries -/
  | reduce (f : (ℕ → ℝ) → (ℕ → ℝ) → ℝ) (k : ℕ)
  /-- an operation entry by entry, into the vector `j` -/
  | node (f : (ℕ → ℝ) → (ℕ → ℝ) → ℝ) (j : ℕ)
  /-- a computation on the scalars -/
  | set (f : (ℕ → ℝ) → ℝ) (k : ℕ)
  | skip
  | seq (a b : Cmd)
  | ite (c : (ℕ → ℝ) → Bool) (a b : Cmd)
  | rep (n : ℕ) (a : Cmd)

/-- The program of the process `r`. -/
noncomputable def Cmd.prog : Cmd → DCode D Lp slv
  | .flags f => .loc fun m => { m with base := { m.base with flags := f m.base.flags } }
  | .mult o i j => multProg D Lp slv r o i j
  | .zeroRhs => .loc fun m => { m with base := { m.base with rhs := (fun _ _ => 0, fun _ _ => 0) } }
  | .init af i => initCtlProg D Lp slv r af i
  | .solve => inner D Lp slv (solveProg D Lp slv r)
  | .lastSol => lastSolProg D Lp slv r
  | .reduce f k => .coll (C := drvComm D Lp slv) (Sum.inr DKind.sum) (fun _ => 1) (fun m : DMem d A =>
        (∑ e ∈ Finset.range (ctlSize D r), f m.s (fun i => m.v i e) : ℝ))
      fun m (t : ℝ) => { m with s := Function.update m.s k t }
  | .node f j => .loc fun m => { m with v := (Function.update m.v j fun e =>
      if e < ctlSize D r then f m.s fun i => m.v i e else m.v j e) }
  | .set f k => .loc fun m => { m with s := Function.update m.s k (f m.s) }
  | .skip => .skip
  | .seq a b => .seq (a.prog) (b.prog)
  | .ite c a b => .ite (fun m => c m.s) (a.prog) (b.prog)
  | .rep n a => repeatProg (a.prog) n

end

/-- A sequence. -/
def Cmd.all : List Cmd → Cmd
  | [] => .skip
  | a :: l => .seq a (Cmd.all l)

/-- `VecScale(rhs, -1.)` on the vector 1. -/
def Cmd.negRhs : Cmd := .node (fun _ x => -1 * x 1) 1

/-- `DtoN::setup_RHS` (cafes/problem/dton.hpp:179-214); `dflt` is `default_flags_`. -/
def Cmd.dtonSetup (dflt useSing : Bool) : Cmd := .all [
  if dflt then .flags fun _ => ⟨true, true, useSing⟩ else .skip,
  .mult .dton 0 1,
  .negRhs]

/-- `DtoN::solve_last_problem` (cafes/problem/dton.hpp:243-312). The addition of `sol_rhs` (line 272) to a solution that
is overwritten is left out. -/
def Cmd.dtonLast (dflt useSing : Bool) : Cmd := .all [
  .zeroRhs,
  if dflt then .flags fun _ => ⟨false, false, false⟩ else .skip,
  .init false 0,
  .solve,
  .zeroRhs,
  if dflt then .flags fun _ => ⟨true, true, useSing⟩ else .skip,
  .init false 0,
  .solve,
  if useSing then .lastSol else .skip]

/-- `DtoN::solve` (cafes/problem/dton.hpp:316-340) with the method `K` of the solver of the control. -/
def Cmd.dtonSolve (K : Cmd) (dflt useSing : Bool) : Cmd := .all [
  if dflt then .flags fun _ => ⟨false, false, useSing⟩ else .skip,
  K,
  if dflt then .dtonLast dflt useSing else .skip]

/-- `SEM::setup_RHS` (cafes/problem/sem.hpp:157-168). -/
def Cmd.semSetup : Cmd := .all [
  .flags fun f => { f with computeRhs := true },
  .mult .sem 0 1,
  .negRhs]

/-- `SEM::solve` (cafes/problem/sem.hpp:191-206) with the method `K` of the solver of the control. -/
def Cmd.semSolve (K : Cmd) : Cmd := .all [
  .flags fun f => { f with computeRhs := false },
  K,
  .flags fun f => { f with computeRhs := true },
  .init true 0,
  .solve]

section
variable [AddCommGroup A] [Module ℝ A] (D : Setup d N A) (Lp : Fin d → Dir)
  (slv : NodeVec d d ℝ × NodeVec d 1 ℝ → NodeVec d d ℝ × NodeVec d 1 ℝ) (r : Fin d → ℕ)

/-- `create_Mat_and_Vec` (cafes/problem/dton.hpp:145-175, cafes/problem/sem.hpp:132-152): `set_materials`, the new
context with its flags, and the new vectors `sol` and `rhs` (which PETSc fills with zeros). -/
noncomputable def createProg : DCode D Lp slv := .seq
  (inner D Lp slv (materialsProg D Lp slv r))
  (.loc fun m => { m with
    base := { m.base with flags := ⟨false, false, false⟩ }
    v := Function.update (Function.update m.v 0 fun _ => 0) 1 fun _ => 0 })

/-- A run of a driver: `create_Mat_and_Vec`, then the instructions. -/
noncomputable def driverProg (c : Cmd) : DCode D Lp slv := .seq (createProg D Lp slv r) (c.prog D Lp slv r)

end
end Cafes.Spmd
