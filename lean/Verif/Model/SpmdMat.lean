/-
The matrix-free operators of cafes/fem/matrixFree.hpp as programs of the processes (Verif/Model/Spmd.lean), and the
iterative methods that PETSc runs on them (`KSPSolve`, cafes/problem/stokes.hpp:401-411): any program made of products
with the operators, reductions (`VecDot`, `VecNorm`, ..), operations entry by entry (`VecAXPY`, `VecCopy`,
`VecPointwiseDivide`, ..), computations on scalars, and tests on scalars.

Simplifications: the vectors and the scalars of a method are numbered; sums of reals do not depend on the order; the
error codes are left out; the vectors of a problem with one mesh are the velocity parts of the vectors.
-/
import Verif.Model.SpmdOps

namespace Cafes.Spmd
open Cafes

variable {d NP NV : ℕ}

/-- A velocity and a pressure. -/
abbrev Field (d : ℕ) := NodeVec d d ℝ × NodeVec d 1 ℝ

/-- What the operators of a fluid problem are made of (the context of cafes/problem/context.hpp:45-104 with `set_bc_`):
the meshes, `apply`, `apply_diag`, the mass matrices of `apply_mass_matrix`, the elements and the matrix of
`B_and_BT_mult`, the conditions. -/
structure FluidOps (d NP NV : ℕ) where
  Lv : Fin d → Dir
  Lp : Fin d → Dir
  rs : List (Fin d → ℕ)
  bc : BC d ℝ
  apply : (Fin d → ℕ) → NodeVec d d ℝ → NodeVec d d ℝ → NodeVec d d ℝ
  applyDiag : (Fin d → ℕ) → NodeVec d d ℝ → NodeVec d d ℝ
  massV : (Fin d → ℕ) → NodeVec d d ℝ → NodeVec d d ℝ → NodeVec d d ℝ
  massP : (Fin d → ℕ) → NodeVec d 1 ℝ → NodeVec d 1 ℝ → NodeVec d 1 ℝ
  elemP : Pos d ℤ → Fin NP → Pos d ℤ
  elemV : Pos d ℤ → Fin NV → Pos d ℤ
  B : Fin NP → Fin NV → Fin d → ℝ

/-- The collective operations of the operators and of the methods. -/
inductive MKind (d : ℕ)
  /-- `petsc_vec::global_to_local(INSERT_VALUES)` on the velocity mesh (cafes/petsc/vec.hpp:180-190) -/
  | ghostsV
  /-- the same on the pressure mesh -/
  | ghostsP
  /-- `petsc_vec::local_to_global(ADD_VALUES)` on the velocity mesh (cafes/petsc/vec.hpp:168-178) -/
  | addV
  /-- the same on the pressure mesh -/
  | addP
  /-- the reduction of `VecDot`, `VecNorm`, .. -/
  | sum
  /-- an operation of PETSc on whole vectors (the application of a preconditioner), which computes `F` -/
  | ext (F : Field d → Field d)

/-- The messages. -/
def MKind.Val : MKind d → Type
  | ghostsV => NodeVec d d ℝ
  | ghostsP => NodeVec d 1 ℝ
  | addV => NodeVec d d ℝ
  | addP => NodeVec d 1 ℝ
  | sum => ℝ
  | ext _ => Field d

/-- What the collective operations do. -/
noncomputable def mcomm (S : FluidOps d NP NV) : Comm (Rank S.Lv) where
  Kind := MKind d
  Val := MKind.Val
  comb k := match k with
    | .ghostsV => fun (v : Rank S.Lv → NodeVec d d ℝ) _ => globalToLocal S.Lv (glue S.Lv (everywhere S.Lv v))
    | .ghostsP => fun (v : Rank S.Lv → NodeVec d 1 ℝ) _ => globalToLocal S.Lp (glue S.Lp (everywhere S.Lv v))
    | .addV => fun (v : Rank S.Lv → NodeVec d d ℝ) _ => localToGlobalAdd S.Lv (everywhere S.Lv v) 0
    | .addP => fun (v : Rank S.Lv → NodeVec d 1 ℝ) _ => localToGlobalAdd S.Lp (everywhere S.Lv v) 0
    | .sum => fun (a : Rank S.Lv → ℝ) _ => (∑ j, (a j : ℝ) : ℝ)
    | .ext F => fun (v : Rank S.Lv → Field d) _ =>
      F (glue S.Lv (everywhere S.Lv fun r => (v r).1), glue S.Lp (everywhere S.Lv fun r => (v r).2))

/-- The memory of a process: its part of the vectors of the method, the scalars of the method, the ghosted arrays of
the operators (`xpetsc` and `ypetsc`, on the two meshes). -/
structure MMem (d : ℕ) where
  v : ℕ → Field d
  s : ℕ → ℝ
  xa : NodeVec d d ℝ
  xb : NodeVec d 1 ℝ
  ya : NodeVec d d ℝ
  yb : NodeVec d 1 ℝ

section
variable (S : FluidOps d NP NV) (r : Fin d → ℕ)

/-- The programs. -/
abbrev MCode := Stmt (mcomm S) (MMem d)

/-- Write the vector `j`. -/
def MMem.put (m : MMem d) (j : ℕ) (y : Field d) : MMem d := { m with v := Function.update m.v j y }

/-- The values on the ghosted window of the process. -/
def onWindow {n : ℕ} (L : Fin d → Dir) (r : Fin d → ℕ) (v old : NodeVec d n ℝ) : NodeVec d n ℝ :=
  fun p => if p ∈ (ghostWindow L r).visited then v p else old p

/-- `VecSet(y, 0.)` (matrixFree.hpp:58, 96, 208). -/
def zeroProg (j : ℕ) : MCode S := .loc fun m => m.put j (fun _ _ => 0, fun _ _ => 0)

/-- `xpetsc.global_to_local(INSERT_VALUES)` on the velocity mesh (matrixFree.hpp:65, 107, 221). -/
def getV (i : ℕ) : MCode S :=
  .coll MKind.ghostsV (fun _ => 0) (fun m => (m.v i).1) fun m (v : NodeVec d d ℝ) => { m with xa := onWindow S.Lv r v m.xa }

/-- `xpetsc.global_to_local(INSERT_VALUES)` on the pressure mesh. -/
def getP (i : ℕ) : MCode S :=
  .coll MKind.ghostsP (fun _ => 0) (fun m => (m.v i).2) fun m (v : NodeVec d 1 ℝ) => { m with xb := onWindow S.Lp r v m.xb }

/-- `ypetsc.fill(0.)` on the velocity mesh (matrixFree.hpp:67, 109, 139, 179, 223). -/
def fillV : MCode S := .loc fun m => { m with ya := onWindow S.Lv r 0 m.ya }

/-- `ypetsc.fill(0.)` on the pressure mesh. -/
def fillP : MCode S := .loc fun m => { m with yb := onWindow S.Lp r 0 m.yb }

/-- `ypetsc.local_to_global(ADD_VALUES)` on the velocity mesh (matrixFree.hpp:73, 115, 151, 187, 235). -/
def putV (j : ℕ) : MCode S :=
  .coll MKind.addV (fun _ => 0) (fun m => m.ya) fun m (v : NodeVec d d ℝ) =>
    m.put j (ownPart S.Lv r (fun p c => (m.v j).1 p c + v p c) (m.v j).1, (m.v j).2)

/-- `ypetsc.local_to_global(ADD_VALUES)` on the pressure mesh. -/
def putP (j : ℕ) : MCode S :=
  .coll MKind.addP (fun _ => 0) (fun m => m.yb) fun m (v : NodeVec d 1 ℝ) =>
    m.put j ((m.v j).1, ownPart S.Lp r (fun p c => (m.v j).2 p c + v p c) (m.v j).2)

/-- `SetDirichletOnVec(xpetsc, ypetsc, bc_)` (cafes/fem/bc.hpp:136-149) on the part of the process. -/
def bcVecProg (i j : ℕ) : MCode S :=
  .loc fun m => m.put j (setDirichletImpl S.Lv r S.bc (kernelVecOnBC (m.v i).1) (m.v j).1, (m.v j).2)

/-- `stokes_matrix` (cafes/fem/matrixFree.hpp:196-247) with `set_bc_`: `y` is the vector `j`, `x` the vector `i`. -/
noncomputable def stokesProg (i j : ℕ) : MCode S := seqs [
  zeroProg S j,
  getV S r i, fillV S r, getP S r i, fillP S r,
  .loc fun m => { m with ya := S.apply r m.xa m.ya },
  .loc fun m => { m with
    ya := (offDiagBlockMult S.Lp S.elemP S.elemV S.B r m.xa m.xb (m.ya, m.yb)).1
    yb := (offDiagBlockMult S.Lp S.elemP S.elemV S.B r m.xa m.xb (m.ya, m.yb)).2 },
  putV S r j, putP S r j,
  bcVecProg S r i j]

/-- `diag_block_matrix` for one mesh (cafes/fem/matrixFree.hpp:44-80) with `set_bc_`. -/
noncomputable def blockProg (i j : ℕ) : MCode S := seqs [
  .loc fun m => m.put j (fun _ _ => 0, (m.v j).2),
  getV S r i, fillV S r,
  .loc fun m => { m with ya := S.apply r m.xa m.ya },
  putV S r j,
  bcVecProg S r i j]

/-- `apply_mass_matrix` (cafes/fem/matrixFree.hpp:272-293): `diag_block_matrix` for two meshes (82-122), one mesh after
the other, without conditions. -/
noncomputable def massProg (i j : ℕ) : MCode S := seqs [
  zeroProg S j,
  getV S r i, fillV S r,
  .loc fun m => { m with ya := S.massV r m.xa m.ya },
  putV S r j,
  getP S r i, fillP S r,
  .loc fun m => { m with yb := S.massP r m.xb m.yb },
  putP S r j]

/-- `diag_diag_block_matrix` for one mesh (cafes/fem/matrixFree.hpp:124-155); `fill_global(0.)` (vec.hpp:202-213) comes
after the local computation. -/
noncomputable def diagProg (j : ℕ) : MCode S := seqs [
  fillV S r,
  .loc fun m => { m with ya := S.applyDiag r m.ya },
  .loc fun m => m.put j (fun _ _ => 0, (m.v j).2),
  putV S r j]

end

/-- The programs of the iterative methods. The operations entry by entry may look at the node, at the component, at the
scalars and at the entries of all the vectors at that node. -/
inductive Ins (d : ℕ) where
  /-- `MatMult` with `stokes_matrix` -/
  | stokes (i j : ℕ)
  /-- `MatMult` with `diag_block_matrix` (one mesh) -/
  | block (i j : ℕ)
  /-- `apply_mass_matrix` -/
  | mass (i j : ℕ)
  /-- `MatGetDiagonal` -/
  | diag (j : ℕ)
  /-- an operation of PETSc on whole vectors -/
  | ext (F : Field d → Field d) (i j : ℕ)
  /-- a reduction: the scalar `k` becomes the sum over all the entries -/
  | reduce (fV : (ℕ → ℝ) → Pos d ℤ → Fin d → (ℕ → ℝ) → ℝ) (fP : (ℕ → ℝ) → Pos d ℤ → Fin 1 → (ℕ → ℝ) → ℝ) (k : ℕ)
  /-- an operation entry by entry, into the vector `j` -/
  | node (fV : (ℕ → ℝ) → Pos d ℤ → Fin d → (ℕ → ℝ) → ℝ) (fP : (ℕ → ℝ) → Pos d ℤ → Fin 1 → (ℕ → ℝ) → ℝ) (j : ℕ)
  /-- a computation on the scalars -/
  | set (f : (ℕ → ℝ) → ℝ) (k : ℕ)
  | skip
  | seq (a b : Ins d)
  | ite (c : (ℕ → ℝ) → Bool) (a b : Ins d)
  | rep (n : ℕ) (a : Ins d)

/-- The program `n` times. -/
def repeatProg {ι : Type} {C : Comm ι} {M : Type} (p : Stmt C M) : ℕ → Stmt C M
  | 0 => .skip
  | n + 1 => .seq p (repeatProg p n)

/-- The program of the process `r`. -/
noncomputable def Ins.prog (S : FluidOps d NP NV) (r : Fin d → ℕ) : Ins d → MCode S
  | .stokes i j => stokesProg S r i j
  | .block i j => blockProg S r i j
  | .mass i j => massProg S r i j
  | .diag j => diagProg S r j
  | .ext F i j => .coll (MKind.ext F) (fun _ => 0) (fun m => m.v i) fun m (y : Field d) =>
      m.put j (ownPart S.Lv r y.1 (m.v j).1, ownPart S.Lp r y.2 (m.v j).2)
  | .reduce fV fP k => .coll MKind.sum (fun _ => 1) (fun m : MMem d =>
        (∑ p ∈ (getDMBounds S.Lv r false).visited.toFinset, ∑ c, fV m.s p c fun i => (m.v i).1 p c) +
        ∑ p ∈ (getDMBounds S.Lp r false).visited.toFinset, ∑ c, fP m.s p c fun i => (m.v i).2 p c)
      fun m (t : ℝ) => { m with s := Function.update m.s k t }
  | .node fV fP j => .loc fun m => m.put j
      (ownPart S.Lv r (fun p c => fV m.s p c fun i => (m.v i).1 p c) (m.v j).1,
       ownPart S.Lp r (fun p c => fP m.s p c fun i => (m.v i).2 p c) (m.v j).2)
  | .set f k => .loc fun m => { m with s := Function.update m.s k (f m.s) }
  | .skip => .skip
  | .seq a b => .seq (a.prog S r) (b.prog S r)
  | .ite c a b => .ite (fun m => c m.s) (a.prog S r) (b.prog S r)
  | .rep n a => repeatProg (a.prog S r) n

end Cafes.Spmd
