/-
What the drivers of the particle problems compute: the same instructions on whole vectors, as if there were no
processes, with the operators of Verif/Model/Dton.lean and Verif/Model/Pieces.lean.
-/
import Verif.Model.SpmdCtl

namespace Cafes.Spmd
open Cafes Cafes.Particle Cafes.Driver Cafes.Geometry

variable {d N : ℕ} {A : Type}

/-- The whole vectors: the flags, the control vectors (process, entry), the scalars, `rhs` and `sol` of the fluid
problem. -/
structure Ctl (d : ℕ) where
  fl : Flags
  v : ℕ → (Fin d → ℕ) → ℕ → ℝ
  s : ℕ → ℝ
  fRhs : Field d
  fSol : Field d

section
variable [AddCommGroup A] [Module ℝ A] (D : Setup d N A)
  (slv : NodeVec d d ℝ × NodeVec d 1 ℝ → NodeVec d d ℝ × NodeVec d 1 ℝ)

/-- The operators. -/
noncomputable def Oper.matrix (o : Oper) : Flags → ((Fin d → ℕ) → ℕ → ℝ) → (Field d × Field d) × ((Fin d → ℕ) → ℕ → ℝ) :=
  match o with
  | .dton => dtonMatrix (D.pieces slv)
  | .sem => semMatrix (D.pieces slv)

/-- The instructions on whole vectors. -/
noncomputable def Cmd.run : Cmd → Ctl d → Ctl d
  | .flags f, w => { w with fl := f w.fl }
  | .mult o i j, w => { w with
      v := (Function.update w.v j (o.matrix D slv w.fl (w.v i)).2)
      fRhs := (o.matrix D slv w.fl (w.v i)).1.1
      fSol := (o.matrix D slv w.fl (w.v i)).1.2 }
  | .zeroRhs, w => { w with fRhs := 0 }
  | .init af i, w => { w with fRhs := initProblem (D.pieces slv) w.fl af (w.v i) w.fRhs }
  | .solve, w => { w with fSol := slv w.fRhs }
  | .lastSol, w => { w with fSol := (AddSing.addToLastSol D.L D.bf D.elem D.singScale D.h D.pairs w.fSol.1, w.fSol.2) }
  | .reduce f k, w => { w with s := (Function.update w.s k
      (∑ r ∈ procs D.L, ∑ e ∈ Finset.range (ctlSize D r), f w.s fun i => w.v i r e)) }
  | .node f j, w => { w with v := Function.update w.v j fun r e => f w.s fun i => w.v i r e }
  | .set f k, w => { w with s := Function.update w.s k (f w.s) }
  | .skip, w => w
  | .seq a b, w => b.run (a.run w)
  | .ite c a b, w => if c w.s then a.run w else b.run w
  | .rep n a, w => (a.run)^[n] w

/-- The processes hold the whole vectors: each one has the entries of the control vectors and the nodes of the fluid
that it owns, and all of them have the flags and the scalars. -/
structure Shared (Lp : Fin d → Dir) (w : Ctl d) (σ : Rank D.L → DMem d A) : Prop where
  flags : ∀ r, (σ r).base.flags = w.fl
  scalars : ∀ r, (σ r).s = w.s
  control : ∀ i (r : Rank D.L) e, e < ctlSize D r.1 → (σ r).v i e = w.v i r.1 e
  rhsV : ∀ r : Rank D.L, ∀ p ∈ (getDMBounds D.L r.1 false).halfOpen, (σ r).base.rhs.1 p = w.fRhs.1 p
  rhsP : ∀ r : Rank D.L, ∀ p ∈ (getDMBounds Lp r.1 false).halfOpen, (σ r).base.rhs.2 p = w.fRhs.2 p
  solV : ∀ r : Rank D.L, ∀ p ∈ (getDMBounds D.L r.1 false).halfOpen, (σ r).base.sol.1 p = w.fSol.1 p
  solP : ∀ r : Rank D.L, ∀ p ∈ (getDMBounds Lp r.1 false).halfOpen, (σ r).base.sol.2 p = w.fSol.2 p

/-- Before `create_Mat_and_Vec`, the fluid problem has its vectors `f0` and `s0`; the rest of the memories is unknown,
but the method has its own scalars and vectors in the same way on all the processes. -/
structure Before (Lp : Fin d → Dir) (w : Ctl d) (σ : Rank D.L → DMem d A) : Prop where
  scalars : ∀ r, (σ r).s = w.s
  control : ∀ i, 2 ≤ i → ∀ (r : Rank D.L) e, e < ctlSize D r.1 → (σ r).v i e = w.v i r.1 e
  rhsV : ∀ r : Rank D.L, ∀ p ∈ (getDMBounds D.L r.1 false).halfOpen, (σ r).base.rhs.1 p = w.fRhs.1 p
  rhsP : ∀ r : Rank D.L, ∀ p ∈ (getDMBounds Lp r.1 false).halfOpen, (σ r).base.rhs.2 p = w.fRhs.2 p
  solV : ∀ r : Rank D.L, ∀ p ∈ (getDMBounds D.L r.1 false).halfOpen, (σ r).base.sol.1 p = w.fSol.1 p
  solP : ∀ r : Rank D.L, ∀ p ∈ (getDMBounds Lp r.1 false).halfOpen, (σ r).base.sol.2 p = w.fSol.2 p

/-- What `create_Mat_and_Vec` does to the whole vectors. -/
def Ctl.create (w : Ctl d) : Ctl d :=
  { w with fl := ⟨false, false, false⟩, v := Function.update (Function.update w.v 0 0) 1 0 }

/-- The instructions of a method: products, reductions, operations on vectors and scalars; the right-hand side (the
vector 1) is not written. -/
def Cmd.Method (o : Oper) : Cmd → Prop
  | .mult o' _ j => o' = o ∧ j ≠ 1
  | .reduce _ _ => True
  | .node _ j => j ≠ 1
  | .set _ _ => True
  | .skip => True
  | .seq a b => a.Method o ∧ b.Method o
  | .ite _ a b => a.Method o ∧ b.Method o
  | .rep _ a => a.Method o
  | _ => False

/-- A method on whole vectors when the operator is `op`: the vectors, the scalars, and the vectors to which the operator
was applied, in order. -/
noncomputable def Cmd.runWith (op : ((Fin d → ℕ) → ℕ → ℝ) → (Fin d → ℕ) → ℕ → ℝ) :
    Cmd → (ℕ → (Fin d → ℕ) → ℕ → ℝ) × (ℕ → ℝ) × List ((Fin d → ℕ) → ℕ → ℝ) →
    (ℕ → (Fin d → ℕ) → ℕ → ℝ) × (ℕ → ℝ) × List ((Fin d → ℕ) → ℕ → ℝ)
  | .mult _ i j, w => (Function.update w.1 j (op (w.1 i)), w.2.1, w.2.2 ++ [w.1 i])
  | .reduce f k, w => (w.1, Function.update w.2.1 k
      (∑ r ∈ procs D.L, ∑ e ∈ Finset.range (ctlSize D r), f w.2.1 fun i => w.1 i r e), w.2.2)
  | .node f j, w => (Function.update w.1 j fun r e => f w.2.1 fun i => w.1 i r e, w.2)
  | .set f k, w => (w.1, Function.update w.2.1 k (f w.2.1), w.2.2)
  | .seq a b, w => b.runWith op (a.runWith op w)
  | .ite c a b, w => if c w.2.1 then a.runWith op w else b.runWith op w
  | .rep n a, w => (a.runWith op)^[n] w
  | _, w => w

/-- The Krylov solver (in the sense of Verif/Model/Dton.lean) that a method defines, from its vectors `v` and scalars
`s`: `KSPSolve(ksp, rhs, sol)`. -/
noncomputable def Cmd.krylov (K : Cmd) (v : ℕ → (Fin d → ℕ) → ℕ → ℝ) (s : ℕ → ℝ) : Krylov ((Fin d → ℕ) → ℕ → ℝ) :=
  fun op b => ((K.runWith D op (Function.update v 1 b, s, [])).1 0, (K.runWith D op (Function.update v 1 b, s, [])).2.2)

/-- The processes hold the state `F` of a driver of Verif/Model/Dton.lean: `sol` and `rhs` of the control problem, `rhs`
and `sol` of the fluid problem, the flags. -/
structure HoldsState (Lp : Fin d → Dir) (F : St (Field d) ((Fin d → ℕ) → ℕ → ℝ)) (σ : Rank D.L → DMem d A) : Prop where
  flags : ∀ r, (σ r).base.flags = F.flags
  sol : ∀ (r : Rank D.L) e, e < ctlSize D r.1 → (σ r).v 0 e = F.sol r.1 e
  rhs : ∀ (r : Rank D.L) e, e < ctlSize D r.1 → (σ r).v 1 e = F.rhs r.1 e
  rhsV : ∀ r : Rank D.L, ∀ p ∈ (getDMBounds D.L r.1 false).halfOpen, (σ r).base.rhs.1 p = F.fRhs.1 p
  rhsP : ∀ r : Rank D.L, ∀ p ∈ (getDMBounds Lp r.1 false).halfOpen, (σ r).base.rhs.2 p = F.fRhs.2 p
  solV : ∀ r : Rank D.L, ∀ p ∈ (getDMBounds D.L r.1 false).halfOpen, (σ r).base.sol.1 p = F.fSol.1 p
  solP : ∀ r : Rank D.L, ∀ p ∈ (getDMBounds Lp r.1 false).halfOpen, (σ r).base.sol.2 p = F.fSol.2 p

end
end Cafes.Spmd
