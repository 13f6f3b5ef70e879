/-
What the iterative methods compute: the same programs on whole vectors, as if there were no processes.
-/
import Verif.Model.SpmdMat
import Verif.Spec.Operator

namespace Cafes.Spmd
open Cafes

variable {d NP NV : ℕ}

/-- The whole vectors and the scalars of a method. -/
structure Whole (d : ℕ) where
  v : ℕ → Field d
  s : ℕ → ℝ

/-- The method on whole vectors, with the operators of Verif/Model/Operator.lean and Verif/Model/Dirichlet.lean. -/
noncomputable def Ins.run (S : FluidOps d NP NV) : Ins d → Whole d → Whole d
  | .stokes i j, w => { w with v := (Function.update w.v j
      (stokesMatrixBC S.Lv S.Lp S.rs S.bc S.apply S.elemP S.elemV S.B (w.v i).1 (w.v i).2)) }
  | .block i j, w => { w with v := Function.update w.v j (blockMatrixBC S.Lv S.rs S.bc S.apply (w.v i).1, (w.v j).2) }
  | .mass i j, w => { w with v := Function.update w.v j (blockMatrix S.Lv S.massV (w.v i).1, blockMatrix S.Lp S.massP (w.v i).2) }
  | .diag j, w => { w with v := Function.update w.v j (diagMatrix S.Lv S.applyDiag, (w.v j).2) }
  | .ext F i j, w => { w with v := Function.update w.v j (F (w.v i)) }
  | .reduce fV fP k, w => { w with s := (Function.update w.s k
      ((∑ g ∈ gridNodes S.Lv, ∑ c, fV w.s g c fun i => (w.v i).1 g c) +
        ∑ g ∈ gridNodes S.Lp, ∑ c, fP w.s g c fun i => (w.v i).2 g c)) }
  | .node fV fP j, w => { w with v := (Function.update w.v j
      (fun g c => fV w.s g c fun i => (w.v i).1 g c, fun g c => fP w.s g c fun i => (w.v i).2 g c)) }
  | .set f k, w => { w with s := Function.update w.s k (f w.s) }
  | .skip, w => w
  | .seq a b, w => b.run S (a.run S w)
  | .ite c a b, w => if c w.s then a.run S w else b.run S w
  | .rep n a, w => (a.run S)^[n] w

/-- The processes hold the whole vectors, each one at the nodes that it owns, and all of them have the scalars. -/
structure Parts (S : FluidOps d NP NV) (w : Whole d) (σ : Rank S.Lv → MMem d) : Prop where
  velocity : ∀ i (r : Rank S.Lv), ∀ p ∈ (getDMBounds S.Lv r.1 false).halfOpen, ((σ r).v i).1 p = (w.v i).1 p
  pressure : ∀ i (r : Rank S.Lv), ∀ p ∈ (getDMBounds S.Lp r.1 false).halfOpen, ((σ r).v i).2 p = (w.v i).2 p
  scalars : ∀ r, (σ r).s = w.s

/-- What PETSc asks of the calls: the result of a product is not its argument; an operation on whole vectors only looks
at the nodes of the grids. -/
def Ins.Valid (S : FluidOps d NP NV) : Ins d → Prop
  | .stokes i j => i ≠ j
  | .block i j => i ≠ j
  | .mass i j => i ≠ j
  | .ext F _ _ => ∀ x x' : Field d, (∀ g ∈ gridNodes S.Lv, x.1 g = x'.1 g) → (∀ g ∈ gridNodes S.Lp, x.2 g = x'.2 g) → F x = F x'
  | .seq a b => a.Valid S ∧ b.Valid S
  | .ite _ a b => a.Valid S ∧ b.Valid S
  | .rep _ a => a.Valid S
  | _ => True

end Cafes.Spmd
