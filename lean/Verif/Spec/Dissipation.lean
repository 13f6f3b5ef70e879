/-
Specification of the dissipation of a discrete flow and of its competitors: integrals of the finite element
fields, work of the right-hand side, admissible velocities.
-/
import Verif.Props.WeakForm
import Verif.Spec.Dirichlet

namespace Cafes.Spec
open Cafes Cafes.Props

/-- Twice the integral over the domain of `D(u) : D(v)`, `D` being the symmetric gradient. -/
noncomputable def viscous2 (L : Fin 2 → Dir) (h : Pos 2 ℝ) (u v : NodeVec 2 2 ℝ) : ℝ :=
  ∑ e ∈ gridElems L, int2 h (fun x y => 2 * ∑ a, ∑ b,
    symPart (fun c d => grad2 (Props.field2 L h u e c) x y d) a b *
      symPart (fun c d => grad2 (Props.field2 L h v e c) x y d) a b)

/-- The same in 3D. -/
noncomputable def viscous3 (L : Fin 3 → Dir) (h : Pos 3 ℝ) (u v : NodeVec 3 3 ℝ) : ℝ :=
  ∑ e ∈ gridElems L, int3 h (fun x y z => 2 * ∑ a, ∑ b,
    symPart (fun c d => grad3 (Props.field3 L h u e c) x y z d) a b *
      symPart (fun c d => grad3 (Props.field3 L h v e c) x y z d) a b)

/-- The integral over the domain of `∇u : ∇v`. -/
noncomputable def gradEnergy2 (L : Fin 2 → Dir) (h : Pos 2 ℝ) (u v : NodeVec 2 2 ℝ) : ℝ :=
  ∑ e ∈ gridElems L, ∑ c, int2 h (fun x y =>
    ∑ b, grad2 (Props.field2 L h u e c) x y b * grad2 (Props.field2 L h v e c) x y b)

/-- The same in 3D. -/
noncomputable def gradEnergy3 (L : Fin 3 → Dir) (h : Pos 3 ℝ) (u v : NodeVec 3 3 ℝ) : ℝ :=
  ∑ e ∈ gridElems L, ∑ c, int3 h (fun x y z =>
    ∑ b, grad3 (Props.field3 L h u e c) x y z b * grad3 (Props.field3 L h v e c) x y z b)

open Classical in
/-- The work of the right-hand side `f` in the motion `v`: its entries at the constrained dofs are imposed
velocities, not forces. -/
noncomputable def work {d : ℕ} {C : Type*} (L : Fin d → Dir) (bc : ℕ → Fin d → Option C)
    (f v : NodeVec d d ℝ) : ℝ :=
  ∑ g ∈ gridNodes L, ∑ c, if Constrained L bc g c then 0 else f g c * v g c

end Cafes.Spec
