/-
Specification of Dirichlet conditions: faces of the grid, constrained degrees of freedom.
-/
import Verif.Spec.Operator

namespace Cafes

/-- Node `g` is on the face `f` of the grid: face `2 i` is the lower wall of direction `i`, face
`2 i + 1` the upper wall; periodic directions have no wall. -/
def OnFace {d : ℕ} (L : Fin d → Dir) (g : Pos d ℤ) (f : ℕ) : Prop :=
  ∃ i : Fin d, (L i).periodic = false ∧
    ((f = 2 * i.1 ∧ g i = 0) ∨ (f = 2 * i.1 + 1 ∧ g i = (L i).m - 1))

/-- The dof `(g, c)` carries a Dirichlet condition: some wall containing `g` has a (non null)
condition for component `c`. -/
def Constrained {d : ℕ} {C : Type*} (L : Fin d → Dir) (bc : ℕ → Fin d → Option C) (g : Pos d ℤ)
    (c : Fin d) : Prop := ∃ f, OnFace L g f ∧ (bc f c).isSome

/-- The condition that applies at `(g, c)` is that of the last face in the order of the conditions. -/
def LastCond {d : ℕ} {C : Type*} (L : Fin d → Dir) (bc : ℕ → Fin d → Option C) (g : Pos d ℤ)
    (c : Fin d) (φ : C) : Prop :=
  ∃ f, OnFace L g f ∧ bc f c = some φ ∧ ∀ f', f < f' → OnFace L g f' → bc f' c = none

/-- `rs` lists every process of the grid once, in any order. -/
def AllProcs {d : ℕ} (L : Fin d → Dir) (rs : List (Fin d → ℕ)) : Prop :=
  rs.Nodup ∧ ∀ r, r ∈ rs ↔ r ∈ procs L

end Cafes
