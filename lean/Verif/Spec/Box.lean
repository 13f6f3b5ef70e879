/-
Specification vocabulary for boxes: the sets of points they denote, and the traversal order.
-/
import Verif.Model.Box
import Mathlib.Data.Set.Basic

namespace Cafes

variable {d : ℕ} {T : Type*}

/-- The points of the half-open box `[bl, ur)`. -/
def Box.halfOpen [LT T] [LE T] (b : Box d T) : Set (Pos d T) :=
  {p | ∀ i, b.bl i ≤ p i ∧ p i < b.ur i}

/-- The points of the closed box `[bl, ur]`. -/
def Box.closed [LE T] (b : Box d T) : Set (Pos d T) :=
  {p | ∀ i, b.bl i ≤ p i ∧ p i ≤ b.ur i}

/-- A box whose corners are in the right order. -/
def Box.Valid [LE T] (b : Box d T) : Prop := ∀ i, b.bl i ≤ b.ur i

/-- The order in which a nest of loops with the first coordinate innermost enumerates points. -/
def ColexLt [LT T] (p q : Pos d T) : Prop := ∃ k, p k < q k ∧ ∀ j, k < j → p j = q j

end Cafes
