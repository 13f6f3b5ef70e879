/-
Model of cafes/particle/geometry/position.hpp and cafes/particle/geometry/box.hpp.
-/
import Mathlib.Order.Lattice
import Mathlib.Data.Fin.VecNotation
import Mathlib.Algebra.Order.Ring.Abs
import Mathlib.Data.List.FinRange
import Mathlib.Algebra.BigOperators.Fin

namespace Cafes

/-- `position<T, D>` (cafes/particle/geometry/position.hpp:44-80): a `std::array<T, D>`. -/
abbrev Pos (d : ℕ) (T : Type*) := Fin d → T

/-- `box<T, D>` (cafes/particle/geometry/box.hpp:49-56): bottom-left and upper-right corners. -/
structure Box (d : ℕ) (T : Type*) where
  bl : Pos d T
  ur : Pos d T

namespace Box

variable {d : ℕ} {T : Type*}

/-- `box::length(i)` (box.hpp:63). -/
def lengthAt [Lattice T] [AddGroup T] (b : Box d T) (i : Fin d) : T := |b.ur i - b.bl i|

/-- `box::length()` (box.hpp:68-74): the running product over the directions. -/
def length [Lattice T] [CommRing T] (b : Box d T) : T :=
  (List.finRange d).foldl (fun r i => r * b.lengthAt i) 1

/-- `box::get_box_points` in 2D (box.hpp:94-104). -/
def points2 (b : Box 2 T) : List (Pos 2 T) :=
  [![b.bl 0, b.bl 1], ![b.ur 0, b.bl 1], ![b.bl 0, b.ur 1], ![b.ur 0, b.ur 1]]

/-- `box::get_box_points` in 3D (box.hpp:106-119). -/
def points3 (b : Box 3 T) : List (Pos 3 T) :=
  [![b.bl 0, b.bl 1, b.bl 2], ![b.ur 0, b.bl 1, b.bl 2],
   ![b.bl 0, b.ur 1, b.bl 2], ![b.ur 0, b.ur 1, b.bl 2],
   ![b.bl 0, b.bl 1, b.ur 2], ![b.ur 0, b.bl 1, b.ur 2],
   ![b.bl 0, b.ur 1, b.ur 2], ![b.ur 0, b.ur 1, b.ur 2]]

section order
variable [LinearOrder T]

/-- `intersect` (box.hpp:166-174): early exit loop over the directions. -/
def intersect (b1 b2 : Box d T) : Bool :=
  (List.finRange d).all fun i => !(decide (b1.bl i > b2.ur i)) && !(decide (b1.ur i < b2.bl i))

/-- `overlap_box` (box.hpp:179-188). -/
def overlap (b1 b2 : Box d T) : Box d T :=
  ⟨fun i => max (b1.bl i) (b2.bl i), fun i => min (b1.ur i) (b2.ur i)⟩

/-- `union_box` (box.hpp:193-202). -/
def union (b1 b2 : Box d T) : Box d T :=
  ⟨fun i => min (b1.bl i) (b2.bl i), fun i => max (b1.ur i) (b2.ur i)⟩

/-- `box_inside` (box.hpp:204-215): start from `b1` and clip it by `b2`. -/
def boxInside (b1 b2 : Box d T) : Box d T :=
  ⟨fun i => if b2.bl i > b1.bl i then b2.bl i else b1.bl i,
   fun i => if b2.ur i < b1.ur i then b2.ur i else b1.ur i⟩

/-- `point_inside` (box.hpp:220-226): half-open test. -/
def pointInside (b : Box d T) (p : Pos d T) : Bool :=
  (List.finRange d).all fun i => !(decide (p i < b.bl i) || decide (p i ≥ b.ur i))

/-- `check_box_inside` (box.hpp:231-243): counts corner coordinates, direction by direction. -/
def checkBoxInside (b1 b2 : Box d T) : Bool :=
  let count := (List.finRange d).foldl (fun c i =>
    let c := if b2.bl i ≥ b1.bl i ∧ b2.bl i ≤ b1.ur i then c + 1 else c
    if b2.ur i ≥ b1.bl i ∧ b2.ur i ≤ b1.ur i then c + 1 else c) 0
  decide (0 < count)

end order
end Box
end Cafes
