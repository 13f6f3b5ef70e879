/-
Model of cafes/particle/geometry/triangulation.hpp. Qhull is an external library: it is a function from the
array of coordinates to the list of facets it enumerates (the flag `isTriCoplanar` and the point ids of the
vertices, in the order of the iterator).
-/
import Verif.Model.Box
import Mathlib.Data.Real.Basic

namespace Cafes.Tri
open Cafes

/-- What the loop reads of a facet of Qhull. -/
structure Facet where
  triCoplanar : Bool
  ids : List ℤ

/-- `coords.resize(n)`, `coords[i] = v` on a vector of zeros; an index past the end is an error. -/
def store {A : Type*} (l : Option (List A)) (i : ℕ) (v : A) : Option (List A) :=
  match l with
  | none => none
  | some l => if i < l.length then some (l.set i v) else none

/-- The array given to Qhull in 2D (triangulation.hpp:50-56). -/
noncomputable def coords2 (points : List (Pos 2 ℝ)) : Option (List ℝ) :=
  (List.range points.length).foldl (fun c i =>
    let p := points.getD i 0
    store (store c (2 * i) (p 0)) (2 * i + 1) (p 1))
    (some (List.replicate (points.length * 2) 0))

/-- The array given to Qhull in 3D (triangulation.hpp:83-90). -/
noncomputable def coords3 (points : List (Pos 3 ℝ)) : Option (List ℝ) :=
  (List.range points.length).foldl (fun c i =>
    let p := points.getD i 0
    store (store (store c (3 * i) (p 0)) (3 * i + 1) (p 1)) (3 * i + 2) (p 2))
    (some (List.replicate (points.length * 3) 0))

/-- `triangles[ind][ns++] = p.id()` on an array of 3 (triangulation.hpp:71, 104); a fourth vertex, or a
triangle past the end, is an error. -/
def vertexStep (ind : ℕ) (s : Option (List (List ℤ)) × ℕ) (id : ℤ) : Option (List (List ℤ)) × ℕ :=
  (match s.1 with
    | none => none
    | some t => match t[ind]? with
      | none => none
      | some tri => if s.2 < tri.length then some (t.set ind (tri.set s.2 id)) else none, s.2 + 1)

/-- The loop on the vertices of a facet (triangulation.hpp:64-72, 97-105). -/
def writeTriangle (t : Option (List (List ℤ))) (ind : ℕ) (ids : List ℤ) : Option (List (List ℤ)) :=
  (ids.foldl (vertexStep ind) (t, 0)).1

/-- The facet loop of the 2D version (triangulation.hpp:59-75). -/
def triangles2 (facets : List Facet) : Option (List (List ℤ)) :=
  (facets.foldl (fun (s : Option (List (List ℤ)) × ℕ) f =>
    if f.triCoplanar then (writeTriangle s.1 s.2 f.ids, s.2 + 1) else s)
    (some (List.replicate facets.length [0, 0, 0]), 0)).1

/-- The facet loop of the 3D version (triangulation.hpp:93-107). -/
def triangles3 (facets : List Facet) : Option (List (List ℤ)) :=
  (facets.foldl (fun (s : Option (List (List ℤ)) × ℕ) f => (writeTriangle s.1 s.2 f.ids, s.2 + 1))
    (some (List.replicate facets.length [0, 0, 0]), 0)).1

/-- `triangulation` in 2D, `qhull` being `runQhull("", 2, n, coords, "d Qt Qbb Qz Qc")`. -/
noncomputable def triangulation2 (qhull : List ℝ → List Facet) (points : List (Pos 2 ℝ)) :
    Option (List (List ℤ)) :=
  (coords2 points).bind fun c => triangles2 (qhull c)

/-- `triangulation` in 3D, `qhull` being `runQhull("", 3, n, coords, "i Qt")`. -/
noncomputable def triangulation3 (qhull : List ℝ → List Facet) (points : List (Pos 3 ℝ)) :
    Option (List (List ℤ)) :=
  (coords3 points).bind fun c => triangles3 (qhull c)

end Cafes.Tri
