/-
Model of the functions of cafes/particle/singularity/add_singularity.hpp which put the singular velocity on the surfaces of
the particles: `add_singularity_to_surf` (955-998) with `computesingularBC` (375-422), and the two-dimensional
`computesingularBC` (278-372), which spreads it on the mesh from the two arcs facing each other. Their calls in
particle_operator.hpp:189 and 262 are commented out.
-/
import Verif.Model.AddSing

namespace Cafes.AddSing
open Cafes Cafes.Geometry Cafes.Particle Cafes.Sing

variable {d : ℕ}

/-- A visited pair of particles with a singularity: indices, box, zone `|pos_ref_part[1]| <= cutoff_dist_` and velocity. -/
structure SurfPair (d : ℕ) where
  fst : ℕ
  snd : ℕ
  box : Box d ℤ
  zone : Pos d ℝ → Bool
  U : Pos d ℝ → Pos d ℝ

/-- The pair `(i, j)` in 2D (add_singularity.hpp:376-421, 982). -/
noncomputable def surfPair2 (i j : ℕ) (S : Singularity 2) (h : Pos 2 ℝ) : SurfPair 2 :=
  ⟨i, j, getBox2 S h, fun x => decide (|posInRef S x 1| ≤ S.cutoff), getU2 S⟩

/-- The pair `(i, j)` in 3D: the same test on the second coordinate alone (add_singularity.hpp:393, 411). -/
noncomputable def surfPair3 (i j : ℕ) (S : Singularity 3) (h : Pos 3 ℝ) : SurfPair 3 :=
  ⟨i, j, getBox3 S h, fun x => decide (|posInRef S x 1| ≤ S.cutoff), getU3 S⟩

/-- `new_box_d` (add_singularity.hpp:986-989): the corners multiplied by the mesh steps. -/
noncomputable def physBox (b : Box d ℤ) (h : Pos d ℝ) : Box d ℝ :=
  ⟨posMul (fun i => (b.bl i : ℝ)) h, posMul (fun i => (b.ur i : ℝ)) h⟩

/-- One of the two loops of `computesingularBC` (add_singularity.hpp:384-401, 403-419): all the surface points of the
particle `i`. -/
noncomputable def surfLoop (h : Pos d ℝ) (box : Box d ℝ) (q : SurfPair d) (surf : ℕ → List (Pos d ℤ × Pos d ℝ))
    (i : ℕ) (g : ℕ → ℕ → Pos d ℝ) : ℕ → ℕ → Pos d ℝ :=
  fun i' k => if i' = i then
    match (surf i)[k]? with
    | some pt => surfSing h box q.zone q.U pt (g i k)
    | none => g i k
  else g i' k

/-- `add_singularity_to_surf` on the process owning `box` (add_singularity.hpp:955-998): `g` has one value for each
particle and surface point held by the process. -/
noncomputable def addToSurf (h : Pos d ℝ) (box : Box d ℤ) (pairs : List (SurfPair d))
    (surf : ℕ → List (Pos d ℤ × Pos d ℝ)) (g : ℕ → ℕ → Pos d ℝ) : ℕ → ℕ → Pos d ℝ :=
  pairs.foldl (fun g q => if box.intersect q.box then
    let nb := physBox (box.boxInside q.box) h
    surfLoop h nb q surf q.snd (surfLoop h nb q surf q.fst g)
  else g) g

/-- The body of the loops of the two-dimensional `computesingularBC` (add_singularity.hpp:296-327, 335-366): the point of
reference coordinates `q`, with the weight `w`. -/
noncomputable def arcPoint (S : Singularity 2) (h : Pos 2 ℝ) (box : Box 2 ℤ) (q : Pos 2 ℝ) (w : ℝ) (sol : NodeVec 2 2 ℝ) :
    NodeVec 2 2 ℝ :=
  let pos := posFromRef S q
  let e := surfIndex h pos
  if box.pointInside e then
    let U := toMesh S.base (uRef2 S q)
    let spts := posSub pos (posMul (fun i => (e i : ℝ)) h)
    let bf := p1Integration2 spts h
    (List.finRange 4).foldl (fun sol je =>
      (List.finRange 2).foldl (fun sol c => addAt sol (getElement2 e je) c (U c * bf je * w)) sol) sol
  else sol

/-- The two-dimensional `computesingularBC` (add_singularity.hpp:278-372); `N` is an `int`. -/
noncomputable def arcsBC (S : Singularity 2) (scale : ℝ) (h : Pos 2 ℝ) (box : Box 2 ℤ) (sol : NodeVec 2 2 ℝ) :
    NodeVec 2 2 ℝ :=
  let N := truncInt (S.cutoff / h 0 * scale)
  let t1 := Real.arcsin (S.cutoff * S.H1)
  let sol := (forRange (-N) N).foldl (fun sol (i : ℤ) =>
    arcPoint S h box ![(Real.cos (i * t1 / N) - 1) / S.H1, Real.sin (i * t1 / N) / S.H1] (t1 / N / S.H1) sol) sol
  let t2 := Real.arcsin (S.cutoff * S.H2)
  (forRange (-N) N).foldl (fun sol (i : ℤ) =>
    arcPoint S h box ![S.contact + (1 - Real.cos (i * t2 / N)) / S.H2, Real.sin (i * t2 / N) / S.H2] (t2 / N / S.H2) sol) sol

end Cafes.AddSing
