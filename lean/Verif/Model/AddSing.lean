/-
Model of cafes/particle/singularity/add_singularity.hpp: the loops over the pairs of particles, the source
term of the singular fields, their addition to the solution, their values at the surface points and the
forces they exert.

The singular fields themselves are those of Verif/Model/Singularity.lean. `double` is modelled by the real
numbers; `sing.scale` (singularity.hpp:59, the number 10 stored in a `double`) by a natural number.
-/
import Verif.Model.Particle
import Verif.Model.Singularity
import Verif.Model.Quadrature

namespace Cafes.AddSing
open Cafes Cafes.Geometry Cafes.Particle Cafes.Sing

variable {d : ℕ} {A : Type*}

/-- The loops over the pairs of particles, the same in add_singularity.hpp:551-554, 611-614, 889-893, 929-933,
971-975, 1016-1020: `for (ipart = 0; ipart < size()-1; ++ipart) for (jpart = ipart+1; jpart < size(); ..)` in
`size_t` arithmetic. The list of the pairs visited, or `none` as soon as `particles[ipart]` is read out of
bounds. -/
def pairLoop (n : ℕ) : Option (List (ℕ × ℕ)) :=
  (List.range (toSize ((n : ℤ) - 1))).foldl (fun acc ipart => acc.bind fun l =>
    if ipart < n then
      some (l ++ (List.range' (ipart + 1) (n - (ipart + 1))).map fun jpart => (ipart, jpart))
    else none) (some [])

/-- What the loops over the fluid points use of a pair of particles: the box `get_box(h)`, the test on the
position, the singular velocity, its gradient and the singular pressure. -/
structure Pair (d : ℕ) where
  box : Box d ℤ
  wet : Pos d ℝ → Bool
  U : Pos d ℝ → Pos d ℝ
  G : Pos d ℝ → Fin d → Fin d → ℝ
  P : Pos d ℝ → ℝ

/-- A pair in 2D: the points kept are outside the two particles and at a distance at most `cutoff_dist_` of
the line of the centres (add_singularity.hpp:90-97, 459-466). -/
noncomputable def pair2 (S : Singularity 2) (c1 c2 : Pos 2 ℝ → Bool) (h : Pos 2 ℝ) : Pair 2 :=
  ⟨getBox2 S h, fun x => !c1 x && !c2 x && decide (|posInRef S x 1| ≤ S.cutoff), getU2 S, getGradU2 S, getP2 S⟩

/-- A pair in 3D: the only test is that the point is outside the two particles (add_singularity.hpp:235). -/
noncomputable def pair3 (S : Singularity 3) (c1 c2 : Pos 3 ℝ → Bool) (h : Pos 3 ℝ) : Pair 3 :=
  ⟨getBox3 S h, fun x => !c1 x && !c2 x, getU3 S, getGradU3 S, getP3 S⟩

/-- The nested loops over the cells of the box and over the `scale^d` points of each cell
(add_singularity.hpp:74-97, 215-239, 446-466): the kernel receives the cell, the position in the cell and the
point. The C++ loops run over `size_t`; the boxes they are given have nonnegative corners
(`intersect` was tested, see `natBox_inside`). -/
noncomputable def subLoop {σ : Type*} (scale : ℕ) (h : Pos d ℝ) (wet : Pos d ℝ → Bool) (b : Box d ℤ)
    (kernel : Pos d ℤ → Pos d ℝ → Pos d ℝ → σ → σ) (s : σ) : σ :=
  let hs : Pos d ℝ := fun i => h i / scale
  iterate b (fun pos s =>
    iterate (⟨fun _ => 0, fun _ => (scale : ℤ)⟩ : Box d ℤ) (fun ps s =>
      let pts : Pos d ℝ := fun i => pos i * h i + ps i * hs i
      if wet pts then kernel pos (fun i => ps i * hs i) pts s else s) s) s

/-- The kernel of `computesingularST` (add_singularity.hpp:105-125, 244-266): `bfg` is
`P1_integration_grad(., h)`. -/
noncomputable def stKernel {N : ℕ} (bfg : Pos d ℝ → Fin N → Pos d ℝ) (elem : Pos d ℤ → Fin N → Pos d ℤ)
    (coef : ℝ) (q : Pair d) (pos : Pos d ℤ) (loc pts : Pos d ℝ) (u : NodeVec d d ℝ) : NodeVec d d ℝ :=
  (List.finRange N).foldl (fun u je =>
    (List.finRange d).foldl (fun u d1 =>
      let u := (List.finRange d).foldl (fun u d2 =>
        addAt u (elem pos je) d1 (-(coef * q.G pts d1 d2 * bfg loc je d2))) u
      addAt u (elem pos je) d1 (coef * q.P pts * bfg loc je d1)) u) u

/-- The kernel of `addsingularity` (add_singularity.hpp:468-484): `bf` is `P1_integration(., h)`. -/
noncomputable def addKernel {N : ℕ} (bf : Pos d ℝ → Fin N → ℝ) (elem : Pos d ℤ → Fin N → Pos d ℤ)
    (coef : ℝ) (q : Pair d) (pos : Pos d ℤ) (loc pts : Pos d ℝ) (u : NodeVec d d ℝ) : NodeVec d d ℝ :=
  (List.finRange N).foldl (fun u je =>
    (List.finRange d).foldl (fun u c => addAt u (elem pos je) c (coef * q.U pts c * bf loc je)) u) u

/-- The body of the pair loops of `add_singularity_in_fluid` and `add_singularity_to_last_sol` on the process
owning `box` (add_singularity.hpp:563-571, 623-632): the pairs with a singularity, each clipped to the box of
the process. -/
noncomputable def pairsLoop (scale : ℕ) (h : Pos d ℝ) (box : Box d ℤ)
    (kernel : Pair d → Pos d ℤ → Pos d ℝ → Pos d ℝ → NodeVec d d ℝ → NodeVec d d ℝ) (pairs : List (Pair d))
    (u : NodeVec d d ℝ) : NodeVec d d ℝ :=
  pairs.foldl (fun u q => if box.intersect q.box then
    subLoop scale h q.wet (box.boxInside q.box) (kernel q) u else u) u

/-- `coef` (add_singularity.hpp:72, 213, 443). -/
noncomputable def coef (d scale : ℕ) : ℝ := 1 / (scale : ℝ) ^ d

/-- `add_singularity_in_fluid` (add_singularity.hpp:522-590) for the list of the singular pairs: each process
fills a local array initialised by 0, then the local arrays are added to the right-hand side
(`local_to_global(ADD_VALUES)`). -/
noncomputable def addInFluid {N : ℕ} (L : Fin d → Dir) (bfg : Pos d ℝ → Fin N → Pos d ℝ)
    (elem : Pos d ℤ → Fin N → Pos d ℤ) (scale : ℕ) (h : Pos d ℝ) (pairs : List (Pair d))
    (rhs : NodeVec d d ℝ) : NodeVec d d ℝ :=
  localToGlobalAdd L (fun r => pairsLoop scale h (getDMBounds L r true) (stKernel bfg elem (coef d scale))
    pairs 0) rhs

/-- `local_to_global(INSERT_VALUES)` (cafes/petsc/vec.hpp:168-178): contract of `DMLocalToGlobal` for a DMDA,
each node receives the local value of the process that owns it, the ghost values are dropped. -/
noncomputable def localToGlobalInsert {n : ℕ} (L : Fin d → Dir) (yl : (Fin d → ℕ) → NodeVec d n ℝ) : NodeVec d n ℝ :=
  fun g c => ∑ r ∈ procs L, if (getDMBounds L r false).pointInside g then yl r g c else 0

/-- `add_singularity_to_last_sol` (add_singularity.hpp:593-643). -/
noncomputable def addToLastSol {N : ℕ} (L : Fin d → Dir) (bf : Pos d ℝ → Fin N → ℝ)
    (elem : Pos d ℤ → Fin N → Pos d ℤ) (scale : ℕ) (h : Pos d ℝ) (pairs : List (Pair d))
    (x : NodeVec d d ℝ) : NodeVec d d ℝ :=
  localToGlobalInsert L (fun r => pairsLoop scale h (getDMBounds L r true) (addKernel bf elem (coef d scale))
    pairs (globalToLocal L x))

/-- `computesingularBC` for one surface point of a particle of the pair (add_singularity.hpp:386-402): `box` is
the clipped box in physical coordinates, `zone` the test `|pos_ref_part[1]| <= cutoff_dist_`. -/
noncomputable def surfSing (h : Pos d ℝ) (box : Box d ℝ) (zone : Pos d ℝ → Bool) (U : Pos d ℝ → Pos d ℝ)
    (pt : Pos d ℤ × Pos d ℝ) (g : Pos d ℝ) : Pos d ℝ :=
  let pos := posAdd pt.2 (posMul (fun i => (pt.1 i : ℝ)) h)
  if box.pointInside pos then
    if zone pos then fun c => g c + U pos c else g
  else g

/-! Forces of the singular fields on the particles. -/

/-- The values of `for (std::size_t i = lo; i < hi; ++i)`, the bounds being converted to `size_t`
(add_singularity.hpp:658, 697, 735: `i = -N`, `i < N`). -/
def sizeLoop (lo hi : ℤ) : List ℕ := List.range' (toSize lo) (toSize hi - toSize lo)

/-- The stress built from a gradient and a pressure, with viscosity 1, in 2D (add_singularity.hpp:670-673). -/
noncomputable def stress2 (G : Fin 2 → Fin 2 → ℝ) (p : ℝ) : Fin 2 → Fin 2 → ℝ :=
  ![![2 * 1 * G 0 0 - p, 1 * (G 0 1 + G 1 0)], ![1 * (G 0 1 + G 1 0), 2 * 1 * G 1 1 - p]]

/-- `compute_singular_forces_on_part1` and `.._on_part2` in 2D, the two bodies being identical
(add_singularity.hpp:683-756). `pos` of the reference frame is given to `get_p_sing`, which expects a position
of the mesh (line 707). -/
noncomputable def singForce2 (S : Singularity 2) (N : ℕ) : Pos 2 ℝ :=
  let theta := Real.arcsin (S.cutoff * S.H1)
  (sizeLoop (-(N : ℤ)) N).foldl (fun (force : Pos 2 ℝ) (i : ℕ) =>
    let ct := Real.cos (i * theta / N)
    let st := Real.sin (i * theta / N)
    let pos : Pos 2 ℝ := ![(ct - 1) / S.H1, st / S.H1]
    let normal : Pos 2 ℝ := ![ct, st]
    let sigma := stress2 (gradRef2 S pos) (getP2 S pos)
    (List.finRange 2).foldl (fun force d1 => (List.finRange 2).foldl (fun force d2 =>
      Function.update force d1 (force d1 + theta / N / S.H1 * sigma d1 d2 * normal d2)) force) force) 0

/-- The stress in 3D (add_singularity.hpp:791-801, 850-860): `sigma[0][1]` is `2*mu*gradUsing[0][1]`. -/
noncomputable def stress3 (G : Fin 3 → Fin 3 → ℝ) (p : ℝ) : Fin 3 → Fin 3 → ℝ :=
  ![![2 * 1 * G 0 0 - p, 2 * 1 * G 0 1, 1 * (G 0 2 + G 2 0)],
    ![2 * 1 * G 0 1, 2 * 1 * G 1 1 - p, 1 * (G 1 2 + G 2 1)],
    ![1 * (G 0 2 + G 2 0), 1 * (G 1 2 + G 2 1), 2 * 1 * G 2 2 - p]]

/-- The two double loops at the end of the body of `compute_singular_forces_on_part1/2` in 3D
(add_singularity.hpp:803-809, 862-868), `t` being the contribution `coef*sigma*normal` of the point; the state
is `(force, force_ref)`. -/
noncomputable def force3Step (base : Fin 3 → Pos 3 ℝ) (coef : ℝ) (sigma : Fin 3 → Fin 3 → ℝ) (normal : Pos 3 ℝ)
    (s : Pos 3 ℝ × Pos 3 ℝ) : Pos 3 ℝ × Pos 3 ℝ :=
  let ref := (List.finRange 3).foldl (fun ref d1 => (List.finRange 3).foldl (fun (ref : Pos 3 ℝ) d2 =>
    Function.update ref d1 (ref d1 + coef * sigma d1 d2 * normal d2)) ref) s.2
  ((List.finRange 3).foldl (fun force d1 => (List.finRange 3).foldl (fun (force : Pos 3 ℝ) d2 =>
    Function.update force d1 (force d1 + base d2 d1 * ref d2)) force) s.1, ref)

/-- `compute_singular_forces_on_part1` (`second = false`, add_singularity.hpp:759-815) and
`compute_singular_forces_on_part2` (`second = true`, 818-874) in 3D, for a gradient `G` and a pressure `p`
given in the frame of the pair. -/
noncomputable def singForce3 (base : Fin 3 → Pos 3 ℝ) (G : Pos 3 ℝ → Fin 3 → Fin 3 → ℝ) (p : Pos 3 ℝ → ℝ)
    (cutoff H contact : ℝ) (second : Bool) (N : ℕ) : Pos 3 ℝ :=
  let theta := Real.arcsin (cutoff * H)
  let A := 2 * Real.pi * theta / N / N / H / H
  ((List.range' 1 N).foldl (fun s (i : ℕ) => (List.range' 1 N).foldl (fun s (j : ℕ) =>
    let ci := Real.cos (i * theta / N)
    let si := Real.sin (i * theta / N)
    let cj := Real.cos (2 * Real.pi * j / N)
    let sj := Real.sin (2 * Real.pi * j / N)
    let pos : Pos 3 ℝ := ![si * cj / H, si * sj / H, if second then contact + (1 - ci) / H else (ci - 1) / H]
    let normal : Pos 3 ℝ := ![si * cj, si * sj, if second then -ci else ci]
    force3Step base (A * si) (stress3 (G pos) (p pos)) normal s) s) ((0, 0) : Pos 3 ℝ × Pos 3 ℝ)).1

/-- `get_p_sing_ref` in 3D (singularity.hpp:475-478). -/
noncomputable def pRef3 (S : Singularity 3) (q : Pos 3 ℝ) : ℝ :=
  p_sing_withT_normalMvt3D q S.H1 S.H2 S.contact S.UN S.param S.param

/-- The forces computed by `compute_singular_forces` (add_singularity.hpp:916-952): `forces` are set to 0, then
for each pair with a singularity the force on the first and on the second particle is subtracted; `sing i j`
is the pair of forces, `none` without singularity. -/
noncomputable def singForces (n : ℕ) (sing : ℕ → ℕ → Option (Pos d ℝ × Pos d ℝ)) : Option (ℕ → Pos d ℝ) :=
  (pairLoop n).map fun l => l.foldl (fun (f : ℕ → Pos d ℝ) ij => match sing ij.1 ij.2 with
    | some F =>
      let f := Function.update f ij.1 (vecSubVec (f ij.1) F.1)
      Function.update f ij.2 (vecSubVec (f ij.2) F.2)
    | none => f) (fun _ => 0)

end Cafes.AddSing
