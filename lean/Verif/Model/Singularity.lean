import Verif.Model.Geometry
import Verif.Model.SingNormal

/-!
Model of cafes/particle/singularity/singularity.hpp (the contact frame of a pair of particles, the
cut-off distance, the changes of frame of the singular fields, the box of the contact zone) and of
the pair functions of cafes/particle/particle.hpp:181-208.

`double` is modelled by `ℝ`. `std::sqrt` of a negative number (overlapping particles) is NaN in the
code; the theorems assume a positive gap.
-/

namespace Cafes.Sing
open Cafes Cafes.Geometry

variable {d : ℕ}

/-- What the singularity uses of a particle (particle.hpp:70-109): `r` is `shape_factors_[0]`. -/
structure Ball (d : ℕ) where
  center : Pos d ℝ
  velocity : Pos d ℝ
  r : ℝ

/-- `std::inner_product(a.begin(), a.end(), b.begin(), 0.)` (particle.hpp:206,
singularity.hpp:208, 220, 222, 238, 244, 264). -/
noncomputable def innerProd (a b : Pos d ℝ) : ℝ := (List.finRange d).foldl (fun s i => s + a i * b i) 0

/-- `position_diff(p1, p2)` (particle.hpp:181-188). -/
noncomputable def positionDiff (p1 p2 : Ball d) : Pos d ℝ := fun i => p1.center i - p2.center i

/-- `velocity_diff(p1, p2)` (particle.hpp:191-198). -/
noncomputable def velocityDiff (p1 p2 : Ball d) : Pos d ℝ := fun i => p1.velocity i - p2.velocity i

/-- `distance(p1, p2)` (particle.hpp:200-208). -/
noncomputable def distance (p1 p2 : Ball d) : ℝ :=
  √(innerProd (positionDiff p1 p2) (positionDiff p1 p2))

/-- `int sign(double)` (singularity.hpp:48-50). -/
noncomputable def sgn (v : ℝ) : ℝ := (if 0 ≤ v then 1 else 0) - (if v < 0 then 1 else 0)

/-- What `construct_base` sets: `base_`, `UN_`, `UT_`. -/
structure Frame (d : ℕ) where
  base : Fin d → Pos d ℝ
  UN : ℝ
  UT : ℝ

/-- `construct_base` in 2D (singularity.hpp:199-212). -/
noncomputable def constructBase2 (p1 p2 : Ball 2) : Frame 2 :=
  let b0 := vecDivScal (positionDiff p2 p1) (distance p1 p2)
  let b1 : Pos 2 ℝ := ![-b0 1, b0 0]
  let velDiff := velocityDiff p2 p1
  ⟨![b0, b1], innerProd velDiff b0, innerProd velDiff b1⟩

/-- `base_[0]` before its normalisation in the 3D `construct_base` (singularity.hpp:224-236): `n` is
`base_[2]`, `v` the velocity difference. -/
noncomputable def rawTangent (n v : Pos 3 ℝ) : Pos 3 ℝ :=
  if innerProd v n * innerProd v n = innerProd v v then
    let c := -sgn (n 2) * n 2 - sgn (n 1) * n 1
    ![c, sgn (n 1) * n 0, sgn (n 2) * c]
  else fun i => v i * (1 - n i)

/-- `construct_base` in 3D (singularity.hpp:214-249). -/
noncomputable def constructBase3 (p1 p2 : Ball 3) : Frame 3 :=
  let n := vecDivScal (positionDiff p2 p1) (distance p1 p2)
  let velDiff := velocityDiff p1 p2
  let t := rawTangent n velDiff
  let b0 := vecDivScal t (√(innerProd t t))
  let b1 := cross3 n b0
  ⟨![b0, b1, n], innerProd velDiff n, innerProd velDiff b0⟩

/-- The cut-off distance (singularity.hpp:84-93) for the radii `r1`, `r2` and the gap `c`. -/
noncomputable def cutoffDist (r1 r2 c alpha h : ℝ) : ℝ :=
  let K := 1 / 2 * (1 / r1 + 1 / r2)
  let minr := if r1 < r2 then r1 else r2
  let tmp := alpha * √(c / K)
  let cut := if tmp < minr then tmp else minr
  if cut ≤ √2 * h then √2 * h else cut

/-- `struct singularity` (singularity.hpp:52-69): the members the fields use. -/
structure Singularity (d : ℕ) where
  H1 : ℝ
  H2 : ℝ
  contact : ℝ
  cutoff : ℝ
  param : ℝ
  UN : ℝ
  UT : ℝ
  base : Fin d → Pos d ℝ
  origin : Pos d ℝ

/-- The constructor (singularity.hpp:73-112), `axis` being `2*Dimensions-4` and `frame` the
`construct_base` of the dimension at hand. `none` when `is_singularity_` is false: the frame is then
left unset (and every caller skips the pair). The members `alpha_`, `threshold_` are not used for
this decision. -/
noncomputable def mkSing (axis : Fin d) (frame : Ball d → Ball d → Frame d) (p1 p2 : Ball d)
    (h alpha : ℝ) : Option (Singularity d) :=
  let contact := distance p1 p2 - p1.r - p2.r
  let cutoff := cutoffDist p1.r p2.r contact alpha h
  if contact < 1 then
    let F := frame p1 p2
    some ⟨1 / p1.r, 1 / p2.r, contact, cutoff, 1 / 2 * cutoff * cutoff, F.UN, F.UT, F.base,
      fun i => p1.center i + p1.r * F.base axis i⟩
  else none

/-- The constructor in 2D. -/
noncomputable def mkSing2 : Ball 2 → Ball 2 → ℝ → ℝ → Option (Singularity 2) := mkSing 0 constructBase2
/-- The constructor in 3D. -/
noncomputable def mkSing3 : Ball 3 → Ball 3 → ℝ → ℝ → Option (Singularity 3) := mkSing 2 constructBase3

/-- `get_pos_in_part_ref` (singularity.hpp:256-267). -/
noncomputable def posInRef (S : Singularity d) (pos : Pos d ℝ) : Pos d ℝ :=
  fun k => innerProd (fun i => pos i - S.origin i) (S.base k)

/-- `get_pos_from_part_ref` (singularity.hpp:269-284). -/
noncomputable def posFromRef (S : Singularity d) (q : Pos d ℝ) : Pos d ℝ :=
  fun i => (List.finRange d).foldl (fun s k => s + q k * S.base k i) 0 + S.origin i

/-- `get_u_sing_ref` in 2D (singularity.hpp:291-301). -/
noncomputable def uRef2 (S : Singularity 2) (q : Pos 2 ℝ) : Pos 2 ℝ :=
  ![ux_sing_normalMvt2D q S.H1 S.H2 S.contact S.UN S.param S.param,
    uz_sing_normalMvt2D q S.H1 S.H2 S.contact S.UN S.param S.param]

/-- `get_u_sing_ref` in 3D (singularity.hpp:303-315). -/
noncomputable def uRef3 (S : Singularity 3) (q : Pos 3 ℝ) : Pos 3 ℝ :=
  ![ux_sing_normalMvt3D q S.H1 S.H2 S.contact S.UN S.param S.param,
    uy_sing_normalMvt3D q S.H1 S.H2 S.contact S.UN S.param S.param,
    uz_sing_normalMvt3D q S.H1 S.H2 S.contact S.UN S.param S.param]

/-- The loop of `get_u_sing` going back to the mesh frame (singularity.hpp:333-336, 354-358). -/
noncomputable def toMesh (base : Fin d → Pos d ℝ) (u : Pos d ℝ) : Pos d ℝ :=
  (List.finRange d).foldl (fun acc k => fun i => acc i + base k i * u k) (fun _ => 0)

/-- `get_u_sing` in 2D (singularity.hpp:322-339). -/
noncomputable def getU2 (S : Singularity 2) (pos : Pos 2 ℝ) : Pos 2 ℝ :=
  toMesh S.base (uRef2 S (posInRef S pos))
/-- `get_u_sing` in 3D (singularity.hpp:341-361). -/
noncomputable def getU3 (S : Singularity 3) (pos : Pos 3 ℝ) : Pos 3 ℝ :=
  toMesh S.base (uRef3 S (posInRef S pos))

/-- `get_grad_u_sing_ref` in 2D (singularity.hpp:413-423): entry `i j` is the derivative of the
component `i` in direction `j`. -/
noncomputable def gradRef2 (S : Singularity 2) (q : Pos 2 ℝ) : Fin 2 → Fin 2 → ℝ :=
  ![![dxux_sing_normalMvt2D q S.H1 S.H2 S.contact S.UN S.param S.param,
      dzux_sing_normalMvt2D q S.H1 S.H2 S.contact S.UN S.param S.param],
    ![dxuz_sing_normalMvt2D q S.H1 S.H2 S.contact S.UN S.param S.param,
      dzuz_sing_normalMvt2D q S.H1 S.H2 S.contact S.UN S.param S.param]]

/-- `get_grad_u_sing_ref` in 3D (singularity.hpp:425-442). -/
noncomputable def gradRef3 (S : Singularity 3) (q : Pos 3 ℝ) : Fin 3 → Fin 3 → ℝ :=
  ![![dxux_sing_normalMvt3D q S.H1 S.H2 S.contact S.UN S.param S.param,
      dyux_sing_normalMvt3D q S.H1 S.H2 S.contact S.UN S.param S.param,
      dzux_sing_normalMvt3D q S.H1 S.H2 S.contact S.UN S.param S.param],
    ![dxuy_sing_normalMvt3D q S.H1 S.H2 S.contact S.UN S.param S.param,
      dyuy_sing_normalMvt3D q S.H1 S.H2 S.contact S.UN S.param S.param,
      dzuy_sing_normalMvt3D q S.H1 S.H2 S.contact S.UN S.param S.param],
    ![dxuz_sing_normalMvt3D q S.H1 S.H2 S.contact S.UN S.param S.param,
      dyuz_sing_normalMvt3D q S.H1 S.H2 S.contact S.UN S.param S.param,
      dzuz_sing_normalMvt3D q S.H1 S.H2 S.contact S.UN S.param S.param]]

/-- The loops of `get_grad_u_sing` (singularity.hpp:451-455). -/
noncomputable def gradToMesh (base : Fin d → Pos d ℝ) (G : Fin d → Fin d → ℝ) : Fin d → Fin d → ℝ :=
  fun k l => (List.finRange d).foldl (fun s m =>
    (List.finRange d).foldl (fun s n => s + base m k * base n l * G m n) s) 0

/-- `get_grad_u_sing` in 2D (singularity.hpp:444-458). -/
noncomputable def getGradU2 (S : Singularity 2) (pos : Pos 2 ℝ) : Fin 2 → Fin 2 → ℝ :=
  gradToMesh S.base (gradRef2 S (posInRef S pos))
/-- `get_grad_u_sing` in 3D (singularity.hpp:444-458). -/
noncomputable def getGradU3 (S : Singularity 3) (pos : Pos 3 ℝ) : Fin 3 → Fin 3 → ℝ :=
  gradToMesh S.base (gradRef3 S (posInRef S pos))

/-- `get_p_sing` in 2D (singularity.hpp:485-490). -/
noncomputable def getP2 (S : Singularity 2) (pos : Pos 2 ℝ) : ℝ :=
  p_sing_withT_normalMvt2D (posInRef S pos) S.H1 S.H2 S.contact S.UN S.param S.param
/-- `get_p_sing` in 3D (singularity.hpp:492-497). -/
noncomputable def getP3 (S : Singularity 3) (pos : Pos 3 ℝ) : ℝ :=
  p_sing_withT_normalMvt3D (posInRef S pos) S.H1 S.H2 S.contact S.UN S.param S.param

/-- `std::min({..})`, `std::max({..})` of a non-empty list (singularity.hpp:135-139, 185-196). -/
noncomputable def listMin (x : ℝ) (l : List ℝ) : ℝ := l.foldl min x
/-- See `listMin`. -/
noncomputable def listMax (x : ℝ) (l : List ℝ) : ℝ := l.foldl max x

/-- The final `return` of `get_box` (singularity.hpp:135-139, 185-196): floor and ceiling of the
extreme coordinates of the corners `c :: l`. -/
noncomputable def cornerBox (h : Pos d ℝ) (c : Pos d ℝ) (l : List (Pos d ℝ)) : Box d ℤ :=
  ⟨fun i => ⌊listMin (c i) (l.map fun p => p i) / h i⌋,
   fun i => ⌈listMax (c i) (l.map fun p => p i) / h i⌉⟩

/-- `get_box` in 2D (singularity.hpp:114-140). The corners are converted by the same formula as
`get_pos_from_part_ref`. -/
noncomputable def getBox2 (S : Singularity 2) (h : Pos 2 ℝ) : Box 2 ℤ :=
  let theta1 := Real.arcsin (S.cutoff * S.H1)
  let theta2 := Real.arcsin (S.cutoff * S.H2)
  let z1 := 1 / S.H1 * (-1 + Real.cos theta1)
  let z2 := S.contact + 1 / S.H2 * (1 - Real.cos theta2)
  let conv := fun (q : Pos 2 ℝ) => (![S.base 0 0 * q 0 + S.base 1 0 * q 1 + S.origin 0,
    S.base 0 1 * q 0 + S.base 1 1 * q 1 + S.origin 1] : Pos 2 ℝ)
  let p1up := conv ![z1, 1 / S.H1 * Real.sin theta1]
  let p1down := conv ![z1, -1 / S.H1 * Real.sin theta1]
  let p2up := conv ![z2, 1 / S.H2 * Real.sin theta2]
  let p2down := conv ![z2, -1 / S.H2 * Real.sin theta2]
  cornerBox h p1up [p1down, p2up, p2down]

/-- `get_box` in 3D (singularity.hpp:142-197). -/
noncomputable def getBox3 (S : Singularity 3) (h : Pos 3 ℝ) : Box 3 ℤ :=
  let theta1 := Real.arcsin (S.cutoff * S.H1)
  let theta2 := Real.arcsin (S.cutoff * S.H2)
  let s1 := 1 / S.H1 * Real.sin theta1
  let s2 := 1 / S.H2 * Real.sin theta2
  let m1 := -1 / S.H1 * Real.sin theta1
  let m2 := -1 / S.H2 * Real.sin theta2
  let z1 := 1 / S.H1 * (-1 + Real.cos theta1)
  let z2 := S.contact + 1 / S.H2 * (1 - Real.cos theta2)
  let c := S.cutoff
  let conv := fun (q : Pos 3 ℝ) => (![
    S.base 0 0 * q 0 + S.base 1 0 * q 1 + S.base 2 0 * q 2 + S.origin 0,
    S.base 0 1 * q 0 + S.base 1 1 * q 1 + S.base 2 1 * q 2 + S.origin 1,
    S.base 0 2 * q 0 + S.base 1 2 * q 1 + S.base 2 2 * q 2 + S.origin 2] : Pos 3 ℝ)
  cornerBox h (conv ![s1, c, z1]) [conv ![s1, -c, z1], conv ![m1, c, z1], conv ![m1, -c, z1],
    conv ![s2, c, z2], conv ![s2, -c, z2], conv ![m2, c, z2], conv ![m2, -c, z2]]

end Cafes.Sing
