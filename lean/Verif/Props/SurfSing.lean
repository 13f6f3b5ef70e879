/-
Property theorems: C109, the singular velocity on the surfaces of the particles.
-/
import Verif.Model.SurfSing
import Verif.Props.AddSing
import Verif.Props.Frame
import Verif.Props.Cutoff
import Verif.Props.Spread
import Verif.Props.FE

namespace Cafes.Props
open Cafes Cafes.Spec Cafes.Geometry Cafes.Particle Cafes.Sing Cafes.AddSing
variable {d : ℕ}

/-- The point `x` is in the box of the pair, in physical coordinates. -/
def inPhysBox (q : SurfPair d) (h x : Pos d ℝ) : Prop := ∀ c, (q.box.bl c : ℝ) * h c ≤ x c ∧ x c < (q.box.ur c : ℝ) * h c

theorem surfSing_apply (h : Pos d ℝ) (box : Box d ℝ) (zone : Pos d ℝ → Bool) (U : Pos d ℝ → Pos d ℝ)
    (pt : Pos d ℤ × Pos d ℝ) (g : Pos d ℝ) (c : Fin d) [Decidable (entryPoint h pt ∈ box.halfOpen ∧ zone (entryPoint h pt) = true)] :
    surfSing h box zone U pt g c = g c + if entryPoint h pt ∈ box.halfOpen ∧ zone (entryPoint h pt) = true then
      U (entryPoint h pt) c else 0 := by
  have e : posAdd pt.2 (posMul (fun i => (pt.1 i : ℝ)) h) = entryPoint h pt := by
    funext i
    simp only [posAdd, posMul, compLoop_eq, entryPoint, node]
    ring
  unfold surfSing
  simp only [e]
  by_cases h1 : entryPoint h pt ∈ box.halfOpen
  · rw [if_pos ((Box.pointInside_iff _ _).2 h1)]
    by_cases h2 : zone (entryPoint h pt) = true
    · rw [if_pos h2, if_pos ⟨h1, h2⟩]
    · rw [if_neg h2, if_neg fun h => h2 h.2, add_zero]
  · rw [if_neg fun h => h1 ((Box.pointInside_iff _ _).1 h), if_neg fun h => h1 h.1, add_zero]

open Classical in
theorem surfLoop_apply (h : Pos d ℝ) (box : Box d ℝ) (q : SurfPair d) (surf : ℕ → List (Pos d ℤ × Pos d ℝ)) (j : ℕ)
    (g : ℕ → ℕ → Pos d ℝ) (i k : ℕ) (pt : Pos d ℤ × Pos d ℝ) (hk : (surf i)[k]? = some pt) (c : Fin d) :
    surfLoop h box q surf j g i k c = g i k c + if i = j ∧ entryPoint h pt ∈ box.halfOpen ∧ q.zone (entryPoint h pt) = true then
      q.U (entryPoint h pt) c else 0 := by
  unfold surfLoop
  by_cases hj : i = j
  · subst hj
    rw [if_pos rfl, hk]
    simp only [true_and]
    exact surfSing_apply h box q.zone q.U pt (g i k) c
  · rw [if_neg hj, if_neg fun h => hj h.1, add_zero]

theorem inPhysBox_cell (q : SurfPair d) (h : Pos d ℝ) (hh : ∀ c, 0 < h c) (pt : Pos d ℤ × Pos d ℝ)
    (hp : ∀ c, 0 ≤ pt.2 c ∧ pt.2 c < h c) (hx : inPhysBox q h (entryPoint h pt)) : pt.1 ∈ q.box.halfOpen := by
  intro c
  obtain ⟨h1, h2⟩ := hx c
  obtain ⟨h3, h4⟩ := hp c
  simp only [entryPoint, node] at h1 h2
  have hc := hh c
  constructor
  · have : (q.box.bl c : ℝ) < pt.1 c + 1 := by
      by_contra hlt
      push Not at hlt
      have := mul_le_mul_of_nonneg_right hlt hc.le
      nlinarith
    have : q.box.bl c < pt.1 c + 1 := by exact_mod_cast this
    omega
  · have : (pt.1 c : ℝ) < q.box.ur c := by
      by_contra hlt
      push Not at hlt
      have := mul_le_mul_of_nonneg_right hlt hc.le
      nlinarith
    exact_mod_cast this

theorem mem_physBox (box : Box d ℤ) (q : SurfPair d) (h : Pos d ℝ) (hh : ∀ c, 0 < h c) (pt : Pos d ℤ × Pos d ℝ)
    (hp : ∀ c, 0 ≤ pt.2 c ∧ pt.2 c < h c) (hb : pt.1 ∈ box.halfOpen) :
    entryPoint h pt ∈ (physBox (box.boxInside q.box) h).halfOpen ↔ inPhysBox q h (entryPoint h pt) := by
  rw [C31_box_inside_eq]
  unfold inPhysBox
  refine forall_congr' fun c => ?_
  have e1 : (physBox (box.overlap q.box) h).bl c = ((max (box.bl c) (q.box.bl c) : ℤ) : ℝ) * h c := by
    simp only [physBox, posMul, compLoop_eq, Box.overlap]
  have e2 : (physBox (box.overlap q.box) h).ur c = ((min (box.ur c) (q.box.ur c) : ℤ) : ℝ) * h c := by
    simp only [physBox, posMul, compLoop_eq, Box.overlap]
  rw [e1, e2]
  obtain ⟨h3, h4⟩ := hp c
  have hc := hh c
  have b1 : (box.bl c : ℝ) * h c ≤ entryPoint h pt c := by
    have : (box.bl c : ℝ) ≤ pt.1 c := by exact_mod_cast (hb c).1
    have := mul_le_mul_of_nonneg_right this hc.le
    simp only [entryPoint, node]
    linarith
  have b2 : entryPoint h pt c < (box.ur c : ℝ) * h c := by
    have : (pt.1 c : ℝ) + 1 ≤ box.ur c := by exact_mod_cast (hb c).2
    have := mul_le_mul_of_nonneg_right this hc.le
    simp only [entryPoint, node]
    linarith
  have m1 : ((max (box.bl c) (q.box.bl c) : ℤ) : ℝ) * h c = max ((box.bl c : ℝ) * h c) ((q.box.bl c : ℝ) * h c) := by
    push_cast
    rw [max_mul_of_nonneg _ _ hc.le]
  have m2 : ((min (box.ur c) (q.box.ur c) : ℤ) : ℝ) * h c = min ((box.ur c : ℝ) * h c) ((q.box.ur c : ℝ) * h c) := by
    push_cast
    rw [min_mul_of_nonneg _ _ hc.le]
  rw [m1, m2]
  simp only [max_le_iff, lt_min_iff]
  tauto

open Classical in
/-- C109 (surfaces): at each surface point `x` held by a process, `add_singularity_to_surf` adds the singular velocities at `x` of
the pairs the particle belongs to, when `x` is in the box of the pair and in its zone, once for each pair. Nothing depends on how the
mesh is shared between the processes. -/
theorem C109_surf (h : Pos d ℝ) (hh : ∀ c, 0 < h c) (box : Box d ℤ) (pairs : List (SurfPair d))
    (hpairs : ∀ q ∈ pairs, q.fst ≠ q.snd) (surf : ℕ → List (Pos d ℤ × Pos d ℝ)) (g : ℕ → ℕ → Pos d ℝ)
    (i k : ℕ) (pt : Pos d ℤ × Pos d ℝ) (hk : (surf i)[k]? = some pt)
    (hp : ∀ c, 0 ≤ pt.2 c ∧ pt.2 c < h c) (hb : pt.1 ∈ box.halfOpen) (c : Fin d) :
    addToSurf h box pairs surf g i k c = g i k c + (pairs.map fun q =>
      if (q.fst = i ∨ q.snd = i) ∧ inPhysBox q h (entryPoint h pt) ∧ q.zone (entryPoint h pt) = true then
        q.U (entryPoint h pt) c else 0).sum := by
  unfold addToSurf
  induction pairs generalizing g with
  | nil => simp
  | cons q pairs ih =>
    rw [List.foldl_cons, ih (fun q hq => hpairs q (List.mem_cons_of_mem _ hq)), List.map_cons, List.sum_cons, ← add_assoc]
    refine congrArg₂ (· + ·) ?_ rfl
    by_cases hi : box.intersect q.box = true
    · rw [if_pos hi]
      show surfLoop h _ q surf q.snd (surfLoop h _ q surf q.fst g) i k c = _
      rw [surfLoop_apply h _ q surf _ _ i k pt hk, surfLoop_apply h _ q surf _ _ i k pt hk, mem_physBox box q h hh pt hp hb,
        add_assoc]
      refine congrArg₂ (· + ·) rfl ?_
      have hne := hpairs q List.mem_cons_self
      by_cases h1 : q.fst = i
      · have h2 : ¬ i = q.snd := fun e => hne (h1.trans e)
        simp [h1, h2]
      · by_cases h2 : q.snd = i
        · have h1' : ¬ i = q.fst := fun e => h1 e.symm
          simp [h1', h2]
        · have h1' : ¬ i = q.fst := fun e => h1 e.symm
          have h2' : ¬ i = q.snd := fun e => h2 e.symm
          simp [h1, h2, h1', h2']
    · rw [if_neg hi, if_neg, add_zero]
      rintro ⟨-, hx, -⟩
      exact hi (C30_never_skips _ _ pt.1 hb (inPhysBox_cell q h hh pt hp hx))

open Classical in
/-- C109 (surfaces of the particles): the same for the surface points found by `find_surf_points_insides` for a particle in the
quadrant of nonnegative coordinates: the value at the surface point `x` gets the singular velocities at `x`. -/
theorem C109_particle (h : Pos d ℝ) (hh : ∀ c, 0 < h c) (box : Box d ℤ) (pairs : List (SurfPair d))
    (hpairs : ∀ q ∈ pairs, q.fst ≠ q.snd) (surfs : ℕ → List (Pos d ℝ)) (bb : ℕ → Box d ℤ)
    (g : ℕ → ℕ → Pos d ℝ) (i k : ℕ) (pt : Pos d ℤ × Pos d ℝ)
    (hk : (surfPoints (surfs i) (box.boxInside (bb i)) h)[k]? = some pt) (hpos : ∀ x ∈ surfs i, ∀ c, 0 ≤ x c) (c : Fin d) :
    ∃ x ∈ surfs i, (∀ j, x j = (pt.1 j : ℝ) * h j + pt.2 j) ∧
    addToSurf h box pairs (fun i => surfPoints (surfs i) (box.boxInside (bb i)) h) g i k c = g i k c + (pairs.map fun q =>
      if (q.fst = i ∨ q.snd = i) ∧ inPhysBox q h x ∧ q.zone x = true then q.U x c else 0).sum := by
  obtain ⟨h1, h2, h3⟩ := C43_localised (surfs i) _ h hh pt (List.mem_of_getElem? hk)
  refine ⟨entryPoint h pt, h2, fun j => rfl, ?_⟩
  exact C109_surf h hh box pairs hpairs _ g i k pt hk (fun c => h3 c (hpos _ h2 c)) ((mem_boxInside _ _ _).1 h1).1 c

/-! ### The zones of the pairs -/

theorem posInRef_line (S : Singularity d) (a b : Pos d ℝ) (t : ℝ) (k : Fin d) :
    posInRef S (fun i => a i + t * (b i - a i)) k = posInRef S a k + t * (posInRef S b k - posInRef S a k) := by
  unfold posInRef
  simp only [innerProd_eq, Geometry.dot]
  rw [← Finset.sum_sub_distrib, Finset.mul_sum, ← Finset.sum_add_distrib]
  exact Finset.sum_congr rfl fun i _ => by ring

/-- C109 (zone, plane): for a pair of circles, the points that get the singular velocity are those of the box of the pair within
the cut-off distance of the line of the centres. -/
theorem C109_zone2 (p1 p2 : Ball 2) (hc : p1.center ≠ p2.center) (h alpha : ℝ) (S : Singularity 2)
    (hS : mkSing2 p1 p2 h alpha = some S) (hcut : 0 ≤ S.cutoff) (i j : ℕ) (hm : Pos 2 ℝ) (x : Pos 2 ℝ) :
    (surfPair2 i j S hm).zone x = true ↔
      ∃ t : ℝ, distSq x (fun m => p1.center m + t * (p2.center m - p1.center m)) ≤ S.cutoff ^ 2 := by
  obtain ⟨ho, hf, hc1, hc2⟩ := C58_frame2D p1 p2 hc h alpha S hS
  have hD : 0 < distSq p1.center p2.center := by
    have h0 : 0 ≤ distSq p1.center p2.center := Finset.sum_nonneg fun _ _ => sq_nonneg _
    refine lt_of_le_of_ne h0 fun he => hc ?_
    funext m
    have := (Finset.sum_eq_zero_iff_of_nonneg (fun _ _ => sq_nonneg _)).1 he.symm m (Finset.mem_univ m)
    exact sub_eq_zero.1 (pow_eq_zero_iff two_ne_zero |>.1 this)
  have hs := Real.sqrt_pos.2 hD
  have key : ∀ t : ℝ, distSq x (fun m => p1.center m + t * (p2.center m - p1.center m)) =
      (posInRef S x 0 - (-p1.r + t * √(distSq p1.center p2.center))) ^ 2 + posInRef S x 1 ^ 2 := by
    intro t
    rw [← (hf x _).2.2, distSq, Fin.sum_univ_two, posInRef_line, posInRef_line, hc1, hc2]
    simp only [Matrix.cons_val_zero, Matrix.cons_val_one]
    ring
  have hz : (surfPair2 i j S hm).zone x = true ↔ |posInRef S x 1| ≤ S.cutoff := by
    show decide (|posInRef S x 1| ≤ S.cutoff) = true ↔ _
    exact decide_eq_true_iff
  rw [hz, ← abs_of_nonneg hcut, ← sq_le_sq, sq_abs]
  constructor
  · intro hx
    refine ⟨(posInRef S x 0 + p1.r) / √(distSq p1.center p2.center), ?_⟩
    rw [key, div_mul_cancel₀ _ hs.ne']
    calc _ = posInRef S x 1 ^ 2 := by ring
      _ ≤ _ := hx
  · rintro ⟨t, ht⟩
    rw [key] at ht
    nlinarith [sq_nonneg (posInRef S x 0 - (-p1.r + t * √(distSq p1.center p2.center)))]

/-- C109 (zone, space): the test is on the second coordinate of the frame alone. -/
theorem C109_zone3 (S : Singularity 3) (i j : ℕ) (h x : Pos 3 ℝ) :
    (surfPair3 i j S h).zone x = true ↔ |∑ m, (x m - S.origin m) * S.base 1 m| ≤ S.cutoff := by
  show decide (|posInRef S x 1| ≤ S.cutoff) = true ↔ _
  rw [decide_eq_true_iff, posInRef, innerProd_eq]
  rfl

/-- C109 (space): the zone is therefore a band, not a disk: it has points at any distance of the line of the centres. -/
theorem C109_band3 (S : Singularity 3) (hS : Orthonormal S.base) (hcut : 0 ≤ S.cutoff) (i j : ℕ) (h : Pos 3 ℝ) (R : ℝ) :
    ∃ x, (surfPair3 i j S h).zone x = true ∧ posInRef S x 0 = R := by
  have hi := frame_inverse S hS ![R, 0, 0] 0
  refine ⟨posFromRef S ![R, 0, 0], ?_, by rw [hi.1]; rfl⟩
  show decide (|posInRef S _ 1| ≤ S.cutoff) = true
  rw [decide_eq_true_iff, hi.1]
  simpa using hcut

open Classical in
/-- C109 (plane): the value added by the pairs, written out: the singular velocity of the frame of the pair, turned back to the axes
of the mesh. -/
theorem C109_added2 (h : Pos 2 ℝ) (hh : ∀ c, 0 < h c) (box : Box 2 ℤ) (pairs : List (ℕ × ℕ × Singularity 2))
    (hpairs : ∀ q ∈ pairs, q.1 ≠ q.2.1) (surf : ℕ → List (Pos 2 ℤ × Pos 2 ℝ)) (g : ℕ → ℕ → Pos 2 ℝ)
    (i k : ℕ) (pt : Pos 2 ℤ × Pos 2 ℝ) (hk : (surf i)[k]? = some pt)
    (hp : ∀ c, 0 ≤ pt.2 c ∧ pt.2 c < h c) (hb : pt.1 ∈ box.halfOpen) (c : Fin 2) :
    addToSurf h box (pairs.map fun q => surfPair2 q.1 q.2.1 q.2.2 h) surf g i k c = g i k c + (pairs.map fun q =>
      if (q.1 = i ∨ q.2.1 = i) ∧
          (∀ c, ((getBox2 q.2.2 h).bl c : ℝ) * h c ≤ entryPoint h pt c ∧ entryPoint h pt c < ((getBox2 q.2.2 h).ur c : ℝ) * h c) ∧
          |∑ m, (entryPoint h pt m - q.2.2.origin m) * q.2.2.base 1 m| ≤ q.2.2.cutoff then
        ∑ m, q.2.2.base m c *
          uRef2 q.2.2 (fun n => ∑ m, (entryPoint h pt m - q.2.2.origin m) * q.2.2.base n m) m else 0).sum := by
  rw [C109_surf h hh box _ (by
    intro q hq
    obtain ⟨a, ha, rfl⟩ := List.mem_map.1 hq
    exact hpairs a ha) surf g i k pt hk hp hb, List.map_map]
  refine congrArg₂ (· + ·) rfl (congrArg List.sum (List.map_congr_left fun q _ => ?_))
  have hr : ∀ n, posInRef q.2.2 (entryPoint h pt) n = ∑ m, (entryPoint h pt m - q.2.2.origin m) * q.2.2.base n m := fun n => by
    rw [posInRef, innerProd_eq]; rfl
  show (if (q.1 = i ∨ q.2.1 = i) ∧ inPhysBox _ h _ ∧ decide (|posInRef q.2.2 (entryPoint h pt) 1| ≤ q.2.2.cutoff) = true then
    toMesh q.2.2.base (uRef2 q.2.2 (posInRef q.2.2 (entryPoint h pt))) c else 0) = _
  rw [toMesh_eq, show posInRef q.2.2 (entryPoint h pt) = _ from funext hr]
  refine if_congr (and_congr Iff.rfl (and_congr Iff.rfl decide_eq_true_iff)) rfl rfl

open Classical in
/-- C109 (space): the same. -/
theorem C109_added3 (h : Pos 3 ℝ) (hh : ∀ c, 0 < h c) (box : Box 3 ℤ) (pairs : List (ℕ × ℕ × Singularity 3))
    (hpairs : ∀ q ∈ pairs, q.1 ≠ q.2.1) (surf : ℕ → List (Pos 3 ℤ × Pos 3 ℝ)) (g : ℕ → ℕ → Pos 3 ℝ)
    (i k : ℕ) (pt : Pos 3 ℤ × Pos 3 ℝ) (hk : (surf i)[k]? = some pt)
    (hp : ∀ c, 0 ≤ pt.2 c ∧ pt.2 c < h c) (hb : pt.1 ∈ box.halfOpen) (c : Fin 3) :
    addToSurf h box (pairs.map fun q => surfPair3 q.1 q.2.1 q.2.2 h) surf g i k c = g i k c + (pairs.map fun q =>
      if (q.1 = i ∨ q.2.1 = i) ∧
          (∀ c, ((getBox3 q.2.2 h).bl c : ℝ) * h c ≤ entryPoint h pt c ∧ entryPoint h pt c < ((getBox3 q.2.2 h).ur c : ℝ) * h c) ∧
          |∑ m, (entryPoint h pt m - q.2.2.origin m) * q.2.2.base 1 m| ≤ q.2.2.cutoff then
        ∑ m, q.2.2.base m c *
          uRef3 q.2.2 (fun n => ∑ m, (entryPoint h pt m - q.2.2.origin m) * q.2.2.base n m) m else 0).sum := by
  rw [C109_surf h hh box _ (by
    intro q hq
    obtain ⟨a, ha, rfl⟩ := List.mem_map.1 hq
    exact hpairs a ha) surf g i k pt hk hp hb, List.map_map]
  refine congrArg₂ (· + ·) rfl (congrArg List.sum (List.map_congr_left fun q _ => ?_))
  have hr : ∀ n, posInRef q.2.2 (entryPoint h pt) n = ∑ m, (entryPoint h pt m - q.2.2.origin m) * q.2.2.base n m := fun n => by
    rw [posInRef, innerProd_eq]; rfl
  show (if (q.1 = i ∨ q.2.1 = i) ∧ inPhysBox _ h _ ∧ decide (|posInRef q.2.2 (entryPoint h pt) 1| ≤ q.2.2.cutoff) = true then
    toMesh q.2.2.base (uRef3 q.2.2 (posInRef q.2.2 (entryPoint h pt))) c else 0) = _
  rw [toMesh_eq, show posInRef q.2.2 (entryPoint h pt) = _ from funext hr]
  refine if_congr (and_congr Iff.rfl (and_congr Iff.rfl decide_eq_true_iff)) rfl rfl

/-! ### The arcs -/

/-- The point of the circle of the first particle at the angle `t` of the contact, in the mesh. -/
noncomputable def arc1 (S : Singularity 2) (t : ℝ) : Pos 2 ℝ := posFromRef S ![(Real.cos t - 1) / S.H1, Real.sin t / S.H1]
/-- The point of the circle of the second particle. -/
noncomputable def arc2 (S : Singularity 2) (t : ℝ) : Pos 2 ℝ :=
  posFromRef S ![S.contact + (1 - Real.cos t) / S.H2, Real.sin t / S.H2]

/-- The value at `x` of the bilinear field with the nodal values `v`, in the cell of `x`. -/
noncomputable def q1Value (h : Pos 2 ℝ) (v : NodeVec 2 2 ℝ) (x : Pos 2 ℝ) (c : Fin 2) : ℝ :=
  ∑ k, v (getElement2 (surfIndex h x) k) c * p1Integration2 (fun i => x i - (surfIndex h x i : ℝ) * h i) h k

theorem arcPoint_apply (S : Singularity 2) (h : Pos 2 ℝ) (box : Box 2 ℤ) (q : Pos 2 ℝ) (w : ℝ) (sol : NodeVec 2 2 ℝ)
    (p : Pos 2 ℤ) (c : Fin 2) :
    arcPoint S h box q w sol p c = sol p c + if box.pointInside (surfIndex h (posFromRef S q)) then
      ∑ k, if p = getElement2 (surfIndex h (posFromRef S q)) k then toMesh S.base (uRef2 S q) c *
        p1Integration2 (fun i => posFromRef S q i - (surfIndex h (posFromRef S q) i : ℝ) * h i) h k * w else 0 else 0 := by
  unfold arcPoint
  have e : posSub (posFromRef S q) (posMul (fun i => (surfIndex h (posFromRef S q) i : ℝ)) h) =
      fun i => posFromRef S q i - (surfIndex h (posFromRef S q) i : ℝ) * h i := by
    funext i
    simp only [posSub, posMul, compLoop_eq]
  simp only [e]
  split_ifs with hb
  · refine foldl_finRange_eval _ (fun u : NodeVec 2 2 ℝ => u p c) _ (fun u k => ?_) sol
    refine (foldl_finRange_eval _ (fun u : NodeVec 2 2 ℝ => u p c) (fun c' => if p = getElement2 (surfIndex h (posFromRef S q)) k ∧
      c = c' then toMesh S.base (uRef2 S q) c' *
        p1Integration2 (fun i => posFromRef S q i - (surfIndex h (posFromRef S q) i : ℝ) * h i) h k * w else 0)
      (fun u c' => addAt_apply _ _ _ _ _ _) u).trans ?_
    refine congrArg₂ (· + ·) rfl ?_
    by_cases hp : p = getElement2 (surfIndex h (posFromRef S q)) k
    · rw [if_pos hp, Finset.sum_eq_single c]
      · rw [if_pos ⟨hp, rfl⟩]
      · intro c' _ hne
        rw [if_neg fun h => hne h.2.symm]
      · simp
    · rw [if_neg hp]
      exact Finset.sum_eq_zero fun c' _ => if_neg fun h => hp h.1
  · rw [add_zero]

theorem arc_pairing (S : Singularity 2) (h : Pos 2 ℝ) (box : Box 2 ℤ) (q : Pos 2 ℝ) (w : ℝ) (sol v : NodeVec 2 2 ℝ)
    (T : Finset (Pos 2 ℤ)) (hT : ∀ e ∈ box.halfOpen, ∀ k, getElement2 e k ∈ T) :
    ∑ p ∈ T, ∑ c, arcPoint S h box q w sol p c * v p c = ∑ p ∈ T, ∑ c, sol p c * v p c +
      if box.pointInside (surfIndex h (posFromRef S q)) then
        w * ∑ c, toMesh S.base (uRef2 S q) c * q1Value h v (posFromRef S q) c else 0 := by
  simp only [arcPoint_apply, add_mul, Finset.sum_add_distrib]
  refine congrArg₂ (· + ·) rfl ?_
  split_ifs with hb
  · have hcell := (Box.pointInside_iff _ _).1 hb
    rw [Finset.sum_comm, Finset.mul_sum]
    refine Finset.sum_congr rfl fun c _ => ?_
    unfold q1Value
    simp only [Finset.sum_mul, Finset.mul_sum]
    rw [Finset.sum_comm]
    refine Finset.sum_congr rfl fun k _ => ?_
    rw [Finset.sum_eq_single (getElement2 (surfIndex h (posFromRef S q)) k)]
    · rw [if_pos rfl]
      ring
    · intro p _ hne
      rw [if_neg hne, zero_mul]
    · intro hn
      exact absurd (hT _ hcell k) hn
  · simp

/-- C109 (arcs): tested against any velocity `v`, what the two-dimensional `computesingularBC` adds is the sum over `2 N` equally
spaced angles of the two arcs, within `± asin(cutoff H)`, of the singular velocity times `v` at the point, with the arc lengths
`theta / (N H)` as weights, for the points whose cell is in the box; `T` is any set of nodes with those of the cells of the box. -/
theorem C109_arcs (S : Singularity 2) (hS : Orthonormal S.base) (scale : ℝ) (h : Pos 2 ℝ) (box : Box 2 ℤ)
    (sol v : NodeVec 2 2 ℝ) (T : Finset (Pos 2 ℤ)) (hT : ∀ e ∈ box.halfOpen, ∀ k, getElement2 e k ∈ T) :
    let n := truncInt (S.cutoff / h 0 * scale)
    let t1 := Real.arcsin (S.cutoff * S.H1)
    let t2 := Real.arcsin (S.cutoff * S.H2)
    let term : Pos 2 ℝ → ℝ := fun x => if box.pointInside (surfIndex h x) then ∑ c, getU2 S x c * q1Value h v x c else 0
    ∑ p ∈ T, ∑ c, arcsBC S scale h box sol p c * v p c = ∑ p ∈ T, ∑ c, sol p c * v p c +
      t1 / n / S.H1 * ∑ i ∈ Finset.Ico (-n) n, term (arc1 S (i * t1 / n)) +
      t2 / n / S.H2 * ∑ i ∈ Finset.Ico (-n) n, term (arc2 S (i * t2 / n)) := by
  intro n t1 t2 term
  have hU : ∀ q, toMesh S.base (uRef2 S q) = getU2 S (posFromRef S q) := by
    intro q
    unfold getU2
    rw [(frame_inverse S hS q 0).1]
  have hfold : ∀ (l : List ℤ) (w : ℝ) (pt : ℤ → Pos 2 ℝ) (sol : NodeVec 2 2 ℝ),
      ∑ p ∈ T, ∑ c, (l.foldl (fun sol i => arcPoint S h box (pt i) w sol) sol) p c * v p c =
        ∑ p ∈ T, ∑ c, sol p c * v p c + (l.map fun i => w * term (posFromRef S (pt i))).sum := by
    intro l w pt sol
    refine foldl_add_eval l _ (fun u : NodeVec 2 2 ℝ => ∑ p ∈ T, ∑ c, u p c * v p c) _ (fun u i => ?_) sol
    rw [arc_pairing S h box (pt i) w u v T hT, hU]
    refine congrArg₂ (· + ·) rfl ?_
    simp only [term]
    split_ifs <;> simp
  have hl : ∀ f : ℤ → ℝ, ((forRange (-n) n).map f).sum = ∑ i ∈ Finset.Ico (-n) n, f i := by
    intro f
    rw [← List.sum_toFinset _ (forRange_nodup _ _)]
    refine Finset.sum_congr (Finset.ext fun i => ?_) fun _ _ => rfl
    rw [List.mem_toFinset, mem_forRange, Finset.mem_Ico]
  have e : arcsBC S scale h box sol = (forRange (-n) n).foldl (fun sol (i : ℤ) => arcPoint S h box
      ![S.contact + (1 - Real.cos (i * t2 / n)) / S.H2, Real.sin (i * t2 / n) / S.H2] (t2 / n / S.H2) sol)
      ((forRange (-n) n).foldl (fun sol (i : ℤ) => arcPoint S h box
        ![(Real.cos (i * t1 / n) - 1) / S.H1, Real.sin (i * t1 / n) / S.H1] (t1 / n / S.H1) sol) sol) := rfl
  rw [e, hfold, hfold, hl, hl, ← Finset.mul_sum, ← Finset.mul_sum]
  rfl

/-- C109 (arcs, geometry): for two discs, the points used are on the two circles, at a distance at most `cutoff` of the line of the
centres. -/
theorem C109_circles (p1 p2 : Ball 2) (hc : p1.center ≠ p2.center) (h1 : 0 < p1.r) (h2 : 0 < p2.r) (h alpha : ℝ)
    (S : Singularity 2) (hS : mkSing2 p1 p2 h alpha = some S) (hcut : 0 ≤ S.cutoff) :
    (∀ t, distSq (arc1 S t) p1.center = p1.r ^ 2 ∧ distSq (arc2 S t) p2.center = p2.r ^ 2) ∧
    ∀ n i : ℤ, -n ≤ i → i < n →
      |posInRef S (arc1 S (i * Real.arcsin (S.cutoff * S.H1) / n)) 1| ≤ S.cutoff ∧
      |posInRef S (arc2 S (i * Real.arcsin (S.cutoff * S.H2) / n)) 1| ≤ S.cutoff := by
  obtain ⟨ho, hf, hc1, hc2⟩ := C58_frame2D p1 p2 hc h alpha S hS
  have hm := sing_members 0 constructBase2 p1 p2 h alpha S hS
  have hH : S.H1 = 1 / p1.r ∧ S.H2 = 1 / p2.r := by
    rw [mkSing2, mkSing] at hS
    split_ifs at hS
    obtain rfl := Option.some.inj hS
    exact ⟨rfl, rfl⟩
  refine ⟨fun t => ⟨?_, ?_⟩, fun n i hi hi' => ?_⟩
  · rw [← (hf (arc1 S t) p1.center).2.2, hc1]
    unfold arc1
    rw [(hf _ 0).1, distSq, Fin.sum_univ_two, hH.1]
    have := Real.sin_sq_add_cos_sq t
    simp only [Matrix.cons_val_zero, Matrix.cons_val_one]
    field_simp
    linear_combination p1.r ^ 2 * this
  · rw [← (hf (arc2 S t) p2.center).2.2, hc2]
    unfold arc2
    rw [(hf _ 0).1, distSq, Fin.sum_univ_two, hH.2, hm.2.2.1]
    have := Real.sin_sq_add_cos_sq t
    simp only [Matrix.cons_val_zero, Matrix.cons_val_one]
    field_simp
    linear_combination p2.r ^ 2 * this
  · have key : ∀ H : ℝ, 0 < H → |Real.sin (i * Real.arcsin (S.cutoff * H) / n) / H| ≤ S.cutoff := by
      intro H hH
      have hn : (0 : ℝ) < n := by exact_mod_cast (by omega : 0 < n)
      have hx : 0 ≤ S.cutoff * H := mul_nonneg hcut hH.le
      have ht0 := Real.arcsin_nonneg.2 hx
      have ht1 := Real.arcsin_le_pi_div_two (S.cutoff * H)
      set t := Real.arcsin (S.cutoff * H) with ht
      have hle : |(i : ℝ) * t / n| ≤ t := by
        rw [abs_div, abs_mul, abs_of_pos hn, abs_of_nonneg ht0, div_le_iff₀ hn, mul_comm]
        refine mul_le_mul_of_nonneg_left ?_ ht0
        rw [abs_le]
        constructor <;> [exact_mod_cast hi; exact_mod_cast hi'.le]
      rw [abs_div, abs_of_pos hH, div_le_iff₀ hH]
      have h3 : |Real.sin ((i : ℝ) * t / n)| ≤ Real.sin t := by
        rw [abs_le] at hle ⊢
        constructor
        · rw [← Real.sin_neg]
          exact Real.sin_le_sin_of_le_of_le_pi_div_two (by linarith) (by linarith) hle.1
        · exact Real.sin_le_sin_of_le_of_le_pi_div_two (by linarith) (by linarith) hle.2
      refine h3.trans ?_
      rcases le_or_gt (S.cutoff * H) 1 with hx1 | hx1
      · rw [ht, Real.sin_arcsin (by linarith) hx1]
      · exact (Real.sin_le_one _).trans hx1.le
    unfold arc1 arc2
    rw [(hf _ 0).1, (hf _ 0).1]
    exact ⟨key S.H1 (by rw [hH.1]; positivity), key S.H2 (by rw [hH.2]; positivity)⟩

/-- A pair of discs meets the hypotheses of the two theorems on the arcs. -/
example : ∃ S, mkSing2 exBall1 exBall2 (1 / 100) 4 = some S ∧ 0 ≤ S.cutoff ∧ Orthonormal S.base ∧
    exBall1.center ≠ exBall2.center ∧ 0 < exBall1.r ∧ 0 < exBall2.r := by
  have hne : exBall1.center ≠ exBall2.center := by
    intro he
    have := congrFun he 0
    norm_num [exBall1, exBall2] at this
  have hs : ∃ S, mkSing2 exBall1 exBall2 (1 / 100) 4 = some S := by
    unfold mkSing2 mkSing
    rw [exBall_distance, if_pos (by norm_num [exBall1, exBall2])]
    exact ⟨_, rfl⟩
  obtain ⟨S, hS⟩ := hs
  refine ⟨S, hS, ?_, (C58_frame2D exBall1 exBall2 hne _ _ S hS).1, hne, by norm_num [exBall1], by norm_num [exBall2]⟩
  rw [(sing_members 0 constructBase2 exBall1 exBall2 _ _ S hS).2.1]
  unfold cutoffDist
  simp only
  have : 0 ≤ √2 * (1 / 100 : ℝ) := by positivity
  split_ifs <;> linarith

/-- A surface point of the particle 1 in the zone of the pair (0, 1): its value gets the velocity of the pair once. -/
example : addToSurf (fun _ => 1) (⟨![0, 0], ![4, 4]⟩ : Box 2 ℤ)
    [⟨0, 1, ⟨![1, 1], ![3, 3]⟩, fun x => decide (x 0 < 2), fun x => ![x 0, 5]⟩] (fun _ => [(![1, 2], ![1 / 2, 1 / 4])])
    (fun _ _ => ![1, 1]) 1 0 0 = 1 + 3 / 2 := by
  have hx : entryPoint (fun _ => 1) ((![1, 2], ![1 / 2, 1 / 4]) : Pos 2 ℤ × Pos 2 ℝ) = ![3 / 2, 9 / 4] := by
    funext i
    fin_cases i <;> norm_num [entryPoint, node]
  rw [C109_surf (fun _ => 1) (fun _ => one_pos) _ _ (by simp) _ _ 1 0 (![1, 2], ![1 / 2, 1 / 4]) (by simp)
    (by intro c; fin_cases c <;> norm_num) (by intro c; fin_cases c <;> simp) 0, hx]
  have hb : inPhysBox (⟨0, 1, ⟨![1, 1], ![3, 3]⟩, fun x => decide (x 0 < 2), fun x => ![x 0, 5]⟩ : SurfPair 2) (fun _ => 1)
      ![3 / 2, 9 / 4] := by
    intro c
    fin_cases c <;> norm_num
  simp only [List.map_cons, List.map_nil, List.sum_cons, List.sum_nil]
  rw [if_pos ⟨Or.inr rfl, hb, by norm_num⟩]
  norm_num

end Cafes.Props
