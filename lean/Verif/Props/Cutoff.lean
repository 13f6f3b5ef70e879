import Verif.Props.Frame

/-!
C59: cut-off distance of a singularity and support of the singular fields
(cafes/particle/singularity/singularity.hpp:73-112 and the fields of UandPNormal.hpp).
-/

namespace Cafes.Props
open Cafes Cafes.Geometry Cafes.Sing

variable {d : ℕ}

/-- C59: the cut-off distance is `alpha` times the characteristic length of the gap, but not more than the
smaller radius, and never below `√2 h`. -/
theorem C59_cutoff (r1 r2 c alpha h : ℝ) :
    cutoffDist r1 r2 c alpha h =
      max (√2 * h) (min (alpha * √(2 * c / (1 / r1 + 1 / r2))) (min r1 r2)) := by
  have e : c / (1 / 2 * (1 / r1 + 1 / r2)) = 2 * c / (1 / r1 + 1 / r2) := by
    rw [div_mul_eq_div_div]
    ring
  simp only [cutoffDist, e]
  generalize alpha * √(2 * c / (1 / r1 + 1 / r2)) = t
  have e2 : (if r1 < r2 then r1 else r2) = min r1 r2 := by
    split_ifs with h1
    · rw [min_eq_left h1.le]
    · rw [min_eq_right (not_lt.1 h1)]
  rw [e2]
  have e3 : (if t < min r1 r2 then t else min r1 r2) = min t (min r1 r2) := by
    split_ifs with h1
    · rw [min_eq_left h1.le]
    · rw [min_eq_right (not_lt.1 h1)]
  rw [e3]
  split_ifs with h1
  · rw [max_eq_left h1]
  · rw [max_eq_right (not_le.1 h1).le]

/-- The four cut-off functions vanish at and beyond the cut-off distance `√(2p)`. -/
theorem chi_vanish {p X : ℝ} (h : 2 * p ≤ X * X) (hp : 0 < p) :
    chiTrunc X p p = 0 ∧ dchiTrunc X p p = 0 ∧ d2chiTrunc X p p = 0 ∧ d3chiTrunc X p p = 0 := by
  have := not_lt.2 h
  refine ⟨?_, ?_, ?_, ?_⟩
  · rw [chi_eq hp, if_neg this]
  · rw [dchi_eq, if_neg this]
  · rw [d2chi_eq, if_neg this]
  · rw [d3chi_eq, if_neg this]

theorem sing_members (axis : Fin d) (frame : Ball d → Ball d → Frame d) (p1 p2 : Ball d)
    (h alpha : ℝ) (S : Singularity d) (hS : mkSing axis frame p1 p2 h alpha = some S) :
    S.param = S.cutoff ^ 2 / 2 ∧ S.cutoff = cutoffDist p1.r p2.r S.contact alpha h ∧
    S.contact = √(distSq p1.center p2.center) - p1.r - p2.r ∧ S.contact < 1 := by
  have hd : distance p1 p2 = √(distSq p1.center p2.center) := by
    rw [distance, innerProd_eq]
    congr 1
    exact Finset.sum_congr rfl fun i _ => by simp only [positionDiff]; ring
  rw [mkSing] at hS
  split_ifs at hS with hlt
  obtain rfl := Option.some.inj hS
  refine ⟨?_, rfl, ?_, hlt⟩
  · dsimp only; ring
  · dsimp only; rw [hd]

theorem cutoff_lower (axis : Fin d) (frame : Ball d → Ball d → Frame d) (p1 p2 : Ball d)
    (h alpha : ℝ) (S : Singularity d) (hS : mkSing axis frame p1 p2 h alpha = some S) :
    √2 * h ≤ S.cutoff := by
  rw [(sing_members axis frame p1 p2 h alpha S hS).2.1, C59_cutoff]
  exact le_max_left _ _

theorem toMesh_eq (b : Fin d → Pos d ℝ) (u : Pos d ℝ) (i : Fin d) :
    toMesh b u i = ∑ k, b k i * u k := by
  have : ∀ (l : List (Fin d)) (a : Pos d ℝ),
      l.foldl (fun acc k => fun i => acc i + b k i * u k) a i =
        a i + (l.map fun k => b k i * u k).sum := by
    intro l
    induction l with
    | nil => simp
    | cons x l ih => intro a; simp only [List.foldl_cons, List.map_cons, List.sum_cons, ih]; ring
  rw [toMesh, this, zero_add, Fin.sum_univ_def]

theorem gradToMesh_eq (b : Fin d → Pos d ℝ) (G : Fin d → Fin d → ℝ) (k l : Fin d) :
    gradToMesh b G k l = ∑ m, ∑ n, b m k * b n l * G m n := by
  have h1 : ∀ (m : Fin d) (L : List (Fin d)) (s : ℝ),
      L.foldl (fun s n => s + b m k * b n l * G m n) s =
        s + (L.map fun n => b m k * b n l * G m n).sum := by
    intro m L
    induction L with
    | nil => simp
    | cons x L ih => intro a; simp only [List.foldl_cons, List.map_cons, List.sum_cons, ih]; ring
  have h2 : ∀ (L : List (Fin d)) (s : ℝ),
      L.foldl (fun s m => (List.finRange d).foldl (fun s n => s + b m k * b n l * G m n) s) s =
        s + (L.map fun m => ∑ n, b m k * b n l * G m n).sum := by
    intro L
    induction L with
    | nil => simp
    | cons x L ih =>
      intro a
      simp only [List.foldl_cons, List.map_cons, List.sum_cons, ih]
      rw [h1, Fin.sum_univ_def]
      ring
  rw [gradToMesh, h2, zero_add, Fin.sum_univ_def]

theorem fields2_vanish (X : Pos 2 ℝ) (H M a U p : ℝ) (h0 : chiTrunc (X 1) p p = 0)
    (h1 : dchiTrunc (X 1) p p = 0) (h2 : d2chiTrunc (X 1) p p = 0) (h3 : d3chiTrunc (X 1) p p = 0) :
    ux_sing_normalMvt2D X H M a U p p = 0 ∧ uz_sing_normalMvt2D X H M a U p p = 0 ∧
    p_sing_withT_normalMvt2D X H M a U p p = 0 ∧
    dxux_sing_normalMvt2D X H M a U p p = 0 ∧ dzux_sing_normalMvt2D X H M a U p p = 0 ∧
    dxuz_sing_normalMvt2D X H M a U p p = 0 ∧ dzuz_sing_normalMvt2D X H M a U p p = 0 := by
  refine ⟨?_, ?_, ?_, ?_, ?_, ?_, ?_⟩
  · simp only [ux_sing_normalMvt2D, h0, h1, h2, mul_zero, zero_mul, add_zero, sub_zero, zero_div, neg_zero]
  · simp only [uz_sing_normalMvt2D, h0, h1, h2, mul_zero, zero_mul, add_zero, sub_zero, zero_div, neg_zero]
  · simp only [p_sing_withT_normalMvt2D, h0, h1, h2, mul_zero, zero_mul, add_zero, sub_zero, zero_div, neg_zero]
  · simp only [dxux_sing_normalMvt2D, h0, h1, h2, mul_zero, zero_mul, add_zero, sub_zero, zero_div, neg_zero]
  · simp only [dzux_sing_normalMvt2D, h0, h1, h2, h3, mul_zero, zero_mul, add_zero, sub_zero, zero_div, neg_zero]
  · simp only [dxuz_sing_normalMvt2D, h0, h1, h2, mul_zero, zero_mul, add_zero, sub_zero, zero_div, neg_zero]
  · simp only [dzuz_sing_normalMvt2D, h0, h1, h2, mul_zero, zero_mul, add_zero, sub_zero, zero_div, neg_zero]

theorem fields3_vanish (X : Pos 3 ℝ) (H M a U p : ℝ)
    (h0 : chiTrunc √(X 0 * X 0 + X 1 * X 1) p p = 0)
    (h1 : dchiTrunc √(X 0 * X 0 + X 1 * X 1) p p = 0)
    (h2 : d2chiTrunc √(X 0 * X 0 + X 1 * X 1) p p = 0)
    (h3 : d3chiTrunc √(X 0 * X 0 + X 1 * X 1) p p = 0) :
    (ur_sing_normalMvt3D X H M a U p p = 0 ∧ uz_sing_normalMvt3D X H M a U p p = 0 ∧
    p_sing_withT_normalMvt3D X H M a U p p = 0) ∧
    drur_sing_normalMvt3D X H M a U p p = 0 ∧ dzur_sing_normalMvt3D X H M a U p p = 0 ∧
    druz_sing_normalMvt3D X H M a U p p = 0 ∧ dzuz_sing_normalMvt3D X H M a U p p = 0 := by
  refine ⟨⟨?_, ?_, ?_⟩, ?_, ?_, ?_, ?_⟩
  · simp only [ur_sing_normalMvt3D, h0, h1, h2, mul_zero, zero_mul, add_zero, sub_zero, zero_div, neg_zero]
  · simp only [uz_sing_normalMvt3D, h0, h1, h2, mul_zero, zero_mul, add_zero, sub_zero, zero_div, neg_zero]
  · simp only [p_sing_withT_normalMvt3D, h0, h1, h2, mul_zero, zero_mul, add_zero, sub_zero, zero_div, neg_zero]
  · simp only [drur_sing_normalMvt3D, h0, h1, h2, mul_zero, zero_mul, add_zero, sub_zero, zero_div, neg_zero]
  · simp only [dzur_sing_normalMvt3D, h0, h1, h2, h3, mul_zero, zero_mul, add_zero, sub_zero, zero_div, neg_zero]
  · simp only [druz_sing_normalMvt3D, h0, h1, h2, h3, mul_zero, zero_mul, add_zero, sub_zero, zero_div, neg_zero]
  · simp only [dzuz_sing_normalMvt3D, h0, h1, h2, mul_zero, zero_mul, add_zero, sub_zero, zero_div, neg_zero]

theorem half_sq_ge {p c x : ℝ} (hp : p = c ^ 2 / 2) (hc : 0 ≤ c) (hx : c ≤ |x|) : 2 * p ≤ x * x := by
  have := mul_self_le_mul_self hc hx
  rw [abs_mul_abs_self] at this
  rw [hp]
  nlinarith

/-- C59 (plane): `param` is half the square of the cut-off distance, which is at least `√2 h`, and the
singular velocity, its gradient and the singular pressure vanish at every point whose distance to the
line of centres is at least the cut-off distance. -/
theorem C59_support2D (p1 p2 : Ball 2) (h alpha : ℝ) (hh : 0 < h) (S : Singularity 2)
    (hS : mkSing2 p1 p2 h alpha = some S) :
    √2 * h ≤ S.cutoff ∧ S.param = S.cutoff ^ 2 / 2 ∧
    ∀ pos, S.cutoff ≤ |posInRef S pos 1| →
      getU2 S pos = 0 ∧ getGradU2 S pos = 0 ∧ getP2 S pos = 0 := by
  have hlow := cutoff_lower _ _ p1 p2 h alpha S hS
  have hpar := (sing_members _ _ p1 p2 h alpha S hS).1
  have hc : 0 < S.cutoff := lt_of_lt_of_le (by positivity) hlow
  refine ⟨hlow, hpar, fun pos hpos => ?_⟩
  have hp : 0 < S.param := by rw [hpar]; positivity
  obtain ⟨h0, h1, h2, h3⟩ := chi_vanish (half_sq_ge hpar hc.le hpos) hp
  obtain ⟨a1, a2, a3, a4, a5, a6, a7⟩ :=
    fields2_vanish (posInRef S pos) S.H1 S.H2 S.contact S.UN S.param h0 h1 h2 h3
  refine ⟨?_, ?_, a3⟩
  · funext i
    rw [getU2, toMesh_eq]
    simp [uRef2, a1, a2]
  · funext i j
    rw [getGradU2, gradToMesh_eq]
    simp [gradRef2, a4, a5, a6, a7]

/-- C59 (space): same statement, the distance to the axis being `√(x² + y²)`. -/
theorem C59_support3D (p1 p2 : Ball 3) (h alpha : ℝ) (hh : 0 < h) (S : Singularity 3)
    (hS : mkSing3 p1 p2 h alpha = some S) :
    √2 * h ≤ S.cutoff ∧ S.param = S.cutoff ^ 2 / 2 ∧
    ∀ pos, S.cutoff ≤ √(posInRef S pos 0 ^ 2 + posInRef S pos 1 ^ 2) →
      getU3 S pos = 0 ∧ getGradU3 S pos = 0 ∧ getP3 S pos = 0 := by
  have hlow := cutoff_lower _ _ p1 p2 h alpha S hS
  have hpar := (sing_members _ _ p1 p2 h alpha S hS).1
  have hc : 0 < S.cutoff := lt_of_lt_of_le (by positivity) hlow
  refine ⟨hlow, hpar, fun pos hpos => ?_⟩
  have hp : 0 < S.param := by rw [hpar]; positivity
  rw [sq, sq] at hpos
  obtain ⟨h0, h1, h2, h3⟩ := chi_vanish (half_sq_ge hpar hc.le (hpos.trans (le_abs_self _))) hp
  obtain ⟨⟨a1, a2, a3⟩, a4, a5, a6, a7⟩ :=
    fields3_vanish (posInRef S pos) S.H1 S.H2 S.contact S.UN S.param h0 h1 h2 h3
  have b1 : ux_sing_normalMvt3D (posInRef S pos) S.H1 S.H2 S.contact S.UN S.param S.param = 0 := by
    simp only [ux_sing_normalMvt3D, a1]; simp
  have b2 : uy_sing_normalMvt3D (posInRef S pos) S.H1 S.H2 S.contact S.UN S.param S.param = 0 := by
    simp only [uy_sing_normalMvt3D, a1]; simp
  refine ⟨?_, ?_, a3⟩
  · funext i
    rw [getU3, toMesh_eq, Fin.sum_univ_three]
    simp [uRef3, b1, b2, a2]
  · have g : gradRef3 S (posInRef S pos) = 0 := by
      funext m n
      fin_cases m <;> fin_cases n <;>
        simp [gradRef3, dxux_sing_normalMvt3D, dyux_sing_normalMvt3D, dzux_sing_normalMvt3D,
          dxuy_sing_normalMvt3D, dyuy_sing_normalMvt3D, dzuy_sing_normalMvt3D,
          dxuz_sing_normalMvt3D, dyuz_sing_normalMvt3D, a1, a4, a5, a6, a7]
    funext i j
    rw [getGradU3, gradToMesh_eq, g]
    simp

end Cafes.Props
