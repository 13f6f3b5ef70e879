import Verif.Props.SingNormal3D
import Verif.Props.SingNormal2D
import Verif.Props.Geometry
import Verif.Model.Singularity
import Verif.Spec.Geometry
import Mathlib.LinearAlgebra.Matrix.NonsingularInverse
import Mathlib.Algebra.BigOperators.Field

/-!
C58 (contact frame), C59 (cut-off distance): cafes/particle/singularity/singularity.hpp.
-/

namespace Cafes.Props
open Cafes Cafes.Geometry Cafes.Sing

variable {d : ℕ}

theorem innerProd_eq (a b : Pos d ℝ) : innerProd a b = dot a b := by
  have : ∀ (l : List (Fin d)) (s : ℝ),
      l.foldl (fun s i => s + a i * b i) s = s + (l.map fun i => a i * b i).sum := by
    intro l
    induction l with
    | nil => simp
    | cons x l ih => intro s; simp only [List.foldl_cons, List.map_cons, List.sum_cons, ih]; ring
  rw [innerProd, this, zero_add, dot, Fin.sum_univ_def]

theorem posFromRef_eq (S : Singularity d) (q : Pos d ℝ) (i : Fin d) :
    posFromRef S q i = (∑ k, q k * S.base k i) + S.origin i := by
  have : ∀ (l : List (Fin d)) (s : ℝ),
      l.foldl (fun s k => s + q k * S.base k i) s = s + (l.map fun k => q k * S.base k i).sum := by
    intro l
    induction l with
    | nil => simp
    | cons x l ih => intro s; simp only [List.foldl_cons, List.map_cons, List.sum_cons, ih]; ring
  rw [posFromRef, this, zero_add, Fin.sum_univ_def]

/-- A family of vectors is an orthonormal basis: unit vectors, pairwise orthogonal. -/
def Orthonormal (b : Fin d → Pos d ℝ) : Prop := ∀ i j, dot (b i) (b j) = if i = j then 1 else 0

/-- The rows of an orthonormal family being orthonormal, so are its columns. -/
theorem Orthonormal.cols {b : Fin d → Pos d ℝ} (h : Orthonormal b) (i j : Fin d) :
    ∑ k, b k i * b k j = if i = j then 1 else 0 := by
  have h1 : (Matrix.of b) * (Matrix.of b).transpose = 1 := by
    ext i j
    have := h i j
    rw [Matrix.mul_apply, Matrix.one_apply]
    exact this
  have h2 := mul_eq_one_comm.1 h1
  have h3 := congrFun (congrFun h2 i) j
  rw [Matrix.mul_apply, Matrix.one_apply] at h3
  exact h3

/-- C58 (changes of frame): for an orthonormal frame the two conversions are inverse of each other and
preserve distances. -/
theorem frame_inverse (S : Singularity d) (h : Orthonormal S.base) (x y : Pos d ℝ) :
    posInRef S (posFromRef S x) = x ∧ posFromRef S (posInRef S x) = x ∧
    distSq (posInRef S x) (posInRef S y) = distSq x y := by
  refine ⟨?_, ?_, ?_⟩
  · funext k
    rw [posInRef, innerProd_eq, dot]
    simp only [posFromRef_eq, add_sub_cancel_right, Finset.sum_mul]
    rw [Finset.sum_comm]
    have : ∀ m, ∑ i, x m * S.base m i * S.base k i = if m = k then x m else 0 := by
      intro m
      have := h m k
      rw [dot] at this
      simp only [mul_assoc]
      rw [← Finset.mul_sum, this]
      split_ifs <;> simp
    simp [this]
  · funext i
    rw [posFromRef_eq]
    simp only [posInRef, innerProd_eq, dot, Finset.sum_mul]
    rw [Finset.sum_comm]
    have : ∀ j, ∑ k, (x j - S.origin j) * S.base k j * S.base k i =
        if j = i then x j - S.origin j else 0 := by
      intro j
      have := h.cols j i
      simp only [mul_assoc]
      rw [← Finset.mul_sum, this]
      split_ifs <;> simp
    simp [this]
  · have e : ∀ k, posInRef S x k - posInRef S y k = ∑ i, (x i - y i) * S.base k i := by
      intro k
      simp only [posInRef, innerProd_eq, dot]
      rw [← Finset.sum_sub_distrib]
      exact Finset.sum_congr rfl fun i _ => by ring
    simp only [distSq, e, sq, Finset.sum_mul_sum]
    rw [Finset.sum_comm]
    have e2 : ∀ i, ∑ k, ∑ j, (x i - y i) * S.base k i * ((x j - y j) * S.base k j) =
        (x i - y i) * (x i - y i) := by
      intro i
      rw [Finset.sum_comm]
      have : ∀ j, ∑ k, (x i - y i) * S.base k i * ((x j - y j) * S.base k j) =
          if i = j then (x i - y i) * (x j - y j) else 0 := by
        intro j
        have := h.cols i j
        rw [show (∑ k, (x i - y i) * S.base k i * ((x j - y j) * S.base k j)) =
          (x i - y i) * (x j - y j) * ∑ k, S.base k i * S.base k j by
            rw [Finset.mul_sum]; exact Finset.sum_congr rfl fun k _ => by ring, this]
        split_ifs <;> simp
      simp [this]
    exact Finset.sum_congr rfl fun i _ => e2 i

theorem distance_pos (p1 p2 : Ball d) (h : p1.center ≠ p2.center) :
    0 < distance p1 p2 ∧ distance p1 p2 ^ 2 = ∑ i, (p2.center i - p1.center i) ^ 2 := by
  have e : innerProd (positionDiff p1 p2) (positionDiff p1 p2) =
      ∑ i, (p2.center i - p1.center i) ^ 2 := by
    rw [innerProd_eq, dot]
    exact Finset.sum_congr rfl fun i _ => by simp only [positionDiff]; ring
  have hpos : 0 < ∑ i, (p2.center i - p1.center i) ^ 2 := by
    obtain ⟨i, hi⟩ := Function.ne_iff.1 h
    refine Finset.sum_pos' (fun i _ => sq_nonneg _) ⟨i, Finset.mem_univ _, ?_⟩
    exact sq_pos_of_ne_zero (sub_ne_zero.2 (Ne.symm hi))
  rw [distance, e]
  exact ⟨Real.sqrt_pos.2 hpos, Real.sq_sqrt hpos.le⟩

theorem axis_eq (p1 p2 : Ball d) (i : Fin d) :
    vecDivScal (positionDiff p2 p1) (distance p1 p2) i =
      (p2.center i - p1.center i) / distance p1 p2 := by
  rw [vecDivScal, compLoop_apply, positionDiff]

theorem axis_unit (p1 p2 : Ball d) (h : p1.center ≠ p2.center) :
    dot (vecDivScal (positionDiff p2 p1) (distance p1 p2))
      (vecDivScal (positionDiff p2 p1) (distance p1 p2)) = 1 := by
  obtain ⟨h0, h1⟩ := distance_pos p1 p2 h
  simp only [dot, axis_eq]
  have : ∀ i, (p2.center i - p1.center i) / distance p1 p2 *
      ((p2.center i - p1.center i) / distance p1 p2) =
      (p2.center i - p1.center i) ^ 2 / distance p1 p2 ^ 2 := fun i => by ring
  simp only [this]
  rw [← Finset.sum_div, ← h1, div_self (pow_pos h0 2).ne']

/-- Centres of the particles in a frame whose axis is the line of centres. -/
theorem centers_in_ref (axis : Fin d) (frame : Ball d → Ball d → Frame d) (p1 p2 : Ball d)
    (h alpha : ℝ) (S : Singularity d) (hS : mkSing axis frame p1 p2 h alpha = some S)
    (hc : p1.center ≠ p2.center)
    (hax : (frame p1 p2).base axis = vecDivScal (positionDiff p2 p1) (distance p1 p2))
    (ho : Orthonormal S.base) (k : Fin d) :
    posInRef S p1.center k = (if k = axis then -p1.r else 0) ∧
    posInRef S p2.center k = (if k = axis then S.contact + p2.r else 0) := by
  obtain ⟨h0, h1⟩ := distance_pos p1 p2 hc
  rw [mkSing] at hS
  split_ifs at hS with hlt
  obtain rfl := Option.some.inj hS
  have hk := ho axis k
  simp only [dot] at hk
  simp only [posInRef, innerProd_eq, dot]
  constructor
  · have : ∀ i, (p1.center i - (p1.center i + p1.r * (frame p1 p2).base axis i)) *
        (frame p1 p2).base k i =
        -p1.r * ((frame p1 p2).base axis i * (frame p1 p2).base k i) := fun i => by ring
    simp only [this]
    rw [← Finset.mul_sum, hk]
    by_cases e : axis = k
    · simp [e]
    · simp [e, Ne.symm e]
  · have : ∀ i, (p2.center i - (p1.center i + p1.r * (frame p1 p2).base axis i)) *
        (frame p1 p2).base k i =
        (distance p1 p2 - p1.r) * ((frame p1 p2).base axis i * (frame p1 p2).base k i) := by
      intro i
      have : p2.center i - p1.center i = distance p1 p2 * (frame p1 p2).base axis i := by
        rw [hax, axis_eq]; field_simp
      linear_combination ((frame p1 p2).base k i) * this
    simp only [this]
    rw [← Finset.mul_sum, hk]
    by_cases e : axis = k
    · simp [e]
    · simp [e, Ne.symm e]

theorem base2_orthonormal (p1 p2 : Ball 2) (hc : p1.center ≠ p2.center) :
    Orthonormal (constructBase2 p1 p2).base := by
  have h := axis_unit p1 p2 hc
  simp only [constructBase2]
  generalize vecDivScal (positionDiff p2 p1) (distance p1 p2) = b at h
  simp only [dot, Fin.sum_univ_two] at h
  intro i j
  fin_cases i <;> fin_cases j <;>
    simp [dot, Fin.sum_univ_two] <;> linarith

/-- C58 (plane): the frame of two particles at distinct positions is orthonormal; the conversions to
and from this frame are inverse isometries; in the frame the centres of the particles are on the first
axis, at `-r1` and `gap + r2`, where `gap` is the distance between the two circles. -/
theorem C58_frame2D (p1 p2 : Ball 2) (hc : p1.center ≠ p2.center) (h alpha : ℝ) (S : Singularity 2)
    (hS : mkSing2 p1 p2 h alpha = some S) :
    Orthonormal S.base ∧
    (∀ x y : Pos 2 ℝ, posInRef S (posFromRef S x) = x ∧ posFromRef S (posInRef S x) = x ∧
      distSq (posInRef S x) (posInRef S y) = distSq x y) ∧
    posInRef S p1.center = ![-p1.r, 0] ∧
    posInRef S p2.center = ![√(distSq p1.center p2.center) - p1.r, 0] := by
  have ho : Orthonormal S.base := by
    have h2 := hS
    rw [mkSing2, mkSing] at h2
    split_ifs at h2 with hlt
    obtain rfl := Option.some.inj h2
    exact base2_orthonormal p1 p2 hc
  have hcen := centers_in_ref 0 constructBase2 p1 p2 h alpha S hS hc rfl ho
  have hcon : S.contact + p2.r = √(distSq p1.center p2.center) - p1.r := by
    rw [mkSing2, mkSing] at hS
    split_ifs at hS with hlt
    obtain rfl := Option.some.inj hS
    have : distance p1 p2 = √(distSq p1.center p2.center) := by
      rw [distance, innerProd_eq]
      congr 1
      exact Finset.sum_congr rfl fun i _ => by simp only [positionDiff]; ring
    simp only [this]
    ring
  refine ⟨ho, fun x y => frame_inverse S ho x y, ?_, ?_⟩
  · funext k
    have := (hcen k).1
    fin_cases k <;> simpa using this
  · funext k
    have := (hcen k).2
    rw [hcon] at this
    fin_cases k <;> simpa using this

/-- Two unit circles at distance 3/10 of each other. -/
noncomputable def exBall1 : Ball 2 := ⟨![0, 0], ![1, 2], 1⟩
/-- See `exBall1`. -/
noncomputable def exBall2 : Ball 2 := ⟨![23 / 10, 0], ![0, 0], 1⟩

theorem exBall_distance : distance exBall1 exBall2 = 23 / 10 := by
  rw [distance, innerProd_eq]
  simp [dot, positionDiff, exBall1, exBall2]
  exact Real.sqrt_mul_self (by norm_num)

/-- The hypotheses of `C58_frame2D` are met. -/
example : exBall1.center ≠ exBall2.center ∧ ∃ S, mkSing2 exBall1 exBall2 (1 / 100) 4 = some S := by
  constructor
  · intro h
    have := congrFun h 0
    norm_num [exBall1, exBall2] at this
  · refine ⟨_, if_pos ?_⟩
    rw [exBall_distance]
    norm_num [exBall1, exBall2]

theorem sgn_mul (x : ℝ) : sgn x * x = |x| := by
  rw [sgn]
  rcases le_or_gt 0 x with h | h
  · rw [if_pos h, if_neg (not_lt.2 h), abs_of_nonneg h]; ring
  · rw [if_neg (not_le.2 h), if_pos h, abs_of_neg h]; ring

/-- The contacts for which the spatial frame is right: `n` is the unit vector from the first to the second
centre, `v` the relative velocity. -/
def GoodContact (n v : Pos 3 ℝ) : Prop :=
  if dot v n * dot v n = dot v v then n 2 = 0 ∨ n 0 + |n 1| + |n 2| = 0
  else ∑ i, v i * n i * (1 - n i) = 0

theorem rawTangent_ne (n v : Pos 3 ℝ) (hn : dot n n = 1) : dot (rawTangent n v) (rawTangent n v) ≠ 0 := by
  simp only [dot, Fin.sum_univ_three] at hn ⊢
  rw [rawTangent]
  split_ifs with hcol
  · simp only [Matrix.cons_val]
    have e : -sgn (n 2) * n 2 - sgn (n 1) * n 1 = -(|n 2| + |n 1|) := by
      have h2 := sgn_mul (n 2); have h1 := sgn_mul (n 1)
      linear_combination -h2 - h1
    rw [e]
    intro h0
    have h1 : |n 2| + |n 1| = 0 := by
      nlinarith [mul_self_nonneg (sgn (n 1) * n 0), mul_self_nonneg (sgn (n 2) * -(|n 2| + |n 1|)),
        mul_self_nonneg (|n 2| + |n 1|)]
    have h2 : n 2 = 0 := abs_eq_zero.1 (by nlinarith [abs_nonneg (n 2), abs_nonneg (n 1)])
    have h3 : n 1 = 0 := abs_eq_zero.1 (by nlinarith [abs_nonneg (n 2), abs_nonneg (n 1)])
    have h4 : sgn (n 1) = 1 := by rw [h3, sgn]; norm_num
    rw [h1, h4] at h0
    rw [h2, h3] at hn
    nlinarith
  · intro h0
    apply hcol
    have q0 : v 0 * (1 - n 0) = 0 := by
      nlinarith [mul_self_nonneg (v 0 * (1 - n 0)), mul_self_nonneg (v 1 * (1 - n 1)),
        mul_self_nonneg (v 2 * (1 - n 2))]
    have q1 : v 1 * (1 - n 1) = 0 := by
      nlinarith [mul_self_nonneg (v 0 * (1 - n 0)), mul_self_nonneg (v 1 * (1 - n 1)),
        mul_self_nonneg (v 2 * (1 - n 2))]
    have q2 : v 2 * (1 - n 2) = 0 := by
      nlinarith [mul_self_nonneg (v 0 * (1 - n 0)), mul_self_nonneg (v 1 * (1 - n 1)),
        mul_self_nonneg (v 2 * (1 - n 2))]
    rw [innerProd_eq, innerProd_eq]
    simp only [dot, Fin.sum_univ_three]
    have z : ∀ a b c : ℝ, a * a + b * b + c * c = 1 → 1 - a = 0 → b = 0 ∧ c = 0 := by
      intro a b c h1 h2
      have : a = 1 := by linarith
      subst this
      constructor <;> nlinarith [mul_self_nonneg b, mul_self_nonneg c]
    rcases mul_eq_zero.1 q0 with a | a
    · rcases mul_eq_zero.1 q1 with b | b
      · rcases mul_eq_zero.1 q2 with c | c
        · simp [a, b, c]
        · obtain ⟨e1, e2⟩ := z (n 2) (n 0) (n 1) (by linarith) c
          have : n 2 = 1 := by linarith
          simp [a, b, this]
      · obtain ⟨e1, e2⟩ := z (n 1) (n 0) (n 2) (by linarith) b
        have : n 1 = 1 := by linarith
        rw [e2] at q2
        have q2 : v 2 = 0 := by linarith
        simp [a, q2, this]
    · obtain ⟨e1, e2⟩ := z (n 0) (n 1) (n 2) (by linarith) a
      have : n 0 = 1 := by linarith
      rw [e1] at q1
      rw [e2] at q2
      have q1 : v 1 = 0 := by linarith
      have q2 : v 2 = 0 := by linarith
      simp [q1, q2, this]

theorem tangent_orth (n v : Pos 3 ℝ) (hn : dot n n = 1) :
    dot (rawTangent n v) n = 0 ↔ GoodContact n v := by
  rw [GoodContact, rawTangent, innerProd_eq, innerProd_eq]
  split_ifs with hcol
  · simp only [dot, Fin.sum_univ_three, Matrix.cons_val] at hn ⊢
    have h2 := sgn_mul (n 2); have h1 := sgn_mul (n 1)
    have e : (-sgn (n 2) * n 2 - sgn (n 1) * n 1) * n 0 + sgn (n 1) * n 0 * n 1 +
        sgn (n 2) * (-sgn (n 2) * n 2 - sgn (n 1) * n 1) * n 2 = -(|n 2| * (n 0 + |n 1| + |n 2|)) := by
      rw [← h2, ← h1]; ring
    rw [e, neg_eq_zero, mul_eq_zero, abs_eq_zero]
  · simp only [dot]
    rw [Finset.sum_congr rfl fun i _ => show v i * (1 - n i) * n i = v i * n i * (1 - n i) by ring]

theorem base3_orthonormal (p1 p2 : Ball 3) (hc : p1.center ≠ p2.center) :
    Orthonormal (constructBase3 p1 p2).base ↔
      GoodContact (vecDivScal (positionDiff p2 p1) (distance p1 p2)) (velocityDiff p1 p2) := by
  have hn := axis_unit p1 p2 hc
  rw [← tangent_orth _ _ hn]
  have ht := rawTangent_ne _ (velocityDiff p1 p2) hn
  simp only [constructBase3]
  generalize vecDivScal (positionDiff p2 p1) (distance p1 p2) = n at *
  generalize rawTangent n (velocityDiff p1 p2) = t at *
  have hq : 0 < √(dot t t) := by
    refine Real.sqrt_pos.2 (lt_of_le_of_ne ?_ (Ne.symm ht))
    exact Finset.sum_nonneg fun i _ => mul_self_nonneg _
  have hq2 : √(dot t t) * √(dot t t) = dot t t :=
    Real.mul_self_sqrt (Finset.sum_nonneg fun i _ => mul_self_nonneg _)
  have hb : vecDivScal t √(innerProd t t) = fun i => t i / √(dot t t) := by
    funext i; rw [vecDivScal, compLoop_apply, innerProd_eq]
  rw [hb]
  generalize √(dot t t) = q at *
  have hu : dot (fun i => t i / q) (fun i => t i / q) = 1 := by
    have : ∀ i, t i / q * (t i / q) = t i * t i / (q * q) := fun i => by
      field_simp
    simp only [dot] at hq2 ⊢
    simp only [this]
    rw [← Finset.sum_div, ← hq2, div_self (mul_pos hq hq).ne']
  have hd : dot (fun i => t i / q) n = dot t n / q := by
    simp only [dot]
    rw [Finset.sum_div]
    exact Finset.sum_congr rfl fun i _ => by ring
  have hiff : dot t n = 0 ↔ dot (fun i => t i / q) n = 0 := by
    rw [hd, div_eq_zero_iff]
    constructor
    · exact Or.inl
    · rintro (h | h)
      · exact h
      · exact absurd h hq.ne'
  rw [hiff]
  generalize (fun i => t i / q) = b at hu
  simp only [dot, Fin.sum_univ_three] at hu hn ⊢
  constructor
  · intro h
    have := h 0 2
    simpa [dot, Fin.sum_univ_three] using this
  · intro h0
    have h00 : dot b b = 1 := by simp only [dot, Fin.sum_univ_three]; exact hu
    have h22 : dot n n = 1 := by simp only [dot, Fin.sum_univ_three]; exact hn
    have h02 : dot b n = 0 := by simp only [dot, Fin.sum_univ_three]; exact h0
    have h20 : dot n b = 0 := by simp only [dot, Fin.sum_univ_three]; linarith
    have h01 : dot b (cross3 n b) = 0 := by
      simp only [dot, Fin.sum_univ_three, cross3, Matrix.cons_val]; ring
    have h10 : dot (cross3 n b) b = 0 := by
      simp only [dot, Fin.sum_univ_three, cross3, Matrix.cons_val]; ring
    have h12 : dot (cross3 n b) n = 0 := by
      simp only [dot, Fin.sum_univ_three, cross3, Matrix.cons_val]; ring
    have h21 : dot n (cross3 n b) = 0 := by
      simp only [dot, Fin.sum_univ_three, cross3, Matrix.cons_val]; ring
    have h11 : dot (cross3 n b) (cross3 n b) = 1 := by
      simp only [dot, Fin.sum_univ_three, cross3, Matrix.cons_val]
      linear_combination (b 0 * b 0 + b 1 * b 1 + b 2 * b 2) * hn + hu -
        (b 0 * n 0 + b 1 * n 1 + b 2 * n 2) * h0
    intro i j
    fin_cases i <;> fin_cases j
    exacts [h00, h01, h02, h10, h11, h12, h20, h21, h22]

/-- C58 (space), exact characterisation: the spatial frame of two particles at distinct positions is
orthonormal if and only if the contact is good. -/
theorem C58_frame3D_exact (p1 p2 : Ball 3) (hc : p1.center ≠ p2.center) (h alpha : ℝ)
    (S : Singularity 3) (hS : mkSing3 p1 p2 h alpha = some S) :
    Orthonormal S.base ↔ GoodContact (fun i => (p2.center i - p1.center i) / √(distSq p1.center p2.center))
      (fun i => p1.velocity i - p2.velocity i) := by
  have hd : distance p1 p2 = √(distSq p1.center p2.center) := by
    rw [distance, innerProd_eq]
    congr 1
    exact Finset.sum_congr rfl fun i _ => by simp only [positionDiff]; ring
  rw [mkSing3, mkSing] at hS
  split_ifs at hS with hlt
  obtain rfl := Option.some.inj hS
  rw [base3_orthonormal p1 p2 hc, ← hd]
  have : vecDivScal (positionDiff p2 p1) (distance p1 p2) =
      fun i => (p2.center i - p1.center i) / distance p1 p2 := funext fun i => axis_eq p1 p2 i
  rw [this]
  rfl

/-- C58 (space): what holds for the good contacts. For the other ones see
`C58_frame3D_refuted`. -/
theorem C58_frame3D_good (p1 p2 : Ball 3) (hc : p1.center ≠ p2.center) (h alpha : ℝ)
    (S : Singularity 3) (hS : mkSing3 p1 p2 h alpha = some S)
    (hgood : GoodContact (fun i => (p2.center i - p1.center i) / √(distSq p1.center p2.center))
      (fun i => p1.velocity i - p2.velocity i)) :
    Orthonormal S.base ∧
    (∀ x y : Pos 3 ℝ, posInRef S (posFromRef S x) = x ∧ posFromRef S (posInRef S x) = x ∧
      distSq (posInRef S x) (posInRef S y) = distSq x y) ∧
    posInRef S p1.center = ![0, 0, -p1.r] ∧
    posInRef S p2.center = ![0, 0, √(distSq p1.center p2.center) - p1.r] := by
  have ho := (C58_frame3D_exact p1 p2 hc h alpha S hS).2 hgood
  have hcen := centers_in_ref 2 constructBase3 p1 p2 h alpha S hS hc rfl ho
  have hcon : S.contact + p2.r = √(distSq p1.center p2.center) - p1.r := by
    rw [mkSing3, mkSing] at hS
    split_ifs at hS with hlt
    obtain rfl := Option.some.inj hS
    have : distance p1 p2 = √(distSq p1.center p2.center) := by
      rw [distance, innerProd_eq]
      congr 1
      exact Finset.sum_congr rfl fun i _ => by simp only [positionDiff]; ring
    simp only [this]
    ring
  refine ⟨ho, fun x y => frame_inverse S ho x y, ?_, ?_⟩
  · funext k
    have := (hcen k).1
    fin_cases k <;> simpa using this
  · funext k
    have := (hcen k).2
    rw [hcon] at this
    fin_cases k <;> simpa using this

theorem vec3_two (a b c : ℝ) : (![a, b, c] : Pos 3 ℝ) 2 = c := rfl

/-- Two unit spheres whose centres are at distance 5/2 in the direction `n`. -/
noncomputable def exSphere (n v : Pos 3 ℝ) : Ball 3 × Ball 3 :=
  (⟨fun _ => 0, v, 1⟩, ⟨fun i => 5 / 2 * n i, fun _ => 0, 1⟩)

theorem exSphere_distSq (n v : Pos 3 ℝ) (hn : dot n n = 1) :
    √(distSq (exSphere n v).1.center (exSphere n v).2.center) = 5 / 2 := by
  have : distSq (exSphere n v).1.center (exSphere n v).2.center = 5 / 2 * (5 / 2) := by
    simp only [distSq, exSphere]
    rw [Finset.sum_congr rfl fun i _ => show (0 - 5 / 2 * n i) ^ 2 = 5 / 2 * (5 / 2) * (n i * n i) by ring,
      ← Finset.mul_sum]
    rw [dot] at hn
    rw [hn, mul_one]
  rw [this]
  exact Real.sqrt_mul_self (by norm_num)

theorem exSphere_sing (n v : Pos 3 ℝ) (hn : dot n n = 1) :
    ∃ S, mkSing3 (exSphere n v).1 (exSphere n v).2 (1 / 100) 4 = some S := by
  refine ⟨_, if_pos ?_⟩
  have hd : distance (exSphere n v).1 (exSphere n v).2 = 5 / 2 := by
    rw [← exSphere_distSq n v hn, distance, innerProd_eq]
    congr 1
    exact Finset.sum_congr rfl fun i _ => by simp only [positionDiff]; ring
  rw [hd]
  norm_num [exSphere]

/-- The hypotheses of `C58_frame3D_good` are met: centres on the `z` axis, relative velocity
`(1, 1, 0)`. -/
example : (exSphere ![0, 0, 1] ![1, 1, 0]).1.center ≠ (exSphere ![0, 0, 1] ![1, 1, 0]).2.center ∧
    (∃ S, mkSing3 (exSphere ![0, 0, 1] ![1, 1, 0]).1 (exSphere ![0, 0, 1] ![1, 1, 0]).2 (1 / 100) 4 =
      some S) ∧
    GoodContact (![0, 0, 1] : Pos 3 ℝ) ![1, 1, 0] := by
  refine ⟨?_, exSphere_sing _ _ (by norm_num [dot, Fin.sum_univ_three, vec3_two]), ?_⟩
  · intro h
    have := congrFun h 2
    norm_num [exSphere, vec3_two] at this
  · rw [GoodContact, if_neg (by norm_num [dot, Fin.sum_univ_three, vec3_two])]
    norm_num [Fin.sum_univ_three, vec3_two]

/-- C58 fails in space: for two unit spheres on the `z` axis approaching each other along that axis (a
head-on contact), the frame is not orthonormal. -/
theorem C58_frame3D_refuted : ¬ ∀ (p1 p2 : Ball 3) (h alpha : ℝ) (S : Singularity 3),
    p1.center ≠ p2.center → mkSing3 p1 p2 h alpha = some S → Orthonormal S.base := by
  intro H
  have hn : dot (![0, 0, 1] : Pos 3 ℝ) ![0, 0, 1] = 1 := by
    norm_num [dot, Fin.sum_univ_three, vec3_two]
  obtain ⟨S, hS⟩ := exSphere_sing ![0, 0, 1] ![0, 0, 1] hn
  have hc : (exSphere ![0, 0, 1] ![0, 0, 1]).1.center ≠ (exSphere ![0, 0, 1] ![0, 0, 1]).2.center := by
    intro h
    have := congrFun h 2
    norm_num [exSphere, vec3_two] at this
  have := (C58_frame3D_exact _ _ hc _ _ S hS).1 (H _ _ _ _ S hc hS)
  rw [exSphere_distSq _ _ hn, GoodContact, if_pos] at this
  · norm_num [exSphere, vec3_two] at this
  · norm_num [exSphere, dot, Fin.sum_univ_three, vec3_two]

end Cafes.Props
