/-
Property theorems for vectors, cross products, quaternions, linspace: C34-C37, C41.
-/
import Verif.Spec.Geometry
import Mathlib.Tactic.LinearCombination

namespace Cafes.Geometry
open Cafes
variable {d : ℕ} {K : Type*}

theorem compLoop_apply (f : Fin d → K → K) (a : Pos d K) (i : Fin d) : compLoop f a i = f i (a i) := by
  unfold compLoop
  have key : ∀ (l : List (Fin d)) (a : Pos d K), l.Nodup → ∀ i,
      l.foldl (fun a i => Function.update a i (f i (a i))) a i = if i ∈ l then f i (a i) else a i := by
    intro l
    induction l with
    | nil => simp
    | cons b l ih =>
      intro a hn i
      rw [List.nodup_cons] at hn
      rw [List.foldl_cons, ih _ hn.2]
      by_cases hi : i = b
      · subst hi; simp [hn.1]
      · simp [hi]
  rw [key _ _ (List.nodup_finRange d), if_pos (List.mem_finRange i)]

theorem compLoop_eq (f : Fin d → K → K) (a : Pos d K) : compLoop f a = fun i => f i (a i) :=
  funext fun i => compLoop_apply f a i

/-! ### C34 -/

/-- C34, the operators that are right: vector and vector, vector and scalar, vector minus velocity, and
all the operators of `position`. The other two, `vector += velocity` and `velocity - vector`, compute
`vector - velocity` (`C34_mixed`, `C34_refuted`). -/
theorem C34_arithmetic [Field K] (a v : Pos d K) (c : K) :
    vecAddVec a v = a + v ∧ vecSubVec a v = a - v ∧ vecMulVec a v = a * v ∧
    vecMulScal a c = (fun i => a i * c) ∧ vecDivScal a c = (fun i => a i / c) ∧ vecNeg a = -a ∧
    vecSubVel a v = a - v ∧ posAdd a v = a + v ∧ posSub a v = a - v ∧ posMul a v = a * v ∧
    posDiv a v = a / v ∧ posAddScal a c = (fun i => a i + c) ∧ posSubScal a c = (fun i => a i - c) := by
  refine ⟨?_, ?_, ?_, ?_, ?_, ?_, ?_, ?_, ?_, ?_, ?_, ?_, ?_⟩ <;>
    simp [vecAddVec, vecSubVec, vecMulVec, vecMulScal, vecDivScal, vecNeg, vecSubVel, posAdd, posSub,
      posMul, posDiv, posAddScal, posSubScal, compLoop_eq] <;> rfl

/-- C34, the two remaining operators: `a += v` and `v - a`, with a vector `a` and a velocity `v`, both
compute `a - v`. -/
theorem C34_mixed [Field K] (a v : Pos d K) : vecAddVel a v = a - v ∧ velSubVec v a = a - v :=
  ⟨by simp [vecAddVel, compLoop_eq]; rfl, by simp [velSubVec, vecSubVec, compLoop_eq]; rfl⟩

/-- C34 is false of the code: for every vector `a`, `a += v` with a velocity `v ≠ 0` does not give
`a + v` (it gives `a - v`), and `v - a` does not give `v - a` as soon as `a ≠ v` (it gives `a - v`). -/
theorem C34_refuted [Field K] [CharZero K] (a v : Pos d K) :
    (vecAddVel a v = a - v ∧ (v ≠ 0 → vecAddVel a v ≠ a + v)) ∧
    (velSubVec v a = a - v ∧ (a ≠ v → velSubVec v a ≠ v - a)) := by
  have h1 : vecAddVel a v = a - v := by simp [vecAddVel, compLoop_eq]; rfl
  have h2 : velSubVec v a = a - v := by simp [velSubVec, vecSubVec, compLoop_eq]; rfl
  refine ⟨⟨h1, fun hv h => hv ?_⟩, h2, fun hv h => hv ?_⟩
  · rw [h1] at h
    funext i
    have := congrFun h i
    simp only [Pi.sub_apply, Pi.add_apply] at this
    have h2 : (2 : K) * v i = 0 := by linear_combination -this
    simpa using h2
  · rw [h2] at h
    funext i
    have := congrFun h i
    simp only [Pi.sub_apply] at this
    have h2 : (2 : K) * (a i - v i) = 0 := by linear_combination this
    have h3 : a i - v i = 0 := by simpa using h2
    linear_combination h3

example : (![1, 0] : Pos 2 ℚ) ≠ 0 ∧ (![1, 0] : Pos 2 ℚ) ≠ ![0, 1] := by
  constructor <;> intro h <;> simpa using congrFun h 0

/-! ### C35 -/

/-- C35 (3D): the cross product is bilinear, antisymmetric, orthogonal to its arguments and satisfies
Lagrange's identity. -/
theorem C35_cross3 [Field K] (x y z : Pos 3 K) (a b : K) :
    cross3 (fun i => a * x i + b * y i) z = (fun i => a * cross3 x z i + b * cross3 y z i) ∧
    cross3 z (fun i => a * x i + b * y i) = (fun i => a * cross3 z x i + b * cross3 z y i) ∧
    cross3 x y = (fun i => -cross3 y x i) ∧
    dot x (cross3 x y) = 0 ∧ dot y (cross3 x y) = 0 ∧
    dot (cross3 x y) (cross3 x y) = dot x x * dot y y - dot x y ^ 2 := by
  refine ⟨?_, ?_, ?_, ?_, ?_, ?_⟩
  · funext i; fin_cases i <;> simp [cross3] <;> ring
  · funext i; fin_cases i <;> simp [cross3] <;> ring
  · funext i; fin_cases i <;> simp [cross3] <;> ring
  · simp [dot, cross3, Fin.sum_univ_three]; ring
  · simp [dot, cross3, Fin.sum_univ_three]; ring
  · simp [dot, cross3, Fin.sum_univ_three]; ring

/-- C35 (2D): the three 2D variants are the restrictions of the 3D product to the plane; the scalar one
is bilinear and antisymmetric. -/
theorem C35_cross2 [Field K] (x y z : Pos 2 K) (a b r : K) :
    cross3 (embed x) (embed y) = ![0, 0, cross2 x y] ∧
    cross3 ![0, 0, r] (embed x) = embed (crossZ r x) ∧
    cross3 (embed x) ![0, 0, r] = embed (crossZr x r) ∧
    cross2 x y = -cross2 y x ∧
    cross2 (fun i => a * x i + b * y i) z = a * cross2 x z + b * cross2 y z ∧
    dot x (crossZ r x) = 0 ∧ crossZr x r = (fun i => -crossZ r x i) := by
  refine ⟨?_, ?_, ?_, ?_, ?_, ?_, ?_⟩
  · funext i; fin_cases i <;> simp [cross3, embed, cross2]
  · funext i; fin_cases i <;> simp [cross3, embed, crossZ]
  · funext i; fin_cases i <;> simp [cross3, embed, crossZr] <;> ring
  · simp [cross2]; ring
  · simp [cross2]; ring
  · simp [dot, crossZ]; ring
  · funext i; fin_cases i <;> simp [crossZr, crossZ]

/-! ### C36, C37 -/

theorem normSq_eq [Field K] (q : Quat K) : normSq q = q 0 ^ 2 + q 1 ^ 2 + q 2 ^ 2 + q 3 ^ 2 := by
  simp only [normSq, List.finRange_succ, List.finRange_zero]
  simp
  ring

theorem normalize_eq [Field K] (q : Quat K) : normalize q = fun i => q i / normSq q := by
  simp [normalize, vecDivScal, compLoop_eq]

/-- C37, what `normalize` does, for every non zero quaternion: the result is `q / |q|²`, of squared norm
`1 / |q|²`, `|q|²` being the sum of the squares of the components; it is of norm one exactly for the
quaternions that are already of norm one, the only ones the library builds from a unit axis, and is then
`q` itself. -/
theorem C37_normalize [Field K] (q : Quat K) (hq : normSq q ≠ 0) :
    normSq q = q 0 ^ 2 + q 1 ^ 2 + q 2 ^ 2 + q 3 ^ 2 ∧ (∀ i, normalize q i = q i / normSq q) ∧
    normSq (normalize q) = 1 / normSq q ∧ (normSq (normalize q) = 1 ↔ normSq q = 1) ∧
    (normSq q = 1 → normalize q = q) := by
  have h1 : normSq (normalize q) = 1 / normSq q := by
    rw [normalize_eq, normSq_eq (fun i => q i / normSq q)]
    field_simp
    rw [normSq_eq]
  refine ⟨normSq_eq q, fun i => congrFun (normalize_eq q) i, h1, ?_, fun h => ?_⟩
  · rw [h1, div_eq_one_iff_eq hq]; exact eq_comm
  · rw [normalize_eq, h]; simp

example : normSq (![0, 0, 0, 1] : Quat ℚ) = 1 := by decide +kernel

/-- C37 is false of the code: `normalize` divides by the squared norm (quaternion.hpp:92-93); the
quaternion `(0, 0, 0, 2)` is not normalised. -/
theorem C37_refuted : ¬ ∀ q : Quat ℝ, normSq q ≠ 0 → normSq (normalize q) = 1 := by
  intro h
  have := h ![0, 0, 0, 2] (by simp [normSq_eq])
  rw [(C37_normalize _ (by simp [normSq_eq])).2.2.2.1] at this
  simp [normSq_eq] at this
  norm_num at this

theorem half_angle (a : ℝ) : Real.cos a = 1 - 2 * Real.sin (a / 2) ^ 2 ∧
    Real.sin a = 2 * Real.sin (a / 2) * Real.cos (a / 2) := by
  constructor
  · have := Real.cos_two_mul (a / 2)
    have h2 := Real.sin_sq_add_cos_sq (a / 2)
    rw [show 2 * (a / 2) = a by ring] at this
    rw [this]; linarith
  · have := Real.sin_two_mul (a / 2)
    rwa [show 2 * (a / 2) = a by ring] at this

/-- The components of the quaternion of a unit axis. -/
theorem quat_eq (a : ℝ) (k : Pos 3 ℝ) (hk : dot k k = 1) :
    quat a k = ![Real.sin (a / 2) * k 0, Real.sin (a / 2) * k 1, Real.sin (a / 2) * k 2,
      Real.cos (a / 2)] ∧ normSq (quat a k) = 1 := by
  have h1 : normSq ![Real.sin (a / 2) * k 0, Real.sin (a / 2) * k 1, Real.sin (a / 2) * k 2,
      Real.cos (a / 2)] = 1 := by
    rw [normSq_eq]
    simp [dot, Fin.sum_univ_three] at hk ⊢
    linear_combination Real.sin (a / 2) ^ 2 * hk + Real.sin_sq_add_cos_sq (a / 2)
  have h2 : quat a k = ![Real.sin (a / 2) * k 0, Real.sin (a / 2) * k 1, Real.sin (a / 2) * k 2,
      Real.cos (a / 2)] := by
    unfold quat
    exact (C37_normalize _ (by rw [h1]; exact one_ne_zero)).2.2.2.2 h1
  exact ⟨h2, h2 ▸ h1⟩

/-- C36: `rotate` of `quaternion(angle, axis)`, for a unit axis, is the rotation of that angle around
that axis (Rodrigues' formula). -/
theorem C36_rodrigues (a : ℝ) (k p : Pos 3 ℝ) (hk : dot k k = 1) :
    rotate3 (quat a k) p = rodrigues a k p := by
  rw [(quat_eq a k hk).1]
  obtain ⟨hc, hs⟩ := half_angle a
  have hu := Real.sin_sq_add_cos_sq (a / 2)
  simp only [dot, Fin.sum_univ_three] at hk
  funext i
  simp only [rodrigues, hc, hs, dot, Fin.sum_univ_three]
  fin_cases i <;> simp [rotate3, cross3]
  · linear_combination (-2 * Real.sin (a/2) ^ 2 * p 0) * hk
  · linear_combination (-2 * Real.sin (a/2) ^ 2 * p 1) * hk
  · linear_combination (-2 * Real.sin (a/2) ^ 2 * p 2) * hk

/-- The rotation by a quaternion of norm one preserves distances; `conj` gives its inverse. -/
theorem C36_rigid [Field K] (q : Quat K) (hq : normSq q = 1) (p p' : Pos 3 K) :
    distSq (rotate3 q p) (rotate3 q p') = distSq p p' ∧
    rotate3 (conj q) (rotate3 q p) = p ∧ rotate3 q (rotate3 (conj q) p) = p ∧
    normSq (conj q) = 1 := by
  rw [normSq_eq] at hq
  have hc : conj q 0 = -q 0 ∧ conj q 1 = -q 1 ∧ conj q 2 = -q 2 ∧ conj q 3 = q 3 := by
    simp [conj]
  obtain ⟨c0, c1, c2, c3⟩ := hc
  refine ⟨?_, ?_, ?_, ?_⟩
  · simp only [distSq, Fin.sum_univ_three]
    simp only [rotate3, Matrix.cons_val_zero, Matrix.cons_val_one, Matrix.cons_val]
    obtain ⟨u0, h0⟩ : ∃ u0, p 0 - p' 0 = u0 := ⟨_, rfl⟩
    obtain ⟨u1, h1⟩ : ∃ u1, p 1 - p' 1 = u1 := ⟨_, rfl⟩
    obtain ⟨u2, h2⟩ : ∃ u2, p 2 - p' 2 = u2 := ⟨_, rfl⟩
    have e0 : p 0 = u0 + p' 0 := by linear_combination h0
    have e1 : p 1 = u1 + p' 1 := by linear_combination h1
    have e2 : p 2 = u2 + p' 2 := by linear_combination h2
    rw [e0, e1, e2]
    linear_combination (-4 * ((q 0 * u0 + q 1 * u1 + q 2 * u2) ^ 2 -
      (q 0 ^ 2 + q 1 ^ 2 + q 2 ^ 2) * (u0 ^ 2 + u1 ^ 2 + u2 ^ 2))) * hq
  · funext i
    fin_cases i <;> simp [rotate3, c0, c1, c2, c3]
    · linear_combination (-4 * (q 0 * (q 0 * p 0 + q 1 * p 1 + q 2 * p 2) -
        (q 0 ^ 2 + q 1 ^ 2 + q 2 ^ 2) * p 0)) * hq
    · linear_combination (-4 * (q 1 * (q 0 * p 0 + q 1 * p 1 + q 2 * p 2) -
        (q 0 ^ 2 + q 1 ^ 2 + q 2 ^ 2) * p 1)) * hq
    · linear_combination (-4 * (q 2 * (q 0 * p 0 + q 1 * p 1 + q 2 * p 2) -
        (q 0 ^ 2 + q 1 ^ 2 + q 2 ^ 2) * p 2)) * hq
  · funext i
    fin_cases i <;> simp [rotate3, c0, c1, c2, c3]
    · linear_combination (-4 * (q 0 * (q 0 * p 0 + q 1 * p 1 + q 2 * p 2) -
        (q 0 ^ 2 + q 1 ^ 2 + q 2 ^ 2) * p 0)) * hq
    · linear_combination (-4 * (q 1 * (q 0 * p 0 + q 1 * p 1 + q 2 * p 2) -
        (q 0 ^ 2 + q 1 ^ 2 + q 2 ^ 2) * p 1)) * hq
    · linear_combination (-4 * (q 2 * (q 0 * p 0 + q 1 * p 1 + q 2 * p 2) -
        (q 0 ^ 2 + q 1 ^ 2 + q 2 ^ 2) * p 2)) * hq
  · rw [normSq_eq, c0, c1, c2, c3]
    linear_combination hq

/-- C36: the rotations built by the library preserve distances and the axis, and `conj` is the rotation
of the opposite angle, which is the inverse. -/
theorem C36_rotation (a : ℝ) (k : Pos 3 ℝ) (hk : dot k k = 1) (p p' : Pos 3 ℝ) :
    normSq (quat a k) = 1 ∧
    distSq (rotate3 (quat a k) p) (rotate3 (quat a k) p') = distSq p p' ∧
    rotate3 (quat a k) k = k ∧
    conj (quat a k) = quat (-a) k ∧
    rotate3 (conj (quat a k)) (rotate3 (quat a k) p) = p ∧
    rotate3 (quat a k) (rotate3 (conj (quat a k)) p) = p := by
  obtain ⟨he, hn⟩ := quat_eq a k hk
  obtain ⟨h1, h2, h3, -⟩ := C36_rigid (quat a k) hn p p'
  refine ⟨hn, h1, ?_, ?_, h2, h3⟩
  · rw [C36_rodrigues a k k hk]
    funext i
    simp only [rodrigues, hk]
    have : cross3 k k i = 0 := by fin_cases i <;> simp [cross3] <;> ring
    rw [this]; ring
  · rw [he, (quat_eq (-a) k hk).1]
    have e1 : Real.sin (-a / 2) = -Real.sin (a / 2) := by rw [neg_div, Real.sin_neg]
    have e2 : Real.cos (-a / 2) = Real.cos (a / 2) := by rw [neg_div, Real.cos_neg]
    rw [e1, e2]
    funext i
    fin_cases i <;> simp [conj]

/-- C36 (2D): `rotate` of `quaternion(angle)` is the usual rotation of the plane, its `conj` the
rotation of the opposite angle; `is_rotate` holds. -/
theorem C36_plane (a : ℝ) (p : Pos 2 ℝ) :
    rotate2 (quatZ a) p = planeRot a p ∧ rotate2 (conj (quatZ a)) p = planeRot (-a) p ∧
    rotate2 (conj (quatZ a)) (rotate2 (quatZ a) p) = p ∧
    rotate2 (quatZ a) (rotate2 (conj (quatZ a)) p) = p ∧ isRotate (quatZ a) = true := by
  have hk : dot (![0, 0, 1] : Pos 3 ℝ) ![0, 0, 1] = 1 := by simp [dot, Fin.sum_univ_three]
  obtain ⟨he, hn⟩ := quat_eq a ![0, 0, 1] hk
  have hu := Real.sin_sq_add_cos_sq (a / 2)
  have ha := Real.sin_sq_add_cos_sq a
  obtain ⟨hc, hs⟩ := half_angle a
  have h1 : ∀ p, rotate2 (quatZ a) p = planeRot a p := by
    intro p
    unfold quatZ
    rw [he]
    funext i
    fin_cases i <;> simp [rotate2, planeRot, hc, hs] <;> first | ring1 | (left; ring1)
  have h2 : ∀ p, rotate2 (conj (quatZ a)) p = planeRot (-a) p := by
    intro p
    unfold quatZ
    rw [he]
    funext i
    fin_cases i <;> simp [rotate2, planeRot, hc, hs, conj] <;> first | ring1 | (left; ring1)
  refine ⟨h1 p, h2 p, ?_, ?_, ?_⟩
  · rw [h1, h2]
    funext i
    fin_cases i <;> simp [planeRot]
    · linear_combination p 0 * ha
    · linear_combination p 1 * ha
  · rw [h1, h2]
    funext i
    fin_cases i <;> simp [planeRot]
    · linear_combination p 0 * ha
    · linear_combination p 1 * ha
  · by_contra hh
    unfold isRotate at hh
    rw [Bool.not_eq_true, List.any_eq_false] at hh
    have hz : ∀ i, quatZ a i = 0 := fun i => by simpa using hh i (List.mem_finRange i)
    unfold quatZ at hz
    rw [normSq_eq, hz, hz, hz, hz] at hn
    norm_num at hn

/-- A concrete case of the hypothesis of C36. -/
example : dot (![3 / 5, 0, 4 / 5] : Pos 3 ℝ) ![3 / 5, 0, 4 / 5] = 1 := by
  simp [dot, Fin.sum_univ_three]; norm_num

/-! ### C41 -/

/-- C41: `linspace(a, b, n)` with `a ≤ b` and `n ≥ 2` (`n ≥ 1` without the end point) returns `n` values,
the first one is `a`, consecutive values differ by the same non negative step, all of them are in
`[a, b]`; the last one is `b` when the end is included, and otherwise the next one would be `b`. -/
theorem C41_linspace [Field K] [LinearOrder K] [IsStrictOrderedRing K] (a b : K) (hab : a ≤ b) (n : ℕ)
    (inc : Bool) (hn : (if inc then 1 else 0) < n) :
    ∃ l : List K, ∃ st : K, linspace a b n inc = some l ∧ l.length = n ∧ 0 ≤ st ∧
      (∀ i (hi : i < l.length), l[i] = a + i * st) ∧
      (∀ x ∈ l, a ≤ x ∧ x ≤ b) ∧
      (inc = true → l.getLast? = some b) ∧
      (inc = false → a + n * st = b ∧ (a < b → ∀ x ∈ l, x < b)) := by
  obtain ⟨m, hm, hm0⟩ : ∃ m : ℕ, (if inc then (n : ℤ) - 1 else n) = m ∧ 0 < m := by
    cases inc
    · exact ⟨n, by simp, by simpa using hn⟩
    · refine ⟨n - 1, ?_, ?_⟩
      · simp at hn ⊢; omega
      · simp at hn; omega
  have hmK : (0 : K) < m := by exact_mod_cast hm0
  set st : K := (b - a) / (m : K) with hst
  have hst0 : 0 ≤ st := div_nonneg (sub_nonneg.2 hab) hmK.le
  have hmul : (m : K) * st = b - a := by rw [hst]; field_simp
  have hle : ∀ i : ℕ, i < n → i ≤ m := by
    intro i hi
    cases inc
    · simp at hm; omega
    · simp at hm; omega
  refine ⟨(List.range n).map fun (i : ℕ) => a + (i : K) * st, st, ?_, by simp, hst0, ?_, ?_, ?_, ?_⟩
  · unfold linspace
    simp only [hm]
    rw [if_neg (by omega)]
    simp [hst]
  · intro i hi
    simp
  · intro x hx
    obtain ⟨i, hi, rfl⟩ := List.mem_map.1 hx
    have hi' : (i : K) ≤ m := by exact_mod_cast hle i (List.mem_range.1 hi)
    constructor
    · have : (0:K) ≤ i * st := mul_nonneg (Nat.cast_nonneg i) hst0
      linarith
    · have : (i : K) * st ≤ m * st := mul_le_mul_of_nonneg_right hi' hst0
      linarith
  · intro hinc
    subst hinc
    simp at hn hm
    have hn1 : n = m + 1 := by omega
    rw [hn1, List.range_succ, List.map_append]
    simp [hmul]
  · intro hinc
    subst hinc
    simp at hm
    subst hm
    refine ⟨by rw [hmul]; ring, fun hlt x hx => ?_⟩
    obtain ⟨i, hi, rfl⟩ := List.mem_map.1 hx
    have hi' : (i : K) < n := by exact_mod_cast List.mem_range.1 hi
    have hst1 : 0 < st := div_pos (sub_pos.2 hlt) hmK
    have : (i : K) * st < n * st := mul_lt_mul_of_pos_right hi' hst1
    linarith

/-- The remaining case of `linspace`: one point with the end included divides by zero. -/
theorem linspace_one [Field K] (a b : K) : linspace a b 1 true = none := by simp [linspace]

example : linspace (0 : ℚ) 1 5 true = some [0, 1 / 4, 1 / 2, 3 / 4, 1] := by decide +kernel

end Cafes.Geometry
