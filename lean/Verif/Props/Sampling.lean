/-
Property theorems for super-ellipsoids: C39 (integer bounding box), C40 (surface sampling).
-/
import Verif.Props.Shape
import Mathlib.Data.List.GetD
import Mathlib.Analysis.SpecialFunctions.Trigonometric.Angle

namespace Cafes.Geometry
open Cafes
variable {d : ℕ}

/-! ### C39 -/

theorem truncInt_le {x : ℝ} {p : ℤ} (h : x ≤ p) : truncInt x ≤ p := by
  unfold truncInt
  split_ifs with h0
  · exact_mod_cast (Int.floor_le x).trans h
  · exact Int.ceil_le.2 h

theorem le_truncInt {x : ℝ} {p : ℤ} (h : (p : ℝ) ≤ x) : p ≤ truncInt x := by
  unfold truncInt
  split_ifs with h0
  · exact Int.le_floor.2 h
  · exact_mod_cast h.trans (Int.le_ceil x)

/-- Every grid node of the real box `b` is in the half-open integer box computed from it. -/
theorem intBox_mem (b : Box d ℝ) (h : Pos d ℝ) (hh : ∀ i, 0 < h i) (p : Pos d ℤ)
    (hp : (fun i => (p i : ℝ) * h i) ∈ b.closed) : p ∈ (intBox b h).halfOpen := by
  intro i
  have h1 := (hp i).1
  have h2 := (hp i).2
  have hi := hh i
  constructor
  · apply truncInt_le
    simp only [posSubScal, posDiv, compLoop_apply]
    rw [← div_le_iff₀ hi] at h1
    linarith
  · apply Int.lt_of_add_one_le
    apply le_truncInt
    simp only [posAddScal, posDiv, compLoop_apply]
    rw [← le_div_iff₀ hi] at h2
    push_cast
    linarith

/-- C39 (2D): every grid node of the particle is in the half-open integer box `bounding_box(h)`, for any
centre, positive semi axes, positive exponent, rotation angle and positive mesh steps. -/
theorem C39_plane (c s : Pos 2 ℝ) (hs : ∀ i, 0 < s i) (n : ℝ) (hn : 0 < n) (q : Quat ℝ)
    (hq : PlaneQuat q) (h : Pos 2 ℝ) (hh : ∀ i, 0 < h i) (p : Pos 2 ℤ)
    (hp : (mkShape2 c s n q).contains2 (fun i => (p i : ℝ) * h i) = true) :
    p ∈ (intBox (mkShape2 c s n q).boundingBox2 h).halfOpen :=
  intBox_mem _ h hh p ((C38_plane c s hs n hn q hq _).1 hp)

/-- C39 (3D): the same for shapes that are not rotated, for spheres, and for all the rotated shapes that
`bounding_box()` encloses (condition of `C38_space`). -/
theorem C39_space (c s : Pos 3 ℝ) (hs : ∀ i, 0 < s i) (n e : ℝ) (hn : 0 < n) (he : 0 < e)
    (h : Pos 3 ℝ) (hh : ∀ i, 0 < h i) (p : Pos 3 ℤ) (a : ℝ) (k : Pos 3 ℝ) (hk : dot k k = 1) (r : ℝ)
    (hr : 0 < r) :
    ((mkShape3 c s n e quat0).contains3 (fun i => (p i : ℝ) * h i) = true →
      p ∈ (intBox (mkShape3 c s n e quat0).boundingBox3 h).halfOpen) ∧
    ((sphere c r (quat a k)).contains3 (fun i => (p i : ℝ) * h i) = true →
      p ∈ (intBox (sphere c r (quat a k)).boundingBox3 h).halfOpen) ∧
    ((∀ i, s i ≤ ∑ j, |rotate3 (quat a k) (fun l => if l = j then 1 else 0) i| * s j) →
      (mkShape3 c s n e (quat a k)).contains3 (fun i => (p i : ℝ) * h i) = true →
      p ∈ (intBox (mkShape3 c s n e (quat a k)).boundingBox3 h).halfOpen) :=
  ⟨fun hp => intBox_mem _ h hh p (C38_space_unrotated c s hs n e hn he _ hp),
   fun hp => intBox_mem _ h hh p (C38_sphere c r hr a k hk _ hp),
   fun hc hp => intBox_mem _ h hh p ((C38_space c s hs n e hn he a k hk).2 hc _ hp)⟩

example : (mkShape2 0 ![2, 1] 4 quat0).contains2 (fun i => ((![1, 0] : Pos 2 ℤ) i : ℝ) * 1) = true := by
  have h : (fun i => ((![1, 0] : Pos 2 ℤ) i : ℝ) * 1) = (![1, 0] : Pos 2 ℝ) := by
    funext i; fin_cases i <;> simp
  rw [h]
  exact shape_example

/-- C39 is false of the code for rotated ellipsoids in 3D: with the data of `C38_refuted` and a step of
`1/100`, the node `(199, 0, 0)` is in the particle and not in its integer bounding box. -/
theorem C39_refuted : ∃ (c s h : Pos 3 ℝ) (a : ℝ) (k : Pos 3 ℝ) (p : Pos 3 ℤ), dot k k = 1 ∧
    (∀ i, 0 < s i) ∧ (∀ i, 0 < h i) ∧
    (mkShape3 c s 2 2 (quat a k)).contains3 (fun i => (p i : ℝ) * h i) = true ∧
    p ∉ (intBox (mkShape3 c s 2 2 (quat a k)).boundingBox3 h).halfOpen := by
  obtain ⟨hk, hs, hc, hb⟩ := C38_counterexample
  refine ⟨0, ![2, 1, 1], fun _ => 1 / 100, Real.pi, ![3 / 5, 4 / 5, 0], ![199, 0, 0], hk, hs,
    fun _ => by norm_num, ?_, ?_⟩
  · have : (fun i => ((![199, 0, 0] : Pos 3 ℤ) i : ℝ) * (1 / 100)) = (![199 / 100, 0, 0] : Pos 3 ℝ) := by
      funext i; fin_cases i <;> norm_num
    rw [this]
    exact hc
  · intro hp
    have h1 := (hp 0).2
    simp only [intBox, posAddScal, posDiv, compLoop_apply] at h1
    have h2 : truncInt ((mkShape3 0 ![2, 1, 1] 2 2 (quat Real.pi ![3 / 5, 4 / 5, 0])).boundingBox3.ur 0 /
        (1 / 100) + 1) ≤ 153 := by
      apply truncInt_le
      push_cast
      linarith
    have h3 : (199 : ℤ) < 153 := lt_of_lt_of_le h1 h2
    norm_num at h3

/-! ### C40: shape of the list -/

theorem foldl_push {α : Type*} (f : List α → ℕ → α) (F : ℕ → α) (Q : List α) :
    ∀ (idx : List ℕ) (rest : List α), (∀ i ∈ idx, ∀ e, f (Q ++ e) i = F i) →
    idx.foldl (fun l i => l ++ [f l i]) (Q ++ rest) = Q ++ rest ++ idx.map F := by
  intro idx
  induction idx with
  | nil => intro rest _; simp
  | cons a idx ih =>
    intro rest h
    rw [List.foldl_cons, List.append_assoc, h a (by simp) rest,
      ih (rest ++ [F a]) fun i hi => h i (by simp [hi])]
    simp

theorem map_rev_idx {α β : Type*} (Q : List α) (z : α) (g : α → β) :
    ((List.range Q.length).drop 1).map (fun i => g (Q.getD (Q.length - i - 1) z)) =
      Q.dropLast.reverse.map g := by
  apply List.ext_getElem
  · simp
  · intro n h1 h2
    simp at h1
    simp only [List.getElem_map, List.getElem_drop, List.getElem_range, List.getElem_reverse,
      List.getElem_dropLast, List.length_dropLast]
    have e : Q.length - (1 + n) - 1 = Q.length - 1 - 1 - n := by omega
    rw [e, List.getD_eq_getElem _ _ (by omega)]

theorem map_idx {α β : Type*} (Q : List α) (z : α) (g : α → β) :
    ((List.range Q.length).drop 1).map (fun i => g (Q.getD i z)) = Q.tail.map g := by
  apply List.ext_getElem
  · simp
  · intro n h1 h2
    simp at h1
    simp only [List.getElem_map, List.getElem_drop, List.getElem_range, List.getElem_tail]
    rw [List.getD_eq_getElem _ _ (by omega)]
    congr 2; omega

/-- The sampled points: the first quadrant without its first point, then the second, third and fourth. -/
theorem uniformSampling_eq (r : Pos 2 ℝ) (eps : ℝ) (etas : List ℝ) (hne : etas ≠ []) :
    uniformSampling r eps etas =
      (quadrant r eps etas).tail ++
      ((quadrant r eps etas).dropLast.reverse.map fun p => ![-p 0, p 1]) ++
      ((quadrant r eps etas).tail.map fun p => ![-p 0, -p 1]) ++
      ((quadrant r eps etas).dropLast.reverse.map fun p => ![p 0, -p 1]) := by
  unfold uniformSampling
  set Q := quadrant r eps etas with hQ
  have hQne : Q ≠ [] := by
    intro h
    have : Q.length = 0 := by rw [h]; rfl
    rw [hQ] at this
    simp [quadrant] at this
    exact hne this
  have hlt : ∀ i ∈ (List.range Q.length).drop 1, i < Q.length ∧ Q.length - i - 1 < Q.length := by
    intro i hi
    have := List.mem_range.1 (List.mem_of_mem_drop hi)
    omega
  have e1 := foldl_push (fun l i => ![-(l.getD (Q.length - i - 1) (fun _ => 0) 0),
    l.getD (Q.length - i - 1) (fun _ => 0) 1])
    (fun i => ![-(Q.getD (Q.length - i - 1) (fun _ => 0) 0), Q.getD (Q.length - i - 1) (fun _ => 0) 1])
    Q ((List.range Q.length).drop 1) [] (fun i hi e => by
      simp only [List.getD_append _ _ _ _ (hlt i hi).2])
  have e2 := fun rest => foldl_push (fun l i => ![-(l.getD i (fun _ => 0) 0),
    -(l.getD i (fun _ => 0) 1)])
    (fun i => ![-(Q.getD i (fun _ => 0) 0), -(Q.getD i (fun _ => 0) 1)])
    Q ((List.range Q.length).drop 1) rest (fun i hi e => by
      simp only [List.getD_append _ _ _ _ (hlt i hi).1])
  have e3 := fun rest => foldl_push (fun l i => ![l.getD (Q.length - i - 1) (fun _ => 0) 0,
    -(l.getD (Q.length - i - 1) (fun _ => 0) 1)])
    (fun i => ![Q.getD (Q.length - i - 1) (fun _ => 0) 0, -(Q.getD (Q.length - i - 1) (fun _ => 0) 1)])
    Q ((List.range Q.length).drop 1) rest (fun i hi e => by
      simp only [List.getD_append _ _ _ _ (hlt i hi).2])
  simp only [List.append_nil] at e1
  dsimp only
  rw [e1, e2, List.append_assoc, e3]
  rw [map_rev_idx Q (fun _ => 0) (fun p => ![-p 0, p 1]), map_idx Q (fun _ => 0) (fun p => ![-p 0, -p 1]),
    map_rev_idx Q (fun _ => 0) (fun p => ![p 0, -p 1])]
  obtain ⟨a, l, hal⟩ := List.exists_cons_of_ne_nil hQne
  rw [hal]
  simp

/-! The angles -/

/-- Angles of the first quadrant. -/
noncomputable def quadrantAngles (etas : List ℝ) : List ℝ :=
  etas ++ etas.reverse.map fun t => Real.pi / 2 - t

/-- Angles of all the sampled points. -/
noncomputable def allAngles (etas : List ℝ) : List ℝ :=
  (quadrantAngles etas).tail ++ ((quadrantAngles etas).dropLast.reverse.map fun t => Real.pi - t) ++
    ((quadrantAngles etas).tail.map fun t => Real.pi + t) ++
    ((quadrantAngles etas).dropLast.reverse.map fun t => 2 * Real.pi - t)

/-- The point of parameter `t` of the super-ellipse centred at the origin. -/
noncomputable def superPoint (r : Pos 2 ℝ) (eps t : ℝ) : Pos 2 ℝ := ![r 0 * cFun t eps, r 1 * sFun t eps]

theorem cFun_of_nonneg {t m : ℝ} (h : 0 ≤ Real.cos t) : cFun t m = Real.cos t ^ m := by
  unfold cFun; rw [if_pos h, abs_of_nonneg h]
theorem sFun_of_nonneg {t m : ℝ} (h : 0 ≤ Real.sin t) : sFun t m = Real.sin t ^ m := by
  unfold sFun; rw [if_pos h, abs_of_nonneg h]

theorem cFun_neg {t t' m : ℝ} (hm : 0 < m) (h : Real.cos t' = -Real.cos t) : cFun t' m = -cFun t m := by
  unfold cFun
  rw [h, abs_neg]
  rcases lt_trichotomy (Real.cos t) 0 with h0 | h0 | h0
  · rw [if_pos (by linarith), if_neg (by linarith), neg_neg]
  · simp [h0, Real.zero_rpow hm.ne']
  · rw [if_neg (by linarith), if_pos (by linarith)]

theorem sFun_neg {t t' m : ℝ} (hm : 0 < m) (h : Real.sin t' = -Real.sin t) : sFun t' m = -sFun t m := by
  unfold sFun
  rw [h, abs_neg]
  rcases lt_trichotomy (Real.sin t) 0 with h0 | h0 | h0
  · rw [if_pos (by linarith), if_neg (by linarith), neg_neg]
  · simp [h0, Real.zero_rpow hm.ne']
  · rw [if_neg (by linarith), if_pos (by linarith)]

theorem cFun_congr {t t' m : ℝ} (h : Real.cos t' = Real.cos t) : cFun t' m = cFun t m := by
  unfold cFun; rw [h]
theorem sFun_congr {t t' m : ℝ} (h : Real.sin t' = Real.sin t) : sFun t' m = sFun t m := by
  unfold sFun; rw [h]

theorem quadrant_eq (r : Pos 2 ℝ) (eps : ℝ) (etas : List ℝ)
    (hb : ∀ t ∈ etas, 0 ≤ t ∧ t < Real.pi / 4) :
    quadrant r eps etas = (quadrantAngles etas).map (superPoint r eps) := by
  have hcs : ∀ t ∈ etas, 0 ≤ Real.cos t ∧ 0 ≤ Real.sin t := by
    intro t ht
    have := hb t ht
    have hpi := Real.pi_pos
    exact ⟨Real.cos_nonneg_of_neg_pi_div_two_le_of_le (by linarith) (by linarith),
      Real.sin_nonneg_of_nonneg_of_le_pi (by linarith) (by linarith)⟩
  unfold quadrant quadrantAngles
  rw [List.map_append, List.map_map]
  congr 1
  · apply List.map_congr_left
    intro t ht
    rw [superPoint, cFun_of_nonneg (hcs t ht).1, sFun_of_nonneg (hcs t ht).2]
  · apply List.map_congr_left
    intro t ht
    have ht := List.mem_reverse.1 ht
    rw [Function.comp_apply, superPoint, cFun_of_nonneg (by rw [Real.cos_pi_div_two_sub]; exact (hcs t ht).2),
      sFun_of_nonneg (by rw [Real.sin_pi_div_two_sub]; exact (hcs t ht).1),
      Real.cos_pi_div_two_sub, Real.sin_pi_div_two_sub]

theorem uniformSampling_angles (r : Pos 2 ℝ) (eps : ℝ) (he : 0 < eps) (etas : List ℝ) (hne : etas ≠ [])
    (hb : ∀ t ∈ etas, 0 ≤ t ∧ t < Real.pi / 4) :
    uniformSampling r eps etas = (allAngles etas).map (superPoint r eps) := by
  rw [uniformSampling_eq r eps etas hne, quadrant_eq r eps etas hb]
  unfold allAngles
  simp only [List.map_append, List.map_map, ← List.map_tail, ← List.map_dropLast, ← List.map_reverse]
  congr 1
  · congr 1
    · congr 1
      apply List.map_congr_left
      intro t _
      simp only [Function.comp_apply, superPoint, Matrix.cons_val]
      rw [cFun_neg he (Real.cos_pi_sub t), sFun_congr (Real.sin_pi_sub t)]
      simp
    · apply List.map_congr_left
      intro t _
      simp only [Function.comp_apply, superPoint, Matrix.cons_val]
      rw [cFun_neg (t' := Real.pi + t) (t := t) he (by rw [add_comm, Real.cos_add_pi]),
        sFun_neg (t' := Real.pi + t) (t := t) he (by rw [add_comm, Real.sin_add_pi])]
      simp
  · apply List.map_congr_left
    intro t _
    simp only [Function.comp_apply, superPoint, Matrix.cons_val]
    rw [cFun_congr (Real.cos_two_pi_sub t), sFun_neg he (Real.sin_two_pi_sub t)]
    simp

/-! ### C40: the loop -/

theorem etas_unique {eps k tol eta : ℝ} {l l' : List ℝ} (h : Etas eps k tol eta l)
    (h' : Etas eps k tol eta l') : l = l' := by
  induction h generalizing l' with
  | stop eta h0 =>
    cases h' with
    | stop _ _ => rfl
    | step _ _ h1 _ => exact absurd h1 h0
  | step eta l h0 _ ih =>
    cases h' with
    | stop _ h1 => exact absurd h0 h1
    | step _ l2 h1 h2 => rw [ih h2]

/-- One step of the loop moves forward. -/
theorem thetaStep_pos {eps k tol eta : ℝ} (he : 0 < eps) (hk : 0 < k) (ht : 0 < tol) (h0 : 0 ≤ eta)
    (h1 : eta < Real.pi / 4) : 0 < thetaStep 1 1 eta eps k tol := by
  have hpi := Real.pi_pos
  have hc : 0 < Real.cos eta := Real.cos_pos_of_mem_Ioo ⟨by linarith, by linarith⟩
  unfold thetaStep
  split_ifs with h2 h3
  · have hs : 0 < Real.sin eta := Real.sin_pos_of_pos_of_lt_pi (by linarith) (by linarith)
    have hc1 := Real.rpow_pos_of_pos hc (2 * eps)
    have hs1 := Real.rpow_pos_of_pos hs (2 * eps)
    have hc2 := Real.rpow_pos_of_pos hc 4
    have hs2 := Real.rpow_pos_of_pos hs 4
    have : 0 < 1 * 1 * Real.cos eta ^ (2 * eps) * Real.sin eta ^ (4 : ℝ) +
        1 * 1 * Real.sin eta ^ (2 * eps) * Real.cos eta ^ (4 : ℝ) := by positivity
    have := Real.sqrt_pos.2 this
    positivity
  · have h4 := Real.rpow_pos_of_pos h3 eps
    have h5 : eta = (eta ^ eps) ^ (1 / eps) := by
      rw [← Real.rpow_mul h3.le, mul_one_div_cancel he.ne', Real.rpow_one]
    rw [sub_pos, div_one, abs_of_pos (by linarith)]
    conv_lhs => rw [h5]
    exact Real.rpow_lt_rpow h4.le (by linarith) (by positivity)
  · rw [div_one]
    exact Real.rpow_pos_of_pos (abs_pos.2 hk.ne') _

/-- Away from the axis the step is at least a fixed positive amount. -/
theorem thetaStep_ge {eps k tol eta : ℝ} (he : 0 < eps) (hk : 0 < k) (ht : 0 < tol) (h0 : tol ≤ eta)
    (h1 : eta < Real.pi / 4) :
    k / eps * Real.cos (Real.pi / 4) * Real.sin tol / Real.sqrt 2 ≤ thetaStep 1 1 eta eps k tol := by
  have hpi := Real.pi_pos
  have hc : 0 < Real.cos eta := Real.cos_pos_of_mem_Ioo ⟨by linarith, by linarith⟩
  have hs : 0 < Real.sin eta := Real.sin_pos_of_pos_of_lt_pi (by linarith) (by linarith)
  have hst : 0 < Real.sin tol := Real.sin_pos_of_pos_of_lt_pi (by linarith) (by linarith)
  have hcp : 0 < Real.cos (Real.pi / 4) := by rw [Real.cos_pi_div_four]; positivity
  unfold thetaStep
  rw [if_pos h0]
  have hc1 := Real.rpow_pos_of_pos hc (2 * eps)
  have hs1 := Real.rpow_pos_of_pos hs (2 * eps)
  have hc2 := Real.rpow_pos_of_pos hc 4
  have hs2 := Real.rpow_pos_of_pos hs 4
  have hc1' := Real.rpow_le_one hc.le (Real.cos_le_one eta) (by positivity : (0 : ℝ) ≤ 2 * eps)
  have hs1' := Real.rpow_le_one hs.le (Real.sin_le_one eta) (by positivity : (0 : ℝ) ≤ 2 * eps)
  have hc2' := Real.rpow_le_one hc.le (Real.cos_le_one eta) (by norm_num : (0 : ℝ) ≤ 4)
  have hs2' := Real.rpow_le_one hs.le (Real.sin_le_one eta) (by norm_num : (0 : ℝ) ≤ 4)
  have m1 := mul_le_one₀ hc1' hs2.le hs2'
  have m2 := mul_le_one₀ hs1' hc2.le hc2'
  have hpos : 0 < 1 * 1 * Real.cos eta ^ (2 * eps) * Real.sin eta ^ (4 : ℝ) +
      1 * 1 * Real.sin eta ^ (2 * eps) * Real.cos eta ^ (4 : ℝ) := by positivity
  apply div_le_div₀ (by positivity)
  · have a1 : Real.cos (Real.pi / 4) ≤ Real.cos eta :=
      Real.cos_le_cos_of_nonneg_of_le_pi (by linarith) (by linarith) h1.le
    have a2 : Real.sin tol ≤ Real.sin eta :=
      Real.sin_le_sin_of_le_of_le_pi_div_two (by linarith) (by linarith) h0
    have a3 : 0 < k / eps := by positivity
    exact mul_le_mul (mul_le_mul_of_nonneg_left a1 a3.le) a2 hst.le (by positivity)
  · exact Real.sqrt_pos.2 hpos
  · apply Real.sqrt_le_sqrt
    linarith

/-- Near the axis, `eta^eps` grows by `k`. -/
theorem thetaStep_near {eps k tol eta : ℝ} (he : 0 < eps) (hk : 0 < k) (h0 : 0 ≤ eta)
    (h1 : eta < tol) : (eta + thetaStep 1 1 eta eps k tol) ^ eps = k + eta ^ eps := by
  unfold thetaStep
  rw [if_neg (by linarith)]
  split_ifs with h3
  · have h4 := Real.rpow_pos_of_pos h3 eps
    rw [add_sub_cancel, div_one, abs_of_pos (by linarith), ← Real.rpow_mul (by linarith),
      one_div_mul_cancel he.ne', Real.rpow_one]
  · have : eta = 0 := by linarith
    rw [this, div_one, Real.zero_rpow he.ne', zero_add, add_zero, abs_of_pos hk, ← Real.rpow_mul hk.le,
      one_div_mul_cancel he.ne', Real.rpow_one]

theorem etas_far {eps k tol : ℝ} (he : 0 < eps) (hk : 0 < k) (ht : 0 < tol) :
    ∀ eta, tol ≤ eta → ∃ l, Etas eps k tol eta l := by
  by_cases htp : tol < Real.pi / 4
  swap
  · intro eta h
    exact ⟨[], .stop _ (by linarith)⟩
  have hpi := Real.pi_pos
  have hst : 0 < Real.sin tol := Real.sin_pos_of_pos_of_lt_pi (by linarith) (by linarith)
  have hcp : 0 < Real.cos (Real.pi / 4) := by rw [Real.cos_pi_div_four]; positivity
  set δ := k / eps * Real.cos (Real.pi / 4) * Real.sin tol / Real.sqrt 2 with hδ
  have hδ0 : 0 < δ := by positivity
  have key : ∀ (n : ℕ) (eta : ℝ), tol ≤ eta → Real.pi / 4 - eta ≤ n * δ → ∃ l, Etas eps k tol eta l := by
    intro n
    induction n with
    | zero => intro eta _ h; exact ⟨[], .stop _ (by simp at h; linarith)⟩
    | succ n ih =>
      intro eta h0 h
      by_cases h1 : eta < Real.pi / 4
      · have := thetaStep_ge he hk ht h0 h1
        push_cast at h
        obtain ⟨l, hl⟩ := ih (eta + thetaStep 1 1 eta eps k tol) (by linarith) (by linarith)
        exact ⟨_, .step _ _ h1 hl⟩
      · exact ⟨[], .stop _ h1⟩
  intro eta h
  obtain ⟨n, hn⟩ := exists_nat_ge ((Real.pi / 4 - eta) / δ)
  exact key n eta h ((div_le_iff₀ hδ0).1 hn)

theorem etas_exists {eps k tol : ℝ} (he : 0 < eps) (hk : 0 < k) (ht : 0 < tol) :
    ∀ eta, 0 ≤ eta → ∃ l, Etas eps k tol eta l := by
  have key : ∀ (n : ℕ) (eta : ℝ), 0 ≤ eta → tol ^ eps - eta ^ eps ≤ n * k →
      ∃ l, Etas eps k tol eta l := by
    intro n
    induction n with
    | zero =>
      intro eta h0 h
      refine etas_far he hk ht eta ?_
      by_contra hc
      have := Real.rpow_lt_rpow h0 (not_le.1 hc) he
      simp at h; linarith
    | succ n ih =>
      intro eta h0 h
      by_cases hf : tol ≤ eta
      · exact etas_far he hk ht eta hf
      by_cases h1 : eta < Real.pi / 4
      · have hp := thetaStep_pos he hk ht h0 h1
        have hn := thetaStep_near he hk h0 (not_le.1 hf)
        push_cast at h
        obtain ⟨l, hl⟩ := ih (eta + thetaStep 1 1 eta eps k tol) (by linarith) (by rw [hn]; linarith)
        exact ⟨_, .step _ _ h1 hl⟩
      · exact ⟨[], .stop _ h1⟩
  intro eta h
  obtain ⟨n, hn⟩ := exists_nat_ge ((tol ^ eps - eta ^ eps) / k)
  exact key n eta h ((div_le_iff₀ hk).1 hn)

/-- The recorded angles start at `eta`, increase strictly and stay below `π/4`. -/
theorem etas_sorted {eps k tol eta : ℝ} {l : List ℝ} (he : 0 < eps) (hk : 0 < k) (ht : 0 < tol)
    (h : Etas eps k tol eta l) (h0 : 0 ≤ eta) :
    l.Pairwise (· < ·) ∧ (∀ t ∈ l, eta ≤ t ∧ t < Real.pi / 4) ∧
    (eta < Real.pi / 4 → l.head? = some eta) := by
  induction h with
  | stop eta h => exact ⟨List.Pairwise.nil, by simp, fun h' => absurd h' h⟩
  | step eta l h1 _ ih =>
    have hp := thetaStep_pos he hk ht h0 h1
    obtain ⟨i1, i2, -⟩ := ih (by linarith)
    refine ⟨List.pairwise_cons.2 ⟨fun t ht' => ?_, i1⟩, ?_, fun _ => rfl⟩
    · linarith [(i2 t ht').1]
    · intro t ht'
      rcases List.mem_cons.1 ht' with rfl | ht'
      · exact ⟨le_rfl, h1⟩
      · exact ⟨by linarith [(i2 t ht').1], (i2 t ht').2⟩

/-! ### C40: the angles are increasing -/

theorem allAngles_eq (l : List ℝ) :
    allAngles (0 :: l) =
      (l ++ l.reverse.map (fun t => Real.pi / 2 - t)) ++ [Real.pi / 2] ++
      ((l ++ l.reverse.map (fun t => Real.pi / 2 - t)).reverse.map (fun t => Real.pi - t) ++ [Real.pi]) ++
      ((l ++ l.reverse.map (fun t => Real.pi / 2 - t)).map (fun t => Real.pi + t) ++
        [Real.pi + Real.pi / 2]) ++
      ((l ++ l.reverse.map (fun t => Real.pi / 2 - t)).reverse.map (fun t => 2 * Real.pi - t) ++
        [2 * Real.pi]) := by
  have h : quadrantAngles (0 :: l) =
      0 :: ((l ++ l.reverse.map (fun t => Real.pi / 2 - t)) ++ [Real.pi / 2]) := by
    simp [quadrantAngles]
  unfold allAngles
  rw [h]
  have h2 : (0 :: ((l ++ l.reverse.map (fun t => Real.pi / 2 - t)) ++ [Real.pi / 2])).dropLast =
      0 :: (l ++ l.reverse.map (fun t => Real.pi / 2 - t)) := by
    rw [← List.cons_append, List.dropLast_concat]
  rw [h2]
  simp only [List.tail_cons, List.map_append, List.map_cons, List.map_nil, List.reverse_cons, sub_zero]

theorem pairwise_concat {B : List ℝ} {a : ℝ} (h : B.Pairwise (· < ·)) (ha : ∀ t ∈ B, t < a) :
    (B ++ [a]).Pairwise (· < ·) := by
  rw [List.pairwise_append]
  exact ⟨h, by simp, fun t ht u hu => by rw [List.mem_singleton.1 hu]; exact ha t ht⟩

theorem allAngles_sorted (l : List ℝ) (hs : l.Pairwise (· < ·))
    (hb : ∀ t ∈ l, 0 < t ∧ t < Real.pi / 4) :
    (allAngles (0 :: l)).Pairwise (· < ·) ∧ ∀ t ∈ allAngles (0 :: l), 0 < t ∧ t ≤ 2 * Real.pi := by
  have hpi := Real.pi_pos
  rw [allAngles_eq]
  set B := l ++ l.reverse.map (fun t => Real.pi / 2 - t) with hB
  have hBb : ∀ t ∈ B, 0 < t ∧ t < Real.pi / 2 := by
    intro t ht
    rw [hB, List.mem_append, List.mem_map] at ht
    rcases ht with ht | ⟨u, hu, rfl⟩
    · have := hb t ht; constructor <;> linarith
    · have := hb u (List.mem_reverse.1 hu); constructor <;> linarith
  have hBs : B.Pairwise (· < ·) := by
    rw [hB, List.pairwise_append]
    refine ⟨hs, ?_, ?_⟩
    · rw [List.pairwise_map, List.pairwise_reverse]
      exact hs.imp fun h => by linarith
    · intro t ht u hu
      obtain ⟨v, hv, rfl⟩ := List.mem_map.1 hu
      have h1 := hb t ht
      have h2 := hb v (List.mem_reverse.1 hv)
      linarith
  have hrev : ∀ c : ℝ, (B.reverse.map fun t => c - t).Pairwise (· < ·) := by
    intro c
    rw [List.pairwise_map, List.pairwise_reverse]
    exact hBs.imp fun h => by linarith
  have hadd : ∀ c : ℝ, (B.map fun t => c + t).Pairwise (· < ·) := by
    intro c
    rw [List.pairwise_map]
    exact hBs.imp fun h => by linarith
  have b1 : ∀ t ∈ B ++ [Real.pi / 2], 0 < t ∧ t ≤ Real.pi / 2 := by
    intro t ht
    rcases List.mem_append.1 ht with ht | ht
    · have := hBb t ht; constructor <;> linarith
    · rw [List.mem_singleton.1 ht]; constructor <;> linarith
  have b2 : ∀ t ∈ B.reverse.map (fun t => Real.pi - t) ++ [Real.pi], Real.pi / 2 < t ∧ t ≤ Real.pi := by
    intro t ht
    rcases List.mem_append.1 ht with ht | ht
    · obtain ⟨u, hu, rfl⟩ := List.mem_map.1 ht
      have := hBb u (List.mem_reverse.1 hu); constructor <;> linarith
    · rw [List.mem_singleton.1 ht]; constructor <;> linarith
  have b3 : ∀ t ∈ B.map (fun t => Real.pi + t) ++ [Real.pi + Real.pi / 2],
      Real.pi < t ∧ t ≤ Real.pi + Real.pi / 2 := by
    intro t ht
    rcases List.mem_append.1 ht with ht | ht
    · obtain ⟨u, hu, rfl⟩ := List.mem_map.1 ht
      have := hBb u hu; constructor <;> linarith
    · rw [List.mem_singleton.1 ht]; constructor <;> linarith
  have b4 : ∀ t ∈ B.reverse.map (fun t => 2 * Real.pi - t) ++ [2 * Real.pi],
      Real.pi + Real.pi / 2 < t ∧ t ≤ 2 * Real.pi := by
    intro t ht
    rcases List.mem_append.1 ht with ht | ht
    · obtain ⟨u, hu, rfl⟩ := List.mem_map.1 ht
      have := hBb u (List.mem_reverse.1 hu); constructor <;> linarith
    · rw [List.mem_singleton.1 ht]; constructor <;> linarith
  have s1 : (B ++ [Real.pi / 2]).Pairwise (· < ·) := pairwise_concat hBs fun t ht => (hBb t ht).2
  have s2 : (B.reverse.map (fun t => Real.pi - t) ++ [Real.pi]).Pairwise (· < ·) :=
    pairwise_concat (hrev _) fun t ht => by
      obtain ⟨u, hu, rfl⟩ := List.mem_map.1 ht
      linarith [(hBb u (List.mem_reverse.1 hu)).1]
  have s3 : (B.map (fun t => Real.pi + t) ++ [Real.pi + Real.pi / 2]).Pairwise (· < ·) :=
    pairwise_concat (hadd _) fun t ht => by
      obtain ⟨u, hu, rfl⟩ := List.mem_map.1 ht
      linarith [(hBb u hu).2]
  have s4 : (B.reverse.map (fun t => 2 * Real.pi - t) ++ [2 * Real.pi]).Pairwise (· < ·) :=
    pairwise_concat (hrev _) fun t ht => by
      obtain ⟨u, hu, rfl⟩ := List.mem_map.1 ht
      linarith [(hBb u (List.mem_reverse.1 hu)).1]
  constructor
  · rw [List.pairwise_append, List.pairwise_append, List.pairwise_append]
    refine ⟨⟨⟨s1, s2, fun t ht u hu => ?_⟩, s3, fun t ht u hu => ?_⟩, s4, fun t ht u hu => ?_⟩
    · linarith [(b1 t ht).2, (b2 u hu).1]
    · have hu := (b3 u hu).1
      rcases List.mem_append.1 ht with ht | ht
      · linarith [(b1 t ht).2]
      · linarith [(b2 t ht).2]
    · have hu := (b4 u hu).1
      rcases List.mem_append.1 ht with ht | ht
      · rcases List.mem_append.1 ht with ht | ht
        · linarith [(b1 t ht).2]
        · linarith [(b2 t ht).2]
      · linarith [(b3 t ht).2]
  · intro t ht
    rcases List.mem_append.1 ht with ht | ht
    · rcases List.mem_append.1 ht with ht | ht
      · rcases List.mem_append.1 ht with ht | ht
        · have := b1 t ht; constructor <;> linarith
        · have := b2 t ht; constructor <;> linarith
      · have := b3 t ht; constructor <;> linarith
    · have := b4 t ht; constructor <;> linarith

/-- Signed powers are injective. -/
theorem spow_inj {x y m : ℝ} (hm : 0 < m)
    (h : (if 0 ≤ x then |x| ^ m else -|x| ^ m) = if 0 ≤ y then |y| ^ m else -|y| ^ m) : x = y := by
  have inj : ∀ {a b : ℝ}, |a| ^ m = |b| ^ m → |a| = |b| := fun {a b} hab =>
    Real.rpow_left_injOn hm.ne' (abs_nonneg a) (abs_nonneg b) hab
  have pos : ∀ {a : ℝ}, ¬ 0 ≤ a → 0 < |a| ^ m := fun {a} ha =>
    Real.rpow_pos_of_pos (abs_pos.2 (by linarith)) _
  have nn : ∀ a : ℝ, 0 ≤ |a| ^ m := fun a => Real.rpow_nonneg (abs_nonneg _) _
  split_ifs at h with h1 h2 h2
  · have := inj h
    rwa [abs_of_nonneg h1, abs_of_nonneg h2] at this
  · linarith [nn x, pos h2]
  · linarith [nn y, pos h1]
  · have := inj (neg_injective h)
    rw [abs_of_neg (by linarith), abs_of_neg (by linarith)] at this
    linarith

theorem superPoint_inj (r : Pos 2 ℝ) (hr : ∀ i, 0 < r i) {m : ℝ} (hm : 0 < m) {t u : ℝ}
    (ht : 0 < t ∧ t ≤ 2 * Real.pi) (hu : 0 < u ∧ u ≤ 2 * Real.pi)
    (h : superPoint r m t = superPoint r m u) : t = u := by
  have h0 := congrFun h 0
  have h1 := congrFun h 1
  simp only [superPoint, Matrix.cons_val] at h0 h1
  have hc : Real.cos t = Real.cos u := spow_inj hm (mul_left_cancel₀ (hr 0).ne' h0)
  have hs : Real.sin t = Real.sin u := spow_inj hm (mul_left_cancel₀ (hr 1).ne' h1)
  have := Real.Angle.cos_sin_inj hc hs
  obtain ⟨k, hk⟩ := Real.Angle.angle_eq_iff_two_pi_dvd_sub.1 this
  have hpi := Real.pi_pos
  have hk0 : k = 0 := by
    have h1 : (k : ℝ) < 1 := by
      by_contra hc
      have : 2 * Real.pi * 1 ≤ 2 * Real.pi * k := mul_le_mul_of_nonneg_left (not_lt.1 hc) (by linarith)
      linarith
    have h2 : (-1 : ℝ) < k := by
      by_contra hc
      have : 2 * Real.pi * k ≤ 2 * Real.pi * (-1) := mul_le_mul_of_nonneg_left (not_lt.1 hc) (by linarith)
      linarith
    have h3 : k < 1 := by exact_mod_cast h1
    have h4 : -1 < k := by exact_mod_cast h2
    omega
  rw [hk0] at hk
  push_cast at hk
  linarith

theorem abs_cFun (t m : ℝ) : |cFun t m| = |Real.cos t| ^ m := by
  have := Real.rpow_nonneg (abs_nonneg (Real.cos t)) m
  unfold cFun
  split_ifs
  · rw [abs_of_nonneg this]
  · rw [abs_neg, abs_of_nonneg this]
theorem abs_sFun (t m : ℝ) : |sFun t m| = |Real.sin t| ^ m := by
  have := Real.rpow_nonneg (abs_nonneg (Real.sin t)) m
  unfold sFun
  split_ifs
  · rw [abs_of_nonneg this]
  · rw [abs_neg, abs_of_nonneg this]

theorem rpow_two_div {x m : ℝ} (hm : 0 < m) : (|x| ^ m) ^ (2 / m) = x ^ 2 := by
  rw [← Real.rpow_mul (abs_nonneg _), mul_div_cancel₀ _ hm.ne']
  have : (2 : ℝ) = ((2 : ℕ) : ℝ) := by norm_num
  rw [this, Real.rpow_natCast, sq_abs]

/-- The point of local coordinates `x` of a 2D shape. -/
noncomputable def Shape.place (S : Shape 2) (x : Pos 2 ℝ) : Pos 2 ℝ :=
  posAdd (if isRotate S.q then rotate2 S.q x else x) S.center

theorem surface2_eq (S : Shape 2) (etas : List ℝ) :
    S.surface2 etas = (uniformSampling S.s S.n_ etas).map S.place := by
  unfold Shape.surface2 Shape.place
  by_cases h : isRotate S.q = true <;> simp [h]

theorem local2_place (S : Shape 2) (hq : PlaneQuat S.q) (x : Pos 2 ℝ) : S.local2 (S.place x) = x := by
  unfold Shape.local2 Shape.place
  have hsub : ∀ y : Pos 2 ℝ, posSub (posAdd y S.center) S.center = y := by
    intro y; funext i; simp [posSub, posAdd, compLoop_apply]
  rw [hsub]
  rcases hq with hq | ⟨a, hq⟩
  · rw [hq, isRotate_quat0]; rfl
  · rw [hq, (C36_plane a x).2.2.2.2]
    exact (C36_plane a x).2.2.1

theorem implicit2_place (S : Shape 2) (hq : PlaneQuat S.q) (hs : ∀ i, 0 < S.s i) (hn : 0 < S.n_) (t : ℝ) :
    S.implicit2 (S.place (superPoint S.s S.n_ t)) = 1 := by
  rw [implicit2_eq, local2_place S hq]
  simp only [superPoint, Matrix.cons_val]
  rw [mul_div_cancel_left₀ _ (hs 0).ne', mul_div_cancel_left₀ _ (hs 1).ne', abs_cFun, abs_sFun,
    rpow_two_div hn, rpow_two_div hn]
  exact Real.cos_sq_add_sin_sq t

/-! ### C40: theorems -/

/-- C40 (termination): for positive exponent, step and tolerance the sampling loop terminates, its result
is unique, and it records the angle `0` first. -/
theorem C40_loop {eps k tol : ℝ} (he : 0 < eps) (hk : 0 < k) (ht : 0 < tol) :
    ∃! l, Etas eps k tol 0 l := by
  obtain ⟨l, hl⟩ := etas_exists he hk ht 0 le_rfl
  exact ⟨l, hl, fun l' h' => etas_unique h' hl⟩

theorem etas_zero {eps k tol : ℝ} {etas : List ℝ} (he : 0 < eps) (hk : 0 < k) (ht : 0 < tol)
    (h : Etas eps k tol 0 etas) : ∃ l, etas = 0 :: l ∧ l.Pairwise (· < ·) ∧
      (∀ t ∈ l, 0 < t ∧ t < Real.pi / 4) ∧ ∀ t ∈ etas, 0 ≤ t ∧ t < Real.pi / 4 := by
  obtain ⟨h1, h2, h3⟩ := etas_sorted he hk ht h le_rfl
  have h4 := h3 (by linarith [Real.pi_pos])
  cases etas with
  | nil => simp at h4
  | cons a l =>
    simp only [List.head?_cons, Option.some.injEq] at h4
    subst h4
    rw [List.pairwise_cons] at h1
    exact ⟨l, rfl, h1.2, fun t ht => ⟨h1.1 t ht, (h2 t (by simp [ht])).2⟩, h2⟩

/-- C40 (2D `surface(k, tol)`): for any centre, positive semi axes, exponent, rotation, step and tolerance,
every sampled point satisfies the implicit equation of the (rotated) shape; no point is repeated; with
`m` angles recorded below `π/4` there are `8m - 4` points. -/
theorem C40_surface (c s : Pos 2 ℝ) (hs : ∀ i, 0 < s i) (n : ℝ) (hn : 0 < n) (q : Quat ℝ)
    (hq : PlaneQuat q) (k tol : ℝ) (hk : 0 < k) (ht : 0 < tol) (etas : List ℝ)
    (h : Etas (2 / n) k tol 0 etas) :
    1 ≤ etas.length ∧ ((mkShape2 c s n q).surface2 etas).length + 4 = 8 * etas.length ∧
    ((mkShape2 c s n q).surface2 etas).Nodup ∧
    ∀ p ∈ (mkShape2 c s n q).surface2 etas, (mkShape2 c s n q).implicit2 p = 1 := by
  have he : 0 < 2 / n := by positivity
  obtain ⟨l, hl, h1, h2, h3⟩ := etas_zero he hk ht h
  have hne : etas ≠ [] := by rw [hl]; simp
  have hang := uniformSampling_angles s (2 / n) he etas hne h3
  have hsurf := surface2_eq (mkShape2 c s n q) etas
  have e1 : (mkShape2 c s n q).s = s := rfl
  have e2 : (mkShape2 c s n q).n_ = 2 / n := rfl
  rw [e1, e2, hang] at hsurf
  obtain ⟨hsort, hbound⟩ := allAngles_sorted l h1 h2
  rw [← hl] at hsort hbound
  refine ⟨List.length_pos_iff.2 hne, ?_, ?_, ?_⟩
  · rw [hsurf, List.length_map, List.length_map, hl, allAngles_eq]
    simp
    omega
  · rw [hsurf]
    refine List.Nodup.map (fun x y hxy => ?_) (List.Nodup.map_on ?_ ?_)
    · have := congrArg (mkShape2 c s n q).local2 hxy
      rwa [local2_place _ hq, local2_place _ hq] at this
    · intro t htm u hum htu
      exact superPoint_inj s hs he (hbound t htm) (hbound u hum) htu
    · exact hsort.imp fun h => h.ne
  · intro p hp
    rw [hsurf, List.map_map, List.mem_map] at hp
    obtain ⟨t, -, rfl⟩ := hp
    exact implicit2_place (mkShape2 c s n q) hq hs he t

/-- C40 (symmetry): the sampling is invariant under the two reflections in the axes of the shape. In the
frame of the shape (`x` the local coordinates) the reflected points are sampled too. -/
theorem C40_symmetric (c s : Pos 2 ℝ) (n : ℝ) (hn : 0 < n) (q : Quat ℝ)
    (hq : PlaneQuat q) (k tol : ℝ) (hk : 0 < k) (ht : 0 < tol) (etas : List ℝ)
    (h : Etas (2 / n) k tol 0 etas) (p : Pos 2 ℝ) (hp : p ∈ (mkShape2 c s n q).surface2 etas) :
    (∃ p' ∈ (mkShape2 c s n q).surface2 etas, (mkShape2 c s n q).local2 p' =
      ![-(mkShape2 c s n q).local2 p 0, (mkShape2 c s n q).local2 p 1]) ∧
    (∃ p' ∈ (mkShape2 c s n q).surface2 etas, (mkShape2 c s n q).local2 p' =
      ![(mkShape2 c s n q).local2 p 0, -(mkShape2 c s n q).local2 p 1]) := by
  have he : 0 < 2 / n := by positivity
  obtain ⟨l, hl, h1, h2, h3⟩ := etas_zero he hk ht h
  have hne : etas ≠ [] := by rw [hl]; simp
  have hu := uniformSampling_eq s (2 / n) etas hne
  have hsurf : (mkShape2 c s n q).surface2 etas =
      (uniformSampling s (2 / n) etas).map (mkShape2 c s n q).place := surface2_eq _ etas
  have hQ : quadrant s (2 / n) etas = ![s 0, 0] :: ((quadrant s (2 / n) etas).tail.dropLast ++ [![0, s 1]]) ∧
      quadrant s (2 / n) etas = (![s 0, 0] :: (quadrant s (2 / n) etas).tail.dropLast) ++ [![0, s 1]] := by
    rw [hl]
    simp only [quadrant, List.map_cons, List.reverse_cons, List.map_append, List.map_nil,
      Real.cos_zero, Real.sin_zero, Real.one_rpow, Real.zero_rpow he.ne', mul_one, mul_zero]
    constructor
    · rw [List.cons_append, List.tail_cons, ← List.append_assoc, List.dropLast_concat]
    · rw [List.cons_append, List.tail_cons, ← List.append_assoc, List.dropLast_concat,
        List.cons_append, List.append_assoc]
  set M := (quadrant s (2 / n) etas).tail.dropLast with hM
  have htail : (quadrant s (2 / n) etas).tail = M ++ [![0, s 1]] := by rw [hQ.1, List.tail_cons]
  have hdrop : (quadrant s (2 / n) etas).dropLast = ![s 0, 0] :: M := by
    rw [hQ.2, List.dropLast_concat]
  rw [htail, hdrop] at hu
  have key : ∀ x, x ∈ uniformSampling s (2 / n) etas ↔
      (∃ y, (y = ![s 0, 0] ∨ y ∈ M ∨ y = ![0, s 1]) ∧
        (x = y ∨ x = ![-y 0, y 1] ∨ x = ![-y 0, -y 1] ∨ x = ![y 0, -y 1])) := by
    intro x
    rw [hu]
    simp only [List.mem_append, List.mem_map, List.mem_reverse, List.mem_cons, List.not_mem_nil, or_false]
    have eta2 : ∀ y : Pos 2 ℝ, y = ![y 0, y 1] := fun y => by funext i; fin_cases i <;> rfl
    constructor
    · rintro (((hx | hx) | ⟨y, hy, rfl⟩) | hx) 
      · rcases hx with hx | hx
        · exact ⟨x, Or.inr (Or.inl hx), Or.inl rfl⟩
        · exact ⟨x, Or.inr (Or.inr hx), Or.inl rfl⟩
      · obtain ⟨y, hy, rfl⟩ := hx
        exact ⟨y, hy.elim Or.inl (Or.inr ∘ Or.inl), by simp⟩
      · exact ⟨y, Or.inr hy, by simp⟩
      · obtain ⟨y, hy, rfl⟩ := hx
        exact ⟨y, hy.elim Or.inl (Or.inr ∘ Or.inl), by simp⟩
    · rintro ⟨y, hy, hx⟩
      rcases hy with rfl | hy | rfl
      · rcases hx with rfl | rfl | rfl | rfl
        · exact Or.inr ⟨![s 0, 0], Or.inl rfl, by simp⟩
        · exact Or.inl (Or.inl (Or.inr ⟨![s 0, 0], Or.inl rfl, by simp⟩))
        · exact Or.inl (Or.inl (Or.inr ⟨![s 0, 0], Or.inl rfl, by simp⟩))
        · exact Or.inr ⟨![s 0, 0], Or.inl rfl, by simp⟩
      · rcases hx with rfl | rfl | rfl | rfl
        · exact Or.inl (Or.inl (Or.inl (Or.inl hy)))
        · exact Or.inl (Or.inl (Or.inr ⟨y, Or.inr hy, rfl⟩))
        · exact Or.inl (Or.inr ⟨y, Or.inl hy, rfl⟩)
        · exact Or.inr ⟨y, Or.inr hy, rfl⟩
      · rcases hx with rfl | rfl | rfl | rfl
        · exact Or.inl (Or.inl (Or.inl (Or.inr rfl)))
        · exact Or.inl (Or.inl (Or.inl (Or.inr (by simp))))
        · exact Or.inl (Or.inr ⟨![0, s 1], Or.inr rfl, by simp⟩)
        · exact Or.inl (Or.inr ⟨![0, s 1], Or.inr rfl, by simp⟩)
  have eta2 : ∀ y : Pos 2 ℝ, ![y 0, y 1] = y := fun y => by funext i; fin_cases i <;> rfl
  rw [hsurf, List.mem_map] at hp
  obtain ⟨x, hx, rfl⟩ := hp
  obtain ⟨y, hy, hxy⟩ := (key x).1 hx
  rw [hsurf, local2_place _ hq]
  constructor
  · refine ⟨_, List.mem_map.2 ⟨![-x 0, x 1], (key _).2 ⟨y, hy, ?_⟩, rfl⟩, local2_place _ hq _⟩
    rcases hxy with rfl | rfl | rfl | rfl <;> simp [eta2]
  · refine ⟨_, List.mem_map.2 ⟨![x 0, -x 1], (key _).2 ⟨y, hy, ?_⟩, rfl⟩, local2_place _ hq _⟩
    rcases hxy with rfl | rfl | rfl | rfl <;> simp [eta2]

/-- The step of the sampling of a circle is constant. -/
theorem thetaStep_circle {k tol eta : ℝ} (hk : 0 < k) (ht : 0 < tol) (h0 : 0 ≤ eta)
    (h1 : eta < Real.pi / 4) : thetaStep 1 1 eta 1 k tol = k := by
  have hpi := Real.pi_pos
  unfold thetaStep
  split_ifs with h2 h3
  · have hc : 0 < Real.cos eta := Real.cos_pos_of_mem_Ioo ⟨by linarith, by linarith⟩
    have hs : 0 < Real.sin eta := Real.sin_pos_of_pos_of_lt_pi (by linarith) (by linarith)
    have e2 : (2 * 1 : ℝ) = ((2 : ℕ) : ℝ) := by norm_num
    have e4 : (4 : ℝ) = ((4 : ℕ) : ℝ) := by norm_num
    have e : 1 * 1 * Real.cos eta ^ (2 * 1 : ℝ) * Real.sin eta ^ (4 : ℝ) +
        1 * 1 * Real.sin eta ^ (2 * 1 : ℝ) * Real.cos eta ^ (4 : ℝ) = (Real.cos eta * Real.sin eta) ^ 2 := by
      rw [e2, e4]
      simp only [Real.rpow_natCast]
      linear_combination (Real.cos eta * Real.sin eta) ^ 2 * Real.sin_sq_add_cos_sq eta
    rw [e, Real.sqrt_sq (by positivity)]
    field_simp
  · rw [div_one, Real.rpow_one, div_one, Real.rpow_one, abs_of_pos (by linarith)]
    ring
  · rw [div_one, div_one, Real.rpow_one, abs_of_pos hk]

/-- C40 (circles, number of points): the angles recorded are the multiples of `k` in `[0, π/4)`, so that
`surface(k)` of a circle has `8 ⌈π/(4k)⌉ - 4` points. -/
theorem C40_circle (c : Pos 2 ℝ) (r : ℝ) (q : Quat ℝ) (k tol : ℝ) (hk : 0 < k) (ht : 0 < tol)
    (hr : 0 < r) (hq : PlaneQuat q) (etas : List ℝ) (h : Etas (circle c r q).n_ k tol 0 etas) :
    etas = (List.range ⌈Real.pi / 4 / k⌉₊).map (fun i : ℕ => (i : ℝ) * k) ∧
    ((circle c r q).surface2 etas).length + 4 = 8 * ⌈Real.pi / 4 / k⌉₊ := by
  have hpi := Real.pi_pos
  have e1 : (circle c r q).n_ = 1 := by show (2 : ℝ) / 2 = 1; norm_num
  have key : ∀ (m : ℕ) (eta : ℝ) (l : List ℝ), 0 ≤ eta → Etas 1 k tol eta l →
      ⌈(Real.pi / 4 - eta) / k⌉₊ = m → l = (List.range m).map (fun i : ℕ => eta + (i : ℝ) * k) := by
    intro m
    induction m with
    | zero =>
      intro eta l h0 hl hm
      rw [Nat.ceil_eq_zero] at hm
      cases hl with
      | stop _ _ => rfl
      | step _ l h1 _ => exact absurd hm (not_le.2 (div_pos (by linarith) hk))
    | succ m ih =>
      intro eta l h0 hl hm
      cases hl with
      | stop _ h1 =>
        have : (Real.pi / 4 - eta) / k ≤ 0 := div_nonpos_of_nonpos_of_nonneg (by linarith) hk.le
        rw [Nat.ceil_eq_zero.2 this] at hm
        exact absurd hm (by omega)
      | step _ l h1 h2 =>
        rw [thetaStep_circle hk ht h0 h1] at h2
        have hm' : ⌈(Real.pi / 4 - (eta + k)) / k⌉₊ = m := by
          have e : (Real.pi / 4 - (eta + k)) / k = (Real.pi / 4 - eta) / k - 1 := by field_simp; ring
          rw [e, Nat.ceil_sub_one, hm]; rfl
        rw [ih (eta + k) l (by linarith) h2 hm', List.range_succ_eq_map, List.map_cons, List.map_map]
        congr 1
        · simp
        · apply List.map_congr_left
          intro i _
          simp; ring
  rw [e1] at h
  have hl := key _ 0 etas le_rfl h rfl
  simp only [sub_zero, zero_add] at hl
  refine ⟨hl, ?_⟩
  have h' : Etas (2 / 2) k tol 0 etas := by norm_num; exact h
  have h2 := (C40_surface c (fun _ => r) (fun _ => hr) 2 (by norm_num) q hq k tol hk ht etas h').2.1
  have h3 : etas.length = ⌈Real.pi / 4 / k⌉₊ := by rw [hl]; simp
  rw [← h3]
  exact h2

/-- C40 (parametric points): whatever the rotation of the shape, the points of `surface(u)` in 2D lie on
the implicit surface of the shape without its rotation (so on the surface of the shape when it is not
rotated), and those of `surface(u, v)` in 3D on the implicit surface of the shape, which ignores the
rotation too; `radial` is the position relative to the centre. -/
theorem C40_parametric (c s : Pos 2 ℝ) (hs : ∀ i, 0 < s i) (n : ℝ) (hn : 0 < n) (us : List ℝ)
    (c' s' : Pos 3 ℝ) (hs' : ∀ i, 0 < s' i) (e : ℝ) (he : 0 < e) (q2 q : Quat ℝ) (vs : List ℝ) :
    (∀ p ∈ (mkShape2 c s n q2).surfaceSamples2 us, (mkShape2 c s n quat0).implicit2 p = 1) ∧
    (∀ p ∈ (mkShape3 c' s' n e q).surfaceSamples3 us vs, (mkShape3 c' s' n e q).implicit3 p = 1) ∧
    (∀ u, (mkShape2 c s n q2).at2 u = fun i => c i + (mkShape2 c s n q2).radial2 u i) ∧
    (∀ u v, (mkShape3 c' s' n e q).at3 u v = fun i => c' i + (mkShape3 c' s' n e q).radial3 u v i) := by
  have hm : 0 < 2 / n := by positivity
  have hm' : 0 < 2 / e := by positivity
  refine ⟨?_, ?_, ?_, ?_⟩
  · intro p hp
    obtain ⟨u, -, rfl⟩ := List.mem_map.1 hp
    have : (mkShape2 c s n q2).at2 u =
        (mkShape2 c s n quat0).place (superPoint s (2 / n) u) := by
      unfold Shape.place
      have hr : isRotate (mkShape2 c s n quat0).q = false := isRotate_quat0
      rw [hr]
      funext i
      fin_cases i <;> simp [Shape.at2, posAdd, compLoop_apply, superPoint, mkShape2]
    rw [this]
    exact implicit2_place (mkShape2 c s n quat0) (Or.inl rfl) hs hm u
  · intro p hp
    unfold Shape.surfaceSamples3 at hp
    obtain ⟨u, v, -, rfl⟩ : ∃ u v, True ∧ (mkShape3 c' s' n e q).at3 u v = p := by
      rw [List.mem_iff_getElem] at hp
      obtain ⟨i, hi, rfl⟩ := hp
      rw [List.getElem_zipWith]
      exact ⟨_, _, trivial, rfl⟩
    simp only [Shape.implicit3, Shape.at3, mkShape3, Matrix.cons_val, add_sub_cancel_right]
    have d0 : s' 0 * cFun v (2 / n) * cFun u (2 / e) / s' 0 = cFun v (2 / n) * cFun u (2 / e) := by
      rw [mul_assoc, mul_div_cancel_left₀ _ (hs' 0).ne']
    have d1 : s' 1 * cFun v (2 / n) * sFun u (2 / e) / s' 1 = cFun v (2 / n) * sFun u (2 / e) := by
      rw [mul_assoc, mul_div_cancel_left₀ _ (hs' 1).ne']
    rw [d0, d1, mul_div_cancel_left₀ _ (hs' 2).ne', abs_mul, abs_mul, abs_cFun, abs_cFun, abs_sFun,
      abs_sFun]
    have hcv := Real.rpow_nonneg (abs_nonneg (Real.cos v)) (2 / n)
    rw [Real.mul_rpow hcv (Real.rpow_nonneg (abs_nonneg _) _),
      Real.mul_rpow hcv (Real.rpow_nonneg (abs_nonneg _) _), rpow_two_div hm', rpow_two_div hm',
      rpow_two_div hm, ← mul_add, Real.cos_sq_add_sin_sq, mul_one, ← Real.rpow_mul hcv]
    have e4 : 2 / (2 / e) * (2 / e / (2 / n)) = 2 / (2 / n) := by field_simp
    rw [e4, rpow_two_div hm]
    exact Real.cos_sq_add_sin_sq v
  · intro u
    funext i
    fin_cases i <;> simp [Shape.at2, Shape.radial2, mkShape2, add_comm]
  · intro u v
    funext i
    fin_cases i <;> simp [Shape.at3, Shape.radial3, mkShape3, add_comm]

/-- C40 is false of `surface(u_samples)` in 2D when the shape is rotated: the rotation is not applied. The
ellipse of semi axes `(2, 1)` turned by a quarter turn: the point of parameter `0` is not on it. -/
theorem C40_refuted : ¬ ∀ (c s : Pos 2 ℝ) (n a : ℝ) (us : List ℝ), (∀ i, 0 < s i) → 0 < n →
    ∀ p ∈ (mkShape2 c s n (quatZ a)).surfaceSamples2 us, (mkShape2 c s n (quatZ a)).implicit2 p = 1 := by
  intro h
  have h1 := h 0 ![2, 1] 2 (Real.pi / 2) [0] (fun i => by fin_cases i <;> simp) (by norm_num)
    ((mkShape2 0 ![2, 1] 2 (quatZ (Real.pi / 2))).at2 0) (by simp [Shape.surfaceSamples2])
  rw [implicit2_eq] at h1
  have hat : (mkShape2 0 ![2, 1] 2 (quatZ (Real.pi / 2))).at2 0 = ![2, 0] := by
    funext i
    fin_cases i <;> simp [Shape.at2, mkShape2, cFun, sFun]
  have hl : (mkShape2 0 ![2, 1] 2 (quatZ (Real.pi / 2))).local2 ![2, 0] = ![0, -2] := by
    unfold Shape.local2
    have hr : isRotate (mkShape2 0 ![2, 1] 2 (quatZ (Real.pi / 2))).q = true :=
      (C36_plane (Real.pi / 2) 0).2.2.2.2
    rw [hr, if_pos rfl]
    have := (C36_plane (Real.pi / 2) (posSub ![2, 0] (0 : Pos 2 ℝ))).2.1
    show rotate2 (conj (quatZ (Real.pi / 2))) (posSub ![2, 0] (0 : Pos 2 ℝ)) = _
    rw [this]
    funext i
    fin_cases i <;> simp [planeRot, posSub, compLoop_apply]
  rw [hat, hl] at h1
  have e : (2 : ℝ) / (2 / 2) = ((2 : ℕ) : ℝ) := by norm_num
  simp only [mkShape2, e, Real.rpow_natCast] at h1
  norm_num at h1

example : ∃ etas, Etas (2 / 4) (1 / 10) (1 / 100) 0 etas ∧ PlaneQuat (quatZ 1) :=
  let ⟨l, hl, _⟩ := C40_loop (eps := 2 / 4) (k := 1 / 10) (tol := 1 / 100) (by norm_num) (by norm_num)
    (by norm_num)
  ⟨l, hl, Or.inr ⟨1, rfl⟩⟩

end Cafes.Geometry
