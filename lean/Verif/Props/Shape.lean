/-
Property theorems for super-ellipsoids: C38 (bounding box), C39 (integer bounding box), C40 (sampling).
-/
import Verif.Props.Geometry
import Mathlib.Tactic.Positivity

namespace Cafes.Geometry
open Cafes
variable {d : ℕ}

/-! ### C38 -/

theorem hull_mem (p0 : Pos d ℝ) (l : List (Pos d ℝ)) :
    ∀ p ∈ p0 :: l, p ∈ (hull p0 l).closed := by
  have key : ∀ (l : List (Pos d ℝ)) (b : Box d ℝ) (p : Pos d ℝ), (p ∈ b.closed ∨ p ∈ l) →
      p ∈ (l.foldl (fun b p => (⟨fun i => if b.bl i > p i then p i else b.bl i,
        fun i => if b.ur i < p i then p i else b.ur i⟩ : Box d ℝ)) b).closed := by
    intro l
    induction l with
    | nil => intro b p h; simpa using h
    | cons a l ih =>
      intro b p h
      rw [List.foldl_cons]
      apply ih
      rcases h with h | h
      · left
        intro i
        have := h i
        constructor
        · dsimp only; split_ifs <;> linarith [this.1]
        · dsimp only; split_ifs <;> linarith [this.2]
      · rcases List.mem_cons.1 h with rfl | h
        · left
          intro i
          constructor
          · dsimp only; split_ifs <;> linarith
          · dsimp only; split_ifs <;> linarith
        · exact Or.inr h
  intro p hp
  unfold hull
  apply key
  rcases List.mem_cons.1 hp with rfl | hp
  · left; intro i; exact ⟨le_rfl, le_rfl⟩
  · exact Or.inr hp

theorem hull_ur_le (p0 : Pos d ℝ) (l : List (Pos d ℝ)) (i : Fin d) (M : ℝ)
    (h : ∀ p ∈ p0 :: l, p i ≤ M) : (hull p0 l).ur i ≤ M := by
  have key : ∀ (l : List (Pos d ℝ)) (b : Box d ℝ), b.ur i ≤ M → (∀ p ∈ l, p i ≤ M) →
      (l.foldl (fun b p => (⟨fun i => if b.bl i > p i then p i else b.bl i,
        fun i => if b.ur i < p i then p i else b.ur i⟩ : Box d ℝ)) b).ur i ≤ M := by
    intro l
    induction l with
    | nil => intro b h _; simpa using h
    | cons a l ih =>
      intro b hb h
      rw [List.foldl_cons]
      apply ih
      · dsimp only
        split_ifs
        · exact h a (by simp)
        · exact hb
      · intro p hp; exact h p (by simp [hp])
  exact key l _ (h p0 (by simp)) fun p hp => h p (by simp [hp])

theorem le_hull_bl (p0 : Pos d ℝ) (l : List (Pos d ℝ)) (i : Fin d) (M : ℝ)
    (h : ∀ p ∈ p0 :: l, M ≤ p i) : M ≤ (hull p0 l).bl i := by
  have key : ∀ (l : List (Pos d ℝ)) (b : Box d ℝ), M ≤ b.bl i → (∀ p ∈ l, M ≤ p i) →
      M ≤ (l.foldl (fun b p => (⟨fun i => if b.bl i > p i then p i else b.bl i,
        fun i => if b.ur i < p i then p i else b.ur i⟩ : Box d ℝ)) b).bl i := by
    intro l
    induction l with
    | nil => intro b h _; simpa using h
    | cons a l ih =>
      intro b hb h
      rw [List.foldl_cons]
      apply ih
      · dsimp only
        split_ifs
        · exact h a (by simp)
        · exact hb
      · intro p hp; exact h p (by simp [hp])
  exact key l _ (h p0 (by simp)) fun p hp => h p (by simp [hp])

/-- Image of a cuboid by a linear map: it is in the box spanned by the images of the corners. -/
theorem boundingBoxWith_rot (points : Box d ℝ → List (Pos d ℝ))
    (hpts : ∀ b (σ : Fin d → Bool), (fun i => if σ i then b.ur i else b.bl i) ∈ points b)
    (rot : Pos d ℝ → Pos d ℝ) (A : Fin d → Fin d → ℝ) (hrot : ∀ p i, rot p i = ∑ j, A i j * p j)
    (c s y : Pos d ℝ) (hy : ∀ i, |y i| ≤ s i) :
    (fun i => c i + rot y i) ∈ (boundingBoxWith points rot true c s).closed := by
  unfold boundingBoxWith
  simp only [if_true, compLoop_eq]
  set L := (points ⟨fun i => c i - s i, fun i => c i + s i⟩).map
    fun p => posAdd (rot (posSub p c)) c with hL
  have hcorner : ∀ σ : Fin d → Bool,
      (fun i => c i + ∑ j, A i j * (if σ j then s j else -s j)) ∈ L := by
    intro σ
    rw [hL, List.mem_map]
    refine ⟨_, hpts _ σ, ?_⟩
    funext i
    simp only [posAdd, posSub, compLoop_apply, hrot]
    rw [add_comm]
    congr 1
    refine Finset.sum_congr rfl fun j _ => ?_
    by_cases h : σ j = true <;> simp [h]
  have hbox : ∀ σ : Fin d → Bool,
      (fun i => c i + ∑ j, A i j * (if σ j then s j else -s j)) ∈
      Box.closed (match L with
        | [] => (⟨fun i => c i - s i, fun i => c i + s i⟩ : Box d ℝ)
        | p0 :: l => hull p0 l) := by
    intro σ
    have hσ := hcorner σ
    cases hLL : L with
    | nil => rw [hLL] at hσ; simp at hσ
    | cons p0 l =>
      rw [hLL] at hσ
      exact hull_mem p0 l _ hσ
  have hs : ∀ j, 0 ≤ s j := fun j => le_trans (abs_nonneg _) (hy j)
  intro i
  show _ ≤ c i + rot y i ∧ c i + rot y i ≤ _
  rw [hrot]
  constructor
  · refine le_trans (hbox (fun j => decide (A i j ≤ 0)) i).1 ?_
    refine add_le_add le_rfl (Finset.sum_le_sum fun j _ => ?_)
    have := abs_le.1 (hy j)
    by_cases h : A i j ≤ 0
    · simp only [h, decide_true, if_true]
      exact mul_le_mul_of_nonpos_left this.2 h
    · simp only [h, decide_false]
      exact mul_le_mul_of_nonneg_left this.1 (not_le.1 h).le
  · refine le_trans ?_ (hbox (fun j => decide (0 ≤ A i j)) i).2
    refine add_le_add le_rfl (Finset.sum_le_sum fun j _ => ?_)
    have := abs_le.1 (hy j)
    by_cases h : 0 ≤ A i j
    · simp only [h, decide_true, if_true]
      exact mul_le_mul_of_nonneg_left this.2 h
    · simp only [h, decide_false]
      exact mul_le_mul_of_nonpos_left this.1 (not_le.1 h).le

theorem boundingBoxWith_id (points : Box d ℝ → List (Pos d ℝ)) (rot : Pos d ℝ → Pos d ℝ)
    (c s p : Pos d ℝ) (hy : ∀ i, |p i - c i| ≤ s i) :
    p ∈ (boundingBoxWith points rot false c s).closed := by
  unfold boundingBoxWith
  simp only [compLoop_eq]
  intro i
  have := abs_le.1 (hy i)
  constructor <;> simp <;> linarith

theorem points2_corner (b : Box 2 ℝ) (σ : Fin 2 → Bool) :
    (fun i => if σ i then b.ur i else b.bl i) ∈ b.points2 := by
  have : (fun i => if σ i then b.ur i else b.bl i) =
      ![if σ 0 then b.ur 0 else b.bl 0, if σ 1 then b.ur 1 else b.bl 1] := by
    funext i; fin_cases i <;> rfl
  rw [this]
  cases σ 0 <;> cases σ 1 <;> simp [Box.points2]

theorem points3_corner (b : Box 3 ℝ) (σ : Fin 3 → Bool) :
    (fun i => if σ i then b.ur i else b.bl i) ∈ b.points3 := by
  have : (fun i => if σ i then b.ur i else b.bl i) =
      ![if σ 0 then b.ur 0 else b.bl 0, if σ 1 then b.ur 1 else b.bl 1,
        if σ 2 then b.ur 2 else b.bl 2] := by
    funext i; fin_cases i <;> rfl
  rw [this]
  cases σ 0 <;> cases σ 1 <;> cases σ 2 <;> simp [Box.points3]

theorem isRotate_quat0 : isRotate (quat0 : Quat ℝ) = false := by
  simp [isRotate, quat0]

/-- The rotations of the plane a user can give: none, or `quaternion(angle)`. -/
def PlaneQuat (q : Quat ℝ) : Prop := q = quat0 ∨ ∃ a, q = quatZ a

/-- Coordinates of `p` in the frame of a 2D shape, as used by `implicit`. -/
noncomputable def Shape.local2 (S : Shape 2) (p : Pos 2 ℝ) : Pos 2 ℝ :=
  if isRotate S.q then rotate2 (conj S.q) (posSub p S.center) else posSub p S.center

theorem implicit2_eq (S : Shape 2) (p : Pos 2 ℝ) :
    S.implicit2 p = |S.local2 p 0 / S.s 0| ^ (2 / S.n_) + |S.local2 p 1 / S.s 1| ^ (2 / S.n_) := rfl

/-- A point whose local coordinates are within the semi axes is in the bounding box. -/
theorem boundingBox2_of_local (S : Shape 2) (hq : PlaneQuat S.q) (p : Pos 2 ℝ)
    (h : ∀ i, |S.local2 p i| ≤ S.s i) : p ∈ S.boundingBox2.closed := by
  unfold Shape.boundingBox2
  rcases hq with hq | ⟨a, hq⟩
  · unfold Shape.local2 at h
    rw [hq, isRotate_quat0] at h ⊢
    refine boundingBoxWith_id _ _ _ _ _ fun i => ?_
    simpa [posSub, compLoop_apply] using h i
  · have hr := (C36_plane a p).2.2.2.2
    unfold Shape.local2 at h
    rw [hq, hr] at h ⊢
    have h2 := boundingBoxWith_rot Box.points2 points2_corner (rotate2 (quatZ a))
      (fun i j => planeRot a (fun k => if k = j then 1 else 0) i) (fun p i => by
        rw [(C36_plane a p).1]
        fin_cases i <;> simp [planeRot] <;> ring) S.center S.s
      (rotate2 (conj (quatZ a)) (posSub p S.center)) h
    rw [(C36_plane a _).2.2.2.1] at h2
    convert h2 using 1
    funext i
    simp [posSub, compLoop_apply]

theorem abs_le_of_rpow {x s r : ℝ} (hs : 0 < s) (hr : 0 < r) (h : |x / s| ^ r ≤ 1) : |x| ≤ s := by
  by_contra hc
  rw [not_le] at hc
  have h1 : 1 < |x / s| := by
    rw [abs_div, abs_of_pos hs, lt_div_iff₀ hs]; linarith
  exact absurd h (not_le.2 (Real.one_lt_rpow h1 hr))

/-- C38 (2D): every point at which `contains` holds is in `bounding_box()`, for any centre, positive semi
axes, positive exponent and rotation angle; the same holds of the surface points (`implicit = 1`). -/
theorem C38_plane (c s : Pos 2 ℝ) (hs : ∀ i, 0 < s i) (n : ℝ) (hn : 0 < n) (q : Quat ℝ)
    (hq : PlaneQuat q) (p : Pos 2 ℝ) :
    ((mkShape2 c s n q).contains2 p = true → p ∈ (mkShape2 c s n q).boundingBox2.closed) ∧
    ((mkShape2 c s n q).implicit2 p ≤ 1 → p ∈ (mkShape2 c s n q).boundingBox2.closed) := by
  have hmain : (mkShape2 c s n q).implicit2 p ≤ 1 → p ∈ (mkShape2 c s n q).boundingBox2.closed := by
    intro h
    rw [implicit2_eq] at h
    set S := mkShape2 c s n q
    have hr : 0 < 2 / S.n_ := by
      have : S.n_ = 2 / n := rfl
      rw [this]; positivity
    have h0 : 0 ≤ |S.local2 p 0 / S.s 0| ^ (2 / S.n_) := Real.rpow_nonneg (abs_nonneg _) _
    have h1 : 0 ≤ |S.local2 p 1 / S.s 1| ^ (2 / S.n_) := Real.rpow_nonneg (abs_nonneg _) _
    have a0 : |S.local2 p 0| ≤ S.s 0 := abs_le_of_rpow (hs 0) hr (by linarith)
    have a1 : |S.local2 p 1| ≤ S.s 1 := abs_le_of_rpow (hs 1) hr (by linarith)
    refine boundingBox2_of_local S hq p fun i => ?_
    fin_cases i
    exacts [a0, a1]
  refine ⟨fun h => hmain ?_, hmain⟩
  have := of_decide_eq_true h
  exact this.le

theorem shape_example : (mkShape2 0 ![2, 1] 4 quat0).contains2 ![1, 0] = true := by
  unfold Shape.contains2
  rw [decide_eq_true_eq, implicit2_eq]
  have h4 : (2 : ℝ) / (2 / 4) = ((4 : ℕ) : ℝ) := by norm_num
  have hl : (mkShape2 0 ![2, 1] 4 quat0).local2 ![1, 0] = ![1, 0] := by
    unfold Shape.local2
    have : isRotate (mkShape2 0 ![2, 1] 4 quat0).q = false := isRotate_quat0
    rw [this]
    funext i
    simp [posSub, compLoop_apply, mkShape2]
  rw [hl]
  simp only [mkShape2]
  rw [h4, Real.rpow_natCast, Real.rpow_natCast]
  norm_num

example : (∀ i, 0 < (![2, 1] : Pos 2 ℝ) i) ∧ PlaneQuat (quatZ 1) ∧
    (mkShape2 0 ![2, 1] 4 quat0).contains2 ![1, 0] = true :=
  ⟨fun i => by fin_cases i <;> simp, Or.inr ⟨1, rfl⟩, shape_example⟩

/-- The coordinates of a 3D shape are bounded by its semi axes where `implicit ≤ 1`. -/
theorem implicit3_bound (c s : Pos 3 ℝ) (hs : ∀ i, 0 < s i) (n e : ℝ) (hn : 0 < n) (he : 0 < e)
    (q : Quat ℝ) (p : Pos 3 ℝ) (h : (mkShape3 c s n e q).implicit3 p ≤ 1) :
    ∀ i, |p i - c i| ≤ s i := by
  have e1 : (2 : ℝ) / (2 / n) = n := by field_simp
  have e3 : (2 : ℝ) / (2 / e) = e := by field_simp
  have e2 : (2 : ℝ) / e / (2 / n) = n / e := by field_simp
  simp only [Shape.implicit3, mkShape3, e1, e2, e3] at h
  have h0 : 0 ≤ |(p 0 - c 0) / s 0| ^ e := Real.rpow_nonneg (abs_nonneg _) _
  have h1 : 0 ≤ |(p 1 - c 1) / s 1| ^ e := Real.rpow_nonneg (abs_nonneg _) _
  have h2 : 0 ≤ |(p 2 - c 2) / s 2| ^ n := Real.rpow_nonneg (abs_nonneg _) _
  have h3 : 0 ≤ (|(p 0 - c 0) / s 0| ^ e + |(p 1 - c 1) / s 1| ^ e) ^ (n / e) :=
    Real.rpow_nonneg (by linarith) _
  have h4 : |(p 0 - c 0) / s 0| ^ e + |(p 1 - c 1) / s 1| ^ e ≤ 1 := by
    by_contra hc
    have := Real.one_lt_rpow (not_le.1 hc) (div_pos hn he)
    linarith
  have a0 : |p 0 - c 0| ≤ s 0 := abs_le_of_rpow (hs 0) he (by linarith)
  have a1 : |p 1 - c 1| ≤ s 1 := abs_le_of_rpow (hs 1) he (by linarith)
  have a2 : |p 2 - c 2| ≤ s 2 := abs_le_of_rpow (hs 2) hn (by linarith)
  intro i
  fin_cases i
  exacts [a0, a1, a2]

/-- C38 (3D, shapes that are not rotated). -/
theorem C38_space_unrotated (c s : Pos 3 ℝ) (hs : ∀ i, 0 < s i) (n e : ℝ) (hn : 0 < n) (he : 0 < e)
    (p : Pos 3 ℝ) (h : (mkShape3 c s n e quat0).contains3 p = true) :
    p ∈ (mkShape3 c s n e quat0).boundingBox3.closed := by
  have := implicit3_bound c s hs n e hn he quat0 p (of_decide_eq_true h).le
  unfold Shape.boundingBox3
  have hr : isRotate (mkShape3 c s n e quat0).q = false := isRotate_quat0
  rw [hr]
  exact boundingBoxWith_id _ _ _ _ _ this

/-- C38 (spheres, any rotation around a unit axis): a sphere is enclosed by its bounding box even when
a rotation is given. -/
theorem C38_sphere (c : Pos 3 ℝ) (r : ℝ) (hr : 0 < r) (a : ℝ) (k : Pos 3 ℝ) (hk : dot k k = 1)
    (p : Pos 3 ℝ) (h : (sphere c r (quat a k)).contains3 p = true) :
    p ∈ (sphere c r (quat a k)).boundingBox3.closed := by
  obtain ⟨hn, -, -, -, -, hinv⟩ := C36_rotation a k hk (fun i => p i - c i) 0
  have hrot : isRotate (quat a k) = true := by
    by_contra hh
    unfold isRotate at hh
    rw [Bool.not_eq_true, List.any_eq_false] at hh
    have hz : ∀ i, quat a k i = 0 := fun i => by simpa using hh i (List.mem_finRange i)
    rw [normSq_eq, hz, hz, hz, hz] at hn
    norm_num at hn
  have hin : distSq (fun i => p i - c i) 0 ≤ r ^ 2 := by
    have h1 := of_decide_eq_true h
    have e1 : (2 : ℝ) / (2 / 2) = ((2 : ℕ) : ℝ) := by norm_num
    have e2 : (2 : ℝ) / 2 / (2 / 2) = 1 := by norm_num
    simp only [sphere, mkShape3, Shape.implicit3] at h1
    rw [e1, e2, Real.rpow_one] at h1
    simp only [Real.rpow_natCast, sq_abs, div_pow] at h1
    rw [← add_div, ← add_div, div_lt_one (by positivity)] at h1
    simp only [distSq, Fin.sum_univ_three, Pi.zero_apply, sub_zero]
    linarith
  set y := rotate3 (conj (quat a k)) (fun i => p i - c i) with hy
  have hyd : distSq y 0 = distSq (fun i => p i - c i) 0 := by
    have h2 := (C36_rigid (quat a k) hn y 0).1
    have h0 : rotate3 (quat a k) 0 = 0 := by funext i; fin_cases i <;> simp [rotate3]
    rw [h0, hinv] at h2
    exact h2.symm
  have hyb : ∀ i, |y i| ≤ r := by
    intro i
    refine abs_le_of_sq_le_sq ?_ hr.le
    rw [← hyd] at hin
    refine le_trans ?_ hin
    unfold distSq
    have := Finset.single_le_sum (f := fun i => (y i - (0 : Pos 3 ℝ) i) ^ 2) (s := Finset.univ)
      (fun j _ => sq_nonneg _) (Finset.mem_univ i)
    simpa using this
  have h2 := boundingBoxWith_rot Box.points3 points3_corner (rotate3 (quat a k))
    (fun i j => rotate3 (quat a k) (fun l => if l = j then 1 else 0) i) (fun p i => by
      fin_cases i <;> simp [rotate3, Fin.sum_univ_three]) c (fun _ => r) y hyb
  rw [hy, hinv] at h2
  unfold Shape.boundingBox3
  have hr' : isRotate (sphere c r (quat a k)).q = true := hrot
  rw [hr']
  have hp : p = fun i => c i + (fun i => p i - c i) i := by funext i; simp
  rw [← hp] at h2
  exact h2

theorem points3_only (b : Box 3 ℝ) (p : Pos 3 ℝ) (hp : p ∈ b.points3) :
    ∀ i, p i = b.bl i ∨ p i = b.ur i := by
  simp only [Box.points3, List.mem_cons, List.not_mem_nil, or_false] at hp
  intro i
  rcases hp with h | h | h | h | h | h | h | h <;> subst h <;> fin_cases i <;> simp

/-- The bounding box of a rotated shape in space: its half widths are `∑ j |R i j| s j`, `R` being the
matrix of the rotation. -/
theorem boundingBox3_rot (q : Quat ℝ) (c s : Pos 3 ℝ) (hs : ∀ i, 0 < s i) (i : Fin 3) :
    (boundingBoxWith Box.points3 (rotate3 q) true c s).bl i =
      c i - ∑ j, |rotate3 q (fun l => if l = j then 1 else 0) i| * s j ∧
    (boundingBoxWith Box.points3 (rotate3 q) true c s).ur i =
      c i + ∑ j, |rotate3 q (fun l => if l = j then 1 else 0) i| * s j := by
  have hlin : ∀ (p : Pos 3 ℝ) i, rotate3 q p i =
      ∑ j, rotate3 q (fun l => if l = j then 1 else 0) i * p j := by
    intro p i
    fin_cases i <;> simp [rotate3, Fin.sum_univ_three]
  -- the two corners that realise the extreme coordinates
  have hmem : ∀ y : Pos 3 ℝ, (∀ j, |y j| ≤ s j) → (fun i => c i + rotate3 q y i) ∈
      (boundingBoxWith Box.points3 (rotate3 q) true c s).closed := fun y hy =>
    boundingBoxWith_rot Box.points3 points3_corner (rotate3 q)
      (fun i j => rotate3 q (fun l => if l = j then 1 else 0) i) hlin c s y hy
  have hsgn : ∀ x : ℝ, x * SignType.sign x = |x| := fun x => by
    rw [mul_comm]; exact sign_mul_self x
  have hsa : ∀ x : ℝ, |((SignType.sign x : SignType) : ℝ)| ≤ 1 := fun x => by
    rcases lt_trichotomy x 0 with h | h | h
    · simp [sign_neg h]
    · simp [h]
    · simp [sign_pos h]
  set R := fun j => rotate3 q (fun l => if l = j then 1 else 0) i with hR
  have hup := hmem (fun j => SignType.sign (R j) * s j) (fun j => by
    rw [abs_mul, abs_of_pos (hs j)]
    exact mul_le_of_le_one_left (hs j).le (hsa _))
  have hdn := hmem (fun j => -(SignType.sign (R j) * s j)) (fun j => by
    rw [abs_neg, abs_mul, abs_of_pos (hs j)]
    exact mul_le_of_le_one_left (hs j).le (hsa _))
  have e1 : rotate3 q (fun j => SignType.sign (R j) * s j) i = ∑ j, |R j| * s j := by
    rw [hlin]
    refine Finset.sum_congr rfl fun j _ => ?_
    rw [← hsgn (R j)]; simp only [hR]; ring
  have e2 : rotate3 q (fun j => -(SignType.sign (R j) * s j)) i = -∑ j, |R j| * s j := by
    rw [hlin, ← Finset.sum_neg_distrib]
    refine Finset.sum_congr rfl fun j _ => ?_
    rw [← hsgn (R j)]; simp only [hR]; ring
  have h1 := (hup i).2
  have h2 := (hdn i).1
  simp only [e1] at h1
  simp only [e2] at h2
  -- every corner is within these bounds
  have hall : ∀ p ∈ (Box.points3 ⟨fun i => c i - s i, fun i => c i + s i⟩).map
      (fun p => posAdd (rotate3 q (posSub p c)) c), |p i - c i| ≤ ∑ j, |R j| * s j := by
    intro p hp
    rw [List.mem_map] at hp
    obtain ⟨p, hp, rfl⟩ := hp
    have hp := points3_only _ p hp
    have : posAdd (rotate3 q (posSub p c)) c i - c i = ∑ j, R j * (p j - c j) := by
      simp only [posAdd, compLoop_apply, add_sub_cancel_right]
      rw [hlin]
      exact Finset.sum_congr rfl fun j _ => by simp only [hR, posSub, compLoop_apply]
    rw [this]
    refine (Finset.abs_sum_le_sum_abs _ _).trans (Finset.sum_le_sum fun j _ => ?_)
    rw [abs_mul]
    refine mul_le_mul_of_nonneg_left ?_ (abs_nonneg _)
    rcases hp j with h | h
    · rw [h]; simp [abs_of_pos (hs j)]
    · rw [h]; simp [abs_of_pos (hs j)]
  have hbb : (c i - ∑ j, |R j| * s j ≤ (boundingBoxWith Box.points3 (rotate3 q) true c s).bl i) ∧
      (boundingBoxWith Box.points3 (rotate3 q) true c s).ur i ≤ c i + ∑ j, |R j| * s j := by
    unfold boundingBoxWith
    simp only [if_true, compLoop_eq]
    cases hLL : (Box.points3 ⟨fun i => c i - s i, fun i => c i + s i⟩).map
        (fun p => posAdd (rotate3 q (posSub p c)) c) with
    | nil => simp [Box.points3] at hLL
    | cons p0 l =>
      rw [hLL] at hall
      constructor
      · refine le_hull_bl p0 l i _ fun p hp => ?_
        have := (abs_le.1 (hall p hp)).1
        linarith
      · refine hull_ur_le p0 l i _ fun p hp => ?_
        have := (abs_le.1 (hall p hp)).2
        linarith
  constructor
  · exact le_antisymm (by linarith) hbb.1
  · exact le_antisymm hbb.2 (by linarith)

theorem isRotate_of_unit (q : Quat ℝ) (hq : normSq q = 1) : isRotate q = true := by
  by_contra hh
  unfold isRotate at hh
  rw [Bool.not_eq_true, List.any_eq_false] at hh
  have hz : ∀ i, q i = 0 := fun i => by simpa using hh i (List.mem_finRange i)
  rw [normSq_eq, hz, hz, hz, hz] at hq
  norm_num at hq

/-- The points `c ± t s_i e_i`, `0 ≤ t < 1`, are in the shape. -/
theorem axis_point_inside (c s : Pos 3 ℝ) (hs : ∀ i, 0 < s i) (n e : ℝ) (hn : 0 < n) (he : 0 < e)
    (q : Quat ℝ) (i : Fin 3) (t : ℝ) (h0 : 0 ≤ t) (h1 : t < 1) :
    (mkShape3 c s n e q).contains3 (fun j => if j = i then c j + t * s j else c j) = true := by
  unfold Shape.contains3
  rw [decide_eq_true_eq]
  have e1 : (2 : ℝ) / (2 / n) = n := by field_simp
  have e3 : (2 : ℝ) / (2 / e) = e := by field_simp
  have e2 : (2 : ℝ) / e / (2 / n) = n / e := by field_simp
  have hne : 0 < n / e := div_pos hn he
  simp only [Shape.implicit3, mkShape3, e1, e2, e3]
  have d : ∀ i, t * s i / s i = t := fun i => by rw [mul_div_assoc, div_self (hs i).ne', mul_one]
  fin_cases i
  · simp only [Fin.zero_eta, Fin.isValue, if_true]
    simp [d, abs_of_nonneg h0, Real.zero_rpow hn.ne', Real.zero_rpow he.ne']
    exact Real.rpow_lt_one (Real.rpow_nonneg h0 _) (Real.rpow_lt_one h0 h1 he) hne
  · simp [d, abs_of_nonneg h0, Real.zero_rpow hn.ne', Real.zero_rpow he.ne']
    exact Real.rpow_lt_one (Real.rpow_nonneg h0 _) (Real.rpow_lt_one h0 h1 he) hne
  · simp [d, abs_of_nonneg h0, Real.zero_rpow hn.ne', Real.zero_rpow he.ne', Real.zero_rpow hne.ne']
    exact Real.rpow_lt_one h0 h1 hn

/-- C38 (3D, rotated shapes), exact: `bounding_box()` encloses the shape if and only if, in every
direction `i`, the semi axis `s i` is at most `∑ j |R i j| s j`, `R` being the matrix of the rotation
(`contains` ignores the rotation, `bounding_box` applies it). -/
theorem C38_space (c s : Pos 3 ℝ) (hs : ∀ i, 0 < s i) (n e : ℝ) (hn : 0 < n) (he : 0 < e)
    (a : ℝ) (k : Pos 3 ℝ) (hk : dot k k = 1) :
    (∀ p, (mkShape3 c s n e (quat a k)).contains3 p = true →
      p ∈ (mkShape3 c s n e (quat a k)).boundingBox3.closed) ↔
    ∀ i, s i ≤ ∑ j, |rotate3 (quat a k) (fun l => if l = j then 1 else 0) i| * s j := by
  have hr : isRotate (quat a k) = true := isRotate_of_unit _ (quat_eq a k hk).2
  have hb : (mkShape3 c s n e (quat a k)).boundingBox3 =
      boundingBoxWith Box.points3 (rotate3 (quat a k)) true c s := by
    show boundingBoxWith Box.points3 (rotate3 (quat a k)) (isRotate (quat a k)) c s = _
    rw [hr]
  rw [hb]
  have hbox := boundingBox3_rot (quat a k) c s hs
  constructor
  · intro H i
    by_contra hlt
    rw [not_le] at hlt
    set W := ∑ j, |rotate3 (quat a k) (fun l => if l = j then 1 else 0) i| * s j with hW
    have hW0 : 0 ≤ W := Finset.sum_nonneg fun j _ => mul_nonneg (abs_nonneg _) (hs j).le
    have ht0 : 0 ≤ (W / s i + 1) / 2 := by have := div_nonneg hW0 (hs i).le; linarith
    have hWs : W / s i < 1 := (div_lt_one (hs i)).2 hlt
    have hin := H _ (axis_point_inside c s hs n e hn he (quat a k) i ((W / s i + 1) / 2) ht0 (by linarith))
    have h2 := (hin i).2
    rw [(hbox i).2, ← hW] at h2
    simp only [if_true] at h2
    have h3 : W / s i * s i = W := div_mul_cancel₀ _ (hs i).ne'
    nlinarith [hs i]
  · intro H p hp i
    have hp := implicit3_bound c s hs n e hn he _ p (of_decide_eq_true hp).le i
    rw [abs_le] at hp
    rw [(hbox i).1, (hbox i).2]
    have := H i
    constructor <;> linarith

/-- The condition of `C38_space` is met by a half turn around the third axis and semi axes
`(2, 1, 1)`. -/
example : dot (![0, 0, 1] : Pos 3 ℝ) ![0, 0, 1] = 1 ∧ ∀ i, (![2, 1, 1] : Pos 3 ℝ) i ≤
    ∑ j, |rotate3 (quat Real.pi ![0, 0, 1]) (fun l => if l = j then 1 else 0) i| * (![2, 1, 1] : Pos 3 ℝ) j := by
  have hk : dot (![0, 0, 1] : Pos 3 ℝ) ![0, 0, 1] = 1 := by simp [dot, Fin.sum_univ_three]
  refine ⟨hk, fun i => ?_⟩
  rw [(quat_eq Real.pi _ hk).1]
  have h1 : Real.sin (Real.pi / 2) = 1 := Real.sin_pi_div_two
  have h2 : Real.cos (Real.pi / 2) = 0 := Real.cos_pi_div_two
  rw [h1, h2]
  fin_cases i <;> simp [rotate3, Fin.sum_univ_three] <;> norm_num

/-- The ellipsoid of semi axes `(2, 1, 1)` turned by a half turn around the unit axis `(3/5, 4/5, 0)`. -/
theorem C38_counterexample :
    dot (![3 / 5, 4 / 5, 0] : Pos 3 ℝ) ![3 / 5, 4 / 5, 0] = 1 ∧ (∀ i, 0 < (![2, 1, 1] : Pos 3 ℝ) i) ∧
    (mkShape3 0 ![2, 1, 1] 2 2 (quat Real.pi ![3 / 5, 4 / 5, 0])).contains3 ![199 / 100, 0, 0] = true ∧
    (mkShape3 0 ![2, 1, 1] 2 2 (quat Real.pi ![3 / 5, 4 / 5, 0])).boundingBox3.ur 0 ≤ 38 / 25 := by
  have hk : dot (![3 / 5, 4 / 5, 0] : Pos 3 ℝ) ![3 / 5, 4 / 5, 0] = 1 := by
    simp [dot, Fin.sum_univ_three]; norm_num
  refine ⟨hk, ?_, ?_, ?_⟩
  · intro i; fin_cases i <;> simp
  · unfold Shape.contains3
    rw [decide_eq_true_eq]
    have e1 : (2 : ℝ) / (2 / 2) = ((2 : ℕ) : ℝ) := by norm_num
    have e2 : (2 : ℝ) / 2 / (2 / 2) = 1 := by norm_num
    simp only [mkShape3, Shape.implicit3]
    rw [e1, e2, Real.rpow_one]
    simp only [Real.rpow_natCast, sq_abs, div_pow, Matrix.cons_val]
    norm_num
  · have hR : ∀ x : Pos 3 ℝ, rotate3 (quat Real.pi ![3 / 5, 4 / 5, 0]) x 0 =
        -7 / 25 * x 0 + 24 / 25 * x 1 := by
      intro x
      rw [C36_rodrigues _ _ _ hk]
      simp only [rodrigues, Real.cos_pi, Real.sin_pi, dot, Fin.sum_univ_three, Matrix.cons_val]
      ring
    have hrot : isRotate (quat Real.pi ![3 / 5, 4 / 5, 0]) = true := by
      by_contra hh
      unfold isRotate at hh
      rw [Bool.not_eq_true, List.any_eq_false] at hh
      have hz : ∀ i, quat Real.pi ![3 / 5, 4 / 5, 0] i = 0 := fun i => by
        simpa using hh i (List.mem_finRange i)
      have hn := (C36_rotation Real.pi _ hk 0 0).1
      rw [normSq_eq, hz, hz, hz, hz] at hn
      norm_num at hn
    unfold Shape.boundingBox3 boundingBoxWith
    have hr : isRotate (mkShape3 0 ![2, 1, 1] 2 2 (quat Real.pi ![3 / 5, 4 / 5, 0])).q = true := hrot
    rw [hr]
    simp only [if_true, Box.points3, List.map_cons, List.map_nil]
    apply hull_ur_le
    intro p hp
    simp only [List.mem_cons, List.not_mem_nil, or_false] at hp
    rcases hp with rfl | rfl | rfl | rfl | rfl | rfl | rfl | rfl <;>
      · simp only [mkShape3, posAdd, posSub, compLoop_apply, hR, Matrix.cons_val, Pi.zero_apply]
        norm_num

/-- C38 is false of the code in 3D: `implicit` ignores the rotation while `bounding_box` applies it. The
ellipsoid of semi axes `(2, 1, 1)` turned by a half turn around the unit axis `(3/5, 4/5, 0)` contains
`(1.99, 0, 0)`, whose first coordinate is larger than that of every point of its bounding box. -/
theorem C38_refuted : ∃ (c s : Pos 3 ℝ) (a : ℝ) (k p : Pos 3 ℝ), dot k k = 1 ∧ (∀ i, 0 < s i) ∧
    (mkShape3 c s 2 2 (quat a k)).contains3 p = true ∧
    p ∉ (mkShape3 c s 2 2 (quat a k)).boundingBox3.closed := by
  obtain ⟨hk, hs, hc, hb⟩ := C38_counterexample
  exact ⟨0, ![2, 1, 1], Real.pi, ![3 / 5, 4 / 5, 0], ![199 / 100, 0, 0], hk, hs, hc, fun hm => by
    have h2 : (199 / 100 : ℝ) ≤ 38 / 25 := le_trans (hm 0).2 hb
    norm_num at h2⟩

end Cafes.Geometry
