import Verif.Props.Cutoff

/-!
C76: the box of mesh points scanned around a contact contains the whole part of the gap between the
two particles in which the singular fields act (cafes/particle/singularity/singularity.hpp:114-197).
-/

namespace Cafes.Props
open Cafes Cafes.Geometry Cafes.Sing

variable {d : ℕ}

/-- `x` is a point of the gap between the particles: outside both balls, and its projection on the line
of centres is between the two centres. -/
def InGap (p1 p2 : Ball d) (x : Pos d ℝ) : Prop :=
  p1.r ^ 2 ≤ distSq x p1.center ∧ p2.r ^ 2 ≤ distSq x p2.center ∧
  0 ≤ ∑ i, (x i - p1.center i) * (p2.center i - p1.center i) ∧
  ∑ i, (x i - p1.center i) * (p2.center i - p1.center i) ≤ distSq p1.center p2.center

/-- The point `x` of the domain is in the (closed) region covered by the mesh points of the box `b`, the
mesh steps being `h`. -/
def CoveredBy (b : Box d ℤ) (h x : Pos d ℝ) : Prop :=
  ∀ i, (b.bl i : ℝ) * h i ≤ x i ∧ x i ≤ (b.ur i : ℝ) * h i

theorem foldl_min_le_init (l : List ℝ) : ∀ x : ℝ, l.foldl min x ≤ x := by
  induction l with
  | nil => intro x; exact le_rfl
  | cons a l ih => intro x; exact (ih _).trans (min_le_left _ _)

theorem listMin_le (l : List ℝ) : ∀ (x y : ℝ), y ∈ x :: l → listMin x l ≤ y := by
  induction l with
  | nil => intro x y h; simp at h; simp [listMin, h]
  | cons a l ih =>
    intro x y h
    change listMin (min x a) l ≤ y
    rcases List.mem_cons.1 h with rfl | h
    · exact (foldl_min_le_init l _).trans (min_le_left _ _)
    · rcases List.mem_cons.1 h with rfl | h
      · exact (foldl_min_le_init l _).trans (min_le_right _ _)
      · exact ih _ _ (List.mem_cons_of_mem _ h)

theorem foldl_max_ge_init (l : List ℝ) : ∀ x : ℝ, x ≤ l.foldl max x := by
  induction l with
  | nil => intro x; exact le_rfl
  | cons a l ih => intro x; exact (le_max_left _ _).trans (ih _)

theorem le_listMax (l : List ℝ) : ∀ (x y : ℝ), y ∈ x :: l → y ≤ listMax x l := by
  induction l with
  | nil => intro x y h; simp at h; simp [listMax, h]
  | cons a l ih =>
    intro x y h
    change y ≤ listMax (max x a) l
    rcases List.mem_cons.1 h with rfl | h
    · exact (le_max_left _ _).trans (foldl_max_ge_init l _)
    · rcases List.mem_cons.1 h with rfl | h
      · exact (le_max_right _ _).trans (foldl_max_ge_init l _)
      · exact ih _ _ (List.mem_cons_of_mem _ h)

/-- A point each of whose coordinates is between those of two corners is covered by the corner box. -/
theorem cornerBox_covers (h c x : Pos d ℝ) (l : List (Pos d ℝ)) (hh : ∀ i, 0 < h i)
    (hx : ∀ i, (∃ p ∈ c :: l, p i ≤ x i) ∧ ∃ p ∈ c :: l, x i ≤ p i) :
    CoveredBy (cornerBox h c l) h x := by
  intro i
  obtain ⟨⟨p, hp, h1⟩, q, hq, h2⟩ := hx i
  have m : ∀ p ∈ c :: l, p i ∈ c i :: l.map fun p => p i := by
    intro p hp
    rcases List.mem_cons.1 hp with rfl | hp
    · exact List.mem_cons_self
    · exact List.mem_cons_of_mem _ (List.mem_map.2 ⟨p, hp, rfl⟩)
  constructor
  · rw [← le_div_iff₀ (hh i)]
    refine (Int.floor_le _).trans ?_
    exact div_le_div_of_nonneg_right ((listMin_le _ _ _ (m p hp)).trans h1) (hh i).le
  · rw [← div_le_iff₀ (hh i)]
    refine le_trans ?_ (Int.le_ceil _)
    exact div_le_div_of_nonneg_right (h2.trans (le_listMax _ _ _ (m q hq))) (hh i).le

/-- A linear function on an interval is bounded by its values at the ends. -/
theorem seg_lin (a x1 x2 x : ℝ) (h1 : x1 ≤ x) (h2 : x ≤ x2) :
    (a * x1 ≤ a * x ∨ a * x2 ≤ a * x) ∧ (a * x ≤ a * x1 ∨ a * x ≤ a * x2) := by
  rcases le_total 0 a with h | h
  · exact ⟨Or.inl (mul_le_mul_of_nonneg_left h1 h), Or.inr (mul_le_mul_of_nonneg_left h2 h)⟩
  · exact ⟨Or.inr (mul_le_mul_of_nonpos_left h2 h), Or.inl (mul_le_mul_of_nonpos_left h1 h)⟩

/-- The cap of a ball of radius `r` at the distance `c` of the axis. -/
theorem cap_bound {r c a s : ℝ} (hr : 0 < r) (hc : 0 ≤ c) (hcr : c ≤ r) (ha : 0 ≤ a) (hs : s ^ 2 ≤ c ^ 2)
    (hout : r ^ 2 ≤ a ^ 2 + s ^ 2) :
    r * Real.cos (Real.arcsin (c * (1 / r))) ≤ a ∧ r * Real.sin (Real.arcsin (c * (1 / r))) = c := by
  have e : c * (1 / r) = c / r := by ring
  rw [e]
  have h1 : c / r ≤ 1 := (div_le_one hr).2 hcr
  have h0 : -1 ≤ c / r := le_trans (by norm_num) (div_nonneg hc hr.le)
  have hsin := Real.sin_arcsin h0 h1
  have hcos := Real.cos_arcsin_nonneg (c / r)
  have hpy := Real.sin_sq_add_cos_sq (Real.arcsin (c / r))
  constructor
  · refine abs_le_of_sq_le_sq' ?_ ha |>.2
    rw [hsin] at hpy
    have : (r * Real.cos (Real.arcsin (c / r))) ^ 2 = r ^ 2 - c ^ 2 := by
      have h3 : (c / r) ^ 2 * r ^ 2 = c ^ 2 := by field_simp
      rw [mul_pow]
      linear_combination r ^ 2 * hpy - h3
    rw [this]
    linarith
  · rw [hsin]; field_simp

/-- Coordinate of a point along the line of centres. -/
theorem axis_coord (axis : Fin d) (frame : Ball d → Ball d → Frame d) (p1 p2 : Ball d)
    (h alpha : ℝ) (S : Singularity d) (hS : mkSing axis frame p1 p2 h alpha = some S)
    (hc : p1.center ≠ p2.center)
    (hax : (frame p1 p2).base axis = vecDivScal (positionDiff p2 p1) (distance p1 p2))
    (x : Pos d ℝ) :
    posInRef S x axis =
      (∑ i, (x i - p1.center i) * (p2.center i - p1.center i)) / distance p1 p2 - p1.r := by
  have hu := axis_unit p1 p2 hc
  rw [← hax] at hu
  rw [mkSing] at hS
  split_ifs at hS with hlt
  obtain rfl := Option.some.inj hS
  simp only [posInRef, innerProd_eq]
  have e : ∀ i, (x i - (p1.center i + p1.r * (frame p1 p2).base axis i)) * (frame p1 p2).base axis i =
      (x i - p1.center i) * (p2.center i - p1.center i) / distance p1 p2 -
        p1.r * ((frame p1 p2).base axis i * (frame p1 p2).base axis i) := by
    intro i
    have : (p2.center i - p1.center i) / distance p1 p2 = (frame p1 p2).base axis i := by
      rw [hax, axis_eq]
    rw [mul_div_assoc, this]
    ring
  rw [dot]
  simp only [e]
  rw [Finset.sum_sub_distrib, ← Finset.mul_sum, ← Finset.sum_div]
  rw [dot] at hu
  rw [hu, mul_one]

/-- A gap point is between the centres in the frame of the contact. -/
theorem gap_axis (axis : Fin d) (frame : Ball d → Ball d → Frame d) (p1 p2 : Ball d)
    (h alpha : ℝ) (S : Singularity d) (hS : mkSing axis frame p1 p2 h alpha = some S)
    (hc : p1.center ≠ p2.center)
    (hax : (frame p1 p2).base axis = vecDivScal (positionDiff p2 p1) (distance p1 p2))
    (x : Pos d ℝ) (hx : InGap p1 p2 x) :
    0 ≤ posInRef S x axis + p1.r ∧ 0 ≤ S.contact + p2.r - posInRef S x axis := by
  obtain ⟨h0, h1⟩ := distance_pos p1 p2 hc
  rw [axis_coord axis frame p1 p2 h alpha S hS hc hax]
  have hcon : S.contact = distance p1 p2 - p1.r - p2.r := by
    rw [mkSing] at hS
    split_ifs at hS with hlt
    obtain rfl := Option.some.inj hS
    rfl
  have hd : distSq p1.center p2.center = distance p1 p2 ^ 2 := by
    rw [h1, distSq]
    exact Finset.sum_congr rfl fun i _ => by ring
  obtain ⟨-, -, h2, h3⟩ := hx
  rw [hd] at h3
  constructor
  · have := div_nonneg h2 h0.le
    linarith
  · have : (∑ i, (x i - p1.center i) * (p2.center i - p1.center i)) / distance p1 p2 ≤ distance p1 p2 := by
      rw [div_le_iff₀ h0]; nlinarith
    rw [hcon]; linarith

theorem cutoff_le_radius (r1 r2 c alpha h : ℝ) (h1 : √2 * h ≤ r1) (h2 : √2 * h ≤ r2) :
    cutoffDist r1 r2 c alpha h ≤ r1 ∧ cutoffDist r1 r2 c alpha h ≤ r2 := by
  rw [C59_cutoff]
  exact ⟨max_le h1 ((min_le_right _ _).trans (min_le_left _ _)),
    max_le h2 ((min_le_right _ _).trans (min_le_right _ _))⟩

theorem sing_curv (axis : Fin d) (frame : Ball d → Ball d → Frame d) (p1 p2 : Ball d)
    (h alpha : ℝ) (S : Singularity d) (hS : mkSing axis frame p1 p2 h alpha = some S) :
    S.H1 = 1 / p1.r ∧ S.H2 = 1 / p2.r := by
  rw [mkSing] at hS
  split_ifs at hS with hlt
  obtain rfl := Option.some.inj hS
  exact ⟨rfl, rfl⟩

/-- C76 (plane): on a mesh whose step resolves the particles (`√2 h` at most both radii), every point of
the gap at which the singular velocity, its gradient or the singular pressure is not zero is covered by
the box of mesh points that the code scans for this contact. -/
theorem C76_box2D (p1 p2 : Ball 2) (hc : p1.center ≠ p2.center) (h alpha : ℝ) (hh : 0 < h)
    (h1 : √2 * h ≤ p1.r) (h2 : √2 * h ≤ p2.r) (S : Singularity 2)
    (hS : mkSing2 p1 p2 h alpha = some S) (hm : Pos 2 ℝ) (hm0 : ∀ i, 0 < hm i) (x : Pos 2 ℝ)
    (hx : InGap p1 p2 x) (hne : getU2 S x ≠ 0 ∨ getGradU2 S x ≠ 0 ∨ getP2 S x ≠ 0) :
    CoveredBy (getBox2 S hm) hm x := by
  have hs2 : 0 < √2 * h := by positivity
  have hr1 : 0 < p1.r := hs2.trans_le h1
  have hr2 : 0 < p2.r := hs2.trans_le h2
  obtain ⟨hlow, hpar, hvan⟩ := C59_support2D p1 p2 h alpha hh S hS
  have hlt : |posInRef S x 1| < S.cutoff := by
    by_contra hge
    obtain ⟨a, b, c⟩ := hvan x (not_lt.1 hge)
    rcases hne with h | h | h
    exacts [h a, h b, h c]
  obtain ⟨ho, hfr, hc1, hc2⟩ := C58_frame2D p1 p2 hc h alpha S hS
  obtain ⟨hH1, hH2⟩ := sing_curv _ _ p1 p2 h alpha S hS
  have hcut := (sing_members _ _ p1 p2 h alpha S hS).2.1
  have hcon := (sing_members _ _ p1 p2 h alpha S hS).2.2.1
  obtain ⟨hl1, hl2⟩ := cutoff_le_radius p1.r p2.r S.contact alpha h h1 h2
  rw [← hcut] at hl1 hl2
  have hc0 : 0 ≤ S.cutoff := hs2.le.trans hlow
  obtain ⟨ha1, ha2⟩ := gap_axis _ _ p1 p2 h alpha S hS hc rfl x hx
  have hsq : posInRef S x 1 ^ 2 ≤ S.cutoff ^ 2 := by
    rw [← sq_abs]; exact pow_le_pow_left₀ (abs_nonneg _) hlt.le 2
  have d1 : p1.r ^ 2 ≤ (posInRef S x 0 + p1.r) ^ 2 + posInRef S x 1 ^ 2 := by
    have := hx.1
    rw [← (hfr x p1.center).2.2, hc1, distSq, Fin.sum_univ_two] at this
    simpa using this
  have d2 : p2.r ^ 2 ≤ (S.contact + p2.r - posInRef S x 0) ^ 2 + posInRef S x 1 ^ 2 := by
    have := hx.2.1
    rw [← (hfr x p2.center).2.2, hc2, distSq, Fin.sum_univ_two] at this
    have e : S.contact + p2.r = √(distSq p1.center p2.center) - p1.r := by rw [hcon]; ring
    rw [e]
    refine this.trans (le_of_eq ?_)
    simp only [Matrix.cons_val_zero, Matrix.cons_val_one]
    ring
  obtain ⟨b1, s1⟩ := cap_bound hr1 hc0 hl1 ha1 hsq d1
  obtain ⟨b2, s2⟩ := cap_bound hr2 hc0 hl2 ha2 hsq d2
  have hxe := (hfr x x).2.1
  simp only [getBox2, hH1, hH2, one_div_one_div]
  have em : ∀ r : ℝ, -1 / (1 / r) = -r := fun r => by rw [div_div_eq_mul_div]; ring
  simp only [em, neg_mul, s1, s2]
  generalize hz1 : p1.r * (-1 + Real.cos (Real.arcsin (S.cutoff * (1 / p1.r)))) = z1
  generalize hz2 : S.contact + p2.r * (1 - Real.cos (Real.arcsin (S.cutoff * (1 / p2.r)))) = z2
  have e1 : z1 ≤ posInRef S x 0 := by rw [← hz1]; linarith
  have e2 : posInRef S x 0 ≤ z2 := by rw [← hz2]; linarith
  have f1 : -S.cutoff ≤ posInRef S x 1 := (abs_le.1 hlt.le).1
  have f2 : posInRef S x 1 ≤ S.cutoff := (abs_le.1 hlt.le).2
  refine cornerBox_covers hm _ x _ hm0 fun i => ?_
  have hxi : x i = S.base 0 i * posInRef S x 0 + S.base 1 i * posInRef S x 1 + S.origin i := by
    conv_lhs => rw [← hxe, posFromRef_eq, Fin.sum_univ_two]
    ring
  have g0 := seg_lin (S.base 0 i) _ _ _ e1 e2
  have g1 := seg_lin (S.base 1 i) _ _ _ f1 f2
  rw [hxi]
  constructor
  · rcases g0.1 with g0 | g0 <;> rcases g1.1 with g1 | g1
    · refine ⟨_, List.mem_cons_of_mem _ (List.mem_cons_self), ?_⟩
      fin_cases i <;> simp at g0 g1 ⊢ <;> linarith
    · refine ⟨_, List.mem_cons_self, ?_⟩
      fin_cases i <;> simp at g0 g1 ⊢ <;> linarith
    · refine ⟨_, List.mem_cons_of_mem _ (List.mem_cons_of_mem _ (List.mem_cons_of_mem _ List.mem_cons_self)), ?_⟩
      fin_cases i <;> simp at g0 g1 ⊢ <;> linarith
    · refine ⟨_, List.mem_cons_of_mem _ (List.mem_cons_of_mem _ List.mem_cons_self), ?_⟩
      fin_cases i <;> simp at g0 g1 ⊢ <;> linarith
  · rcases g0.2 with g0 | g0 <;> rcases g1.2 with g1 | g1
    · refine ⟨_, List.mem_cons_of_mem _ (List.mem_cons_self), ?_⟩
      fin_cases i <;> simp at g0 g1 ⊢ <;> linarith
    · refine ⟨_, List.mem_cons_self, ?_⟩
      fin_cases i <;> simp at g0 g1 ⊢ <;> linarith
    · refine ⟨_, List.mem_cons_of_mem _ (List.mem_cons_of_mem _ (List.mem_cons_of_mem _ List.mem_cons_self)), ?_⟩
      fin_cases i <;> simp at g0 g1 ⊢ <;> linarith
    · refine ⟨_, List.mem_cons_of_mem _ (List.mem_cons_of_mem _ List.mem_cons_self), ?_⟩
      fin_cases i <;> simp at g0 g1 ⊢ <;> linarith

/-- C76 (space): same statement for the contacts whose frame is orthonormal (see `C58_frame3D_exact`). -/
theorem C76_box3D (p1 p2 : Ball 3) (hc : p1.center ≠ p2.center) (h alpha : ℝ) (hh : 0 < h)
    (h1 : √2 * h ≤ p1.r) (h2 : √2 * h ≤ p2.r) (S : Singularity 3)
    (hS : mkSing3 p1 p2 h alpha = some S)
    (hgood : GoodContact (fun i => (p2.center i - p1.center i) / √(distSq p1.center p2.center))
      (fun i => p1.velocity i - p2.velocity i))
    (hm : Pos 3 ℝ) (hm0 : ∀ i, 0 < hm i) (x : Pos 3 ℝ)
    (hx : InGap p1 p2 x) (hne : getU3 S x ≠ 0 ∨ getGradU3 S x ≠ 0 ∨ getP3 S x ≠ 0) :
    CoveredBy (getBox3 S hm) hm x := by
  have hs2 : 0 < √2 * h := by positivity
  have hr1 : 0 < p1.r := hs2.trans_le h1
  have hr2 : 0 < p2.r := hs2.trans_le h2
  obtain ⟨hlow, hpar, hvan⟩ := C59_support3D p1 p2 h alpha hh S hS
  have hlt : √(posInRef S x 0 ^ 2 + posInRef S x 1 ^ 2) < S.cutoff := by
    by_contra hge
    obtain ⟨a, b, c⟩ := hvan x (not_lt.1 hge)
    rcases hne with h | h | h
    exacts [h a, h b, h c]
  obtain ⟨ho, hfr, hc1, hc2⟩ := C58_frame3D_good p1 p2 hc h alpha S hS hgood
  obtain ⟨hH1, hH2⟩ := sing_curv _ _ p1 p2 h alpha S hS
  have hcut := (sing_members _ _ p1 p2 h alpha S hS).2.1
  have hcon := (sing_members _ _ p1 p2 h alpha S hS).2.2.1
  obtain ⟨hl1, hl2⟩ := cutoff_le_radius p1.r p2.r S.contact alpha h h1 h2
  rw [← hcut] at hl1 hl2
  have hc0 : 0 ≤ S.cutoff := hs2.le.trans hlow
  obtain ⟨ha1, ha2⟩ := gap_axis _ _ p1 p2 h alpha S hS hc rfl x hx
  have hsq' : posInRef S x 0 ^ 2 + posInRef S x 1 ^ 2 ≤ S.cutoff ^ 2 := by
    rw [← Real.sqrt_le_left hc0]; exact hlt.le
  have hsq : √(posInRef S x 0 ^ 2 + posInRef S x 1 ^ 2) ^ 2 ≤ S.cutoff ^ 2 := by
    rw [Real.sq_sqrt (by positivity)]; exact hsq'
  have d1 : p1.r ^ 2 ≤ (posInRef S x 2 + p1.r) ^ 2 + √(posInRef S x 0 ^ 2 + posInRef S x 1 ^ 2) ^ 2 := by
    have := hx.1
    rw [← (hfr x p1.center).2.2, hc1, distSq, Fin.sum_univ_three] at this
    rw [Real.sq_sqrt (by positivity)]
    refine this.trans (le_of_eq ?_)
    simp only [Matrix.cons_val]
    ring
  have d2 : p2.r ^ 2 ≤ (S.contact + p2.r - posInRef S x 2) ^ 2 +
      √(posInRef S x 0 ^ 2 + posInRef S x 1 ^ 2) ^ 2 := by
    have := hx.2.1
    rw [← (hfr x p2.center).2.2, hc2, distSq, Fin.sum_univ_three] at this
    have e : S.contact + p2.r = √(distSq p1.center p2.center) - p1.r := by rw [hcon]; ring
    rw [Real.sq_sqrt (by positivity), e]
    refine this.trans (le_of_eq ?_)
    simp only [Matrix.cons_val]
    ring
  obtain ⟨b1, s1⟩ := cap_bound hr1 hc0 hl1 ha1 hsq d1
  obtain ⟨b2, s2⟩ := cap_bound hr2 hc0 hl2 ha2 hsq d2
  have hxe := (hfr x x).2.1
  simp only [getBox3, hH1, hH2, one_div_one_div]
  have em : ∀ r : ℝ, -1 / (1 / r) = -r := fun r => by rw [div_div_eq_mul_div]; ring
  simp only [em, neg_mul, s1, s2]
  generalize hz1 : p1.r * (-1 + Real.cos (Real.arcsin (S.cutoff * (1 / p1.r)))) = z1
  generalize hz2 : S.contact + p2.r * (1 - Real.cos (Real.arcsin (S.cutoff * (1 / p2.r)))) = z2
  have e1 : z1 ≤ posInRef S x 2 := by rw [← hz1]; linarith
  have e2 : posInRef S x 2 ≤ z2 := by rw [← hz2]; linarith
  have f0 : |posInRef S x 0| ≤ S.cutoff := abs_le_of_sq_le_sq (by nlinarith [sq_nonneg (posInRef S x 1)]) hc0
  have f1 : |posInRef S x 1| ≤ S.cutoff := abs_le_of_sq_le_sq (by nlinarith [sq_nonneg (posInRef S x 0)]) hc0
  rw [abs_le] at f0 f1
  refine cornerBox_covers hm _ x _ hm0 fun i => ?_
  have hxi : x i = S.base 0 i * posInRef S x 0 + S.base 1 i * posInRef S x 1 +
      S.base 2 i * posInRef S x 2 + S.origin i := by
    conv_lhs => rw [← hxe, posFromRef_eq, Fin.sum_univ_three]
    ring
  have g0 := seg_lin (S.base 0 i) _ _ _ f0.1 f0.2
  have g1 := seg_lin (S.base 1 i) _ _ _ f1.1 f1.2
  have g2 := seg_lin (S.base 2 i) _ _ _ e1 e2
  rw [hxi]
  -- the corner with the given reference coordinates
  have key : ∀ a b c : ℝ,
      (![S.base 0 0 * a + S.base 1 0 * b + S.base 2 0 * c + S.origin 0,
        S.base 0 1 * a + S.base 1 1 * b + S.base 2 1 * c + S.origin 1,
        S.base 0 2 * a + S.base 1 2 * b + S.base 2 2 * c + S.origin 2] : Pos 3 ℝ) i =
      S.base 0 i * a + S.base 1 i * b + S.base 2 i * c + S.origin i := by
    intro a b c
    fin_cases i <;> rfl
  have ca : ∀ a b c : ℝ, (![a, b, c] : Pos 3 ℝ) 0 = a := fun _ _ _ => rfl
  have cb : ∀ a b c : ℝ, (![a, b, c] : Pos 3 ℝ) 1 = b := fun _ _ _ => rfl
  have cc : ∀ a b c : ℝ, (![a, b, c] : Pos 3 ℝ) 2 = c := fun _ _ _ => rfl
  simp only [List.mem_cons, List.not_mem_nil, or_false, exists_eq_or_imp, exists_eq_left, key, ca, cb, cc]
  constructor
  · rcases g0.1 with g0 | g0 <;> rcases g1.1 with g1 | g1 <;> rcases g2.1 with g2 | g2
    · exact Or.inr (Or.inr (Or.inr (Or.inl (by linarith))))
    · exact Or.inr (Or.inr (Or.inr (Or.inr (Or.inr (Or.inr (Or.inr (by linarith)))))))
    · exact Or.inr (Or.inr (Or.inl (by linarith)))
    · exact Or.inr (Or.inr (Or.inr (Or.inr (Or.inr (Or.inr (Or.inl (by linarith)))))))
    · exact Or.inr (Or.inl (by linarith))
    · exact Or.inr (Or.inr (Or.inr (Or.inr (Or.inr (Or.inl (by linarith))))))
    · exact Or.inl (by linarith)
    · exact Or.inr (Or.inr (Or.inr (Or.inr (Or.inl (by linarith)))))
  · rcases g0.2 with g0 | g0 <;> rcases g1.2 with g1 | g1 <;> rcases g2.2 with g2 | g2
    · exact Or.inr (Or.inr (Or.inr (Or.inl (by linarith))))
    · exact Or.inr (Or.inr (Or.inr (Or.inr (Or.inr (Or.inr (Or.inr (by linarith)))))))
    · exact Or.inr (Or.inr (Or.inl (by linarith)))
    · exact Or.inr (Or.inr (Or.inr (Or.inr (Or.inr (Or.inr (Or.inl (by linarith)))))))
    · exact Or.inr (Or.inl (by linarith))
    · exact Or.inr (Or.inr (Or.inr (Or.inr (Or.inr (Or.inl (by linarith))))))
    · exact Or.inl (by linarith)
    · exact Or.inr (Or.inr (Or.inr (Or.inr (Or.inl (by linarith)))))

/-- The geometric hypotheses of `C76_box2D` are met by the midpoint of the gap of two unit discs. -/
example : exBall1.center ≠ exBall2.center ∧ √2 * (1 / 100) ≤ exBall1.r ∧ √2 * (1 / 100) ≤ exBall2.r ∧
    InGap exBall1 exBall2 ![23 / 20, 0] := by
  have hs : √2 ≤ 2 := by
    rw [Real.sqrt_le_left (by norm_num)]; norm_num
  refine ⟨?_, ?_, ?_, ?_, ?_, ?_, ?_⟩
  · intro h
    have := congrFun h 0
    norm_num [exBall1, exBall2] at this
  all_goals norm_num [exBall1, exBall2, distSq, Fin.sum_univ_two]
  all_goals linarith

end Cafes.Props
