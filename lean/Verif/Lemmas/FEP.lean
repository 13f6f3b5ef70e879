import Verif.Lemmas.FEInt

namespace Cafes.Spec
open intervalIntegral

/-- Integral of a function equal to one quadratic polynomial on `(0,h)`, another on `(h,2h)`. -/
theorem int_two_pieces (f : ℝ → ℝ) (h : ℝ) (hh : 0 < h) (a b c a' b' c' : ℝ)
    (h1 : ∀ t ∈ Set.Ioo 0 h, f t = a + b * t + c * t ^ 2)
    (h2 : ∀ t ∈ Set.Ioo h (2 * h), f t = a' + b' * t + c' * t ^ 2) :
    ∫ t in (0:ℝ)..2 * h, f t =
      (a * h + b * h ^ 2 / 2 + c * h ^ 3 / 3) +
      (a' * h + b' * (3 * h ^ 2) / 2 + c' * (7 * h ^ 3) / 3) := by
  have hi : ∀ u v a b c : ℝ, IntervalIntegrable (fun t : ℝ => a + b * t + c * t ^ 2)
      MeasureTheory.volume u v := fun u v a b c =>
    Continuous.intervalIntegrable (by fun_prop) _ _
  have i1 : IntervalIntegrable f MeasureTheory.volume 0 h :=
    (hi 0 h a b c).congr_uIoo (by
      rw [Set.uIoo_of_le hh.le]; exact fun t ht => (h1 t ht).symm)
  have i2 : IntervalIntegrable f MeasureTheory.volume h (2 * h) :=
    (hi h (2*h) a' b' c').congr_uIoo (by
      rw [Set.uIoo_of_le (by linarith)]; exact fun t ht => (h2 t ht).symm)
  rw [← integral_add_adjacent_intervals i1 i2,
    integral_congr_Ioo_of_le hh.le (g := fun t => a + b * t + c * t ^ 2) h1,
    integral_congr_Ioo_of_le (by linarith) (g := fun t => a' + b' * t + c' * t ^ 2) h2,
    int_quad, int_quad]
  ring

/-- `∫ psi phi / h` on `[0,2h]`. -/
def pT : Fin 2 → Fin 3 → ℚ := ![![5/12, 1/2, 1/12], ![1/12, 1/2, 5/12]]
/-- `∫ psi phi'` on `[0,2h]`. -/
def qT : Fin 2 → Fin 3 → ℚ := ![![-3/4, 1/2, 1/4], ![-1/4, -1/2, 3/4]]

/-- Left and right affine pieces of `hatV j`: value `c + s * (t / h)`. -/
def hvL : Fin 3 → ℚ × ℚ := ![(1, -1), (0, 1), (0, 0)]
/-- Right piece. -/
def hvR : Fin 3 → ℚ × ℚ := ![(0, 0), (2, -1), (-1, 1)]

theorem hatV_left (j : Fin 3) (h t : ℝ) (hh : 0 < h) (ht : t ∈ Set.Ioo 0 h) :
    hatV j h t = (hvL j).1 + (hvL j).2 * (t / h) := by
  have a : 0 < t / h := div_pos ht.1 hh
  have b : t / h < 1 := (div_lt_one hh).2 ht.2
  unfold hatV
  generalize t / h = s at a b ⊢
  fin_cases j
  · simp only [Fin.zero_eta, Nat.cast_zero, sub_zero, hvL]
    rw [abs_of_pos a, max_eq_right (by linarith)]; simp; ring
  · simp only [Fin.mk_one, Nat.cast_one, hvL]
    rw [abs_of_neg (by linarith), max_eq_right (by linarith)]; simp
  · simp only [Fin.reduceFinMk, Nat.cast_ofNat, hvL]
    rw [abs_of_neg (by linarith), max_eq_left (by linarith)]; simp

theorem hatV_right (j : Fin 3) (h t : ℝ) (hh : 0 < h) (ht : t ∈ Set.Ioo h (2 * h)) :
    hatV j h t = (hvR j).1 + (hvR j).2 * (t / h) := by
  have a : 1 < t / h := (one_lt_div hh).2 ht.1
  have b : t / h < 2 := (div_lt_iff₀ hh).2 ht.2
  unfold hatV
  generalize t / h = s at a b ⊢
  fin_cases j
  · simp only [Fin.zero_eta, Nat.cast_zero, sub_zero, hvR]
    rw [abs_of_pos (by linarith), max_eq_left (by linarith)]; simp
  · simp only [Fin.mk_one, Nat.cast_one, hvR]
    rw [abs_of_pos (by linarith), max_eq_right (by linarith)]; simp; ring
  · simp only [Fin.reduceFinMk, Nat.cast_ofNat, hvR]
    rw [abs_of_neg (by linarith), max_eq_right (by linarith)]; simp; ring

theorem deriv_affine (c s h t : ℝ) : deriv (fun t => c + s * (t / h)) t = s / h := by
  have : HasDerivAt (fun t => c + s * (t / h)) (s * (1 / h)) t :=
    (((hasDerivAt_id t).div_const h).const_mul s).const_add c
  rw [this.deriv]; ring

theorem deriv_hatV_left (j : Fin 3) (h t : ℝ) (hh : 0 < h) (ht : t ∈ Set.Ioo 0 h) :
    deriv (hatV j h) t = (hvL j).2 / h := by
  have : hatV j h =ᶠ[nhds t] fun t => ((hvL j).1 : ℝ) + (hvL j).2 * (t / h) :=
    Filter.eventuallyEq_of_mem (isOpen_Ioo.mem_nhds ht) fun s hs => hatV_left j h s hh hs
  rw [this.deriv_eq, deriv_affine]

theorem deriv_hatV_right (j : Fin 3) (h t : ℝ) (hh : 0 < h) (ht : t ∈ Set.Ioo h (2 * h)) :
    deriv (hatV j h) t = (hvR j).2 / h := by
  have : hatV j h =ᶠ[nhds t] fun t => ((hvR j).1 : ℝ) + (hvR j).2 * (t / h) :=
    Filter.eventuallyEq_of_mem (isOpen_Ioo.mem_nhds ht) fun s hs => hatV_right j h s hh hs
  rw [this.deriv_eq, deriv_affine]

/-- Coefficients of `hat a (2h)`: value `c + s * (t / h)`. -/
def hatC : Fin 2 → ℚ × ℚ := ![(1, -1/2), (0, 1/2)]

theorem hat_two (a : Fin 2) (h t : ℝ) (hh : 0 < h) :
    hat a (2 * h) t = (hatC a).1 + (hatC a).2 * (t / h) := by
  fin_cases a
  · simp [hat, hatC]; field_simp; ring
  · simp [hat, hatC]; field_simp

theorem tabP : ∀ a j, pT a j =
    ((hatC a).1 * (hvL j).1 + ((hatC a).1 * (hvL j).2 + (hatC a).2 * (hvL j).1) / 2
      + (hatC a).2 * (hvL j).2 / 3) +
    ((hatC a).1 * (hvR j).1 + ((hatC a).1 * (hvR j).2 + (hatC a).2 * (hvR j).1) * 3 / 2
      + (hatC a).2 * (hvR j).2 * 7 / 3) := by decide +kernel

theorem tabQ : ∀ a j, qT a j =
    ((hatC a).1 * (hvL j).2 + (hatC a).2 * (hvL j).2 / 2) +
    ((hatC a).1 * (hvR j).2 + (hatC a).2 * (hvR j).2 * 3 / 2) := by decide +kernel

theorem int_hat_hatV (a : Fin 2) (j : Fin 3) (h : ℝ) (hh : 0 < h) :
    ∫ t in (0:ℝ)..2 * h, hat a (2 * h) t * hatV j h t = h * (pT a j : ℝ) := by
  rw [int_two_pieces _ h hh
    ((hatC a).1 * (hvL j).1) (((hatC a).1 * (hvL j).2 + (hatC a).2 * (hvL j).1) / h)
      ((hatC a).2 * (hvL j).2 / h ^ 2)
    ((hatC a).1 * (hvR j).1) (((hatC a).1 * (hvR j).2 + (hatC a).2 * (hvR j).1) / h)
      ((hatC a).2 * (hvR j).2 / h ^ 2)]
  · rw [tabP]; push_cast; field_simp; try ring
  · intro t ht; rw [hat_two a h t hh, hatV_left j h t hh ht]; field_simp; ring
  · intro t ht; rw [hat_two a h t hh, hatV_right j h t hh ht]; field_simp; ring

theorem int_hat_dhatV (a : Fin 2) (j : Fin 3) (h : ℝ) (hh : 0 < h) :
    ∫ t in (0:ℝ)..2 * h, hat a (2 * h) t * deriv (hatV j h) t = (qT a j : ℝ) := by
  rw [int_two_pieces _ h hh
    ((hatC a).1 * (hvL j).2 / h) ((hatC a).2 * (hvL j).2 / h ^ 2) 0
    ((hatC a).1 * (hvR j).2 / h) ((hatC a).2 * (hvR j).2 / h ^ 2) 0]
  · rw [tabQ]; push_cast; field_simp; try ring
  · intro t ht; rw [hat_two a h t hh, deriv_hatV_left j h t hh ht]; field_simp; ring
  · intro t ht; rw [hat_two a h t hh, deriv_hatV_right j h t hh ht]; field_simp; ring

/-- Factor of the velocity derivative. -/
noncomputable def facV (d : Bool) (j : Fin 3) (h t : ℝ) : ℝ :=
  if d then deriv (hatV j h) t else hatV j h t

/-- Integral of `hat * facV`. -/
noncomputable def JP (d : Bool) (a : Fin 2) (j : Fin 3) (h : ℝ) : ℝ :=
  if d then (qT a j : ℝ) else h * (pT a j : ℝ)

theorem int_facV (d : Bool) (a : Fin 2) (j : Fin 3) (h : ℝ) (hh : 0 < h) :
    ∫ t in (0:ℝ)..2 * h, hat a (2 * h) t * facV d j h t = JP d a j h := by
  cases d <;> simp only [facV, JP, if_true, if_false, Bool.false_eq_true]
  · exact int_hat_hatV a j h hh
  · exact int_hat_dhatV a j h hh

theorem grad2_vel2 (h : Fin 2 → ℝ) (k : Fin 9) (x y : ℝ) (p : Fin 2) :
    grad2 (vel2 h k) x y p =
      facV (decide (p = 0)) (trit2 k 0) (h 0) x * facV (decide (p = 1)) (trit2 k 1) (h 1) y := by
  fin_cases p
  · exact deriv_mul_const_field _
  · exact deriv_const_mul_field _

theorem grad3_vel3 (h : Fin 3 → ℝ) (k : Fin 27) (x y z : ℝ) (p : Fin 3) :
    grad3 (vel3 h k) x y z p =
      facV (decide (p = 0)) (trit3 k 0) (h 0) x * facV (decide (p = 1)) (trit3 k 1) (h 1) y *
        facV (decide (p = 2)) (trit3 k 2) (h 2) z := by
  fin_cases p
  · have : (fun s => vel3 h k s y z) = fun s => hatV (trit3 k 0) (h 0) s *
        (hatV (trit3 k 1) (h 1) y * hatV (trit3 k 2) (h 2) z) := by
      funext s; simp only [vel3]; ring
    show deriv (fun s => vel3 h k s y z) x = _
    rw [this, deriv_mul_const_field]; simp [facV]; ring
  · have : (fun s => vel3 h k x s z) = fun s => hatV (trit3 k 1) (h 1) s *
        (hatV (trit3 k 0) (h 0) x * hatV (trit3 k 2) (h 2) z) := by
      funext s; simp only [vel3]; ring
    show deriv (fun s => vel3 h k x s z) y = _
    rw [this, deriv_mul_const_field]; simp [facV]; ring
  · exact deriv_const_mul_field _

theorem int2_pg (h : Fin 2 → ℝ) (h0 : ∀ c, 0 < h c) (i : Fin 4) (j : Fin 9) (p : Fin 2) :
    int2 (fun c => 2 * h c) (fun x y => phi2 (fun c => 2 * h c) i x y * grad2 (vel2 h j) x y p) =
      JP (decide (p = 0)) (bit2 i 0) (trit2 j 0) (h 0) *
      JP (decide (p = 1)) (bit2 i 1) (trit2 j 1) (h 1) := by
  rw [← int_facV _ _ _ _ (h0 0), ← int_facV _ _ _ _ (h0 1), ← int2_mul (fun c => 2 * h c)]
  congr 1; funext x y
  rw [grad2_vel2]; simp only [phi2]; ring

theorem int3_pg (h : Fin 3 → ℝ) (h0 : ∀ c, 0 < h c) (i : Fin 8) (j : Fin 27) (p : Fin 3) :
    int3 (fun c => 2 * h c)
      (fun x y z => phi3 (fun c => 2 * h c) i x y z * grad3 (vel3 h j) x y z p) =
      JP (decide (p = 0)) (bit3 i 0) (trit3 j 0) (h 0) *
      JP (decide (p = 1)) (bit3 i 1) (trit3 j 1) (h 1) *
      JP (decide (p = 2)) (bit3 i 2) (trit3 j 2) (h 2) := by
  rw [← int_facV _ _ _ _ (h0 0), ← int_facV _ _ _ _ (h0 1), ← int_facV _ _ _ _ (h0 2),
    ← int3_mul (fun c => 2 * h c)]
  congr 1; funext x y z
  rw [grad3_vel3]; simp only [phi3]; ring

end Cafes.Spec
