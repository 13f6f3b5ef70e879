import Verif.Spec.FE
import Verif.Lemmas.Prelude
import Mathlib.Analysis.SpecialFunctions.Integrals.Basic
import Mathlib.Analysis.Calculus.Deriv.Mul
import Mathlib.Analysis.Calculus.Deriv.Add

namespace Cafes.Spec
open intervalIntegral

/-- Slope of `hat`. -/
noncomputable def dhat (b : Fin 2) (h : ℝ) : ℝ := if b = 0 then -(1 / h) else 1 / h

theorem hasDerivAt_hat (b : Fin 2) (h t : ℝ) : HasDerivAt (hat b h) (dhat b h) t := by
  have hid : HasDerivAt (fun t : ℝ => t / h) (1 / h) t := (hasDerivAt_id t).div_const h
  unfold dhat
  fin_cases b
  · have : hat 0 h = fun t => 1 - t / h := by funext t; simp [hat]
    simp only [Fin.zero_eta, this, if_true]
    exact hid.const_sub 1
  · have : hat 1 h = fun t => t / h := by funext t; simp [hat]
    simpa [this] using hid

theorem continuous_hat (b : Fin 2) (h : ℝ) : Continuous (hat b h) :=
  continuous_iff_continuousAt.2 fun t => (hasDerivAt_hat b h t).continuousAt

theorem deriv_hat_mul (b : Fin 2) (h t c : ℝ) : deriv (fun s => hat b h s * c) t = dhat b h * c :=
  ((hasDerivAt_hat b h t).mul_const c).deriv

theorem deriv_mul_hat (b : Fin 2) (h t c : ℝ) : deriv (fun s => c * hat b h s) t = c * dhat b h :=
  ((hasDerivAt_hat b h t).const_mul c).deriv

/-! One-dimensional integrals. -/

/-- Mass table on `[0,1]`. -/
def m1 : Fin 2 → Fin 2 → ℚ := ![![1/3, 1/6], ![1/6, 1/3]]
/-- Stiffness table on `[0,1]`. -/
def k1 : Fin 2 → Fin 2 → ℚ := ![![1, -1], ![-1, 1]]
/-- Mixed table `∫ hat' hat` on `[0,1]`. -/
def s1 : Fin 2 → ℚ := ![-1/2, 1/2]

theorem hat0 (h t : ℝ) : hat 0 h t = 1 - t / h := by simp [hat]
theorem hat1 (h t : ℝ) : hat 1 h t = t / h := by simp [hat]

/-- Quadratic polynomial integral. -/
theorem int_quad (a b c u v : ℝ) :
    ∫ t in u..v, (a + b * t + c * t ^ 2) =
      a * (v - u) + b * (v ^ 2 - u ^ 2) / 2 + c * (v ^ 3 - u ^ 3) / 3 := by
  rw [integral_add, integral_add, integral_const, integral_const_mul, integral_const_mul,
    integral_id, integral_pow]
  · simp; ring
  all_goals exact Continuous.intervalIntegrable (by fun_prop) _ _

theorem int_hat_hat (a b : Fin 2) (h : ℝ) (hh : h ≠ 0) :
    ∫ t in (0:ℝ)..h, hat a h t * hat b h t = h * (m1 a b : ℝ) := by
  fin_cases a <;> fin_cases b
  · have : ∀ t, hat 0 h t * hat 0 h t = 1 + (-(2 / h)) * t + (1 / h ^ 2) * t ^ 2 := by
      intro t; rw [hat0]; field_simp; ring
    simp only [Fin.zero_eta, this, int_quad, m1]
    norm_num; field_simp; ring
  · have : ∀ t, hat 0 h t * hat 1 h t = 0 + (1 / h) * t + (-(1 / h ^ 2)) * t ^ 2 := by
      intro t; rw [hat0, hat1]; field_simp; ring
    simp only [Fin.zero_eta, Fin.mk_one, this, int_quad, m1]
    norm_num; field_simp; ring
  · have : ∀ t, hat 1 h t * hat 0 h t = 0 + (1 / h) * t + (-(1 / h ^ 2)) * t ^ 2 := by
      intro t; rw [hat0, hat1]; field_simp; ring
    simp only [Fin.zero_eta, Fin.mk_one, this, int_quad, m1]
    norm_num; field_simp; ring
  · have : ∀ t, hat 1 h t * hat 1 h t = 0 + 0 * t + (1 / h ^ 2) * t ^ 2 := by
      intro t; rw [hat1]; field_simp; ring
    simp only [Fin.mk_one, this, int_quad, m1]
    norm_num; field_simp

theorem int_hat (b : Fin 2) (h : ℝ) (hh : h ≠ 0) : ∫ t in (0:ℝ)..h, hat b h t = h / 2 := by
  fin_cases b
  · have : ∀ t, hat 0 h t = 1 + (-(1 / h)) * t + 0 * t ^ 2 := by
      intro t; rw [hat0]; ring
    simp only [Fin.zero_eta, this, int_quad]
    field_simp; ring
  · have : ∀ t, hat 1 h t = 0 + (1 / h) * t + 0 * t ^ 2 := by
      intro t; rw [hat1]; ring
    simp only [Fin.mk_one, this, int_quad]
    field_simp; ring

theorem dhat_eq (a : Fin 2) (h : ℝ) : dhat a h = 2 * (s1 a : ℝ) / h := by
  fin_cases a <;> (simp [dhat, s1]; try ring)

theorem int_dhat_hat (a b : Fin 2) (h : ℝ) (hh : h ≠ 0) :
    ∫ t in (0:ℝ)..h, dhat a h * hat b h t = (s1 a : ℝ) := by
  rw [integral_const_mul, int_hat b h hh, dhat_eq]; field_simp

theorem int_hat_dhat (a b : Fin 2) (h : ℝ) (hh : h ≠ 0) :
    ∫ t in (0:ℝ)..h, hat a h t * dhat b h = (s1 b : ℝ) := by
  rw [integral_mul_const, int_hat a h hh, dhat_eq]; field_simp

theorem int_dhat_dhat (a b : Fin 2) (h : ℝ) (hh : h ≠ 0) :
    ∫ _ in (0:ℝ)..h, dhat a h * dhat b h = (k1 a b : ℝ) / h := by
  rw [integral_const]
  fin_cases a <;> fin_cases b <;> (simp [dhat, k1]; try field_simp)

/-! Products. -/

theorem int2_mul (h : Fin 2 → ℝ) (f g : ℝ → ℝ) :
    int2 h (fun x y => f x * g y) = (∫ x in (0:ℝ)..h 0, f x) * ∫ y in (0:ℝ)..h 1, g y := by
  unfold int2
  simp only [integral_const_mul, integral_mul_const]

theorem int3_mul (h : Fin 3 → ℝ) (f g k : ℝ → ℝ) :
    int3 h (fun x y z => f x * g y * k z) =
      (∫ x in (0:ℝ)..h 0, f x) * (∫ y in (0:ℝ)..h 1, g y) * ∫ z in (0:ℝ)..h 2, k z := by
  unfold int3
  simp only [integral_const_mul, integral_mul_const]

theorem int2_add (h : Fin 2 → ℝ) (F G : ℝ → ℝ → ℝ)
    (hF : Continuous fun p : ℝ × ℝ => F p.1 p.2) (hG : Continuous fun p : ℝ × ℝ => G p.1 p.2) :
    int2 h (fun x y => F x y + G x y) = int2 h F + int2 h G := by
  unfold int2
  have h1 : ∀ x, ∫ y in (0:ℝ)..h 1, (F x y + G x y)
      = (∫ y in (0:ℝ)..h 1, F x y) + ∫ y in (0:ℝ)..h 1, G x y := by
    intro x
    apply integral_add
    · exact (hF.comp (by fun_prop : Continuous fun y => (x, y))).intervalIntegrable _ _
    · exact (hG.comp (by fun_prop : Continuous fun y => (x, y))).intervalIntegrable _ _
  simp only [h1]
  apply integral_add
  · exact (continuous_parametric_intervalIntegral_of_continuous' hF _ _).intervalIntegrable _ _
  · exact (continuous_parametric_intervalIntegral_of_continuous' hG _ _).intervalIntegrable _ _

end Cafes.Spec
