import Verif.Lemmas.FE
import Verif.Lemmas.MeshSum
import Verif.Model.Quadrature
import Mathlib.Algebra.BigOperators.Fin

namespace Cafes
open Cafes.Spec

theorem p1_2_eq_phi (x h : Pos 2 ℝ) (h0 : ∀ c, h c ≠ 0) (k : Fin 4) :
    p1Integration2 x h k = phi2 h k (x 0) (x 1) := by
  have a := h0 0
  have b := h0 1
  fin_cases k
  · show 1 / (h 0 * h 1) * (x 0 - h 0) * (x 1 - h 1) = hat 0 (h 0) (x 0) * hat 0 (h 1) (x 1)
    rw [hat0, hat0]; field_simp; ring
  · show 1 / (h 0 * h 1) * x 0 * (h 1 - x 1) = hat 1 (h 0) (x 0) * hat 0 (h 1) (x 1)
    rw [hat0, hat1]; field_simp
  · show 1 / (h 0 * h 1) * (h 0 - x 0) * x 1 = hat 0 (h 0) (x 0) * hat 1 (h 1) (x 1)
    rw [hat0, hat1]; field_simp
  · show 1 / (h 0 * h 1) * x 0 * x 1 = hat 1 (h 0) (x 0) * hat 1 (h 1) (x 1)
    rw [hat1, hat1]; field_simp

theorem p1_3_eq_phi (x h : Pos 3 ℝ) (h0 : ∀ c, h c ≠ 0) (k : Fin 8) :
    p1Integration3 x h k = phi3 h k (x 0) (x 1) (x 2) := by
  have a := h0 0
  have b := h0 1
  have c := h0 2
  fin_cases k
  · show 1 / (h 0 * h 1 * h 2) * (h 0 - x 0) * (h 1 - x 1) * (h 2 - x 2) =
      hat 0 (h 0) (x 0) * hat 0 (h 1) (x 1) * hat 0 (h 2) (x 2)
    simp only [hat0, hat1]; field_simp
  · show 1 / (h 0 * h 1 * h 2) * x 0 * (h 1 - x 1) * (h 2 - x 2) =
      hat 1 (h 0) (x 0) * hat 0 (h 1) (x 1) * hat 0 (h 2) (x 2)
    simp only [hat0, hat1]; field_simp
  · show 1 / (h 0 * h 1 * h 2) * (h 0 - x 0) * x 1 * (h 2 - x 2) =
      hat 0 (h 0) (x 0) * hat 1 (h 1) (x 1) * hat 0 (h 2) (x 2)
    simp only [hat0, hat1]; field_simp
  · show 1 / (h 0 * h 1 * h 2) * x 0 * x 1 * (h 2 - x 2) =
      hat 1 (h 0) (x 0) * hat 1 (h 1) (x 1) * hat 0 (h 2) (x 2)
    simp only [hat0, hat1]; field_simp
  · show 1 / (h 0 * h 1 * h 2) * (h 0 - x 0) * (h 1 - x 1) * x 2 =
      hat 0 (h 0) (x 0) * hat 0 (h 1) (x 1) * hat 1 (h 2) (x 2)
    simp only [hat0, hat1]; field_simp
  · show 1 / (h 0 * h 1 * h 2) * x 0 * (h 1 - x 1) * x 2 =
      hat 1 (h 0) (x 0) * hat 0 (h 1) (x 1) * hat 1 (h 2) (x 2)
    simp only [hat0, hat1]; field_simp
  · show 1 / (h 0 * h 1 * h 2) * (h 0 - x 0) * x 1 * x 2 =
      hat 0 (h 0) (x 0) * hat 1 (h 1) (x 1) * hat 1 (h 2) (x 2)
    simp only [hat0, hat1]; field_simp
  · show 1 / (h 0 * h 1 * h 2) * x 0 * x 1 * x 2 =
      hat 1 (h 0) (x 0) * hat 1 (h 1) (x 1) * hat 1 (h 2) (x 2)
    simp only [hat1]; field_simp

theorem hat_nonneg (b : Fin 2) (h t : ℝ) (hh : 0 < h) (ht : 0 ≤ t ∧ t ≤ h) : 0 ≤ hat b h t := by
  have h1 : t / h ≤ 1 := (div_le_one hh).2 ht.2
  have h2 : 0 ≤ t / h := div_nonneg ht.1 hh.le
  unfold hat; split_ifs <;> linarith

theorem hat_corner (b c : Fin 2) (h : ℝ) (hh : h ≠ 0) :
    hat b h ((c.1 : ℝ) * h) = if b = c then 1 else 0 := by
  fin_cases b <;> fin_cases c <;> simp [hat, hh]

/-- The local corner as offsets. -/
theorem getElement2_bit (m : Fin 4) (c : Fin 2) :
    (getElement2 0 m c : ℝ) = ((bit2 m c).1 : ℝ) := by
  rw [getElement2_eq]; fin_cases c <;> (simp [bit2]; norm_cast)

theorem getElement3_bit (m : Fin 8) (c : Fin 3) :
    (getElement3 0 m c : ℝ) = ((bit3 m c).1 : ℝ) := by
  rw [getElement3_eq]; fin_cases c <;> (simp [bit3]; norm_cast)

theorem getElement2_off (e : Pos 2 ℤ) (m : Fin 4) (c : Fin 2) :
    (getElement2 e m c : ℝ) = e c + ((bit2 m c).1 : ℝ) := by
  rw [getElement2_eq]; fin_cases c <;> (simp [bit2]; norm_cast)

theorem getElement3_off (e : Pos 3 ℤ) (m : Fin 8) (c : Fin 3) :
    (getElement3 e m c : ℝ) = e c + ((bit3 m c).1 : ℝ) := by
  rw [getElement3_eq]; fin_cases c <;> (simp [bit3]; norm_cast)

theorem bit2_inj : ∀ k m : Fin 4, (bit2 k 0 = bit2 m 0 ∧ bit2 k 1 = bit2 m 1) ↔ k = m := by decide

theorem bit3_inj : ∀ k m : Fin 8,
    (bit3 k 0 = bit3 m 0 ∧ bit3 k 1 = bit3 m 1 ∧ bit3 k 2 = bit3 m 2) ↔ k = m := by decide

theorem p1Grad2_eq (x h : Pos 2 ℝ) (h0 : ∀ c, h c ≠ 0) (k : Fin 4) (c : Fin 2) :
    p1IntegrationGrad2 x h k c = h 0 * h 1 * grad2 (phi2 h k) (x 0) (x 1) c := by
  have a := h0 0
  have b := h0 1
  have e0 : grad2 (phi2 h k) (x 0) (x 1) 0 = dhat (bit2 k 0) (h 0) * hat (bit2 k 1) (h 1) (x 1) :=
    deriv_hat_mul _ _ _ _
  have e1 : grad2 (phi2 h k) (x 0) (x 1) 1 = hat (bit2 k 0) (h 0) (x 0) * dhat (bit2 k 1) (h 1) :=
    deriv_mul_hat _ _ _ _
  fin_cases c
  · simp only [Fin.zero_eta, e0]
    fin_cases k
    · show x 1 - h 1 = h 0 * h 1 * (dhat 0 (h 0) * hat 0 (h 1) (x 1))
      rw [hat0]; simp [dhat]; field_simp; ring
    · show h 1 - x 1 = h 0 * h 1 * (dhat 1 (h 0) * hat 0 (h 1) (x 1))
      rw [hat0]; simp [dhat]; field_simp
    · show -x 1 = h 0 * h 1 * (dhat 0 (h 0) * hat 1 (h 1) (x 1))
      rw [hat1]; simp [dhat]; field_simp
    · show x 1 = h 0 * h 1 * (dhat 1 (h 0) * hat 1 (h 1) (x 1))
      rw [hat1]; simp [dhat]; field_simp
  · simp only [Fin.mk_one, e1]
    fin_cases k
    · show x 0 - h 0 = h 0 * h 1 * (hat 0 (h 0) (x 0) * dhat 0 (h 1))
      rw [hat0]; simp [dhat]; field_simp; ring
    · show -x 0 = h 0 * h 1 * (hat 1 (h 0) (x 0) * dhat 0 (h 1))
      rw [hat1]; simp [dhat]; field_simp
    · show h 0 - x 0 = h 0 * h 1 * (hat 0 (h 0) (x 0) * dhat 1 (h 1))
      rw [hat0]; simp [dhat]; field_simp
    · show x 0 = h 0 * h 1 * (hat 1 (h 0) (x 0) * dhat 1 (h 1))
      rw [hat1]; simp [dhat]; field_simp

/-- `h * hat`, without division. -/
theorem mul_hat (b : Fin 2) (h t : ℝ) (hh : h ≠ 0) :
    h * hat b h t = if b = 0 then h - t else t := by
  unfold hat; split_ifs <;> field_simp

theorem mul_dhat (b : Fin 2) (h : ℝ) (hh : h ≠ 0) :
    h * dhat b h = if b = 0 then -1 else 1 := by
  unfold dhat; split_ifs <;> field_simp

theorem p1Grad3_raw (x h : Pos 3 ℝ) (k : Fin 8) (c : Fin 3) :
    p1IntegrationGrad3 x h k c =
      (if c = 0 then (if bit3 k 0 = 0 then -1 else 1) else (if bit3 k 0 = 0 then h 0 - x 0 else x 0)) *
      (if c = 1 then (if bit3 k 1 = 0 then -1 else 1) else (if bit3 k 1 = 0 then h 1 - x 1 else x 1)) *
      (if c = 2 then (if bit3 k 2 = 0 then -1 else 1) else (if bit3 k 2 = 0 then h 2 - x 2 else x 2))
      := by
  fin_cases k <;> fin_cases c
  · refine Eq.trans (show _ = -(h 1 - x 1) * (h 2 - x 2) from rfl) ?_; simp [bit3]; try ring
  · refine Eq.trans (show _ = -(h 0 - x 0) * (h 2 - x 2) from rfl) ?_; simp [bit3]; try ring
  · refine Eq.trans (show _ = -(h 0 - x 0) * (h 1 - x 1) from rfl) ?_; simp [bit3]; try ring
  · refine Eq.trans (show _ = (h 1 - x 1) * (h 2 - x 2) from rfl) ?_; simp [bit3]; try ring
  · refine Eq.trans (show _ = -x 0 * (h 2 - x 2) from rfl) ?_; simp [bit3]; try ring
  · refine Eq.trans (show _ = -x 0 * (h 1 - x 1) from rfl) ?_; simp [bit3]; try ring
  · refine Eq.trans (show _ = -x 1 * (h 2 - x 2) from rfl) ?_; simp [bit3]; try ring
  · refine Eq.trans (show _ = (h 0 - x 0) * (h 2 - x 2) from rfl) ?_; simp [bit3]; try ring
  · refine Eq.trans (show _ = -(h 0 - x 0) * x 1 from rfl) ?_; simp [bit3]; try ring
  · refine Eq.trans (show _ = x 1 * (h 2 - x 2) from rfl) ?_; simp [bit3]; try ring
  · refine Eq.trans (show _ = x 0 * (h 2 - x 2) from rfl) ?_; simp [bit3]; try ring
  · refine Eq.trans (show _ = -x 0 * x 1 from rfl) ?_; simp [bit3]; try ring
  · refine Eq.trans (show _ = -(h 1 - x 1) * x 2 from rfl) ?_; simp [bit3]; try ring
  · refine Eq.trans (show _ = -(h 0 - x 0) * x 2 from rfl) ?_; simp [bit3]; try ring
  · refine Eq.trans (show _ = (h 0 - x 0) * (h 1 - x 1) from rfl) ?_; simp [bit3]; try ring
  · refine Eq.trans (show _ = (h 1 - x 1) * x 2 from rfl) ?_; simp [bit3]; try ring
  · refine Eq.trans (show _ = -x 0 * x 2 from rfl) ?_; simp [bit3]; try ring
  · refine Eq.trans (show _ = x 0 * (h 1 - x 1) from rfl) ?_; simp [bit3]; try ring
  · refine Eq.trans (show _ = -x 1 * x 2 from rfl) ?_; simp [bit3]; try ring
  · refine Eq.trans (show _ = (h 0 - x 0) * x 2 from rfl) ?_; simp [bit3]; try ring
  · refine Eq.trans (show _ = (h 0 - x 0) * x 1 from rfl) ?_; simp [bit3]; try ring
  · refine Eq.trans (show _ = x 1 * x 2 from rfl) ?_; simp [bit3]; try ring
  · refine Eq.trans (show _ = x 0 * x 2 from rfl) ?_; simp [bit3]; try ring
  · refine Eq.trans (show _ = x 0 * x 1 from rfl) ?_; simp [bit3]; try ring

theorem p1Grad3_eq (x h : Pos 3 ℝ) (h0 : ∀ c, h c ≠ 0) (k : Fin 8) (c : Fin 3) :
    p1IntegrationGrad3 x h k c = h 0 * h 1 * h 2 * grad3 (phi3 h k) (x 0) (x 1) (x 2) c := by
  rw [p1Grad3_raw]
  have e0 : grad3 (phi3 h k) (x 0) (x 1) (x 2) 0 = dhat (bit3 k 0) (h 0) *
      (hat (bit3 k 1) (h 1) (x 1) * hat (bit3 k 2) (h 2) (x 2)) := by
    refine Eq.trans ?_ (deriv_hat_mul _ _ (x 0) _)
    show deriv (fun s => phi3 h k s (x 1) (x 2)) (x 0) = _
    congr 1; funext s; simp only [phi3]; ring
  have e1 : grad3 (phi3 h k) (x 0) (x 1) (x 2) 1 = dhat (bit3 k 1) (h 1) *
      (hat (bit3 k 0) (h 0) (x 0) * hat (bit3 k 2) (h 2) (x 2)) := by
    refine Eq.trans ?_ (deriv_hat_mul _ _ (x 1) _)
    show deriv (fun s => phi3 h k (x 0) s (x 2)) (x 1) = _
    congr 1; funext s; simp only [phi3]; ring
  have e2 : grad3 (phi3 h k) (x 0) (x 1) (x 2) 2 =
      hat (bit3 k 0) (h 0) (x 0) * hat (bit3 k 1) (h 1) (x 1) * dhat (bit3 k 2) (h 2) :=
    deriv_mul_hat _ _ _ _
  have m := fun c => mul_hat (bit3 k c) (h c) (x c) (h0 c)
  have d := fun c => mul_dhat (bit3 k c) (h c) (h0 c)
  fin_cases c
  · simp [e0, ← m, ← d]; ring
  · simp [e1, ← m, ← d]; ring
  · simp [e2, ← m, ← d]; ring

end Cafes
