/-
Property theorems for the preconditioner of `setPMMSolver`: C124.
-/
import Verif.Lemmas.DivBound
import Verif.Model.Pmm
import Verif.Props.Jacobi
import Verif.Props.Smoother

namespace Cafes.Props
open Cafes Cafes.Spec Cafes.Pmm

/-! ### Specification -/

/-- The complex number `a + i b` is an eigenvalue of the real operator `F` on the fields of the grids, with the
eigenvector `r + i s` (not zero on the grids): `F r = a r - b s` and `F s = b r + a s` at every node. -/
structure IsEigen {d : ℕ} (Lv Lp : Fin d → Dir)
    (F : NodeVec d d ℝ × NodeVec d 1 ℝ → NodeVec d d ℝ × NodeVec d 1 ℝ) (a b : ℝ)
    (r s : NodeVec d d ℝ × NodeVec d 1 ℝ) : Prop where
  vel_re : ∀ g ∈ gridNodes Lv, ∀ c, (F r).1 g c = a * r.1 g c - b * s.1 g c
  vel_im : ∀ g ∈ gridNodes Lv, ∀ c, (F s).1 g c = b * r.1 g c + a * s.1 g c
  pres_re : ∀ q ∈ gridNodes Lp, (F r).2 q 0 = a * r.2 q 0 - b * s.2 q 0
  pres_im : ∀ q ∈ gridNodes Lp, (F s).2 q 0 = b * r.2 q 0 + a * s.2 q 0
  ne_zero : (∃ g ∈ gridNodes Lv, ∃ c, r.1 g c ≠ 0 ∨ s.1 g c ≠ 0) ∨ ∃ q ∈ gridNodes Lp, r.2 q 0 ≠ 0 ∨ s.2 q 0 ≠ 0

/-- `solve` inverts the operator `A` on the fields of the grid. -/
def ExactSolve {d n : ℕ} (L : Fin d → Dir) (A solve : NodeVec d n ℝ → NodeVec d n ℝ) : Prop :=
  ∀ f, ∀ g ∈ gridNodes L, ∀ c, A (solve f) g c = f g c

/-! ### Generic part -/

section generic
variable {d NP NV : ℕ} (N : Fin d → ℤ) (per : Fin d → Bool)
  (lx : Fin d → List ℤ) (hne : ∀ i, lx i ≠ []) (hW : ∀ i, (presLayout N per lx i).WF)
  (elemP : Pos d ℤ → Fin NP → Pos d ℤ) (elemV : Pos d ℤ → Fin NV → Pos d ℤ) (hel : IsQ1 elemP)
  (off : Fin NV → Fin d → Fin 3) (hoff : Is4Q1 elemV off)
  (B : Fin NP → Fin NV → Fin d → ℝ)
  (rs : List (Fin d → ℕ)) (hrs : AllProcs (velLayout N per lx) rs) (bc : BC d ℝ)
  (apply : (Fin d → ℕ) → NodeVec d d ℝ → NodeVec d d ℝ → NodeVec d d ℝ)
  (hlin : Combines (blockMatrix (velLayout N per lx) apply))
  (D : NodeVec d 1 ℝ) (solve : NodeVec d d ℝ → NodeVec d d ℝ)
include hne hW hel hoff

/-- The first output of the coupling does not depend on the velocity. -/
theorem grad_indep (u u' : NodeVec d d ℝ) (p : NodeVec d 1 ℝ) (g : Pos d ℤ) (c : Fin d) :
    (offDiagMatrix (velLayout N per lx) (presLayout N per lx) elemP elemV B u p).1 g c =
      (offDiagMatrix (velLayout N per lx) (presLayout N per lx) elemP elemV B u' p).1 g c := by
  unfold offDiagMatrix
  rw [vel_out N per lx hne hW elemP elemV hel off hoff, vel_out N per lx hne hW elemP elemV hel off hoff,
    block_id_zero N per lx hne hW elemP elemV hel off hoff, block_id_zero N per lx hne hW elemP elemV hel off hoff]

include hrs hlin

/-- Velocity rows of the preconditioned system: they differ from the residual by what the velocity solver leaves. -/
theorem pmm_vel (r : NodeVec d d ℝ × NodeVec d 1 ℝ) (g : Pos d ℤ) (hg : g ∈ gridNodes (velLayout N per lx)) (c : Fin d) :
    (stokesMatrixBC (velLayout N per lx) (presLayout N per lx) rs bc apply elemP elemV B
      (pmm (velLayout N per lx) (presLayout N per lx) rs bc apply elemP elemV B D solve r).1
      (pmm (velLayout N per lx) (presLayout N per lx) rs bc apply elemP elemV B D solve r).2).1 g c - r.1 g c =
    blockMatrixBC (velLayout N per lx) rs bc apply (solve (r.1 - (stokesMatrixBC (velLayout N per lx)
        (presLayout N per lx) rs bc apply elemP elemV B 0 (fun q c => r.2 q c / D q c)).1)) g c -
      (r.1 - (stokesMatrixBC (velLayout N per lx)
        (presLayout N per lx) rs bc apply elemP elemV B 0 (fun q c => r.2 q c / D q c)).1) g c := by
  have hv := velLayout_wf N per lx hne hW
  set p : NodeVec d 1 ℝ := fun q c => r.2 q c / D q c with hp
  set f := r.1 - (stokesMatrixBC (velLayout N per lx)
        (presLayout N per lx) rs bc apply elemP elemV B 0 p).1 with hf
  have h0 : ∀ g c, blockMatrix (velLayout N per lx) apply 0 g c = 0 := fun g c => by
    have := hlin 0 0 0 0
    simp only [zero_smul, add_zero] at this
    rw [this]; rfl
  show setDirichletOnVec _ rs bc (solve f) (stokesMatrix (velLayout N per lx) (presLayout N per lx) apply elemP elemV B
    (solve f) p).1 g c - r.1 g c = _
  have hfg : f g c = r.1 g c - setDirichletOnVec (velLayout N per lx) rs bc 0 (stokesMatrix (velLayout N per lx)
    (presLayout N per lx) apply elemP elemV B 0 p).1 g c := rfl
  rw [C25_matrix _ hv rs hrs bc apply _ g hg, C25_vec _ hv rs hrs, hfg, C25_vec _ hv rs hrs]
  have hs := fun z : NodeVec d d ℝ => (stokes_split N per lx hne hW elemP elemV hel off hoff apply B z p).1 g c
  by_cases hc : Constrained (velLayout N per lx) bc g c
  · simp [hc, hg]
  · simp only [hc, and_false, if_false]
    rw [hs, hs, h0, grad_indep N per lx hne hW elemP elemV hel off hoff B (solve f) 0]
    ring

/-- The spectrum of the preconditioned system. -/
theorem pmm_spectrum (hex : ExactSolve (velLayout N per lx) (blockMatrixBC (velLayout N per lx) rs bc apply) solve)
    (hsym : ∀ z x : NodeVec d d ℝ, dot (velLayout N per lx) z (blockMatrix (velLayout N per lx) apply x) =
      dot (velLayout N per lx) x (blockMatrix (velLayout N per lx) apply z))
    (hpsd : ∀ x : NodeVec d d ℝ, 0 ≤ dot (velLayout N per lx) x (blockMatrix (velLayout N per lx) apply x))
    (hD : ∀ q ∈ gridNodes (presLayout N per lx), 0 < D q 0) (K : ℝ) (hK : 1 ≤ K)
    (hcs : ∀ (u : NodeVec d d ℝ) (p p' : NodeVec d 1 ℝ),
      (∀ g ∈ gridNodes (velLayout N per lx), ∀ c, Constrained (velLayout N per lx) bc g c → u g c = 0) →
      dot (presLayout N per lx) p (offDiagMatrix (velLayout N per lx) (presLayout N per lx) elemP elemV B u p').2 ^ 2 ≤
        K * diagForm (presLayout N per lx) D p *
          dot (velLayout N per lx) u (blockMatrix (velLayout N per lx) apply u))
    (a b : ℝ) (r s : NodeVec d d ℝ × NodeVec d 1 ℝ)
    (he : IsEigen (velLayout N per lx) (presLayout N per lx)
      (fun x => stokesMatrixBC (velLayout N per lx) (presLayout N per lx) rs bc apply elemP elemV B
        (pmm (velLayout N per lx) (presLayout N per lx) rs bc apply elemP elemV B D solve x).1
        (pmm (velLayout N per lx) (presLayout N per lx) rs bc apply elemP elemV B D solve x).2) a b r s) :
    b = 0 ∧ 0 ≤ a ∧ a ≤ K := by
  have hv := velLayout_wf N per lx hne hW
  set Lv := velLayout N per lx with hLv
  set Lp := presLayout N per lx with hLp
  set P := pmm Lv Lp rs bc apply elemP elemV B D solve with hP
  have hvel : ∀ x : NodeVec d d ℝ × NodeVec d 1 ℝ, ∀ g ∈ gridNodes Lv, ∀ c,
      (stokesMatrixBC Lv Lp rs bc apply elemP elemV B (P x).1 (P x).2).1 g c = x.1 g c := fun x g hg c => by
    have := pmm_vel N per lx hne hW elemP elemV hel off hoff B rs hrs bc apply hlin D solve x g hg c
    rw [hex _ g hg c, sub_self] at this
    exact sub_eq_zero.1 this
  by_cases h1 : a = 1 ∧ b = 0
  · exact ⟨h1.2, by rw [h1.1]; norm_num, by rw [h1.1]; exact hK⟩
  have hpos : 0 < (a - 1) ^ 2 + b ^ 2 := by
    by_cases hb : b = 0
    · have : a - 1 ≠ 0 := fun h => h1 ⟨by linarith, hb⟩
      positivity
    · positivity
  -- the velocity parts vanish
  have hz : ∀ g ∈ gridNodes Lv, ∀ c, r.1 g c = 0 ∧ s.1 g c = 0 := by
    intro g hg c
    have e1 := he.vel_re g hg c
    have e2 := he.vel_im g hg c
    rw [hvel r g hg c] at e1
    rw [hvel s g hg c] at e2
    constructor
    · refine (mul_eq_zero.1 (?_ : ((a - 1) ^ 2 + b ^ 2) * r.1 g c = 0)).resolve_left hpos.ne'
      linear_combination (1 - a) * e1 - b * e2
    · refine (mul_eq_zero.1 (?_ : ((a - 1) ^ 2 + b ^ 2) * s.1 g c = 0)).resolve_left hpos.ne'
      linear_combination b * e1 + (1 - a) * e2
  -- velocities and pressures
  have hcon : ∀ x : NodeVec d d ℝ × NodeVec d 1 ℝ, (∀ g ∈ gridNodes Lv, ∀ c, x.1 g c = 0) →
      (∀ g ∈ gridNodes Lv, ∀ c, Constrained Lv bc g c → (P x).1 g c = 0) ∧
      ∀ g ∈ gridNodes Lv, ∀ c, ¬ Constrained Lv bc g c → blockMatrix Lv apply (P x).1 g c +
        (offDiagMatrix Lv Lp elemP elemV B 0 (P x).2).1 g c = 0 := by
    intro x hx
    have hv' : ∀ g ∈ gridNodes Lv, ∀ c, setDirichletOnVec Lv rs bc (P x).1
        (stokesMatrix Lv Lp apply elemP elemV B (P x).1 (P x).2).1 g c = 0 := fun g hg c =>
      (hvel x g hg c).trans (hx g hg c)
    constructor
    · intro g hg c hc
      have := hv' g hg c
      rwa [C25_vec _ hv rs hrs, if_pos ⟨hg, hc⟩] at this
    · intro g hg c hc
      have := hv' g hg c
      rw [C25_vec _ hv rs hrs, if_neg fun hh => hc hh.2,
        (stokes_split N per lx hne hW elemP elemV hel off hoff apply B _ _).1,
        grad_indep N per lx hne hW elemP elemV hel off hoff B _ 0] at this
      exact this
  have hdot : ∀ x y : NodeVec d d ℝ × NodeVec d 1 ℝ, (∀ g ∈ gridNodes Lv, ∀ c, x.1 g c = 0) →
      (∀ g ∈ gridNodes Lv, ∀ c, y.1 g c = 0) →
      dot Lv (P y).1 (blockMatrix Lv apply (P x).1) =
        dot Lp (P x).2 (stokesMatrixBC Lv Lp rs bc apply elemP elemV B (P y).1 (P y).2).2 := by
    intro x y hx hy
    have hr := dot_residual_zero Lv (Constrained Lv bc) (P y).1
      (fun g c => blockMatrix Lv apply (P x).1 g c + (offDiagMatrix Lv Lp elemP elemV B 0 (P x).2).1 g c)
      (hcon y hy).1 (hcon x hx).2
    have hadd : dot Lv (P y).1 (fun g c => blockMatrix Lv apply (P x).1 g c +
        (offDiagMatrix Lv Lp elemP elemV B 0 (P x).2).1 g c) = dot Lv (P y).1 (blockMatrix Lv apply (P x).1) +
        dot Lv (P y).1 (offDiagMatrix Lv Lp elemP elemV B 0 (P x).2).1 := by
      unfold dot
      simp only [mul_add, Finset.sum_add_distrib]
    rw [hadd, adjoint N per lx hne hW elemP elemV hel off hoff B (P y).1 0 (P x).2 (P y).2] at hr
    have hq : dot Lp (P x).2 (stokesMatrixBC Lv Lp rs bc apply elemP elemV B (P y).1 (P y).2).2 =
        dot Lp (P x).2 (offDiagMatrix Lv Lp elemP elemV B (P y).1 (P y).2).2 := by
      unfold dot
      refine Finset.sum_congr rfl fun q _ => Finset.sum_congr rfl fun c _ => ?_
      rw [Subsingleton.elim c 0, stokesBC_div N per lx hne hW elemP elemV hel off hoff apply B rs bc _ _ q]
    rw [hq]; linarith
  have hr0 := fun g hg c => (hz g hg c).1
  have hs0 := fun g hg c => (hz g hg c).2
  -- the pressures
  have hpd : ∀ x : NodeVec d d ℝ × NodeVec d 1 ℝ, ∀ q ∈ gridNodes Lp, x.2 q 0 = D q 0 * (P x).2 q 0 := fun x q hq => by
    show x.2 q 0 = D q 0 * (x.2 q 0 / D q 0)
    have := (hD q hq).ne'
    field_simp
  let X : ℝ := ∑ q ∈ gridNodes Lp, D q 0 * (P r).2 q 0 * (P s).2 q 0
  have hlinr : ∀ z : NodeVec d 1 ℝ, dot Lp z (stokesMatrixBC Lv Lp rs bc apply elemP elemV B (P r).1 (P r).2).2 =
      a * (∑ q ∈ gridNodes Lp, D q 0 * (P r).2 q 0 * z q 0) - b * ∑ q ∈ gridNodes Lp, D q 0 * (P s).2 q 0 * z q 0 := by
    intro z
    unfold dot
    rw [Finset.mul_sum, Finset.mul_sum, ← Finset.sum_sub_distrib]
    refine Finset.sum_congr rfl fun q hq => ?_
    simp only [Finset.univ_unique, Finset.sum_singleton, Fin.default_eq_zero]
    have := he.pres_re q hq
    rw [this, hpd r q hq, hpd s q hq]; ring
  have hlins : ∀ z : NodeVec d 1 ℝ, dot Lp z (stokesMatrixBC Lv Lp rs bc apply elemP elemV B (P s).1 (P s).2).2 =
      b * (∑ q ∈ gridNodes Lp, D q 0 * (P r).2 q 0 * z q 0) + a * ∑ q ∈ gridNodes Lp, D q 0 * (P s).2 q 0 * z q 0 := by
    intro z
    unfold dot
    rw [Finset.mul_sum, Finset.mul_sum, ← Finset.sum_add_distrib]
    refine Finset.sum_congr rfl fun q hq => ?_
    simp only [Finset.univ_unique, Finset.sum_singleton, Fin.default_eq_zero]
    have := he.pres_im q hq
    rw [this, hpd r q hq, hpd s q hq]; ring
  have hform : ∀ z : NodeVec d 1 ℝ, diagForm Lp D z = ∑ q ∈ gridNodes Lp, D q 0 * z q 0 * z q 0 := fun z => by
    unfold diagForm
    refine Finset.sum_congr rfl fun q _ => ?_
    simp only [Finset.univ_unique, Finset.sum_singleton, Fin.default_eq_zero]; ring
  have hXc : ∑ q ∈ gridNodes Lp, D q 0 * (P s).2 q 0 * (P r).2 q 0 =
      ∑ q ∈ gridNodes Lp, D q 0 * (P r).2 q 0 * (P s).2 q 0 := Finset.sum_congr rfl fun q _ => by ring
  have hform0 : ∀ z : NodeVec d 1 ℝ, 0 ≤ diagForm Lp D z := fun z => by
    rw [hform]
    refine Finset.sum_nonneg fun q hq => ?_
    have := (hD q hq).le
    rw [mul_assoc]; exact mul_nonneg this (mul_self_nonneg _)
  have hformp : 0 < diagForm Lp D (P r).2 + diagForm Lp D (P s).2 := by
    have hq : ∃ q ∈ gridNodes Lp, r.2 q 0 ≠ 0 ∨ s.2 q 0 ≠ 0 := by
      rcases he.ne_zero with ⟨g, hg, c, h⟩ | h
      · exact absurd (hz g hg c) (by tauto)
      · exact h
    obtain ⟨q, hq, hn⟩ := hq
    rw [hform, hform, ← Finset.sum_add_distrib]
    have hnn : ∀ q ∈ gridNodes Lp, 0 ≤ D q 0 * (P r).2 q 0 * (P r).2 q 0 + D q 0 * (P s).2 q 0 * (P s).2 q 0 :=
      fun q hq => by
        have := (hD q hq).le
        rw [mul_assoc, mul_assoc]
        exact add_nonneg (mul_nonneg this (mul_self_nonneg _)) (mul_nonneg this (mul_self_nonneg _))
    refine Finset.sum_pos' hnn ⟨q, hq, ?_⟩
    have hD' := hD q hq
    have hne' : (P r).2 q 0 ≠ 0 ∨ (P s).2 q 0 ≠ 0 := by
      rcases hn with hn | hn
      · left; intro h0; rw [hpd r q hq, h0, mul_zero] at hn; exact hn rfl
      · right; intro h0; rw [hpd s q hq, h0, mul_zero] at hn; exact hn rfl
    rw [mul_assoc, mul_assoc, ← mul_add]
    refine mul_pos hD' ?_
    rcases hne' with h | h
    · exact add_pos_of_pos_of_nonneg (mul_self_pos.2 h) (mul_self_nonneg _)
    · exact add_pos_of_nonneg_of_pos (mul_self_nonneg _) (mul_self_pos.2 h)
  have d1 := hdot r r hr0 hr0
  have d2 := hdot s s hs0 hs0
  have d3 := hdot r s hr0 hs0
  have d4 := hdot s r hs0 hr0
  have dq : ∀ x : NodeVec d d ℝ × NodeVec d 1 ℝ,
      dot Lp (P x).2 (stokesMatrixBC Lv Lp rs bc apply elemP elemV B (P x).1 (P x).2).2 =
        dot Lp (P x).2 (offDiagMatrix Lv Lp elemP elemV B (P x).1 (P x).2).2 := fun x => by
      unfold dot
      refine Finset.sum_congr rfl fun q _ => Finset.sum_congr rfl fun c _ => ?_
      rw [Subsingleton.elim c 0, stokesBC_div N per lx hne hW elemP elemV hel off hoff apply B rs bc _ _ q]
  have c1 := hcs (P r).1 (P r).2 (P r).2 (hcon r hr0).1
  have c2 := hcs (P s).1 (P s).2 (P s).2 (hcon s hs0).1
  rw [← dq, ← d1] at c1
  rw [← dq, ← d2] at c2
  have p1 := hpsd (P r).1
  have p2 := hpsd (P s).1
  have d5 := hsym (P s).1 (P r).1
  rw [hlinr, ← hform, hXc] at d1
  rw [hlins, ← hform] at d2
  rw [hlins, ← hform, hXc] at d3
  rw [hlinr, ← hform] at d4
  rw [d3, d4] at d5
  have f1 := hform0 (P r).2
  have f2 := hform0 (P s).2
  have hb : b = 0 := by
    refine (mul_eq_zero.1 (?_ : b * (diagForm Lp D (P r).2 + diagForm Lp D (P s).2) = 0)).resolve_right hformp.ne'
    linarith
  have bound : ∀ E F : ℝ, 0 ≤ E → 0 ≤ F → E ^ 2 ≤ K * F * E → E ≤ K * F := by
    intro E F hE hF h
    rcases hE.eq_or_lt with h0 | h0
    · rw [← h0]; exact mul_nonneg (by linarith) hF
    · exact le_of_mul_le_mul_right (by linarith [sq E]) h0
  have b1 := bound _ _ p1 f1 c1
  have b2 := bound _ _ p2 f2 c2
  subst hb
  refine ⟨rfl, ?_, ?_⟩
  · refine nonneg_of_mul_nonneg_left (?_ : 0 ≤ a * _) hformp
    linarith
  · refine le_of_mul_le_mul_right (?_ : a * _ ≤ K * _) hformp
    linarith

/-- On the residuals without velocity part the preconditioned system is symmetric, positive and bounded for the product
weighted by the inverse of the diagonal. -/
theorem pmm_schur (hex : ExactSolve (velLayout N per lx) (blockMatrixBC (velLayout N per lx) rs bc apply) solve)
    (hsym : ∀ z x : NodeVec d d ℝ, dot (velLayout N per lx) z (blockMatrix (velLayout N per lx) apply x) =
      dot (velLayout N per lx) x (blockMatrix (velLayout N per lx) apply z))
    (hpsd : ∀ x : NodeVec d d ℝ, 0 ≤ dot (velLayout N per lx) x (blockMatrix (velLayout N per lx) apply x))
    (hD : ∀ q ∈ gridNodes (presLayout N per lx), 0 < D q 0) (K : ℝ) (hK : 1 ≤ K)
    (hcs : ∀ (u : NodeVec d d ℝ) (p p' : NodeVec d 1 ℝ),
      (∀ g ∈ gridNodes (velLayout N per lx), ∀ c, Constrained (velLayout N per lx) bc g c → u g c = 0) →
      dot (presLayout N per lx) p (offDiagMatrix (velLayout N per lx) (presLayout N per lx) elemP elemV B u p').2 ^ 2 ≤
        K * diagForm (presLayout N per lx) D p *
          dot (velLayout N per lx) u (blockMatrix (velLayout N per lx) apply u))
    (F : NodeVec d d ℝ × NodeVec d 1 ℝ → NodeVec d d ℝ × NodeVec d 1 ℝ)
    (hF : F = fun x => stokesMatrixBC (velLayout N per lx) (presLayout N per lx) rs bc apply elemP elemV B
        (pmm (velLayout N per lx) (presLayout N per lx) rs bc apply elemP elemV B D solve x).1
        (pmm (velLayout N per lx) (presLayout N per lx) rs bc apply elemP elemV B D solve x).2)
    (r s : NodeVec d d ℝ × NodeVec d 1 ℝ) (hr0 : ∀ g ∈ gridNodes (velLayout N per lx), ∀ c, r.1 g c = 0)
    (hs0 : ∀ g ∈ gridNodes (velLayout N per lx), ∀ c, s.1 g c = 0) :
    (∀ g ∈ gridNodes (velLayout N per lx), ∀ c, (F r).1 g c = 0) ∧
    ∑ q ∈ gridNodes (presLayout N per lx), s.2 q 0 * (F r).2 q 0 / D q 0 =
      ∑ q ∈ gridNodes (presLayout N per lx), r.2 q 0 * (F s).2 q 0 / D q 0 ∧
    0 ≤ ∑ q ∈ gridNodes (presLayout N per lx), r.2 q 0 * (F r).2 q 0 / D q 0 ∧
    ∑ q ∈ gridNodes (presLayout N per lx), r.2 q 0 * (F r).2 q 0 / D q 0 ≤
      K * ∑ q ∈ gridNodes (presLayout N per lx), r.2 q 0 ^ 2 / D q 0 := by
  subst hF
  have hv := velLayout_wf N per lx hne hW
  set Lv := velLayout N per lx with hLv
  set Lp := presLayout N per lx with hLp
  set P := pmm Lv Lp rs bc apply elemP elemV B D solve with hP
  have hvel : ∀ x : NodeVec d d ℝ × NodeVec d 1 ℝ, ∀ g ∈ gridNodes Lv, ∀ c,
      (stokesMatrixBC Lv Lp rs bc apply elemP elemV B (P x).1 (P x).2).1 g c = x.1 g c := fun x g hg c => by
    have := pmm_vel N per lx hne hW elemP elemV hel off hoff B rs hrs bc apply hlin D solve x g hg c
    rw [hex _ g hg c, sub_self] at this
    exact sub_eq_zero.1 this
  -- velocities and pressures
  have hcon : ∀ x : NodeVec d d ℝ × NodeVec d 1 ℝ, (∀ g ∈ gridNodes Lv, ∀ c, x.1 g c = 0) →
      (∀ g ∈ gridNodes Lv, ∀ c, Constrained Lv bc g c → (P x).1 g c = 0) ∧
      ∀ g ∈ gridNodes Lv, ∀ c, ¬ Constrained Lv bc g c → blockMatrix Lv apply (P x).1 g c +
        (offDiagMatrix Lv Lp elemP elemV B 0 (P x).2).1 g c = 0 := by
    intro x hx
    have hv' : ∀ g ∈ gridNodes Lv, ∀ c, setDirichletOnVec Lv rs bc (P x).1
        (stokesMatrix Lv Lp apply elemP elemV B (P x).1 (P x).2).1 g c = 0 := fun g hg c =>
      (hvel x g hg c).trans (hx g hg c)
    constructor
    · intro g hg c hc
      have := hv' g hg c
      rwa [C25_vec _ hv rs hrs, if_pos ⟨hg, hc⟩] at this
    · intro g hg c hc
      have := hv' g hg c
      rw [C25_vec _ hv rs hrs, if_neg fun hh => hc hh.2,
        (stokes_split N per lx hne hW elemP elemV hel off hoff apply B _ _).1,
        grad_indep N per lx hne hW elemP elemV hel off hoff B _ 0] at this
      exact this
  have hdot : ∀ x y : NodeVec d d ℝ × NodeVec d 1 ℝ, (∀ g ∈ gridNodes Lv, ∀ c, x.1 g c = 0) →
      (∀ g ∈ gridNodes Lv, ∀ c, y.1 g c = 0) →
      dot Lv (P y).1 (blockMatrix Lv apply (P x).1) =
        dot Lp (P x).2 (stokesMatrixBC Lv Lp rs bc apply elemP elemV B (P y).1 (P y).2).2 := by
    intro x y hx hy
    have hr := dot_residual_zero Lv (Constrained Lv bc) (P y).1
      (fun g c => blockMatrix Lv apply (P x).1 g c + (offDiagMatrix Lv Lp elemP elemV B 0 (P x).2).1 g c)
      (hcon y hy).1 (hcon x hx).2
    have hadd : dot Lv (P y).1 (fun g c => blockMatrix Lv apply (P x).1 g c +
        (offDiagMatrix Lv Lp elemP elemV B 0 (P x).2).1 g c) = dot Lv (P y).1 (blockMatrix Lv apply (P x).1) +
        dot Lv (P y).1 (offDiagMatrix Lv Lp elemP elemV B 0 (P x).2).1 := by
      unfold dot
      simp only [mul_add, Finset.sum_add_distrib]
    rw [hadd, adjoint N per lx hne hW elemP elemV hel off hoff B (P y).1 0 (P x).2 (P y).2] at hr
    have hq : dot Lp (P x).2 (stokesMatrixBC Lv Lp rs bc apply elemP elemV B (P y).1 (P y).2).2 =
        dot Lp (P x).2 (offDiagMatrix Lv Lp elemP elemV B (P y).1 (P y).2).2 := by
      unfold dot
      refine Finset.sum_congr rfl fun q _ => Finset.sum_congr rfl fun c _ => ?_
      rw [Subsingleton.elim c 0, stokesBC_div N per lx hne hW elemP elemV hel off hoff apply B rs bc _ _ q]
    rw [hq]; linarith
  have hw : ∀ x y : NodeVec d d ℝ × NodeVec d 1 ℝ, ∑ q ∈ gridNodes Lp,
      x.2 q 0 * (stokesMatrixBC Lv Lp rs bc apply elemP elemV B (P y).1 (P y).2).2 q 0 / D q 0 =
      dot Lp (P x).2 (stokesMatrixBC Lv Lp rs bc apply elemP elemV B (P y).1 (P y).2).2 := fun x y => by
    unfold dot
    refine Finset.sum_congr rfl fun q _ => ?_
    simp only [Finset.univ_unique, Finset.sum_singleton, Fin.default_eq_zero]
    show _ = x.2 q 0 / D q 0 * _
    ring
  have hform : diagForm Lp D (P r).2 = ∑ q ∈ gridNodes Lp, r.2 q 0 ^ 2 / D q 0 := by
    unfold diagForm
    refine Finset.sum_congr rfl fun q hq => ?_
    simp only [Finset.univ_unique, Finset.sum_singleton, Fin.default_eq_zero]
    show D q 0 * (r.2 q 0 / D q 0) ^ 2 = _
    have := (hD q hq).ne'
    field_simp
  have d1 := hdot r r hr0 hr0
  have d3 := hdot r s hr0 hs0
  have d4 := hdot s r hs0 hr0
  have c1 := hcs (P r).1 (P r).2 (P r).2 (hcon r hr0).1
  have dq : dot Lp (P r).2 (stokesMatrixBC Lv Lp rs bc apply elemP elemV B (P r).1 (P r).2).2 =
        dot Lp (P r).2 (offDiagMatrix Lv Lp elemP elemV B (P r).1 (P r).2).2 := by
      unfold dot
      refine Finset.sum_congr rfl fun q _ => Finset.sum_congr rfl fun c _ => ?_
      rw [Subsingleton.elim c 0, stokesBC_div N per lx hne hW elemP elemV hel off hoff apply B rs bc _ _ q]
  rw [← dq, ← d1] at c1
  have p1 := hpsd (P r).1
  have f1 : 0 ≤ diagForm Lp D (P r).2 := Finset.sum_nonneg fun q hq => Finset.sum_nonneg fun c _ => by
    rw [Subsingleton.elim c 0]
    exact mul_nonneg (hD q hq).le (sq_nonneg _)
  refine ⟨fun g hg c => (hvel r g hg c).trans (hr0 g hg c), ?_, ?_, ?_⟩
  · refine (hw s r).trans (Eq.trans ?_ (hw r s).symm)
    rw [← d3, ← d4]; exact hsym _ _
  · refine le_of_le_of_eq ?_ (hw r r).symm
    rw [← d1]; exact p1
  · refine le_of_eq_of_le (hw r r) ?_
    rw [← d1, ← hform]
    rcases p1.eq_or_lt with h0 | h0
    · rw [← h0]; exact mul_nonneg (by linarith) f1
    · exact le_of_mul_le_mul_right (by linarith [sq (dot Lv (P r).1 (blockMatrix Lv apply (P r).1))]) h0

end generic

/-! ### Divergences without boundary conditions -/

section anybc
variable {d NE : ℕ} (L : Fin d → Dir) (elem : Pos d ℤ → Fin NE → Pos d ℤ) (off : Fin NE → Fin d → Fin 2) (h : Pos d ℝ)
  (hG : ∀ c : Fin NE × Fin d → ℝ, 0 ≤ ∑ x : Fin NE × Fin d, ∑ y : Fin NE × Fin d, c x * c y *
    ∏ i, J (decide (x.2 = i)) (decide (y.2 = i)) (off x.1 i) (off y.1 i) (h i))
include hG

/-- The squares of the derivatives of the components in their own directions control the divergences. -/
theorem div_le_diag (u : NodeVec d d ℝ) :
    ∑ a, ∑ b, bform L elem off h a b (fun g => u g a) (fun g => u g b) ≤
      d * ∑ a, bform L elem off h a a (fun g => u g a) (fun g => u g a) := by
  have key : 0 ≤ ∑ a, ∑ b, (bform L elem off h a a (fun g => u g a) (fun g => u g a) -
      bform L elem off h a b (fun g => u g a) (fun g => u g b) -
      bform L elem off h b a (fun g => u g b) (fun g => u g a) +
      bform L elem off h b b (fun g => u g b) (fun g => u g b)) :=
    Finset.sum_nonneg fun a _ => Finset.sum_nonneg fun b _ =>
      curl_nonneg L elem off h hG b a (fun g => u g a) (fun g => u g b)
  simp only [Finset.sum_add_distrib, Finset.sum_sub_distrib, Finset.sum_const, Finset.card_univ, Fintype.card_fin,
    nsmul_eq_mul, ← Finset.mul_sum] at key
  have e1 : ∑ a, ∑ b, bform L elem off h b a (fun g => u g b) (fun g => u g a) =
      ∑ a, ∑ b, bform L elem off h a b (fun g => u g a) (fun g => u g b) := Finset.sum_comm
  rw [e1] at key
  linarith

theorem bform_self_nonneg (b : Fin d) (u : Pos d ℤ → ℝ) : 0 ≤ bform L elem off h b b u u := by
  have := curl_nonneg L elem off h hG b b u (fun _ => 0)
  have z1 : bform L elem off h b b u (fun _ => 0) = 0 := by simp [bform]
  have z2 : bform L elem off h b b (fun _ => 0) u = 0 := by simp [bform]
  have z3 : bform L elem off h b b (fun _ => 0) (fun _ => 0) = 0 := by simp [bform]
  rw [z1, z2, z3] at this
  linarith

theorem diag_le_lap (u : NodeVec d d ℝ) :
    ∑ a, bform L elem off h a a (fun g => u g a) (fun g => u g a) ≤
      ∑ a, ∑ b, bform L elem off h b b (fun g => u g a) (fun g => u g a) :=
  Finset.sum_le_sum fun a _ => Finset.single_le_sum
    (f := fun b => bform L elem off h b b (fun g => u g a) (fun g => u g a))
    (fun b _ => bform_self_nonneg L elem off h hG b _) (Finset.mem_univ a)

theorem diag_le_strain (u : NodeVec d d ℝ) :
    2 * ∑ a, bform L elem off h a a (fun g => u g a) (fun g => u g a) ≤
      ∑ a, ∑ b, bform L elem off h b b (fun g => u g a) (fun g => u g a) +
        ∑ a, ∑ b, bform L elem off h b a (fun g => u g a) (fun g => u g b) := by
  have hn : ∀ (a b : Fin d) (v w : Pos d ℤ → ℝ), bform L elem off h a b v (fun g => -w g) = -bform L elem off h a b v w ∧
      bform L elem off h a b (fun g => -v g) w = -bform L elem off h a b v w := fun a b v w => by
    unfold bform
    constructor <;> simp
  let G : Fin d → Fin d → ℝ := fun a b => bform L elem off h b b (fun g => u g a) (fun g => u g a) +
    bform L elem off h b a (fun g => u g a) (fun g => u g b)
  have hs : ∀ a b, 0 ≤ G a b + G b a := fun a b => by
    have := curl_nonneg L elem off h hG a b (fun g => u g a) (fun g => -u g b)
    rw [(hn b a _ _).1, (hn a b _ _).2, (hn a a _ _).1, (hn a a _ _).2] at this
    show 0 ≤ (bform L elem off h b b (fun g => u g a) (fun g => u g a) +
      bform L elem off h b a (fun g => u g a) (fun g => u g b)) +
      (bform L elem off h a a (fun g => u g b) (fun g => u g b) + bform L elem off h a b (fun g => u g b) (fun g => u g a))
    linarith
  have h1 : ∑ a, (G a a + G a a) ≤ ∑ a, ∑ b, (G a b + G b a) := Finset.sum_le_sum fun a _ =>
    Finset.single_le_sum (f := fun b => G a b + G b a) (fun b _ => hs a b) (Finset.mem_univ a)
  have h2 : ∑ a, ∑ b, G b a = ∑ a, ∑ b, G a b := Finset.sum_comm
  have h3 : ∑ a, ∑ b, (G a b + G b a) = 2 * ∑ a, ∑ b, G a b := by
    simp only [Finset.sum_add_distrib]
    rw [h2]; ring
  have h4 : ∑ a, (G a a + G a a) = 2 * (2 * ∑ a, bform L elem off h a a (fun g => u g a) (fun g => u g a)) := by
    rw [Finset.mul_sum, Finset.mul_sum]
    exact Finset.sum_congr rfl fun a _ => by show (_ + _) + (_ + _) = _; ring
  have h5 : ∑ a, ∑ b, G a b = ∑ a, ∑ b, bform L elem off h b b (fun g => u g a) (fun g => u g a) +
      ∑ a, ∑ b, bform L elem off h b a (fun g => u g a) (fun g => u g b) := by
    simp only [G, Finset.sum_add_distrib]
  rw [h4, h3, h5] at h1
  linarith

end anybc

/-! ### The two dimensions -/


theorem mass_diag_pos2 (L : Fin 2 → Dir) (hL : ∀ i, (L i).WF) (hne : ∀ i, 1 ≤ (L i).nElem) (h : Pos 2 ℝ)
    (hh : ∀ c, 0 < h c) (g : Pos 2 ℤ) (hg : g ∈ gridNodes L) (c : Fin 1) : 0 < diagMass2 L h g c := by
  unfold diagMass2
  rw [diagDiag_global L hL _ isQ1_2]
  have hp : ∀ k, 0 < matElemMass2 h k k := fun k => by
    rw [mass_diag2]
    have := hh 0; have := hh 1
    positivity
  obtain ⟨e, he, hc⟩ := exists_corner L hne g hg
  obtain ⟨k, hk⟩ := ((C09_element2 e).2.2 g).2 hc
  have hw : wrap L (getElement2 e k) = g := by rw [hk]; exact wrap_grid L g hg
  have hn : ∀ e k, 0 ≤ (if wrap L (getElement2 e k) = g then matElemMass2 h k k else 0) := fun e k => by
    split_ifs
    · exact (hp k).le
    · exact le_rfl
  refine Finset.sum_pos' (fun e _ => Finset.sum_nonneg fun k _ => hn e k) ⟨e, he, ?_⟩
  refine Finset.sum_pos' (fun k _ => hn e k) ⟨k, Finset.mem_univ _, ?_⟩
  rw [if_pos hw]; exact hp k

/-- The square of the product of a pressure with a divergence, from the diagonal of the mass and the divergences. -/
theorem div_bound2 (N : Fin 2 → ℤ) (per : Fin 2 → Bool) (lx : Fin 2 → List ℤ)
    (hne : ∀ i, lx i ≠ []) (hW : ∀ i, (presLayout N per lx i).WF) (h : Pos 2 ℝ) (hh : ∀ c, 0 < h c)
    (u : NodeVec 2 2 ℝ) (p p' : NodeVec 2 1 ℝ) :
    dot (presLayout N per lx) p (offDiagMatrix (velLayout N per lx) (presLayout N per lx) getElement2 getElement4Q1_2
      (matElemPressure2 h) u p').2 ^ 2 ≤ 9 / 4 * diagForm (presLayout N per lx) (diagMass2 (presLayout N per lx) (hp h)) p *
      ∑ e ∈ gridElems (velLayout N per lx), int2 h (fun x y =>
        divQ2 (velLayout N per lx) h u e x y * divQ2 (velLayout N per lx) h u e x y) := by
  have hh2 : ∀ c, 0 < hp h c := fun c => mul_pos two_pos (hh c)
  have hcs := div_cs N per lx hne hW getElement2 getElement4Q1_2 isQ1_2 bit2 bit2_bij elem2_bit trit2 trit2_bij
    is4Q1_2 (matElemPressure2 h) (matElemMass2 (hp h)) h
    (fun i j c => by rw [pressure2_tensor h hh, Fin.prod_univ_two]) (fun i j => mass2_tensor (hp h) hh2 i j)
    (cellPsd2 h hh) u p p'
  refine hcs.trans ?_
  have hdiv : ∑ e ∈ gridElems (velLayout N per lx), divCell (velLayout N per lx) h u e =
      ∑ e ∈ gridElems (velLayout N per lx), int2 h (fun x y =>
        divQ2 (velLayout N per lx) h u e x y * divQ2 (velLayout N per lx) h u e x y) := by
    rw [← bform_div2 _ h hh, bform_cells]
    exact Finset.sum_congr rfl fun e _ => divCell_eq _ getElement2 bit2 bit2_bij elem2_bit h u e
  rw [hdiv]
  refine mul_le_mul_of_nonneg_right ?_ (Finset.sum_nonneg fun e _ => int2_nonneg h hh _ fun s t => mul_self_nonneg _)
  exact (C98_mass2 (presLayout N per lx) hW (hp h) hh2 p).2

theorem mass_diag_pos3 (L : Fin 3 → Dir) (hL : ∀ i, (L i).WF) (hne : ∀ i, 1 ≤ (L i).nElem) (h : Pos 3 ℝ)
    (hh : ∀ c, 0 < h c) (g : Pos 3 ℤ) (hg : g ∈ gridNodes L) (c : Fin 1) : 0 < diagMass3 L h g c := by
  unfold diagMass3
  rw [diagDiag_global L hL _ isQ1_3]
  have hp : ∀ k, 0 < matElemMass3 h k k := fun k => by
    rw [mass_diag3]
    have := hh 0; have := hh 1; have := hh 2
    positivity
  obtain ⟨e, he, hc⟩ := exists_corner L hne g hg
  obtain ⟨k, hk⟩ := ((C09_element3 e).2.2 g).2 hc
  have hw : wrap L (getElement3 e k) = g := by rw [hk]; exact wrap_grid L g hg
  have hn : ∀ e k, 0 ≤ (if wrap L (getElement3 e k) = g then matElemMass3 h k k else 0) := fun e k => by
    split_ifs
    · exact (hp k).le
    · exact le_rfl
  refine Finset.sum_pos' (fun e _ => Finset.sum_nonneg fun k _ => hn e k) ⟨e, he, ?_⟩
  refine Finset.sum_pos' (fun k _ => hn e k) ⟨k, Finset.mem_univ _, ?_⟩
  rw [if_pos hw]; exact hp k

/-- The square of the product of a pressure with a divergence, from the diagonal of the mass and the divergences. -/
theorem div_bound3 (N : Fin 3 → ℤ) (per : Fin 3 → Bool) (lx : Fin 3 → List ℤ)
    (hne : ∀ i, lx i ≠ []) (hW : ∀ i, (presLayout N per lx i).WF) (h : Pos 3 ℝ) (hh : ∀ c, 0 < h c)
    (u : NodeVec 3 3 ℝ) (p p' : NodeVec 3 1 ℝ) :
    dot (presLayout N per lx) p (offDiagMatrix (velLayout N per lx) (presLayout N per lx) getElement3 getElement4Q1_3
      (matElemPressure3 h) u p').2 ^ 2 ≤ 27 / 8 * diagForm (presLayout N per lx) (diagMass3 (presLayout N per lx) (hp h)) p *
      ∑ e ∈ gridElems (velLayout N per lx), int3 h (fun x y z =>
        divQ3 (velLayout N per lx) h u e x y z * divQ3 (velLayout N per lx) h u e x y z) := by
  have hh2 : ∀ c, 0 < hp h c := fun c => mul_pos two_pos (hh c)
  have hcs := div_cs N per lx hne hW getElement3 getElement4Q1_3 isQ1_3 bit3 bit3_bij elem3_bit trit3 trit3_bij
    is4Q1_3 (matElemPressure3 h) (matElemMass3 (hp h)) h
    (fun i j c => by rw [pressure3_tensor h hh, Fin.prod_univ_three]) (fun i j => mass3_tensor (hp h) hh2 i j)
    (cellPsd3 h hh) u p p'
  refine hcs.trans ?_
  have hdiv : ∑ e ∈ gridElems (velLayout N per lx), divCell (velLayout N per lx) h u e =
      ∑ e ∈ gridElems (velLayout N per lx), int3 h (fun x y z =>
        divQ3 (velLayout N per lx) h u e x y z * divQ3 (velLayout N per lx) h u e x y z) := by
    rw [← bform_div3 _ h hh, bform_cells]
    exact Finset.sum_congr rfl fun e _ => divCell_eq _ getElement3 bit3 bit3_bij elem3_bit h u e
  rw [hdiv]
  refine mul_le_mul_of_nonneg_right ?_ (Finset.sum_nonneg fun e _ => int3_nonneg h hh _ fun s t r => mul_self_nonneg _)
  exact (C98_mass3 (presLayout N per lx) hW (hp h) hh2 p).2

theorem method2_lin (strain : Bool) (L : Fin 2 → Dir) (hL : ∀ i, (L i).WF) (h : Pos 2 ℝ) :
    Combines (blockMatrix L (method2 strain L h)) := by
  cases strain
  · exact diagBlock_combines L hL _ isQ1_2 (matElemLaplacian2 h)
  · exact tensorBlock_combines L hL _ isQ1_2 (matElemStrain2 h)

/-- C124 (residual, 2D): whatever the velocity solver does, the velocity rows of the system applied to the
preconditioned residual differ from the residual by exactly what the velocity solver leaves of its own right-hand side,
which is the residual minus the pressure gradient of the preconditioned pressure. The pressure rows are the divergence
of the preconditioned velocity: they do not involve the preconditioned pressure. -/
theorem C124_residual2 (strain : Bool) (N : Fin 2 → ℤ) (per : Fin 2 → Bool) (lx : Fin 2 → List ℤ)
    (hne : ∀ i, lx i ≠ []) (hW : ∀ i, (presLayout N per lx i).WF)
    (h : Pos 2 ℝ) (rs : List (Fin 2 → ℕ)) (hrs : AllProcs (velLayout N per lx) rs)
    (bc : BC 2 ℝ) (solve : NodeVec 2 2 ℝ → NodeVec 2 2 ℝ) (r : NodeVec 2 2 ℝ × NodeVec 2 1 ℝ) :
    let S := system2 strain (velLayout N per lx) (presLayout N per lx) rs bc h
    let y := pmm2 strain (velLayout N per lx) (presLayout N per lx) rs bc h solve r
    let f := r.1 - (S (0, y.2)).1
    y.1 = solve f ∧
    (∀ g ∈ gridNodes (velLayout N per lx), ∀ c,
      (S y).1 g c - r.1 g c = velBlock2 strain (velLayout N per lx) rs bc h y.1 g c - f g c) ∧
    ∀ q ∈ gridNodes (presLayout N per lx), (S y).2 q 0 = (S (y.1, 0)).2 q 0 := by
  refine ⟨rfl, fun g hg c => ?_, fun q _ => ?_⟩
  · exact pmm_vel N per lx hne hW _ _ isQ1_2 _ is4Q1_2 _ rs hrs bc _
      (method2_lin strain _ (velLayout_wf N per lx hne hW) h) _ solve r g hg c
  · refine (stokesBC_div N per lx hne hW _ _ isQ1_2 _ is4Q1_2 _ _ rs bc _ _ q).trans
      (Eq.trans ?_ (stokesBC_div N per lx hne hW _ _ isQ1_2 _ is4Q1_2 _ _ rs bc _ _ q).symm)
    unfold offDiagMatrix
    rw [pres_out N per lx hne hW _ _ isQ1_2 _ is4Q1_2, pres_out N per lx hne hW _ _ isQ1_2 _ is4Q1_2]

/-- C124 (inexact velocity solver, 2D): with the tolerance `1e-2` of the velocity solver (met for its own right-hand
side `f`), the velocity rows of the preconditioned system reproduce the residual within one hundredth of the norm of `f`:
the inner tolerance is not amplified, whatever the mesh. -/
theorem C124_inexact2 (strain : Bool) (N : Fin 2 → ℤ) (per : Fin 2 → Bool) (lx : Fin 2 → List ℤ)
    (hne : ∀ i, lx i ≠ []) (hW : ∀ i, (presLayout N per lx i).WF)
    (h : Pos 2 ℝ) (rs : List (Fin 2 → ℕ)) (hrs : AllProcs (velLayout N per lx) rs)
    (bc : BC 2 ℝ) (solve : NodeVec 2 2 ℝ → NodeVec 2 2 ℝ) (r : NodeVec 2 2 ℝ × NodeVec 2 1 ℝ)
    (hs : ∀ f, ∑ g ∈ gridNodes (velLayout N per lx), ∑ c,
        (velBlock2 strain (velLayout N per lx) rs bc h (solve f) g c - f g c) ^ 2 ≤
      (1 / 100) ^ 2 * ∑ g ∈ gridNodes (velLayout N per lx), ∑ c, f g c ^ 2) :
    let S := system2 strain (velLayout N per lx) (presLayout N per lx) rs bc h
    let y := pmm2 strain (velLayout N per lx) (presLayout N per lx) rs bc h solve r
    ∑ g ∈ gridNodes (velLayout N per lx), ∑ c, ((S y).1 g c - r.1 g c) ^ 2 ≤
      (1 / 100) ^ 2 * ∑ g ∈ gridNodes (velLayout N per lx), ∑ c, (r.1 g c - (S (0, y.2)).1 g c) ^ 2 := by
  intro S y
  obtain ⟨e1, e2, -⟩ := C124_residual2 strain N per lx hne hW h rs hrs bc solve r
  refine le_of_eq_of_le (Finset.sum_congr rfl fun g hg => Finset.sum_congr rfl fun c _ => ?_)
    (hs (r.1 - (S (0, y.2)).1))
  have h2 := e2 g hg c
  rw [e1] at h2
  exact congrArg (· ^ 2) h2

/-- C124 (spectrum, 2D): with an exact velocity solver, and the velocity imposed on all the walls, every complex
eigenvalue of the preconditioned Stokes system is real, non-negative, and at most 9 / 4 for the Laplacian form and 9 / 8
for the strain tensor form: a bound that depends neither on the sizes and steps of the mesh nor on its periodicity and
distribution. -/
theorem C124_spectrum2 (strain : Bool) (N : Fin 2 → ℤ) (per : Fin 2 → Bool) (lx : Fin 2 → List ℤ)
    (hne : ∀ i, lx i ≠ []) (hW : ∀ i, (presLayout N per lx i).WF) (hN : ∀ i, 2 ≤ N i)
    (h : Pos 2 ℝ) (hh : ∀ c, 0 < h c) (rs : List (Fin 2 → ℕ)) (hrs : AllProcs (velLayout N per lx) rs)
    (bc : BC 2 ℝ) (hb : AllHeld (velLayout N per lx) bc) (solve : NodeVec 2 2 ℝ → NodeVec 2 2 ℝ)
    (hex : ExactSolve (velLayout N per lx) (velBlock2 strain (velLayout N per lx) rs bc h) solve)
    (a b : ℝ) (r s : NodeVec 2 2 ℝ × NodeVec 2 1 ℝ)
    (he : IsEigen (velLayout N per lx) (presLayout N per lx)
      (fun x => system2 strain (velLayout N per lx) (presLayout N per lx) rs bc h
        (pmm2 strain (velLayout N per lx) (presLayout N per lx) rs bc h solve x)) a b r s) :
    b = 0 ∧ 0 ≤ a ∧ a ≤ if strain then 9 / 8 else 9 / 4 := by
  have hv := velLayout_wf N per lx hne hW
  have hne' : ∀ i, 1 ≤ (presLayout N per lx i).nElem := fun i => by rw [pres_nElem]; have := hN i; omega
  have hh2 : ∀ c, 0 < hp h c := fun c => mul_pos two_pos (hh c)
  have hD : ∀ q ∈ gridNodes (presLayout N per lx), 0 < diagMass2 (n := 1) (presLayout N per lx) (hp h) q 0 := fun q hq =>
    mass_diag_pos2 _ hW hne' _ hh2 q hq 0
  have hF : ∀ p : NodeVec 2 1 ℝ, 0 ≤ diagForm (presLayout N per lx) (diagMass2 (presLayout N per lx) (hp h)) p := fun p =>
    Finset.sum_nonneg fun q hq => Finset.sum_nonneg fun c _ =>
      mul_nonneg (mass_diag_pos2 _ hW hne' _ hh2 q hq c).le (sq_nonneg _)
  refine pmm_spectrum N per lx hne hW _ _ isQ1_2 _ is4Q1_2 (matElemPressure2 h) rs hrs bc (method2 strain _ h)
    (method2_lin strain _ hv h) _ solve hex ?_ ?_ hD _ ?_ ?_ a b r s he
  · cases strain
    · exact (C15_symmetric2 (n := 2) _ hv h hh).1
    · exact (C15_symmetric2 (n := 2) _ hv h hh).2.2
  · cases strain
    · exact (C15_psd2 (n := 2) _ hv h hh).1
    · exact (C15_psd2 (n := 2) _ hv h hh).2
  · cases strain <;> norm_num
  · intro u p p' hz
    have hvan := vanishes_of_held _ bc hb u hz
    have hid := C98_identity2 _ hv h hh u u hvan
    have hbd := (C98_bounds2 _ hv h hh u).2
    refine (div_bound2 N per lx hne hW h hh u p p').trans ?_
    have := hF p
    cases strain
    · rw [if_neg (by decide)]
      refine mul_le_mul_of_nonneg_left ?_ (by positivity)
      show _ ≤ dot _ u (laplacian2 _ h u)
      linarith
    · rw [if_pos rfl]
      show _ ≤ _ * dot _ u (strain2 _ h u)
      have h2 : ∑ e ∈ gridElems (velLayout N per lx), int2 h (fun x y =>
          divQ2 (velLayout N per lx) h u e x y * divQ2 (velLayout N per lx) h u e x y) ≤
          1 / 2 * dot (velLayout N per lx) u (strain2 (velLayout N per lx) h u) := by linarith
      refine (mul_le_mul_of_nonneg_left h2 (by positivity)).trans (le_of_eq ?_)
      ring

/-- C124 (spectrum for any boundary conditions, 2D): without any condition on the walls (open walls, or some components
free) but still with an exact velocity solver, the eigenvalues are real, non-negative, at most 9 / 2 for the Laplacian form
and 9 / 4 for the strain tensor form. -/
theorem C124_spectrum_any2 (strain : Bool) (N : Fin 2 → ℤ) (per : Fin 2 → Bool) (lx : Fin 2 → List ℤ)
    (hne : ∀ i, lx i ≠ []) (hW : ∀ i, (presLayout N per lx i).WF) (hN : ∀ i, 2 ≤ N i)
    (h : Pos 2 ℝ) (hh : ∀ c, 0 < h c) (rs : List (Fin 2 → ℕ)) (hrs : AllProcs (velLayout N per lx) rs)
    (bc : BC 2 ℝ) (solve : NodeVec 2 2 ℝ → NodeVec 2 2 ℝ)
    (hex : ExactSolve (velLayout N per lx) (velBlock2 strain (velLayout N per lx) rs bc h) solve)
    (a b : ℝ) (r s : NodeVec 2 2 ℝ × NodeVec 2 1 ℝ)
    (he : IsEigen (velLayout N per lx) (presLayout N per lx)
      (fun x => system2 strain (velLayout N per lx) (presLayout N per lx) rs bc h
        (pmm2 strain (velLayout N per lx) (presLayout N per lx) rs bc h solve x)) a b r s) :
    b = 0 ∧ 0 ≤ a ∧ a ≤ if strain then 9 / 4 else 9 / 2 := by
  have hv := velLayout_wf N per lx hne hW
  have hne' : ∀ i, 1 ≤ (presLayout N per lx i).nElem := fun i => by rw [pres_nElem]; have := hN i; omega
  have hh2 : ∀ c, 0 < hp h c := fun c => mul_pos two_pos (hh c)
  have hD : ∀ q ∈ gridNodes (presLayout N per lx), 0 < diagMass2 (n := 1) (presLayout N per lx) (hp h) q 0 := fun q hq =>
    mass_diag_pos2 _ hW hne' _ hh2 q hq 0
  have hF : ∀ p : NodeVec 2 1 ℝ, 0 ≤ diagForm (presLayout N per lx) (diagMass2 (presLayout N per lx) (hp h)) p := fun p =>
    Finset.sum_nonneg fun q hq => Finset.sum_nonneg fun c _ =>
      mul_nonneg (mass_diag_pos2 _ hW hne' _ hh2 q hq c).le (sq_nonneg _)
  refine pmm_spectrum N per lx hne hW _ _ isQ1_2 _ is4Q1_2 (matElemPressure2 h) rs hrs bc (method2 strain _ h)
    (method2_lin strain _ hv h) _ solve hex ?_ ?_ hD _ ?_ ?_ a b r s he
  · cases strain
    · exact (C15_symmetric2 (n := 2) _ hv h hh).1
    · exact (C15_symmetric2 (n := 2) _ hv h hh).2.2
  · cases strain
    · exact (C15_psd2 (n := 2) _ hv h hh).1
    · exact (C15_psd2 (n := 2) _ hv h hh).2
  · cases strain <;> norm_num
  · intro u p p' _
    refine (div_bound2 N per lx hne hW h hh u p p').trans ?_
    have := hF p
    have e1 := div_le_diag (velLayout N per lx) getElement2 bit2 h (gram_psd2 h hh) u
    have e2 := diag_le_lap (velLayout N per lx) getElement2 bit2 h (gram_psd2 h hh) u
    have e3 := diag_le_strain (velLayout N per lx) getElement2 bit2 h (gram_psd2 h hh) u
    have e4 := lap_bform (velLayout N per lx) hv getElement2 isQ1_2 bit2 h _ (lap2_tensor h hh) u u
    have e5 := strain_split (velLayout N per lx) hv getElement2 isQ1_2 bit2 h _ _ (strain2_tensor h hh)
      (lap2_tensor h hh) u u
    rw [bform_div2 (velLayout N per lx) h hh u u] at e1
    rw [← e4] at e2
    rw [← e4, ← e5] at e3
    push_cast at e1
    cases strain
    · rw [if_neg (by decide)]
      show _ ≤ _ * dot _ u (laplacian2 _ h u)
      have h2 : ∑ e ∈ gridElems (velLayout N per lx), int2 h (fun x y =>
          divQ2 (velLayout N per lx) h u e x y * divQ2 (velLayout N per lx) h u e x y) ≤
          2 * dot (velLayout N per lx) u (laplacian2 (velLayout N per lx) h u) := by
        unfold laplacian2; linarith
      refine (mul_le_mul_of_nonneg_left h2 (by positivity)).trans (le_of_eq ?_)
      ring
    · rw [if_pos rfl]
      show _ ≤ _ * dot _ u (strain2 _ h u)
      have h2 : ∑ e ∈ gridElems (velLayout N per lx), int2 h (fun x y =>
          divQ2 (velLayout N per lx) h u e x y * divQ2 (velLayout N per lx) h u e x y) ≤
          2 / 2 * dot (velLayout N per lx) u (strain2 (velLayout N per lx) h u) := by
        unfold strain2; linarith
      refine (mul_le_mul_of_nonneg_left h2 (by positivity)).trans (le_of_eq ?_)
      ring

/-- C124 (symmetry, 2D): for any boundary conditions, on the residuals without velocity part (which it maps to such
residuals) the preconditioned system is symmetric and positive for the product weighted by the inverse of the diagonal of
the mass, and bounded by the same constant as the eigenvalues: it is diagonalisable there, without Jordan blocks. -/
theorem C124_symmetric2 (strain : Bool) (N : Fin 2 → ℤ) (per : Fin 2 → Bool) (lx : Fin 2 → List ℤ)
    (hne : ∀ i, lx i ≠ []) (hW : ∀ i, (presLayout N per lx i).WF) (hN : ∀ i, 2 ≤ N i)
    (h : Pos 2 ℝ) (hh : ∀ c, 0 < h c) (rs : List (Fin 2 → ℕ)) (hrs : AllProcs (velLayout N per lx) rs)
    (bc : BC 2 ℝ) (solve : NodeVec 2 2 ℝ → NodeVec 2 2 ℝ)
    (hex : ExactSolve (velLayout N per lx) (velBlock2 strain (velLayout N per lx) rs bc h) solve)
    (r s : NodeVec 2 2 ℝ × NodeVec 2 1 ℝ) (hr : ∀ g ∈ gridNodes (velLayout N per lx), ∀ c, r.1 g c = 0)
    (hs : ∀ g ∈ gridNodes (velLayout N per lx), ∀ c, s.1 g c = 0) :
    let F := fun x => system2 strain (velLayout N per lx) (presLayout N per lx) rs bc h
        (pmm2 strain (velLayout N per lx) (presLayout N per lx) rs bc h solve x)
    let D : NodeVec 2 1 ℝ := diagMass2 (presLayout N per lx) (fun c => 2 * h c)
    (∀ g ∈ gridNodes (velLayout N per lx), ∀ c, (F r).1 g c = 0) ∧
    ∑ q ∈ gridNodes (presLayout N per lx), s.2 q 0 * (F r).2 q 0 / D q 0 =
      ∑ q ∈ gridNodes (presLayout N per lx), r.2 q 0 * (F s).2 q 0 / D q 0 ∧
    0 ≤ ∑ q ∈ gridNodes (presLayout N per lx), r.2 q 0 * (F r).2 q 0 / D q 0 ∧
    ∑ q ∈ gridNodes (presLayout N per lx), r.2 q 0 * (F r).2 q 0 / D q 0 ≤
      (if strain then 9 / 4 else 9 / 2) * ∑ q ∈ gridNodes (presLayout N per lx), r.2 q 0 ^ 2 / D q 0 := by
  intro F D
  have hv := velLayout_wf N per lx hne hW
  have hne' : ∀ i, 1 ≤ (presLayout N per lx i).nElem := fun i => by rw [pres_nElem]; have := hN i; omega
  have hh2 : ∀ c, 0 < hp h c := fun c => mul_pos two_pos (hh c)
  have hD : ∀ q ∈ gridNodes (presLayout N per lx), 0 < diagMass2 (n := 1) (presLayout N per lx) (hp h) q 0 := fun q hq =>
    mass_diag_pos2 _ hW hne' _ hh2 q hq 0
  have hF : ∀ p : NodeVec 2 1 ℝ, 0 ≤ diagForm (presLayout N per lx) (diagMass2 (presLayout N per lx) (hp h)) p := fun p =>
    Finset.sum_nonneg fun q hq => Finset.sum_nonneg fun c _ =>
      mul_nonneg (mass_diag_pos2 _ hW hne' _ hh2 q hq c).le (sq_nonneg _)
  refine pmm_schur N per lx hne hW _ _ isQ1_2 _ is4Q1_2 (matElemPressure2 h) rs hrs bc (method2 strain _ h)
    (method2_lin strain _ hv h) _ solve hex ?_ ?_ hD _ ?_ ?_ F rfl r s hr hs
  · cases strain
    · exact (C15_symmetric2 (n := 2) _ hv h hh).1
    · exact (C15_symmetric2 (n := 2) _ hv h hh).2.2
  · cases strain
    · exact (C15_psd2 (n := 2) _ hv h hh).1
    · exact (C15_psd2 (n := 2) _ hv h hh).2
  · cases strain <;> norm_num
  · intro u p p' _
    refine (div_bound2 N per lx hne hW h hh u p p').trans ?_
    have := hF p
    have e1 := div_le_diag (velLayout N per lx) getElement2 bit2 h (gram_psd2 h hh) u
    have e2 := diag_le_lap (velLayout N per lx) getElement2 bit2 h (gram_psd2 h hh) u
    have e3 := diag_le_strain (velLayout N per lx) getElement2 bit2 h (gram_psd2 h hh) u
    have e4 := lap_bform (velLayout N per lx) hv getElement2 isQ1_2 bit2 h _ (lap2_tensor h hh) u u
    have e5 := strain_split (velLayout N per lx) hv getElement2 isQ1_2 bit2 h _ _ (strain2_tensor h hh)
      (lap2_tensor h hh) u u
    rw [bform_div2 (velLayout N per lx) h hh u u] at e1
    rw [← e4] at e2
    rw [← e4, ← e5] at e3
    push_cast at e1
    cases strain
    · rw [if_neg (by decide)]
      show _ ≤ _ * dot _ u (laplacian2 _ h u)
      have h2 : ∑ e ∈ gridElems (velLayout N per lx), int2 h (fun x y =>
          divQ2 (velLayout N per lx) h u e x y * divQ2 (velLayout N per lx) h u e x y) ≤
          2 * dot (velLayout N per lx) u (laplacian2 (velLayout N per lx) h u) := by
        unfold laplacian2; linarith
      refine (mul_le_mul_of_nonneg_left h2 (by positivity)).trans (le_of_eq ?_)
      ring
    · rw [if_pos rfl]
      show _ ≤ _ * dot _ u (strain2 _ h u)
      have h2 : ∑ e ∈ gridElems (velLayout N per lx), int2 h (fun x y =>
          divQ2 (velLayout N per lx) h u e x y * divQ2 (velLayout N per lx) h u e x y) ≤
          2 / 2 * dot (velLayout N per lx) u (strain2 (velLayout N per lx) h u) := by
        unfold strain2; linarith
      refine (mul_le_mul_of_nonneg_left h2 (by positivity)).trans (le_of_eq ?_)
      ring

/-- C124 (eigenvalue 0, 2D): with an exact velocity solver, on a mesh of at least two pressure cells in the walled
directions, the preconditioned system is singular only along one line: the residuals without velocity part whose pressure
part is a multiple of the diagonal of the mass, which are those of the constant pressures. -/
theorem C124_zero2 (strain : Bool) (N : Fin 2 → ℤ) (per : Fin 2 → Bool) (lx : Fin 2 → List ℤ)
    (hne : ∀ i, lx i ≠ []) (hW : ∀ i, (presLayout N per lx i).WF) (hN : Fine N)
    (h : Pos 2 ℝ) (hh : ∀ c, 0 < h c) (rs : List (Fin 2 → ℕ)) (hrs : AllProcs (velLayout N per lx) rs)
    (bc : BC 2 ℝ) (hb : WallHeld (velLayout N per lx) bc) (solve : NodeVec 2 2 ℝ → NodeVec 2 2 ℝ)
    (hex : ExactSolve (velLayout N per lx) (velBlock2 strain (velLayout N per lx) rs bc h) solve)
    (r : NodeVec 2 2 ℝ × NodeVec 2 1 ℝ)
    (hu : ∀ g ∈ gridNodes (velLayout N per lx), ∀ c, (system2 strain (velLayout N per lx) (presLayout N per lx) rs bc h
      (pmm2 strain (velLayout N per lx) (presLayout N per lx) rs bc h solve r)).1 g c = 0)
    (hp0 : ∀ q ∈ gridNodes (presLayout N per lx), (system2 strain (velLayout N per lx) (presLayout N per lx) rs bc h
      (pmm2 strain (velLayout N per lx) (presLayout N per lx) rs bc h solve r)).2 q 0 = 0) :
    (∀ g ∈ gridNodes (velLayout N per lx), ∀ c, r.1 g c = 0) ∧
    ∃ k, ∀ q ∈ gridNodes (presLayout N per lx),
      r.2 q 0 = k * diagMass2 (n := 1) (presLayout N per lx) (fun c => 2 * h c) q 0 := by
  have hne' : ∀ i, 1 ≤ (presLayout N per lx i).nElem := fun i => by rw [pres_nElem]; have := hN.1 i; omega
  have hh2 : ∀ c, 0 < hp h c := fun c => mul_pos two_pos (hh c)
  constructor
  · intro g hg c
    have := (C124_residual2 strain N per lx hne hW h rs hrs bc solve r).2.1 g hg c
    have h2 := hex (r.1 - (system2 strain (velLayout N per lx) (presLayout N per lx) rs bc h (0,
      (pmm2 strain (velLayout N per lx) (presLayout N per lx) rs bc h solve r).2)).1) g hg c
    rw [hu g hg c] at this
    have h3 : (0 : ℝ) - r.1 g c = 0 := this.trans (sub_eq_zero.2 h2)
    linarith
  · have hk : ∃ k, ∀ q ∈ gridNodes (presLayout N per lx),
        (pmm2 strain (velLayout N per lx) (presLayout N per lx) rs bc h solve r).2 q 0 = k := by
      cases strain
      · exact (ker_lap2 N per lx hne hW hN h hh rs hrs bc hb.components _ _ ⟨hu, hp0⟩).2
      · exact (ker_strain2 N per lx hne hW hN h hh rs hrs bc hb _ _ ⟨hu, hp0⟩).2
    obtain ⟨k, hk⟩ := hk
    refine ⟨k, fun q hq => ?_⟩
    have hpos := mass_diag_pos2 (presLayout N per lx) hW hne' _ hh2 q hq 0
    have h1 : r.2 q 0 / diagMass2 (presLayout N per lx) (hp h) q 0 = k := hk q hq
    rw [div_eq_iff hpos.ne'] at h1
    exact h1

/-- An exact velocity solver exists. -/
theorem exact_solve2 (strain : Bool) (L : Fin 2 → Dir) (hL : ∀ i, (L i).WF) (hne : ∀ i, 1 ≤ (L i).nElem) (h : Pos 2 ℝ)
    (hh : ∀ c, 0 < h c) (rs : List (Fin 2 → ℕ)) (hrs : AllProcs L rs) (bc : BC 2 ℝ) (hb : WallHeld L bc) :
    ∃ solve, ExactSolve L (velBlock2 strain L rs bc h) solve := by
  have : ∀ f : NodeVec 2 2 ℝ, ∃ u, ∀ g ∈ gridNodes L, ∀ c, velBlock2 strain L rs bc h u g c = f g c := fun f =>
    onto_of_injective (gridNodes L) _ (blockBC_combines L hL rs hrs bc _ (method2_lin strain L hL h)) (fun u u' => by
      cases strain
      · exact (C93_operator2 L hL hne h hh rs hrs bc u u').1 hb.components
      · exact (C93_operator2 L hL hne h hh rs hrs bc u u').2 hb) f
  choose solve hs using this
  exact ⟨solve, hs⟩

theorem method3_lin (strain : Bool) (L : Fin 3 → Dir) (hL : ∀ i, (L i).WF) (h : Pos 3 ℝ) :
    Combines (blockMatrix L (method3 strain L h)) := by
  cases strain
  · exact diagBlock_combines L hL _ isQ1_3 (matElemLaplacian3 h)
  · exact tensorBlock_combines L hL _ isQ1_3 (matElemStrain3 h)

/-- C124 (residual, 3D): whatever the velocity solver does, the velocity rows of the system applied to the
preconditioned residual differ from the residual by exactly what the velocity solver leaves of its own right-hand side,
which is the residual minus the pressure gradient of the preconditioned pressure. The pressure rows are the divergence
of the preconditioned velocity: they do not involve the preconditioned pressure. -/
theorem C124_residual3 (strain : Bool) (N : Fin 3 → ℤ) (per : Fin 3 → Bool) (lx : Fin 3 → List ℤ)
    (hne : ∀ i, lx i ≠ []) (hW : ∀ i, (presLayout N per lx i).WF)
    (h : Pos 3 ℝ) (rs : List (Fin 3 → ℕ)) (hrs : AllProcs (velLayout N per lx) rs)
    (bc : BC 3 ℝ) (solve : NodeVec 3 3 ℝ → NodeVec 3 3 ℝ) (r : NodeVec 3 3 ℝ × NodeVec 3 1 ℝ) :
    let S := system3 strain (velLayout N per lx) (presLayout N per lx) rs bc h
    let y := pmm3 strain (velLayout N per lx) (presLayout N per lx) rs bc h solve r
    let f := r.1 - (S (0, y.2)).1
    y.1 = solve f ∧
    (∀ g ∈ gridNodes (velLayout N per lx), ∀ c,
      (S y).1 g c - r.1 g c = velBlock3 strain (velLayout N per lx) rs bc h y.1 g c - f g c) ∧
    ∀ q ∈ gridNodes (presLayout N per lx), (S y).2 q 0 = (S (y.1, 0)).2 q 0 := by
  refine ⟨rfl, fun g hg c => ?_, fun q _ => ?_⟩
  · exact pmm_vel N per lx hne hW _ _ isQ1_3 _ is4Q1_3 _ rs hrs bc _
      (method3_lin strain _ (velLayout_wf N per lx hne hW) h) _ solve r g hg c
  · refine (stokesBC_div N per lx hne hW _ _ isQ1_3 _ is4Q1_3 _ _ rs bc _ _ q).trans
      (Eq.trans ?_ (stokesBC_div N per lx hne hW _ _ isQ1_3 _ is4Q1_3 _ _ rs bc _ _ q).symm)
    unfold offDiagMatrix
    rw [pres_out N per lx hne hW _ _ isQ1_3 _ is4Q1_3, pres_out N per lx hne hW _ _ isQ1_3 _ is4Q1_3]

/-- C124 (inexact velocity solver, 3D): with the tolerance `1e-2` of the velocity solver (met for its own right-hand
side `f`), the velocity rows of the preconditioned system reproduce the residual within one hundredth of the norm of `f`:
the inner tolerance is not amplified, whatever the mesh. -/
theorem C124_inexact3 (strain : Bool) (N : Fin 3 → ℤ) (per : Fin 3 → Bool) (lx : Fin 3 → List ℤ)
    (hne : ∀ i, lx i ≠ []) (hW : ∀ i, (presLayout N per lx i).WF)
    (h : Pos 3 ℝ) (rs : List (Fin 3 → ℕ)) (hrs : AllProcs (velLayout N per lx) rs)
    (bc : BC 3 ℝ) (solve : NodeVec 3 3 ℝ → NodeVec 3 3 ℝ) (r : NodeVec 3 3 ℝ × NodeVec 3 1 ℝ)
    (hs : ∀ f, ∑ g ∈ gridNodes (velLayout N per lx), ∑ c,
        (velBlock3 strain (velLayout N per lx) rs bc h (solve f) g c - f g c) ^ 2 ≤
      (1 / 100) ^ 2 * ∑ g ∈ gridNodes (velLayout N per lx), ∑ c, f g c ^ 2) :
    let S := system3 strain (velLayout N per lx) (presLayout N per lx) rs bc h
    let y := pmm3 strain (velLayout N per lx) (presLayout N per lx) rs bc h solve r
    ∑ g ∈ gridNodes (velLayout N per lx), ∑ c, ((S y).1 g c - r.1 g c) ^ 2 ≤
      (1 / 100) ^ 2 * ∑ g ∈ gridNodes (velLayout N per lx), ∑ c, (r.1 g c - (S (0, y.2)).1 g c) ^ 2 := by
  intro S y
  obtain ⟨e1, e2, -⟩ := C124_residual3 strain N per lx hne hW h rs hrs bc solve r
  refine le_of_eq_of_le (Finset.sum_congr rfl fun g hg => Finset.sum_congr rfl fun c _ => ?_)
    (hs (r.1 - (S (0, y.2)).1))
  have h2 := e2 g hg c
  rw [e1] at h2
  exact congrArg (· ^ 2) h2

/-- C124 (spectrum, 3D): with an exact velocity solver, and the velocity imposed on all the walls, every complex
eigenvalue of the preconditioned Stokes system is real, non-negative, and at most 27 / 8 for the Laplacian form and 27 / 16
for the strain tensor form: a bound that depends neither on the sizes and steps of the mesh nor on its periodicity and
distribution. -/
theorem C124_spectrum3 (strain : Bool) (N : Fin 3 → ℤ) (per : Fin 3 → Bool) (lx : Fin 3 → List ℤ)
    (hne : ∀ i, lx i ≠ []) (hW : ∀ i, (presLayout N per lx i).WF) (hN : ∀ i, 2 ≤ N i)
    (h : Pos 3 ℝ) (hh : ∀ c, 0 < h c) (rs : List (Fin 3 → ℕ)) (hrs : AllProcs (velLayout N per lx) rs)
    (bc : BC 3 ℝ) (hb : AllHeld (velLayout N per lx) bc) (solve : NodeVec 3 3 ℝ → NodeVec 3 3 ℝ)
    (hex : ExactSolve (velLayout N per lx) (velBlock3 strain (velLayout N per lx) rs bc h) solve)
    (a b : ℝ) (r s : NodeVec 3 3 ℝ × NodeVec 3 1 ℝ)
    (he : IsEigen (velLayout N per lx) (presLayout N per lx)
      (fun x => system3 strain (velLayout N per lx) (presLayout N per lx) rs bc h
        (pmm3 strain (velLayout N per lx) (presLayout N per lx) rs bc h solve x)) a b r s) :
    b = 0 ∧ 0 ≤ a ∧ a ≤ if strain then 27 / 16 else 27 / 8 := by
  have hv := velLayout_wf N per lx hne hW
  have hne' : ∀ i, 1 ≤ (presLayout N per lx i).nElem := fun i => by rw [pres_nElem]; have := hN i; omega
  have hh2 : ∀ c, 0 < hp h c := fun c => mul_pos two_pos (hh c)
  have hD : ∀ q ∈ gridNodes (presLayout N per lx), 0 < diagMass3 (n := 1) (presLayout N per lx) (hp h) q 0 := fun q hq =>
    mass_diag_pos3 _ hW hne' _ hh2 q hq 0
  have hF : ∀ p : NodeVec 3 1 ℝ, 0 ≤ diagForm (presLayout N per lx) (diagMass3 (presLayout N per lx) (hp h)) p := fun p =>
    Finset.sum_nonneg fun q hq => Finset.sum_nonneg fun c _ =>
      mul_nonneg (mass_diag_pos3 _ hW hne' _ hh2 q hq c).le (sq_nonneg _)
  refine pmm_spectrum N per lx hne hW _ _ isQ1_3 _ is4Q1_3 (matElemPressure3 h) rs hrs bc (method3 strain _ h)
    (method3_lin strain _ hv h) _ solve hex ?_ ?_ hD _ ?_ ?_ a b r s he
  · cases strain
    · exact (C15_symmetric3 (n := 3) _ hv h hh).1
    · exact (C15_symmetric3 (n := 3) _ hv h hh).2.2
  · cases strain
    · exact (C15_psd3 (n := 3) _ hv h hh).1
    · exact (C15_psd3 (n := 3) _ hv h hh).2
  · cases strain <;> norm_num
  · intro u p p' hz
    have hvan := vanishes_of_held _ bc hb u hz
    have hid := C98_identity3 _ hv h hh u u hvan
    have hbd := (C98_bounds3 _ hv h hh u).2
    refine (div_bound3 N per lx hne hW h hh u p p').trans ?_
    have := hF p
    cases strain
    · rw [if_neg (by decide)]
      refine mul_le_mul_of_nonneg_left ?_ (by positivity)
      show _ ≤ dot _ u (laplacian3 _ h u)
      linarith
    · rw [if_pos rfl]
      show _ ≤ _ * dot _ u (strain3 _ h u)
      have h2 : ∑ e ∈ gridElems (velLayout N per lx), int3 h (fun x y z =>
          divQ3 (velLayout N per lx) h u e x y z * divQ3 (velLayout N per lx) h u e x y z) ≤
          1 / 2 * dot (velLayout N per lx) u (strain3 (velLayout N per lx) h u) := by linarith
      refine (mul_le_mul_of_nonneg_left h2 (by positivity)).trans (le_of_eq ?_)
      ring

/-- C124 (spectrum for any boundary conditions, 3D): without any condition on the walls (open walls, or some components
free) but still with an exact velocity solver, the eigenvalues are real, non-negative, at most 81 / 8 for the Laplacian form
and 81 / 16 for the strain tensor form. -/
theorem C124_spectrum_any3 (strain : Bool) (N : Fin 3 → ℤ) (per : Fin 3 → Bool) (lx : Fin 3 → List ℤ)
    (hne : ∀ i, lx i ≠ []) (hW : ∀ i, (presLayout N per lx i).WF) (hN : ∀ i, 2 ≤ N i)
    (h : Pos 3 ℝ) (hh : ∀ c, 0 < h c) (rs : List (Fin 3 → ℕ)) (hrs : AllProcs (velLayout N per lx) rs)
    (bc : BC 3 ℝ) (solve : NodeVec 3 3 ℝ → NodeVec 3 3 ℝ)
    (hex : ExactSolve (velLayout N per lx) (velBlock3 strain (velLayout N per lx) rs bc h) solve)
    (a b : ℝ) (r s : NodeVec 3 3 ℝ × NodeVec 3 1 ℝ)
    (he : IsEigen (velLayout N per lx) (presLayout N per lx)
      (fun x => system3 strain (velLayout N per lx) (presLayout N per lx) rs bc h
        (pmm3 strain (velLayout N per lx) (presLayout N per lx) rs bc h solve x)) a b r s) :
    b = 0 ∧ 0 ≤ a ∧ a ≤ if strain then 81 / 16 else 81 / 8 := by
  have hv := velLayout_wf N per lx hne hW
  have hne' : ∀ i, 1 ≤ (presLayout N per lx i).nElem := fun i => by rw [pres_nElem]; have := hN i; omega
  have hh2 : ∀ c, 0 < hp h c := fun c => mul_pos two_pos (hh c)
  have hD : ∀ q ∈ gridNodes (presLayout N per lx), 0 < diagMass3 (n := 1) (presLayout N per lx) (hp h) q 0 := fun q hq =>
    mass_diag_pos3 _ hW hne' _ hh2 q hq 0
  have hF : ∀ p : NodeVec 3 1 ℝ, 0 ≤ diagForm (presLayout N per lx) (diagMass3 (presLayout N per lx) (hp h)) p := fun p =>
    Finset.sum_nonneg fun q hq => Finset.sum_nonneg fun c _ =>
      mul_nonneg (mass_diag_pos3 _ hW hne' _ hh2 q hq c).le (sq_nonneg _)
  refine pmm_spectrum N per lx hne hW _ _ isQ1_3 _ is4Q1_3 (matElemPressure3 h) rs hrs bc (method3 strain _ h)
    (method3_lin strain _ hv h) _ solve hex ?_ ?_ hD _ ?_ ?_ a b r s he
  · cases strain
    · exact (C15_symmetric3 (n := 3) _ hv h hh).1
    · exact (C15_symmetric3 (n := 3) _ hv h hh).2.2
  · cases strain
    · exact (C15_psd3 (n := 3) _ hv h hh).1
    · exact (C15_psd3 (n := 3) _ hv h hh).2
  · cases strain <;> norm_num
  · intro u p p' _
    refine (div_bound3 N per lx hne hW h hh u p p').trans ?_
    have := hF p
    have e1 := div_le_diag (velLayout N per lx) getElement3 bit3 h (gram_psd3 h hh) u
    have e2 := diag_le_lap (velLayout N per lx) getElement3 bit3 h (gram_psd3 h hh) u
    have e3 := diag_le_strain (velLayout N per lx) getElement3 bit3 h (gram_psd3 h hh) u
    have e4 := lap_bform (velLayout N per lx) hv getElement3 isQ1_3 bit3 h _ (lap3_tensor h hh) u u
    have e5 := strain_split (velLayout N per lx) hv getElement3 isQ1_3 bit3 h _ _ (strain3_tensor h hh)
      (lap3_tensor h hh) u u
    rw [bform_div3 (velLayout N per lx) h hh u u] at e1
    rw [← e4] at e2
    rw [← e4, ← e5] at e3
    push_cast at e1
    cases strain
    · rw [if_neg (by decide)]
      show _ ≤ _ * dot _ u (laplacian3 _ h u)
      have h2 : ∑ e ∈ gridElems (velLayout N per lx), int3 h (fun x y z =>
          divQ3 (velLayout N per lx) h u e x y z * divQ3 (velLayout N per lx) h u e x y z) ≤
          3 * dot (velLayout N per lx) u (laplacian3 (velLayout N per lx) h u) := by
        unfold laplacian3; linarith
      refine (mul_le_mul_of_nonneg_left h2 (by positivity)).trans (le_of_eq ?_)
      ring
    · rw [if_pos rfl]
      show _ ≤ _ * dot _ u (strain3 _ h u)
      have h2 : ∑ e ∈ gridElems (velLayout N per lx), int3 h (fun x y z =>
          divQ3 (velLayout N per lx) h u e x y z * divQ3 (velLayout N per lx) h u e x y z) ≤
          3 / 2 * dot (velLayout N per lx) u (strain3 (velLayout N per lx) h u) := by
        unfold strain3; linarith
      refine (mul_le_mul_of_nonneg_left h2 (by positivity)).trans (le_of_eq ?_)
      ring

/-- C124 (symmetry, 3D): for any boundary conditions, on the residuals without velocity part (which it maps to such
residuals) the preconditioned system is symmetric and positive for the product weighted by the inverse of the diagonal of
the mass, and bounded by the same constant as the eigenvalues: it is diagonalisable there, without Jordan blocks. -/
theorem C124_symmetric3 (strain : Bool) (N : Fin 3 → ℤ) (per : Fin 3 → Bool) (lx : Fin 3 → List ℤ)
    (hne : ∀ i, lx i ≠ []) (hW : ∀ i, (presLayout N per lx i).WF) (hN : ∀ i, 2 ≤ N i)
    (h : Pos 3 ℝ) (hh : ∀ c, 0 < h c) (rs : List (Fin 3 → ℕ)) (hrs : AllProcs (velLayout N per lx) rs)
    (bc : BC 3 ℝ) (solve : NodeVec 3 3 ℝ → NodeVec 3 3 ℝ)
    (hex : ExactSolve (velLayout N per lx) (velBlock3 strain (velLayout N per lx) rs bc h) solve)
    (r s : NodeVec 3 3 ℝ × NodeVec 3 1 ℝ) (hr : ∀ g ∈ gridNodes (velLayout N per lx), ∀ c, r.1 g c = 0)
    (hs : ∀ g ∈ gridNodes (velLayout N per lx), ∀ c, s.1 g c = 0) :
    let F := fun x => system3 strain (velLayout N per lx) (presLayout N per lx) rs bc h
        (pmm3 strain (velLayout N per lx) (presLayout N per lx) rs bc h solve x)
    let D : NodeVec 3 1 ℝ := diagMass3 (presLayout N per lx) (fun c => 2 * h c)
    (∀ g ∈ gridNodes (velLayout N per lx), ∀ c, (F r).1 g c = 0) ∧
    ∑ q ∈ gridNodes (presLayout N per lx), s.2 q 0 * (F r).2 q 0 / D q 0 =
      ∑ q ∈ gridNodes (presLayout N per lx), r.2 q 0 * (F s).2 q 0 / D q 0 ∧
    0 ≤ ∑ q ∈ gridNodes (presLayout N per lx), r.2 q 0 * (F r).2 q 0 / D q 0 ∧
    ∑ q ∈ gridNodes (presLayout N per lx), r.2 q 0 * (F r).2 q 0 / D q 0 ≤
      (if strain then 81 / 16 else 81 / 8) * ∑ q ∈ gridNodes (presLayout N per lx), r.2 q 0 ^ 2 / D q 0 := by
  intro F D
  have hv := velLayout_wf N per lx hne hW
  have hne' : ∀ i, 1 ≤ (presLayout N per lx i).nElem := fun i => by rw [pres_nElem]; have := hN i; omega
  have hh2 : ∀ c, 0 < hp h c := fun c => mul_pos two_pos (hh c)
  have hD : ∀ q ∈ gridNodes (presLayout N per lx), 0 < diagMass3 (n := 1) (presLayout N per lx) (hp h) q 0 := fun q hq =>
    mass_diag_pos3 _ hW hne' _ hh2 q hq 0
  have hF : ∀ p : NodeVec 3 1 ℝ, 0 ≤ diagForm (presLayout N per lx) (diagMass3 (presLayout N per lx) (hp h)) p := fun p =>
    Finset.sum_nonneg fun q hq => Finset.sum_nonneg fun c _ =>
      mul_nonneg (mass_diag_pos3 _ hW hne' _ hh2 q hq c).le (sq_nonneg _)
  refine pmm_schur N per lx hne hW _ _ isQ1_3 _ is4Q1_3 (matElemPressure3 h) rs hrs bc (method3 strain _ h)
    (method3_lin strain _ hv h) _ solve hex ?_ ?_ hD _ ?_ ?_ F rfl r s hr hs
  · cases strain
    · exact (C15_symmetric3 (n := 3) _ hv h hh).1
    · exact (C15_symmetric3 (n := 3) _ hv h hh).2.2
  · cases strain
    · exact (C15_psd3 (n := 3) _ hv h hh).1
    · exact (C15_psd3 (n := 3) _ hv h hh).2
  · cases strain <;> norm_num
  · intro u p p' _
    refine (div_bound3 N per lx hne hW h hh u p p').trans ?_
    have := hF p
    have e1 := div_le_diag (velLayout N per lx) getElement3 bit3 h (gram_psd3 h hh) u
    have e2 := diag_le_lap (velLayout N per lx) getElement3 bit3 h (gram_psd3 h hh) u
    have e3 := diag_le_strain (velLayout N per lx) getElement3 bit3 h (gram_psd3 h hh) u
    have e4 := lap_bform (velLayout N per lx) hv getElement3 isQ1_3 bit3 h _ (lap3_tensor h hh) u u
    have e5 := strain_split (velLayout N per lx) hv getElement3 isQ1_3 bit3 h _ _ (strain3_tensor h hh)
      (lap3_tensor h hh) u u
    rw [bform_div3 (velLayout N per lx) h hh u u] at e1
    rw [← e4] at e2
    rw [← e4, ← e5] at e3
    push_cast at e1
    cases strain
    · rw [if_neg (by decide)]
      show _ ≤ _ * dot _ u (laplacian3 _ h u)
      have h2 : ∑ e ∈ gridElems (velLayout N per lx), int3 h (fun x y z =>
          divQ3 (velLayout N per lx) h u e x y z * divQ3 (velLayout N per lx) h u e x y z) ≤
          3 * dot (velLayout N per lx) u (laplacian3 (velLayout N per lx) h u) := by
        unfold laplacian3; linarith
      refine (mul_le_mul_of_nonneg_left h2 (by positivity)).trans (le_of_eq ?_)
      ring
    · rw [if_pos rfl]
      show _ ≤ _ * dot _ u (strain3 _ h u)
      have h2 : ∑ e ∈ gridElems (velLayout N per lx), int3 h (fun x y z =>
          divQ3 (velLayout N per lx) h u e x y z * divQ3 (velLayout N per lx) h u e x y z) ≤
          3 / 2 * dot (velLayout N per lx) u (strain3 (velLayout N per lx) h u) := by
        unfold strain3; linarith
      refine (mul_le_mul_of_nonneg_left h2 (by positivity)).trans (le_of_eq ?_)
      ring

/-- C124 (eigenvalue 0, 3D): with an exact velocity solver, on a mesh of at least two pressure cells in the walled
directions, the preconditioned system is singular only along one line: the residuals without velocity part whose pressure
part is a multiple of the diagonal of the mass, which are those of the constant pressures. -/
theorem C124_zero3 (strain : Bool) (N : Fin 3 → ℤ) (per : Fin 3 → Bool) (lx : Fin 3 → List ℤ)
    (hne : ∀ i, lx i ≠ []) (hW : ∀ i, (presLayout N per lx i).WF) (hN : Fine N)
    (h : Pos 3 ℝ) (hh : ∀ c, 0 < h c) (rs : List (Fin 3 → ℕ)) (hrs : AllProcs (velLayout N per lx) rs)
    (bc : BC 3 ℝ) (hb : WallHeld (velLayout N per lx) bc) (solve : NodeVec 3 3 ℝ → NodeVec 3 3 ℝ)
    (hex : ExactSolve (velLayout N per lx) (velBlock3 strain (velLayout N per lx) rs bc h) solve)
    (r : NodeVec 3 3 ℝ × NodeVec 3 1 ℝ)
    (hu : ∀ g ∈ gridNodes (velLayout N per lx), ∀ c, (system3 strain (velLayout N per lx) (presLayout N per lx) rs bc h
      (pmm3 strain (velLayout N per lx) (presLayout N per lx) rs bc h solve r)).1 g c = 0)
    (hp0 : ∀ q ∈ gridNodes (presLayout N per lx), (system3 strain (velLayout N per lx) (presLayout N per lx) rs bc h
      (pmm3 strain (velLayout N per lx) (presLayout N per lx) rs bc h solve r)).2 q 0 = 0) :
    (∀ g ∈ gridNodes (velLayout N per lx), ∀ c, r.1 g c = 0) ∧
    ∃ k, ∀ q ∈ gridNodes (presLayout N per lx),
      r.2 q 0 = k * diagMass3 (n := 1) (presLayout N per lx) (fun c => 2 * h c) q 0 := by
  have hne' : ∀ i, 1 ≤ (presLayout N per lx i).nElem := fun i => by rw [pres_nElem]; have := hN.1 i; omega
  have hh2 : ∀ c, 0 < hp h c := fun c => mul_pos two_pos (hh c)
  constructor
  · intro g hg c
    have := (C124_residual3 strain N per lx hne hW h rs hrs bc solve r).2.1 g hg c
    have h2 := hex (r.1 - (system3 strain (velLayout N per lx) (presLayout N per lx) rs bc h (0,
      (pmm3 strain (velLayout N per lx) (presLayout N per lx) rs bc h solve r).2)).1) g hg c
    rw [hu g hg c] at this
    have h3 : (0 : ℝ) - r.1 g c = 0 := this.trans (sub_eq_zero.2 h2)
    linarith
  · have hk : ∃ k, ∀ q ∈ gridNodes (presLayout N per lx),
        (pmm3 strain (velLayout N per lx) (presLayout N per lx) rs bc h solve r).2 q 0 = k := by
      cases strain
      · exact (ker_lap3 N per lx hne hW hN h hh rs hrs bc hb.components _ _ ⟨hu, hp0⟩).2
      · exact (ker_strain3 N per lx hne hW hN h hh rs hrs bc hb _ _ ⟨hu, hp0⟩).2
    obtain ⟨k, hk⟩ := hk
    refine ⟨k, fun q hq => ?_⟩
    have hpos := mass_diag_pos3 (presLayout N per lx) hW hne' _ hh2 q hq 0
    have h1 : r.2 q 0 / diagMass3 (presLayout N per lx) (hp h) q 0 = k := hk q hq
    rw [div_eq_iff hpos.ne'] at h1
    exact h1

/-- An exact velocity solver exists. -/
theorem exact_solve3 (strain : Bool) (L : Fin 3 → Dir) (hL : ∀ i, (L i).WF) (hne : ∀ i, 1 ≤ (L i).nElem) (h : Pos 3 ℝ)
    (hh : ∀ c, 0 < h c) (rs : List (Fin 3 → ℕ)) (hrs : AllProcs L rs) (bc : BC 3 ℝ) (hb : WallHeld L bc) :
    ∃ solve, ExactSolve L (velBlock3 strain L rs bc h) solve := by
  have : ∀ f : NodeVec 3 3 ℝ, ∃ u, ∀ g ∈ gridNodes L, ∀ c, velBlock3 strain L rs bc h u g c = f g c := fun f =>
    onto_of_injective (gridNodes L) _ (blockBC_combines L hL rs hrs bc _ (method3_lin strain L hL h)) (fun u u' => by
      cases strain
      · exact (C93_operator3 L hL hne h hh rs hrs bc u u').1 hb.components
      · exact (C93_operator3 L hL hne h hh rs hrs bc u u').2 hb) f
  choose solve hs using this
  exact ⟨solve, hs⟩

open Classical in
theorem system_const2 (strain : Bool) (N : Fin 2 → ℤ) (per : Fin 2 → Bool) (lx : Fin 2 → List ℤ)
    (hne : ∀ i, lx i ≠ []) (hW : ∀ i, (presLayout N per lx i).WF)
    (h : Pos 2 ℝ) (rs : List (Fin 2 → ℕ)) (hrs : AllProcs (velLayout N per lx) rs) (bc : BC 2 ℝ)
    (hbc : NormalHeld per bc) (k : ℝ) (g : Pos 2 ℤ) (hg : g ∈ gridNodes (velLayout N per lx)) (c : Fin 2) :
    (system2 strain (velLayout N per lx) (presLayout N per lx) rs bc h (0, fun _ _ => k)).1 g c = 0 := by
  have hv := velLayout_wf N per lx hne hW
  have h0 : ∀ b, blockMatrix (velLayout N per lx) (method2 b (velLayout N per lx) h) 0 g c = 0 := fun b => by
    have := method2_lin b _ hv h 0 0 0 0
    simp only [zero_smul, add_zero] at this
    rw [this]; rfl
  have hst := (C19_nullspace2 N per lx hne hW h rs hrs bc hbc k g hg).1 c
  cases strain
  · rw [← hst]
    show setDirichletOnVec _ rs bc 0 _ g c = setDirichletOnVec _ rs bc 0 _ g c
    rw [C25_vec _ hv rs hrs, C25_vec _ hv rs hrs,
      (stokes_split N per lx hne hW _ _ isQ1_2 _ is4Q1_2 _ (matElemPressure2 h) 0 _).1,
      (stokes_split N per lx hne hW _ _ isQ1_2 _ is4Q1_2 _ (matElemPressure2 h) 0 _).1]
    have e1' : blockMatrix (velLayout N per lx) (tensorBlockMult (velLayout N per lx) getElement2 (matElemStrain2 h)) 0 g c = 0 := h0 true
    have e2' : blockMatrix (velLayout N per lx) (method2 false (velLayout N per lx) h)
        ((0 : NodeVec 2 2 ℝ), (fun _ _ => k : NodeVec 2 1 ℝ)).1 g c = 0 := h0 false
    rw [e1', e2']
  · exact hst

open Classical in
/-- C124 (constants, 2D): conversely, when every wall imposes its normal component, the residuals of the constant
pressures are sent to zero: with `C124_zero2` the eigenvalue 0 has exactly one eigenvector. -/
theorem C124_constant2 (strain : Bool) (N : Fin 2 → ℤ) (per : Fin 2 → Bool) (lx : Fin 2 → List ℤ)
    (hne : ∀ i, lx i ≠ []) (hW : ∀ i, (presLayout N per lx i).WF) (hN : ∀ i, 2 ≤ N i)
    (h : Pos 2 ℝ) (hh : ∀ c, 0 < h c) (rs : List (Fin 2 → ℕ)) (hrs : AllProcs (velLayout N per lx) rs)
    (bc : BC 2 ℝ) (hb : WallHeld (velLayout N per lx) bc) (hbc : NormalHeld per bc)
    (solve : NodeVec 2 2 ℝ → NodeVec 2 2 ℝ)
    (hex : ExactSolve (velLayout N per lx) (velBlock2 strain (velLayout N per lx) rs bc h) solve) (k : ℝ) :
    let r : NodeVec 2 2 ℝ × NodeVec 2 1 ℝ :=
      (0, fun q c => if q ∈ gridNodes (presLayout N per lx) then k * diagMass2 (presLayout N per lx) (fun c => 2 * h c) q c
        else 0)
    let y := system2 strain (velLayout N per lx) (presLayout N per lx) rs bc h
      (pmm2 strain (velLayout N per lx) (presLayout N per lx) rs bc h solve r)
    (∀ g ∈ gridNodes (velLayout N per lx), ∀ c, y.1 g c = 0) ∧ ∀ q ∈ gridNodes (presLayout N per lx), y.2 q 0 = 0 := by
  intro r y
  have hv := velLayout_wf N per lx hne hW
  have hne' : ∀ i, 1 ≤ (presLayout N per lx i).nElem := fun i => by rw [pres_nElem]; have := hN i; omega
  have hh2 : ∀ c, 0 < hp h c := fun c => mul_pos two_pos (hh c)
  obtain ⟨e1, e2, e3⟩ := C124_residual2 strain N per lx hne hW h rs hrs bc solve r
  set x := pmm2 strain (velLayout N per lx) (presLayout N per lx) rs bc h solve r with hx
  have hpk : ∀ q ∈ gridNodes (presLayout N per lx), ∀ c, x.2 q c = k := fun q hq c => by
    show (if q ∈ gridNodes (presLayout N per lx) then k * diagMass2 (presLayout N per lx) (fun c => 2 * h c) q c
        else 0) / diagMass2 (presLayout N per lx) (hp h) q c = k
    rw [if_pos hq, div_eq_iff (mass_diag_pos2 _ hW hne' _ hh2 q hq c).ne']
    rfl
  have hf : ∀ g ∈ gridNodes (velLayout N per lx), ∀ c,
      (system2 strain (velLayout N per lx) (presLayout N per lx) rs bc h (0, x.2)).1 g c = 0 := fun g hg c => by
    rw [← system_const2 strain N per lx hne hW h rs hrs bc hbc k g hg c]
    show setDirichletOnVec _ rs bc 0 _ g c = setDirichletOnVec _ rs bc 0 _ g c
    rw [C25_vec _ hv rs hrs, C25_vec _ hv rs hrs, vel_out N per lx hne hW _ _ isQ1_2 _ is4Q1_2,
      vel_out N per lx hne hW _ _ isQ1_2 _ is4Q1_2]
    have : ∀ e ∈ gridElems (presLayout N per lx), ∀ ip, x.2 (wrap (presLayout N per lx) (getElement2 e ip)) 0 = k :=
      fun e he ip => hpk _ (wrap_q1_mem (presLayout N per lx) getElement2 isQ1_2 e he ip) 0
    split_ifs
    · rfl
    refine congrArg₂ (· + ·) rfl ?_
    refine Finset.sum_congr rfl fun e he => Finset.sum_congr rfl fun j _ => ?_
    simp only [this e he]
  have hu : ∀ g ∈ gridNodes (velLayout N per lx), ∀ c, x.1 g c = 0 := by
    have h0 := blockBC_combines _ hv rs hrs bc _ (method2_lin strain _ hv h) 0 0 0 0
    simp only [zero_smul, add_zero] at h0
    have key : ∀ g ∈ gridNodes (velLayout N per lx), ∀ c, velBlock2 strain (velLayout N per lx) rs bc h x.1 g c =
        velBlock2 strain (velLayout N per lx) rs bc h 0 g c := fun g hg c => by
      have h1 : velBlock2 strain (velLayout N per lx) rs bc h 0 g c = 0 := congrFun (congrFun h0 g) c
      rw [h1, e1, hex _ g hg c]
      show (0 : ℝ) - _ = 0
      rw [hf g hg c, sub_zero]
    intro g hg c
    have hinj := C93_operator2 _ hv (vel_nElem N per lx hN) h hh rs hrs bc x.1 0
    cases strain
    · exact hinj.1 hb.components key g hg c
    · exact hinj.2 hb key g hg c
  refine ⟨fun g hg c => ?_, fun q hq => ?_⟩
  · have := e2 g hg c
    rw [e1, hex _ g hg c, sub_self] at this
    exact sub_eq_zero.1 this
  · refine (stokesBC_div N per lx hne hW _ _ isQ1_2 _ is4Q1_2 _ _ rs bc _ _ q).trans ?_
    unfold offDiagMatrix
    rw [pres_out N per lx hne hW _ _ isQ1_2 _ is4Q1_2]
    refine Finset.sum_eq_zero fun e he => Finset.sum_eq_zero fun ip _ => ?_
    split_ifs
    · refine Finset.sum_eq_zero fun j _ => Finset.sum_eq_zero fun c _ => ?_
      rw [hu _ (mem4 N per lx hne hW getElement2 getElement4Q1_2 isQ1_2 trit2 is4Q1_2 e he j) c, zero_mul]
    · rfl

open Classical in
theorem system_const3 (strain : Bool) (N : Fin 3 → ℤ) (per : Fin 3 → Bool) (lx : Fin 3 → List ℤ)
    (hne : ∀ i, lx i ≠ []) (hW : ∀ i, (presLayout N per lx i).WF)
    (h : Pos 3 ℝ) (rs : List (Fin 3 → ℕ)) (hrs : AllProcs (velLayout N per lx) rs) (bc : BC 3 ℝ)
    (hbc : NormalHeld per bc) (k : ℝ) (g : Pos 3 ℤ) (hg : g ∈ gridNodes (velLayout N per lx)) (c : Fin 3) :
    (system3 strain (velLayout N per lx) (presLayout N per lx) rs bc h (0, fun _ _ => k)).1 g c = 0 := by
  have hv := velLayout_wf N per lx hne hW
  have h0 : ∀ b, blockMatrix (velLayout N per lx) (method3 b (velLayout N per lx) h) 0 g c = 0 := fun b => by
    have := method3_lin b _ hv h 0 0 0 0
    simp only [zero_smul, add_zero] at this
    rw [this]; rfl
  have hst := (C19_nullspace3 N per lx hne hW h rs hrs bc hbc k g hg).1 c
  cases strain
  · rw [← hst]
    show setDirichletOnVec _ rs bc 0 _ g c = setDirichletOnVec _ rs bc 0 _ g c
    rw [C25_vec _ hv rs hrs, C25_vec _ hv rs hrs,
      (stokes_split N per lx hne hW _ _ isQ1_3 _ is4Q1_3 _ (matElemPressure3 h) 0 _).1,
      (stokes_split N per lx hne hW _ _ isQ1_3 _ is4Q1_3 _ (matElemPressure3 h) 0 _).1]
    have e1' : blockMatrix (velLayout N per lx) (tensorBlockMult (velLayout N per lx) getElement3 (matElemStrain3 h)) 0 g c = 0 := h0 true
    have e2' : blockMatrix (velLayout N per lx) (method3 false (velLayout N per lx) h)
        ((0 : NodeVec 3 3 ℝ), (fun _ _ => k : NodeVec 3 1 ℝ)).1 g c = 0 := h0 false
    rw [e1', e2']
  · exact hst

open Classical in
/-- C124 (constants, 3D): conversely, when every wall imposes its normal component, the residuals of the constant
pressures are sent to zero: with `C124_zero3` the eigenvalue 0 has exactly one eigenvector. -/
theorem C124_constant3 (strain : Bool) (N : Fin 3 → ℤ) (per : Fin 3 → Bool) (lx : Fin 3 → List ℤ)
    (hne : ∀ i, lx i ≠ []) (hW : ∀ i, (presLayout N per lx i).WF) (hN : ∀ i, 2 ≤ N i)
    (h : Pos 3 ℝ) (hh : ∀ c, 0 < h c) (rs : List (Fin 3 → ℕ)) (hrs : AllProcs (velLayout N per lx) rs)
    (bc : BC 3 ℝ) (hb : WallHeld (velLayout N per lx) bc) (hbc : NormalHeld per bc)
    (solve : NodeVec 3 3 ℝ → NodeVec 3 3 ℝ)
    (hex : ExactSolve (velLayout N per lx) (velBlock3 strain (velLayout N per lx) rs bc h) solve) (k : ℝ) :
    let r : NodeVec 3 3 ℝ × NodeVec 3 1 ℝ :=
      (0, fun q c => if q ∈ gridNodes (presLayout N per lx) then k * diagMass3 (presLayout N per lx) (fun c => 2 * h c) q c
        else 0)
    let y := system3 strain (velLayout N per lx) (presLayout N per lx) rs bc h
      (pmm3 strain (velLayout N per lx) (presLayout N per lx) rs bc h solve r)
    (∀ g ∈ gridNodes (velLayout N per lx), ∀ c, y.1 g c = 0) ∧ ∀ q ∈ gridNodes (presLayout N per lx), y.2 q 0 = 0 := by
  intro r y
  have hv := velLayout_wf N per lx hne hW
  have hne' : ∀ i, 1 ≤ (presLayout N per lx i).nElem := fun i => by rw [pres_nElem]; have := hN i; omega
  have hh2 : ∀ c, 0 < hp h c := fun c => mul_pos two_pos (hh c)
  obtain ⟨e1, e2, e3⟩ := C124_residual3 strain N per lx hne hW h rs hrs bc solve r
  set x := pmm3 strain (velLayout N per lx) (presLayout N per lx) rs bc h solve r with hx
  have hpk : ∀ q ∈ gridNodes (presLayout N per lx), ∀ c, x.2 q c = k := fun q hq c => by
    show (if q ∈ gridNodes (presLayout N per lx) then k * diagMass3 (presLayout N per lx) (fun c => 2 * h c) q c
        else 0) / diagMass3 (presLayout N per lx) (hp h) q c = k
    rw [if_pos hq, div_eq_iff (mass_diag_pos3 _ hW hne' _ hh2 q hq c).ne']
    rfl
  have hf : ∀ g ∈ gridNodes (velLayout N per lx), ∀ c,
      (system3 strain (velLayout N per lx) (presLayout N per lx) rs bc h (0, x.2)).1 g c = 0 := fun g hg c => by
    rw [← system_const3 strain N per lx hne hW h rs hrs bc hbc k g hg c]
    show setDirichletOnVec _ rs bc 0 _ g c = setDirichletOnVec _ rs bc 0 _ g c
    rw [C25_vec _ hv rs hrs, C25_vec _ hv rs hrs, vel_out N per lx hne hW _ _ isQ1_3 _ is4Q1_3,
      vel_out N per lx hne hW _ _ isQ1_3 _ is4Q1_3]
    have : ∀ e ∈ gridElems (presLayout N per lx), ∀ ip, x.2 (wrap (presLayout N per lx) (getElement3 e ip)) 0 = k :=
      fun e he ip => hpk _ (wrap_q1_mem (presLayout N per lx) getElement3 isQ1_3 e he ip) 0
    split_ifs
    · rfl
    refine congrArg₂ (· + ·) rfl ?_
    refine Finset.sum_congr rfl fun e he => Finset.sum_congr rfl fun j _ => ?_
    simp only [this e he]
  have hu : ∀ g ∈ gridNodes (velLayout N per lx), ∀ c, x.1 g c = 0 := by
    have h0 := blockBC_combines _ hv rs hrs bc _ (method3_lin strain _ hv h) 0 0 0 0
    simp only [zero_smul, add_zero] at h0
    have key : ∀ g ∈ gridNodes (velLayout N per lx), ∀ c, velBlock3 strain (velLayout N per lx) rs bc h x.1 g c =
        velBlock3 strain (velLayout N per lx) rs bc h 0 g c := fun g hg c => by
      have h1 : velBlock3 strain (velLayout N per lx) rs bc h 0 g c = 0 := congrFun (congrFun h0 g) c
      rw [h1, e1, hex _ g hg c]
      show (0 : ℝ) - _ = 0
      rw [hf g hg c, sub_zero]
    intro g hg c
    have hinj := C93_operator3 _ hv (vel_nElem N per lx hN) h hh rs hrs bc x.1 0
    cases strain
    · exact hinj.1 hb.components key g hg c
    · exact hinj.2 hb key g hg c
  refine ⟨fun g hg c => ?_, fun q hq => ?_⟩
  · have := e2 g hg c
    rw [e1, hex _ g hg c, sub_self] at this
    exact sub_eq_zero.1 this
  · refine (stokesBC_div N per lx hne hW _ _ isQ1_3 _ is4Q1_3 _ _ rs bc _ _ q).trans ?_
    unfold offDiagMatrix
    rw [pres_out N per lx hne hW _ _ isQ1_3 _ is4Q1_3]
    refine Finset.sum_eq_zero fun e he => Finset.sum_eq_zero fun ip _ => ?_
    split_ifs
    · refine Finset.sum_eq_zero fun j _ => Finset.sum_eq_zero fun c _ => ?_
      rw [hu _ (mem4 N per lx hne hW getElement3 getElement4Q1_3 isQ1_3 trit3 is4Q1_3 e he j) c, zero_mul]
    · rfl

/-- A walled box of 4 x 3 pressure nodes on one process. -/
theorem ex_pmm_wf : ∀ i, (presLayout ![4, 3] (fun _ => false) ![[4], [3]] i : Dir).WF := by
  intro i; fin_cases i <;> exact ⟨by decide, by decide⟩

/-- Concrete case: the hypotheses of `C124_spectrum2` are met, with an eigenvector, on a walled box of 4 x 3 pressure
nodes, for both forms of the velocity operator. -/
example (strain : Bool) : ∃ solve r, AllHeld (velLayout ![4, 3] (fun _ => false) ![[4], [3]])
      (fun _ _ => some fun _ : Pos 2 ℝ => (0 : ℝ)) ∧
    ExactSolve (velLayout ![4, 3] (fun _ => false) ![[4], [3]])
      (velBlock2 strain (velLayout ![4, 3] (fun _ => false) ![[4], [3]])
        (procs (velLayout ![4, 3] (fun _ => false) ![[4], [3]])).toList
        (fun _ _ => some fun _ : Pos 2 ℝ => (0 : ℝ)) ![1, 1 / 2]) solve ∧
    IsEigen (velLayout ![4, 3] (fun _ => false) ![[4], [3]]) (presLayout ![4, 3] (fun _ => false) ![[4], [3]])
      (fun x => system2 strain (velLayout ![4, 3] (fun _ => false) ![[4], [3]])
        (presLayout ![4, 3] (fun _ => false) ![[4], [3]])
        (procs (velLayout ![4, 3] (fun _ => false) ![[4], [3]])).toList
        (fun _ _ => some fun _ : Pos 2 ℝ => (0 : ℝ)) ![1, 1 / 2]
        (pmm2 strain (velLayout ![4, 3] (fun _ => false) ![[4], [3]]) (presLayout ![4, 3] (fun _ => false) ![[4], [3]])
          (procs (velLayout ![4, 3] (fun _ => false) ![[4], [3]])).toList
          (fun _ _ => some fun _ : Pos 2 ℝ => (0 : ℝ)) ![1, 1 / 2] solve x)) 0 0 r r := by
  have hne : ∀ i, (![[4], [3]] : Fin 2 → List ℤ) i ≠ [] := by intro i; fin_cases i <;> simp
  have hN : ∀ i, 2 ≤ (![4, 3] : Fin 2 → ℤ) i := by intro i; fin_cases i <;> norm_num
  have hh : ∀ c, 0 < (![1, 1 / 2] : Fin 2 → ℝ) c := by intro i; fin_cases i <;> norm_num
  have hrs : AllProcs (velLayout ![4, 3] (fun _ => false) ![[4], [3]])
    (procs (velLayout ![4, 3] (fun _ => false) ![[4], [3]])).toList := ⟨Finset.nodup_toList _, by simp⟩
  have hv := velLayout_wf ![4, 3] (fun _ => false) ![[4], [3]] hne ex_pmm_wf
  have hw : WallHeld (velLayout ![4, 3] (fun _ => false) ![[4], [3]]) (fun _ _ => some fun _ : Pos 2 ℝ => (0 : ℝ)) := by
    refine ⟨![0, 0], ?_, 0, ⟨0, rfl, Or.inl ⟨rfl, rfl⟩⟩, fun c => rfl⟩
    rw [mem_gridNodes]; intro i; fin_cases i <;> decide
  obtain ⟨solve, hs⟩ := exact_solve2 strain _ hv (vel_nElem _ _ _ hN) _ hh _ hrs _ hw
  have hc := C124_constant2 strain _ _ _ hne ex_pmm_wf hN _ hh _ hrs _ hw (fun a _ => ⟨rfl, rfl⟩) solve hs 1
  refine ⟨solve, (0, fun q c => if q ∈ gridNodes (presLayout ![4, 3] (fun _ => false) ![[4], [3]]) then
      1 * diagMass2 (presLayout ![4, 3] (fun _ => false) ![[4], [3]]) (fun c => 2 * (![1, 1 / 2] : Fin 2 → ℝ) c) q c
      else 0), fun g hg f hf c => rfl, hs, fun g hg c => ?_, fun g hg c => ?_, fun q hq => ?_, fun q hq => ?_,
    Or.inr ⟨![0, 0], ?_, Or.inl ?_⟩⟩
  · exact (hc.1 g hg c).trans (by ring)
  · exact (hc.1 g hg c).trans (by ring)
  · exact (hc.2 q hq).trans (by ring)
  · exact (hc.2 q hq).trans (by ring)
  · rw [mem_gridNodes]; intro i; fin_cases i <;> decide
  · have hm : (![0, 0] : Pos 2 ℤ) ∈ gridNodes (presLayout ![4, 3] (fun _ => false) ![[4], [3]]) := by
      rw [mem_gridNodes]; intro i; fin_cases i <;> decide
    show (if (![0, 0] : Pos 2 ℤ) ∈ gridNodes (presLayout ![4, 3] (fun _ => false) ![[4], [3]]) then
      1 * diagMass2 (presLayout ![4, 3] (fun _ => false) ![[4], [3]]) (fun c => 2 * (![1, 1 / 2] : Fin 2 → ℝ) c) ![0, 0] 0
      else 0) ≠ (0 : ℝ)
    rw [if_pos hm, one_mul]
    exact (mass_diag_pos2 _ ex_pmm_wf (fun i => by rw [pres_nElem]; have := hN i; omega) _
      (fun c => mul_pos two_pos (hh c)) _ hm 0).ne'

end Cafes.Props
