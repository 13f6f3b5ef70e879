/-
Property theorems: C103, the discrete Stokes flow is the admissible flow of least dissipation; reciprocal
theorem.
-/
import Verif.Props.Exact
import Verif.Spec.Dissipation

namespace Cafes.Props
open Cafes Cafes.Spec
variable {d NP NV : ℕ}

/-- `v` has the imposed values at the constrained dofs and satisfies the divergence rows of operator `F` with
right-hand side `(f, s)`. The divergence rows do not depend on the pressure. -/
def Admissible (Lv Lp : Fin d → Dir) (bc : BC d ℝ)
    (F : NodeVec d d ℝ → NodeVec d 1 ℝ → NodeVec d d ℝ × NodeVec d 1 ℝ)
    (f : NodeVec d d ℝ) (s : NodeVec d 1 ℝ) (v : NodeVec d d ℝ) : Prop :=
  (∀ g ∈ gridNodes Lv, ∀ c, Constrained Lv bc g c → v g c = f g c) ∧
  ∀ q ∈ gridNodes Lp, ∀ p, (F v p).2 q 0 = s q 0

/-- Half the dissipation `a` minus the work of the right-hand side. -/
noncomputable def netEnergy (L : Fin d → Dir) (bc : BC d ℝ) (a : NodeVec d d ℝ → NodeVec d d ℝ → ℝ)
    (f v : NodeVec d d ℝ) : ℝ := a v v / 2 - work L bc f v

theorem dot_add (L : Fin d → Dir) {n : ℕ} (x y z : NodeVec d n ℝ) :
    dot L x (y + z) = dot L x y + dot L x z := by
  unfold dot
  rw [← Finset.sum_add_distrib]
  refine Finset.sum_congr rfl fun g _ => ?_
  rw [← Finset.sum_add_distrib]
  exact Finset.sum_congr rfl fun c _ => mul_add _ _ _

theorem dot_sub (L : Fin d → Dir) {n : ℕ} (x y z : NodeVec d n ℝ) :
    dot L x (y - z) = dot L x y - dot L x z := by
  unfold dot
  rw [← Finset.sum_sub_distrib]
  refine Finset.sum_congr rfl fun g _ => ?_
  rw [← Finset.sum_sub_distrib]
  exact Finset.sum_congr rfl fun c _ => mul_sub _ _ _

theorem dot_comm' (L : Fin d → Dir) {n : ℕ} (x y : NodeVec d n ℝ) : dot L x y = dot L y x :=
  Finset.sum_congr rfl fun _ _ => Finset.sum_congr rfl fun _ _ => mul_comm _ _

section general
variable (N : Fin d → ℤ) (per : Fin d → Bool)
  (lx : Fin d → List ℤ) (hne : ∀ i, lx i ≠ []) (hW : ∀ i, (presLayout N per lx i).WF)
  (elemP : Pos d ℤ → Fin NP → Pos d ℤ) (elemV : Pos d ℤ → Fin NV → Pos d ℤ) (hel : IsQ1 elemP)
  (off : Fin NV → Fin d → Fin 3) (hoff : Is4Q1 elemV off)
  (apply : (Fin d → ℕ) → NodeVec d d ℝ → NodeVec d d ℝ → NodeVec d d ℝ)
  (B : Fin NP → Fin NV → Fin d → ℝ)
include hne hW hel hoff

theorem div_pressure (u : NodeVec d d ℝ) (p p' : NodeVec d 1 ℝ) (q : Pos d ℤ) :
    (offDiagMatrix (velLayout N per lx) (presLayout N per lx) elemP elemV B u p).2 q 0 =
      (offDiagMatrix (velLayout N per lx) (presLayout N per lx) elemP elemV B u p').2 q 0 := by
  unfold offDiagMatrix
  rw [pres_out N per lx hne hW elemP elemV hel off hoff, pres_out N per lx hne hW elemP elemV hel off hoff]

theorem admissible_of_solves (rs : List (Fin d → ℕ)) (hrs : AllProcs (velLayout N per lx) rs)
    (bc : BC d ℝ) (f u : NodeVec d d ℝ) (s p : NodeVec d 1 ℝ)
    (hu : Solves (velLayout N per lx) (presLayout N per lx) (stokesMatrixBC (velLayout N per lx)
      (presLayout N per lx) rs bc apply elemP elemV B) f s u p) :
    Admissible (velLayout N per lx) (presLayout N per lx) bc (stokesMatrixBC (velLayout N per lx)
      (presLayout N per lx) rs bc apply elemP elemV B) f s u := by
  have hv := velLayout_wf N per lx hne hW
  refine ⟨fun g hg c hc => ?_, fun q hq p' => ?_⟩
  · have := hu.1 g hg c
    unfold stokesMatrixBC at this
    simp only at this
    rwa [C25_vec _ hv rs hrs, if_pos ⟨hg, hc⟩] at this
  · rw [← hu.2 q hq, stokesBC_div N per lx hne hW elemP elemV hel off hoff,
      stokesBC_div N per lx hne hW elemP elemV hel off hoff,
      div_pressure N per lx hne hW elemP elemV hel off hoff B u p' p q]

/-- The unconstrained rows of a solution against a motion that vanishes at the constrained dofs. -/
theorem work_rows (rs : List (Fin d → ℕ)) (hrs : AllProcs (velLayout N per lx) rs)
    (bc : BC d ℝ) (f u w : NodeVec d d ℝ) (s p : NodeVec d 1 ℝ)
    (hu : Solves (velLayout N per lx) (presLayout N per lx) (stokesMatrixBC (velLayout N per lx)
      (presLayout N per lx) rs bc apply elemP elemV B) f s u p)
    (hw : ∀ g ∈ gridNodes (velLayout N per lx), ∀ c, Constrained (velLayout N per lx) bc g c → w g c = 0) :
    dot (velLayout N per lx) w (stokesMatrix (velLayout N per lx) (presLayout N per lx) apply elemP elemV
      B u p).1 = work (velLayout N per lx) bc f w := by
  have hv := velLayout_wf N per lx hne hW
  unfold dot work
  refine Finset.sum_congr rfl fun g hg => Finset.sum_congr rfl fun c _ => ?_
  by_cases hc : Constrained (velLayout N per lx) bc g c
  · rw [hw g hg c hc, zero_mul, if_pos hc]
  · rw [if_neg hc]
    have := hu.1 g hg c
    unfold stokesMatrixBC at this
    simp only at this
    rw [C25_vec _ hv rs hrs, if_neg fun h => hc h.2] at this
    rw [this, mul_comm]

/-- The exact gain of energy of a competitor. -/
theorem energy_gap (hsub : ∀ x y g c, blockMatrix (velLayout N per lx) apply (x - y) g c =
      blockMatrix (velLayout N per lx) apply x g c - blockMatrix (velLayout N per lx) apply y g c)
    (hsym : ∀ x y, dot (velLayout N per lx) x (blockMatrix (velLayout N per lx) apply y) =
      dot (velLayout N per lx) y (blockMatrix (velLayout N per lx) apply x))
    (rs : List (Fin d → ℕ)) (hrs : AllProcs (velLayout N per lx) rs)
    (bc : BC d ℝ) (f u v : NodeVec d d ℝ) (s p : NodeVec d 1 ℝ)
    (a : NodeVec d d ℝ → NodeVec d d ℝ → ℝ)
    (ha : ∀ x y, a x y = dot (velLayout N per lx) x (blockMatrix (velLayout N per lx) apply y))
    (hu : Solves (velLayout N per lx) (presLayout N per lx) (stokesMatrixBC (velLayout N per lx)
      (presLayout N per lx) rs bc apply elemP elemV B) f s u p)
    (hv : Admissible (velLayout N per lx) (presLayout N per lx) bc (stokesMatrixBC (velLayout N per lx)
      (presLayout N per lx) rs bc apply elemP elemV B) f s v) :
    netEnergy (velLayout N per lx) bc a f v = netEnergy (velLayout N per lx) bc a f u +
      a (v - u) (v - u) / 2 := by
  have hua := admissible_of_solves N per lx hne hW elemP elemV hel off hoff apply B rs hrs bc f u s p hu
  have hw : ∀ g ∈ gridNodes (velLayout N per lx), ∀ c, Constrained (velLayout N per lx) bc g c →
      (v - u) g c = 0 := fun g hg c hc => by
    show v g c - u g c = 0
    rw [hv.1 g hg c hc, hua.1 g hg c hc, sub_self]
  have hrow := work_rows N per lx hne hW elemP elemV hel off hoff apply B rs hrs bc f u (v - u) s p hu hw
  have hsp := stokes_split N per lx hne hW elemP elemV hel off hoff apply B u p
  have hfun : (stokesMatrix (velLayout N per lx) (presLayout N per lx) apply elemP elemV B u p).1 =
      blockMatrix (velLayout N per lx) apply u +
        (offDiagMatrix (velLayout N per lx) (presLayout N per lx) elemP elemV B u p).1 := by
    funext g c; exact hsp.1 g c
  rw [hfun, dot_add, adjoint N per lx hne hW elemP elemV hel off hoff B (v - u) u p 0] at hrow
  have hz : dot (presLayout N per lx) p
      (offDiagMatrix (velLayout N per lx) (presLayout N per lx) elemP elemV B (v - u) 0).2 = 0 := by
    unfold dot
    refine Finset.sum_eq_zero fun q hq => Finset.sum_eq_zero fun c _ => ?_
    have hc : c = 0 := Subsingleton.elim _ _
    subst hc
    have e := (stokes_sub N per lx hne hW elemP elemV hel off hoff apply B hsub v u 0 0).2 q 0
    rw [(stokes_split N per lx hne hW elemP elemV hel off hoff apply B v 0).2,
      (stokes_split N per lx hne hW elemP elemV hel off hoff apply B u 0).2,
      (stokes_split N per lx hne hW elemP elemV hel off hoff apply B _ _).2] at e
    have e1 := hv.2 q hq 0
    have e2 := hua.2 q hq 0
    rw [stokesBC_div N per lx hne hW elemP elemV hel off hoff] at e1 e2
    rw [e1, e2, sub_self, sub_self] at e
    rw [e, mul_zero]
  rw [hz, neg_zero, add_zero] at hrow
  have hbs : blockMatrix (velLayout N per lx) apply (v - u) =
      blockMatrix (velLayout N per lx) apply v - blockMatrix (velLayout N per lx) apply u := by
    funext g c; exact hsub v u g c
  have hww : work (velLayout N per lx) bc f (v - u) =
      work (velLayout N per lx) bc f v - work (velLayout N per lx) bc f u := by
    unfold work
    rw [← Finset.sum_sub_distrib]
    refine Finset.sum_congr rfl fun g _ => ?_
    rw [← Finset.sum_sub_distrib]
    refine Finset.sum_congr rfl fun c _ => ?_
    by_cases hc : Constrained (velLayout N per lx) bc g c
    · simp [hc]
    · simp only [hc, if_false]
      show f g c * (v g c - u g c) = _
      ring
  have key : ∀ x y z, a (x - y) z = a x z - a y z := by
    intro x y z
    rw [ha, hsym, ha x, hsym x, ha y, hsym y]
    have : blockMatrix (velLayout N per lx) apply (x - y) =
        blockMatrix (velLayout N per lx) apply x - blockMatrix (velLayout N per lx) apply y := by
      funext g c; exact hsub x y g c
    rw [this, dot_sub]
  have key2 : ∀ x y, a x y = a y x := fun x y => by rw [ha, hsym, ← ha]
  rw [hww, ← ha, key] at hrow
  have h1 := key v u (v - u)
  have h2 := key2 v (v - u)
  have h3 := key2 u (v - u)
  have h4 := key v u v
  have h5 := key v u u
  have h6 := key2 v u
  unfold netEnergy
  linarith

/-- A competitor with no more energy than a solution is a solution with the same pressure. -/
theorem solves_of_le (hsub : ∀ x y g c, blockMatrix (velLayout N per lx) apply (x - y) g c =
      blockMatrix (velLayout N per lx) apply x g c - blockMatrix (velLayout N per lx) apply y g c)
    (hsym : ∀ x y, dot (velLayout N per lx) x (blockMatrix (velLayout N per lx) apply y) =
      dot (velLayout N per lx) y (blockMatrix (velLayout N per lx) apply x))
    (hcong : ∀ x y : NodeVec d d ℝ, (∀ g ∈ gridNodes (velLayout N per lx), ∀ c, x g c = y g c) →
      ∀ g c, blockMatrix (velLayout N per lx) apply x g c = blockMatrix (velLayout N per lx) apply y g c)
    (rs : List (Fin d → ℕ)) (hrs : AllProcs (velLayout N per lx) rs)
    (bc : BC d ℝ) (f u v : NodeVec d d ℝ) (s p : NodeVec d 1 ℝ)
    (a : NodeVec d d ℝ → NodeVec d d ℝ → ℝ)
    (ha : ∀ x y, a x y = dot (velLayout N per lx) x (blockMatrix (velLayout N per lx) apply y))
    (hpsd : ∀ x, 0 ≤ a x x)
    (hdef : ∀ x, a x x = 0 → (∀ g ∈ gridNodes (velLayout N per lx), ∀ c,
      Constrained (velLayout N per lx) bc g c → x g c = 0) →
      ∀ g ∈ gridNodes (velLayout N per lx), ∀ c, x g c = 0)
    (hu : Solves (velLayout N per lx) (presLayout N per lx) (stokesMatrixBC (velLayout N per lx)
      (presLayout N per lx) rs bc apply elemP elemV B) f s u p)
    (hv : Admissible (velLayout N per lx) (presLayout N per lx) bc (stokesMatrixBC (velLayout N per lx)
      (presLayout N per lx) rs bc apply elemP elemV B) f s v)
    (hle : netEnergy (velLayout N per lx) bc a f v ≤ netEnergy (velLayout N per lx) bc a f u) :
    (∀ g ∈ gridNodes (velLayout N per lx), ∀ c, v g c = u g c) ∧
    Solves (velLayout N per lx) (presLayout N per lx) (stokesMatrixBC (velLayout N per lx)
      (presLayout N per lx) rs bc apply elemP elemV B) f s v p := by
  have hvl := velLayout_wf N per lx hne hW
  have hgap := energy_gap N per lx hne hW elemP elemV hel off hoff apply B hsub hsym rs hrs bc f u v s p a
    ha hu hv
  have hua := admissible_of_solves N per lx hne hW elemP elemV hel off hoff apply B rs hrs bc f u s p hu
  have h0 : a (v - u) (v - u) = 0 := le_antisymm (by linarith) (hpsd _)
  have heq : ∀ g ∈ gridNodes (velLayout N per lx), ∀ c, v g c = u g c := fun g hg c =>
    sub_eq_zero.1 (hdef (v - u) h0 (fun g hg c hc => by
      show v g c - u g c = 0
      rw [hv.1 g hg c hc, hua.1 g hg c hc, sub_self]) g hg c)
  refine ⟨heq, fun g hg c => ?_, fun q hq => hv.2 q hq p⟩
  rw [← hu.1 g hg c]
  unfold stokesMatrixBC
  simp only
  rw [C25_vec _ hvl rs hrs, C25_vec _ hvl rs hrs, heq g hg c,
    vel_out N per lx hne hW elemP elemV hel off hoff, vel_out N per lx hne hW elemP elemV hel off hoff,
    hcong v u heq]

/-- Reciprocal identity for any symmetric velocity block. -/
theorem reciprocal
    (hsym : ∀ x y, dot (velLayout N per lx) x (blockMatrix (velLayout N per lx) apply y) =
      dot (velLayout N per lx) y (blockMatrix (velLayout N per lx) apply x))
    (u u' : NodeVec d d ℝ) (p p' : NodeVec d 1 ℝ) :
    dot (velLayout N per lx) u' (stokesMatrix (velLayout N per lx) (presLayout N per lx) apply elemP elemV
      B u p).1 + dot (presLayout N per lx) p (stokesMatrix (velLayout N per lx) (presLayout N per lx) apply
        elemP elemV B u' p').2 =
    dot (velLayout N per lx) u (stokesMatrix (velLayout N per lx) (presLayout N per lx) apply elemP elemV
      B u' p').1 + dot (presLayout N per lx) p' (stokesMatrix (velLayout N per lx) (presLayout N per lx)
        apply elemP elemV B u p).2 := by
  have hfun : ∀ (u : NodeVec d d ℝ) (p : NodeVec d 1 ℝ), (stokesMatrix (velLayout N per lx)
      (presLayout N per lx) apply elemP elemV B u p).1 = blockMatrix (velLayout N per lx) apply u +
        (offDiagMatrix (velLayout N per lx) (presLayout N per lx) elemP elemV B u p).1 := fun u p => by
    funext g c; exact (stokes_split N per lx hne hW elemP elemV hel off hoff apply B u p).1 g c
  have hfun2 : ∀ (u : NodeVec d d ℝ) (p : NodeVec d 1 ℝ), (stokesMatrix (velLayout N per lx)
      (presLayout N per lx) apply elemP elemV B u p).2 =
        (offDiagMatrix (velLayout N per lx) (presLayout N per lx) elemP elemV B u p).2 := fun u p => by
    funext g c; exact (stokes_split N per lx hne hW elemP elemV hel off hoff apply B u p).2 g c
  rw [hfun, hfun, hfun2, hfun2, dot_add, dot_add,
    adjoint N per lx hne hW elemP elemV hel off hoff B u' u p p',
    adjoint N per lx hne hW elemP elemV hel off hoff B u u' p' p, hsym u' u]
  ring

end general

theorem diagBlock_congr {n : ℕ} (L : Fin d → Dir) (hL : ∀ i, (L i).WF) (elem : Pos d ℤ → Fin NP → Pos d ℤ)
    (hel : IsQ1 elem) (M : Fin NP → Fin NP → ℝ) (x y : NodeVec d n ℝ)
    (h : ∀ g ∈ gridNodes L, ∀ c, x g c = y g c) (g : Pos d ℤ) (c : Fin n) :
    blockMatrix L (diagBlockMult L elem M) x g c = blockMatrix L (diagBlockMult L elem M) y g c := by
  rw [diagBlock_global L hL elem hel, diagBlock_global L hL elem hel]
  refine Finset.sum_congr rfl fun e he => Finset.sum_congr rfl fun k _ => ?_
  rw [Finset.sum_congr rfl fun k2 _ => by rw [h _ (wrap_q1_mem L elem hel e he k2) c]]

theorem tensorBlock_congr {n : ℕ} (L : Fin d → Dir) (hL : ∀ i, (L i).WF)
    (elem : Pos d ℤ → Fin NP → Pos d ℤ)
    (hel : IsQ1 elem) (M : Fin NP → Fin NP → Fin n → Fin n → ℝ) (x y : NodeVec d n ℝ)
    (h : ∀ g ∈ gridNodes L, ∀ c, x g c = y g c) (g : Pos d ℤ) (c : Fin n) :
    blockMatrix L (tensorBlockMult L elem M) x g c = blockMatrix L (tensorBlockMult L elem M) y g c := by
  rw [tensorBlock_global L hL elem hel, tensorBlock_global L hL elem hel]
  refine Finset.sum_congr rfl fun e he => Finset.sum_congr rfl fun k _ => ?_
  rw [Finset.sum_congr rfl fun k2 _ => Finset.sum_congr rfl fun c2 _ => by
    rw [h _ (wrap_q1_mem L elem hel e he k2) c2]]

/-- C103 (2D, strain): a discrete Stokes flow with the strain operator has the least net energy (half the
viscous dissipation of the finite element field minus the work of the forces) of all the velocities with the
same imposed values and the same divergence; the excess of a competitor is half the dissipation of the
difference. -/
theorem C103_strain2 (N : Fin 2 → ℤ) (per : Fin 2 → Bool) (lx : Fin 2 → List ℤ)
    (hne : ∀ i, lx i ≠ []) (hW : ∀ i, (presLayout N per lx i).WF)
    (h : Pos 2 ℝ) (hh : ∀ c, 0 < h c) (rs : List (Fin 2 → ℕ)) (hrs : AllProcs (velLayout N per lx) rs)
    (bc : BC 2 ℝ) (f u v : NodeVec 2 2 ℝ) (s p : NodeVec 2 1 ℝ)
    (hu : Solves (velLayout N per lx) (presLayout N per lx) (stokesStrain2 N per lx rs bc h) f s u p)
    (hv : Admissible (velLayout N per lx) (presLayout N per lx) bc (stokesStrain2 N per lx rs bc h) f s v) :
    netEnergy (velLayout N per lx) bc (viscous2 (velLayout N per lx) h) f v =
      netEnergy (velLayout N per lx) bc (viscous2 (velLayout N per lx) h) f u +
        viscous2 (velLayout N per lx) h (v - u) (v - u) / 2 ∧
    netEnergy (velLayout N per lx) bc (viscous2 (velLayout N per lx) h) f u ≤
      netEnergy (velLayout N per lx) bc (viscous2 (velLayout N per lx) h) f v := by
  have hvw := velLayout_wf N per lx hne hW
  have ha := fun x y => (C86_strain2 (velLayout N per lx) hvw h hh x y).symm
  have hgap := energy_gap N per lx hne hW _ _ isQ1_2 _ is4Q1_2 _ _
    (tensorBlock_sub _ hvw _ isQ1_2 _) (C15_symmetric2 (n := 2) _ hvw h hh).2.2 rs hrs bc f u v s p
    (viscous2 (velLayout N per lx) h) ha hu hv
  refine ⟨hgap, ?_⟩
  have hp := (C15_psd2 (n := 2) _ hvw h hh).2 (v - u)
  rw [hgap, show viscous2 (velLayout N per lx) h (v - u) (v - u) = _ from ha _ _]
  linarith

/-- C103 (2D, Laplacian): the same with the Dirichlet energy. -/
theorem C103_laplacian2 (N : Fin 2 → ℤ) (per : Fin 2 → Bool) (lx : Fin 2 → List ℤ)
    (hne : ∀ i, lx i ≠ []) (hW : ∀ i, (presLayout N per lx i).WF)
    (h : Pos 2 ℝ) (hh : ∀ c, 0 < h c) (rs : List (Fin 2 → ℕ)) (hrs : AllProcs (velLayout N per lx) rs)
    (bc : BC 2 ℝ) (f u v : NodeVec 2 2 ℝ) (s p : NodeVec 2 1 ℝ)
    (hu : Solves (velLayout N per lx) (presLayout N per lx) (stokesLap2 N per lx rs bc h) f s u p)
    (hv : Admissible (velLayout N per lx) (presLayout N per lx) bc (stokesLap2 N per lx rs bc h) f s v) :
    netEnergy (velLayout N per lx) bc (gradEnergy2 (velLayout N per lx) h) f v =
      netEnergy (velLayout N per lx) bc (gradEnergy2 (velLayout N per lx) h) f u +
        gradEnergy2 (velLayout N per lx) h (v - u) (v - u) / 2 ∧
    netEnergy (velLayout N per lx) bc (gradEnergy2 (velLayout N per lx) h) f u ≤
      netEnergy (velLayout N per lx) bc (gradEnergy2 (velLayout N per lx) h) f v := by
  have hvw := velLayout_wf N per lx hne hW
  have ha := fun x y => (C86_laplacian2 (n := 2) (velLayout N per lx) hvw h hh x y).symm
  have hgap := energy_gap N per lx hne hW _ _ isQ1_2 _ is4Q1_2 _ _
    (diagBlock_sub _ hvw _ isQ1_2 _) (C15_symmetric2 (n := 2) _ hvw h hh).1 rs hrs bc f u v s p
    (gradEnergy2 (velLayout N per lx) h) ha hu hv
  refine ⟨hgap, ?_⟩
  have hp := (C15_psd2 (n := 2) _ hvw h hh).1 (v - u)
  rw [hgap, show gradEnergy2 (velLayout N per lx) h (v - u) (v - u) = _ from ha _ _]
  linarith

/-- C103 (2D, characterisation): when the system has a solution and the walls hold the flow, the solutions
are exactly the admissible velocities of least net energy: such a velocity satisfies the momentum equations
with some pressure. -/
theorem C103_characterised2 (N : Fin 2 → ℤ) (per : Fin 2 → Bool) (lx : Fin 2 → List ℤ)
    (hne : ∀ i, lx i ≠ []) (hW : ∀ i, (presLayout N per lx i).WF) (hN : ∀ i, 2 ≤ N i)
    (h : Pos 2 ℝ) (hh : ∀ c, 0 < h c) (rs : List (Fin 2 → ℕ)) (hrs : AllProcs (velLayout N per lx) rs)
    (bc : BC 2 ℝ) (f v : NodeVec 2 2 ℝ) (s : NodeVec 2 1 ℝ) :
    (WallHeld (velLayout N per lx) bc →
      (∃ u p, Solves (velLayout N per lx) (presLayout N per lx) (stokesStrain2 N per lx rs bc h) f s u p) →
      ((∃ p, Solves (velLayout N per lx) (presLayout N per lx) (stokesStrain2 N per lx rs bc h) f s v p) ↔
        Admissible (velLayout N per lx) (presLayout N per lx) bc (stokesStrain2 N per lx rs bc h) f s v ∧
        ∀ w, Admissible (velLayout N per lx) (presLayout N per lx) bc (stokesStrain2 N per lx rs bc h) f s w →
          netEnergy (velLayout N per lx) bc (viscous2 (velLayout N per lx) h) f v ≤
            netEnergy (velLayout N per lx) bc (viscous2 (velLayout N per lx) h) f w)) ∧
    (ComponentsHeld (velLayout N per lx) bc →
      (∃ u p, Solves (velLayout N per lx) (presLayout N per lx) (stokesLap2 N per lx rs bc h) f s u p) →
      ((∃ p, Solves (velLayout N per lx) (presLayout N per lx) (stokesLap2 N per lx rs bc h) f s v p) ↔
        Admissible (velLayout N per lx) (presLayout N per lx) bc (stokesLap2 N per lx rs bc h) f s v ∧
        ∀ w, Admissible (velLayout N per lx) (presLayout N per lx) bc (stokesLap2 N per lx rs bc h) f s w →
          netEnergy (velLayout N per lx) bc (gradEnergy2 (velLayout N per lx) h) f v ≤
            netEnergy (velLayout N per lx) bc (gradEnergy2 (velLayout N per lx) h) f w)) := by
  have hvw := velLayout_wf N per lx hne hW
  have hv1 := vel_nElem N per lx hN
  refine ⟨fun hb ⟨u, p, hu⟩ => ⟨fun ⟨q, hq⟩ => ⟨?_, fun w hw => ?_⟩, fun ⟨h1, h2⟩ => ⟨p, ?_⟩⟩,
    fun hb ⟨u, p, hu⟩ => ⟨fun ⟨q, hq⟩ => ⟨?_, fun w hw => ?_⟩, fun ⟨h1, h2⟩ => ⟨p, ?_⟩⟩⟩
  · exact admissible_of_solves N per lx hne hW _ _ isQ1_2 _ is4Q1_2 _ _ rs hrs bc f v s q hq
  · exact (C103_strain2 N per lx hne hW h hh rs hrs bc f v w s q hq hw).2
  · have hua := admissible_of_solves N per lx hne hW _ _ isQ1_2 _ is4Q1_2 _ _ rs hrs bc f u s p hu
    have ha := fun x y => (C86_strain2 (velLayout N per lx) hvw h hh x y).symm
    refine (solves_of_le N per lx hne hW _ _ isQ1_2 _ is4Q1_2 _ _
      (tensorBlock_sub _ hvw _ isQ1_2 _) (C15_symmetric2 (n := 2) _ hvw h hh).2.2
      (tensorBlock_congr _ hvw _ isQ1_2 _) rs hrs bc f u v s p (viscous2 (velLayout N per lx) h) ha
      (fun x => ?_) (fun x hx hz g hg c => ?_) hu h1 (h2 u hua)).2
    · rw [show viscous2 (velLayout N per lx) h x x = _ from ha _ _]
      exact (C15_psd2 (n := 2) _ hvw h hh).2 x
    · obtain ⟨g0, -, fc, hf, hs⟩ := hb
      exact strain2_definite _ hvw hv1 h hh x ((ha x x).symm.trans hx) fc g0 hf
        (fun g hg hgf c => hz g hg c ⟨fc, hgf, hs c⟩) g hg c
  · exact admissible_of_solves N per lx hne hW _ _ isQ1_2 _ is4Q1_2 _ _ rs hrs bc f v s q hq
  · exact (C103_laplacian2 N per lx hne hW h hh rs hrs bc f v w s q hq hw).2
  · have hua := admissible_of_solves N per lx hne hW _ _ isQ1_2 _ is4Q1_2 _ _ rs hrs bc f u s p hu
    have ha := fun x y => (C86_laplacian2 (n := 2) (velLayout N per lx) hvw h hh x y).symm
    refine (solves_of_le N per lx hne hW _ _ isQ1_2 _ is4Q1_2 _ _
      (diagBlock_sub _ hvw _ isQ1_2 _) (C15_symmetric2 (n := 2) _ hvw h hh).1
      (diagBlock_congr _ hvw _ isQ1_2 _) rs hrs bc f u v s p (gradEnergy2 (velLayout N per lx) h) ha
      (fun x => ?_) (fun x hx hz g hg c => ?_) hu h1 (h2 u hua)).2
    · rw [show gradEnergy2 (velLayout N per lx) h x x = _ from ha _ _]
      exact (C15_psd2 (n := 2) _ hvw h hh).1 x
    · obtain ⟨g0, -, fc, hf, hs⟩ := hb c
      exact lap2_definite _ hvw hv1 h hh x ((ha x x).symm.trans hx) c fc g0 hf
        (fun g hg hgf => hz g hg c ⟨fc, hgf, hs⟩) g hg

/-- C103 (2D, reciprocal theorem): for any two velocities and pressures, the work of the nodal forces of one
flow in the motion of the other, plus the work of its pressure against the divergence of the other, is
symmetric. For divergence free flows the work of the forces of one in the motion of the other is
symmetric. -/
theorem C103_reciprocal2 (N : Fin 2 → ℤ) (per : Fin 2 → Bool) (lx : Fin 2 → List ℤ)
    (hne : ∀ i, lx i ≠ []) (hW : ∀ i, (presLayout N per lx i).WF)
    (h : Pos 2 ℝ) (hh : ∀ c, 0 < h c) (u u' : NodeVec 2 2 ℝ) (p p' : NodeVec 2 1 ℝ) :
    ∀ F ∈ [stokesMatrix (velLayout N per lx) (presLayout N per lx) (tensorBlockMult (velLayout N per lx)
          getElement2 (matElemStrain2 h)) getElement2 getElement4Q1_2 (matElemPressure2 h),
        stokesMatrix (velLayout N per lx) (presLayout N per lx) (diagBlockMult (velLayout N per lx)
          getElement2 (matElemLaplacian2 h)) getElement2 getElement4Q1_2 (matElemPressure2 h)],
      (dot (velLayout N per lx) u' (F u p).1 + dot (presLayout N per lx) p (F u' p').2 =
        dot (velLayout N per lx) u (F u' p').1 + dot (presLayout N per lx) p' (F u p).2) ∧
      ((∀ q ∈ gridNodes (presLayout N per lx), (F u p).2 q 0 = 0) →
        (∀ q ∈ gridNodes (presLayout N per lx), (F u' p').2 q 0 = 0) →
        dot (velLayout N per lx) u' (F u p).1 = dot (velLayout N per lx) u (F u' p').1) := by
  have hvw := velLayout_wf N per lx hne hW
  have hz : ∀ p z : NodeVec 2 1 ℝ, (∀ q ∈ gridNodes (presLayout N per lx), z q 0 = 0) →
      dot (presLayout N per lx) p z = 0 := fun p z hz => by
    unfold dot
    refine Finset.sum_eq_zero fun q hq => Finset.sum_eq_zero fun c _ => ?_
    have hc : c = 0 := Subsingleton.elim _ _
    rw [hc, hz q hq, mul_zero]
  have key : ∀ F : NodeVec 2 2 ℝ → NodeVec 2 1 ℝ → NodeVec 2 2 ℝ × NodeVec 2 1 ℝ,
      dot (velLayout N per lx) u' (F u p).1 + dot (presLayout N per lx) p (F u' p').2 =
        dot (velLayout N per lx) u (F u' p').1 + dot (presLayout N per lx) p' (F u p).2 →
      (∀ q ∈ gridNodes (presLayout N per lx), (F u p).2 q 0 = 0) →
        (∀ q ∈ gridNodes (presLayout N per lx), (F u' p').2 q 0 = 0) →
        dot (velLayout N per lx) u' (F u p).1 = dot (velLayout N per lx) u (F u' p').1 := by
    intro F e h1 h2
    rwa [hz p _ h2, hz p' _ h1, add_zero, add_zero] at e
  have e1 := reciprocal N per lx hne hW _ _ isQ1_2 _ is4Q1_2 _ (matElemPressure2 h)
    (C15_symmetric2 (n := 2) _ hvw h hh).2.2 u u' p p'
  have e2 := reciprocal N per lx hne hW _ _ isQ1_2 _ is4Q1_2 _ (matElemPressure2 h)
    (C15_symmetric2 (n := 2) _ hvw h hh).1 u u' p p'
  intro F hF
  simp only [List.mem_cons, List.not_mem_nil, or_false] at hF
  rcases hF with rfl | rfl
  · exact ⟨e1, key _ e1⟩
  · exact ⟨e2, key _ e2⟩

/-- C103 (3D, strain): a discrete Stokes flow with the strain operator has the least net energy (half the
viscous dissipation of the finite element field minus the work of the forces) of all the velocities with the
same imposed values and the same divergence; the excess of a competitor is half the dissipation of the
difference. -/
theorem C103_strain3 (N : Fin 3 → ℤ) (per : Fin 3 → Bool) (lx : Fin 3 → List ℤ)
    (hne : ∀ i, lx i ≠ []) (hW : ∀ i, (presLayout N per lx i).WF)
    (h : Pos 3 ℝ) (hh : ∀ c, 0 < h c) (rs : List (Fin 3 → ℕ)) (hrs : AllProcs (velLayout N per lx) rs)
    (bc : BC 3 ℝ) (f u v : NodeVec 3 3 ℝ) (s p : NodeVec 3 1 ℝ)
    (hu : Solves (velLayout N per lx) (presLayout N per lx) (stokesStrain3 N per lx rs bc h) f s u p)
    (hv : Admissible (velLayout N per lx) (presLayout N per lx) bc (stokesStrain3 N per lx rs bc h) f s v) :
    netEnergy (velLayout N per lx) bc (viscous3 (velLayout N per lx) h) f v =
      netEnergy (velLayout N per lx) bc (viscous3 (velLayout N per lx) h) f u +
        viscous3 (velLayout N per lx) h (v - u) (v - u) / 2 ∧
    netEnergy (velLayout N per lx) bc (viscous3 (velLayout N per lx) h) f u ≤
      netEnergy (velLayout N per lx) bc (viscous3 (velLayout N per lx) h) f v := by
  have hvw := velLayout_wf N per lx hne hW
  have ha := fun x y => (C86_strain3 (velLayout N per lx) hvw h hh x y).symm
  have hgap := energy_gap N per lx hne hW _ _ isQ1_3 _ is4Q1_3 _ _
    (tensorBlock_sub _ hvw _ isQ1_3 _) (C15_symmetric3 (n := 3) _ hvw h hh).2.2 rs hrs bc f u v s p
    (viscous3 (velLayout N per lx) h) ha hu hv
  refine ⟨hgap, ?_⟩
  have hp := (C15_psd3 (n := 3) _ hvw h hh).2 (v - u)
  rw [hgap, show viscous3 (velLayout N per lx) h (v - u) (v - u) = _ from ha _ _]
  linarith

/-- C103 (3D, Laplacian): the same with the Dirichlet energy. -/
theorem C103_laplacian3 (N : Fin 3 → ℤ) (per : Fin 3 → Bool) (lx : Fin 3 → List ℤ)
    (hne : ∀ i, lx i ≠ []) (hW : ∀ i, (presLayout N per lx i).WF)
    (h : Pos 3 ℝ) (hh : ∀ c, 0 < h c) (rs : List (Fin 3 → ℕ)) (hrs : AllProcs (velLayout N per lx) rs)
    (bc : BC 3 ℝ) (f u v : NodeVec 3 3 ℝ) (s p : NodeVec 3 1 ℝ)
    (hu : Solves (velLayout N per lx) (presLayout N per lx) (stokesLap3 N per lx rs bc h) f s u p)
    (hv : Admissible (velLayout N per lx) (presLayout N per lx) bc (stokesLap3 N per lx rs bc h) f s v) :
    netEnergy (velLayout N per lx) bc (gradEnergy3 (velLayout N per lx) h) f v =
      netEnergy (velLayout N per lx) bc (gradEnergy3 (velLayout N per lx) h) f u +
        gradEnergy3 (velLayout N per lx) h (v - u) (v - u) / 2 ∧
    netEnergy (velLayout N per lx) bc (gradEnergy3 (velLayout N per lx) h) f u ≤
      netEnergy (velLayout N per lx) bc (gradEnergy3 (velLayout N per lx) h) f v := by
  have hvw := velLayout_wf N per lx hne hW
  have ha := fun x y => (C86_laplacian3 (n := 3) (velLayout N per lx) hvw h hh x y).symm
  have hgap := energy_gap N per lx hne hW _ _ isQ1_3 _ is4Q1_3 _ _
    (diagBlock_sub _ hvw _ isQ1_3 _) (C15_symmetric3 (n := 3) _ hvw h hh).1 rs hrs bc f u v s p
    (gradEnergy3 (velLayout N per lx) h) ha hu hv
  refine ⟨hgap, ?_⟩
  have hp := (C15_psd3 (n := 3) _ hvw h hh).1 (v - u)
  rw [hgap, show gradEnergy3 (velLayout N per lx) h (v - u) (v - u) = _ from ha _ _]
  linarith

/-- C103 (3D, characterisation): when the system has a solution and the walls hold the flow, the solutions
are exactly the admissible velocities of least net energy: such a velocity satisfies the momentum equations
with some pressure. -/
theorem C103_characterised3 (N : Fin 3 → ℤ) (per : Fin 3 → Bool) (lx : Fin 3 → List ℤ)
    (hne : ∀ i, lx i ≠ []) (hW : ∀ i, (presLayout N per lx i).WF) (hN : ∀ i, 2 ≤ N i)
    (h : Pos 3 ℝ) (hh : ∀ c, 0 < h c) (rs : List (Fin 3 → ℕ)) (hrs : AllProcs (velLayout N per lx) rs)
    (bc : BC 3 ℝ) (f v : NodeVec 3 3 ℝ) (s : NodeVec 3 1 ℝ) :
    (WallHeld (velLayout N per lx) bc →
      (∃ u p, Solves (velLayout N per lx) (presLayout N per lx) (stokesStrain3 N per lx rs bc h) f s u p) →
      ((∃ p, Solves (velLayout N per lx) (presLayout N per lx) (stokesStrain3 N per lx rs bc h) f s v p) ↔
        Admissible (velLayout N per lx) (presLayout N per lx) bc (stokesStrain3 N per lx rs bc h) f s v ∧
        ∀ w, Admissible (velLayout N per lx) (presLayout N per lx) bc (stokesStrain3 N per lx rs bc h) f s w →
          netEnergy (velLayout N per lx) bc (viscous3 (velLayout N per lx) h) f v ≤
            netEnergy (velLayout N per lx) bc (viscous3 (velLayout N per lx) h) f w)) ∧
    (ComponentsHeld (velLayout N per lx) bc →
      (∃ u p, Solves (velLayout N per lx) (presLayout N per lx) (stokesLap3 N per lx rs bc h) f s u p) →
      ((∃ p, Solves (velLayout N per lx) (presLayout N per lx) (stokesLap3 N per lx rs bc h) f s v p) ↔
        Admissible (velLayout N per lx) (presLayout N per lx) bc (stokesLap3 N per lx rs bc h) f s v ∧
        ∀ w, Admissible (velLayout N per lx) (presLayout N per lx) bc (stokesLap3 N per lx rs bc h) f s w →
          netEnergy (velLayout N per lx) bc (gradEnergy3 (velLayout N per lx) h) f v ≤
            netEnergy (velLayout N per lx) bc (gradEnergy3 (velLayout N per lx) h) f w)) := by
  have hvw := velLayout_wf N per lx hne hW
  have hv1 := vel_nElem N per lx hN
  refine ⟨fun hb ⟨u, p, hu⟩ => ⟨fun ⟨q, hq⟩ => ⟨?_, fun w hw => ?_⟩, fun ⟨h1, h2⟩ => ⟨p, ?_⟩⟩,
    fun hb ⟨u, p, hu⟩ => ⟨fun ⟨q, hq⟩ => ⟨?_, fun w hw => ?_⟩, fun ⟨h1, h2⟩ => ⟨p, ?_⟩⟩⟩
  · exact admissible_of_solves N per lx hne hW _ _ isQ1_3 _ is4Q1_3 _ _ rs hrs bc f v s q hq
  · exact (C103_strain3 N per lx hne hW h hh rs hrs bc f v w s q hq hw).2
  · have hua := admissible_of_solves N per lx hne hW _ _ isQ1_3 _ is4Q1_3 _ _ rs hrs bc f u s p hu
    have ha := fun x y => (C86_strain3 (velLayout N per lx) hvw h hh x y).symm
    refine (solves_of_le N per lx hne hW _ _ isQ1_3 _ is4Q1_3 _ _
      (tensorBlock_sub _ hvw _ isQ1_3 _) (C15_symmetric3 (n := 3) _ hvw h hh).2.2
      (tensorBlock_congr _ hvw _ isQ1_3 _) rs hrs bc f u v s p (viscous3 (velLayout N per lx) h) ha
      (fun x => ?_) (fun x hx hz g hg c => ?_) hu h1 (h2 u hua)).2
    · rw [show viscous3 (velLayout N per lx) h x x = _ from ha _ _]
      exact (C15_psd3 (n := 3) _ hvw h hh).2 x
    · obtain ⟨g0, -, fc, hf, hs⟩ := hb
      exact strain3_definite _ hvw hv1 h hh x ((ha x x).symm.trans hx) fc g0 hf
        (fun g hg hgf c => hz g hg c ⟨fc, hgf, hs c⟩) g hg c
  · exact admissible_of_solves N per lx hne hW _ _ isQ1_3 _ is4Q1_3 _ _ rs hrs bc f v s q hq
  · exact (C103_laplacian3 N per lx hne hW h hh rs hrs bc f v w s q hq hw).2
  · have hua := admissible_of_solves N per lx hne hW _ _ isQ1_3 _ is4Q1_3 _ _ rs hrs bc f u s p hu
    have ha := fun x y => (C86_laplacian3 (n := 3) (velLayout N per lx) hvw h hh x y).symm
    refine (solves_of_le N per lx hne hW _ _ isQ1_3 _ is4Q1_3 _ _
      (diagBlock_sub _ hvw _ isQ1_3 _) (C15_symmetric3 (n := 3) _ hvw h hh).1
      (diagBlock_congr _ hvw _ isQ1_3 _) rs hrs bc f u v s p (gradEnergy3 (velLayout N per lx) h) ha
      (fun x => ?_) (fun x hx hz g hg c => ?_) hu h1 (h2 u hua)).2
    · rw [show gradEnergy3 (velLayout N per lx) h x x = _ from ha _ _]
      exact (C15_psd3 (n := 3) _ hvw h hh).1 x
    · obtain ⟨g0, -, fc, hf, hs⟩ := hb c
      exact lap3_definite _ hvw hv1 h hh x ((ha x x).symm.trans hx) c fc g0 hf
        (fun g hg hgf => hz g hg c ⟨fc, hgf, hs⟩) g hg

/-- C103 (3D, reciprocal theorem): for any two velocities and pressures, the work of the nodal forces of one
flow in the motion of the other, plus the work of its pressure against the divergence of the other, is
symmetric. For divergence free flows the work of the forces of one in the motion of the other is
symmetric. -/
theorem C103_reciprocal3 (N : Fin 3 → ℤ) (per : Fin 3 → Bool) (lx : Fin 3 → List ℤ)
    (hne : ∀ i, lx i ≠ []) (hW : ∀ i, (presLayout N per lx i).WF)
    (h : Pos 3 ℝ) (hh : ∀ c, 0 < h c) (u u' : NodeVec 3 3 ℝ) (p p' : NodeVec 3 1 ℝ) :
    ∀ F ∈ [stokesMatrix (velLayout N per lx) (presLayout N per lx) (tensorBlockMult (velLayout N per lx)
          getElement3 (matElemStrain3 h)) getElement3 getElement4Q1_3 (matElemPressure3 h),
        stokesMatrix (velLayout N per lx) (presLayout N per lx) (diagBlockMult (velLayout N per lx)
          getElement3 (matElemLaplacian3 h)) getElement3 getElement4Q1_3 (matElemPressure3 h)],
      (dot (velLayout N per lx) u' (F u p).1 + dot (presLayout N per lx) p (F u' p').2 =
        dot (velLayout N per lx) u (F u' p').1 + dot (presLayout N per lx) p' (F u p).2) ∧
      ((∀ q ∈ gridNodes (presLayout N per lx), (F u p).2 q 0 = 0) →
        (∀ q ∈ gridNodes (presLayout N per lx), (F u' p').2 q 0 = 0) →
        dot (velLayout N per lx) u' (F u p).1 = dot (velLayout N per lx) u (F u' p').1) := by
  have hvw := velLayout_wf N per lx hne hW
  have hz : ∀ p z : NodeVec 3 1 ℝ, (∀ q ∈ gridNodes (presLayout N per lx), z q 0 = 0) →
      dot (presLayout N per lx) p z = 0 := fun p z hz => by
    unfold dot
    refine Finset.sum_eq_zero fun q hq => Finset.sum_eq_zero fun c _ => ?_
    have hc : c = 0 := Subsingleton.elim _ _
    rw [hc, hz q hq, mul_zero]
  have key : ∀ F : NodeVec 3 3 ℝ → NodeVec 3 1 ℝ → NodeVec 3 3 ℝ × NodeVec 3 1 ℝ,
      dot (velLayout N per lx) u' (F u p).1 + dot (presLayout N per lx) p (F u' p').2 =
        dot (velLayout N per lx) u (F u' p').1 + dot (presLayout N per lx) p' (F u p).2 →
      (∀ q ∈ gridNodes (presLayout N per lx), (F u p).2 q 0 = 0) →
        (∀ q ∈ gridNodes (presLayout N per lx), (F u' p').2 q 0 = 0) →
        dot (velLayout N per lx) u' (F u p).1 = dot (velLayout N per lx) u (F u' p').1 := by
    intro F e h1 h2
    rwa [hz p _ h2, hz p' _ h1, add_zero, add_zero] at e
  have e1 := reciprocal N per lx hne hW _ _ isQ1_3 _ is4Q1_3 _ (matElemPressure3 h)
    (C15_symmetric3 (n := 3) _ hvw h hh).2.2 u u' p p'
  have e2 := reciprocal N per lx hne hW _ _ isQ1_3 _ is4Q1_3 _ (matElemPressure3 h)
    (C15_symmetric3 (n := 3) _ hvw h hh).1 u u' p p'
  intro F hF
  simp only [List.mem_cons, List.not_mem_nil, or_false] at hF
  rcases hF with rfl | rfl
  · exact ⟨e1, key _ e1⟩
  · exact ⟨e2, key _ e2⟩

/-- A fluid at rest in the periodic channel, and the driven channel flow as a competitor: all the hypotheses
are met and the excess is not zero. -/
example : ∃ (rs : List (Fin 2 → ℕ)) (u v : NodeVec 2 2 ℝ) (p : NodeVec 2 1 ℝ),
    AllProcs (velLayout ![4, 3] ![true, false] ![[2, 1], [3]]) rs ∧
    Solves (velLayout ![4, 3] ![true, false] ![[2, 1], [3]]) (presLayout ![4, 3] ![true, false] ![[2, 1], [3]])
      (stokesStrain2 ![4, 3] ![true, false] ![[2, 1], [3]] rs (fun _ _ => some fun _ => 0)
        fun _ => 1 / 4) 0 0 u p ∧
    Admissible (velLayout ![4, 3] ![true, false] ![[2, 1], [3]])
      (presLayout ![4, 3] ![true, false] ![[2, 1], [3]]) (fun _ _ => some fun _ => 0)
      (stokesStrain2 ![4, 3] ![true, false] ![[2, 1], [3]] rs (fun _ _ => some fun _ => 0)
        fun _ => 1 / 4) 0 0 v ∧
    0 < viscous2 (velLayout ![4, 3] ![true, false] ![[2, 1], [3]]) (fun _ => 1 / 4) (v - u) (v - u) := by
  have hne : ∀ i, (![[2, 1], [3]] : Fin 2 → List ℤ) i ≠ [] := fun i => by fin_cases i <;> simp
  have hW : ∀ i, (presLayout ![4, 3] ![true, false] ![[2, 1], [3]] i).WF := fun i => by
    fin_cases i
    · exact ⟨by decide, by decide⟩
    · exact ⟨by decide, by decide⟩
  have hN : ∀ i, 2 ≤ (![4, 3] : Fin 2 → ℤ) i := fun i => by fin_cases i <;> simp
  have hrs : AllProcs (velLayout ![4, 3] ![true, false] ![[2, 1], [3]])
      (procs (velLayout ![4, 3] ![true, false] ![[2, 1], [3]])).toList :=
    ⟨Finset.nodup_toList _, by simp⟩
  have hh : ∀ c : Fin 2, (0:ℝ) < (fun _ => 1 / 4 : Pos 2 ℝ) c := fun c => by norm_num
  have hvw := velLayout_wf _ _ _ hne hW
  refine ⟨_, 0, nodalVel drivenChannel fun _ => 1 / 4, 0, hrs, ?_, ⟨fun g hg c hc => ?_, fun q hq p => ?_⟩, ?_⟩
  · have := stokesBC_combines _ _ _ hne hW _ _ isQ1_2 _ is4Q1_2 _
      (matElemPressure2 fun _ => 1 / 4) _ hrs (fun _ _ => some fun _ => 0)
      (tensorBlock_combines _ hvw _ isQ1_2 (matElemStrain2 fun _ => 1 / 4)) 0 0 0 0
    simp only [zero_smul, add_zero] at this
    exact ⟨fun g _ c => congrFun (congrFun (congrArg Prod.fst this) g) c,
      fun q _ => congrFun (congrFun (congrArg Prod.snd this) q) 0⟩
  · obtain ⟨fc, ⟨i, hi, hf⟩, -⟩ := hc
    have h1 : g 1 = 0 ∨ g 1 = 4 := by
      fin_cases i
      · simp [velLayout, velDir] at hi
      · rcases hf with ⟨-, hf⟩ | ⟨-, hf⟩
        · exact Or.inl hf
        · exact Or.inr hf
    show drivenChannel.vel _ c = 0
    fin_cases c
    · simp only [PolyFlow.vel, drivenChannel, quad, Fin.sum_univ_two]
      rcases h1 with h1 | h1 <;> simp [h1]
    · simp [PolyFlow.vel, drivenChannel, quad, Fin.sum_univ_two]
  · have hw := walls_of drivenChannel (velLayout ![4, 3] ![true, false] ![[2, 1], [3]]) fun _ => 1 / 4
    have := (C96_exact2 _ _ _ hne hW hN _ hh _ hrs _ _ drivenChannel hw.1 hw.2).1.2 q hq
    rw [stokesBC_div _ _ _ hne hW _ _ isQ1_2 _ is4Q1_2] at this ⊢
    rw [div_pressure _ _ _ hne hW _ _ isQ1_2 _ is4Q1_2 _ _ p, this]
  · have e := C86_strain2 (velLayout ![4, 3] ![true, false] ![[2, 1], [3]]) hvw (fun _ => 1 / 4) hh
      (nodalVel drivenChannel fun _ => 1 / 4) (nodalVel drivenChannel fun _ => 1 / 4)
    rw [sub_zero]
    refine lt_of_le_of_ne ?_ fun h0 => ?_
    · rw [viscous2, ← e]
      exact (C15_psd2 (n := 2) _ hvw _ hh).2 _
    · have hz := strain2_definite _ hvw (vel_nElem _ _ _ hN) _ hh _ (e.trans h0.symm) 2 ![0, 0]
        ⟨1, rfl, Or.inl ⟨rfl, rfl⟩⟩ (fun g hg hgf c => ?_) ![0, 1] ?_ 0
      · have : drivenChannel.vel (fun i => (((![0, 1] : Pos 2 ℤ) i : ℤ) : ℝ) * (1 / 4)) 0 = 3 / 16 := by
          simp [PolyFlow.vel, drivenChannel, quad, Fin.sum_univ_two]; norm_num
        exact absurd (this.symm.trans hz) (by norm_num)
      · obtain ⟨i, hi, hf⟩ := hgf
        have h1 : g 1 = 0 := by
          fin_cases i
          · simp [velLayout, velDir] at hi
          · rcases hf with ⟨-, hf⟩ | ⟨hf, -⟩
            · exact hf
            · simp at hf
        show drivenChannel.vel _ c = 0
        fin_cases c
        · simp [PolyFlow.vel, drivenChannel, quad, Fin.sum_univ_two, h1]
        · simp [PolyFlow.vel, drivenChannel, quad, Fin.sum_univ_two]
      · rw [mem_gridNodes]
        intro i; fin_cases i <;> decide

end Cafes.Props
