/-
Property theorems for the global weak form of the coupled Stokes operator: C86, velocity/pressure part.
-/
import Verif.Props.WeakForm
import Verif.Props.Stokes

namespace Cafes.Props
open Cafes Cafes.Spec intervalIntegral

/-- Component `c`, on the pressure cell `e`, of the velocity field of nodal values `v`: continuous and bilinear on
each of the four velocity cells (of size `h`) which make the pressure cell (of size `2h`). -/
noncomputable def velField2 (L : Fin 2 → Dir) (h : Pos 2 ℝ) (v : NodeVec 2 2 ℝ) (e : Pos 2 ℤ) (c : Fin 2)
    (x y : ℝ) : ℝ :=
  ∑ k, v (wrap L (getElement4Q1_2 e k)) c * vel2 h k x y

/-- Component `c`, on the pressure cell `e`, of the velocity field of nodal values `v` (3D). -/
noncomputable def velField3 (L : Fin 3 → Dir) (h : Pos 3 ℝ) (v : NodeVec 3 3 ℝ) (e : Pos 3 ℤ) (c : Fin 3)
    (x y z : ℝ) : ℝ :=
  ∑ k, v (wrap L (getElement4Q1_3 e k)) c * vel3 h k x y z

/-- Divergence of a plane vector field. -/
noncomputable def div2 (u : Fin 2 → ℝ → ℝ → ℝ) (x y : ℝ) : ℝ := ∑ c, grad2 (u c) x y c
/-- Divergence of a vector field of space. -/
noncomputable def div3 (u : Fin 3 → ℝ → ℝ → ℝ → ℝ) (x y z : ℝ) : ℝ := ∑ c, grad3 (u c) x y z c

/-! ### Integrals of piecewise smooth products -/

/-- Off the kink, in the open interval. -/
def Off (h t : ℝ) : Prop := 0 < t ∧ t < 2 * h ∧ t ≠ h

theorem ae_off (h : ℝ) (hh : 0 < h) : ∀ᵐ t : ℝ, t ∈ Set.uIoc 0 (2 * h) → Off h t := by
  have hc : ({h, 2 * h} : Set ℝ).Countable := (Set.toFinite _).countable
  filter_upwards [hc.ae_notMem MeasureTheory.volume] with t ht hm
  rw [Set.uIoc_of_le (by linarith)] at hm
  simp only [Set.mem_insert_iff, Set.mem_singleton_iff, not_or] at ht
  exact ⟨hm.1, lt_of_le_of_ne hm.2 ht.2, ht.1⟩

theorem int2_congr_off (h : Fin 2 → ℝ) (hh : ∀ c, 0 < h c) (f g : ℝ → ℝ → ℝ)
    (hfg : ∀ x y, Off (h 0) x → Off (h 1) y → f x y = g x y) :
    int2 (fun c => 2 * h c) f = int2 (fun c => 2 * h c) g := by
  unfold int2
  refine integral_congr_ae ?_
  filter_upwards [ae_off (h 0) (hh 0)] with x hx hm
  refine integral_congr_ae ?_
  filter_upwards [ae_off (h 1) (hh 1)] with y hy hm'
  exact hfg x y (hx hm) (hy hm')

theorem int3_congr_off (h : Fin 3 → ℝ) (hh : ∀ c, 0 < h c) (f g : ℝ → ℝ → ℝ → ℝ)
    (hfg : ∀ x y z, Off (h 0) x → Off (h 1) y → Off (h 2) z → f x y z = g x y z) :
    int3 (fun c => 2 * h c) f = int3 (fun c => 2 * h c) g := by
  unfold int3
  refine integral_congr_ae ?_
  filter_upwards [ae_off (h 0) (hh 0)] with x hx hm
  refine integral_congr_ae ?_
  filter_upwards [ae_off (h 1) (hh 1)] with y hy hm'
  refine integral_congr_ae ?_
  filter_upwards [ae_off (h 2) (hh 2)] with z hz hm''
  exact hfg x y z (hx hm) (hy hm') (hz hm'')

theorem int2_sep {ι : Type*} [Fintype ι] (h : Fin 2 → ℝ) (a : ι → ℝ) (A B : ι → ℝ → ℝ)
    (hA : ∀ i, IntervalIntegrable (A i) MeasureTheory.volume 0 (h 0))
    (hB : ∀ i, IntervalIntegrable (B i) MeasureTheory.volume 0 (h 1)) :
    int2 h (fun x y => ∑ i, a i * (A i x * B i y)) = ∑ i, a i * int2 h (fun x y => A i x * B i y) := by
  unfold int2
  have e : ∀ x, ∫ y in (0:ℝ)..h 1, ∑ i, a i * (A i x * B i y) =
      ∑ i, (a i * ∫ y in (0:ℝ)..h 1, B i y) * A i x := by
    intro x
    rw [integral_finsetSum fun i _ => (((hB i).const_mul _).const_mul _)]
    refine Finset.sum_congr rfl fun i _ => ?_
    rw [integral_const_mul, integral_const_mul]
    ring
  simp only [e]
  rw [integral_finsetSum fun i _ => (hA i).const_mul _]
  refine Finset.sum_congr rfl fun i _ => ?_
  simp only [integral_const_mul, integral_mul_const]
  ring

theorem int3_sep {ι : Type*} [Fintype ι] (h : Fin 3 → ℝ) (a : ι → ℝ) (A B C : ι → ℝ → ℝ)
    (hA : ∀ i, IntervalIntegrable (A i) MeasureTheory.volume 0 (h 0))
    (hB : ∀ i, IntervalIntegrable (B i) MeasureTheory.volume 0 (h 1))
    (hC : ∀ i, IntervalIntegrable (C i) MeasureTheory.volume 0 (h 2)) :
    int3 h (fun x y z => ∑ i, a i * (A i x * B i y * C i z)) =
      ∑ i, a i * int3 h (fun x y z => A i x * B i y * C i z) := by
  unfold int3
  have e : ∀ x y, ∫ z in (0:ℝ)..h 2, ∑ i, a i * (A i x * B i y * C i z) =
      ∑ i, (a i * A i x * ∫ z in (0:ℝ)..h 2, C i z) * B i y := by
    intro x y
    rw [integral_finsetSum fun i _ => (((hC i).const_mul _).const_mul _)]
    refine Finset.sum_congr rfl fun i _ => ?_
    rw [integral_const_mul, integral_const_mul]
    ring
  have e2 : ∀ x, ∫ y in (0:ℝ)..h 1, ∑ i, (a i * A i x * ∫ z in (0:ℝ)..h 2, C i z) * B i y =
      ∑ i, (a i * (∫ z in (0:ℝ)..h 2, C i z) * ∫ y in (0:ℝ)..h 1, B i y) * A i x := by
    intro x
    rw [integral_finsetSum fun i _ => (hB i).const_mul _]
    refine Finset.sum_congr rfl fun i _ => ?_
    rw [integral_const_mul]
    ring
  simp only [e, e2]
  rw [integral_finsetSum fun i _ => (hA i).const_mul _]
  refine Finset.sum_congr rfl fun i _ => ?_
  simp only [integral_const_mul, integral_mul_const]
  ring

theorem integrable_facV (d : Bool) (a : Fin 2) (j : Fin 3) (h : ℝ) (hh : 0 < h) :
    IntervalIntegrable (fun t => hat a (2 * h) t * facV d j h t) MeasureTheory.volume 0 (2 * h) := by
  have hat_c : Continuous (hat a (2 * h)) := (diff_hat a (2 * h)).continuous
  refine IntervalIntegrable.trans (b := h) ?_ ?_
  · rw [intervalIntegrable_iff_integrableOn_Ioo_of_le hh.le]
    have hc : Continuous fun t => hat a (2 * h) t *
        (if d then ((hvL j).2 : ℝ) / h else (hvL j).1 + (hvL j).2 * (t / h)) :=
      hat_c.mul (by split_ifs <;> fun_prop)
    have hi := (hc.intervalIntegrable (μ := MeasureTheory.volume) 0 h)
    rw [intervalIntegrable_iff_integrableOn_Ioo_of_le hh.le] at hi
    refine hi.congr_fun (fun t ht => ?_) measurableSet_Ioo
    cases d
    · simp only [facV, Bool.false_eq_true, if_false, hatV_left j h t hh ht]
    · simp only [facV, if_true, deriv_hatV_left j h t hh ht]
  · rw [intervalIntegrable_iff_integrableOn_Ioo_of_le (by linarith)]
    have hc : Continuous fun t => hat a (2 * h) t *
        (if d then ((hvR j).2 : ℝ) / h else (hvR j).1 + (hvR j).2 * (t / h)) :=
      hat_c.mul (by split_ifs <;> fun_prop)
    have hi := (hc.intervalIntegrable (μ := MeasureTheory.volume) h (2 * h))
    rw [intervalIntegrable_iff_integrableOn_Ioo_of_le (by linarith)] at hi
    refine hi.congr_fun (fun t ht => ?_) measurableSet_Ioo
    cases d
    · simp only [facV, Bool.false_eq_true, if_false, hatV_right j h t hh ht]
    · simp only [facV, if_true, deriv_hatV_right j h t hh ht]

theorem diff_hatV (j : Fin 3) (h t : ℝ) (hh : 0 < h) (ht : Off h t) : DifferentiableAt ℝ (hatV j h) t := by
  obtain ⟨h0, h2, hne⟩ := ht
  rcases lt_or_gt_of_ne hne with hl | hr
  · have : hatV j h =ᶠ[nhds t] fun t => ((hvL j).1 : ℝ) + (hvL j).2 * (t / h) :=
      Filter.eventuallyEq_of_mem (isOpen_Ioo.mem_nhds ⟨h0, hl⟩) fun s hs => hatV_left j h s hh hs
    exact this.differentiableAt_iff.2 (by fun_prop)
  · have : hatV j h =ᶠ[nhds t] fun t => ((hvR j).1 : ℝ) + (hvR j).2 * (t / h) :=
      Filter.eventuallyEq_of_mem (isOpen_Ioo.mem_nhds ⟨hr, h2⟩) fun s hs => hatV_right j h s hh hs
    exact this.differentiableAt_iff.2 (by fun_prop)

theorem grad_velField2 (L : Fin 2 → Dir) (h : Pos 2 ℝ) (hh : ∀ c, 0 < h c) (v : NodeVec 2 2 ℝ) (e : Pos 2 ℤ)
    (c : Fin 2) (x y : ℝ) (hx : Off (h 0) x) (hy : Off (h 1) y) (b : Fin 2) :
    grad2 (velField2 L h v e c) x y b = ∑ k, v (wrap L (getElement4Q1_2 e k)) c * grad2 (vel2 h k) x y b := by
  fin_cases b
  · have : HasDerivAt (fun s => velField2 L h v e c s y)
        (∑ k, v (wrap L (getElement4Q1_2 e k)) c * deriv (fun s => vel2 h k s y) x) x :=
      HasDerivAt.fun_sum fun k _ => HasDerivAt.const_mul _ (DifferentiableAt.hasDerivAt
        ((diff_hatV _ _ x (hh 0) hx).mul_const _))
    exact this.deriv
  · have : HasDerivAt (fun s => velField2 L h v e c x s)
        (∑ k, v (wrap L (getElement4Q1_2 e k)) c * deriv (fun s => vel2 h k x s) y) y :=
      HasDerivAt.fun_sum fun k _ => HasDerivAt.const_mul _ (DifferentiableAt.hasDerivAt
        ((diff_hatV _ _ y (hh 1) hy).const_mul _))
    exact this.deriv

theorem grad_velField3 (L : Fin 3 → Dir) (h : Pos 3 ℝ) (hh : ∀ c, 0 < h c) (v : NodeVec 3 3 ℝ) (e : Pos 3 ℤ)
    (c : Fin 3) (x y z : ℝ) (hx : Off (h 0) x) (hy : Off (h 1) y) (hz : Off (h 2) z) (b : Fin 3) :
    grad3 (velField3 L h v e c) x y z b = ∑ k, v (wrap L (getElement4Q1_3 e k)) c * grad3 (vel3 h k) x y z b := by
  fin_cases b
  · have : HasDerivAt (fun s => velField3 L h v e c s y z)
        (∑ k, v (wrap L (getElement4Q1_3 e k)) c * deriv (fun s => vel3 h k s y z) x) x :=
      HasDerivAt.fun_sum fun k _ => HasDerivAt.const_mul _ (DifferentiableAt.hasDerivAt
        (((diff_hatV _ _ x (hh 0) hx).mul_const _).mul_const _))
    exact this.deriv
  · have : HasDerivAt (fun s => velField3 L h v e c x s z)
        (∑ k, v (wrap L (getElement4Q1_3 e k)) c * deriv (fun s => vel3 h k x s z) y) y :=
      HasDerivAt.fun_sum fun k _ => HasDerivAt.const_mul _ (DifferentiableAt.hasDerivAt
        (((diff_hatV _ _ y (hh 1) hy).const_mul _).mul_const _))
    exact this.deriv
  · have : HasDerivAt (fun s => velField3 L h v e c x y s)
        (∑ k, v (wrap L (getElement4Q1_3 e k)) c * deriv (fun s => vel3 h k x y s) z) z :=
      HasDerivAt.fun_sum fun k _ => HasDerivAt.const_mul _ (DifferentiableAt.hasDerivAt
        ((diff_hatV _ _ z (hh 2) hz).const_mul _))
    exact this.deriv

/-- C86 (divergence, 2D): the product of a pressure `q` with the pressure output of the Stokes operator is the integral
over the domain of `q` times the divergence of the velocity field. -/
theorem C86_divergence2 (N : Fin 2 → ℤ) (per : Fin 2 → Bool) (lx : Fin 2 → List ℤ)
    (hne : ∀ i, lx i ≠ []) (hW : ∀ i, (presLayout N per lx i).WF) (h : Pos 2 ℝ) (hh : ∀ c, 0 < h c)
    (u : NodeVec 2 2 ℝ) (p q : NodeVec 2 1 ℝ) :
    dot (presLayout N per lx) q (bAndBT2 N per lx h u p).2 =
      ∑ e ∈ gridElems (presLayout N per lx), int2 (fun c => 2 * h c) (fun x y =>
        field2 (presLayout N per lx) (fun c => 2 * h c) q e 0 x y *
          div2 (velField2 (velLayout N per lx) h u e) x y) := by
  unfold bAndBT2
  rw [dot_pres N per lx hne hW _ _ isQ1_2 _ is4Q1_2]
  refine Finset.sum_congr rfl fun e _ => ?_
  have e1 := int2_congr_off h hh (fun x y => field2 (presLayout N per lx) (fun c => 2 * h c) q e 0 x y *
      div2 (velField2 (velLayout N per lx) h u e) x y)
    (fun x y => ∑ p : Fin 4 × Fin 9 × Fin 2, (q (wrap (presLayout N per lx) (getElement2 e p.1)) 0 *
      u (wrap (velLayout N per lx) (getElement4Q1_2 e p.2.1)) p.2.2) *
        ((hat (bit2 p.1 0) (2 * h 0) x * facV (decide (p.2.2 = 0)) (trit2 p.2.1 0) (h 0) x) * (hat (bit2 p.1 1) (2 * h 1) y * facV (decide (p.2.2 = 1)) (trit2 p.2.1 1) (h 1) y)))
    (fun x y hx hy => by
      simp only [div2, grad_velField2 (velLayout N per lx) h hh u e _ x y hx hy, grad2_vel2, field2,
        Fintype.sum_prod_type]
      rw [Finset.sum_mul]
      refine Finset.sum_congr rfl fun ip _ => ?_
      rw [Finset.sum_comm, Finset.mul_sum]
      refine Finset.sum_congr rfl fun k _ => ?_
      rw [Finset.mul_sum]
      refine Finset.sum_congr rfl fun c _ => ?_
      simp only [phi2]
      ring)
  rw [e1]
  refine Eq.trans ?_ (int2_sep (fun c => 2 * h c)
    (fun p : Fin 4 × Fin 9 × Fin 2 => q (wrap (presLayout N per lx) (getElement2 e p.1)) 0 *
      u (wrap (velLayout N per lx) (getElement4Q1_2 e p.2.1)) p.2.2)
    (fun (p : Fin 4 × Fin 9 × Fin 2) t => hat (bit2 p.1 0) (2 * h 0) t * facV (decide (p.2.2 = 0)) (trit2 p.2.1 0) (h 0) t)
    (fun (p : Fin 4 × Fin 9 × Fin 2) t => hat (bit2 p.1 1) (2 * h 1) t * facV (decide (p.2.2 = 1)) (trit2 p.2.1 1) (h 1) t)
    (fun p => integrable_facV _ _ _ _ (hh 0)) (fun p => integrable_facV _ _ _ _ (hh 1))).symm
  simp only [Fintype.sum_prod_type]
  refine Finset.sum_congr rfl fun ip _ => ?_
  simp only [Finset.univ_unique, Finset.sum_singleton, Fin.default_eq_zero, Finset.mul_sum]
  refine Finset.sum_congr rfl fun k _ => Finset.sum_congr rfl fun c _ => ?_
  rw [C13_pressure2 h hh, mul_assoc]
  congr 2
  congr 1; funext x y
  rw [grad2_vel2]; simp only [phi2]; ring

private theorem dot_add2 {n : ℕ} (L : Fin 2 → Dir) (z a b y : NodeVec 2 n ℝ) (hy : ∀ g c, y g c = a g c + b g c) :
    dot L z y = dot L z a + dot L z b := by
  unfold dot
  rw [← Finset.sum_add_distrib]
  refine Finset.sum_congr rfl fun g _ => ?_
  rw [← Finset.sum_add_distrib]
  refine Finset.sum_congr rfl fun c _ => ?_
  rw [hy g c, mul_add]

private theorem dot_eq2 {n : ℕ} (L : Fin 2 → Dir) (z a y : NodeVec 2 n ℝ) (hy : ∀ g c, y g c = a g c) :
    dot L z y = dot L z a := by
  have : y = a := by funext g c; exact hy g c
  rw [this]

/-- C86 (Stokes, 2D, strain): the coupled operator is the bilinear form of the mixed problem: for all `(u, p)` and all test
pairs `(v, q)`, the product of `(v, q)` with the output is the integral of `2 D(u):D(v)`, minus that of `p div v`, plus
that of `q div u`, whatever the cut of the mesh between processes. -/
theorem C86_stokesStrain2 (N : Fin 2 → ℤ) (per : Fin 2 → Bool) (lx : Fin 2 → List ℤ)
    (hne : ∀ i, lx i ≠ []) (hW : ∀ i, (presLayout N per lx i).WF) (h : Pos 2 ℝ)
    (hh : ∀ c, 0 < h c) (u v : NodeVec 2 2 ℝ) (p q : NodeVec 2 1 ℝ) :
    dot (velLayout N per lx) v (stokesStrain2 N per lx h u p).1 +
      dot (presLayout N per lx) q (stokesStrain2 N per lx h u p).2 =
      ∑ e ∈ gridElems (velLayout N per lx), int2 h (fun x y => 2 * ∑ a, ∑ b,
        symPart (fun c d => grad2 (field2 (velLayout N per lx) h v e c) x y d) a b *
          symPart (fun c d => grad2 (field2 (velLayout N per lx) h u e c) x y d) a b) -
      ∑ e ∈ gridElems (presLayout N per lx), int2 (fun c => 2 * h c) (fun x y =>
        field2 (presLayout N per lx) (fun c => 2 * h c) p e 0 x y *
          div2 (velField2 (velLayout N per lx) h v e) x y) +
      ∑ e ∈ gridElems (presLayout N per lx), int2 (fun c => 2 * h c) (fun x y =>
        field2 (presLayout N per lx) (fun c => 2 * h c) q e 0 x y *
          div2 (velField2 (velLayout N per lx) h u e) x y) := by
  have hs := stokes_split N per lx hne hW getElement2 getElement4Q1_2 isQ1_2 _ is4Q1_2
    (tensorBlockMult (velLayout N per lx) getElement2 (matElemStrain2 h)) (matElemPressure2 h) u p
  rw [← C86_divergence2 N per lx hne hW h hh u p q, ← C86_divergence2 N per lx hne hW h hh v p p,
    ← C86_strain2 (velLayout N per lx) (fun i => velDir_wf (hne i) (hW i)) h hh v u, sub_eq_add_neg, ← C18_adjoint2 N per lx hne hW h v u p p]
  exact congr (congrArg HAdd.hAdd (dot_add2 _ _ _ _ _ hs.1)) (dot_eq2 _ _ _ _ hs.2)

/-- C86 (Stokes, 2D, laplacian): the coupled operator is the bilinear form of the mixed problem: for all `(u, p)` and all test
pairs `(v, q)`, the product of `(v, q)` with the output is the integral of `grad u : grad v`, minus that of `p div v`, plus
that of `q div u`, whatever the cut of the mesh between processes. -/
theorem C86_stokesLap2 (N : Fin 2 → ℤ) (per : Fin 2 → Bool) (lx : Fin 2 → List ℤ)
    (hne : ∀ i, lx i ≠ []) (hW : ∀ i, (presLayout N per lx i).WF) (h : Pos 2 ℝ)
    (hh : ∀ c, 0 < h c) (u v : NodeVec 2 2 ℝ) (p q : NodeVec 2 1 ℝ) :
    dot (velLayout N per lx) v (stokesLap2 N per lx h u p).1 +
      dot (presLayout N per lx) q (stokesLap2 N per lx h u p).2 =
      ∑ e ∈ gridElems (velLayout N per lx), ∑ c, int2 h (fun x y =>
        ∑ b, grad2 (field2 (velLayout N per lx) h v e c) x y b * grad2 (field2 (velLayout N per lx) h u e c) x y b) -
      ∑ e ∈ gridElems (presLayout N per lx), int2 (fun c => 2 * h c) (fun x y =>
        field2 (presLayout N per lx) (fun c => 2 * h c) p e 0 x y *
          div2 (velField2 (velLayout N per lx) h v e) x y) +
      ∑ e ∈ gridElems (presLayout N per lx), int2 (fun c => 2 * h c) (fun x y =>
        field2 (presLayout N per lx) (fun c => 2 * h c) q e 0 x y *
          div2 (velField2 (velLayout N per lx) h u e) x y) := by
  have hs := stokes_split N per lx hne hW getElement2 getElement4Q1_2 isQ1_2 _ is4Q1_2
    (diagBlockMult (velLayout N per lx) getElement2 (matElemLaplacian2 h)) (matElemPressure2 h) u p
  rw [← C86_divergence2 N per lx hne hW h hh u p q, ← C86_divergence2 N per lx hne hW h hh v p p,
    ← C86_laplacian2 (velLayout N per lx) (fun i => velDir_wf (hne i) (hW i)) h hh v u, sub_eq_add_neg, ← C18_adjoint2 N per lx hne hW h v u p p]
  exact congr (congrArg HAdd.hAdd (dot_add2 _ _ _ _ _ hs.1)) (dot_eq2 _ _ _ _ hs.2)

/-- C86 (divergence, 3D): the product of a pressure `q` with the pressure output of the Stokes operator is the integral
over the domain of `q` times the divergence of the velocity field. -/
theorem C86_divergence3 (N : Fin 3 → ℤ) (per : Fin 3 → Bool) (lx : Fin 3 → List ℤ)
    (hne : ∀ i, lx i ≠ []) (hW : ∀ i, (presLayout N per lx i).WF) (h : Pos 3 ℝ) (hh : ∀ c, 0 < h c)
    (u : NodeVec 3 3 ℝ) (p q : NodeVec 3 1 ℝ) :
    dot (presLayout N per lx) q (bAndBT3 N per lx h u p).2 =
      ∑ e ∈ gridElems (presLayout N per lx), int3 (fun c => 2 * h c) (fun x y z =>
        field3 (presLayout N per lx) (fun c => 2 * h c) q e 0 x y z *
          div3 (velField3 (velLayout N per lx) h u e) x y z) := by
  unfold bAndBT3
  rw [dot_pres N per lx hne hW _ _ isQ1_3 _ is4Q1_3]
  refine Finset.sum_congr rfl fun e _ => ?_
  have e1 := int3_congr_off h hh (fun x y z => field3 (presLayout N per lx) (fun c => 2 * h c) q e 0 x y z *
      div3 (velField3 (velLayout N per lx) h u e) x y z)
    (fun x y z => ∑ p : Fin 8 × Fin 27 × Fin 3, (q (wrap (presLayout N per lx) (getElement3 e p.1)) 0 *
      u (wrap (velLayout N per lx) (getElement4Q1_3 e p.2.1)) p.2.2) *
        ((hat (bit3 p.1 0) (2 * h 0) x * facV (decide (p.2.2 = 0)) (trit3 p.2.1 0) (h 0) x) * (hat (bit3 p.1 1) (2 * h 1) y * facV (decide (p.2.2 = 1)) (trit3 p.2.1 1) (h 1) y) * (hat (bit3 p.1 2) (2 * h 2) z * facV (decide (p.2.2 = 2)) (trit3 p.2.1 2) (h 2) z)))
    (fun x y z hx hy hz => by
      simp only [div3, grad_velField3 (velLayout N per lx) h hh u e _ x y z hx hy hz, grad3_vel3, field3,
        Fintype.sum_prod_type]
      rw [Finset.sum_mul]
      refine Finset.sum_congr rfl fun ip _ => ?_
      rw [Finset.sum_comm, Finset.mul_sum]
      refine Finset.sum_congr rfl fun k _ => ?_
      rw [Finset.mul_sum]
      refine Finset.sum_congr rfl fun c _ => ?_
      simp only [phi3]
      ring)
  rw [e1]
  refine Eq.trans ?_ (int3_sep (fun c => 2 * h c)
    (fun p : Fin 8 × Fin 27 × Fin 3 => q (wrap (presLayout N per lx) (getElement3 e p.1)) 0 *
      u (wrap (velLayout N per lx) (getElement4Q1_3 e p.2.1)) p.2.2)
    (fun (p : Fin 8 × Fin 27 × Fin 3) t => hat (bit3 p.1 0) (2 * h 0) t * facV (decide (p.2.2 = 0)) (trit3 p.2.1 0) (h 0) t)
    (fun (p : Fin 8 × Fin 27 × Fin 3) t => hat (bit3 p.1 1) (2 * h 1) t * facV (decide (p.2.2 = 1)) (trit3 p.2.1 1) (h 1) t)
    (fun (p : Fin 8 × Fin 27 × Fin 3) t => hat (bit3 p.1 2) (2 * h 2) t * facV (decide (p.2.2 = 2)) (trit3 p.2.1 2) (h 2) t)
    (fun p => integrable_facV _ _ _ _ (hh 0)) (fun p => integrable_facV _ _ _ _ (hh 1)) (fun p => integrable_facV _ _ _ _ (hh 2))).symm
  simp only [Fintype.sum_prod_type]
  refine Finset.sum_congr rfl fun ip _ => ?_
  simp only [Finset.univ_unique, Finset.sum_singleton, Fin.default_eq_zero, Finset.mul_sum]
  refine Finset.sum_congr rfl fun k _ => Finset.sum_congr rfl fun c _ => ?_
  rw [C13_pressure3 h hh, mul_assoc]
  congr 2
  congr 1; funext x y z
  rw [grad3_vel3]; simp only [phi3]; ring

private theorem dot_add3 {n : ℕ} (L : Fin 3 → Dir) (z a b y : NodeVec 3 n ℝ) (hy : ∀ g c, y g c = a g c + b g c) :
    dot L z y = dot L z a + dot L z b := by
  unfold dot
  rw [← Finset.sum_add_distrib]
  refine Finset.sum_congr rfl fun g _ => ?_
  rw [← Finset.sum_add_distrib]
  refine Finset.sum_congr rfl fun c _ => ?_
  rw [hy g c, mul_add]

private theorem dot_eq3 {n : ℕ} (L : Fin 3 → Dir) (z a y : NodeVec 3 n ℝ) (hy : ∀ g c, y g c = a g c) :
    dot L z y = dot L z a := by
  have : y = a := by funext g c; exact hy g c
  rw [this]

/-- C86 (Stokes, 3D, strain): the coupled operator is the bilinear form of the mixed problem: for all `(u, p)` and all test
pairs `(v, q)`, the product of `(v, q)` with the output is the integral of `2 D(u):D(v)`, minus that of `p div v`, plus
that of `q div u`, whatever the cut of the mesh between processes. -/
theorem C86_stokesStrain3 (N : Fin 3 → ℤ) (per : Fin 3 → Bool) (lx : Fin 3 → List ℤ)
    (hne : ∀ i, lx i ≠ []) (hW : ∀ i, (presLayout N per lx i).WF) (h : Pos 3 ℝ)
    (hh : ∀ c, 0 < h c) (u v : NodeVec 3 3 ℝ) (p q : NodeVec 3 1 ℝ) :
    dot (velLayout N per lx) v (stokesStrain3 N per lx h u p).1 +
      dot (presLayout N per lx) q (stokesStrain3 N per lx h u p).2 =
      ∑ e ∈ gridElems (velLayout N per lx), int3 h (fun x y z => 2 * ∑ a, ∑ b,
        symPart (fun c d => grad3 (field3 (velLayout N per lx) h v e c) x y z d) a b *
          symPart (fun c d => grad3 (field3 (velLayout N per lx) h u e c) x y z d) a b) -
      ∑ e ∈ gridElems (presLayout N per lx), int3 (fun c => 2 * h c) (fun x y z =>
        field3 (presLayout N per lx) (fun c => 2 * h c) p e 0 x y z *
          div3 (velField3 (velLayout N per lx) h v e) x y z) +
      ∑ e ∈ gridElems (presLayout N per lx), int3 (fun c => 2 * h c) (fun x y z =>
        field3 (presLayout N per lx) (fun c => 2 * h c) q e 0 x y z *
          div3 (velField3 (velLayout N per lx) h u e) x y z) := by
  have hs := stokes_split N per lx hne hW getElement3 getElement4Q1_3 isQ1_3 _ is4Q1_3
    (tensorBlockMult (velLayout N per lx) getElement3 (matElemStrain3 h)) (matElemPressure3 h) u p
  rw [← C86_divergence3 N per lx hne hW h hh u p q, ← C86_divergence3 N per lx hne hW h hh v p p,
    ← C86_strain3 (velLayout N per lx) (fun i => velDir_wf (hne i) (hW i)) h hh v u, sub_eq_add_neg, ← C18_adjoint3 N per lx hne hW h v u p p]
  exact congr (congrArg HAdd.hAdd (dot_add3 _ _ _ _ _ hs.1)) (dot_eq3 _ _ _ _ hs.2)

/-- C86 (Stokes, 3D, laplacian): the coupled operator is the bilinear form of the mixed problem: for all `(u, p)` and all test
pairs `(v, q)`, the product of `(v, q)` with the output is the integral of `grad u : grad v`, minus that of `p div v`, plus
that of `q div u`, whatever the cut of the mesh between processes. -/
theorem C86_stokesLap3 (N : Fin 3 → ℤ) (per : Fin 3 → Bool) (lx : Fin 3 → List ℤ)
    (hne : ∀ i, lx i ≠ []) (hW : ∀ i, (presLayout N per lx i).WF) (h : Pos 3 ℝ)
    (hh : ∀ c, 0 < h c) (u v : NodeVec 3 3 ℝ) (p q : NodeVec 3 1 ℝ) :
    dot (velLayout N per lx) v (stokesLap3 N per lx h u p).1 +
      dot (presLayout N per lx) q (stokesLap3 N per lx h u p).2 =
      ∑ e ∈ gridElems (velLayout N per lx), ∑ c, int3 h (fun x y z =>
        ∑ b, grad3 (field3 (velLayout N per lx) h v e c) x y z b * grad3 (field3 (velLayout N per lx) h u e c) x y z b) -
      ∑ e ∈ gridElems (presLayout N per lx), int3 (fun c => 2 * h c) (fun x y z =>
        field3 (presLayout N per lx) (fun c => 2 * h c) p e 0 x y z *
          div3 (velField3 (velLayout N per lx) h v e) x y z) +
      ∑ e ∈ gridElems (presLayout N per lx), int3 (fun c => 2 * h c) (fun x y z =>
        field3 (presLayout N per lx) (fun c => 2 * h c) q e 0 x y z *
          div3 (velField3 (velLayout N per lx) h u e) x y z) := by
  have hs := stokes_split N per lx hne hW getElement3 getElement4Q1_3 isQ1_3 _ is4Q1_3
    (diagBlockMult (velLayout N per lx) getElement3 (matElemLaplacian3 h)) (matElemPressure3 h) u p
  rw [← C86_divergence3 N per lx hne hW h hh u p q, ← C86_divergence3 N per lx hne hW h hh v p p,
    ← C86_laplacian3 (velLayout N per lx) (fun i => velDir_wf (hne i) (hW i)) h hh v u, sub_eq_add_neg, ← C18_adjoint3 N per lx hne hW h v u p p]
  exact congr (congrArg HAdd.hAdd (dot_add3 _ _ _ _ _ hs.1)) (dot_eq3 _ _ _ _ hs.2)

end Cafes.Props
