/-
Property theorems: C111, the existence of a flow of least misfit to rigid motions.
-/
import Verif.Props.SemMisfit

namespace Cafes.Props
open Cafes Cafes.Spec Cafes.Driver Cafes.Particle Cafes.Geometry
variable {d N : ℕ} {A : Type*} [AddCommGroup A] [Module ℝ A]

theorem internal_comb (D : Setup d N A) (hS : SpinLaws D.S) (a b : ℝ) (x y : NodeVec d d ℝ) (hx : Internal D x) (hy : Internal D y) :
    Internal D (a • x + b • y) where
  inside g c hne := by
    by_cases h0 : x g c = 0
    · refine hy.inside g c fun h5 => hne ?_
      show a * x g c + b * y g c = 0
      rw [h0, h5, mul_zero, mul_zero, add_zero]
    · exact hx.inside g c h0
  force p hp := by
    have e : ∀ g, (a • x + b • y) g = a • x g + b • y g := fun _ => rfl
    simp only [e]
    rw [Finset.sum_add_distrib, ← Finset.smul_sum, ← Finset.smul_sum, hx.force p hp, hy.force p hp, smul_zero, smul_zero, add_zero]
  torque p hp := by
    have e : ∀ g, (a • x + b • y) g = a • x g + b • y g := fun _ => rfl
    simp only [e, hS.add_right, hS.smul_right]
    rw [Finset.sum_add_distrib, ← Finset.smul_sum, ← Finset.smul_sum, hx.torque p hp, hy.torque p hp, smul_zero, smul_zero, add_zero]

omit [AddCommGroup A] [Module ℝ A] in
theorem solves_comb (L Lp : Fin d → Dir) (bc : BC d ℝ) (F : NodeVec d d ℝ → NodeVec d 1 ℝ → NodeVec d d ℝ × NodeVec d 1 ℝ)
    (hF : StokesLike L Lp bc F) (a b : ℝ) (f g u v : NodeVec d d ℝ) (p q : NodeVec d 1 ℝ) (hu : Solves L Lp F f 0 u p)
    (hv : Solves L Lp F g 0 v q) : Solves L Lp F (a • f + b • g) 0 (a • u + b • v) (a • p + b • q) := by
  have e := hF.lin a b u p v q
  rw [Solves, e]
  refine ⟨fun k hk c => ?_, fun y hy => ?_⟩
  · show a * (F u p).1 k c + b * (F v q).1 k c = a * f k c + b * g k c
    rw [hu.1 k hk c, hv.1 k hk c]
  · show a * (F u p).2 y 0 + b * (F v q).2 y 0 = 0
    rw [hu.2 y hy, hv.2 y hy]
    show a * 0 + b * 0 = (0 : ℝ)
    rw [mul_zero, mul_zero, add_zero]

/-- The difference of the velocities of the flow and of the rigid motions at a point of the surface. -/
noncomputable def rigidGap (D : Setup d N A) (u : NodeVec d d ℝ) (m : Fin D.parts.length → Pos d ℝ × A) (x : SurfIndex D) : ℝ :=
  Real.sqrt (D.parts[x.2.1].area / (heldCount D D.parts[x.2.1] : ℝ)) *
    (interpPoint D.bf D.elem (globalToLocal D.L u) (heldPoints D D.parts[x.2.1] x.1.1)[x.2.2.1] x.2.2.2 -
      ((m x.2.1).1 x.2.2.2 + D.S.act (m x.2.1).2 (radiusOf D D.parts[x.2.1] (heldPoints D D.parts[x.2.1] x.1.1)[x.2.2.1]) x.2.2.2))

theorem rigidGap_comb (D : Setup d N A) (hA : ActLaws D.S) (a b : ℝ) (u v : NodeVec d d ℝ) (m n) (x : SurfIndex D) :
    rigidGap D (a • u + b • v) (a • m + b • n) x = a * rigidGap D u m x + b * rigidGap D v n x := by
  have e0 := interpPoint_smul D (a • u) v b (heldPoints D D.parts[x.2.1] x.1.1)[x.2.2.1] x.2.2.2
  have e1 := interpPoint_smul D 0 u a (heldPoints D D.parts[x.2.1] x.1.1)[x.2.2.1] x.2.2.2
  have e2 : interpPoint D.bf D.elem (globalToLocal D.L 0) (heldPoints D D.parts[x.2.1] x.1.1)[x.2.2.1] x.2.2.2 = 0 := by
    rw [interpPoint_apply]
    exact Finset.sum_eq_zero fun _ _ => by simp [globalToLocal]
  rw [zero_add, e2, zero_add] at e1
  have e3 : ((a • m + b • n) x.2.1).1 x.2.2.2 = a * (m x.2.1).1 x.2.2.2 + b * (n x.2.1).1 x.2.2.2 := rfl
  have e4 : ((a • m + b • n) x.2.1).2 = a • (m x.2.1).2 + b • (n x.2.1).2 := rfl
  unfold rigidGap
  rw [e0, e1, e3, e4, hA.add_left, hA.smul_left, hA.smul_left]
  simp only [Pi.add_apply, Pi.smul_apply, smul_eq_mul]
  ring

theorem rigidMisfit_sum (D : Setup d N A) (ha : ∀ P ∈ D.parts, 0 ≤ P.area) (u : NodeVec d d ℝ) (m) :
    rigidMisfit D m u = ∑ x : SurfIndex D, rigidGap D u m x ^ 2 := by
  rw [Fintype.sum_sigma]
  unfold rigidMisfit
  rw [← Finset.sum_coe_sort]
  refine Finset.sum_congr rfl fun r _ => ?_
  rw [Fintype.sum_sigma]
  refine Finset.sum_congr rfl fun i _ => ?_
  rw [Fintype.sum_prod_type, Finset.mul_sum]
  refine Finset.sum_congr rfl fun k _ => ?_
  rw [Finset.mul_sum]
  refine Finset.sum_congr rfl fun c _ => ?_
  have hsq := Real.sq_sqrt (div_nonneg (ha _ (List.getElem_mem i.2)) (Nat.cast_nonneg (α := ℝ) (heldCount D D.parts[i])))
  unfold rigidGap
  rw [mul_pow]
  exact congrArg₂ (· * ·) hsq.symm rfl

/-- C111 (existence): for any flow there are internal forces that, with suitable rigid motions of the particles, bring the misfit to
its least value. -/
theorem C111_exists (D : Setup d N A) (hS : SpinLaws D.S) (hA : ActLaws D.S) (Lp : Fin d → Dir)
    (F : NodeVec d d ℝ → NodeVec d 1 ℝ → NodeVec d d ℝ × NodeVec d 1 ℝ)
    (hF : StokesLike D.L Lp D.bc F) (ha : ∀ P ∈ D.parts, 0 ≤ P.area) (f u : NodeVec d d ℝ) (p : NodeVec d 1 ℝ)
    (hu : Solves D.L Lp F f 0 u p) :
    ∃ δ u1 p1 m, Internal D δ ∧ LeastRigidMisfit D Lp F (f + δ) u1 p1 m := by
  have h00 : Internal D 0 := ⟨fun g c h => absurd rfl h, fun _ _ => Finset.sum_const_zero, fun _ _ => by
    refine Finset.sum_eq_zero fun g _ => ?_
    have := hS.smul_right 0 (fun j => node D.h g j - (‹Part d A› : Part d A).center j) 0
    rw [zero_smul, zero_smul] at this
    exact this⟩
  have hs0 : Solves D.L Lp F 0 0 0 0 := by
    have := solves_comb D.L Lp D.bc F hF 0 0 f f u u p p hu hu
    simpa using this
  let V : Submodule ℝ (NodeVec d d ℝ × NodeVec d d ℝ × NodeVec d 1 ℝ × (Fin D.parts.length → Pos d ℝ × A)) :=
    { carrier := {x | Internal D x.1 ∧ Solves D.L Lp F x.1 0 x.2.1 x.2.2.1}
      zero_mem' := ⟨h00, hs0⟩
      add_mem' := by
        rintro x y ⟨h1, h2⟩ ⟨h3, h4⟩
        have a1 := internal_comb D hS 1 1 _ _ h1 h3
        have a2 := solves_comb D.L Lp D.bc F hF 1 1 _ _ _ _ _ _ h2 h4
        simp only [one_smul] at a1 a2
        exact ⟨a1, a2⟩
      smul_mem' := by
        rintro a x ⟨h1, h2⟩
        have a1 := internal_comb D hS a 0 _ _ h1 h1
        have a2 := solves_comb D.L Lp D.bc F hF a 0 _ _ _ _ _ _ h2 h2
        simp only [zero_smul, add_zero] at a1 a2
        exact ⟨a1, a2⟩ }
  obtain ⟨x, hx⟩ := least_squares (V := V) (ι := SurfIndex D) (fun v x => rigidGap D v.1.2.1 v.1.2.2.2 x)
    (isLinear_of _ fun a b v v' => by
      funext x
      exact rigidGap_comb D hA a b v.1.2.1 v'.1.2.1 v.1.2.2.2 v'.1.2.2.2 x)
    (fun x => rigidGap D u 0 x)
  have hsum : ∀ (v : NodeVec d d ℝ) m, ∑ x, (rigidGap D u 0 x + rigidGap D v m x) ^ 2 = rigidMisfit D m (u + v) := by
    intro v m
    rw [rigidMisfit_sum D ha]
    refine Finset.sum_congr rfl fun x _ => ?_
    have := rigidGap_comb D hA 1 1 u v 0 m x
    simp only [one_smul, one_mul, zero_add] at this
    rw [this]
  obtain ⟨⟨δ, v, q, m⟩, hδ, hv⟩ := x
  refine ⟨δ, u + v, p + q, m, hδ, ?_, fun δ1 u' p' m' hδ1 hu' => ?_⟩
  · have := solves_comb D.L Lp D.bc F hF 1 1 _ _ _ _ _ _ hu hv
    simpa only [one_smul] using this
  have hδ' := internal_comb D hS 1 1 _ _ hδ hδ1
  have hv' := solves_comb D.L Lp D.bc F hF 1 (-1) _ _ _ _ _ _ hu' hu
  simp only [one_smul, neg_smul, ← sub_eq_add_neg] at hδ' hv'
  have e : f + δ + δ1 - f = δ + δ1 := by abel
  rw [e] at hv'
  have h1 := hx ⟨(δ + δ1, u' - u, p' - p, m'), hδ', hv'⟩
  have h2 := (hsum v m).symm.trans_le (h1.trans_eq (hsum (u' - u) m'))
  rw [add_sub_cancel] at h2
  exact h2

/-- C111 (existence, 2D): the sources, the boundary values and the forces of the particles have a flow of least misfit. -/
theorem C111_exists2 (D : Setup 2 4 ℝ) (M : Fin 2 → ℤ) (per : Fin 2 → Bool)
    (lx : Fin 2 → List ℤ) (hDL : D.L = velLayout M per lx) (hsp : D.S = spin2)
    (hne : ∀ i, lx i ≠ []) (hW : ∀ i, (presLayout M per lx i).WF) (hM : Fine M)
    (hh : ∀ c, 0 < D.h c) (hrs : AllProcs D.L D.rs) (hx : FluxFree D.L per D.bc D.h) (ha : ∀ P ∈ D.parts, 0 ≤ P.area)
    (F : NodeVec 2 2 ℝ → NodeVec 2 1 ℝ → NodeVec 2 2 ℝ × NodeVec 2 1 ℝ)
    (hF : F = stokesStrain2 M per lx D.rs D.bc D.h ∧ WallHeld D.L D.bc ∨
      F = stokesLap2 M per lx D.rs D.bc D.h ∧ ComponentsHeld D.L D.bc) (f : NodeVec 2 2 ℝ) :
    ∃ δ u p m, Internal D δ ∧
      LeastRigidMisfit D (presLayout M per lx) F (setDirichletOnRHS D.L D.rs D.bc D.h f + δ) u p m := by
  obtain ⟨h1, h2, -⟩ := problems2 M per lx hne hW hM D.h hh D.rs (hDL ▸ hrs) D.bc (hDL ▸ hx) F (hDL ▸ hF)
  rw [← hDL] at h1 h2
  obtain ⟨u, p, hu⟩ := h2 f
  exact C111_exists D (by rw [hsp]; exact spinLaws2) (by rw [hsp]; exact actLaws2) _ F h1 ha _ u p hu

/-- C111 (existence, 3D): the sources, the boundary values and the forces of the particles have a flow of least misfit. -/
theorem C111_exists3 (D : Setup 3 8 (Pos 3 ℝ)) (M : Fin 3 → ℤ) (per : Fin 3 → Bool)
    (lx : Fin 3 → List ℤ) (hDL : D.L = velLayout M per lx) (hsp : D.S = spin3)
    (hne : ∀ i, lx i ≠ []) (hW : ∀ i, (presLayout M per lx i).WF) (hM : Fine M)
    (hh : ∀ c, 0 < D.h c) (hrs : AllProcs D.L D.rs) (hx : FluxFree D.L per D.bc D.h) (ha : ∀ P ∈ D.parts, 0 ≤ P.area)
    (F : NodeVec 3 3 ℝ → NodeVec 3 1 ℝ → NodeVec 3 3 ℝ × NodeVec 3 1 ℝ)
    (hF : F = stokesStrain3 M per lx D.rs D.bc D.h ∧ WallHeld D.L D.bc ∨
      F = stokesLap3 M per lx D.rs D.bc D.h ∧ ComponentsHeld D.L D.bc) (f : NodeVec 3 3 ℝ) :
    ∃ δ u p m, Internal D δ ∧
      LeastRigidMisfit D (presLayout M per lx) F (setDirichletOnRHS D.L D.rs D.bc D.h f + δ) u p m := by
  obtain ⟨h1, h2, -⟩ := problems3 M per lx hne hW hM D.h hh D.rs (hDL ▸ hrs) D.bc (hDL ▸ hx) F (hDL ▸ hF)
  rw [← hDL] at h1 h2
  obtain ⟨u, p, hu⟩ := h2 f
  exact C111_exists D (by rw [hsp]; exact spinLaws3) (by rw [hsp]; exact actLaws3) _ F h1 ha _ u p hu

/-- The disk of `exS` in its box meets the hypotheses. -/
example (f : NodeVec 2 2 ℝ) : ∃ δ u p m, Internal exS δ ∧ LeastRigidMisfit exS (presLayout ![3, 3] ![false, false] ![[2, 1], [3]])
    (stokesStrain2 ![3, 3] ![false, false] ![[2, 1], [3]] exS.rs exS.bc exS.h)
    (setDirichletOnRHS exS.L exS.rs exS.bc exS.h f + δ) u p m :=
  C111_exists2 exS ![3, 3] ![false, false] ![[2, 1], [3]] rfl rfl exD_mesh.1 exD_mesh.2.1 exD_mesh.2.2 exD_h exD_procs
    exD_fluxFree (fun P hP => by rw [exS_parts P hP]; norm_num [exPart]) _ (Or.inl ⟨rfl, exD_held⟩) f

end Cafes.Props
