/-
Property theorems: C101, the driver of the NtoD problem.
-/
import Verif.Model.NtodDriver
import Verif.Props.Dton
import Mathlib.Tactic.Linarith

namespace Cafes.Props
open Cafes Cafes.Driver

variable {F C G U W : Type*} [AddCommGroup F] [AddCommGroup C] [AddCommGroup G] [AddCommGroup U] [AddCommGroup W]
  [Module ℝ F] [Module ℝ C] [Module ℝ G] [Module ℝ U] [Module ℝ W]

/-! ### C101 -/

/-- The laws of the pieces: those of DtoN, and linearity in the velocities and in the control. -/
structure NtodLawful (N : NtodPieces F C G U W) (bcv : F) : Prop where
  base : Lawful N.base bcv
  rigid : IsLinearMap ℝ N.rigid
  sing : IsLinearMap ℝ N.sing
  force : IsLinearMap ℝ N.force
  singForce : IsLinearMap ℝ N.singForce

/-- The control solver is exact, and for a given linear operator its solution depends linearly on the right-hand side. -/
def LinearSolver (K : Krylov C) : Prop :=
  Exact K ∧ ∀ A : C → C, IsLinearMap ℝ A → ∃ g : C → C, IsLinearMap ℝ g ∧ ∀ b, (∃ x, A x = b) → (K A b).1 = g b

/-- The velocity solver is exact on linear operators. -/
def ExactU (KU : KrylovU U W) : Prop :=
  ∀ (A : U → W) (b : W), IsLinearMap ℝ A → (∃ x, A x = b) → A (KU A b).1 = b

/-- The homogeneous operator of DtoN. -/
def dtonOp (N : NtodPieces F C G U W) (x : C) : C := (dtonMatrix N.base ⟨false, false, false⟩ x).2

/-- The control of the DtoN problem of particles with the velocities `v`, with the boundary values and the source if
`withData`, with the rigid motion if `withRigid`, and with the singular source. -/
def controlOf (N : NtodPieces F C G U W) (K : Krylov C) (withData withRigid : Bool) (v : U) : C :=
  (K (dtonOp N) (-(dtonMatrix (N.at v) ⟨withData, withRigid, true⟩ 0).2)).1

/-- The forces and torques on particles that move with the velocities `v` in the fluid with its boundary values and
source: those of the control, and the singular ones. -/
def totalForce (N : NtodPieces F C G U W) (K : Krylov C) (v : U) : W :=
  N.force (controlOf N K true true v) + N.singForce v

/-- The forces and torques due to the singular source of particles with the velocities `v`, alone. -/
def singOnly (N : NtodPieces F C G U W) (K : Krylov C) (v : U) : W :=
  N.force (controlOf N K false false v) + N.singForce v

/-- Every DtoN problem the driver meets has a solution. -/
def DtonSolvable (N : NtodPieces F C G U W) : Prop :=
  ∀ fl v, ∃ x, dtonOp N x = (dtonMatrix (N.at v) fl 0).2

theorem at_lawful {N : NtodPieces F C G U W} {bcv : F} (hN : NtodLawful N bcv) (v : U) : Lawful (N.at v) bcv :=
  ⟨hN.base.solve, hN.base.setNull, hN.base.ctl, hN.base.interp, hN.base.sl, hN.base.y, hN.base.layer, hN.base.yMean,
    hN.base.setBC, hN.base.null_idem, hN.base.null_bcv⟩

/-- The value of the operator, whatever the state. -/
theorem ntodMatrix_value (N : NtodPieces F C G U W) (K : Krylov C) (addSing : F → F) (useSing a b : Bool) (x : U)
    (s : NSt F C U W) :
    (ntodMatrix N K addSing useSing a b x s).2 =
      (if a then N.force (controlOf N K true false s.vel) + if b then N.singForce s.vel else 0
       else N.force (controlOf N K false true x) + if b then N.singForce x else 0) := by
  cases a <;> rfl

section
variable {N : NtodPieces F C G U W} {bcv : F} (hN : NtodLawful N bcv)
include hN

/-- What the operator of DtoN gives without control: data, rigid motion and singular source add up. -/
theorem dton_const (a b c : Bool) (v : U) :
    (dtonMatrix (N.at v) ⟨a, b, c⟩ 0).2 =
      (if a then (dtonMatrix N.base ⟨true, false, false⟩ 0).2 else 0) +
      (if b then N.base.y (N.base.solve (N.base.setNull (N.base.sl (N.rigid v)))) else 0) +
      (if c then N.base.y (N.base.solve (N.base.setNull (N.base.sl (N.base.interp (N.base.solve
        (N.base.setNull (N.sing v))))))) else 0) := by
  have hP := at_lawful hN v
  have hB := hN.base
  have e1 : ∀ fl : Flags, initProblem (N.at v) fl false 0 0 =
      (if fl.computeRhs then N.base.setNull N.base.source + bcv else 0) +
        (if fl.computeSing then N.base.setNull (N.sing v) else 0) := by
    intro fl
    rw [init_eq hP]
    simp [hP.ctl.map_zero, hP.setNull.map_zero]
    rfl
  have e2 : ∀ fl : Flags, fl.computeSing = false → initProblem N.base fl false 0 0 =
      if fl.computeRhs then N.base.setNull N.base.source + bcv else 0 := by
    intro fl h
    rw [init_eq hB]
    simp [hB.ctl.map_zero, hB.setNull.map_zero, h]
  simp only [dtonMatrix, e1, e2]
  have z1 := hB.y.map_zero
  have z2 := hB.solve.map_zero
  have z3 := hB.setNull.map_zero
  have z4 := hB.sl.map_zero
  have z5 := hB.interp.map_zero
  show N.base.y (N.base.solve (N.base.setNull (N.base.sl (if b then N.base.interp (N.base.solve _) + N.rigid v else
    N.base.interp (N.base.solve _))))) = _
  cases a <;> cases b <;> cases c <;>
    simp [hB.solve.map_add, hB.interp.map_add, hB.sl.map_add, hB.setNull.map_add, hB.y.map_add, z1, z2, z3, z4, z5] <;> abel

/-- C101 (linearity): the operator given to the Krylov solver on the velocities is linear, and does not depend on the
state of the objects. -/
theorem C101_linear (K : Krylov C) (hK : LinearSolver K) (hs : DtonSolvable N) (addSing : F → F) (useSing : Bool)
    (s : NSt F C U W) :
    IsLinearMap ℝ (fun x => (ntodMatrix N K addSing useSing false true x s).2) ∧
    ∀ s' x, (ntodMatrix N K addSing useSing false true x s').2 = (ntodMatrix N K addSing useSing false true x s).2 := by
  obtain ⟨g, hg, he⟩ := hK.2 (dtonOp N) (C55_linear hN.base)
  have hc : ∀ v, controlOf N K false true v = g (-(dtonMatrix (N.at v) ⟨false, true, true⟩ 0).2) := by
    intro v
    obtain ⟨x, hx⟩ := hs ⟨false, true, true⟩ v
    exact he _ ⟨-x, by rw [← hx]; exact (C55_linear hN.base).map_neg x⟩
  have hB := hN.base
  refine ⟨⟨fun v w => ?_, fun a v => ?_⟩, fun s' x => ?_⟩
  · simp only [ntodMatrix_value, Bool.false_eq_true, if_false, if_true, hc, dton_const hN, hN.rigid.map_add, hN.sing.map_add,
      hN.singForce.map_add, hB.solve.map_add, hB.interp.map_add, hB.sl.map_add, hB.setNull.map_add, hB.y.map_add,
      zero_add, neg_add, hg.map_add, hN.force.map_add]
    abel
  · simp only [ntodMatrix_value, Bool.false_eq_true, if_false, if_true, hc, dton_const hN, hN.rigid.map_smul, hN.sing.map_smul,
      hN.singForce.map_smul, hB.solve.map_smul, hB.interp.map_smul, hB.sl.map_smul, hB.setNull.map_smul, hB.y.map_smul,
      zero_add, ← smul_neg, ← smul_add, hg.map_smul, hN.force.map_smul]
  · simp only [ntodMatrix_value, Bool.false_eq_true, if_false]

/-- The forces of moving particles split into those of the operator and those of the data. -/
theorem total_split (K : Krylov C) (hK : LinearSolver K) (hs : DtonSolvable N) (v v0 : U) :
    totalForce N K v = (N.force (controlOf N K false true v) + N.singForce v) +
      (N.force (controlOf N K true false v0) + N.singForce v0) - singOnly N K v0 := by
  obtain ⟨g, hg, he⟩ := hK.2 (dtonOp N) (C55_linear hN.base)
  have hc : ∀ a b v, controlOf N K a b v = g (-(dtonMatrix (N.at v) ⟨a, b, true⟩ 0).2) := by
    intro a b v
    obtain ⟨x, hx⟩ := hs ⟨a, b, true⟩ v
    exact he _ ⟨-x, by rw [← hx]; exact (C55_linear hN.base).map_neg x⟩
  simp only [totalForce, singOnly, hc, dton_const hN, Bool.false_eq_true, if_false, if_true, neg_add, hg.map_add,
    hN.force.map_add, zero_add, add_zero]
  abel

omit [Module ℝ F] [Module ℝ C] [Module ℝ G] [Module ℝ U] [Module ℝ W] hN in
/-- The velocities found by `setup_RHS` then `solve`. -/
theorem ntod_run (K : Krylov C) (KU : KrylovU U W) (addSing : F → F) (useSing : Bool) (s : NSt F C U W) :
    let t := ntodSolve N K KU addSing useSing (ntodSetupRHS N K addSing useSing s)
    t.vel = t.sol ∧ t.sol = (KU (fun x => N.force (controlOf N K false true x) + N.singForce x)
      (-(N.force (controlOf N K true false s.vel) + N.singForce s.vel))).1 := by
  intro t
  exact ⟨rfl, rfl⟩

/-- C101 (balance, exact): whatever the state before, the velocities left in the particles by `setup_RHS` then `solve` are
those for which the forces and torques exerted by the fluid cancel, up to the forces of the singular source of the
velocities the particles had before, which enter the right-hand side. -/
theorem C101_balance (K : Krylov C) (hK : LinearSolver K) (KU : KrylovU U W) (hKU : ExactU KU) (hs : DtonSolvable N)
    (addSing : F → F) (useSing : Bool) (s : NSt F C U W) (hex : ∃ v, totalForce N K v = - singOnly N K s.vel) :
    let t := ntodSolve N K KU addSing useSing (ntodSetupRHS N K addSing useSing s)
    totalForce N K t.vel = - singOnly N K s.vel := by
  intro t
  obtain ⟨h1, h2⟩ := ntod_run (N := N) K KU addSing useSing s
  have hl : IsLinearMap ℝ fun x => N.force (controlOf N K false true x) + N.singForce x :=
    (C101_linear hN K hK hs addSing useSing s).1
  obtain ⟨v, hv⟩ := hex
  have h3 := hKU _ (-(N.force (controlOf N K true false s.vel) + N.singForce s.vel)) hl ⟨v, by
    rw [total_split hN K hK hs v s.vel] at hv
    rw [eq_neg_iff_add_eq_zero]
    exact sub_eq_neg_self.1 hv⟩
  have h4 : t.vel = _ := h1.trans h2
  rw [total_split hN K hK hs t.vel s.vel, h4]
  refine Eq.trans (congrArg₂ (· - ·) (congrArg₂ (· + ·) h3 rfl) rfl) ?_
  abel

/-- C101 (balance): when the particles are at rest before, the forces and torques on the particles moving with the velocities
found are zero. -/
theorem C101_rest (K : Krylov C) (hK : LinearSolver K) (KU : KrylovU U W) (hKU : ExactU KU) (hs : DtonSolvable N)
    (addSing : F → F) (useSing : Bool) (s : NSt F C U W) (hv : s.vel = 0) (hex : ∃ v, totalForce N K v = 0) :
    totalForce N K (ntodSolve N K KU addSing useSing (ntodSetupRHS N K addSing useSing s)).vel = 0 := by
  have h0 : singOnly N K s.vel = 0 := by
    obtain ⟨g, hg, he⟩ := hK.2 (dtonOp N) (C55_linear hN.base)
    have hz : (dtonMatrix (N.at s.vel) ⟨false, false, true⟩ 0).2 = 0 := by
      rw [dton_const hN, hv]
      have hB := hN.base
      simp [hN.sing.map_zero, hB.y.map_zero, hB.solve.map_zero, hB.setNull.map_zero, hB.sl.map_zero, hB.interp.map_zero]
    unfold singOnly controlOf
    rw [hz, neg_zero, he 0 ⟨0, (C55_linear hN.base).map_zero⟩, hg.map_zero, hN.force.map_zero, hv, hN.singForce.map_zero,
      add_zero]
  have := C101_balance hN K hK KU hKU hs addSing useSing s (by rw [h0, neg_zero]; exact hex)
  rwa [h0, neg_zero] at this

/-- C101 (flow): the fluid solution left by `solve` is the flow of the DtoN problem, without singular source, of particles
that move with the velocities found (`use_sing` off): the residual vanishes. -/
theorem C101_flow (K : Krylov C) (hK : Exact K) (KU : KrylovU U W) (addSing : F → F) (s : NSt F C U W)
    (hex : ∀ v, ∃ x, dtonResidual (N.at v) (dtonFluid (N.at v) false x) = 0) :
    let t := ntodSolve N K KU addSing false (ntodSetupRHS N K addSing false s)
    t.dton.fSol = dtonFluid (N.at t.vel) false t.dton.sol ∧ dtonResidual (N.at t.vel) t.dton.fSol = 0 := by
  intro t
  exact C55_solve (at_lawful hN t.vel) K hK addSing _ rfl (hex t.vel)

end

/-! ### counter-examples -/

/-- The smallest problem: one unknown of each kind. -/
def toyN : NtodPieces ℝ ℝ ℝ ℝ ℝ where
  base := toy
  rigid := fun v => -v
  sing := id
  force := id
  singForce := fun v => 2 * v

theorem toyN_lawful : NtodLawful toyN 0 := by
  have h : IsLinearMap ℝ (id : ℝ → ℝ) := ⟨fun _ _ => rfl, fun _ _ => rfl⟩
  refine ⟨toy_lawful, ⟨fun x y => ?_, fun a x => ?_⟩, h, h, ⟨fun x y => ?_, fun a x => ?_⟩⟩ <;>
    simp only [toyN, smul_eq_mul] <;> ring

theorem toyK_linear : LinearSolver toyK := by
  refine ⟨toyK_exact, fun A hA => ⟨fun b => b / A 1, ⟨fun x y => add_div _ _ _, fun a x => mul_div_assoc _ _ _⟩, ?_⟩⟩
  intro b _
  have h0 : A 0 = 0 := hA.map_zero
  simp only [toyK, h0, sub_zero]

theorem toyN_op (x : ℝ) : dtonOp toyN x = x := by
  simp [dtonOp, toyN, dtonMatrix, initProblem, toy]

theorem toyN_solvable : DtonSolvable toyN := fun _ _ => ⟨_, toyN_op _⟩

theorem toyN_control (a b : Bool) (v : ℝ) : controlOf toyN toyK a b v =
    -((if a then 1 else 0) + (if b then -v else 0) + v) := by
  have h : dtonOp toyN = id := funext toyN_op
  unfold controlOf
  rw [h, dton_const toyN_lawful]
  cases a <;> cases b <;>
    norm_num [toyK, dtonMatrix, initProblem, setupRHSFluid, toyN, toy]

theorem toyN_total (v : ℝ) : totalForce toyN toyK v = 2 * v - 1 ∧ singOnly toyN toyK v = v := by
  constructor
  · simp only [totalForce, toyN_control]
    simp [toyN]; ring
  · simp only [singOnly, toyN_control]
    simp [toyN]; ring

/-- The hypotheses of `C101_balance`, `C101_rest` and `C101_flow` hold for the smallest problem. -/
example : NtodLawful toyN 0 ∧ LinearSolver toyK ∧ DtonSolvable toyN ∧ ExactU (U := ℝ) (W := ℝ) toyK ∧
    (∃ v, totalForce toyN toyK v = 0) ∧ (∃ v, totalForce toyN toyK v = -singOnly toyN toyK 1) ∧
    ∀ v, ∃ x, dtonResidual (toyN.at v) (dtonFluid (toyN.at v) false x) = 0 := by
  refine ⟨toyN_lawful, toyK_linear, toyN_solvable, toyK_exact, ⟨1 / 2, ?_⟩, ⟨0, ?_⟩, fun v => ⟨v - 1, ?_⟩⟩
  · rw [(toyN_total _).1]; norm_num
  · rw [(toyN_total _).1, (toyN_total _).2]; norm_num
  · simp [dtonResidual, dtonFluid, NtodPieces.at, toyN, toy]

/-- C101 fails when the particles are not at rest before: the forces do not balance (and, `solve` leaving its velocities in the
particles, on a second `setup_RHS` and `solve`). -/
theorem C101_moving_refuted : ¬ ∀ (N : NtodPieces ℝ ℝ ℝ ℝ ℝ) (bcv : ℝ) (K KU : Krylov ℝ) (s : NSt ℝ ℝ ℝ ℝ),
    NtodLawful N bcv → LinearSolver K → ExactU KU → DtonSolvable N → (∃ v, totalForce N K v = 0) →
    totalForce N K (ntodSolve N K KU id false (ntodSetupRHS N K id false s)).vel = 0 := by
  intro h
  have h1 := h toyN 0 toyK toyK (ntodInit 1 0 0) toyN_lawful toyK_linear toyK_exact toyN_solvable
    ⟨1 / 2, by rw [(toyN_total _).1]; norm_num⟩
  have h2 := C101_balance toyN_lawful toyK toyK_linear toyK toyK_exact toyN_solvable id false (ntodInit 1 0 0)
    ⟨0, by rw [(toyN_total _).1, (toyN_total _).2]; simp [ntodInit]⟩
  have h3 := h1.symm.trans h2
  rw [(toyN_total _).2] at h3
  simp [ntodInit] at h3

/-- C101 fails for the last flow: the operator balances the forces of flows with the singular source, the last DtoN problem is
solved without it (`use_sing` is off by default), and the forces of its control do not balance the singular forces. -/
theorem C101_last_refuted : ¬ ∀ (N : NtodPieces ℝ ℝ ℝ ℝ ℝ) (bcv : ℝ) (K KU : Krylov ℝ),
    NtodLawful N bcv → LinearSolver K → ExactU KU → DtonSolvable N → (∃ v, totalForce N K v = 0) →
    N.force (ntodSolve N K KU id false (ntodSetupRHS N K id false (ntodInit 0 0 0))).dton.sol +
      N.singForce (ntodSolve N K KU id false (ntodSetupRHS N K id false (ntodInit 0 0 0))).vel = 0 := by
  intro h
  have hex : ∃ v, totalForce toyN toyK v = 0 := ⟨1 / 2, by rw [(toyN_total _).1]; norm_num⟩
  have h1 := h toyN 0 toyK toyK toyN_lawful toyK_linear toyK_exact toyN_solvable hex
  have h2 := C101_rest toyN_lawful toyK toyK_linear toyK toyK_exact toyN_solvable id false (ntodInit 0 0 0) rfl hex
  obtain ⟨h3, h4⟩ := C101_flow toyN_lawful toyK toyK_exact toyK id (ntodInit 0 0 0)
    fun v => ⟨v - 1, by simp [dtonResidual, dtonFluid, NtodPieces.at, toyN, toy]⟩
  set t := ntodSolve toyN toyK toyK id false (ntodSetupRHS toyN toyK id false (ntodInit 0 0 0)) with ht
  rw [(toyN_total _).1] at h2
  rw [h3] at h4
  simp [dtonResidual, dtonFluid, NtodPieces.at, toyN, toy] at h4
  have h1' : t.dton.sol + 2 * t.vel = 0 := h1
  linarith

end Cafes.Props
