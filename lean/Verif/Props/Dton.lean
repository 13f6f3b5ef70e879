import Verif.Model.Dton
import Mathlib.Algebra.Module.LinearMap.Basic
import Mathlib.Tactic.Abel
import Mathlib.Tactic.Ring
import Mathlib.Tactic.NormNum
import Mathlib.Tactic.Module

/-!
Property theorems for the drivers of the particle problems: C55 (DtoN), C83 (SEM), C84 (Stokes right-hand
side).
-/

namespace Cafes.Props
open Cafes.Driver

variable {F C G : Type*} [AddCommGroup F] [AddCommGroup C] [AddCommGroup G]
  [Module ℝ F] [Module ℝ C] [Module ℝ G]

/-- The pieces are linear, and `SetDirichletOnRHS` differs from the linear `SetNullDirichletOnRHS` by the
boundary values `bcv`. Proved for the concrete pieces in `Verif/Props/DtonInst.lean`. -/
structure Lawful (P : Fluid F C G) (bcv : F) : Prop where
  solve : IsLinearMap ℝ P.solve
  setNull : IsLinearMap ℝ P.setNull
  ctl : IsLinearMap ℝ P.ctl
  interp : IsLinearMap ℝ P.interp
  sl : IsLinearMap ℝ P.sl
  y : IsLinearMap ℝ P.y
  layer : IsLinearMap ℝ P.layer
  yMean : IsLinearMap ℝ P.yMean
  setBC : ∀ v, P.setBC v = P.setNull v + bcv
  null_idem : ∀ v, P.setNull (P.setNull v) = P.setNull v
  null_bcv : P.setNull bcv = 0

/-- The Krylov solver is exact on linear operators. -/
def Exact (K : Krylov C) : Prop := ∀ (A : C → C) (b : C), IsLinearMap ℝ A → (∃ x, A x = b) → A (K A b).1 = b

/-- The velocity, at the solid nodes, of the second fluid problem of DtoN when the first one has the
solution `u`: the particles move as rigid bodies with the given velocities when it vanishes. -/
def dtonResidual (P : Fluid F C G) (u : F) : C :=
  P.y (P.solve (P.setNull (P.sl (P.interp u + P.rigid))))

/-- The same for the SEM problem. -/
def semResidual (P : Fluid F C G) (u : F) : C :=
  P.yMean (P.solve (P.setNull (P.sl (P.layer (P.interp u)))))

/-- The fluid solution of the DtoN problem with the control `x`: boundary values, source, singular source
if `useSing`. -/
def dtonFluid (P : Fluid F C G) (useSing : Bool) (x : C) : F :=
  P.solve (P.setBC (P.setBC P.source + (if useSing then P.sing else 0) + P.ctl x))

/-- The fluid solution of the SEM problem with the control `x`. -/
def semFluid (P : Fluid F C G) (x : C) : F :=
  P.solve (P.setBC (P.setBC P.source + (P.ctl x + P.ext)))

section
variable {P : Fluid F C G} {bcv : F} (hP : Lawful P bcv)
include hP

theorem init_eq (fl : Flags) (af : Bool) (x : C) (r : F) :
    initProblem P fl af x r = P.setNull (r + P.ctl x) +
      ((if fl.computeRhs then P.setNull P.source + bcv else 0) +
        (if fl.computeSing then P.setNull P.sing else 0) + (if af then P.setNull P.ext else 0)) := by
  have hb := hP.setBC
  have hi := hP.null_idem
  have h0 := hP.null_bcv
  have ha := hP.setNull.map_add
  have hz := hP.setNull.map_zero
  simp only [initProblem, setupRHSFluid]
  rcases fl with ⟨a, b, c⟩
  cases a <;> cases c <;> cases af <;> simp [hb, hi, h0, ha, hz] <;> abel

/-- The operator of DtoN is the homogeneous operator plus a constant. -/
theorem dton_affine (fl : Flags) (x : C) :
    (dtonMatrix P fl x).2 = (dtonMatrix P ⟨false, false, false⟩ x).2 + (dtonMatrix P fl 0).2 := by
  have e : ∀ fl x, initProblem P fl false x 0 = initProblem P ⟨false, false, false⟩ false x 0 +
      initProblem P fl false 0 0 := by
    intro fl x
    rw [init_eq hP, init_eq hP, init_eq hP]
    simp [hP.setNull.map_zero, hP.ctl.map_zero]
  simp only [dtonMatrix]
  rw [e fl x, hP.solve.map_add, hP.interp.map_add]
  rcases fl with ⟨a, b, c⟩
  cases b
  · simp [hP.sl.map_add, hP.setNull.map_add, hP.solve.map_add, hP.y.map_add]
  · simp [hP.sl.map_add, hP.setNull.map_add, hP.solve.map_add, hP.y.map_add]
    abel

/-- C55: with the three flags off the operator given to the Krylov solver is linear. -/
theorem C55_linear : IsLinearMap ℝ fun x => (dtonMatrix P ⟨false, false, false⟩ x).2 := by
  have h0 : ∀ x, (dtonMatrix P ⟨false, false, false⟩ x).2 =
      P.y (P.solve (P.setNull (P.sl (P.interp (P.solve (P.setNull (P.ctl x))))))) := by
    intro x
    simp [dtonMatrix, initProblem]
  constructor
  · intro x x'
    simp only [h0, hP.ctl.map_add, hP.setNull.map_add, hP.solve.map_add, hP.interp.map_add, hP.sl.map_add,
      hP.y.map_add]
  · intro a x
    simp only [h0, hP.ctl.map_smul, hP.setNull.map_smul, hP.solve.map_smul, hP.interp.map_smul,
      hP.sl.map_smul, hP.y.map_smul]

omit hP in
theorem ksp_flags (op : Flags → C → (F × F) × C) (K : Krylov C) (s : St F C) :
    (kspSolve op K s).flags = s.flags ∧ (kspSolve op K s).rhs = s.rhs ∧
    (kspSolve op K s).sol = (K (fun x => (op s.flags x).2) s.rhs).1 := by
  have : ∀ (l : List C) (s : St F C), (l.foldl (fun s x => (applyOp op s x).1) s).flags = s.flags ∧
      (l.foldl (fun s x => (applyOp op s x).1) s).rhs = s.rhs := by
    intro l
    induction l with
    | nil => intro s; exact ⟨rfl, rfl⟩
    | cons x l ih => intro s; exact ih _
  exact ⟨(this _ s).1, (this _ s).2, rfl⟩

/-- The final state of `setup_RHS` then `solve` with the default flags, whatever the initial state. -/
theorem dton_run (K : Krylov C) (addSing : F → F) (useSing : Bool) (s : St F C) :
    (dtonSolve P K addSing true useSing (dtonSetupRHS P true useSing s)).sol =
      (K (fun x => (dtonMatrix P ⟨false, false, useSing⟩ x).2)
        (-(dtonMatrix P ⟨true, true, useSing⟩ s.sol).2)).1 ∧
    (dtonSolve P K addSing true useSing (dtonSetupRHS P true useSing s)).fSol =
      if useSing then addSing (dtonFluid P useSing
          (dtonSolve P K addSing true useSing (dtonSetupRHS P true useSing s)).sol)
      else dtonFluid P useSing (dtonSolve P K addSing true useSing (dtonSetupRHS P true useSing s)).sol := by
  obtain ⟨h1, h2, h3⟩ := ksp_flags (dtonMatrix P) K
    { dtonSetupRHS P true useSing s with flags := ⟨false, false, useSing⟩ }
  have hsol : (dtonSolve P K addSing true useSing (dtonSetupRHS P true useSing s)).sol =
      (K (fun x => (dtonMatrix P ⟨false, false, useSing⟩ x).2)
        (-(dtonMatrix P ⟨true, true, useSing⟩ s.sol).2)).1 := by
    cases useSing <;> exact h3
  refine ⟨hsol, ?_⟩
  rw [hsol]
  have e : ∀ x, P.solve (initProblem P ⟨true, true, useSing⟩ false x 0) = dtonFluid P useSing x := by
    intro x
    simp only [dtonFluid, initProblem, setupRHSFluid]
    cases useSing <;> simp
  rw [← e]
  cases useSing <;> rfl

theorem residual_fluid (useSing : Bool) (x : C) :
    dtonResidual P (dtonFluid P useSing x) = (dtonMatrix P ⟨true, true, useSing⟩ x).2 := by
  simp only [dtonResidual, dtonMatrix, dtonFluid, initProblem, setupRHSFluid]
  cases useSing <;> simp

/-- C55 (one solve, no singularity): from any state whose control is zero (in particular after
`create_Mat_and_Vec`), `setup_RHS` then `solve` leave in the fluid solution the flow of the control found,
with the boundary values and the source, and the residual of the second problem vanishes: the operator
iterated by the solver was the homogeneous one. Assumes an exact Krylov solver, and that the problem has a
solution. -/
theorem C55_solve (K : Krylov C) (hK : Exact K) (addSing : F → F) (s : St F C) (hs : s.sol = 0)
    (hex : ∃ x, dtonResidual P (dtonFluid P false x) = 0) :
    let t := dtonSolve P K addSing true false (dtonSetupRHS P true false s)
    t.fSol = dtonFluid P false t.sol ∧ dtonResidual P t.fSol = 0 := by
  intro t
  obtain ⟨h1, h2⟩ := dton_run hP K addSing false s
  have h2' : t.fSol = dtonFluid P false t.sol := h2
  refine ⟨h2', ?_⟩
  rw [h2', residual_fluid hP, dton_affine hP]
  obtain ⟨x, hx⟩ := hex
  rw [residual_fluid hP, dton_affine hP] at hx
  have := hK _ (-(dtonMatrix P ⟨true, true, false⟩ s.sol).2) (C55_linear hP)
    ⟨x, by rw [hs]; exact eq_neg_of_add_eq_zero_left hx⟩
  have h1' : t.sol = _ := h1
  rw [h1', this, hs]
  abel

/-- The API calls of a DtoN object. -/
inductive Call
  | setupRHS
  | solve
  | solveLast

/-- A sequence of calls. -/
def runCalls (P : Fluid F C G) (K : Krylov C) (addSing : F → F) (useSing : Bool) (h : List Call)
    (s : St F C) : St F C :=
  h.foldl (fun s c => match c with
    | .setupRHS => dtonSetupRHS P true useSing s
    | .solve => dtonSolve P K addSing true useSing s
    | .solveLast => dtonSolveLast P addSing true useSing s) s

/-- C55 (histories, no singularity): whatever the sequence of calls and the initial state, the Krylov
solver is only given linear operators: two solvers that agree on linear operators cannot be
distinguished. -/
theorem C55_history (K K' : Krylov C) (hK : ∀ A b, IsLinearMap ℝ A → K A b = K' A b) (addSing : F → F)
    (h : List Call) (s : St F C) :
    runCalls P K addSing false h s = runCalls P K' addSing false h s := by
  have e : ∀ s, dtonSolve P K addSing true false s = dtonSolve P K' addSing true false s := by
    intro s
    have : ∀ s : St F C, s.flags = ⟨false, false, false⟩ →
        kspSolve (dtonMatrix P) K s = kspSolve (dtonMatrix P) K' s := by
      intro s hs
      simp only [kspSolve, hs, hK _ _ (C55_linear hP)]
    simp only [dtonSolve, if_true]
    rw [this _ rfl]
  induction h generalizing s with
  | nil => rfl
  | cons c h ih =>
    have hc : (match c with
        | Call.setupRHS => dtonSetupRHS P true false s
        | Call.solve => dtonSolve P K addSing true false s
        | Call.solveLast => dtonSolveLast P addSing true false s) = (match c with
        | Call.setupRHS => dtonSetupRHS P true false s
        | Call.solve => dtonSolve P K' addSing true false s
        | Call.solveLast => dtonSolveLast P addSing true false s) := by
      cases c
      · rfl
      · exact e s
      · rfl
    simp only [runCalls, List.foldl_cons] at ih ⊢
    rw [hc]
    exact ih _

/-- C55 (exact, `use_sing`): any control solving exactly the equation given to the Krylov solver leaves a
residual: minus the effect of the singular source, which enters the equation twice. -/
theorem C55_use_sing (b x : C) (hb : b = -(dtonMatrix P ⟨true, true, true⟩ 0).2)
    (hx : (dtonMatrix P ⟨false, false, true⟩ x).2 = b) :
    dtonResidual P (dtonFluid P true x) = -(dtonMatrix P ⟨false, false, true⟩ 0).2 := by
  rw [residual_fluid hP, dton_affine hP]
  rw [dton_affine hP] at hx
  rw [eq_neg_iff_add_eq_zero, add_right_comm, hx, hb]
  abel

/-- C55 (exact, second call): a second `setup_RHS` and `solve` on the same object: the right-hand side is zero (the control of the
first solve is not reset), and any exact solution of the equation given to the solver leaves the whole
residual of the problem without control. -/
theorem C55_second_call (K : Krylov C) (hK : Exact K) (addSing : F → F) (s : St F C) (hs : s.sol = 0)
    (hex : ∃ x, dtonResidual P (dtonFluid P false x) = 0) :
    let t := dtonSolve P K addSing true false (dtonSetupRHS P true false s)
    let t' := dtonSolve P K addSing true false (dtonSetupRHS P true false t)
    dtonResidual P t'.fSol = dtonResidual P (dtonFluid P false 0) := by
  intro t t'
  obtain ⟨h2, h3⟩ := C55_solve hP K hK addSing s hs hex
  obtain ⟨k1, k2⟩ := dton_run hP K addSing false t
  have h0 : (dtonMatrix P ⟨true, true, false⟩ t.sol).2 = 0 := by
    rw [← residual_fluid hP, ← h2]; exact h3
  have k2' : t'.fSol = dtonFluid P false t'.sol := k2
  have k1' : t'.sol = _ := k1
  rw [k2', residual_fluid hP, residual_fluid hP, dton_affine hP, k1', h0, neg_zero]
  have := hK _ 0 (C55_linear hP) ⟨0, (C55_linear hP).map_zero⟩
  rw [this, zero_add]

/-- C55 (`default_flags_` off): on a fresh object whose default flags are turned off before `setup_RHS`, the
boundary values, the source, the rigid motions and the singular source are all ignored: the right-hand side is
zero, the fluid is at rest, and an exact solver leaves a control that the homogeneous operator sends to zero. -/
theorem C55_own_flags (K : Krylov C) (hK : Exact K) (addSing : F → F) (useSing : Bool) (f0 s0 : F) :
    (dtonSetupRHS P false useSing (initSt f0 s0)).rhs = 0 ∧
    (dtonSetupRHS P false useSing (initSt f0 s0)).fSol = 0 ∧
    (dtonMatrix P ⟨false, false, false⟩
      (dtonSolve P K addSing false useSing (dtonSetupRHS P false useSing (initSt f0 s0))).sol).2 = 0 := by
  have h0 := (C55_linear hP).map_zero
  have hr : (dtonSetupRHS P false useSing (initSt f0 s0)).rhs = 0 := by
    show -(dtonMatrix P ⟨false, false, false⟩ 0).2 = 0
    rw [h0, neg_zero]
  refine ⟨hr, ?_, ?_⟩
  · show (dtonMatrix P ⟨false, false, false⟩ 0).1.2 = 0
    simp [dtonMatrix, initProblem, hP.ctl.map_zero, hP.setNull.map_zero, hP.solve.map_zero, hP.interp.map_zero,
      hP.sl.map_zero]
  · obtain ⟨-, -, h3⟩ := ksp_flags (dtonMatrix P) K (dtonSetupRHS P false useSing (initSt f0 s0))
    have e : (dtonSolve P K addSing false useSing (dtonSetupRHS P false useSing (initSt f0 s0))).sol =
        (K (fun x => (dtonMatrix P ⟨false, false, false⟩ x).2)
          (dtonSetupRHS P false useSing (initSt f0 s0)).rhs).1 := h3
    rw [e, hr]
    exact hK _ 0 (C55_linear hP) ⟨0, h0⟩

/-! ### SEM -/

theorem sem_affine (fl : Flags) (x : C) :
    (semMatrix P fl x).2 = (semMatrix P ⟨false, false, false⟩ x).2 + (semMatrix P fl 0).2 := by
  have e : ∀ fl x, initProblem P fl fl.computeRhs x 0 = initProblem P ⟨false, false, false⟩ false x 0 +
      initProblem P fl fl.computeRhs 0 0 := by
    intro fl x
    rw [init_eq hP, init_eq hP, init_eq hP]
    simp [hP.setNull.map_zero, hP.ctl.map_zero]
  simp only [semMatrix]
  rw [e fl x, hP.solve.map_add, hP.interp.map_add, hP.layer.map_add, hP.sl.map_add, hP.setNull.map_add,
    hP.solve.map_add, hP.yMean.map_add]

/-- C83: with `compute_rhs` off the operator of SEM is linear. -/
theorem C83_linear : IsLinearMap ℝ fun x => (semMatrix P ⟨false, false, false⟩ x).2 := by
  have h0 : ∀ x, (semMatrix P ⟨false, false, false⟩ x).2 =
      P.yMean (P.solve (P.setNull (P.sl (P.layer (P.interp (P.solve (P.setNull (P.ctl x)))))))) := by
    intro x
    simp [semMatrix, initProblem]
  constructor
  · intro x x'
    simp only [h0, hP.ctl.map_add, hP.setNull.map_add, hP.solve.map_add, hP.interp.map_add, hP.sl.map_add,
      hP.layer.map_add, hP.yMean.map_add]
  · intro a x
    simp only [h0, hP.ctl.map_smul, hP.setNull.map_smul, hP.solve.map_smul, hP.interp.map_smul,
      hP.sl.map_smul, hP.layer.map_smul, hP.yMean.map_smul]

theorem sem_residual_fluid (x : C) :
    semResidual P (semFluid P x) = (semMatrix P ⟨true, false, false⟩ x).2 := by
  simp [semResidual, semMatrix, semFluid, initProblem, setupRHSFluid]

/-- C83 (control): from a fresh SEM object, `setup_RHS` then `solve` find a control whose flow (with the
boundary values, the source and the forces) leaves no residual. The fluid solution left by `solve` is
not that flow, see `C83_stale` and `C83_refuted`. -/
theorem C83_control (K : Krylov C) (hK : Exact K) (f0 s0 : F)
    (hex : ∃ x, semResidual P (semFluid P x) = 0) :
    semResidual P (semFluid P (semSolve P K (semSetupRHS P (initSt f0 s0))).sol) = 0 := by
  obtain ⟨h1, h2, h3⟩ := ksp_flags (semMatrix P) K
    { semSetupRHS P (initSt f0 s0) with flags := ⟨false, false, false⟩ }
  have hsol : (semSolve P K (semSetupRHS P (initSt f0 s0))).sol =
      (K (fun x => (semMatrix P ⟨false, false, false⟩ x).2)
        (-(semMatrix P ⟨true, false, false⟩ 0).2)).1 := h3
  obtain ⟨x, hx⟩ := hex
  rw [sem_residual_fluid hP, sem_affine hP] at hx
  have := hK _ (-(semMatrix P ⟨true, false, false⟩ 0).2) (C83_linear hP)
    ⟨x, eq_neg_of_add_eq_zero_left hx⟩
  rw [sem_residual_fluid hP, sem_affine hP, hsol, this]
  abel

/-- The fluid solution left by `SEM::solve`: the flow of the control plus the solution of the last fluid
problem solved by the Krylov iterations, whose right-hand side is still there. -/
theorem C83_stale (K : Krylov C) (f0 s0 : F) :
    ∃ stale, stale = (kspSolve (semMatrix P) K { semSetupRHS P (initSt f0 s0) with
        flags := ⟨false, false, false⟩ }).fRhs ∧
      (semSolve P K (semSetupRHS P (initSt f0 s0))).fSol =
        semFluid P (semSolve P K (semSetupRHS P (initSt f0 s0))).sol + P.solve (P.setNull stale) := by
  refine ⟨_, rfl, ?_⟩
  obtain ⟨h1, h2, h3⟩ := ksp_flags (semMatrix P) K
    { semSetupRHS P (initSt f0 s0) with flags := ⟨false, false, false⟩ }
  set t := kspSolve (semMatrix P) K { semSetupRHS P (initSt f0 s0) with flags := ⟨false, false, false⟩ }
    with ht
  have e : (semSolve P K (semSetupRHS P (initSt f0 s0))).fSol =
      P.solve (initProblem P { t.flags with computeRhs := true } true t.sol t.fRhs) := rfl
  have e2 : (semSolve P K (semSetupRHS P (initSt f0 s0))).sol = t.sol := rfl
  rw [e, e2, h1, init_eq hP, semFluid, hP.setBC, hP.setBC]
  simp only [hP.setNull.map_add, hP.null_idem, hP.null_bcv, ← hP.solve.map_add]
  congr 1
  simp
  abel

end

/-! ### counter-examples -/

/-- The smallest problem: one unknown of each kind, all the maps are the identity, the source, the
singular source and the rigid motion are 1, 1, 0. -/
def toy : Fluid ℝ ℝ ℝ where
  solve := id
  source := 1
  setBC := id
  setNull := id
  ctl := id
  ext := 0
  sing := 1
  interp := id
  rigid := 0
  sl := id
  y := id
  layer := id
  yMean := id

theorem toy_lawful : Lawful toy 0 := by
  have h : IsLinearMap ℝ (id : ℝ → ℝ) := ⟨fun _ _ => rfl, fun _ _ => rfl⟩
  refine ⟨h, h, h, h, h, h, h, h, fun v => (add_zero v).symm, fun _ => rfl, rfl⟩

/-- An exact solver for the affine operators of one unknown, which ends by applying the operator to the
solution. -/
noncomputable def toyK : Krylov ℝ := fun A b => ((b - A 0) / (A 1 - A 0), [(b - A 0) / (A 1 - A 0)])

theorem toyK_exact : Exact toyK := by
  rintro A b hA ⟨x, rfl⟩
  have h : ∀ t, A t = t * A 1 := fun t => by
    have := hA.map_smul t 1
    simpa using this
  have h0 : A 0 = 0 := hA.map_zero
  simp only [toyK, h0, sub_zero]
  rw [h (A x / A 1)]
  by_cases h1 : A 1 = 0
  · rw [h1, h x, h1]; simp
  · rw [div_mul_cancel₀ _ h1]

/-- The hypotheses of `C55_solve`, `C83_control` are met by the smallest problem. -/
example : (∃ x, dtonResidual toy (dtonFluid toy false x) = 0) ∧
    ∃ x, semResidual toy (semFluid toy x) = 0 :=
  ⟨⟨-1, by simp [dtonResidual, dtonFluid, toy]⟩, ⟨-1, by simp [semResidual, semFluid, toy]⟩⟩

/-- C55 fails with `use_sing`: the control found does not solve the problem, although the solver is
exact: the operator it iterates is not homogeneous. -/
theorem C55_use_sing_refuted : ¬ ∀ (P : Fluid ℝ ℝ ℝ) (bcv : ℝ) (K : Krylov ℝ) (addSing : ℝ → ℝ),
    Lawful P bcv → Exact K → (∃ x, dtonResidual P (dtonFluid P true x) = 0) →
    dtonResidual P (dtonFluid P true
      (dtonSolve P K addSing true true (dtonSetupRHS P true true (initSt 0 0))).sol) = 0 := by
  intro h
  have := h toy 0 toyK id toy_lawful toyK_exact ⟨-2, by norm_num [dtonResidual, dtonFluid, toy]⟩
  rw [(dton_run toy_lawful toyK id true (initSt 0 0)).1] at this
  norm_num [dtonResidual, dtonFluid, toy, toyK, dtonMatrix, initProblem, setupRHSFluid, initSt] at this

/-- C55 fails for a second `setup_RHS`, `solve` on the same object. -/
theorem C55_second_call_refuted : ¬ ∀ (P : Fluid ℝ ℝ ℝ) (bcv : ℝ) (K : Krylov ℝ) (addSing : ℝ → ℝ),
    Lawful P bcv → Exact K → (∃ x, dtonResidual P (dtonFluid P false x) = 0) →
    dtonResidual P (runCalls P K addSing false [.setupRHS, .solve, .setupRHS, .solve]
      (initSt 0 0)).fSol = 0 := by
  intro h
  have hex : ∃ x, dtonResidual toy (dtonFluid toy false x) = 0 :=
    ⟨-1, by simp [dtonResidual, dtonFluid, toy]⟩
  have h1 := h toy 0 toyK id toy_lawful toyK_exact hex
  have h2 := C55_second_call toy_lawful toyK toyK_exact id (initSt 0 0) rfl hex
  have h3 := h2.symm.trans h1
  norm_num [dtonResidual, dtonFluid, toy] at h3

/-- C83 fails: the fluid solution left by `SEM::solve` is not the flow of the control found. -/
theorem C83_refuted : ¬ ∀ (P : Fluid ℝ ℝ ℝ) (bcv : ℝ) (K : Krylov ℝ), Lawful P bcv → Exact K →
    (∃ x, semResidual P (semFluid P x) = 0) →
    (semSolve P K (semSetupRHS P (initSt 0 0))).fSol =
      semFluid P (semSolve P K (semSetupRHS P (initSt 0 0))).sol := by
  intro h
  have := h toy 0 toyK toy_lawful toyK_exact ⟨-1, by simp [semResidual, semFluid, toy]⟩
  norm_num [semSolve, semSetupRHS, semFluid, toy, toyK, semMatrix, initProblem, setupRHSFluid, initSt,
    kspSolve, applyOp] at this

/-! ### the fluid problem after each call -/

/-- The solution held by the fluid problem is the one of the right-hand side it holds. -/
def Settled (P : Fluid F C G) (s : St F C) : Prop := s.fSol = P.solve s.fRhs

theorem ksp_settled {P : Fluid F C G} {op : Flags → C → (F × F) × C}
    (hop : ∀ fl x, (op fl x).1.2 = P.solve (op fl x).1.1) (K : Krylov C) (s : St F C)
    (hs : Settled P s) : Settled P (kspSolve op K s) := by
  have : ∀ (l : List C) (s : St F C), Settled P s →
      Settled P (l.foldl (fun s x => (applyOp op s x).1) s) := by
    intro l
    induction l with
    | nil => exact fun s hs => hs
    | cons x l ih => exact fun s _ => ih _ (hop _ _)
  exact this _ s hs

/-- C55 (fluid state): for every setting of the flags, `setup_RHS` of DtoN and of SEM leave a fluid problem
whose solution is the one of its right-hand side, and `solve` and the last problem keep it so, without
singularity added to the last solution, whatever the vectors the Krylov solver multiplies. -/
theorem C55_settled (P : Fluid F C G) (K : Krylov C) (addSing : F → F) (dflt useSing : Bool)
    (s : St F C) :
    Settled P (dtonSetupRHS P dflt useSing s) ∧ Settled P (semSetupRHS P s) ∧
    Settled P (dtonSolveLast P addSing dflt false s) ∧
    (Settled P s → Settled P (dtonSolve P K addSing dflt false s)) ∧
    Settled P (semSolve P K s) := by
  refine ⟨?_, rfl, ?_, fun hs => ?_, rfl⟩
  · cases dflt <;> rfl
  · cases dflt <;> rfl
  · cases dflt
    · exact ksp_settled (fun _ _ => rfl) K _ hs
    · rfl

/-- The start of the smallest problem is settled. -/
example : Settled toy (dtonSetupRHS toy true false (initSt 0 0)) ∧
    (dtonSetupRHS toy true false (initSt 0 0)).fSol = 1 := by
  refine ⟨(C55_settled toy toyK id true false _).1, ?_⟩
  norm_num [dtonSetupRHS, applyOp, toy, dtonMatrix, initProblem, setupRHSFluid, initSt]

end Cafes.Props
