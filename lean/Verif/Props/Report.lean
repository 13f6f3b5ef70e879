/-
C120: what SEM tells its user, on any number of processes, under any schedule.
-/
import Verif.Lemmas.Report
import Verif.Props.SpmdCtl

namespace Cafes.Spmd
open Cafes Cafes.Particle Cafes.Driver Cafes.Geometry Cafes.Props

set_option linter.unusedSectionVars false
variable {d N : ℕ} {A : Type} [AddCommGroup A] [Module ℝ A] {D : Setup d N A} {Lp : Fin d → Dir}
  {slv : NodeVec d d ℝ × NodeVec d 1 ℝ → NodeVec d d ℝ × NodeVec d 1 ℝ}

/-- C120: a session (`create_Mat_and_Vec`, then instructions of the driver and reports in any order): no schedule is
longer than `n` steps, none gets stuck, and at the end of every schedule the processes hold the vectors and have been told
the velocities, forces and torques that the same tasks give on whole vectors; all of them have been told the same. -/
theorem C120_session [Nonempty (Rank D.L)] (hG : Good D Lp slv) (ts : List Task) (w : Ctl d) (told : Told d A)
    (hn : told.vel.length = D.parts.length) (σ : Rank D.L → RMem d A) (h : Before D Lp w fun r => (σ r).base)
    (hA : Agreed D told σ) :
    ∃ n, ∀ m b, Run m (start (fun r => sessionProg D Lp slv r.1 ts) σ) b → m ≤ n ∧ (Done b ∨ ∃ b', Step b b') ∧
      (Done b → Shared D Lp (tasksRun D slv ts (w.create, told)).1 (fun r => (b r).1.base) ∧
        Agreed D (tasksRun D slv ts (w.create, told)).2 fun r => (b r).1) := by
  obtain ⟨σ₁, e1, h1, h1A⟩ := trip_outer (trip_create (slv := slv) w) told σ ⟨h, hA⟩
  obtain ⟨σ', e, h', hA', -⟩ := trip_tasks hG ts (w.create, told) σ₁ ⟨h1, h1A, hn⟩
  obtain ⟨n, hn⟩ := exec_all (exec_seq e1 e)
  refine ⟨n, fun m b hb => ⟨(hn m b hb).1, (hn m b hb).2.1, fun hd => ?_⟩⟩
  have : (fun r => (b r).1) = σ' := funext fun r => (hn m b hb).2.2 hd r
  have this' : (fun r => (b r).1.base) = fun r => (σ' r).base := funext fun r => congrArg RMem.base (congrFun this r)
  rw [this, this']
  exact ⟨h'.1, hA'⟩

/-- The reports. -/
def Task.IsReport : Task → Prop
  | .cmd _ => False
  | _ => True

/-- Reports leave the vectors as they are, so that they can be asked any number of times, in any order. -/
theorem tasks_reports (ts : List Task) (hts : ∀ k ∈ ts, k.IsReport) (w : Ctl d) (told : Told d A) :
    (tasksRun D slv ts (w, told)).1 = w ∧
    (Task.velocities ∈ ts → (tasksRun D slv ts (w, told)).2.vel = (D.newVelocities w.fSol.1 0).map fun p => p.velocity) ∧
    (Task.velocities ∉ ts → (tasksRun D slv ts (w, told)).2.vel = told.vel) ∧
    (Task.forces ∈ ts →
      (tasksRun D slv ts (w, told)).2.forces = (List.range D.parts.length).map (fun i => (D.newForces (w.v 0) i).1) ∧
      (tasksRun D slv ts (w, told)).2.torques = (List.range D.parts.length).map fun i => (D.newForces (w.v 0) i).2) ∧
    (Task.forces ∉ ts → (tasksRun D slv ts (w, told)).2.forces = told.forces ∧
      (tasksRun D slv ts (w, told)).2.torques = told.torques) := by
  induction ts using List.reverseRecOn with
  | nil => exact ⟨rfl, fun h => absurd h (by simp), fun _ => rfl, fun h => absurd h (by simp), fun _ => ⟨rfl, rfl⟩⟩
  | append_singleton ts k ih =>
    obtain ⟨h1, h2, h3, h4, h5⟩ := ih fun k hk => hts k (by simp [hk])
    have e : tasksRun D slv (ts ++ [k]) (w, told) = k.run D slv (tasksRun D slv ts (w, told)) := by
      simp [tasksRun]
    rw [e]
    cases k with
    | cmd c => exact absurd (hts (.cmd c) (by simp)) id
    | velocities =>
      refine ⟨h1, fun _ => ?_, fun h => absurd (by simp) h, fun h => h4 (by simpa using h), fun h => h5 (by simpa using h)⟩
      show (D.newVelocities (tasksRun D slv ts (w, told)).1.fSol.1 0).map _ = _
      rw [h1]
    | forces =>
      refine ⟨h1, fun h => h2 (by simpa using h), fun h => h3 (by simpa using h), fun _ => ?_, fun h => absurd (by simp) h⟩
      constructor
      · show (List.range D.parts.length).map (fun i => (D.newForces ((tasksRun D slv ts (w, told)).1.v 0) i).1) = _
        rw [h1]
      · show (List.range D.parts.length).map (fun i => (D.newForces ((tasksRun D slv ts (w, told)).1.v 0) i).2) = _
        rw [h1]

/-- C120 (SEM): `create_Mat_and_Vec`, `setup_RHS`, `solve` with any method for the control problem, then any reports:
under every schedule the session ends and leaves the state that the model of the driver gives on whole vectors, and every
process is told the velocities of the final flow and the forces of the final control. -/
theorem C120_sem [Nonempty (Rank D.L)] (hG : Good D Lp slv) (K : Cmd) (hK : K.Method .sem) (ts : List Task)
    (hts : ∀ k ∈ ts, k.IsReport) (w : Ctl d) (told : Told d A) (hn : told.vel.length = D.parts.length)
    (σ : Rank D.L → RMem d A) (h : Before D Lp w fun r => (σ r).base) (hA : Agreed D told σ) :
    let F := semSolve (D.pieces slv) (K.krylov D w.create.v w.s) (semSetupRHS (D.pieces slv) (initSt w.fRhs w.fSol))
    ∃ n, ∀ m b, Run m (start (fun r => sessionProg D Lp slv r.1 (.cmd (.seq .semSetup (.semSolve K)) :: ts)) σ) b →
      m ≤ n ∧ (Done b ∨ ∃ b', Step b b') ∧
      (Done b → HoldsState D Lp F (fun r => (b r).1.base) ∧
        (.velocities ∈ ts → ∀ r, (b r).1.vel = (D.newVelocities F.fSol.1 0).map fun p => p.velocity) ∧
        (.forces ∈ ts → ∀ r, (b r).1.forces = (List.range D.parts.length).map (fun i => (D.newForces F.sol i).1) ∧
          (b r).1.torques = (List.range D.parts.length).map fun i => (D.newForces F.sol i).2)) := by
  intro F
  obtain ⟨n, hrun⟩ := C120_session hG (.cmd (.seq .semSetup (.semSolve K)) :: ts) w told hn σ h hA
  refine ⟨n, fun m b hb => ⟨(hrun m b hb).1, (hrun m b hb).2.1, fun hd => ?_⟩⟩
  obtain ⟨h1, h2⟩ := (hrun m b hb).2.2 hd
  have hs : Same ((Cmd.seq .semSetup (.semSolve K)).run D slv w.create) F := same_sem K hK w
  obtain ⟨r1, r2, -, r4, -⟩ := tasks_reports (D := D) (slv := slv) ts hts
    ((Cmd.seq .semSetup (.semSolve K)).run D slv w.create) told
  have e : tasksRun D slv (.cmd (.seq .semSetup (.semSolve K)) :: ts) (w.create, told) =
    tasksRun D slv ts ((Cmd.seq .semSetup (.semSolve K)).run D slv w.create, told) := rfl
  rw [e] at h1 h2
  rw [r1] at h1
  refine ⟨Same.state hs h1, fun hv r => ?_, fun hf r => ⟨?_, ?_⟩⟩
  · rw [(h2 r).1, r2 hv, hs.fSol]
  · rw [(h2 r).2.1, (r4 hf).1, hs.sol]
  · rw [(h2 r).2.2, (r4 hf).2, hs.sol]

/-! ### The velocities are not read by SEM -/

theorem zipIdx_move (l : List (Part d A)) (f : ℕ → Pos d ℝ) :
    (l.zipIdx.map fun p => ({ p.1 with velocity := f p.2 } : Part d A)).zipIdx =
      l.zipIdx.map fun p => (({ p.1 with velocity := f p.2 } : Part d A), p.2) := by
  refine List.ext_getElem (by simp) fun i h1 h2 => ?_
  simp

theorem foldl_move {β : Type*} (F : β → Part d A → β) (hF : ∀ s p v, F s { p with velocity := v } = F s p)
    (l : List (Part d A)) (f : ℕ → Pos d ℝ) (s : β) :
    (l.zipIdx.map fun p => ({ p.1 with velocity := f p.2 } : Part d A)).foldl F s = l.foldl F s := by
  rw [List.foldl_map]
  simp only [hF]
  rw [← List.foldl_map (f := Prod.fst), List.zipIdx_map_fst]

theorem data_move (f : ℕ → Pos d ℝ) (i : ℕ) (r : Fin d → ℕ) : (withVelocities D f).data i r = D.data i r := by
  show (match (D.parts.zipIdx.map fun p => ({ p.1 with velocity := f p.2 } : Part d A))[i]? with
    | some p => setMaterials D.fluid D.L D.h D.scale p (fun _ => PartData.empty) r
    | none => PartData.empty) = _
  unfold Setup.data
  rw [List.getElem?_map, List.getElem?_zipIdx]
  cases D.parts[i]? <;> rfl

theorem interp_move (f : ℕ → Pos d ℝ) (u : NodeVec d d ℝ) : (withVelocities D f).interp u = D.interp u := by
  funext r i k
  unfold Setup.interp
  rw [data_move]
  rfl

theorem control_move (f : ℕ → Pos d ℝ) (x : (Fin d → ℕ) → ℕ → ℝ) (af : Bool) :
    controlField D.fluid D.L D.rs D.h x af (withVelocities D f).parts = controlField D.fluid D.L D.rs D.h x af D.parts := by
  unfold controlField
  refine Work.foldl_rel (· = ·) _ _ _ (fun r hr s s' hs => ?_) _ _ rfl
  subst hs
  show (Particle.setRhsImpl _ _ _ _ _ _ _).2 = (Particle.setRhsImpl _ _ _ _ _ _ _).2
  refine congrArg Prod.snd ?_
  unfold Particle.setRhsImpl
  exact foldl_move _ (fun _ _ _ => rfl) _ _ _

theorem layer_move (f : ℕ → Pos d ℝ) (g : SurfField d) : (withVelocities D f).layer g = D.layer g := by
  funext r i k
  unfold Setup.layer
  simp only [data_move]
  show (match (D.parts.zipIdx.map fun p => ({ p.1 with velocity := f p.2 } : Part d A))[i]? with
    | some p => _
    | none => _) = _
  rw [List.getElem?_map, List.getElem?_zipIdx]
  cases D.parts[i]? <;> rfl

theorem sl_move (f : ℕ → Pos d ℝ) (g : SurfField d) : (withVelocities D f).sl g = D.sl g := by
  unfold Setup.sl
  refine congrArg (slToRhs D.L D.bf D.elem) (funext fun r => ?_)
  simp only [data_move]
  show (D.parts.zipIdx.map fun p => ({ p.1 with velocity := f p.2 } : Part d A)).zipIdx.map _ = _
  rw [zipIdx_move, List.map_map]
  rfl

theorem yMean_move (f : ℕ → Pos d ℝ) (u : NodeVec d d ℝ) : (withVelocities D f).yMean u = D.yMean u := by
  funext r
  unfold Setup.yMean
  simp only [data_move]
  refine congrArg Prod.snd ?_
  show computeYMean D.S D.fluid (getDMBounds D.L r true) D.h u
    ((D.parts.zipIdx.map fun p => ({ p.1 with velocity := f p.2 } : Part d A)).zipIdx.map _) 0 = _
  rw [zipIdx_move, List.map_map]
  unfold computeYMean
  rw [List.foldl_map, List.foldl_map]
  rfl

theorem initProblem_congr {F C G : Type*} [AddCommGroup F] [AddCommGroup C] [AddCommGroup G] (P P' : Fluid F C G) (fl : Flags) (af : Bool) (x : C) (b : F)
    (h1 : P.source = P'.source) (h2 : P.setBC = P'.setBC) (h3 : P.setNull = P'.setNull) (h4 : P.sing = P'.sing)
    (h5 : P.ctl x = P'.ctl x) (h6 : P.ext = P'.ext) : initProblem P fl af x b = initProblem P' fl af x b := by
  unfold initProblem setupRHSFluid
  rw [h1, h2, h3, h4, h5, h6]

/-- C120 (the velocities are not read): `get_new_velocities` changes the velocities of the particles of the context; the
operator of SEM, its last right-hand side (without singular part), the forces and the next velocities do not depend on
them. -/
theorem C120_velocities_unread (f : ℕ → Pos d ℝ) :
    semMatrix ((withVelocities D f).pieces slv) = semMatrix (D.pieces slv) ∧
    (∀ fl af x b, initProblem ((withVelocities D f).pieces slv) fl af x b = initProblem (D.pieces slv) fl af x b) ∧
    (∀ x, (withVelocities D f).newForces x = D.newForces x) ∧
    (∀ u r, ((withVelocities D f).newVelocities u r).map (fun p => p.velocity) =
      (D.newVelocities u r).map fun p => p.velocity) := by
  have hc : (fun x => ((withVelocities D f).pieces slv).ctl x) = (D.pieces slv).ctl := funext fun x => by
    show ((withVelocities D f).mass (controlField D.fluid D.L D.rs D.h x false (withVelocities D f).parts),
      (0 : NodeVec d 1 ℝ)) = _
    rw [control_move]; rfl
  have he : ((withVelocities D f).pieces slv).ext = (D.pieces slv).ext := by
    show ((withVelocities D f).mass (controlField D.fluid D.L D.rs D.h 0 true (withVelocities D f).parts),
      (0 : NodeVec d 1 ℝ)) = _
    rw [control_move]; rfl
  have hi : ∀ fl af x b, initProblem ((withVelocities D f).pieces slv) fl af x b = initProblem (D.pieces slv) fl af x b :=
    fun fl af x b => initProblem_congr _ _ fl af x b rfl rfl rfl rfl (congrFun hc x) he
  refine ⟨?_, hi, fun x => ?_, fun u r => ?_⟩
  · funext fl x
    have e : ∀ E : Setup d N A, semMatrix (E.pieces slv) fl x = (((E.pieces slv).setNull (E.sl
      (E.layer (E.interp (slv (initProblem (E.pieces slv) fl fl.computeRhs x 0)).1)), 0),
      slv ((E.pieces slv).setNull (E.sl
      (E.layer (E.interp (slv (initProblem (E.pieces slv) fl fl.computeRhs x 0)).1)), 0))),
      E.yMean (slv ((E.pieces slv).setNull (E.sl
      (E.layer (E.interp (slv (initProblem (E.pieces slv) fl fl.computeRhs x 0)).1)), 0))).1) := fun _ => rfl
    rw [e, e, hi, interp_move, layer_move, sl_move, yMean_move]
    rfl
  · funext i
    unfold Setup.newForces
    simp only [data_move]
    have hl : ∀ r, localForces D.S D.fluid (getDMBounds D.L r true) D.h (x r)
        ((D.parts.zipIdx.map fun p => ({ p.1 with velocity := f p.2 } : Part d A)).zipIdx.map fun p =>
          (p.1, (D.data p.2 r).num)) =
        localForces D.S D.fluid (getDMBounds D.L r true) D.h (x r)
          (D.parts.zipIdx.map fun p => (p.1, (D.data p.2 r).num)) := fun r => by
      rw [zipIdx_move, List.map_map]
      unfold localForces
      rw [List.foldl_map, List.foldl_map]
      rfl
    refine Prod.ext ?_ ?_
    · refine congrArg (fun F => allReduce (procs D.L) F i) (funext fun r => ?_)
      exact congrArg (fun q : ℕ × List (Pos d ℝ × A) => q.2.map Prod.fst) (hl r)
    · refine congrArg (fun F => allReduce (procs D.L) F i) (funext fun r => ?_)
      exact congrArg (fun q : ℕ × List (Pos d ℝ × A) => q.2.map Prod.snd) (hl r)
  · have hm : ∀ i, (withVelocities D f).surfaceMean u r i = D.surfaceMean u r i := fun i => by
      unfold Setup.surfaceMean
      simp only [data_move, interp_move]
      show (match (D.parts.zipIdx.map fun p => ({ p.1 with velocity := f p.2 } : Part d A))[i]? with
        | some p => _
        | none => _) = _
      rw [List.getElem?_map, List.getElem?_zipIdx]
      cases D.parts[i]? <;> rfl
    unfold Setup.newVelocities
    simp only [hm, update_loop]
    show ((D.parts.zipIdx.map fun p => ({ p.1 with velocity := f p.2 } : Part d A)).zipIdx.map _).map _ = _
    rw [zipIdx_move, List.map_map, List.map_map, List.map_map]
    rfl

/-! ### What the velocities are -/

/-- C120 (2D): after SEM, under every schedule, every process is told, for each particle, the mean of the final Q1 velocity
over the points of its surface. -/
theorem C120_velocities2 {D : Setup 2 4 A} {Lp : Fin 2 → Dir} {slv : Field 2 → Field 2} [Nonempty (Rank D.L)]
    (hG : Good D Lp slv) (hh : ∀ i, 0 < D.h i) (hbf : D.bf = fun x => p1Integration2 x D.h) (hel : D.elem = getElement2)
    (hsf : ∀ p ∈ D.parts, SurfaceIn D.L D.h p) (K : Cmd) (hK : K.Method .sem) (ts : List Task)
    (hts : ∀ k ∈ ts, k.IsReport) (hv : .velocities ∈ ts) (w : Ctl 2) (told : Told 2 A)
    (hn : told.vel.length = D.parts.length) (σ : Rank D.L → RMem 2 A) (h : Before D Lp w fun r => (σ r).base)
    (hA : Agreed D told σ) (m : ℕ) (b)
    (hb : Run m (start (fun r => sessionProg D Lp slv r.1 (.cmd (.seq .semSetup (.semSolve K)) :: ts)) σ) b) (hd : Done b) :
    ∃ u : NodeVec 2 2 ℝ, (∀ r : Rank D.L, ∀ p ∈ (getDMBounds D.L r.1 false).halfOpen, (b r).1.base.base.sol.1 p = u p) ∧
      ∀ (r : Rank D.L) i (hi : i < D.parts.length), (b r).1.vel[i]? = some fun c =>
        (D.parts[i].surface.map fun x => field2 D.L D.h u (cell D.h x) c
          (x 0 - cell D.h x 0 * D.h 0) (x 1 - cell D.h x 1 * D.h 1)).sum / D.parts[i].surface.length := by
  obtain ⟨n, hrun⟩ := C120_sem hG K hK ts hts w told hn σ h hA
  obtain ⟨h1, h2, -⟩ := (hrun m b hb).2.2 hd
  refine ⟨_, h1.solV, fun r i hi => ?_⟩
  rw [h2 hv r, List.getElem?_map, (C106_velocities2 D hG.mesh hh hG.rs hbf hel hsf _ 0).2 i hi]
  rfl

/-- C120 (3D): the same in space. -/
theorem C120_velocities3 {D : Setup 3 8 A} {Lp : Fin 3 → Dir} {slv : Field 3 → Field 3} [Nonempty (Rank D.L)]
    (hG : Good D Lp slv) (hh : ∀ i, 0 < D.h i) (hbf : D.bf = fun x => p1Integration3 x D.h) (hel : D.elem = getElement3)
    (hsf : ∀ p ∈ D.parts, SurfaceIn D.L D.h p) (K : Cmd) (hK : K.Method .sem) (ts : List Task)
    (hts : ∀ k ∈ ts, k.IsReport) (hv : .velocities ∈ ts) (w : Ctl 3) (told : Told 3 A)
    (hn : told.vel.length = D.parts.length) (σ : Rank D.L → RMem 3 A) (h : Before D Lp w fun r => (σ r).base)
    (hA : Agreed D told σ) (m : ℕ) (b)
    (hb : Run m (start (fun r => sessionProg D Lp slv r.1 (.cmd (.seq .semSetup (.semSolve K)) :: ts)) σ) b) (hd : Done b) :
    ∃ u : NodeVec 3 3 ℝ, (∀ r : Rank D.L, ∀ p ∈ (getDMBounds D.L r.1 false).halfOpen, (b r).1.base.base.sol.1 p = u p) ∧
      ∀ (r : Rank D.L) i (hi : i < D.parts.length), (b r).1.vel[i]? = some fun c =>
        (D.parts[i].surface.map fun x => field3 D.L D.h u (cell D.h x) c
          (x 0 - cell D.h x 0 * D.h 0) (x 1 - cell D.h x 1 * D.h 1) (x 2 - cell D.h x 2 * D.h 2)).sum /
          D.parts[i].surface.length := by
  obtain ⟨n, hrun⟩ := C120_sem hG K hK ts hts w told hn σ h hA
  obtain ⟨h1, h2, -⟩ := (hrun m b hb).2.2 hd
  refine ⟨_, h1.solV, fun r i hi => ?_⟩
  rw [h2 hv r, List.getElem?_map, (C106_velocities3 D hG.mesh hh hG.rs hbf hel hsf _ 0).2 i hi]
  rfl

/-! ### The hypotheses are met -/

/-- C120: the session for the disk in a box cut in two processes, with the conjugate gradient method. -/
theorem C120_example (n : ℕ) (tol : ℝ) (w : Ctl 2) (dirt : Rank exD.L → Mem 2 ℝ) :
    let Lp := presLayout ![3, 3] ![false, false] ![[2, 1], [3]]
    let F := semSolve (exD.pieces exSolve) ((cgCmd .sem n tol).krylov exD w.create.v w.s)
      (semSetupRHS (exD.pieces exSolve) (initSt w.fRhs w.fSol))
    ∃ k, ∀ m b, Run m (start (fun r => sessionProg exD Lp exSolve r.1
        [.cmd (.seq .semSetup (.semSolve (cgCmd .sem n tol))), .forces, .velocities, .forces])
        fun r => ⟨cutCtl exD Lp w dirt r, exD.parts.map fun p => p.velocity, [], []⟩) b →
      m ≤ k ∧ (Done b ∨ ∃ b', Step b b') ∧ (Done b → HoldsState exD Lp F (fun r => (b r).1.base) ∧
        ∀ r, (b r).1.vel = (exD.newVelocities F.fSol.1 0).map (fun p => p.velocity) ∧
          (b r).1.forces = (List.range exD.parts.length).map fun i => (exD.newForces F.sol i).1) := by
  intro Lp F
  obtain ⟨k, hk⟩ := C120_sem (D := exD) (Lp := Lp) good_example (cgCmd .sem n tol) (cg_method _ n tol)
    [.forces, .velocities, .forces] (by simp [Task.IsReport]) w ⟨exD.parts.map fun p => p.velocity, [], []⟩ (by simp)
    (fun r => ⟨cutCtl exD Lp w dirt r, exD.parts.map fun p => p.velocity, [], []⟩) (before_cut exD Lp w dirt)
    fun _ => ⟨rfl, rfl, rfl⟩
  refine ⟨k, fun m b hb => ⟨(hk m b hb).1, (hk m b hb).2.1, fun hd => ?_⟩⟩
  obtain ⟨h1, h2, h3⟩ := (hk m b hb).2.2 hd
  exact ⟨h1, fun r => ⟨h2 (by simp) r, (h3 (by simp) r).1⟩⟩

end Cafes.Spmd
