/-
C118: whole runs of DtoN and of SEM on any number of processes, under any schedule.
-/
import Verif.Lemmas.SpmdCtl
import Verif.Props.Spmd

namespace Cafes.Spmd
open Cafes Cafes.Particle Cafes.Driver Cafes.Geometry Cafes.Props

set_option linter.unusedSectionVars false
variable {d N : ℕ} {A : Type} [AddCommGroup A] [Module ℝ A] {D : Setup d N A} {Lp : Fin d → Dir}
  {slv : NodeVec d d ℝ × NodeVec d 1 ℝ → NodeVec d d ℝ × NodeVec d 1 ℝ}

/-- C118: `create_Mat_and_Vec` and any instructions of a driver and of a Krylov method: no schedule of the processes is
longer than `n` steps, none gets stuck, and at the end of every schedule the processes hold the vectors that the same
instructions give on whole vectors. -/
theorem C118_run [Nonempty (Rank D.L)] (hG : Good D Lp slv) (c : Cmd) (w : Ctl d) (σ : Rank D.L → DMem d A)
    (h : Before D Lp w σ) :
    ∃ n, ∀ m b, Run m (start (fun r => driverProg D Lp slv r.1 c) σ) b → m ≤ n ∧ (Done b ∨ ∃ b', Step b b') ∧
      (Done b → Shared D Lp (c.run D slv w.create) fun r => (b r).1) := by
  obtain ⟨σ', e, h', -⟩ := trip_seq (trip_create (slv := slv) w) (trip_cmd hG c w.create) σ h
  obtain ⟨n, hn⟩ := exec_all e
  refine ⟨n, fun m b hb => ⟨(hn m b hb).1, (hn m b hb).2.1, fun hd => ?_⟩⟩
  have : (fun r => (b r).1) = σ' := funext fun r => (hn m b hb).2.2 hd r
  rw [this]
  exact h'

/-! ### The instructions of the drivers are the drivers -/

/-- The fluid vectors after the products with the vectors of a list. -/
noncomputable def fluidAfter (D : Setup d N A) (slv : Field d → Field d) (o : Oper) (fl : Flags)
    (l : List ((Fin d → ℕ) → ℕ → ℝ)) (p : Field d × Field d) : Field d × Field d :=
  l.foldl (fun _ x => (o.matrix D slv fl x).1) p

theorem method_run (o : Oper) (K : Cmd) : K.Method o → ∀ (w : Ctl d) (l0 : List ((Fin d → ℕ) → ℕ → ℝ)),
    let R := K.runWith D (fun x => (o.matrix D slv w.fl x).2) (w.v, w.s, l0)
    (K.run D slv w).v = R.1 ∧ (K.run D slv w).s = R.2.1 ∧ (K.run D slv w).fl = w.fl ∧ (K.run D slv w).v 1 = w.v 1 ∧
      ∃ l, R.2.2 = l0 ++ l ∧ ((K.run D slv w).fRhs, (K.run D slv w).fSol) = fluidAfter D slv o w.fl l (w.fRhs, w.fSol) := by
  induction K with
  | flags f => exact fun h => absurd h id
  | zeroRhs => exact fun h => absurd h id
  | init af i => exact fun h => absurd h id
  | solve => exact fun h => absurd h id
  | lastSol => exact fun h => absurd h id
  | mult o' i j =>
    rintro ⟨rfl, hj⟩ w l0
    exact ⟨rfl, rfl, rfl, Function.update_of_ne (Ne.symm hj) .., [w.v i], rfl, rfl⟩
  | reduce f k => exact fun _ w l0 => ⟨rfl, rfl, rfl, rfl, [], (List.append_nil _).symm, rfl⟩
  | node f j => exact fun hj w l0 => ⟨rfl, rfl, rfl, Function.update_of_ne (Ne.symm hj) .., [], (List.append_nil _).symm, rfl⟩
  | set f k => exact fun _ w l0 => ⟨rfl, rfl, rfl, rfl, [], (List.append_nil _).symm, rfl⟩
  | skip => exact fun _ w l0 => ⟨rfl, rfl, rfl, rfl, [], (List.append_nil _).symm, rfl⟩
  | seq a b iha ihb =>
    rintro ⟨ha, hb⟩ w l0
    obtain ⟨a1, a2, a3, a4, la, a5, a6⟩ := iha ha w l0
    have hs : a.runWith D (fun x => (o.matrix D slv w.fl x).2) (w.v, w.s, l0) =
        ((a.run D slv w).v, (a.run D slv w).s, l0 ++ la) := by
      rw [a1, a2, ← a5]
    obtain ⟨b1, b2, b3, b4, lb, b5, b6⟩ := ihb hb (a.run D slv w) (l0 ++ la)
    rw [a3] at b1 b2 b3 b5 b6
    intro R
    have hR : R = b.runWith D (fun x => (o.matrix D slv w.fl x).2) ((a.run D slv w).v, (a.run D slv w).s, l0 ++ la) := by
      rw [← hs]; rfl
    rw [hR]
    refine ⟨b1, b2, b3, b4.trans a4, la ++ lb, by rw [b5, List.append_assoc], ?_⟩
    refine b6.trans ?_
    rw [a6]
    unfold fluidAfter
    rw [List.foldl_append]
  | ite c a b iha ihb =>
    rintro ⟨ha, hb⟩ w l0
    cases hc : c w.s with
    | true =>
      have e1 : (Cmd.ite c a b).run D slv w = a.run D slv w := if_pos hc
      have e2 : (Cmd.ite c a b).runWith D (fun x => (o.matrix D slv w.fl x).2) (w.v, w.s, l0) =
        a.runWith D (fun x => (o.matrix D slv w.fl x).2) (w.v, w.s, l0) := if_pos hc
      rw [e1, e2]
      exact iha ha w l0
    | false =>
      have e1 : (Cmd.ite c a b).run D slv w = b.run D slv w := if_neg (by simp [hc])
      have e2 : (Cmd.ite c a b).runWith D (fun x => (o.matrix D slv w.fl x).2) (w.v, w.s, l0) =
        b.runWith D (fun x => (o.matrix D slv w.fl x).2) (w.v, w.s, l0) := if_neg (by simp [hc])
      rw [e1, e2]
      exact ihb hb w l0
  | rep n a ih =>
    intro (ha : a.Method o) w l0
    show let R := (a.runWith D (fun x => (o.matrix D slv w.fl x).2))^[n] (w.v, w.s, l0)
      ((a.run D slv)^[n] w).v = R.1 ∧ ((a.run D slv)^[n] w).s = R.2.1 ∧ ((a.run D slv)^[n] w).fl = w.fl ∧
      ((a.run D slv)^[n] w).v 1 = w.v 1 ∧ ∃ l, R.2.2 = l0 ++ l ∧
      (((a.run D slv)^[n] w).fRhs, ((a.run D slv)^[n] w).fSol) = fluidAfter D slv o w.fl l (w.fRhs, w.fSol)
    induction n generalizing w l0 with
    | zero => exact ⟨rfl, rfl, rfl, rfl, [], (List.append_nil _).symm, rfl⟩
    | succ n ihn =>
      obtain ⟨a1, a2, a3, a4, la, a5, a6⟩ := ih ha w l0
      have hs : a.runWith D (fun x => (o.matrix D slv w.fl x).2) (w.v, w.s, l0) =
          ((a.run D slv w).v, (a.run D slv w).s, l0 ++ la) := by
        rw [a1, a2, ← a5]
      obtain ⟨b1, b2, b3, b4, lb, b5, b6⟩ := ihn (a.run D slv w) (l0 ++ la)
      rw [a3] at b1 b2 b3 b5 b6
      rw [Function.iterate_succ_apply, Function.iterate_succ_apply, hs]
      refine ⟨b1, b2, b3, b4.trans a4, la ++ lb, by rw [b5, List.append_assoc], ?_⟩
      refine b6.trans ?_
      rw [a6]
      unfold fluidAfter
      rw [List.foldl_append]

/-- `KSPSolve` as a state of Verif/Model/Dton.lean. -/
theorem ksp_eq (o : Oper) (K : Krylov ((Fin d → ℕ) → ℕ → ℝ)) (s : St (Field d) ((Fin d → ℕ) → ℕ → ℝ)) :
    kspSolve (o.matrix D slv) K s = { s with
      sol := (K (fun x => (o.matrix D slv s.flags x).2) s.rhs).1
      fRhs := (fluidAfter D slv o s.flags (K (fun x => (o.matrix D slv s.flags x).2) s.rhs).2 (s.fRhs, s.fSol)).1
      fSol := (fluidAfter D slv o s.flags (K (fun x => (o.matrix D slv s.flags x).2) s.rhs).2 (s.fRhs, s.fSol)).2 } := by
  unfold kspSolve
  generalize K (fun x => (o.matrix D slv s.flags x).2) s.rhs = R
  obtain ⟨x, l⟩ := R
  dsimp only
  have gen : ∀ (l : List ((Fin d → ℕ) → ℕ → ℝ)) (s : St (Field d) ((Fin d → ℕ) → ℕ → ℝ)),
      l.foldl (fun s x => (applyOp (o.matrix D slv) s x).1) s = { s with
        fRhs := (fluidAfter D slv o s.flags l (s.fRhs, s.fSol)).1
        fSol := (fluidAfter D slv o s.flags l (s.fRhs, s.fSol)).2 } := by
    intro l
    induction l with
    | nil => intro s; rfl
    | cons y l ih => intro s; rw [List.foldl_cons, ih]; rfl
  rw [gen]

/-- The state of a driver and the whole vectors say the same. -/
structure Same (w : Ctl d) (F : St (Field d) ((Fin d → ℕ) → ℕ → ℝ)) : Prop where
  fl : w.fl = F.flags
  sol : w.v 0 = F.sol
  rhs : w.v 1 = F.rhs
  fRhs : w.fRhs = F.fRhs
  fSol : w.fSol = F.fSol

theorem Same.state {w : Ctl d} {F : St (Field d) ((Fin d → ℕ) → ℕ → ℝ)} (h : Same w F) {σ : Rank D.L → DMem d A}
    (hs : Shared D Lp w σ) : HoldsState D Lp F σ := by
  obtain ⟨fl, sol, rhs, a, b⟩ := F
  obtain ⟨e0, e1, e2, e3, e4⟩ := h
  dsimp only at e0 e1 e2 e3 e4
  subst e0 e1 e2 e3 e4
  exact ⟨hs.flags, hs.control 0, hs.control 1, hs.rhsV, hs.rhsP, hs.solV, hs.solP⟩

/-- What is left alone by the instructions of a driver. -/
theorem same_last (dflt useSing : Bool) {w : Ctl d} {F : St (Field d) ((Fin d → ℕ) → ℕ → ℝ)} (h : Same w F) :
    Same ((Cmd.dtonLast dflt useSing).run D slv w) (dtonSolveLast (D.pieces slv)
      (fun v => (AddSing.addToLastSol D.L D.bf D.elem D.singScale D.h D.pairs v.1, v.2)) dflt useSing F) := by
  obtain ⟨fl, sol, rhs, a, b⟩ := F
  obtain ⟨e0, e1, e2, e3, e4⟩ := h
  dsimp only at e0 e1 e2 e3 e4
  subst e0 e1 e2 e3 e4
  cases dflt <;> cases useSing <;> exact ⟨rfl, rfl, rfl, rfl, rfl⟩

theorem neg_rhs (x : (Fin d → ℕ) → ℕ → ℝ) : (fun r e => -1 * x r e) = -x := by
  funext r e
  exact neg_one_mul _

/-- The right-hand side of the control problem. -/
theorem same_setup (o : Oper) (f : Flags → Flags) (w : Ctl d) :
    Same ((Cmd.all [.flags f, .mult o 0 1, .negRhs]).run D slv w)
      ⟨f w.fl, w.v 0, -(o.matrix D slv (f w.fl) (w.v 0)).2, (o.matrix D slv (f w.fl) (w.v 0)).1.1,
        (o.matrix D slv (f w.fl) (w.v 0)).1.2⟩ ∧
    ((Cmd.all [.flags f, .mult o 0 1, .negRhs]).run D slv w).s = w.s ∧
    ∀ i, i ≠ 1 → ((Cmd.all [.flags f, .mult o 0 1, .negRhs]).run D slv w).v i = w.v i := by
  have ev : ((Cmd.all [.flags f, .mult o 0 1, .negRhs]).run D slv w).v = Function.update (Function.update w.v 1
      (o.matrix D slv (f w.fl) (w.v 0)).2) 1 fun r e =>
        -1 * Function.update w.v 1 (o.matrix D slv (f w.fl) (w.v 0)).2 1 r e := rfl
  have hne : ∀ i, i ≠ 1 → ((Cmd.all [.flags f, .mult o 0 1, .negRhs]).run D slv w).v i = w.v i := fun i hi => by
    rw [ev, Function.update_of_ne hi, Function.update_of_ne hi]
  refine ⟨⟨rfl, hne 0 (by decide), ?_, rfl, rfl⟩, rfl, hne⟩
  · rw [ev, Function.update_self]
    show (fun r e => -1 * Function.update w.v 1 (o.matrix D slv (f w.fl) (w.v 0)).2 1 r e) = _
    rw [Function.update_self]
    exact neg_rhs _

/-- The solver of the control problem. -/
theorem same_ksp (o : Oper) (K : Cmd) (hK : K.Method o) {w : Ctl d} {F : St (Field d) ((Fin d → ℕ) → ℕ → ℝ)}
    (h : Same w F) (v : ℕ → (Fin d → ℕ) → ℕ → ℝ) (hv : ∀ i, i ≠ 1 → w.v i = v i) :
    Same (K.run D slv w) (kspSolve (o.matrix D slv) (K.krylov D v w.s) F) := by
  obtain ⟨fl, sol, rhs, a, b⟩ := F
  obtain ⟨e0, e1, e2, e3, e4⟩ := h
  dsimp only at e0 e1 e2 e3 e4
  subst e0 e1 e2 e3 e4
  have hs : Function.update v 1 (w.v 1) = w.v := by
    funext i
    by_cases hi : i = 1
    · subst hi; rw [Function.update_self]
    · rw [Function.update_of_ne hi, hv i hi]
  rw [ksp_eq]
  obtain ⟨k1, k2, k3, k4, l, k5, k6⟩ := method_run (D := D) (slv := slv) o K hK w []
  rw [List.nil_append] at k5
  unfold Cmd.krylov
  dsimp only
  rw [hs, k5, ← k1, ← k6]
  exact ⟨k3, rfl, k4, rfl, rfl⟩

/-- C118 (DtoN): `create_Mat_and_Vec`, `setup_RHS` and `solve` with any method for the control problem: under every
schedule, the processes reach the end and hold the state that the model of the driver (Verif/Model/Dton.lean) gives on
whole vectors. -/
theorem C118_dton [Nonempty (Rank D.L)] (hG : Good D Lp slv) (K : Cmd) (hK : K.Method .dton) (dflt useSing : Bool)
    (w : Ctl d) (σ : Rank D.L → DMem d A) (h : Before D Lp w σ) :
    ∃ n, ∀ m b, Run m (start (fun r => driverProg D Lp slv r.1
        (.seq (.dtonSetup dflt useSing) (.dtonSolve K dflt useSing))) σ) b → m ≤ n ∧ (Done b ∨ ∃ b', Step b b') ∧
      (Done b → HoldsState D Lp (dtonSolve (D.pieces slv) (K.krylov D w.create.v w.s)
        (fun v => (AddSing.addToLastSol D.L D.bf D.elem D.singScale D.h D.pairs v.1, v.2)) dflt useSing
        (dtonSetupRHS (D.pieces slv) dflt useSing (initSt w.fRhs w.fSol))) fun r => (b r).1) := by
  obtain ⟨n, hn⟩ := C118_run hG (.seq (.dtonSetup dflt useSing) (.dtonSolve K dflt useSing)) w σ h
  refine ⟨n, fun m b hb => ⟨(hn m b hb).1, (hn m b hb).2.1, fun hd => Same.state ?_ ((hn m b hb).2.2 hd)⟩⟩
  clear hn hb hd
  have hv0 : w.create.v 0 = 0 := by
    show Function.update (Function.update w.v 0 0) 1 0 0 = 0
    rw [Function.update_of_ne (by decide), Function.update_self]
  cases dflt with
  | true =>
    obtain ⟨s1, s2, s3⟩ := same_setup (D := D) (slv := slv) .dton (fun _ => ⟨true, true, useSing⟩) w.create
    have k := same_ksp (D := D) (slv := slv) .dton K hK (w := (Cmd.flags fun _ => ⟨false, false, useSing⟩).run D slv
      ((Cmd.dtonSetup true useSing).run D slv w.create)) (F := { dtonSetupRHS (D.pieces slv) true useSing
        (initSt w.fRhs w.fSol) with flags := ⟨false, false, useSing⟩ })
      ⟨rfl, s1.sol.trans hv0, s1.rhs.trans (by rw [hv0]; rfl), s1.fRhs.trans (by rw [hv0]; rfl), s1.fSol.trans (by rw [hv0]; rfl)⟩
      w.create.v s3
    exact same_last true useSing k
  | false =>
    obtain ⟨s1, s2, s3⟩ := same_setup (D := D) (slv := slv) .dton (fun f => f) w.create
    exact same_ksp (D := D) (slv := slv) .dton K hK (w := (Cmd.dtonSetup false useSing).run D slv w.create)
      (F := dtonSetupRHS (D.pieces slv) false useSing (initSt w.fRhs w.fSol))
      ⟨rfl, s1.sol.trans hv0, s1.rhs.trans (by rw [hv0]; rfl), s1.fRhs.trans (by rw [hv0]; rfl), s1.fSol.trans (by rw [hv0]; rfl)⟩
      w.create.v s3

/-- The instructions of SEM are the driver of Verif/Model/Dton.lean. -/
theorem same_sem (K : Cmd) (hK : K.Method .sem) (w : Ctl d) :
    Same ((Cmd.seq .semSetup (.semSolve K)).run D slv w.create) (semSolve (D.pieces slv) (K.krylov D w.create.v w.s)
      (semSetupRHS (D.pieces slv) (initSt w.fRhs w.fSol))) := by
  have hv0 : w.create.v 0 = 0 := by
    show Function.update (Function.update w.v 0 0) 1 0 0 = 0
    rw [Function.update_of_ne (by decide), Function.update_self]
  obtain ⟨s1, s2, s3⟩ := same_setup (D := D) (slv := slv) .sem (fun f => { f with computeRhs := true }) w.create
  have k := same_ksp (D := D) (slv := slv) .sem K hK (w := (Cmd.flags fun f => { f with computeRhs := false }).run D slv
      (Cmd.semSetup.run D slv w.create)) (F := { semSetupRHS (D.pieces slv) (initSt w.fRhs w.fSol) with
        flags := ⟨false, false, false⟩ })
      ⟨rfl, s1.sol.trans hv0, s1.rhs.trans (by rw [hv0]; rfl), s1.fRhs.trans (by rw [hv0]; rfl), s1.fSol.trans (by rw [hv0]; rfl)⟩
      w.create.v s3
  have e : semSolve (D.pieces slv) (K.krylov D w.create.v w.s) (semSetupRHS (D.pieces slv) (initSt w.fRhs w.fSol)) =
      (let s := kspSolve (semMatrix (D.pieces slv)) (K.krylov D w.create.v w.s)
        { semSetupRHS (D.pieces slv) (initSt w.fRhs w.fSol) with flags := ⟨false, false, false⟩ }
      let s := { s with flags := { s.flags with computeRhs := true } }
      let s := { s with fRhs := initProblem (D.pieces slv) s.flags true s.sol s.fRhs }
      { s with fSol := slv s.fRhs }) := rfl
  rw [e]
  have k' : Same (K.run D slv ((Cmd.flags fun f => { f with computeRhs := false }).run D slv
      (Cmd.semSetup.run D slv w.create))) (kspSolve (semMatrix (D.pieces slv)) (K.krylov D w.create.v w.s)
        { semSetupRHS (D.pieces slv) (initSt w.fRhs w.fSol) with flags := ⟨false, false, false⟩ }) := k
  generalize kspSolve (semMatrix (D.pieces slv)) (K.krylov D w.create.v w.s)
        { semSetupRHS (D.pieces slv) (initSt w.fRhs w.fSol) with flags := ⟨false, false, false⟩ } = F at k'
  show Same ((Cmd.all [.flags fun f => { f with computeRhs := true }, .init true 0, .solve]).run D slv
    (K.run D slv ((Cmd.flags fun f => { f with computeRhs := false }).run D slv (Cmd.semSetup.run D slv w.create)))) _
  generalize K.run D slv ((Cmd.flags fun f => { f with computeRhs := false }).run D slv
      (Cmd.semSetup.run D slv w.create)) = w' at k'
  obtain ⟨fl, sol, rhs, a, b⟩ := F
  obtain ⟨e0, e1, e2, e3, e4⟩ := k'
  dsimp only at e0 e1 e2 e3 e4
  subst e0 e1 e2 e3 e4
  exact ⟨rfl, rfl, rfl, rfl, rfl⟩

/-- C118 (SEM): the same for SEM. -/
theorem C118_sem [Nonempty (Rank D.L)] (hG : Good D Lp slv) (K : Cmd) (hK : K.Method .sem)
    (w : Ctl d) (σ : Rank D.L → DMem d A) (h : Before D Lp w σ) :
    ∃ n, ∀ m b, Run m (start (fun r => driverProg D Lp slv r.1 (.seq .semSetup (.semSolve K))) σ) b →
      m ≤ n ∧ (Done b ∨ ∃ b', Step b b') ∧
      (Done b → HoldsState D Lp (semSolve (D.pieces slv) (K.krylov D w.create.v w.s)
        (semSetupRHS (D.pieces slv) (initSt w.fRhs w.fSol))) fun r => (b r).1) := by
  obtain ⟨n, hn⟩ := C118_run hG (.seq .semSetup (.semSolve K)) w σ h
  refine ⟨n, fun m b hb => ⟨(hn m b hb).1, (hn m b hb).2.1, fun hd => Same.state (same_sem K hK w) ((hn m b hb).2.2 hd)⟩⟩

/-- C118 (what is left by DtoN, default flags): whatever the method does, and under every schedule, the fluid solution
held by the processes at the end is the one of the control that they hold: the solution of the fluid problem with the
boundary values, the source, the singular source and that control, plus the singular flow. -/
theorem C118_dton_flow [Nonempty (Rank D.L)] (hG : Good D Lp slv) (K : Cmd) (hK : K.Method .dton) (useSing : Bool)
    (w : Ctl d) (σ : Rank D.L → DMem d A) (h : Before D Lp w σ) (m : ℕ) (b)
    (hb : Run m (start (fun r => driverProg D Lp slv r.1 (.seq (.dtonSetup true useSing) (.dtonSolve K true useSing))) σ) b)
    (hd : Done b) :
    ∃ (x : (Fin d → ℕ) → ℕ → ℝ) (u : Field d),
      (∀ (r : Rank D.L) e, e < ctlSize D r.1 → (b r).1.v 0 e = x r.1 e) ∧
      (∀ r : Rank D.L, ∀ p ∈ (getDMBounds D.L r.1 false).halfOpen, (b r).1.base.sol.1 p = u.1 p) ∧
      (∀ r : Rank D.L, ∀ p ∈ (getDMBounds Lp r.1 false).halfOpen, (b r).1.base.sol.2 p = u.2 p) ∧
      u = (let v := slv (initProblem (D.pieces slv) ⟨true, true, useSing⟩ false x 0)
        if useSing then (AddSing.addToLastSol D.L D.bf D.elem D.singScale D.h D.pairs v.1, v.2) else v) := by
  obtain ⟨n, hn⟩ := C118_dton hG K hK true useSing w σ h
  have hs := (hn m b hb).2.2 hd
  refine ⟨_, _, hs.sol, hs.solV, hs.solP, ?_⟩
  cases useSing <;> rfl

/-- C118 (what is left by SEM): whatever the method does, and under every schedule, the fluid solution held by the
processes at the end is the solution for the control that they hold and for what was left in the right-hand side. -/
theorem C118_sem_flow [Nonempty (Rank D.L)] (hG : Good D Lp slv) (K : Cmd) (hK : K.Method .sem)
    (w : Ctl d) (σ : Rank D.L → DMem d A) (h : Before D Lp w σ) (m : ℕ) (b)
    (hb : Run m (start (fun r => driverProg D Lp slv r.1 (.seq .semSetup (.semSolve K))) σ) b) (hd : Done b) :
    ∃ (x : (Fin d → ℕ) → ℕ → ℝ) (u left : Field d),
      (∀ (r : Rank D.L) e, e < ctlSize D r.1 → (b r).1.v 0 e = x r.1 e) ∧
      (∀ r : Rank D.L, ∀ p ∈ (getDMBounds D.L r.1 false).halfOpen, (b r).1.base.sol.1 p = u.1 p) ∧
      (∀ r : Rank D.L, ∀ p ∈ (getDMBounds Lp r.1 false).halfOpen, (b r).1.base.sol.2 p = u.2 p) ∧
      u = slv (initProblem (D.pieces slv) ⟨true, false, false⟩ true x left) := by
  obtain ⟨n, hn⟩ := C118_sem hG K hK w σ h
  have hs := (hn m b hb).2.2 hd
  refine ⟨_, _, (kspSolve (semMatrix (D.pieces slv)) (K.krylov D w.create.v w.s)
    { semSetupRHS (D.pieces slv) (initSt w.fRhs w.fSol) with flags := ⟨false, false, false⟩ }).fRhs, hs.sol, hs.solV, hs.solP, ?_⟩
  obtain ⟨k1, -, -⟩ := Props.ksp_flags (semMatrix (D.pieces slv)) (K.krylov D w.create.v w.s)
    { semSetupRHS (D.pieces slv) (initSt w.fRhs w.fSol) with flags := ⟨false, false, false⟩ }
  show slv (initProblem (D.pieces slv) { (kspSolve (semMatrix (D.pieces slv)) (K.krylov D w.create.v w.s)
    { semSetupRHS (D.pieces slv) (initSt w.fRhs w.fSol) with flags := ⟨false, false, false⟩ }).flags with computeRhs := true }
    true _ _) = _
  rw [k1]
  rfl

/-! ### The hypotheses are met -/

/-- The conjugate gradient method on the control: the vectors 0 to 4 are the iterate, the right-hand side, the residual,
the direction and the product; at most `n` iterations, while the square of the residual is above `tol`. -/
noncomputable def cgCmd (o : Oper) (n : ℕ) (tol : ℝ) : Cmd := .all [
  .mult o 0 4, .node (fun _ v => v 1 - v 4) 2, .node (fun _ v => v 2) 3, .reduce (fun _ v => v 2 ^ 2) 0,
  .rep n (.ite (fun s => decide (s 0 ≤ tol)) .skip (.all [
    .mult o 3 4, .reduce (fun _ v => v 3 * v 4) 1,
    .node (fun s v => v 0 + s 0 / s 1 * v 3) 0, .node (fun s v => v 2 - s 0 / s 1 * v 4) 2,
    .reduce (fun _ v => v 2 ^ 2) 2, .node (fun s v => v 2 + s 2 / s 0 * v 3) 3, .set (fun s => s 2) 0]))]

theorem cg_method (o : Oper) (n : ℕ) (tol : ℝ) : (cgCmd o n tol).Method o := by
  simp [cgCmd, Cmd.all, Cmd.Method]

/-- Memories with the parts of `w`, and anything else in them. -/
def cutCtl (D : Setup d N A) (Lp : Fin d → Dir) (w : Ctl d) (dirt : Rank D.L → Mem d A) : Rank D.L → DMem d A := fun r =>
  ⟨{ dirt r with
      rhs := (ownPart D.L r.1 w.fRhs.1 (dirt r).rhs.1, ownPart Lp r.1 w.fRhs.2 (dirt r).rhs.2)
      sol := (ownPart D.L r.1 w.fSol.1 (dirt r).sol.1, ownPart Lp r.1 w.fSol.2 (dirt r).sol.2) },
    fun i e => w.v i r.1 e, w.s⟩

theorem before_cut (D : Setup d N A) (Lp : Fin d → Dir) (w : Ctl d) (dirt : Rank D.L → Mem d A) :
    Before D Lp w (cutCtl D Lp w dirt) :=
  ⟨fun _ => rfl, fun _ _ _ _ _ => rfl, fun _ _ hp => if_pos ((Box.pointInside_iff _ _).2 hp),
    fun _ _ hp => if_pos ((Box.pointInside_iff _ _).2 hp), fun _ _ hp => if_pos ((Box.pointInside_iff _ _).2 hp),
    fun _ _ hp => if_pos ((Box.pointInside_iff _ _).2 hp)⟩

/-- C118: the two drivers with the conjugate gradient method, for the disk in a box cut in two processes. -/
theorem C118_example (n : ℕ) (tol : ℝ) (w : Ctl 2) (dirt : Rank exD.L → Mem 2 ℝ) :
    let Lp := presLayout ![3, 3] ![false, false] ![[2, 1], [3]]
    (∃ k, ∀ m b, Run m (start (fun r => driverProg exD Lp exSolve r.1
        (.seq (.dtonSetup true true) (.dtonSolve (cgCmd .dton n tol) true true))) (cutCtl exD Lp w dirt)) b →
      m ≤ k ∧ (Done b ∨ ∃ b', Step b b') ∧ (Done b → HoldsState exD Lp (dtonSolve (exD.pieces exSolve)
        ((cgCmd .dton n tol).krylov exD w.create.v w.s)
        (fun v => (AddSing.addToLastSol exD.L exD.bf exD.elem exD.singScale exD.h exD.pairs v.1, v.2)) true true
        (dtonSetupRHS (exD.pieces exSolve) true true (initSt w.fRhs w.fSol))) fun r => (b r).1)) ∧
    ∃ k, ∀ m b, Run m (start (fun r => driverProg exD Lp exSolve r.1
        (.seq .semSetup (.semSolve (cgCmd .sem n tol)))) (cutCtl exD Lp w dirt)) b →
      m ≤ k ∧ (Done b ∨ ∃ b', Step b b') ∧ (Done b → HoldsState exD Lp (semSolve (exD.pieces exSolve)
        ((cgCmd .sem n tol).krylov exD w.create.v w.s)
        (semSetupRHS (exD.pieces exSolve) (initSt w.fRhs w.fSol))) fun r => (b r).1) := by
  intro Lp
  exact ⟨C118_dton good_example _ (cg_method _ n tol) true true w _ (before_cut exD Lp w dirt),
    C118_sem good_example _ (cg_method _ n tol) w _ (before_cut exD Lp w dirt)⟩

end Cafes.Spmd
