/-
What the programs of Verif/Model/SpmdCtl.lean do to the parts of the vectors.
-/
import Verif.Spec.SpmdCtl
import Verif.Lemmas.SpmdCalls
import Verif.Lemmas.SpmdMat

namespace Cafes.Spmd
open Cafes Cafes.Particle Cafes.Driver Cafes.Geometry Cafes.Props

/-! ### A program inside a bigger one -/

section
variable {ι : Type} [DecidableEq ι] {C C' : Comm ι} {S S' : Type} (get : S' → S) (put : S' → S → S')

/-- The bigger machine. -/
def bigMachine (C' : Comm ι) (O : ι → S') (rest : ι → List (Stmt (C.plus C') S')) (m : Machine ι C S) : Machine ι (C.plus C') S' :=
  fun i => (put (O i) (m i).1, (m i).2.map (Stmt.lift C' get put) ++ rest i)

theorem step_lift (h1 : ∀ m s, get (put m s) = s) (h2 : ∀ m s s', put (put m s) s' = put m s') (O : ι → S')
    (rest : ι → List (Stmt (C.plus C') S')) {a b : Machine ι C S} (h : Step a b) :
    Step (bigMachine get put C' O rest a) (bigMachine get put C' O rest b) := by
  cases h with
  | one i c hp =>
    have e : bigMachine get put C' O rest (Function.update a i c) = Function.update (bigMachine get put C' O rest a) i
        (put (O i) c.1, c.2.map (Stmt.lift C' get put) ++ rest i) := by
      funext j
      by_cases hj : j = i
      · subst hj; simp [bigMachine]
      · simp [bigMachine, hj]
    rw [e]
    refine Step.one _ i _ ?_
    show PStep (put (O i) (a i).1, (a i).2.map (Stmt.lift C' get put) ++ rest i) _
    generalize a i = x at hp
    cases hp with
    | loc s f k =>
      have := PStep.loc (C := C.plus C') (put (O i) s) (fun m => put m (f (get m))) (k.map (Stmt.lift C' get put) ++ rest i)
      beta_reduce at this
      rw [h1, h2] at this
      exact this
    | skip s k => exact PStep.skip _ _
    | seq s a b k => exact PStep.seq _ _ _ _
    | ite s c a b k =>
      have := PStep.ite (C := C.plus C') (put (O i) s) (fun m => c (get m)) (a.lift C' get put) (b.lift C' get put)
        (k.map (Stmt.lift C' get put) ++ rest i)
      beta_reduce at this
      rw [h1] at this
      show PStep _ (_, (if c s then a else b).lift C' get put :: (k.map (Stmt.lift C' get put)) ++ rest i)
      rw [apply_ite (Stmt.lift C' get put)]
      exact this
  | all k count send recv rst n h hn =>
    have := Step.all (bigMachine get put C' O rest a) (C := C.plus C') (Sum.inl k) (fun i m => count i (get m))
      (fun i m => send i (get m)) (fun i m (v : C.Val k) => put m (recv i (get m) v))
      (fun i => (rst i).map (Stmt.lift C' get put) ++ rest i) n (fun i => by
        show (a i).2.map (Stmt.lift C' get put) ++ rest i = _
        rw [h i]; rfl) (fun i => by
        show count i (get (put (O i) (a i).1)) = n
        rw [h1]; exact hn i)
    refine cast (congrArg _ (funext fun i => ?_)) this
    refine Prod.ext ?_ rfl
    show put (put (O i) (a i).1) (recv i (get (put (O i) (a i).1)) (C.comb k (fun j => send j (get (put (O j) (a j).1))) i)) = _
    rw [h2, h1]
    refine congrArg (put (O i)) (congrArg (recv i (a i).1) (congrArg (fun f => C.comb k f i) (funext fun j => ?_)))
    rw [h1]

/-- A program that leads the small memories somewhere leads the bigger ones there. -/
theorem exec_lift (h1 : ∀ m s, get (put m s) = s) (h2 : ∀ m s s', put (put m s) s' = put m s') (h3 : ∀ m, put m (get m) = m)
    {p : ι → Stmt C S} {σ : ι → S'} {σ' : ι → S} (h : Exec p (fun i => get (σ i)) σ') :
    Exec (fun i => (p i).lift C' get put) σ fun i => put (σ i) (σ' i) := fun rest => by
  obtain ⟨n, hn⟩ := h fun _ => []
  refine ⟨n, ?_⟩
  have gen : ∀ {n} {a b : Machine ι C S}, Run n a b →
      Run n (bigMachine get put C' σ rest a) (bigMachine get put C' σ rest b) := fun {n a b} h => by
    induction h with
    | refl => exact Run.refl _
    | step s _ ih => exact Run.step (step_lift get put h1 h2 σ rest s) ih
  have := gen hn
  refine cast ?_ this
  have e : bigMachine get put C' σ rest (fun i => (get (σ i), [p i])) = fun i => (σ i, (p i).lift C' get put :: rest i) :=
    funext fun i => Prod.ext (h3 _) rfl
  rw [e]; rfl

end

set_option linter.unusedSectionVars false
variable {d N : ℕ} {A : Type} [AddCommGroup A] [Module ℝ A] {D : Setup d N A} {Lp : Fin d → Dir}
  {slv : NodeVec d d ℝ × NodeVec d 1 ℝ → NodeVec d d ℝ × NodeVec d 1 ℝ}

theorem exec_inner {p : Rank D.L → Code D Lp slv} {σ : Rank D.L → DMem d A} {σ' : Rank D.L → Mem d A}
    (h : Exec p (fun r => (σ r).base) σ') :
    Exec (fun r => inner D Lp slv (p r)) σ fun r => { σ r with base := σ' r } :=
  exec_lift DMem.base (fun m s => { m with base := s }) (fun _ _ => rfl) (fun _ _ _ => rfl) (fun _ => rfl) h

/-! ### The control matters on its entries only -/

/-- The two control vectors have the same entries. -/
def SameCtl (D : Setup d N A) (X X' : (Fin d → ℕ) → ℕ → ℝ) : Prop :=
  ∀ r ∈ procs D.L, ∀ e < ctlSize D r, X r e = X' r e

theorem setRhsImpl_congr (r : Fin d → ℕ) (af : Bool) (px px' : ℕ → ℝ) (h : ∀ e < ctlSize D r, px e = px' e)
    (u : NodeVec d d ℝ) :
    Particle.setRhsImpl D.fluid (getDMBounds D.L r true) D.h px af D.parts u =
      Particle.setRhsImpl D.fluid (getDMBounds D.L r true) D.h px' af D.parts u := by
  unfold ctlSize at h
  rw [← length_slots] at h
  unfold Particle.setRhsImpl
  rw [overlap_eq_boxInside, foldl_layout (partNodes D.fluid Box.boxInside (getDMBounds D.L r true) D.h) D.parts
      (fun (s : ℕ × NodeVec d d ℝ) p k c => (s.1 + 1, setAt s.2 k c
        (if af then px s.1 + p.rho * p.force c else px s.1))),
    foldl_layout (partNodes D.fluid Box.boxInside (getDMBounds D.L r true) D.h) D.parts
      (fun (s : ℕ × NodeVec d d ℝ) p k c => (s.1 + 1, setAt s.2 k c
        (if af then px' s.1 + p.rho * p.force c else px' s.1)))]
  have gen : ∀ (l : List (Part d A × Pos d ℤ × Fin d)) (n : ℕ) (u : NodeVec d d ℝ), (∀ e < n + l.length, px e = px' e) →
      l.foldl (fun (s : ℕ × NodeVec d d ℝ) x => (s.1 + 1, setAt s.2 x.2.1 x.2.2
        (if af then px s.1 + x.1.rho * x.1.force x.2.2 else px s.1))) (n, u) =
      l.foldl (fun (s : ℕ × NodeVec d d ℝ) x => (s.1 + 1, setAt s.2 x.2.1 x.2.2
        (if af then px' s.1 + x.1.rho * x.1.force x.2.2 else px' s.1))) (n, u) := by
    intro l
    induction l with
    | nil => intro n u _; rfl
    | cons x l ih =>
      intro n u hp
      rw [List.foldl_cons, List.foldl_cons]
      beta_reduce
      have h0 : px n = px' n := hp n (by simp)
      rw [h0]
      exact ih _ _ fun e he => hp e (by simp only [List.length_cons]; omega)
  exact gen _ 0 u fun e he => h e (by omega)

theorem ctl_congr (hG : Good D Lp slv) {X X' : (Fin d → ℕ) → ℕ → ℝ} (h : SameCtl D X X') (af : Bool) :
    controlField D.fluid D.L D.rs D.h X af D.parts = controlField D.fluid D.L D.rs D.h X' af D.parts := by
  unfold controlField
  refine Work.foldl_rel (· = ·) _ _ _ (fun r hr s s' hs => ?_) _ _ rfl
  subst hs
  show (Particle.setRhsImpl _ _ _ _ _ _ _).2 = (Particle.setRhsImpl _ _ _ _ _ _ _).2
  rw [setRhsImpl_congr r af (X r) (X' r) (h r ((hG.rs.2 r).1 hr))]

theorem pieces_ctl_congr (hG : Good D Lp slv) {X X' : (Fin d → ℕ) → ℕ → ℝ} (h : SameCtl D X X') :
    (D.pieces slv).ctl X = (D.pieces slv).ctl X' := by
  show (D.mass (controlField D.fluid D.L D.rs D.h X false D.parts), (0 : NodeVec d 1 ℝ)) = _
  rw [ctl_congr hG h false]; rfl

theorem init_congr (hG : Good D Lp slv) {X X' : (Fin d → ℕ) → ℕ → ℝ} (h : SameCtl D X X') (fl : Flags) (af : Bool)
    (b : Field d) : initProblem (D.pieces slv) fl af X b = initProblem (D.pieces slv) fl af X' b := by
  unfold initProblem
  rw [pieces_ctl_congr hG h]

theorem matrix_congr (hG : Good D Lp slv) {X X' : (Fin d → ℕ) → ℕ → ℝ} (h : SameCtl D X X') (o : Oper) (fl : Flags) :
    o.matrix D slv fl X = o.matrix D slv fl X' := by
  cases o with
  | dton =>
    show dtonMatrix _ _ _ = dtonMatrix _ _ _
    unfold dtonMatrix
    rw [init_congr hG h]
  | sem =>
    show semMatrix _ _ _ = semMatrix _ _ _
    unfold semMatrix
    rw [init_congr hG h]

/-! ### The instructions -/

/-- The processes hold the vectors, and the data of `set_materials`. -/
def Inside (D : Setup d N A) (Lp : Fin d → Dir) (w : Ctl d) (σ : Rank D.L → DMem d A) : Prop :=
  Shared D Lp w σ ∧ Ready D fun r => (σ r).base

/-- From the vectors held by the processes to the relation of Verif/Lemmas/SpmdRel.lean. -/
theorem Inside.rel {w : Ctl d} {σ : Rank D.L → DMem d A} (h : Inside D Lp w σ) (i : ℕ) :
    ∃ a : Abs d A, Rel D Lp a (fun r => { (σ r).base with x := (σ r).v i }) ∧ a.fl = w.fl ∧ SameCtl D a.X (w.v i) ∧
      a.rhs = w.fRhs ∧ a.sol = w.fSol := by
  obtain ⟨h, hr⟩ := h
  refine ⟨⟨w.fl, fun r => if h : r ∈ procs D.L then (σ ⟨r, h⟩).v i else 0, w.fRhs, w.fSol,
    fun r => if h : r ∈ procs D.L then (σ ⟨r, h⟩).base.g else 0,
    fun r => if h : r ∈ procs D.L then (σ ⟨r, h⟩).base.mean else [],
    fun r => if h : r ∈ procs D.L then (σ ⟨r, h⟩).base.cross else []⟩, ?_, rfl, fun r hr e he => ?_, rfl, rfl⟩
  · refine ⟨h.flags, fun r => ?_, h.rhsV, h.rhsP, h.solV, h.solP, hr.surf, hr.radial, hr.nb, hr.num, fun r => ?_, fun r => ?_,
      fun r => ?_⟩
    · show (σ r).v i = dite _ _ _
      rw [dif_pos r.2]
    · show (σ r).base.g = dite _ _ _
      rw [dif_pos r.2]
    · show (σ r).base.mean = dite _ _ _
      rw [dif_pos r.2]
    · show (σ r).base.cross = dite _ _ _
      rw [dif_pos r.2]
  · show (if h : r ∈ procs D.L then (σ ⟨r, h⟩).v i else 0) e = w.v i r e
    rw [dif_pos hr]
    exact h.control i ⟨r, hr⟩ e he

theorem trip_flags (w : Ctl d) (f : Flags → Flags) :
    Trip (fun r => (Cmd.flags f).prog D Lp slv r.1) (Inside D Lp w) (Inside D Lp ((Cmd.flags f).run D slv w)) :=
  trip_loc (C := drvComm D Lp slv) (fun _ (m : DMem d A) => { m with base := { m.base with flags := f m.base.flags } })
    fun σ h => ⟨⟨fun r => congrArg f (h.1.flags r), h.1.scalars, h.1.control, h.1.rhsV, h.1.rhsP, h.1.solV, h.1.solP⟩,
      ⟨h.2.surf, h.2.radial, h.2.nb, h.2.num⟩⟩

theorem trip_zeroRhs (w : Ctl d) :
    Trip (fun r => Cmd.zeroRhs.prog D Lp slv r.1) (Inside D Lp w) (Inside D Lp (Cmd.zeroRhs.run D slv w)) :=
  trip_loc (C := drvComm D Lp slv) (fun _ (m : DMem d A) => { m with base := { m.base with rhs := (fun _ _ => 0, fun _ _ => 0) } })
    fun σ h => ⟨⟨h.1.flags, h.1.scalars, h.1.control, fun _ _ _ => rfl, fun _ _ _ => rfl, h.1.solV, h.1.solP⟩,
      ⟨h.2.surf, h.2.radial, h.2.nb, h.2.num⟩⟩

theorem shared_put {w : Ctl d} {σ : Rank D.L → DMem d A} (h : Shared D Lp w σ) (j : ℕ) (y : Rank D.L → ℕ → ℝ)
    (Y : (Fin d → ℕ) → ℕ → ℝ) (hy : ∀ r e, e < ctlSize D r.1 → y r e = Y r.1 e) :
    ∀ i (r : Rank D.L) e, e < ctlSize D r.1 → Function.update (σ r).v j (y r) i e = Function.update w.v j Y i r.1 e :=
  fun i r e he => by
  by_cases hi : i = j
  · subst hi; rw [Function.update_self, Function.update_self]; exact hy r e he
  · rw [Function.update_of_ne hi, Function.update_of_ne hi]; exact h.control i r e he

theorem trip_mult (hG : Good D Lp slv) (w : Ctl d) (o : Oper) (i j : ℕ) :
    Trip (fun r => (Cmd.mult o i j).prog D Lp slv r.1) (Inside D Lp w) (Inside D Lp ((Cmd.mult o i j).run D slv w)) := by
  intro σ h
  obtain ⟨h, hr⟩ := h
  set X : (Fin d → ℕ) → ℕ → ℝ := fun r => if h : r ∈ procs D.L then (σ ⟨r, h⟩).v i else 0 with hX
  have hs : SameCtl D X (w.v i) := fun r hr e he => by
    rw [hX]
    show (if h : r ∈ procs D.L then (σ ⟨r, h⟩).v i else 0) e = w.v i r e
    rw [dif_pos hr]
    exact h.control i ⟨r, hr⟩ e he
  set σ₁ : Rank D.L → DMem d A := fun r => { σ r with base := { (σ r).base with x := (σ r).v i, y := (σ r).v j } } with hσ₁
  have hx : ∀ r, (σ₁ r).base.x = X r.1 := fun r => by
    show (σ r).v i = dite _ _ _
    rw [dif_pos r.2]
  have hr1 : Ready D fun r => (σ₁ r).base := ⟨hr.surf, hr.radial, hr.nb, hr.num⟩
  have key : ∃ σ' : Rank D.L → Mem d A, Exec (fun r => o.prog D Lp slv r.1) (fun r => (σ₁ r).base) σ' ∧ Ready D σ' ∧
      (∀ r k, k < d * materialsSize D.fluid (getDMBounds D.L r.1 true) D.h D.scale D.parts →
        (σ' r).y k = (o.matrix D slv w.fl X).2 r.1 k) ∧
      Holds D.L (fun r => (σ' r).sol.1) (o.matrix D slv w.fl X).1.2.1 ∧
      HoldsP D.L Lp (fun r => (σ' r).sol.2) (o.matrix D slv w.fl X).1.2.2 ∧
      Holds D.L (fun r => (σ' r).rhs.1) (o.matrix D slv w.fl X).1.1.1 ∧
      HoldsP D.L Lp (fun r => (σ' r).rhs.2) (o.matrix D slv w.fl X).1.1.2 ∧ ∀ r, (σ' r).flags = w.fl := by
    cases o with
    | dton => exact exec_dton hG w.fl X _ hr1 h.flags hx
    | sem => exact exec_sem hG w.fl X _ hr1 h.flags hx
  rw [matrix_congr hG hs] at key
  obtain ⟨σ', e, k1, k2, k3, k4, k5, k6, k7⟩ := key
  refine ⟨_, exec_cons (exec_loc _ _) (exec_cons (exec_inner e) (exec_cons (exec_loc _ _) (exec_nil _))), ?_,
    ⟨k1.surf, k1.radial, k1.nb, k1.num⟩⟩
  exact ⟨k7, h.scalars, shared_put h j (fun r => (σ' r).y) _ fun r e he => k2 r e he, k5, k6, k3, k4⟩

theorem trip_init (hG : Good D Lp slv) (w : Ctl d) (af : Bool) (i : ℕ) :
    Trip (fun r => (Cmd.init af i).prog D Lp slv r.1) (Inside D Lp w) (Inside D Lp ((Cmd.init af i).run D slv w)) := by
  intro σ h
  obtain ⟨a, ha, a1, a2, a3, a4⟩ := h.rel i
  obtain ⟨σ', e, h'⟩ := exec_init hG (fun _ => af) af a _ ha fun _ _ => rfl
  rw [a1, a3, init_congr hG a2] at h'
  refine ⟨_, exec_seq (exec_loc _ _) (exec_inner (σ := fun r => { σ r with base := { (σ r).base with x := (σ r).v i } }) e), ?_,
    ⟨h'.surf, h'.radial, h'.nb, h'.num⟩⟩
  exact ⟨h'.flags, h.1.scalars, h.1.control, h'.rhs1, h'.rhs2,
    fun r p hp => (h'.sol1 r p hp).trans (congrFun (congrArg Prod.fst a4) p),
    fun r p hp => (h'.sol2 r p hp).trans (congrFun (congrArg Prod.snd a4) p)⟩

theorem trip_solve (hG : Good D Lp slv) (w : Ctl d) :
    Trip (fun r => Cmd.solve.prog D Lp slv r.1) (Inside D Lp w) (Inside D Lp (Cmd.solve.run D slv w)) := by
  intro σ h
  -- the control in the memory of the operators is whatever it is
  obtain ⟨a, ha, a1, a3⟩ : ∃ a : Abs d A, Rel D Lp a (fun r => (σ r).base) ∧ a.fl = w.fl ∧ a.rhs = w.fRhs := by
    obtain ⟨a, ha, a1, -, a3, -⟩ := h.rel 0
    refine ⟨{ a with X := fun r => if h : r ∈ procs D.L then (σ ⟨r, h⟩).base.x else 0 }, ?_, a1, a3⟩
    refine ⟨ha.flags, fun r => ?_, ha.rhs1, ha.rhs2, ha.sol1, ha.sol2, ha.surf, ha.radial, ha.nb, ha.num, ha.g, ha.mean, ha.cross⟩
    show (σ r).base.x = dite _ _ _
    rw [dif_pos r.2]
  obtain ⟨σ', e, h'⟩ := exec_solve hG a _ ha
  rw [a3] at h'
  refine ⟨_, exec_inner e, ⟨fun r => (h'.flags r).trans a1, h.1.scalars, h.1.control,
    h'.rhs1, h'.rhs2, h'.sol1, h'.sol2⟩,
    ⟨h'.surf, h'.radial, h'.nb, h'.num⟩⟩

theorem own_window (L : Fin d → Dir) (hL : ∀ i, (L i).WF) (r : Fin d → ℕ) (hr : r ∈ procs L) (p : Pos d ℤ)
    (hp : p ∈ (getDMBounds L r false).halfOpen) : p ∈ (ghostWindow L r).visited :=
  Work.win_of_halfOpen L r fun i => by
    have h1 := hp i
    have h2 := Dir.xs_nonneg (hL i) (r i)
    have h3 := Dir.xe_le (hL i) ((mem_procs L r).1 hr i)
    simp only [getDMBounds, Bool.false_and] at h1
    simp only [ghostWindow, Dir.gxs, Dir.gxe]
    split <;> simp_all <;> omega

theorem trip_lastSol (hG : Good D Lp slv) (w : Ctl d) :
    Trip (fun r => Cmd.lastSol.prog D Lp slv r.1) (Inside D Lp w) (Inside D Lp (Cmd.lastSol.run D slv w)) := by
  intro σ h
  have e1 := exec_inner (σ := σ) (exec_ghosts (Lp := Lp) (slv := slv) (fun _ s => s.sol.1) fun r => (σ r).base)
  have g1 := fun r => ghosts_eqv D.L hG.wf (fun r => (σ r).base.sol.1) w.fSol.1 (σ r).base.la h.1.solV r
  set σ₁ : Rank D.L → DMem d A := fun r => { σ r with base := { (σ r).base with la := (fun p =>
    if p ∈ (ghostWindow D.L r.1).visited then globalToLocal D.L (glue D.L (everywhere D.L fun j => (σ j).base.sol.1)) p
    else (σ r).base.la p) } } with hσ₁
  have g2 : ∀ r : Rank D.L, Work.Eqv D.L r.1 (AddSing.pairsLoop D.singScale D.h (getDMBounds D.L r.1 true)
      (AddSing.addKernel D.bf D.elem (AddSing.coef d D.singScale)) D.pairs (σ₁ r).base.la)
      (AddSing.pairsLoop D.singScale D.h (getDMBounds D.L r.1 true)
      (AddSing.addKernel D.bf D.elem (AddSing.coef d D.singScale)) D.pairs (globalToLocal D.L w.fSol.1)) := fun r =>
    pairs_local D.L r.1 _ _ _ _ (addKernel_local D.L r.1 D.bf D.elem _) _ _ _ (g1 r)
  set σ₂ : Rank D.L → DMem d A := fun r => { σ₁ r with base := { (σ₁ r).base with
    la := (AddSing.pairsLoop D.singScale D.h (getDMBounds D.L r.1 true)
      (AddSing.addKernel D.bf D.elem (AddSing.coef d D.singScale)) D.pairs (σ₁ r).base.la) } } with hσ₂
  have e3 : Exec (C := drvComm D Lp slv) (fun r => .coll (C := drvComm D Lp slv) (Sum.inr DKind.insert) (fun _ => 0)
      (fun m : DMem d A => m.base.la) fun m (v : NodeVec d d ℝ) =>
      { m with base := { m.base with sol := (ownPart D.L r.1 v m.base.sol.1, m.base.sol.2) } }) σ₂ fun r =>
      { σ₂ r with base := { (σ₂ r).base with sol := (ownPart D.L r.1 (AddSing.localToGlobalInsert D.L (everywhere D.L
        fun r => (σ₂ r).base.la)) (σ₂ r).base.sol.1, (σ₂ r).base.sol.2) } } :=
    exec_coll (C := drvComm D Lp slv) (Sum.inr DKind.insert) _ _ _ σ₂ 0 fun _ => rfl
  refine ⟨_, exec_cons e1 (exec_cons (exec_loc _ _) (exec_cons e3 (exec_nil _))), ?_,
    ⟨h.2.surf, h.2.radial, h.2.nb, h.2.num⟩⟩
  refine ⟨h.1.flags, h.1.scalars, h.1.control, h.1.rhsV, h.1.rhsP, fun r p hp => ?_, h.1.solP⟩
  refine (own_apply D.L r.1 _ _ p hp).trans ?_
  funext c
  show AddSing.localToGlobalInsert D.L _ p c = AddSing.localToGlobalInsert D.L _ p c
  unfold AddSing.localToGlobalInsert
  refine Finset.sum_congr rfl fun s hs => ?_
  split
  · rename_i hq
    rw [everywhere_apply D.L (fun r => (σ₂ r).base.la) ⟨s, hs⟩]
    exact congrFun (g2 ⟨s, hs⟩ p (own_window D.L hG.wf s hs p ((Box.pointInside_iff _ _).1 hq))) c
  · rfl

theorem trip_ctlReduce (w : Ctl d) (f : (ℕ → ℝ) → (ℕ → ℝ) → ℝ) (k : ℕ) :
    Trip (fun r => (Cmd.reduce f k).prog D Lp slv r.1) (Inside D Lp w) (Inside D Lp ((Cmd.reduce f k).run D slv w)) := by
  refine trip_coll (C := drvComm D Lp slv) (M := DMem d A) (Sum.inr DKind.sum) 1 (fun r m =>
        (∑ e ∈ Finset.range (ctlSize D r.1), f m.s (fun i => m.v i e) : ℝ))
      (fun _ m (t : ℝ) => { m with s := Function.update m.s k t }) fun σ h => ?_
  refine ⟨⟨h.1.flags, fun r => ?_, h.1.control, h.1.rhsV, h.1.rhsP, h.1.solV, h.1.solP⟩,
    ⟨h.2.surf, h.2.radial, h.2.nb, h.2.num⟩⟩
  show Function.update (σ r).s k (∑ j : Rank D.L, ∑ e ∈ Finset.range (ctlSize D j.1), f (σ j).s fun i => (σ j).v i e) =
    Function.update w.s k _
  rw [h.1.scalars r]
  refine congrArg _ ?_
  rw [← Finset.sum_coe_sort (procs D.L)]
  refine Finset.sum_congr rfl fun j _ => Finset.sum_congr rfl fun e he => ?_
  rw [h.1.scalars j]
  exact congrArg _ (funext fun i => h.1.control i j e (Finset.mem_range.1 he))

theorem trip_ctlNode (w : Ctl d) (f : (ℕ → ℝ) → (ℕ → ℝ) → ℝ) (j : ℕ) :
    Trip (fun r => (Cmd.node f j).prog D Lp slv r.1) (Inside D Lp w) (Inside D Lp ((Cmd.node f j).run D slv w)) :=
  trip_loc (C := drvComm D Lp slv) (fun r (m : DMem d A) => { m with v := (Function.update m.v j fun e =>
      if e < ctlSize D r.1 then f m.s fun i => m.v i e else m.v j e) }) fun σ h =>
    ⟨⟨h.1.flags, h.1.scalars, shared_put h.1 j _ _ fun r e he => by
      rw [if_pos he, h.1.scalars r]
      exact congrArg _ (funext fun i => h.1.control i r e he), h.1.rhsV, h.1.rhsP, h.1.solV, h.1.solP⟩,
      ⟨h.2.surf, h.2.radial, h.2.nb, h.2.num⟩⟩

theorem trip_ctlSet (w : Ctl d) (f : (ℕ → ℝ) → ℝ) (k : ℕ) :
    Trip (fun r => (Cmd.set f k).prog D Lp slv r.1) (Inside D Lp w) (Inside D Lp ((Cmd.set f k).run D slv w)) :=
  trip_loc (C := drvComm D Lp slv) (fun _ (m : DMem d A) => { m with s := Function.update m.s k (f m.s) }) fun σ h =>
    ⟨⟨h.1.flags, fun r => by
      show Function.update (σ r).s k (f (σ r).s) = Function.update w.s k (f w.s)
      rw [h.1.scalars r], h.1.control, h.1.rhsV, h.1.rhsP, h.1.solV, h.1.solP⟩,
      ⟨h.2.surf, h.2.radial, h.2.nb, h.2.num⟩⟩

/-- Every program of instructions. -/
theorem trip_cmd (hG : Good D Lp slv) (c : Cmd) : ∀ w : Ctl d,
    Trip (fun r => c.prog D Lp slv r.1) (Inside D Lp w) (Inside D Lp (c.run D slv w)) := by
  induction c with
  | flags f => exact fun w => trip_flags w f
  | mult o i j => exact fun w => trip_mult hG w o i j
  | zeroRhs => exact fun w => trip_zeroRhs w
  | init af i => exact fun w => trip_init hG w af i
  | solve => exact fun w => trip_solve hG w
  | lastSol => exact fun w => trip_lastSol hG w
  | reduce f k => exact fun w => trip_ctlReduce w f k
  | node f j => exact fun w => trip_ctlNode w f j
  | set f k => exact fun w => trip_ctlSet w f k
  | skip => exact fun w σ h => ⟨σ, exec_skip σ, h⟩
  | seq a b iha ihb => exact fun w => trip_seq (iha w) (ihb _)
  | ite c a b iha ihb =>
    intro w σ h
    cases hc : c w.s with
    | true =>
      obtain ⟨σ', e, h'⟩ := iha w σ h
      refine ⟨σ', exec_ite _ _ _ _ _ true (fun r => by rw [h.1.scalars r, hc]) e, ?_⟩
      show Inside D Lp (if c w.s then a.run D slv w else b.run D slv w) σ'
      rw [hc]; exact h'
    | false =>
      obtain ⟨σ', e, h'⟩ := ihb w σ h
      refine ⟨σ', exec_ite _ _ _ _ _ false (fun r => by rw [h.1.scalars r, hc]) e, ?_⟩
      show Inside D Lp (if c w.s then a.run D slv w else b.run D slv w) σ'
      rw [hc]; exact h'
  | rep n a ih =>
    intro w
    show Trip (fun r => repeatProg (a.prog D Lp slv r.1) n) (Inside D Lp w) (Inside D Lp ((a.run D slv)^[n] w))
    induction n generalizing w with
    | zero => exact fun σ h => ⟨σ, exec_skip σ, h⟩
    | succ n ihn => exact trip_seq (ih w) (ihn _)

/-- `create_Mat_and_Vec`. -/
theorem trip_create (w : Ctl d) :
    Trip (fun r => createProg D Lp slv r.1) (Before D Lp w) (Inside D Lp w.create) := by
  intro σ h
  obtain ⟨σ', e, hr, hk⟩ := exec_materials (Lp := Lp) (slv := slv) fun r => (σ r).base
  refine ⟨_, exec_seq (exec_inner e) (exec_loc _ _), ?_, ⟨hr.surf, hr.radial, hr.nb, hr.num⟩⟩
  refine ⟨fun _ => rfl, h.scalars, fun i r e he => ?_, fun r p hp => ?_, fun r p hp => ?_, fun r p hp => ?_, fun r p hp => ?_⟩
  · show Function.update (Function.update (σ r).v 0 fun _ => 0) 1 (fun _ => 0) i e =
      Function.update (Function.update w.v 0 0) 1 0 i r.1 e
    by_cases h1 : i = 1
    · subst h1; rw [Function.update_self, Function.update_self]; rfl
    · rw [Function.update_of_ne h1, Function.update_of_ne h1]
      by_cases h0 : i = 0
      · subst h0; rw [Function.update_self, Function.update_self]; rfl
      · rw [Function.update_of_ne h0, Function.update_of_ne h0]
        exact h.control i (by omega) r e he
  · exact (congrFun (congrArg Prod.fst (hk r).1) p).trans (h.rhsV r p hp)
  · exact (congrFun (congrArg Prod.snd (hk r).1) p).trans (h.rhsP r p hp)
  · exact (congrFun (congrArg Prod.fst (hk r).2) p).trans (h.solV r p hp)
  · exact (congrFun (congrArg Prod.snd (hk r).2) p).trans (h.solP r p hp)

end Cafes.Spmd
