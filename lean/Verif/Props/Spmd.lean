/-
C116: the processes run the operators of the particle problems in any order of their steps, they never wait for each
other for ever, and the order does not change the results.
-/
import Verif.Lemmas.SpmdCalls
import Verif.Props.Misfit

namespace Cafes.Spmd
open Cafes Cafes.Particle Cafes.Driver Cafes.Geometry Cafes.Props

set_option linter.unusedSectionVars false
variable {d N : ℕ} {A : Type} [AddCommGroup A] [Module ℝ A] {D : Setup d N A} {Lp : Fin d → Dir}
  {slv : NodeVec d d ℝ × NodeVec d 1 ℝ → NodeVec d d ℝ × NodeVec d 1 ℝ}

/-- The memories `s` of the processes hold the answer to the call `c`: the values that the model of the whole operator
(one vector for all the processes) gives. -/
def Answer (D : Setup d N A) (Lp : Fin d → Dir)
    (slv : NodeVec d d ℝ × NodeVec d 1 ℝ → NodeVec d d ℝ × NodeVec d 1 ℝ) (c : Call d) (s : Rank D.L → Mem d A) : Prop :=
  match c.op with
  | .dton =>
    -- the entries of `y`, and the fluid on the nodes of the process
    (∀ r k, k < d * materialsSize D.fluid (getDMBounds D.L r.1 true) D.h D.scale D.parts →
      (s r).y k = (dtonMatrix (D.pieces slv) c.fl c.X).2 r.1 k) ∧
    (∀ r, ∀ p ∈ (getDMBounds D.L r.1 false).halfOpen, (s r).sol.1 p = (dtonMatrix (D.pieces slv) c.fl c.X).1.2.1 p) ∧
    (∀ r, ∀ p ∈ (getDMBounds Lp r.1 false).halfOpen, (s r).sol.2 p = (dtonMatrix (D.pieces slv) c.fl c.X).1.2.2 p) ∧
    (∀ r, ∀ p ∈ (getDMBounds D.L r.1 false).halfOpen, (s r).rhs.1 p = (dtonMatrix (D.pieces slv) c.fl c.X).1.1.1 p) ∧
    (∀ r, ∀ p ∈ (getDMBounds Lp r.1 false).halfOpen, (s r).rhs.2 p = (dtonMatrix (D.pieces slv) c.fl c.X).1.1.2 p)
  | .sem =>
    (∀ r k, k < d * materialsSize D.fluid (getDMBounds D.L r.1 true) D.h D.scale D.parts →
      (s r).y k = (semMatrix (D.pieces slv) c.fl c.X).2 r.1 k) ∧
    (∀ r, ∀ p ∈ (getDMBounds D.L r.1 false).halfOpen, (s r).sol.1 p = (semMatrix (D.pieces slv) c.fl c.X).1.2.1 p) ∧
    (∀ r, ∀ p ∈ (getDMBounds Lp r.1 false).halfOpen, (s r).sol.2 p = (semMatrix (D.pieces slv) c.fl c.X).1.2.2 p) ∧
    (∀ r, ∀ p ∈ (getDMBounds D.L r.1 false).halfOpen, (s r).rhs.1 p = (semMatrix (D.pieces slv) c.fl c.X).1.1.1 p) ∧
    (∀ r, ∀ p ∈ (getDMBounds Lp r.1 false).halfOpen, (s r).rhs.2 p = (semMatrix (D.pieces slv) c.fl c.X).1.1.2 p)
  | .forces =>
    -- every process gets the forces and torques of all the particles
    (∀ r, (s r).mean.length = D.parts.length ∧ (s r).cross.length = D.parts.length) ∧
    (∀ r, ∀ i < D.parts.length, (s r).mean.getD i 0 = (D.newForces c.X i).1 ∧ (s r).cross.getD i 0 = (D.newForces c.X i).2)

/-- One call. -/
theorem exec_call (hG : Good D Lp slv) (c : Call d) (σ : Rank D.L → Mem d A) (hr : Ready D σ) :
    ∃ σ', Exec (fun r => callProg D Lp slv r.1 c) σ σ' ∧ Ready D σ' ∧ Answer D Lp slv c σ' := by
  obtain ⟨op, fl, X⟩ := c
  set σ₁ : Rank D.L → Mem d A := fun r => { σ r with flags := fl, x := X r.1 } with hσ₁
  have hr1 : Ready D σ₁ := ⟨hr.surf, hr.radial, hr.nb, hr.num⟩
  cases op with
  | dton =>
    obtain ⟨σ₂, e, h, h1, h2, h3, h4, h5, -⟩ := exec_dton hG fl X σ₁ hr1 (fun _ => rfl) fun _ => rfl
    exact ⟨σ₂, exec_seq (exec_loc _ _) e, h, h1, h2, h3, h4, h5⟩
  | sem =>
    obtain ⟨σ₂, e, h, h1, h2, h3, h4, h5, -⟩ := exec_sem hG fl X σ₁ hr1 (fun _ => rfl) fun _ => rfl
    exact ⟨σ₂, exec_seq (exec_loc _ _) e, h, h1, h2, h3, h4, h5⟩
  | forces =>
    obtain ⟨σ₂, e, h, h'⟩ := exec_forces (Lp := Lp) (slv := slv) X σ₁ hr1 fun _ => rfl
    exact ⟨σ₂, exec_seq (exec_loc _ _) e, h, h'⟩

theorem exec_calls (hG : Good D Lp slv) (c : Call d) : ∀ (cs : List (Call d)) (σ : Rank D.L → Mem d A), Ready D σ →
    ∃ σ', Exec (fun r => seqs ((cs ++ [c]).map fun c => callProg D Lp slv r.1 c)) σ σ' ∧ Answer D Lp slv c σ'
  | [], σ, hr => by
    obtain ⟨σ₁, e, -, h⟩ := exec_call hG c σ hr
    exact ⟨σ₁, exec_cons e (exec_nil _), h⟩
  | c' :: cs, σ, hr => by
    obtain ⟨σ₁, e, hr1, -⟩ := exec_call hG c' σ hr
    obtain ⟨σ₂, e2, h⟩ := exec_calls hG c cs σ₁ hr1
    exact ⟨σ₂, exec_cons e e2, h⟩

/-- C116: when one order of the steps leads all the processes to their ends, after `n` steps, every order does: any run
is at most that long, and is the beginning of a run that leads to the same memories in the same number of steps. -/
theorem C116_schedule {ι : Type} {C : Comm ι} {S : Type} [DecidableEq ι] [Nonempty ι] {n m : ℕ} {a b f : Machine ι C S}
    (h : Run n a f) (hf : Done f) (hb : Run m a b) : m ≤ n ∧ Run (n - m) b f :=
  run_complete hb h hf

/-- C116: `set_materials`, from any memories: no schedule is longer than `n` steps, none gets stuck, and at the end
every process has the surface points, the radial vectors and the counts of the model. -/
theorem C116_materials [Nonempty (Rank D.L)] (σ : Rank D.L → Mem d A) :
    ∃ n, ∀ m b, Run m (start (fun r => materialsProg D Lp slv r.1) σ) b → m ≤ n ∧ (Done b ∨ ∃ c, Step b c) ∧
      (Done b → ∀ r i, (b r).1.surf i = (D.data i r.1).surf ∧ (b r).1.radial i = (D.data i r.1).radial ∧
        (b r).1.nb.getD i 0 = (D.data i r.1).nb ∧ (b r).1.num.getD i 0 = (D.data i r.1).num) := by
  obtain ⟨σ', e, h, -⟩ := exec_materials (Lp := Lp) (slv := slv) σ
  obtain ⟨n, hn⟩ := exec_all e
  refine ⟨n, fun m b hb => ⟨(hn m b hb).1, (hn m b hb).2.1, fun hd r i => ?_⟩⟩
  rw [(hn m b hb).2.2 hd r]
  exact ⟨h.surf r i, h.radial r i, h.nb r i, h.num r i⟩

/-- C116: `set_materials`, then any history of calls, from any memories: no schedule of the processes is longer than `n`
steps, none gets stuck, and at the end of every schedule each process holds its part of the answer to the last call,
which depends neither on the schedule nor on the calls before nor on what was in the memories. -/
theorem C116_history [Nonempty (Rank D.L)] (hG : Good D Lp slv) (cs : List (Call d)) (c : Call d)
    (σ : Rank D.L → Mem d A) :
    ∃ n, ∀ m b, Run m (start (fun r => historyProg D Lp slv r.1 (cs ++ [c])) σ) b →
      m ≤ n ∧ (Done b ∨ ∃ b', Step b b') ∧ (Done b → Answer D Lp slv c fun r => (b r).1) := by
  obtain ⟨σ₁, e1, h1, -⟩ := exec_materials (Lp := Lp) (slv := slv) σ
  obtain ⟨σ₂, e2, h2⟩ := exec_calls hG c cs σ₁ h1
  obtain ⟨n, hn⟩ := exec_all (exec_seq e1 e2)
  refine ⟨n, fun m b hb => ⟨(hn m b hb).1, (hn m b hb).2.1, fun hd => ?_⟩⟩
  have : (fun r => (b r).1) = σ₂ := funext fun r => (hn m b hb).2.2 hd r
  rw [this]
  exact h2

/-- C116 (forces): after any history, every process gets for each particle the force and the torque of the control, the
mean over the inner nodes of all the processes. -/
theorem C116_forces [Nonempty (Rank D.L)] (hG : Good D Lp slv) (cs : List (Call d)) (fl : Flags)
    (X : (Fin d → ℕ) → ℕ → ℝ) (σ : Rank D.L → Mem d A) (m : ℕ) (b)
    (hb : Run m (start (fun r => historyProg D Lp slv r.1 (cs ++ [⟨.forces, fl, X⟩])) σ) b) (hd : Done b) (r : Rank D.L)
    (i : ℕ) (hi : i < D.parts.length) :
    (b r).1.mean.getD i 0 = (D.newForces X i).1 ∧ (b r).1.cross.getD i 0 = (D.newForces X i).2 := by
  obtain ⟨n, hn⟩ := C116_history hG cs ⟨.forces, fl, X⟩ σ
  exact ((hn m b hb).2.2 hd).2 r i hi

/-! ### The hypotheses are met -/

/-- The disk in a box cut in two processes, of `C58_example`. -/
theorem good_example : Good exD (presLayout ![3, 3] ![false, false] ![[2, 1], [3]]) exSolve where
  mesh := fun i => ⟨exD_wf i, by fin_cases i <;> decide⟩
  pres := exD_mesh.2.1
  procs := procs_layout _ _ _
  rs := exD_procs
  elem := isQ1_2
  fluid := isFluid2
  slv := fun b b' h _ => by
    unfold exSolve
    rw [h 0 exD_corner.2]

/-- The two processes. -/
instance : Nonempty (Rank exD.L) := ⟨⟨0, by rw [mem_procs]; intro i; fin_cases i <;> decide⟩⟩

theorem two_processes : (procs exD.L).card = 2 := by decide

/-- C116: the theorem on a concrete problem with two processes, and a history with the three calls. -/
theorem C116_example (X : (Fin 2 → ℕ) → ℕ → ℝ) (σ : Rank exD.L → Mem 2 ℝ) :
    ∃ n, ∀ m b, Run m (start (fun r => historyProg exD (presLayout ![3, 3] ![false, false] ![[2, 1], [3]]) exSolve r.1
        [⟨.sem, ⟨true, true, false⟩, X⟩, ⟨.forces, ⟨true, true, false⟩, X⟩, ⟨.dton, ⟨false, true, false⟩, X⟩]) σ) b →
      m ≤ n ∧ (Done b ∨ ∃ b', Step b b') ∧ (Done b →
        Answer exD (presLayout ![3, 3] ![false, false] ![[2, 1], [3]]) exSolve ⟨.dton, ⟨false, true, false⟩, X⟩ fun r => (b r).1) :=
  C116_history good_example [⟨.sem, ⟨true, true, false⟩, X⟩, ⟨.forces, ⟨true, true, false⟩, X⟩]
    ⟨.dton, ⟨false, true, false⟩, X⟩ σ

/-! ### The semantics does see deadlocks -/

/-- Two processes, one collective operation. -/
def toyComm : Comm Bool := ⟨Unit, fun _ => ℕ, fun _ v _ => v true + v false⟩

/-- The sum of the numbers of the two processes. -/
def toySum (count : ℕ) : Stmt toyComm ℕ := .coll () (fun _ => count) (fun s => s) fun _ v => v

theorem stuck_of {k : List (Stmt toyComm ℕ)} {count s t : ℕ} {b' : Machine Bool toyComm ℕ} {q : Proc toyComm ℕ}
    (hq : q = (t, []) ∨ ∃ c' k', c' ≠ count ∧ q = (t, toySum c' :: k'))
    (h : Step (fun i => if i then (s, toySum count :: k) else q) b') : False := by
  generalize ha : (fun i : Bool => if i then (s, toySum count :: k) else q) = a at h
  cases h with
  | one i c hp =>
    rw [← ha] at hp
    cases i with
    | true => simp only [if_true] at hp; cases hp
    | false =>
      simp only [Bool.false_eq_true, if_false] at hp
      rcases hq with rfl | ⟨c', k', -, rfl⟩ <;> cases hp
  | all k count' send recv rest n h hn =>
    rw [← ha] at h hn
    have h1 := h false
    have h2 := h true
    have n1 := hn false
    have n2 := hn true
    simp only [Bool.false_eq_true, if_false, if_true] at h1 h2 n1 n2
    rcases hq with rfl | ⟨c', k', hc, rfl⟩
    · cases h1
    · have g1 := congrArg (fun l => match l with
        | Stmt.coll _ c _ _ :: _ => c t
        | _ => 0) h1
      have g2 := congrArg (fun l => match l with
        | Stmt.coll _ c _ _ :: _ => c s
        | _ => 0) h2
      exact hc (g1.trans (n1.trans (n2.symm.trans g2.symm)))

/-- C116: a reduction moved into a branch that one process does not take is a deadlock: a run stops there and cannot go
on, before the end. -/
theorem C116_branch_deadlock (s : Bool → ℕ) :
    ∃ m b, Run m (start (fun i => .ite (fun _ => i) (toySum 1) .skip) s) b ∧ ¬ Done b ∧ ∀ b', ¬ Step b b' := by
  refine ⟨3, fun i => if i then (s true, [toySum 1]) else (s false, []), ?_, fun hd => ?_, fun b' hb => stuck_of (Or.inl rfl) hb⟩
  · refine Run.step (Step.one _ true (s true, [toySum 1]) (PStep.ite _ _ _ _ _)) ?_
    refine Run.step (Step.one _ false (s false, [.skip]) (PStep.ite _ _ _ _ _)) ?_
    refine Run.step (Step.one _ false (s false, []) (PStep.skip _ _)) ?_
    refine cast (congrArg _ (funext fun i => ?_)) (Run.refl _)
    cases i <;> rfl
  · have := hd true
    simp at this

/-- C116: two processes that reduce arrays of different lengths wait for ever. -/
theorem C116_count_deadlock (s : Bool → ℕ) :
    ¬ Done (start (fun i => toySum (if i then 1 else 2)) s) ∧ ∀ b', ¬ Step (start (fun i => toySum (if i then 1 else 2)) s) b' := by
  constructor
  · intro hd; have := hd true; simp [start] at this
  · intro b' hb
    have : start (fun i => toySum (if i then 1 else 2)) s =
        fun i => if i then (s true, [toySum 1]) else (s false, [toySum 2]) := by
      funext i; cases i <;> rfl
    rw [this] at hb
    exact stuck_of (Or.inr ⟨2, [], by decide, rfl⟩) hb

end Cafes.Spmd
