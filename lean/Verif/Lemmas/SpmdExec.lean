/-
The programs of the particle problems, piece by piece: solves, surfaces, layers.
-/
import Verif.Lemmas.SpmdRel

namespace Cafes.Spmd
open Cafes Cafes.Particle Cafes.Driver Cafes.Geometry Cafes.Props

set_option linter.unusedSectionVars false
variable {d N : ℕ} {A : Type} [AddCommGroup A] [Module ℝ A] {D : Setup d N A} {Lp : Fin d → Dir}
  {slv : NodeVec d d ℝ × NodeVec d 1 ℝ → NodeVec d d ℝ × NodeVec d 1 ℝ}

/-- `init_problem`. -/
theorem exec_init (hG : Good D Lp slv) (af : Mem d A → Bool) (b : Bool) (a : Abs d A) (σ : Rank D.L → Mem d A)
    (h : Rel D Lp a σ) (haf : ∀ s : Mem d A, s.flags = a.fl → af s = b) :
    ∃ σ', Exec (fun r => initProg D Lp slv r.1 af) σ σ' ∧
      Rel D Lp { a with rhs := initProblem (D.pieces slv) a.fl b a.X a.rhs } σ' := by
  have s1 : ∃ σ', Exec (fun r => Stmt.ite (fun s => s.flags.computeRhs) (setupRhsProg D Lp slv r.1) .skip) σ σ' ∧
      Rel D Lp { a with rhs := if a.fl.computeRhs then setupRHSFluid (D.pieces slv) a.rhs else a.rhs } σ' := by
    cases hc : a.fl.computeRhs with
    | true =>
      obtain ⟨σ₁, e1, h1⟩ := exec_setup hG a σ h
      exact ⟨σ₁, exec_ite _ _ _ _ _ true (fun r => by rw [h.flags r, hc]) e1, h1⟩
    | false => exact ⟨σ, exec_ite _ _ _ _ _ false (fun r => by rw [h.flags r, hc]) (exec_skip _), h⟩
  obtain ⟨σ₁, e1, h1⟩ := s1
  generalize hR : (if a.fl.computeRhs then setupRHSFluid (D.pieces slv) a.rhs else a.rhs) = R1 at h1
  have s2 : ∃ σ', Exec (fun r => Stmt.ite (fun s => s.flags.computeSing) (inFluidProg D Lp slv r.1) .skip) σ₁ σ' ∧
      Rel D Lp { a with rhs := if a.fl.computeSing then R1 + (D.pieces slv).sing else R1 } σ' := by
    cases hc : a.fl.computeSing with
    | true =>
      obtain ⟨σ₂, e2, h2⟩ := exec_inFluid (slv := slv) _ σ₁ h1
      exact ⟨σ₂, exec_ite _ _ _ _ _ true (fun r => by rw [h1.flags r, hc]) e2, h2⟩
    | false => exact ⟨σ₁, exec_ite _ _ _ _ _ false (fun r => by rw [h1.flags r, hc]) (exec_skip _), h1⟩
  obtain ⟨σ₂, e2, h2⟩ := s2
  generalize hR2 : (if a.fl.computeSing then R1 + (D.pieces slv).sing else R1) = R2 at h2
  obtain ⟨σ₃, e3, h3⟩ := exec_control hG af b _ σ₂ h2 haf
  have s4 : ∃ σ', Exec (fun r => Stmt.ite (fun s => s.flags.computeRhs) (bcProg D Lp slv r.1) (nullProg D Lp slv r.1)) σ₃ σ' ∧
      Rel D Lp { a with rhs := initProblem (D.pieces slv) a.fl b a.X a.rhs } σ' := by
    have hi : initProblem (D.pieces slv) a.fl b a.X a.rhs = if a.fl.computeRhs then
        (D.pieces slv).setBC (R2 + ((D.pieces slv).ctl a.X + if b then (D.pieces slv).ext else 0)) else
        (D.pieces slv).setNull (R2 + ((D.pieces slv).ctl a.X + if b then (D.pieces slv).ext else 0)) := by
      rw [← hR2, ← hR]; rfl
    rw [hi]
    cases hc : a.fl.computeRhs with
    | true =>
      obtain ⟨σ₄, e4, h4⟩ := exec_bc hG _ σ₃ h3
      exact ⟨σ₄, exec_ite _ _ _ _ _ true (fun r => by rw [h3.flags r, hc]) e4, h4⟩
    | false =>
      obtain ⟨σ₄, e4, h4⟩ := exec_null hG _ σ₃ h3
      exact ⟨σ₄, exec_ite _ _ _ _ _ false (fun r => by rw [h3.flags r, hc]) e4, h4⟩
  obtain ⟨σ₄, e4, h4⟩ := s4
  exact ⟨σ₄, exec_cons e1 (exec_cons e2 (exec_cons e3 (exec_cons e4 (exec_nil _)))), h4⟩

theorem own_apply {n : ℕ} (L : Fin d → Dir) (r : Fin d → ℕ) (v old : NodeVec d n ℝ) (p : Pos d ℤ)
    (hp : p ∈ (getDMBounds L r false).halfOpen) : ownPart L r v old p = v p :=
  if_pos ((Box.pointInside_iff _ _).2 hp)

/-- `problem.solve()`. -/
theorem exec_solve (hG : Good D Lp slv) (a : Abs d A) (σ : Rank D.L → Mem d A) (h : Rel D Lp a σ) :
    ∃ σ', Exec (fun r => solveProg D Lp slv r.1) σ σ' ∧ Rel D Lp { a with sol := slv a.rhs } σ' := by
  have hs : slv (glue D.L (everywhere D.L fun r => (σ r).rhs.1), glue Lp (everywhere D.L fun r => (σ r).rhs.2)) =
      slv a.rhs := hG.slv _ _ (fun g hg => glue_apply D.L hG.wf _ _ h.rhs1 g hg)
        (fun g hg => glueP_apply D.L Lp hG.procs hG.pres _ _ h.rhs2 g hg)
  have e : Exec (fun r => solveProg D Lp slv r.1) σ fun r => { σ r with sol :=
      (ownPart D.L r.1 (slv a.rhs).1 (σ r).sol.1, ownPart Lp r.1 (slv a.rhs).2 (σ r).sol.2) } := by
    rw [← hs]
    exact exec_coll (C := comm (A := A) D.L Lp slv) Kind.solve _ _ _ σ 0 fun _ => rfl
  exact ⟨_, e, h.flags, h.x, h.rhs1, h.rhs2, fun r p hp => own_apply _ _ _ _ _ hp, fun r p hp => own_apply _ _ _ _ _ hp,
    h.surf, h.radial, h.nb, h.num, h.g, h.mean, h.cross⟩

theorem surf_mem (D : Setup d N A) (i : ℕ) (r : Fin d → ℕ) (pt : Pos d ℤ × Pos d ℝ) (h : pt ∈ (D.data i r).surf) :
    pt.1 ∈ (getDMBounds D.L r true).halfOpen := by
  unfold Setup.data at h
  cases hp : D.parts[i]? with
  | none => rw [hp] at h; simp [PartData.empty] at h
  | some p =>
    rw [hp] at h
    have h' : pt ∈ (partMaterials D.fluid (getDMBounds D.L r true) D.h D.scale p PartData.empty).1.surf := h
    rw [(partMaterials_surf D.fluid _ D.h D.scale p).1, surfPoints_eq, List.mem_map] at h'
    obtain ⟨q, hq, rfl⟩ := h'
    rw [List.mem_filter, Box.pointInside_iff] at hq
    exact ((mem_boxInside _ _ _).1 hq.2).1

theorem interp_local (hG : Good D Lp slv) (r : Rank D.L) (u u' : NodeVec d d ℝ) (hu : Work.Eqv D.L r.1 u u')
    (pt : Pos d ℤ × Pos d ℝ) (h : pt.1 ∈ (getDMBounds D.L r.1 true).halfOpen) :
    interpPoint D.bf D.elem u pt = interpPoint D.bf D.elem u' pt := by
  have hw : ∀ k, u (D.elem pt.1 k) = u' (D.elem pt.1 k) := fun k =>
    hu _ (Work.win_of_halfOpen D.L r.1 (C04_q1_window D.L hG.wf r.1 r.2 pt.1 h _ (hG.elem pt.1 k)))
  simp only [interpPoint, hw]

/-- `interp_fluid_to_surf`. -/
theorem exec_interp (hG : Good D Lp slv) (rigid : Mem d A → Bool) (b : Bool) (a : Abs d A) (σ : Rank D.L → Mem d A)
    (h : Rel D Lp a σ) (hb : ∀ s : Mem d A, s.flags = a.fl → rigid s = b) :
    ∃ σ', Exec (fun r => interpProg D Lp slv r.1 rigid) σ σ' ∧
      Rel D Lp { a with G := if b then D.interp a.sol.1 + (D.pieces slv).rigid else D.interp a.sol.1 } σ' := by
  rw [pieces_rigid]
  set σ₃ : Rank D.L → Mem d A := fun r => { σ r with
    la := fun p => if p ∈ (ghostWindow D.L r.1).visited then
        globalToLocal D.L (glue D.L (everywhere D.L fun j => (σ j).sol.1)) p else (σ r).la p
    g := fun i k => match ((σ r).surf i)[k]? with
      | some pt => interpPoint D.bf D.elem (fun p => if p ∈ (ghostWindow D.L r.1).visited then
        globalToLocal D.L (glue D.L (everywhere D.L fun j => (σ j).sol.1)) p else (σ r).la p) pt
      | none => 0 } with hσ₃
  have hg : ∀ r : Rank D.L, (σ₃ r).g = D.interp a.sol.1 r.1 := fun r => by
    funext i k
    show (match ((σ r).surf i)[k]? with
      | some pt => interpPoint D.bf D.elem _ pt
      | none => 0) = _
    unfold Setup.interp
    rw [h.surf r i]
    cases hk : (D.data i r.1).surf[k]? with
    | none => rfl
    | some pt =>
      exact interp_local hG r _ _ (ghosts_eqv D.L hG.wf _ _ _ h.sol1 r) pt (surf_mem D i r.1 pt (List.mem_of_getElem? hk))
  have h3 : Rel D Lp { a with G := D.interp a.sol.1 } σ₃ :=
    ⟨h.flags, h.x, h.rhs1, h.rhs2, h.sol1, h.sol2, h.surf, h.radial, h.nb, h.num, hg, h.mean, h.cross⟩
  have e4 : ∃ σ', Exec (fun r => Stmt.ite (C := comm (A := A) D.L Lp slv) rigid (.loc fun s => { s with g := fun i k =>
      match D.parts[i]?, (s.radial i)[k]? with
      | some p, some x => rigidMotion D.S p (s.g i k) x
      | _, _ => s.g i k }) .skip) σ₃ σ' ∧
      Rel D Lp { a with G := if b then D.rigidOn (D.interp a.sol.1) else D.interp a.sol.1 } σ' := by
    cases b with
    | true =>
      refine ⟨_, exec_ite _ _ _ _ _ true (fun r => hb _ (h.flags r)) (exec_loc _ _), ?_⟩
      refine ⟨h.flags, h.x, h.rhs1, h.rhs2, h.sol1, h.sol2, h.surf, h.radial, h.nb, h.num, fun r => ?_, h.mean, h.cross⟩
      funext i k
      show (match D.parts[i]?, ((σ r).radial i)[k]? with
        | some p, some x => rigidMotion D.S p ((σ₃ r).g i k) x
        | _, _ => (σ₃ r).g i k) = D.rigidOn (D.interp a.sol.1) r.1 i k
      rw [hg r, h.radial r i]
      rfl
    | false => exact ⟨σ₃, exec_ite _ _ _ _ _ false (fun r => hb _ (h.flags r)) (exec_skip _), h3⟩
  obtain ⟨σ₄, e4, h4⟩ := e4
  refine ⟨σ₄, exec_cons (exec_loc _ _) (exec_cons (exec_ghosts _ _) (exec_cons ?_ (exec_cons e4 (exec_nil _)))), h4⟩
  exact exec_loc _ _

/-- `SL_to_Rhs`. -/
theorem exec_sl (hG : Good D Lp slv) (a : Abs d A) (σ : Rank D.L → Mem d A) (h : Rel D Lp a σ) :
    ∃ σ', Exec (fun r => slProg D Lp slv r.1) σ σ' ∧
      Rel D Lp { a with rhs := (D.pieces slv).setNull ((D.pieces slv).sl a.G) } σ' := by
  set σ₃ : Rank D.L → Mem d A := fun r => { σ r with
    rhs := (fun _ _ => 0, fun _ _ => 0)
    lb := (Work.spreadFrom D.bf D.elem (D.parts.zipIdx.map fun p =>
      (p.1.area, (σ r).nb.getD p.2 0, ((σ r).surf p.2).zipIdx.map fun q => ((σ r).g p.2 q.2, q.1)))
      fun p => if p ∈ (ghostWindow D.L r.1).visited then 0 else (σ r).lb p) } with hσ₃
  have hsp : ∀ r : Rank D.L, Work.Eqv D.L r.1 (σ₃ r).lb (spreadLocal D.bf D.elem (D.parts.zipIdx.map fun p =>
      (p.1.area, (D.data p.2 r.1).nb, (D.data p.2 r.1).surf.zipIdx.map fun s => (a.G r.1 p.2 s.2, s.1)))) := fun r => by
    show Work.Eqv D.L r.1 (Work.spreadFrom D.bf D.elem (D.parts.zipIdx.map fun p =>
      (p.1.area, (σ r).nb.getD p.2 0, ((σ r).surf p.2).zipIdx.map fun q => ((σ r).g p.2 q.2, q.1))) _) _
    simp only [h.nb r, h.surf r, h.g r]
    exact spread_local D.L r.1 D.bf D.elem _ _ 0 (fill_zero D.L r.1 _)
  have e : ∃ σ₄, Exec (fun r => addToRhs D Lp slv r.1) σ₃ σ₄ ∧ Rel D Lp { a with rhs := (D.pieces slv).sl a.G } σ₄ :=
    ⟨_, exec_addToRhs _, h.flags, h.x, assemble_holds D.L _ _ 0 _ (holds_zero D.L) hsp, fun _ _ _ => rfl,
      h.sol1, h.sol2, h.surf, h.radial, h.nb, h.num, h.g, h.mean, h.cross⟩
  obtain ⟨σ₄, e4, h4⟩ := e
  obtain ⟨σ₅, e5, h5⟩ := exec_null hG _ σ₄ h4
  refine ⟨σ₅, exec_cons (exec_loc _ _) (exec_cons (exec_fill _) (exec_cons ?_ (exec_cons e4 (exec_cons e5 (exec_nil _))))), h5⟩
  exact exec_loc _ _

end Cafes.Spmd
