/-
What the memories of the processes say of the vectors they share, and the first programs: right-hand sides.
-/
import Verif.Lemmas.SpmdOps

namespace Cafes.Spmd
open Cafes Cafes.Particle Cafes.Driver Cafes.Geometry Cafes.Props

section
variable {ι : Type} {C : Comm ι} {S : Type} [DecidableEq ι] [Fintype ι]

theorem exec_cons {p : ι → Stmt C S} {l : ι → List (Stmt C S)} {σ σ₁ σ₂ : ι → S} (h1 : Exec p σ σ₁)
    (h2 : Exec (fun i => seqs (l i)) σ₁ σ₂) : Exec (fun i => seqs (p i :: l i)) σ σ₂ := exec_seq h1 h2

theorem exec_nil (σ : ι → S) : Exec (C := C) (fun _ => seqs []) σ σ := exec_skip σ

end

variable {d N : ℕ} {A : Type}

/-- Every process holds the values of the vector `x` of the mesh `Lp` at the nodes that it owns. -/
def HoldsP {n : ℕ} (L Lp : Fin d → Dir) (v : Rank L → NodeVec d n ℝ) (x : NodeVec d n ℝ) : Prop :=
  ∀ r : Rank L, ∀ p ∈ (getDMBounds Lp r.1 false).halfOpen, v r p = x p

theorem glueP_apply {n : ℕ} (L Lp : Fin d → Dir) (hp : procs L = procs Lp) (hL : ∀ i, (Lp i).WF)
    (v : Rank L → NodeVec d n ℝ) (x : NodeVec d n ℝ) (h : HoldsP L Lp v x) (g : Pos d ℤ) (hg : g ∈ gridNodes Lp) :
    glue Lp (everywhere L v) g = x g := by
  funext c
  obtain ⟨r, ⟨hr, hgr⟩, -⟩ := owner_unique Lp hL g ((mem_gridNodes Lp g).1 hg)
  have hgr' : g ∈ (getDMBounds Lp r false).halfOpen := (mem_ownBox Lp r g).2 hgr
  unfold glue
  rw [Finset.sum_eq_single r]
  · rw [if_pos ((Box.pointInside_iff _ _).2 hgr'), everywhere_apply L v ⟨r, hp ▸ hr⟩, h ⟨r, hp ▸ hr⟩ g hgr']
  · intro s hs hne
    refine if_neg fun hc => hne ?_
    exact owned_unique Lp hL g s r hs hr ((Box.pointInside_iff _ _).1 hc) hgr'
  · exact fun h => absurd hr h

/-- The vectors shared by the processes, each one as a whole. -/
structure Abs (d : ℕ) (A : Type) where
  fl : Flags
  X : (Fin d → ℕ) → ℕ → ℝ
  rhs : NodeVec d d ℝ × NodeVec d 1 ℝ
  sol : NodeVec d d ℝ × NodeVec d 1 ℝ
  G : SurfField d
  mean : (Fin d → ℕ) → List (Pos d ℝ)
  cross : (Fin d → ℕ) → List A

/-- The processes hold the parts of the shared vectors, and the surface points left by `set_materials`. -/
structure Rel (D : Setup d N A) (Lp : Fin d → Dir) (a : Abs d A) (σ : Rank D.L → Mem d A) : Prop where
  flags : ∀ r, (σ r).flags = a.fl
  x : ∀ r, (σ r).x = a.X r.1
  rhs1 : Holds D.L (fun r => (σ r).rhs.1) a.rhs.1
  rhs2 : HoldsP D.L Lp (fun r => (σ r).rhs.2) a.rhs.2
  sol1 : Holds D.L (fun r => (σ r).sol.1) a.sol.1
  sol2 : HoldsP D.L Lp (fun r => (σ r).sol.2) a.sol.2
  surf : ∀ r i, (σ r).surf i = (D.data i r.1).surf
  radial : ∀ r i, (σ r).radial i = (D.data i r.1).radial
  nb : ∀ r i, (σ r).nb.getD i 0 = (D.data i r.1).nb
  num : ∀ r i, (σ r).num.getD i 0 = (D.data i r.1).num
  g : ∀ r, (σ r).g = a.G r.1
  mean : ∀ r, (σ r).mean = a.mean r.1
  cross : ∀ r, (σ r).cross = a.cross r.1

/-- The data of a problem and what is asked of them. -/
structure Good (D : Setup d N A) (Lp : Fin d → Dir)
    (slv : NodeVec d d ℝ × NodeVec d 1 ℝ → NodeVec d d ℝ × NodeVec d 1 ℝ) : Prop where
  mesh : GoodMesh D.L
  pres : ∀ i, (Lp i).WF
  procs : procs D.L = procs Lp
  rs : AllProcs D.L D.rs
  elem : IsQ1 D.elem
  fluid : IsFluid D.fluid
  /-- the solver only looks at the values of the right-hand side at the nodes of the grids -/
  slv : ∀ b b', (∀ g ∈ gridNodes D.L, b.1 g = b'.1 g) → (∀ g ∈ gridNodes Lp, b.2 g = b'.2 g) → slv b = slv b'

theorem Good.wf {D : Setup d N A} {Lp : Fin d → Dir}
    {slv : NodeVec d d ℝ × NodeVec d 1 ℝ → NodeVec d d ℝ × NodeVec d 1 ℝ} (h : Good D Lp slv) : ∀ i, (D.L i).WF :=
  fun i => (h.mesh i).1

theorem holds_zero {n : ℕ} (L : Fin d → Dir) : Holds (n := n) L (fun _ _ _ => 0) 0 := fun _ _ _ => rfl

/-- The nodes where a process writes the control are its own. -/
theorem ownOp_control (L : Fin d → Dir) (hL : GoodMesh L) {fluid : (Pos d ℝ → Bool) → Box d ℤ → Pos d ℝ → List (Pos d ℤ)}
    (hf : IsFluid fluid) (r : Fin d → ℕ) (hr : r ∈ procs L) (h : Pos d ℝ) (px : ℕ → ℝ) (af : Bool)
    (parts : List (Part d A)) :
    OwnOp L r fun y => (Particle.setRhsImpl fluid (getDMBounds L r true) h px af parts y).2 := by
  have hin : ∀ p : Part d A, ∀ k ∈ partNodes fluid Box.overlap (getDMBounds L r true) h p,
      k ∈ (getDMBounds L r false).halfOpen := fun p k hk => by
    rw [overlap_eq_boxInside] at hk
    have := ((mem_partNodes hf L hL h p r hr k).1 hk).1
    intro i
    have := this i
    simp only [getDMBounds, Bool.false_and] at this ⊢
    refine ⟨this.1, ?_⟩
    split_ifs at this <;> simp at this ⊢ <;> omega
  refine ⟨fun y q hq => ?_, fun y y' hy q hq => ?_⟩
  · have := Work.foldl_rel (fun s (_ : ℕ × NodeVec d d ℝ) => s.2 q = y q) parts
      (fun s p => (partNodes fluid Box.overlap (getDMBounds L r true) h p).foldl (fun s ind =>
      (List.finRange d).foldl (fun s i =>
        (s.1 + 1, setAt s.2 ind i (if af then px s.1 + p.rho * p.force i else px s.1))) s) s)
      (fun s _ => s) (fun p _ s s' hs => ?_) (0, y) (0, y) rfl
    · exact this
    · refine Work.foldl_rel (fun s (_ : ℕ × NodeVec d d ℝ) => s.2 q = y q) _ _ (fun s _ => s) (fun k hk s s' hs => ?_) s s' hs
      refine Work.foldl_rel (fun s (_ : ℕ × NodeVec d d ℝ) => s.2 q = y q) _ _ (fun s _ => s) (fun i hi s s' hs => ?_) s s' hs
      have hne : q ≠ k := fun e => hq (e ▸ hin p k hk)
      show setAt s.2 k i _ q = y q
      rw [← hs]
      funext e
      simp only [setAt, hne, false_and, if_false]
  · have := Work.foldl_rel (fun (s s' : ℕ × NodeVec d d ℝ) => s.1 = s'.1 ∧
        ∀ p ∈ (getDMBounds L r false).halfOpen, s.2 p = s'.2 p) parts
      (fun s p => (partNodes fluid Box.overlap (getDMBounds L r true) h p).foldl (fun s ind =>
      (List.finRange d).foldl (fun s i =>
        (s.1 + 1, setAt s.2 ind i (if af then px s.1 + p.rho * p.force i else px s.1))) s) s)
      (fun s p => (partNodes fluid Box.overlap (getDMBounds L r true) h p).foldl (fun s ind =>
      (List.finRange d).foldl (fun s i =>
        (s.1 + 1, setAt s.2 ind i (if af then px s.1 + p.rho * p.force i else px s.1))) s) s)
      (fun p _ s s' hs => ?_) (0, y) (0, y') ⟨rfl, hy⟩
    · exact this.2 q hq
    · refine Work.foldl_rel (fun (s s' : ℕ × NodeVec d d ℝ) => s.1 = s'.1 ∧
        ∀ p ∈ (getDMBounds L r false).halfOpen, s.2 p = s'.2 p) _ _ _ (fun k hk s s' hs => ?_) s s' hs
      refine Work.foldl_rel (fun (s s' : ℕ × NodeVec d d ℝ) => s.1 = s'.1 ∧
        ∀ p ∈ (getDMBounds L r false).halfOpen, s.2 p = s'.2 p) _ _ _ (fun i hi s s' hs => ?_) s s' hs
      refine ⟨congrArg (· + 1) hs.1, fun p hp => ?_⟩
      funext e
      show setAt s.2 k i _ p e = setAt s'.2 k i _ p e
      simp only [setAt, hs.1, hs.2 p hp]

section
set_option linter.unusedSectionVars false
variable [AddCommGroup A] [Module ℝ A] {D : Setup d N A} {Lp : Fin d → Dir}
  {slv : NodeVec d d ℝ × NodeVec d 1 ℝ → NodeVec d d ℝ × NodeVec d 1 ℝ}

theorem exec_ghosts (send : Rank D.L → Mem d A → NodeVec d d ℝ) (σ : Rank D.L → Mem d A) :
    Exec (fun r => readGhosts D Lp slv r.1 (send r)) σ fun r =>
      { σ r with la := fun p => if p ∈ (ghostWindow D.L r.1).visited then
          globalToLocal D.L (glue D.L (everywhere D.L fun j => send j (σ j))) p else (σ r).la p } :=
  exec_coll (C := comm (A := A) D.L Lp slv) Kind.ghosts _ _ _ σ 0 fun _ => rfl

theorem exec_fill (σ : Rank D.L → Mem d A) :
    Exec (fun r => fillLocal D Lp slv r.1) σ fun r =>
      { σ r with lb := fun p => if p ∈ (ghostWindow D.L r.1).visited then 0 else (σ r).lb p } :=
  exec_loc _ σ

theorem exec_mass (σ : Rank D.L → Mem d A) :
    Exec (fun r => massLocal D Lp slv r.1) σ fun r =>
      { σ r with lb := diagBlockMult D.L D.elem D.M r.1 (σ r).la (σ r).lb } :=
  exec_loc _ σ

theorem exec_addToRhs (σ : Rank D.L → Mem d A) :
    Exec (fun r => addToRhs D Lp slv r.1) σ fun r =>
      { σ r with rhs := (ownPart D.L r.1 (fun p c => (σ r).rhs.1 p c +
          localToGlobalAdd D.L (everywhere D.L fun j => (σ j).lb) 0 p c) (σ r).rhs.1, (σ r).rhs.2) } :=
  exec_coll (C := comm (A := A) D.L Lp slv) Kind.assemble _ _ _ σ 0 fun _ => rfl

theorem exec_addToMass (σ : Rank D.L → Mem d A) :
    Exec (C := comm (A := A) D.L Lp slv) (fun r => .coll Kind.assemble (fun _ => 0) (fun s => s.lb)
      fun s (v : NodeVec d d ℝ) => { s with mm := ownPart D.L r.1 (fun p c => s.mm p c + v p c) s.mm }) σ fun r =>
      { σ r with mm := ownPart D.L r.1 (fun p c => (σ r).mm p c +
          localToGlobalAdd D.L (everywhere D.L fun j => (σ j).lb) 0 p c) (σ r).mm } :=
  exec_coll (C := comm (A := A) D.L Lp slv) Kind.assemble _ _ _ σ 0 fun _ => rfl

theorem fill_zero (L : Fin d → Dir) (r : Fin d → ℕ) (old : NodeVec d d ℝ) :
    Work.Eqv L r (fun p => if p ∈ (ghostWindow L r).visited then 0 else old p) 0 := fun p hp => if_pos hp

/-- `set_rhs`. -/
theorem exec_setRhs (hG : Good D Lp slv) (a : Abs d A) (σ : Rank D.L → Mem d A) (h : Rel D Lp a σ) :
    ∃ σ', Exec (fun r => setRhsProg D Lp slv r.1) σ σ' ∧
      Rel D Lp { a with rhs := (setRhs D.L D.rs D.src D.h (diagBlockMult D.L D.elem D.M) a.rhs.1, a.rhs.2) } σ' := by
  refine ⟨_, exec_cons (exec_loc _ _) (exec_cons (exec_loc _ _) (exec_cons (exec_ghosts _ _) (exec_cons (exec_fill _)
    (exec_cons (exec_mass _) (exec_cons (exec_addToRhs _) (exec_nil _)))))), ?_⟩
  refine ⟨h.flags, h.x, ?_, h.rhs2, h.sol1, h.sol2, h.surf, h.radial, h.nb, h.num, h.g, h.mean, h.cross⟩
  have ht := holds_foldl D.L hG.wf D.rs hG.rs (fun r y => Cafes.setRhsImpl D.L r D.src D.h y)
    (fun r _ => ownOp_source D.L r D.src D.h) _ _ (holds_zero D.L)
  exact assemble_holds D.L _ _ _ _ h.rhs1 fun r => Work.diagBlock_local D.L hG.wf D.elem hG.elem D.M r.1 r.2 _ _ _ _
    (ghosts_eqv D.L hG.wf _ _ _ ht r) (fill_zero D.L r.1 _)

/-- `SetDirichletOnRHS`. -/
theorem exec_bc (hG : Good D Lp slv) (a : Abs d A) (σ : Rank D.L → Mem d A) (h : Rel D Lp a σ) :
    ∃ σ', Exec (fun r => bcProg D Lp slv r.1) σ σ' ∧
      Rel D Lp { a with rhs := (setDirichletOnRHS D.L D.rs D.bc D.h a.rhs.1, a.rhs.2) } σ' := by
  refine ⟨_, exec_loc _ _, ?_⟩
  refine ⟨h.flags, h.x, ?_, h.rhs2, h.sol1, h.sol2, h.surf, h.radial, h.nb, h.num, h.g, h.mean, h.cross⟩
  exact holds_foldl D.L hG.wf D.rs hG.rs (fun r y => setDirichletImpl D.L r D.bc (kernelFuncOnBC D.h) y)
    (fun r hr => ownOp_dirichlet D.L hG.wf r hr _ _) _ _ h.rhs1

/-- `SetNullDirichletOnRHS`. -/
theorem exec_null (hG : Good D Lp slv) (a : Abs d A) (σ : Rank D.L → Mem d A) (h : Rel D Lp a σ) :
    ∃ σ', Exec (fun r => nullProg D Lp slv r.1) σ σ' ∧
      Rel D Lp { a with rhs := (setNullDirichletOnRHS D.L D.rs D.bc a.rhs.1, a.rhs.2) } σ' := by
  refine ⟨_, exec_loc _ _, ?_⟩
  refine ⟨h.flags, h.x, ?_, h.rhs2, h.sol1, h.sol2, h.surf, h.radial, h.nb, h.num, h.g, h.mean, h.cross⟩
  exact holds_foldl D.L hG.wf D.rs hG.rs (fun r y => setDirichletImpl D.L r D.bc (kernelConstOnBC 0) y)
    (fun r hr => ownOp_dirichlet D.L hG.wf r hr _ _) _ _ h.rhs1

/-- `stokes::setup_RHS`. -/
theorem exec_setup (hG : Good D Lp slv) (a : Abs d A) (σ : Rank D.L → Mem d A) (h : Rel D Lp a σ) :
    ∃ σ', Exec (fun r => setupRhsProg D Lp slv r.1) σ σ' ∧
      Rel D Lp { a with rhs := setupRHSFluid (D.pieces slv) a.rhs } σ' := by
  cases hs : hasCondition D.src with
  | true =>
    obtain ⟨σ₁, e1, h1⟩ := exec_setRhs hG a σ h
    obtain ⟨σ₂, e2, h2⟩ := exec_bc hG _ σ₁ h1
    refine ⟨σ₂, exec_cons (exec_ite _ _ _ _ _ true (fun _ => hs) e1) (exec_cons e2 (exec_nil _)), ?_⟩
    rw [pieces_setupRHS]
    unfold stokesSetupRHS
    rw [hs]
    exact h2
  | false =>
    obtain ⟨σ₂, e2, h2⟩ := exec_bc hG a σ h
    refine ⟨σ₂, exec_cons (exec_ite _ _ _ _ _ false (fun _ => hs) (exec_skip _)) (exec_cons e2 (exec_nil _)), ?_⟩
    rw [pieces_setupRHS]
    unfold stokesSetupRHS
    rw [hs]
    exact h2

/-- `add_singularity_in_fluid`. -/
theorem exec_inFluid (a : Abs d A) (σ : Rank D.L → Mem d A) (h : Rel D Lp a σ) :
    ∃ σ', Exec (fun r => inFluidProg D Lp slv r.1) σ σ' ∧
      Rel D Lp { a with rhs := a.rhs + (D.pieces slv).sing } σ' := by
  refine ⟨_, exec_cons (exec_fill _) (exec_cons (exec_loc _ _) (exec_cons (exec_addToRhs _) (exec_nil _))), ?_⟩
  rw [pieces_sing]
  refine ⟨h.flags, h.x, ?_, h.rhs2, h.sol1, h.sol2, h.surf, h.radial, h.nb, h.num, h.g, h.mean, h.cross⟩
  exact assemble_holds D.L _ _ _ _ h.rhs1 fun r =>
    pairs_local D.L r.1 _ _ _ _ (stKernel_local D.L r.1 D.bfg D.elem _) _ _ 0 (fill_zero D.L r.1 _)

/-- `set_rhs_problem`. -/
theorem exec_control (hG : Good D Lp slv) (af : Mem d A → Bool) (b : Bool) (a : Abs d A) (σ : Rank D.L → Mem d A)
    (h : Rel D Lp a σ) (haf : ∀ s : Mem d A, s.flags = a.fl → af s = b) :
    ∃ σ', Exec (fun r => controlProg D Lp slv r.1 af) σ σ' ∧
      Rel D Lp { a with rhs := a.rhs + ((D.pieces slv).ctl a.X + if b then (D.pieces slv).ext else 0) } σ' := by
  refine ⟨_, exec_cons (exec_loc _ _) (exec_cons (exec_loc _ _) (exec_cons (exec_loc _ _) (exec_cons (exec_ghosts _ _)
    (exec_cons (exec_fill _) (exec_cons (exec_mass _) (exec_cons (exec_addToMass _)
      (exec_cons (exec_loc _ _) (exec_nil _)))))))), ?_⟩
  rw [pieces_ctl]
  refine ⟨h.flags, h.x, ?_, h.rhs2, h.sol1, h.sol2, h.surf, h.radial, h.nb, h.num, h.g, h.mean, h.cross⟩
  have ht := holds_foldl D.L hG.wf D.rs hG.rs (fun r y => (Particle.setRhsImpl D.fluid (getDMBounds D.L r true) D.h (a.X r) b
      D.parts y).2) (fun r hr => ownOp_control D.L hG.mesh hG.fluid r hr _ _ _ _) _ _ (holds_zero D.L)
  have ht' : Holds D.L (fun r => (Particle.setRhsImpl D.fluid (getDMBounds D.L r.1 true) D.h (σ r).x (af
      { σ r with tmp := fun _ _ => 0 }) D.parts fun _ _ => 0).2) (controlField D.fluid D.L D.rs D.h a.X b D.parts) := by
    intro r p hp
    refine Eq.trans ?_ (ht r p hp)
    beta_reduce
    rw [h.x r, haf { σ r with tmp := fun _ _ => 0 } (h.flags r)]
  have hm := assemble_holds D.L (fun _ _ _ => 0) (fun r => diagBlockMult D.L D.elem D.M r.1
      (fun p => if p ∈ (ghostWindow D.L r.1).visited then globalToLocal D.L (glue D.L (everywhere D.L fun r =>
        (Particle.setRhsImpl D.fluid (getDMBounds D.L r.1 true) D.h (σ r).x (af
      { σ r with tmp := fun _ _ => 0 }) D.parts fun _ _ => 0).2)) p else (σ r).la p)
      (fun p => if p ∈ (ghostWindow D.L r.1).visited then 0 else (σ r).lb p)) 0
    (fun r => diagBlockMult D.L D.elem D.M r (globalToLocal D.L (controlField D.fluid D.L D.rs D.h a.X b D.parts)) 0)
    (holds_zero D.L) fun r => Work.diagBlock_local D.L hG.wf D.elem hG.elem D.M r.1 r.2 _ _ _ _
    (ghosts_eqv D.L hG.wf _ _ (σ r).la ht' r) (fill_zero D.L r.1 (σ r).lb)
  intro r p hp
  funext c
  exact congrArg₂ (· + ·) (congrFun (h.rhs1 r p hp) c) (congrFun (hm r p hp) c)

end
end Cafes.Spmd
