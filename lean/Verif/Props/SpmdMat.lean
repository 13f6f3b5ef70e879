/-
C117: an iterative method that works on the matrix-free operators gives the same results on any number of processes,
whatever the order of their steps.
-/
import Verif.Lemmas.SpmdMat

namespace Cafes.Spmd
open Cafes Cafes.Props

variable {d NP NV : ℕ}

/-- C117: a method made of products with the matrix-free operators, reductions, operations entry by entry and tests on
the scalars, started from any parts of any vectors, with anything in the work arrays: no schedule of the processes is
longer than `n` steps, none gets stuck, and at the end of every schedule the processes hold the parts of what the method
computes on whole vectors. -/
theorem C117_run (S : FluidOps d NP NV) (hS : GoodOps S) [Nonempty (Rank S.Lv)] (a : Ins d) (ha : a.Valid S) (w : Whole d)
    (σ : Rank S.Lv → MMem d) (hσ : Parts S w σ) :
    ∃ n, ∀ m b, Run m (start (fun r => a.prog S r.1) σ) b →
      m ≤ n ∧ (Done b ∨ ∃ b', Step b b') ∧ (Done b → Parts S (a.run S w) fun r => (b r).1) := by
  obtain ⟨σ', e, h⟩ := trip_ins hS a ha w σ hσ
  obtain ⟨n, hn⟩ := exec_all e
  refine ⟨n, fun m b hb => ⟨(hn m b hb).1, (hn m b hb).2.1, fun hd => ?_⟩⟩
  have : (fun r => (b r).1) = σ' := funext fun r => (hn m b hb).2.2 hd r
  rw [this]
  exact h

/-! ### The number of processes -/

theorem sameGrid_nodes {L L' : Fin d → Dir} (hs : SameGrid L L') : gridNodes L = gridNodes L' := by
  unfold gridNodes
  refine congrArg _ (funext fun i => ?_)
  rw [(hs i).1]

theorem onFace_same {L L' : Fin d → Dir} (hs : SameGrid L L') (g : Pos d ℤ) (f : ℕ) : OnFace L g f ↔ OnFace L' g f := by
  unfold OnFace
  refine exists_congr fun i => ?_
  rw [(hs i).1, (hs i).2]

theorem dirichlet_same {L L' : Fin d → Dir} (hs : SameGrid L L') (hL : ∀ i, (L i).WF) (hL' : ∀ i, (L' i).WF)
    (rs rs' : List (Fin d → ℕ)) (hrs : AllProcs L rs) (hrs' : AllProcs L' rs') (bc : BC d ℝ) (x y : NodeVec d d ℝ) :
    setDirichletOnVec L rs bc x y = setDirichletOnVec L' rs' bc x y := by
  classical
  funext g c
  rw [C25_vec L hL rs hrs, C25_vec L' hL' rs' hrs']
  refine if_congr ?_ rfl rfl
  rw [sameGrid_nodes hs]
  refine and_congr_right fun _ => exists_congr fun f => and_congr_left fun _ => onFace_same hs g f

/-- Two distributions of one problem: the operators on whole vectors are the same. -/
structure SameOps (S S' : FluidOps d NP NV) : Prop where
  nodesV : gridNodes S.Lv = gridNodes S'.Lv
  nodesP : gridNodes S.Lp = gridNodes S'.Lp
  stokes : ∀ x1 x2, stokesMatrixBC S.Lv S.Lp S.rs S.bc S.apply S.elemP S.elemV S.B x1 x2 =
    stokesMatrixBC S'.Lv S'.Lp S'.rs S'.bc S'.apply S'.elemP S'.elemV S'.B x1 x2
  block : ∀ x, blockMatrixBC S.Lv S.rs S.bc S.apply x = blockMatrixBC S'.Lv S'.rs S'.bc S'.apply x
  massV : ∀ x, blockMatrix S.Lv S.massV x = blockMatrix S'.Lv S'.massV x
  massP : ∀ x, blockMatrix S.Lp S.massP x = blockMatrix S'.Lp S'.massP x
  diag : diagMatrix S.Lv S.applyDiag = diagMatrix S'.Lv S'.applyDiag

theorem run_same {S S' : FluidOps d NP NV} (h : SameOps S S') : ∀ (a : Ins d) (w : Whole d), a.run S w = a.run S' w
  | .stokes i j, w => by unfold Ins.run; rw [h.stokes]
  | .block i j, w => by unfold Ins.run; rw [h.block]
  | .mass i j, w => by unfold Ins.run; rw [h.massV, h.massP]
  | .diag j, w => by unfold Ins.run; rw [h.diag]
  | .ext F i j, w => rfl
  | .reduce fV fP k, w => by unfold Ins.run; rw [h.nodesV, h.nodesP]
  | .node fV fP j, w => rfl
  | .set f k, w => rfl
  | .skip, w => rfl
  | .seq a b, w => by unfold Ins.run; rw [run_same h a, run_same h b]
  | .ite c a b, w => by unfold Ins.run; rw [run_same h a, run_same h b]
  | .rep n a, w => by
    unfold Ins.run
    rw [show a.run S = a.run S' from funext fun w => run_same h a w]

theorem valid_same {S S' : FluidOps d NP NV} (h : SameOps S S') : ∀ a : Ins d, a.Valid S → a.Valid S'
  | .stokes _ _, ha => ha
  | .block _ _, ha => ha
  | .mass _ _, ha => ha
  | .diag _, _ => trivial
  | .ext F i j, ha => fun x x' h1 h2 => ha x x' (by rw [h.nodesV]; exact h1) (by rw [h.nodesP]; exact h2)
  | .reduce _ _ _, _ => trivial
  | .node _ _ _, _ => trivial
  | .set _ _, _ => trivial
  | .skip, _ => trivial
  | .seq a b, ha => ⟨valid_same h a ha.1, valid_same h b ha.2⟩
  | .ite _ a b, ha => ⟨valid_same h a ha.1, valid_same h b ha.2⟩
  | .rep _ a, ha => valid_same h a ha

/-- Two ends of the method on two distributions: the same values at every node, on the processes that own it, and the
same scalars. -/
def SameResults (S S' : FluidOps d NP NV) (σ : Rank S.Lv → MMem d) (σ' : Rank S'.Lv → MMem d) : Prop :=
  (∀ i r r' g, g ∈ (getDMBounds S.Lv r.1 false).halfOpen → g ∈ (getDMBounds S'.Lv r'.1 false).halfOpen →
    ((σ r).v i).1 g = ((σ' r').v i).1 g) ∧
  (∀ i r r' g, g ∈ (getDMBounds S.Lp r.1 false).halfOpen → g ∈ (getDMBounds S'.Lp r'.1 false).halfOpen →
    ((σ r).v i).2 g = ((σ' r').v i).2 g) ∧
  ∀ r r', (σ r).s = (σ' r').s

theorem same_results {S S' : FluidOps d NP NV} (hS : GoodOps S) (hS' : GoodOps S') (h : SameOps S S')
    [Nonempty (Rank S.Lv)] [Nonempty (Rank S'.Lv)] (a : Ins d) (ha : a.Valid S) (w : Whole d)
    (σ : Rank S.Lv → MMem d) (hσ : Parts S w σ) (σ' : Rank S'.Lv → MMem d) (hσ' : Parts S' w σ') (m m' : ℕ) (b b')
    (hb : Run m (start (fun r => a.prog S r.1) σ) b) (hd : Done b)
    (hb' : Run m' (start (fun r => a.prog S' r.1) σ') b') (hd' : Done b') :
    SameResults S S' (fun r => (b r).1) fun r => (b' r).1 := by
  obtain ⟨n, hn⟩ := C117_run S hS a ha w σ hσ
  obtain ⟨n', hn'⟩ := C117_run S' hS' a (valid_same h a ha) w σ' hσ'
  have p := (hn m b hb).2.2 hd
  have p' := (hn' m' b' hb').2.2 hd'
  rw [← run_same h a w] at p'
  exact ⟨fun i r r' g hg hg' => (p.velocity i r g hg).trans (p'.velocity i r' g hg').symm,
    fun i r r' g hg hg' => (p.pressure i r g hg).trans (p'.pressure i r' g hg').symm,
    fun r r' => (p.scalars r).trans (p'.scalars r').symm⟩

/-! ### The operators of the library -/

/-- The operators of a fluid problem on the mesh of `createMesh` (cafes/problem/stokes.hpp:246-308): the strain tensor
or the Laplacian, the diagonal of the Laplacian, the mass matrices, the conditions. -/
noncomputable def opsOf (N : Fin d → ℤ) (per : Fin d → Bool) (lx : Fin d → List ℤ) (bc : BC d ℝ) (strain : Bool)
    (elemP : Pos d ℤ → Fin NP → Pos d ℤ) (elemV : Pos d ℤ → Fin NV → Pos d ℤ)
    (T : Fin NP → Fin NP → Fin d → Fin d → ℝ) (A Mv Mp : Fin NP → Fin NP → ℝ) (B : Fin NP → Fin NV → Fin d → ℝ) :
    FluidOps d NP NV where
  Lv := velLayout N per lx
  Lp := presLayout N per lx
  rs := (procs (velLayout N per lx)).toList
  bc := bc
  apply := if strain then tensorBlockMult (velLayout N per lx) elemP T else diagBlockMult (velLayout N per lx) elemP A
  applyDiag := diagDiagBlockMult (velLayout N per lx) elemP A
  massV := diagBlockMult (velLayout N per lx) elemP Mv
  massP := diagBlockMult (presLayout N per lx) elemP Mp
  elemP := elemP
  elemV := elemV
  B := B

/-- The problems of the library in 2D. -/
noncomputable def ops2 (N : Fin 2 → ℤ) (per : Fin 2 → Bool) (lx : Fin 2 → List ℤ) (bc : BC 2 ℝ) (h : Pos 2 ℝ)
    (strain : Bool) : FluidOps 2 4 9 :=
  opsOf N per lx bc strain getElement2 getElement4Q1_2 (matElemStrain2 h) (matElemLaplacian2 h) (matElemMass2 h)
    (matElemMass2 (forEachByValue (fun t => t * 2) h)) (matElemPressure2 h)

/-- The problems of the library in 3D. -/
noncomputable def ops3 (N : Fin 3 → ℤ) (per : Fin 3 → Bool) (lx : Fin 3 → List ℤ) (bc : BC 3 ℝ) (h : Pos 3 ℝ)
    (strain : Bool) : FluidOps 3 8 27 :=
  opsOf N per lx bc strain getElement3 getElement4Q1_3 (matElemStrain3 h) (matElemLaplacian3 h) (matElemMass3 h)
    (matElemMass3 (forEachByValue (fun t => t * 2) h)) (matElemPressure3 h)

theorem allProcs_toList (L : Fin d → Dir) : AllProcs L (procs L).toList :=
  ⟨Finset.nodup_toList _, fun _ => Finset.mem_toList⟩

theorem good_ops (N : Fin d → ℤ) (per : Fin d → Bool) (lx : Fin d → List ℤ) (hne : ∀ i, lx i ≠ [])
    (hW : ∀ i, (presLayout N per lx i).WF) (bc : BC d ℝ) (strain : Bool)
    (elemP : Pos d ℤ → Fin NP → Pos d ℤ) (elemV : Pos d ℤ → Fin NV → Pos d ℤ)
    (T : Fin NP → Fin NP → Fin d → Fin d → ℝ) (A Mv Mp : Fin NP → Fin NP → ℝ) (B : Fin NP → Fin NV → Fin d → ℝ)
    (hel : IsQ1 elemP) (off : Fin NV → Fin d → Fin 3) (hoff : Is4Q1 elemV off) :
    GoodOps (opsOf N per lx bc strain elemP elemV T A Mv Mp B) := by
  have hv := velLayout_wf N per lx hne hW
  refine ⟨hv, hW, procs_layout N per lx, allProcs_toList _, ?_,
    fun r _ y y' hy => Work.diagDiag_local (velLayout N per lx) elemP A r y y' hy,
    Work.diagBlock_local (velLayout N per lx) hv elemP hel Mv, Work.diagBlock_local (presLayout N per lx) hW elemP hel Mp,
    off_ready N per lx hne hW elemP elemV hel off hoff⟩
  show Work.LocalOp (velLayout N per lx)
    (if strain then tensorBlockMult (velLayout N per lx) elemP T else diagBlockMult (velLayout N per lx) elemP A)
  split
  · exact Work.tensorBlock_local (velLayout N per lx) hv elemP hel T
  · exact Work.diagBlock_local (velLayout N per lx) hv elemP hel A

theorem same_ops (N : Fin d → ℤ) (per : Fin d → Bool) (lx lx' : Fin d → List ℤ) (hne : ∀ i, lx i ≠ [])
    (hW : ∀ i, (presLayout N per lx i).WF) (hne' : ∀ i, lx' i ≠ []) (hW' : ∀ i, (presLayout N per lx' i).WF)
    (bc : BC d ℝ) (strain : Bool)
    (elemP : Pos d ℤ → Fin NP → Pos d ℤ) (elemV : Pos d ℤ → Fin NV → Pos d ℤ)
    (T : Fin NP → Fin NP → Fin d → Fin d → ℝ) (A Mv Mp : Fin NP → Fin NP → ℝ) (B : Fin NP → Fin NV → Fin d → ℝ)
    (hel : IsQ1 elemP) (off : Fin NV → Fin d → Fin 3) (hoff : Is4Q1 elemV off) :
    SameOps (opsOf N per lx bc strain elemP elemV T A Mv Mp B) (opsOf N per lx' bc strain elemP elemV T A Mv Mp B) := by
  have hv := velLayout_wf N per lx hne hW
  have hv' := velLayout_wf N per lx' hne' hW'
  have sv := sameGrid_vel N per lx lx'
  have sp := sameGrid_pres N per lx lx'
  have diagB : ∀ (n : ℕ) (L L' : Fin d → Dir) (_ : ∀ i, (L i).WF) (_ : ∀ i, (L' i).WF) (_ : SameGrid L L')
      (M : Fin NP → Fin NP → ℝ) (x : NodeVec d n ℝ),
      blockMatrix L (diagBlockMult L elemP M) x = blockMatrix L' (diagBlockMult L' elemP M) x :=
    fun n L L' hL hL' hs M x => by
      funext g c
      rw [diagBlock_global L hL _ hel, diagBlock_global L' hL' _ hel, sameGrid_elems hs, sameGrid_wrap hs]
  have vis : ∀ x : NodeVec d d ℝ, blockMatrix (velLayout N per lx)
        (if strain then tensorBlockMult (velLayout N per lx) elemP T else diagBlockMult (velLayout N per lx) elemP A) x =
      blockMatrix (velLayout N per lx')
        (if strain then tensorBlockMult (velLayout N per lx') elemP T else diagBlockMult (velLayout N per lx') elemP A) x := by
    intro x
    cases strain
    · exact diagB d _ _ hv hv' sv A x
    · funext g c
      exact (tensorBlock_global _ hv _ hel T x g c).trans (by
        rw [sameGrid_elems sv, sameGrid_wrap sv]; exact (tensorBlock_global _ hv' _ hel T x g c).symm)
  have bcs := fun x y => dirichlet_same sv hv hv' (procs (velLayout N per lx)).toList (procs (velLayout N per lx')).toList
    (allProcs_toList _) (allProcs_toList _) bc x y
  refine ⟨sameGrid_nodes sv, sameGrid_nodes sp, fun x1 x2 => ?_, fun x => ?_, fun x => diagB d _ _ hv hv' sv Mv x,
    fun x => diagB 1 _ _ hW hW' sp Mp x, ?_⟩
  · refine Prod.ext ?_ ?_
    · refine (bcs _ _).trans (congrArg _ (funext fun g => funext fun c => ?_))
      refine (vel_out N per lx hne hW _ _ hel _ hoff _ _ x1 x2 g c).trans ?_
      refine Eq.trans ?_ (vel_out N per lx' hne' hW' _ _ hel _ hoff _ _ x1 x2 g c).symm
      rw [sameGrid_elems sp, sameGrid_wrap sv, sameGrid_wrap sp]
      exact congrArg₂ (· + ·) (congrFun (congrFun (vis x1) g) c) rfl
    · funext g c
      refine (pres_out N per lx hne hW _ _ hel _ hoff _ _ x1 x2 g c).trans ?_
      refine Eq.trans ?_ (pres_out N per lx' hne' hW' _ _ hel _ hoff _ _ x1 x2 g c).symm
      rw [sameGrid_elems sp, sameGrid_wrap sv, sameGrid_wrap sp]
      rfl
  · exact (bcs _ _).trans (congrArg _ (vis x))
  · funext g c
    refine (diagDiag_global _ hv _ hel A g c).trans ?_
    rw [sameGrid_elems sv, sameGrid_wrap sv]
    exact (diagDiag_global _ hv' _ hel A g c).symm

theorem rank_nonempty (N : Fin d → ℤ) (per : Fin d → Bool) (lx : Fin d → List ℤ) (hne : ∀ i, lx i ≠ []) :
    Nonempty (Rank (velLayout N per lx)) := by
  refine ⟨⟨0, ?_⟩⟩
  rw [procs_layout, mem_procs]
  exact fun i => List.length_pos_iff.2 (hne i)

/-- C117 (the library, 2D): the method `a` on the processes of `lx` and on the processes of `lx'`, under any schedules,
from parts of the same vectors: the schedules end, and they leave the same value at every node and the same scalars. -/
theorem C117_processes2 (N : Fin 2 → ℤ) (per : Fin 2 → Bool) (lx lx' : Fin 2 → List ℤ) (hne : ∀ i, lx i ≠ [])
    (hW : ∀ i, (presLayout N per lx i).WF) (hne' : ∀ i, lx' i ≠ []) (hW' : ∀ i, (presLayout N per lx' i).WF)
    (bc : BC 2 ℝ) (h : Pos 2 ℝ) (strain : Bool) (a : Ins 2) (ha : a.Valid (ops2 N per lx bc h strain)) (w : Whole 2)
    (σ) (hσ : Parts (ops2 N per lx bc h strain) w σ) (σ') (hσ' : Parts (ops2 N per lx' bc h strain) w σ') :
    (∃ n, ∀ m b, Run m (start (fun r => a.prog (ops2 N per lx bc h strain) r.1) σ) b →
      m ≤ n ∧ (Done b ∨ ∃ b', Step b b')) ∧
    ∀ m m' b b', Run m (start (fun r => a.prog (ops2 N per lx bc h strain) r.1) σ) b → Done b →
      Run m' (start (fun r => a.prog (ops2 N per lx' bc h strain) r.1) σ') b' → Done b' →
      SameResults (ops2 N per lx bc h strain) (ops2 N per lx' bc h strain) (fun r => (b r).1) fun r => (b' r).1 := by
  haveI : Nonempty (Rank (ops2 N per lx bc h strain).Lv) := rank_nonempty N per lx hne
  haveI : Nonempty (Rank (ops2 N per lx' bc h strain).Lv) := rank_nonempty N per lx' hne'
  have hS : GoodOps (ops2 N per lx bc h strain) := good_ops N per lx hne hW bc strain _ _ _ _ _ _ _ isQ1_2 _ is4Q1_2
  have hS' : GoodOps (ops2 N per lx' bc h strain) := good_ops N per lx' hne' hW' bc strain _ _ _ _ _ _ _ isQ1_2 _ is4Q1_2
  have hs : SameOps (ops2 N per lx bc h strain) (ops2 N per lx' bc h strain) :=
    same_ops N per lx lx' hne hW hne' hW' bc strain _ _ _ _ _ _ _ isQ1_2 _ is4Q1_2
  obtain ⟨n, hn⟩ := C117_run _ hS a ha w σ hσ
  exact ⟨⟨n, fun m b hb => ⟨(hn m b hb).1, (hn m b hb).2.1⟩⟩, fun m m' b b' hb hd hb' hd' =>
    same_results hS hS' hs a ha w σ hσ σ' hσ' m m' b b' hb hd hb' hd'⟩

/-- C117 (the library, 3D). -/
theorem C117_processes3 (N : Fin 3 → ℤ) (per : Fin 3 → Bool) (lx lx' : Fin 3 → List ℤ) (hne : ∀ i, lx i ≠ [])
    (hW : ∀ i, (presLayout N per lx i).WF) (hne' : ∀ i, lx' i ≠ []) (hW' : ∀ i, (presLayout N per lx' i).WF)
    (bc : BC 3 ℝ) (h : Pos 3 ℝ) (strain : Bool) (a : Ins 3) (ha : a.Valid (ops3 N per lx bc h strain)) (w : Whole 3)
    (σ) (hσ : Parts (ops3 N per lx bc h strain) w σ) (σ') (hσ' : Parts (ops3 N per lx' bc h strain) w σ') :
    (∃ n, ∀ m b, Run m (start (fun r => a.prog (ops3 N per lx bc h strain) r.1) σ) b →
      m ≤ n ∧ (Done b ∨ ∃ b', Step b b')) ∧
    ∀ m m' b b', Run m (start (fun r => a.prog (ops3 N per lx bc h strain) r.1) σ) b → Done b →
      Run m' (start (fun r => a.prog (ops3 N per lx' bc h strain) r.1) σ') b' → Done b' →
      SameResults (ops3 N per lx bc h strain) (ops3 N per lx' bc h strain) (fun r => (b r).1) fun r => (b' r).1 := by
  haveI : Nonempty (Rank (ops3 N per lx bc h strain).Lv) := rank_nonempty N per lx hne
  haveI : Nonempty (Rank (ops3 N per lx' bc h strain).Lv) := rank_nonempty N per lx' hne'
  have hS : GoodOps (ops3 N per lx bc h strain) := good_ops N per lx hne hW bc strain _ _ _ _ _ _ _ isQ1_3 _ is4Q1_3
  have hS' : GoodOps (ops3 N per lx' bc h strain) := good_ops N per lx' hne' hW' bc strain _ _ _ _ _ _ _ isQ1_3 _ is4Q1_3
  have hs : SameOps (ops3 N per lx bc h strain) (ops3 N per lx' bc h strain) :=
    same_ops N per lx lx' hne hW hne' hW' bc strain _ _ _ _ _ _ _ isQ1_3 _ is4Q1_3
  obtain ⟨n, hn⟩ := C117_run _ hS a ha w σ hσ
  exact ⟨⟨n, fun m b hb => ⟨(hn m b hb).1, (hn m b hb).2.1⟩⟩, fun m m' b b' hb hd hb' hd' =>
    same_results hS hS' hs a ha w σ hσ σ' hσ' m m' b b' hb hd hb' hd'⟩

/-! ### The residual that the processes see -/

/-- The end of a method: the product with the Stokes operator of the vector 0 into the vector 2, then the square of the
norm of the difference with the vector 1 into the scalar 0. -/
noncomputable def residualIns : Ins d := .seq (.stokes 0 2)
  (.reduce (fun _ _ _ v => (v 1 - v 2) ^ 2) (fun _ _ _ v => (v 1 - v 2) ^ 2) 0)

/-- C117 (residual): whatever the method did before, when a computation of the residual ends it, all the processes have
the same number, and it is the sum over all the nodes of the squares of the residual of the vectors that they hold. -/
theorem C117_residual (S : FluidOps d NP NV) (hS : GoodOps S) [Nonempty (Rank S.Lv)] (a : Ins d) (ha : a.Valid S)
    (w : Whole d) (σ : Rank S.Lv → MMem d) (hσ : Parts S w σ) (m : ℕ) (b)
    (hb : Run m (start (fun r => (Ins.seq a residualIns).prog S r.1) σ) b) (hd : Done b) :
    ∃ x f : Field d,
      (∀ r, ∀ p ∈ (getDMBounds S.Lv r.1 false).halfOpen, ((b r).1.v 0).1 p = x.1 p ∧ ((b r).1.v 1).1 p = f.1 p) ∧
      (∀ r, ∀ p ∈ (getDMBounds S.Lp r.1 false).halfOpen, ((b r).1.v 0).2 p = x.2 p ∧ ((b r).1.v 1).2 p = f.2 p) ∧
      ∀ r, (b r).1.s 0 =
        (∑ g ∈ gridNodes S.Lv, ∑ c, (f.1 g c -
          (stokesMatrixBC S.Lv S.Lp S.rs S.bc S.apply S.elemP S.elemV S.B x.1 x.2).1 g c) ^ 2) +
        ∑ g ∈ gridNodes S.Lp, ∑ c, (f.2 g c -
          (stokesMatrixBC S.Lv S.Lp S.rs S.bc S.apply S.elemP S.elemV S.B x.1 x.2).2 g c) ^ 2 := by
  obtain ⟨n, hn⟩ := C117_run S hS (Ins.seq a residualIns) ⟨ha, show (0 : ℕ) ≠ 2 by decide, trivial⟩ w σ hσ
  have p := (hn m b hb).2.2 hd
  refine ⟨(a.run S w).v 0, (a.run S w).v 1, fun r q hq => ⟨?_, ?_⟩, fun r q hq => ⟨?_, ?_⟩, fun r => ?_⟩
  · exact p.velocity 0 r q hq
  · exact p.velocity 1 r q hq
  · exact p.pressure 0 r q hq
  · exact p.pressure 1 r q hq
  · exact congrFun (p.scalars r) 0

/-! ### The hypotheses are met -/

/-- The conjugate gradient method on the velocity operator: the vectors 0 to 4 are the iterate, the right-hand side, the
residual, the direction and the product; at most `n` iterations, while the square of the residual is above `tol`. -/
noncomputable def cgIns (n : ℕ) (tol : ℝ) : Ins d :=
  let z : (ℕ → ℝ) → Pos d ℤ → Fin 1 → (ℕ → ℝ) → ℝ := fun _ _ _ _ => 0
  .seq (.block 0 4) <| .seq (.node (fun _ _ _ v => v 1 - v 4) z 2) <| .seq (.node (fun _ _ _ v => v 2) z 3) <|
  .seq (.reduce (fun _ _ _ v => v 2 ^ 2) z 0) <|
  .rep n <| .ite (fun s => decide (s 0 ≤ tol)) .skip <|
    .seq (.block 3 4) <| .seq (.reduce (fun _ _ _ v => v 3 * v 4) z 1) <|
    .seq (.node (fun s _ _ v => v 0 + s 0 / s 1 * v 3) z 0) <| .seq (.node (fun s _ _ v => v 2 - s 0 / s 1 * v 4) z 2) <|
    .seq (.reduce (fun _ _ _ v => v 2 ^ 2) z 2) <| .seq (.node (fun s _ _ v => v 2 + s 2 / s 0 * v 3) z 3) <|
    .set (fun s => s 2) 0

theorem cg_valid (S : FluidOps d NP NV) (n : ℕ) (tol : ℝ) : (cgIns n tol : Ins d).Valid S := by
  simp [cgIns, Ins.Valid]

/-- The memories of the processes at the start: the parts of `w`, dirty work arrays. -/
def cut (S : FluidOps d NP NV) (w : Whole d) : Rank S.Lv → MMem d := fun r =>
  ⟨fun i => (ownPart S.Lv r.1 (w.v i).1 (fun _ _ => 9), ownPart S.Lp r.1 (w.v i).2 (fun _ _ => 9)), w.s,
    fun _ _ => 7, fun _ _ => 7, fun _ _ => 7, fun _ _ => 7⟩

theorem parts_cut (S : FluidOps d NP NV) (w : Whole d) : Parts S w (cut S w) :=
  ⟨fun _ _ _ hp => if_pos ((Box.pointInside_iff _ _).2 hp), fun _ _ _ hp => if_pos ((Box.pointInside_iff _ _).2 hp), fun _ => rfl⟩

/-- C117: the conjugate gradient method, six processes against one, in a box with a periodic direction. -/
theorem C117_example (bc : BC 2 ℝ) (h : Pos 2 ℝ) (n : ℕ) (tol : ℝ) (w : Whole 2) :
    let S := ops2 (fun _ => 6) (fun i => decide (i = 1)) ![[2, 3, 1], [2, 3]] bc h true
    let S' := ops2 (fun _ => 6) (fun i => decide (i = 1)) ![[6], [5]] bc h true
    (∃ k, ∀ m b, Run m (start (fun r => (cgIns n tol).prog S r.1) (cut S w)) b → m ≤ k ∧ (Done b ∨ ∃ b', Step b b')) ∧
    ∀ m m' b b', Run m (start (fun r => (cgIns n tol).prog S r.1) (cut S w)) b → Done b →
      Run m' (start (fun r => (cgIns n tol).prog S' r.1) (cut S' w)) b' → Done b' →
      SameResults S S' (fun r => (b r).1) fun r => (b' r).1 := by
  refine C117_processes2 _ _ _ _ ?_ ?_ ?_ ?_ bc h true _ (cg_valid _ n tol) w _ (parts_cut _ w) _ (parts_cut _ w)
  all_goals intro i; fin_cases i <;> first | decide | exact ⟨by decide, by decide⟩

end Cafes.Spmd
