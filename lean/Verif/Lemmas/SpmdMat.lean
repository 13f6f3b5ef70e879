/-
What the programs of Verif/Model/SpmdMat.lean do to the parts of the vectors.
-/
import Verif.Spec.SpmdMat
import Verif.Lemmas.SpmdRel

namespace Cafes.Spmd
open Cafes Cafes.Props

variable {d NP NV n : ℕ}

/-- What is asked of the operators: meshes, one call of every process, operators that look at the windows only. -/
structure GoodOps (S : FluidOps d NP NV) : Prop where
  wf : ∀ i, (S.Lv i).WF
  wfP : ∀ i, (S.Lp i).WF
  procs : procs S.Lv = procs S.Lp
  rs : AllProcs S.Lv S.rs
  apply : Work.LocalOp S.Lv S.apply
  diag : ∀ r ∈ Cafes.procs S.Lv, ∀ y y', Work.Eqv S.Lv r y y' → Work.Eqv S.Lv r (S.applyDiag r y) (S.applyDiag r y')
  massV : Work.LocalOp S.Lv S.massV
  massP : Work.LocalOp S.Lp S.massP
  off : Work.LocalOff S.Lv S.Lp S.elemP S.elemV

/-! ### The condition kernels on the part of a process -/

theorem dirichlet_kernel (L : Fin d → Dir) (hL : ∀ i, (L i).WF) (r : Fin d → ℕ) (hr : r ∈ procs L) (bc : BC d ℝ)
    (x x' : NodeVec d d ℝ) (hx : ∀ p ∈ (getDMBounds L r false).halfOpen, x p = x' p) (y : NodeVec d d ℝ) :
    setDirichletImpl L r bc (kernelVecOnBC x) y = setDirichletImpl L r bc (kernelVecOnBC x') y := by
  have hk : ∀ c p u, p ∈ (getDMBounds L r false).halfOpen → kernelVecOnBC x c p u = kernelVecOnBC x' c p u :=
    fun c p u hp => by unfold kernelVecOnBC; rw [hx p hp]
  have hit : ∀ (b : Box d ℤ) (c : Fin d → Cond d ℝ) (z : NodeVec d d ℝ),
      (∀ p ∈ b.halfOpen, p ∈ (getDMBounds L r false).halfOpen) →
      iterate b (fun p y => updNode y p (kernelVecOnBC x c p)) z =
        iterate b (fun p y => updNode y p (kernelVecOnBC x' c p)) z := fun b c z hb =>
    Work.iterate_rel (· = ·) b _ _ (fun e he s s' h => by subst h; unfold updNode; rw [hk c e _ (hb e he)]) z z rfl
  unfold setDirichletImpl
  refine Work.foldl_rel (· = ·) _ _ _ (fun i _ s s' h => ?_) y y rfl
  subst h
  dsimp only
  have h4 := Dir.xm_pos (hL i) ((mem_procs L r).1 hr i)
  by_cases hp : (L i).periodic
  · rw [if_pos hp, if_pos hp]
  · rw [if_neg hp, if_neg hp]
    have e1 : (if (getDMBounds L r false).bl i = 0 then
          iterate { getDMBounds L r false with ur := Function.update (getDMBounds L r false).ur i 1 }
            (fun p y => updNode y p (kernelVecOnBC x (bc (2 * i.1)) p)) s else s) =
        if (getDMBounds L r false).bl i = 0 then
          iterate { getDMBounds L r false with ur := Function.update (getDMBounds L r false).ur i 1 }
            (fun p y => updNode y p (kernelVecOnBC x' (bc (2 * i.1)) p)) s else s := by
      split
      · rename_i h0
        refine hit _ _ _ fun p hp j => ?_
        have := hp j
        by_cases e : j = i
        · subst e
          simp only [Function.update_self] at this
          refine ⟨this.1, ?_⟩
          simp only [getDMBounds, Bool.false_and] at h0 this ⊢
          simp
          omega
        · simpa [Function.update_of_ne e] using this
      · rfl
    rw [e1]
    split
    · rename_i h0
      refine hit _ _ _ fun p hp j => ?_
      have := hp j
      by_cases e : j = i
      · subst e
        simp only [Function.update_self] at this
        refine ⟨?_, this.2⟩
        simp only [getDMBounds, Bool.false_and] at h0 this ⊢
        simp at h0
        omega
      · simpa [Function.update_of_ne e] using this
    · rfl

/-! ### Ghosts and sums on the pressure mesh -/

theorem ghostsP_eqv (L Lp : Fin d → Dir) (hp : procs L = procs Lp) (hL : ∀ i, (Lp i).WF) (v : Rank L → NodeVec d n ℝ)
    (x old : NodeVec d n ℝ) (h : HoldsP L Lp v x) (r : Rank L) :
    Work.Eqv Lp r.1 (onWindow Lp r.1 (globalToLocal Lp (glue Lp (everywhere L v))) old) (globalToLocal Lp x) := fun p hq => by
  unfold onWindow
  rw [if_pos hq]
  exact glueP_apply L Lp hp hL v x h _ (wrap_window Lp hL r.1 (hp ▸ r.2) p hq)

theorem assembleP_holds (L Lp : Fin d → Dir) (hp : procs L = procs Lp) (w v : Rank L → NodeVec d n ℝ) (R : NodeVec d n ℝ)
    (yl : (Fin d → ℕ) → NodeVec d n ℝ) (hw : HoldsP L Lp w R) (h : ∀ r : Rank L, Work.Eqv Lp r.1 (v r) (yl r.1)) :
    HoldsP L Lp (fun r => ownPart Lp r.1 (fun p c => w r p c + localToGlobalAdd Lp (everywhere L v) 0 p c) (w r))
      (localToGlobalAdd Lp yl R) := fun r p hq => by
  funext c
  unfold ownPart
  beta_reduce
  rw [if_pos ((Box.pointInside_iff _ _).2 hq), Work.l2g_congr Lp (everywhere L v) yl (fun r hr => by
    rw [everywhere_apply L v ⟨r, hp ▸ hr⟩]; exact h ⟨r, hp ▸ hr⟩), localToGlobalAdd_base Lp yl R, hw r p hq]
  rfl

/-! ### Triples -/

/-- From memories with `P`, the program leads to memories with `Q`. -/
def Trip {ι : Type} {C : Comm ι} {M : Type} [DecidableEq ι] (p : ι → Stmt C M) (P Q : (ι → M) → Prop) : Prop :=
  ∀ σ, P σ → ∃ σ', Exec p σ σ' ∧ Q σ'

section
variable {ι : Type} {C : Comm ι} {M : Type} [DecidableEq ι] [Fintype ι] {P Q R : (ι → M) → Prop}

theorem trip_cons {p : ι → Stmt C M} {l : ι → List (Stmt C M)} (h1 : Trip p P Q) (h2 : Trip (fun i => seqs (l i)) Q R) :
    Trip (fun i => seqs (p i :: l i)) P R := fun σ hσ => by
  obtain ⟨σ₁, e1, q1⟩ := h1 σ hσ
  obtain ⟨σ₂, e2, q2⟩ := h2 σ₁ q1
  exact ⟨σ₂, exec_cons e1 e2, q2⟩

theorem trip_seq {p q : ι → Stmt C M} (h1 : Trip p P Q) (h2 : Trip q Q R) : Trip (fun i => .seq (p i) (q i)) P R :=
  fun σ hσ => by
  obtain ⟨σ₁, e1, q1⟩ := h1 σ hσ
  obtain ⟨σ₂, e2, q2⟩ := h2 σ₁ q1
  exact ⟨σ₂, exec_seq e1 e2, q2⟩

theorem trip_nil (h : ∀ σ, P σ → Q σ) : Trip (C := C) (fun _ : ι => seqs []) P Q := fun σ hσ => ⟨σ, exec_nil σ, h σ hσ⟩

theorem trip_loc (f : ι → M → M) (h : ∀ σ, P σ → Q fun i => f i (σ i)) : Trip (C := C) (fun i => .loc (f i)) P Q :=
  fun σ hσ => ⟨_, exec_loc f σ, h σ hσ⟩

theorem trip_coll (k : C.Kind) (count : ℕ) (send : ι → M → C.Val k) (recv : ι → M → C.Val k → M)
    (h : ∀ σ, P σ → Q fun i => recv i (σ i) (C.comb k (fun j => send j (σ j)) i)) :
    Trip (fun i => .coll k (fun _ => count) (send i) (recv i)) P Q :=
  fun σ hσ => ⟨_, exec_coll k (fun _ _ => count) send recv σ count fun _ => rfl, h σ hσ⟩

end

/-! ### The steps of the operators -/

variable {S : FluidOps d NP NV}

/-- The vectors, and the ghosted arrays of the processes. -/
structure Inv (S : FluidOps d NP NV) (w : Whole d) (xa : (Fin d → ℕ) → NodeVec d d ℝ) (xb : (Fin d → ℕ) → NodeVec d 1 ℝ)
    (ya : (Fin d → ℕ) → NodeVec d d ℝ) (yb : (Fin d → ℕ) → NodeVec d 1 ℝ) (σ : Rank S.Lv → MMem d) : Prop where
  parts : Parts S w σ
  xa : ∀ r, Work.Eqv S.Lv r.1 (σ r).xa (xa r.1)
  xb : ∀ r, Work.Eqv S.Lp r.1 (σ r).xb (xb r.1)
  ya : ∀ r, Work.Eqv S.Lv r.1 (σ r).ya (ya r.1)
  yb : ∀ r, Work.Eqv S.Lp r.1 (σ r).yb (yb r.1)

/-- The whole vectors with the vector `j` replaced. -/
def Whole.put (w : Whole d) (j : ℕ) (y : Field d) : Whole d := { w with v := Function.update w.v j y }

theorem parts_put {w : Whole d} {σ : Rank S.Lv → MMem d} (h : Parts S w σ) (j : ℕ) (y : Rank S.Lv → Field d) (Y : Field d)
    (h1 : Holds S.Lv (fun r => (y r).1) Y.1) (h2 : HoldsP S.Lv S.Lp (fun r => (y r).2) Y.2) :
    Parts S (w.put j Y) fun r => (σ r).put j (y r) := by
  refine ⟨fun i r p hp => ?_, fun i r p hp => ?_, fun r => h.scalars r⟩
  · show (Function.update (σ r).v j (y r) i).1 p = (Function.update w.v j Y i).1 p
    by_cases e : i = j
    · subst e; rw [Function.update_self, Function.update_self]; exact h1 r p hp
    · rw [Function.update_of_ne e, Function.update_of_ne e]; exact h.velocity i r p hp
  · show (Function.update (σ r).v j (y r) i).2 p = (Function.update w.v j Y i).2 p
    by_cases e : i = j
    · subst e; rw [Function.update_self, Function.update_self]; exact h2 r p hp
    · rw [Function.update_of_ne e, Function.update_of_ne e]; exact h.pressure i r p hp

theorem Parts.holds {w : Whole d} {σ : Rank S.Lv → MMem d} (h : Parts S w σ) (i : ℕ) :
    Holds S.Lv (fun r => ((σ r).v i).1) (w.v i).1 := fun r p hp => h.velocity i r p hp

theorem Parts.holdsP {w : Whole d} {σ : Rank S.Lv → MMem d} (h : Parts S w σ) (i : ℕ) :
    HoldsP S.Lv S.Lp (fun r => ((σ r).v i).2) (w.v i).2 := fun r p hp => h.pressure i r p hp

section
variable (hS : GoodOps S) (w : Whole d) (xa : (Fin d → ℕ) → NodeVec d d ℝ) (xb : (Fin d → ℕ) → NodeVec d 1 ℝ)
    (ya : (Fin d → ℕ) → NodeVec d d ℝ) (yb : (Fin d → ℕ) → NodeVec d 1 ℝ)
include hS

theorem trip_put (j : ℕ) (y : (Fin d → ℕ) → MMem d → Field d) (Y : Field d)
    (h1 : ∀ σ, Inv S w xa xb ya yb σ → Holds S.Lv (fun r => (y r.1 (σ r)).1) Y.1)
    (h2 : ∀ σ, Inv S w xa xb ya yb σ → HoldsP S.Lv S.Lp (fun r => (y r.1 (σ r)).2) Y.2) :
    Trip (C := mcomm S) (fun r => .loc fun m => m.put j (y r.1 m)) (Inv S w xa xb ya yb) (Inv S (w.put j Y) xa xb ya yb) :=
  trip_loc (C := mcomm S) (fun (r : Rank S.Lv) (m : MMem d) => m.put j (y r.1 m)) fun σ h =>
    ⟨parts_put h.parts j (fun r => y r.1 (σ r)) Y (h1 σ h) (h2 σ h), h.xa, h.xb, h.ya, h.yb⟩

theorem trip_zero (j : ℕ) : Trip (fun _ => zeroProg S j) (Inv S w xa xb ya yb) (Inv S (w.put j 0) xa xb ya yb) :=
  trip_put hS w xa xb ya yb j (fun _ _ => (fun _ _ => 0, fun _ _ => 0)) 0 (fun _ _ _ _ _ => rfl) fun _ _ _ _ _ => rfl

theorem trip_zeroV (j : ℕ) : Trip (C := mcomm S) (fun _ => .loc fun m => m.put j (fun _ _ => 0, (m.v j).2))
    (Inv S w xa xb ya yb) (Inv S (w.put j (0, (w.v j).2)) xa xb ya yb) :=
  trip_put hS w xa xb ya yb j (fun _ m => (fun _ _ => 0, (m.v j).2)) _ (fun _ _ _ _ _ => rfl) fun _ h => h.parts.holdsP j

theorem trip_getV (i : ℕ) : Trip (fun r => getV S r.1 i) (Inv S w xa xb ya yb)
    (Inv S w (fun _ => globalToLocal S.Lv (w.v i).1) xb ya yb) := by
  refine trip_coll (C := mcomm S) (M := MMem d) MKind.ghostsV 0 (fun _ m => (m.v i).1)
    (fun r m (v : NodeVec d d ℝ) => { m with xa := onWindow S.Lv r.1 v m.xa }) fun σ h => ?_
  exact ⟨⟨h.parts.velocity, h.parts.pressure, h.parts.scalars⟩,
    fun r => ghosts_eqv S.Lv hS.wf (fun r => ((σ r).v i).1) _ _ (h.parts.holds i) r, h.xb, h.ya, h.yb⟩

theorem trip_getP (i : ℕ) : Trip (fun r => getP S r.1 i) (Inv S w xa xb ya yb)
    (Inv S w xa (fun _ => globalToLocal S.Lp (w.v i).2) ya yb) := by
  refine trip_coll (C := mcomm S) (M := MMem d) MKind.ghostsP 0 (fun _ m => (m.v i).2)
    (fun r m (v : NodeVec d 1 ℝ) => { m with xb := onWindow S.Lp r.1 v m.xb }) fun σ h => ?_
  exact ⟨⟨h.parts.velocity, h.parts.pressure, h.parts.scalars⟩, h.xa,
    fun r => ghostsP_eqv S.Lv S.Lp hS.procs hS.wfP (fun r => ((σ r).v i).2) _ _ (h.parts.holdsP i) r, h.ya, h.yb⟩

theorem trip_fillV : Trip (fun r => fillV S r.1) (Inv S w xa xb ya yb) (Inv S w xa xb (fun _ => 0) yb) :=
  trip_loc (C := mcomm S) (fun (r : Rank S.Lv) (m : MMem d) => { m with ya := onWindow S.Lv r.1 0 m.ya }) fun _ h =>
    ⟨⟨h.parts.velocity, h.parts.pressure, h.parts.scalars⟩, h.xa, h.xb, fun _ _ hp => if_pos hp, h.yb⟩

theorem trip_fillP : Trip (fun r => fillP S r.1) (Inv S w xa xb ya yb) (Inv S w xa xb ya (fun _ => 0)) :=
  trip_loc (C := mcomm S) (fun (r : Rank S.Lv) (m : MMem d) => { m with yb := onWindow S.Lp r.1 0 m.yb }) fun _ h =>
    ⟨⟨h.parts.velocity, h.parts.pressure, h.parts.scalars⟩, h.xa, h.xb, h.ya, fun _ _ hp => if_pos hp⟩

theorem trip_applyV (f : (Fin d → ℕ) → NodeVec d d ℝ → NodeVec d d ℝ → NodeVec d d ℝ) (hf : Work.LocalOp S.Lv f) :
    Trip (C := mcomm S) (fun r => .loc fun m => { m with ya := f r.1 m.xa m.ya }) (Inv S w xa xb ya yb)
      (Inv S w xa xb (fun r => f r (xa r) (ya r)) yb) :=
  trip_loc (C := mcomm S) (fun (r : Rank S.Lv) (m : MMem d) => { m with ya := f r.1 m.xa m.ya }) fun _ h =>
    ⟨⟨h.parts.velocity, h.parts.pressure, h.parts.scalars⟩, h.xa, h.xb,
      fun r => hf r.1 r.2 _ _ _ _ (h.xa r) (h.ya r), h.yb⟩

theorem trip_applyP (f : (Fin d → ℕ) → NodeVec d 1 ℝ → NodeVec d 1 ℝ → NodeVec d 1 ℝ) (hf : Work.LocalOp S.Lp f) :
    Trip (C := mcomm S) (fun r => .loc fun m => { m with yb := f r.1 m.xb m.yb }) (Inv S w xa xb ya yb)
      (Inv S w xa xb ya (fun r => f r (xb r) (yb r))) :=
  trip_loc (C := mcomm S) (fun (r : Rank S.Lv) (m : MMem d) => { m with yb := f r.1 m.xb m.yb }) fun _ h =>
    ⟨⟨h.parts.velocity, h.parts.pressure, h.parts.scalars⟩, h.xa, h.xb, h.ya,
      fun r => hf r.1 (hS.procs ▸ r.2) _ _ _ _ (h.xb r) (h.yb r)⟩

theorem trip_diag : Trip (C := mcomm S) (fun r => .loc fun m => { m with ya := S.applyDiag r.1 m.ya }) (Inv S w xa xb ya yb)
      (Inv S w xa xb (fun r => S.applyDiag r (ya r)) yb) :=
  trip_loc (C := mcomm S) (fun (r : Rank S.Lv) (m : MMem d) => { m with ya := S.applyDiag r.1 m.ya }) fun _ h =>
    ⟨⟨h.parts.velocity, h.parts.pressure, h.parts.scalars⟩, h.xa, h.xb,
      fun r => hS.diag r.1 r.2 _ _ (h.ya r), h.yb⟩

theorem trip_off : Trip (C := mcomm S) (fun r => .loc fun m => { m with
      ya := (offDiagBlockMult S.Lp S.elemP S.elemV S.B r.1 m.xa m.xb (m.ya, m.yb)).1
      yb := (offDiagBlockMult S.Lp S.elemP S.elemV S.B r.1 m.xa m.xb (m.ya, m.yb)).2 }) (Inv S w xa xb ya yb)
      (Inv S w xa xb (fun r => (offDiagBlockMult S.Lp S.elemP S.elemV S.B r (xa r) (xb r) (ya r, yb r)).1)
        (fun r => (offDiagBlockMult S.Lp S.elemP S.elemV S.B r (xa r) (xb r) (ya r, yb r)).2)) :=
  trip_loc (C := mcomm S) (fun (r : Rank S.Lv) (m : MMem d) => { m with
      ya := (offDiagBlockMult S.Lp S.elemP S.elemV S.B r.1 m.xa m.xb (m.ya, m.yb)).1
      yb := (offDiagBlockMult S.Lp S.elemP S.elemV S.B r.1 m.xa m.xb (m.ya, m.yb)).2 }) fun σ h =>
    have key := fun r : Rank S.Lv => Work.offDiag_local S.Lv S.Lp S.elemP S.elemV hS.off S.B r.1 (hS.procs ▸ r.2)
      (σ r).xa (xa r.1) (σ r).ya (ya r.1) (σ r).xb (xb r.1) (σ r).yb (yb r.1) (h.xa r) (h.xb r) (h.ya r) (h.yb r)
    ⟨⟨h.parts.velocity, h.parts.pressure, h.parts.scalars⟩, h.xa, h.xb, fun r => (key r).1, fun r => (key r).2⟩

theorem trip_putV (j : ℕ) : Trip (fun r => putV S r.1 j) (Inv S w xa xb ya yb)
    (Inv S (w.put j (localToGlobalAdd S.Lv ya (w.v j).1, (w.v j).2)) xa xb ya yb) := by
  refine trip_coll (C := mcomm S) (M := MMem d) MKind.addV 0 (fun _ m => m.ya)
    (fun r m (v : NodeVec d d ℝ) => m.put j (ownPart S.Lv r.1 (fun p c => (m.v j).1 p c + v p c) (m.v j).1, (m.v j).2))
    fun σ h => ?_
  exact ⟨parts_put h.parts j (fun r => (ownPart S.Lv r.1 (fun p c => ((σ r).v j).1 p c +
      localToGlobalAdd S.Lv (everywhere S.Lv fun r => (σ r).ya) 0 p c) ((σ r).v j).1, ((σ r).v j).2)) _
    (assemble_holds S.Lv (fun r => ((σ r).v j).1) (fun r => (σ r).ya) _ ya (h.parts.holds j) h.ya) (h.parts.holdsP j),
    h.xa, h.xb, h.ya, h.yb⟩

theorem trip_putP (j : ℕ) : Trip (fun r => putP S r.1 j) (Inv S w xa xb ya yb)
    (Inv S (w.put j ((w.v j).1, localToGlobalAdd S.Lp yb (w.v j).2)) xa xb ya yb) := by
  refine trip_coll (C := mcomm S) (M := MMem d) MKind.addP 0 (fun _ m => m.yb)
    (fun r m (v : NodeVec d 1 ℝ) => m.put j ((m.v j).1, ownPart S.Lp r.1 (fun p c => (m.v j).2 p c + v p c) (m.v j).2))
    fun σ h => ?_
  exact ⟨parts_put h.parts j (fun r => (((σ r).v j).1, ownPart S.Lp r.1 (fun p c => ((σ r).v j).2 p c +
      localToGlobalAdd S.Lp (everywhere S.Lv fun r => (σ r).yb) 0 p c) ((σ r).v j).2)) _ (h.parts.holds j)
    (assembleP_holds S.Lv S.Lp hS.procs (fun r => ((σ r).v j).2) (fun r => (σ r).yb) _ yb (h.parts.holdsP j) h.yb),
    h.xa, h.xb, h.ya, h.yb⟩

theorem trip_bcVec (i j : ℕ) : Trip (fun r => bcVecProg S r.1 i j) (Inv S w xa xb ya yb)
    (Inv S (w.put j (setDirichletOnVec S.Lv S.rs S.bc (w.v i).1 (w.v j).1, (w.v j).2)) xa xb ya yb) := by
  refine trip_put hS w xa xb ya yb j
    (fun r m => (setDirichletImpl S.Lv r S.bc (kernelVecOnBC (m.v i).1) (m.v j).1, (m.v j).2)) _ (fun σ h => ?_)
    fun σ h => h.parts.holdsP j
  have := holds_foldl S.Lv hS.wf S.rs hS.rs (fun r => setDirichletImpl S.Lv r S.bc (kernelVecOnBC (w.v i).1))
    (fun r hr => ownOp_dirichlet S.Lv hS.wf r hr S.bc _) (fun r => ((σ r).v j).1) (w.v j).1 (h.parts.holds j)
  intro r p hp
  exact (congrFun (dirichlet_kernel S.Lv hS.wf r.1 r.2 S.bc _ _ (h.parts.velocity i r) _) p).trans (this r p hp)

end

/-! ### The operators -/

/-- What was in the ghosted arrays. -/
theorem inv_start {w : Whole d} {σ : Rank S.Lv → MMem d} (h : Parts S w σ) :
    Inv S w (everywhere S.Lv fun r => (σ r).xa) (everywhere S.Lv fun r => (σ r).xb) (everywhere S.Lv fun r => (σ r).ya)
      (everywhere S.Lv fun r => (σ r).yb) σ :=
  ⟨h, fun r p _ => by rw [everywhere_apply], fun r p _ => by rw [everywhere_apply], fun r p _ => by rw [everywhere_apply],
    fun r p _ => by rw [everywhere_apply]⟩

theorem put_put (w : Whole d) (j : ℕ) (x y : Field d) : (w.put j x).put j y = w.put j y := by
  unfold Whole.put; simp [Function.update_idem]

theorem put_self (w : Whole d) (j : ℕ) (y : Field d) : (w.put j y).v j = y := Function.update_self ..

theorem put_ne (w : Whole d) {i j : ℕ} (h : i ≠ j) (y : Field d) : (w.put j y).v i = w.v i := Function.update_of_ne h ..

/-- A program that leads every choice of the ghosted arrays to the vectors `w'`. -/
theorem trip_of_inv {p : Rank S.Lv → MCode S} {w w' : Whole d}
    (h : ∀ xa xb ya yb, Trip p (Inv S w xa xb ya yb) (Parts S w')) : Trip p (Parts S w) (Parts S w') :=
  fun σ hσ => h _ _ _ _ σ (inv_start hσ)

theorem trip_stokes (hS : GoodOps S) (i j : ℕ) (hij : i ≠ j) (w : Whole d) :
    Trip (fun r => stokesProg S r.1 i j) (Parts S w) (Parts S ((Ins.stokes i j).run S w)) := by
  refine trip_of_inv fun xa xb ya yb => ?_
  refine trip_cons (trip_zero hS w xa xb ya yb j) ?_
  refine trip_cons (trip_getV hS _ _ _ _ _ i) ?_
  refine trip_cons (trip_fillV hS _ _ _ _ _) ?_
  refine trip_cons (trip_getP hS _ _ _ _ _ i) ?_
  refine trip_cons (trip_fillP hS _ _ _ _ _) ?_
  refine trip_cons (trip_applyV hS _ _ _ _ _ S.apply hS.apply) ?_
  refine trip_cons (trip_off hS _ _ _ _ _) ?_
  refine trip_cons (trip_putV hS _ _ _ _ _ j) ?_
  refine trip_cons (trip_putP hS _ _ _ _ _ j) ?_
  refine trip_cons (trip_bcVec hS _ _ _ _ _ i j) ?_
  refine trip_nil fun σ h => ?_
  have := h.parts
  simp only [put_put, put_self, put_ne _ hij] at this
  exact this

theorem trip_block (hS : GoodOps S) (i j : ℕ) (hij : i ≠ j) (w : Whole d) :
    Trip (fun r => blockProg S r.1 i j) (Parts S w) (Parts S ((Ins.block i j).run S w)) := by
  refine trip_of_inv fun xa xb ya yb => ?_
  refine trip_cons (trip_zeroV hS w xa xb ya yb j) ?_
  refine trip_cons (trip_getV hS _ _ _ _ _ i) ?_
  refine trip_cons (trip_fillV hS _ _ _ _ _) ?_
  refine trip_cons (trip_applyV hS _ _ _ _ _ S.apply hS.apply) ?_
  refine trip_cons (trip_putV hS _ _ _ _ _ j) ?_
  refine trip_cons (trip_bcVec hS _ _ _ _ _ i j) ?_
  refine trip_nil fun σ h => ?_
  have := h.parts
  simp only [put_put, put_self, put_ne _ hij] at this
  exact this

theorem trip_mass (hS : GoodOps S) (i j : ℕ) (hij : i ≠ j) (w : Whole d) :
    Trip (fun r => massProg S r.1 i j) (Parts S w) (Parts S ((Ins.mass i j).run S w)) := by
  refine trip_of_inv fun xa xb ya yb => ?_
  refine trip_cons (trip_zero hS w xa xb ya yb j) ?_
  refine trip_cons (trip_getV hS _ _ _ _ _ i) ?_
  refine trip_cons (trip_fillV hS _ _ _ _ _) ?_
  refine trip_cons (trip_applyV hS _ _ _ _ _ S.massV hS.massV) ?_
  refine trip_cons (trip_putV hS _ _ _ _ _ j) ?_
  refine trip_cons (trip_getP hS _ _ _ _ _ i) ?_
  refine trip_cons (trip_fillP hS _ _ _ _ _) ?_
  refine trip_cons (trip_applyP hS _ _ _ _ _ S.massP hS.massP) ?_
  refine trip_cons (trip_putP hS _ _ _ _ _ j) ?_
  refine trip_nil fun σ h => ?_
  have := h.parts
  simp only [put_put, put_self, put_ne _ hij] at this
  exact this

theorem trip_diagonal (hS : GoodOps S) (j : ℕ) (w : Whole d) :
    Trip (fun r => diagProg S r.1 j) (Parts S w) (Parts S ((Ins.diag j).run S w)) := by
  refine trip_of_inv fun xa xb ya yb => ?_
  refine trip_cons (trip_fillV hS w xa xb ya yb) ?_
  refine trip_cons (trip_diag hS _ _ _ _ _) ?_
  refine trip_cons (trip_zeroV hS _ _ _ _ _ j) ?_
  refine trip_cons (trip_putV hS _ _ _ _ _ j) ?_
  refine trip_nil fun σ h => ?_
  have := h.parts
  simp only [put_put, put_self] at this
  exact this

/-! ### Reductions, operations on whole vectors, methods -/

/-- The sums of the processes over their own nodes are the sum over the grid. -/
theorem sum_owned (L Lp : Fin d → Dir) (hp : procs L = procs Lp) (hL : ∀ i, (Lp i).WF) (f : Pos d ℤ → ℝ) :
    ∑ r : Rank L, ∑ p ∈ (getDMBounds Lp r.1 false).visited.toFinset, f p = ∑ g ∈ gridNodes Lp, f g := by
  have h1 : ∑ r : Rank L, ∑ p ∈ (getDMBounds Lp r.1 false).visited.toFinset, f p =
      ∑ r ∈ procs Lp, ∑ p ∈ (getDMBounds Lp r false).visited.toFinset, f p := by
    rw [← hp]
    exact Finset.sum_coe_sort (procs L) fun r => ∑ p ∈ (getDMBounds Lp r false).visited.toFinset, f p
  rw [h1, ← Finset.sum_biUnion]
  · refine Finset.sum_congr (Finset.ext fun g => ?_) fun _ _ => rfl
    simp only [Finset.mem_biUnion, List.mem_toFinset, Box.mem_visited]
    constructor
    · rintro ⟨r, hr, hg⟩ 
      exact (mem_gridNodes Lp g).2 (fun i => by
        have h2 := Dir.xs_nonneg (hL i) (r i)
        have h3 := Dir.xe_le (hL i) ((mem_procs Lp r).1 hr i)
        have := (mem_ownBox Lp r g).1 hg i
        omega)
    · intro hg
      obtain ⟨r, ⟨hr, hgr⟩, -⟩ := owner_unique Lp hL g ((mem_gridNodes Lp g).1 hg)
      exact ⟨r, hr, (mem_ownBox Lp r g).2 hgr⟩
  · intro r hr s hs hne
    rw [Function.onFun, Finset.disjoint_left]
    intro g hg hg'
    simp only [List.mem_toFinset, Box.mem_visited] at hg hg'
    exact hne (owned_unique Lp hL g r s hr hs hg hg')

theorem trip_reduce (hS : GoodOps S) (fV : (ℕ → ℝ) → Pos d ℤ → Fin d → (ℕ → ℝ) → ℝ)
    (fP : (ℕ → ℝ) → Pos d ℤ → Fin 1 → (ℕ → ℝ) → ℝ) (k : ℕ) (w : Whole d) :
    Trip (fun r => (Ins.reduce fV fP k).prog S r.1) (Parts S w) (Parts S ((Ins.reduce fV fP k).run S w)) := by
  refine trip_coll (C := mcomm S) (M := MMem d) MKind.sum 1 (fun r (m : MMem d) =>
        (∑ p ∈ (getDMBounds S.Lv r.1 false).visited.toFinset, ∑ c, fV m.s p c fun i => (m.v i).1 p c) +
        ∑ p ∈ (getDMBounds S.Lp r.1 false).visited.toFinset, ∑ c, fP m.s p c fun i => (m.v i).2 p c)
      (fun _ m (t : ℝ) => { m with s := Function.update m.s k t }) fun σ h => ?_
  refine ⟨h.velocity, h.pressure, fun r => ?_⟩
  have e : (∑ r : Rank S.Lv, ((∑ p ∈ (getDMBounds S.Lv r.1 false).visited.toFinset, ∑ c,
        fV (σ r).s p c fun i => ((σ r).v i).1 p c) +
        ∑ p ∈ (getDMBounds S.Lp r.1 false).visited.toFinset, ∑ c, fP (σ r).s p c fun i => ((σ r).v i).2 p c)) =
      (∑ g ∈ gridNodes S.Lv, ∑ c, fV w.s g c fun i => (w.v i).1 g c) +
        ∑ g ∈ gridNodes S.Lp, ∑ c, fP w.s g c fun i => (w.v i).2 g c := by
    rw [← sum_owned S.Lv S.Lv rfl hS.wf, ← sum_owned S.Lv S.Lp hS.procs hS.wfP, ← Finset.sum_add_distrib]
    refine Finset.sum_congr rfl fun r _ => congrArg₂ (· + ·) ?_ ?_
    · refine Finset.sum_congr rfl fun p hp => Finset.sum_congr rfl fun c _ => ?_
      rw [List.mem_toFinset, Box.mem_visited] at hp
      rw [h.scalars r]
      exact congrArg (fV w.s p c) (funext fun i => congrFun (h.velocity i r p hp) c)
    · refine Finset.sum_congr rfl fun p hp => Finset.sum_congr rfl fun c _ => ?_
      rw [List.mem_toFinset, Box.mem_visited] at hp
      rw [h.scalars r]
      exact congrArg (fP w.s p c) (funext fun i => congrFun (h.pressure i r p hp) c)
  show Function.update (σ r).s k _ = Function.update w.s k _
  rw [h.scalars r]
  exact congrArg _ e

theorem trip_node (fV : (ℕ → ℝ) → Pos d ℤ → Fin d → (ℕ → ℝ) → ℝ)
    (fP : (ℕ → ℝ) → Pos d ℤ → Fin 1 → (ℕ → ℝ) → ℝ) (j : ℕ) (w : Whole d) :
    Trip (fun r => (Ins.node fV fP j).prog S r.1) (Parts S w) (Parts S ((Ins.node fV fP j).run S w)) := by
  refine trip_loc (C := mcomm S) (fun (r : Rank S.Lv) (m : MMem d) => m.put j
      (ownPart S.Lv r.1 (fun p c => fV m.s p c fun i => (m.v i).1 p c) (m.v j).1,
       ownPart S.Lp r.1 (fun p c => fP m.s p c fun i => (m.v i).2 p c) (m.v j).2)) fun σ h => ?_
  refine parts_put h j _ _ (fun r p hp => ?_) fun r p hp => ?_
  · refine (if_pos ((Box.pointInside_iff _ _).2 hp)).trans (funext fun c => ?_)
    rw [h.scalars r]
    exact congrArg (fV w.s p c) (funext fun i => congrFun (h.velocity i r p hp) c)
  · refine (if_pos ((Box.pointInside_iff _ _).2 hp)).trans (funext fun c => ?_)
    rw [h.scalars r]
    exact congrArg (fP w.s p c) (funext fun i => congrFun (h.pressure i r p hp) c)

theorem trip_ext (hS : GoodOps S) (F : Field d → Field d) (i j : ℕ) (hF : (Ins.ext F i j).Valid S) (w : Whole d) :
    Trip (fun r => (Ins.ext F i j).prog S r.1) (Parts S w) (Parts S ((Ins.ext F i j).run S w)) := by
  refine trip_coll (C := mcomm S) (M := MMem d) (MKind.ext F) 0 (fun _ m => m.v i) (fun r m (y : Field d) =>
      m.put j (ownPart S.Lv r.1 y.1 (m.v j).1, ownPart S.Lp r.1 y.2 (m.v j).2)) fun σ h => ?_
  have e : F (glue S.Lv (everywhere S.Lv fun r => ((σ r).v i).1), glue S.Lp (everywhere S.Lv fun r => ((σ r).v i).2)) =
      F (w.v i) := hF _ _ (fun g hg => glue_apply S.Lv hS.wf _ _ (h.holds i) g hg)
    fun g hg => glueP_apply S.Lv S.Lp hS.procs hS.wfP _ _ (h.holdsP i) g hg
  refine parts_put h j (fun r => (ownPart S.Lv r.1 (F (glue S.Lv (everywhere S.Lv fun r => ((σ r).v i).1),
    glue S.Lp (everywhere S.Lv fun r => ((σ r).v i).2))).1 _, ownPart S.Lp r.1 (F (glue S.Lv (everywhere S.Lv fun r =>
    ((σ r).v i).1), glue S.Lp (everywhere S.Lv fun r => ((σ r).v i).2))).2 _)) _ (fun r p hp => ?_) fun r p hp => ?_
  · refine (if_pos ((Box.pointInside_iff _ _).2 hp)).trans ?_
    rw [e]
  · refine (if_pos ((Box.pointInside_iff _ _).2 hp)).trans ?_
    rw [e]

/-- The methods. -/
theorem trip_ins (hS : GoodOps S) : ∀ (a : Ins d), a.Valid S → ∀ w : Whole d,
    Trip (fun r => a.prog S r.1) (Parts S w) (Parts S (a.run S w))
  | .stokes i j, h, w => trip_stokes hS i j h w
  | .block i j, h, w => trip_block hS i j h w
  | .mass i j, h, w => trip_mass hS i j h w
  | .diag j, _, w => trip_diagonal hS j w
  | .ext F i j, h, w => trip_ext hS F i j h w
  | .reduce fV fP k, _, w => trip_reduce hS fV fP k w
  | .node fV fP j, _, w => trip_node fV fP j w
  | .set f k, _, w => trip_loc (C := mcomm S) (fun (_ : Rank S.Lv) (m : MMem d) => { m with s := Function.update m.s k (f m.s) })
      fun σ h => ⟨h.velocity, h.pressure, fun r => by
        show Function.update (σ r).s k (f (σ r).s) = Function.update w.s k (f w.s)
        rw [h.scalars r]⟩
  | .skip, _, _ => fun σ h => ⟨σ, exec_skip σ, h⟩
  | .seq a b, h, w => trip_seq (trip_ins hS a h.1 w) (trip_ins hS b h.2 _)
  | .ite c a b, h, w => fun σ hσ => by
    have h1 := trip_ins hS a h.1 w σ hσ
    have h2 := trip_ins hS b h.2 w σ hσ
    have : ∃ σ', Exec (fun r : Rank S.Lv => if c w.s then a.prog S r.1 else b.prog S r.1) σ σ' ∧
        Parts S (if c w.s then a.run S w else b.run S w) σ' := by
      cases c w.s
      · exact h2
      · exact h1
    obtain ⟨σ', e, q⟩ := this
    exact ⟨σ', exec_ite (fun _ (m : MMem d) => c m.s) _ _ σ σ' (c w.s) (fun r => by rw [hσ.scalars r]) e, q⟩
  | .rep n a, h, w => by
    have key : ∀ (n : ℕ) (w : Whole d), Trip (fun r : Rank S.Lv => repeatProg (a.prog S r.1) n) (Parts S w)
        (Parts S ((a.run S)^[n] w)) := by
      intro n
      induction n with
      | zero => exact fun w σ h => ⟨σ, exec_skip σ, h⟩
      | succ n ih => exact fun w => trip_seq (trip_ins hS a h w) (ih (a.run S w))
    exact key n w

end Cafes.Spmd
