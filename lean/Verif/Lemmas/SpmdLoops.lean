/-
The programs of the particle problems, piece by piece: reductions, simple layer, projection, materials.
-/
import Verif.Lemmas.SpmdExec

namespace Cafes.Spmd
open Cafes Cafes.Particle Cafes.Driver Cafes.Geometry Cafes.Props

/-! ### Lists -/

theorem zipIdx_eq {α : Type*} (l : List α) (a0 : α) :
    l.zipIdx = (List.range l.length).map fun k => (l.getD k a0, k) := by
  apply List.ext_getElem
  · simp
  · intro k h1 h2
    simp only [List.length_zipIdx] at h1
    simp [h1]

theorem foldl_zipIdx {α β : Type*} (l : List α) (a0 : α) (f : β → α → ℕ → β) (b : β) :
    l.zipIdx.foldl (fun s x => f s x.1 x.2) b = (List.range l.length).foldl (fun s k => f s (l.getD k a0) k) b := by
  rw [zipIdx_eq l a0, List.foldl_map]

theorem foldl_congr_mem {α β : Type*} (l : List α) (f g : β → α → β) (h : ∀ x ∈ l, ∀ s, f s x = g s x) (b : β) :
    l.foldl f b = l.foldl g b := by
  induction l generalizing b with
  | nil => rfl
  | cons a t ih =>
    rw [List.foldl_cons, List.foldl_cons, h a (List.mem_cons_self ..), ih fun x hx => h x (List.mem_cons_of_mem _ hx)]

theorem sumLists_getD {ι M : Type} [Fintype ι] [AddCommMonoid M] (n : ℕ) (a : ι → List M) (k : ℕ) (hk : k < n) :
    (sumLists n a).getD k 0 = ∑ j, (a j).getD k 0 := by
  unfold sumLists
  simp [hk]

theorem length_sumLists {ι M : Type} [Fintype ι] [AddCommMonoid M] (n : ℕ) (a : ι → List M) :
    (sumLists n a).length = n := by simp [sumLists]

/-- Writing at the place of each entry. -/
theorem foldl_set {α V : Type*} (v : α × ℕ → V) : ∀ (l : List α) (k : ℕ) (t : List V), k + l.length ≤ t.length →
    ((l.zipIdx k).foldl (fun t q => t.set q.2 (v q)) t).length = t.length ∧
    ∀ i, ((l.zipIdx k).foldl (fun t q => t.set q.2 (v q)) t)[i]? =
      match (if k ≤ i then l[i - k]? else none) with
      | some a => some (v (a, i))
      | none => t[i]? := by
  intro l
  induction l with
  | nil => intro k t _; refine ⟨rfl, fun i => ?_⟩; split <;> simp_all
  | cons a l ih =>
    intro k t ht
    rw [List.zipIdx_cons, List.foldl_cons]
    simp only [List.length_cons] at ht
    obtain ⟨h1, h2⟩ := ih (k + 1) (t.set k (v (a, k))) (by rw [List.length_set]; omega)
    refine ⟨by rw [h1, List.length_set], fun i => ?_⟩
    rw [h2 i]
    by_cases h : k + 1 ≤ i
    · rw [if_pos h, if_pos (by omega : k ≤ i)]
      have : i - k = (i - (k + 1)) + 1 := by omega
      rw [this, List.getElem?_cons_succ]
      cases l[i - (k + 1)]? with
      | some b => rfl
      | none => simp only []; rw [List.getElem?_set_ne (by omega)]
    · rw [if_neg h]
      by_cases e : k = i
      · subst e
        rw [if_pos (le_refl _), Nat.sub_self]
        simp only [List.getElem?_cons_zero]
        rw [List.getElem?_set_self (by omega)]
      · rw [if_neg (by omega : ¬ k ≤ i)]
        simp only []
        rw [List.getElem?_set_ne e]

/-- The sum over the processes, in the two forms. -/
theorem sum_procs {d : ℕ} {M : Type*} [AddCommMonoid M] (L : Fin d → Dir) (rs : List (Fin d → ℕ)) (hrs : AllProcs L rs)
    (f : (Fin d → ℕ) → M) : ∑ j : Rank L, f j.1 = (rs.map f).sum := by
  rw [Finset.sum_coe_sort (procs L) f, ← List.sum_toFinset f hrs.1]
  refine Finset.sum_congr ?_ fun _ _ => rfl
  ext r
  rw [List.mem_toFinset, hrs.2 r]

section
variable {ι : Type} {C : Comm ι} {S : Type} [DecidableEq ι] [Fintype ι]

/-- A branch that the processes take differently, without collective operation. -/
theorem exec_ite_loc (c : ι → S → Bool) (f : ι → S → S) (σ : ι → S) :
    Exec (C := C) (fun i => .ite (c i) (.loc (f i)) .skip) σ (fun i => if c i (σ i) then f i (σ i) else σ i) := by
  refine exec_local _ (fun i s => if c i s then f i s else s) σ fun i k => ?_
  refine Relation.ReflTransGen.head (PStep.ite ..) (Relation.ReflTransGen.single ?_)
  cases c i (σ i)
  · exact PStep.skip ..
  · exact PStep.loc ..

/-- A loop whose body does not wait. -/
theorem exec_loop {α : Type*} (l : List α) (p : α → ι → Stmt C S) (f : α → ι → S → S)
    (h : ∀ x ∈ l, ∀ σ, Exec (p x) σ (fun i => f x i (σ i))) (σ : ι → S) :
    Exec (fun i => seqs (l.map fun x => p x i)) σ (fun i => l.foldl (fun s x => f x i s) (σ i)) := by
  induction l generalizing σ with
  | nil => exact exec_skip σ
  | cons x l ih =>
    exact exec_seq (h x (List.mem_cons_self ..) σ) (ih (fun y hy => h y (List.mem_cons_of_mem _ hy)) _)
end

set_option linter.unusedSectionVars false
variable {d N : ℕ} {A : Type} [AddCommGroup A] [Module ℝ A] {D : Setup d N A} {Lp : Fin d → Dir}
  {slv : NodeVec d d ℝ × NodeVec d 1 ℝ → NodeVec d d ℝ × NodeVec d 1 ℝ}

/-- The reductions of the means. -/
theorem exec_reduce (n : ℕ) (σ : Rank D.L → Mem d A) (h1 : ∀ r, (σ r).mean.length = n) (h2 : ∀ r, (σ r).cross.length = n) :
    Exec (fun _ => reduceProg D Lp slv) σ fun r => { σ r with
      mean := sumLists n fun j => (σ j).mean
      cross := sumLists n fun j => (σ j).cross } := by
  have e1 : Exec (C := comm (A := A) D.L Lp slv) (fun _ => .coll Kind.sumVec (fun s => s.mean.length * d) (fun s => s.mean)
      fun s (v : List (Pos d ℝ)) => { s with mean := v }) σ fun r => { σ r with mean := sumLists n fun j => (σ j).mean } := by
    have := exec_coll (C := comm (A := A) D.L Lp slv) Kind.sumVec (fun _ s => s.mean.length * d) (fun _ s => s.mean)
      (fun _ s (v : List (Pos d ℝ)) => { s with mean := v }) σ (n * d) fun r => by rw [h1 r]
    refine cast (congrArg _ (funext fun r => ?_)) this
    show ({ σ r with mean := sumLists (σ r).mean.length fun j => (σ j).mean } : Mem d A) = _
    rw [h1 r]
  refine exec_seq e1 ?_
  have := exec_coll (C := comm (A := A) D.L Lp slv) Kind.sumRot (fun _ s => s.cross.length * if d = 2 then 1 else 3)
      (fun _ s => s.cross) (fun _ s (v : List A) => { s with cross := v })
      (fun r => { σ r with mean := sumLists n fun j => (σ j).mean }) (n * if d = 2 then 1 else 3)
      fun r => congrArg (· * if d = 2 then 1 else 3) (h2 r)
  refine cast (congrArg _ (funext fun r => ?_)) this
  show ({ σ r with
    mean := sumLists n fun j => (σ j).mean
    cross := sumLists (σ r).cross.length fun j => (σ j).cross } : Mem d A) = _
  rw [h2 r]

theorem getD_mapIdx {α β : Type*} (l : List α) (f : ℕ → α → β) (i : ℕ) (hi : i < l.length) (a0 : α) (b0 : β) :
    (l.mapIdx f).getD i b0 = f i (l.getD i a0) := by
  simp [List.getD_eq_getElem?_getD, hi]

theorem getD_map_idxOf {α β : Type*} [DecidableEq α] (l : List α) (r : α) (hr : r ∈ l) (f : α → List β) :
    (l.map f).getD (l.idxOf r) [] = f r := by
  rw [List.getD_eq_getElem?_getD, List.getElem?_map, List.getElem?_idxOf hr]
  rfl

theorem length_data (D : Setup d N A) (i : ℕ) (hi : D.parts.length ≤ i) (r : Fin d → ℕ) : (D.data i r).surf.length = 0 := by
  unfold Setup.data
  rw [List.getElem?_eq_none hi]
  rfl

/-- What `simple_layer` makes of the field, for a surface point of the process `r`. -/
theorem layer_at (hG : Good D Lp slv) (g : SurfField d) (r : Rank D.L) (i k : ℕ) (p : Part d A) (hp : D.parts[i]? = some p)
    (hk : k < (D.data i r.1).surf.length) :
    D.layer g r.1 i k = vecSubVec (g r.1 i k) (vecAddVec
      (vecDivScal (∑ j : Rank D.L, (List.range (D.data i j.1).surf.length).foldl (fun m k => vecAddVec m (g j.1 i k))
        (fun _ => 0)) ((D.data i r.1).nb : ℝ))
      (D.S.act ((p.cdR / ((D.data i r.1).nb : ℝ)) • ∑ j : Rank D.L, (List.range (D.data i j.1).surf.length).foldl
        (fun m k => m + D.S.cross ((D.data i j.1).radial.getD k 0) (g j.1 i k)) 0)
        ((D.data i r.1).radial.getD k 0))) := by
  have hl : ∀ s, (D.data i s).surf.length = (D.data i s).radial.length := fun s => data_aligned D i s
  unfold Setup.layer
  rw [hp]
  simp only [simpleLayer]
  rw [List.map_map, List.map_map, List.map_map]
  have hm : D.rs.map ((fun l : List (Pos d ℝ × Pos d ℝ) => l.foldl (fun m x => vecAddVec m x.1) (fun _ => (0 : ℝ))) ∘
      fun r' => (D.data i r').radial.zipIdx.map fun x => (g r' i x.2, x.1)) =
      D.rs.map fun s => (List.range (D.data i s).surf.length).foldl (fun m k => vecAddVec m (g s i k)) (fun _ => 0) := by
    refine List.map_congr_left fun s _ => ?_
    simp only [Function.comp]
    rw [List.foldl_map, foldl_zipIdx _ 0 (fun m _ k => vecAddVec m (g s i k)), hl s]
  have hc : D.rs.map ((fun l : List (Pos d ℝ × Pos d ℝ) => l.foldl (fun m x => m + D.S.cross x.2 x.1) 0) ∘
      fun r' => (D.data i r').radial.zipIdx.map fun x => (g r' i x.2, x.1)) =
      D.rs.map fun s => (List.range (D.data i s).surf.length).foldl
        (fun m k => m + D.S.cross ((D.data i s).radial.getD k 0) (g s i k)) 0 := by
    refine List.map_congr_left fun s _ => ?_
    simp only [Function.comp]
    rw [List.foldl_map, foldl_zipIdx _ 0 (fun m x k => m + D.S.cross x (g s i k)), hl s]
  rw [hm, hc, sum_procs D.L D.rs hG.rs (fun s => (List.range (D.data i s).surf.length).foldl
    (fun m k => vecAddVec m (g s i k)) (fun _ => 0)), sum_procs D.L D.rs hG.rs (fun s =>
    (List.range (D.data i s).surf.length).foldl (fun m k => m + D.S.cross ((D.data i s).radial.getD k 0) (g s i k)) 0)]
  have hr : r.1 ∈ D.rs := (hG.rs.2 r.1).2 r.2
  rw [getD_map_idxOf D.rs r.1 hr]
  simp only [Function.comp]
  have hk' : k < (D.data i r.1).radial.length := by rw [← hl]; exact hk
  rw [List.getD_eq_getElem?_getD, List.map_map, List.getElem?_map]
  simp [hk']

/-- `simple_layer`, with the means that it leaves. -/
theorem exec_layer_mean (hG : Good D Lp slv) (a : Abs d A) (σ : Rank D.L → Mem d A) (h : Rel D Lp a σ)
    (hz : ∀ r i k, (D.data i r).surf.length ≤ k → a.G r i k = 0) :
    ∃ σ' m c, Exec (fun _ => layerProg D Lp slv) σ σ' ∧ (∀ r, (m r).length = D.parts.length) ∧
      (∀ r, (c r).length = D.parts.length) ∧
      Rel D Lp { a with G := D.layer a.G, mean := m, cross := c } σ' ∧
      ∀ r : Rank D.L, ∀ i < D.parts.length, (m r.1).getD i 0 = vecDivScal (∑ j : Rank D.L,
        (List.range (D.data i j.1).surf.length).foldl (fun m k => vecAddVec m (a.G j.1 i k)) (fun _ => 0))
        ((D.data i r.1).nb : ℝ) := by
  set n := D.parts.length with hn
  set σ₂ : Rank D.L → Mem d A := fun r => { σ r with
    mean := (List.replicate n (fun _ => 0 : Pos d ℝ)).mapIdx fun i m =>
      (List.range ((σ r).surf i).length).foldl (fun m k => vecAddVec m ((σ r).g i k)) m
    cross := (List.replicate n (0 : A)).mapIdx fun i m => (List.range ((σ r).surf i).length).foldl
      (fun m k => m + D.S.cross (((σ r).radial i).getD k 0) ((σ r).g i k)) m } with hσ₂
  have e2 : Exec (fun _ => reduceProg D Lp slv) σ₂ _ := exec_reduce n σ₂ (fun r => by simp [hσ₂]) (fun r => by simp [hσ₂])
  have hmean : ∀ r i, i < n → (σ₂ r).mean.getD i 0 = (List.range (D.data i r.1).surf.length).foldl
      (fun m k => vecAddVec m (a.G r.1 i k)) (fun _ => 0) := fun r i hi => by
    show ((List.replicate n (fun _ => 0 : Pos d ℝ)).mapIdx fun i m =>
      (List.range ((σ r).surf i).length).foldl (fun m k => vecAddVec m ((σ r).g i k)) m).getD i 0 = _
    rw [← h.surf r i, ← h.g r]
    simp [List.getD_eq_getElem?_getD, hi]
  have hcross : ∀ r i, i < n → (σ₂ r).cross.getD i 0 = (List.range (D.data i r.1).surf.length).foldl
      (fun m k => m + D.S.cross ((D.data i r.1).radial.getD k 0) (a.G r.1 i k)) 0 := fun r i hi => by
    show ((List.replicate n (0 : A)).mapIdx fun i m => (List.range ((σ r).surf i).length).foldl
      (fun m k => m + D.S.cross (((σ r).radial i).getD k 0) ((σ r).g i k)) m).getD i 0 = _
    rw [← h.surf r i, ← h.g r, ← h.radial r i]
    simp [List.getD_eq_getElem?_getD, hi]
  set m : Rank D.L → List (Pos d ℝ) := fun r => (sumLists n fun j => (σ₂ j).mean).mapIdx fun i m =>
    vecDivScal m ((σ r).nb.getD i 0 : ℝ) with hm
  set c : Rank D.L → List A := fun r => (sumLists n fun j => (σ₂ j).cross).mapIdx fun i m =>
    ((D.parts[i]?.elim 0 fun p => p.cdR) / ((σ r).nb.getD i 0 : ℝ)) • m with hc
  set σ₄ : Rank D.L → Mem d A := fun r => { σ r with mean := m r, cross := c r } with hσ₄
  set σ₅ : Rank D.L → Mem d A := fun r => { σ₄ r with g := (fun i k =>
    if i < D.parts.length ∧ k < ((σ r).surf i).length then
      vecSubVec ((σ r).g i k) (vecAddVec ((m r).getD i 0) (D.S.act ((c r).getD i 0) (((σ r).radial i).getD k 0)))
    else (σ r).g i k) } with hσ₅
  have e3 : Exec (C := comm (A := A) D.L Lp slv) (fun _ => .loc fun s => { s with
      mean := s.mean.mapIdx fun i m => vecDivScal m (s.nb.getD i 0 : ℝ)
      cross := s.cross.mapIdx fun i m => ((D.parts[i]?.elim 0 fun p => p.cdR) / (s.nb.getD i 0 : ℝ)) • m })
      (fun r => { σ₂ r with mean := sumLists n fun j => (σ₂ j).mean, cross := sumLists n fun j => (σ₂ j).cross }) σ₄ :=
    exec_loc _ _
  have h1 : ∀ r i, i < n → (m r).getD i 0 = vecDivScal (∑ j : Rank D.L, (List.range (D.data i j.1).surf.length).foldl
      (fun m k => vecAddVec m (a.G j.1 i k)) (fun _ => 0)) ((D.data i r.1).nb : ℝ) := fun r i hi => by
    rw [← h.nb r i, ← Finset.sum_congr rfl fun j _ => hmean j i hi, ← sumLists_getD n _ i hi]
    exact getD_mapIdx _ (fun i m => vecDivScal m ((σ r).nb.getD i 0 : ℝ)) i (by rw [length_sumLists]; exact hi) _ _
  refine ⟨σ₅, fun r => if hr : r ∈ procs D.L then m ⟨r, hr⟩ else List.replicate n 0,
    fun r => if hr : r ∈ procs D.L then c ⟨r, hr⟩ else List.replicate n 0,
    exec_cons (exec_loc _ _) (exec_cons (σ₁ := σ₂) (exec_loc _ _) (exec_cons e2 (exec_cons e3 (exec_cons (exec_loc _ _)
      (exec_nil _))))), fun r => ?_, fun r => ?_, ⟨h.flags, h.x, h.rhs1, h.rhs2, h.sol1, h.sol2, h.surf, h.radial, h.nb, h.num,
    fun r => ?_,
    fun r => (dif_pos r.2 : (if hr : r.1 ∈ procs D.L then m ⟨r.1, hr⟩ else List.replicate n 0) = m r).symm,
    fun r => (dif_pos r.2 : (if hr : r.1 ∈ procs D.L then c ⟨r.1, hr⟩ else List.replicate n 0) = c r).symm⟩, fun r i hi => ?_⟩
  · beta_reduce; split
    · simp [hm, length_sumLists]
    · simp
  · beta_reduce; split
    · simp [hc, length_sumLists]
    · simp
  · funext i k
    show (if i < D.parts.length ∧ k < ((σ r).surf i).length then
      vecSubVec ((σ r).g i k) (vecAddVec ((m r).getD i 0) (D.S.act ((c r).getD i 0) (((σ r).radial i).getD k 0)))
      else (σ r).g i k) = D.layer a.G r.1 i k
    rw [h.surf r i, h.radial r i, h.g r]
    by_cases hi : i < D.parts.length
    · have hp : D.parts[i]? = some D.parts[i] := List.getElem?_eq_getElem hi
      by_cases hk : k < (D.data i r.1).surf.length
      · rw [if_pos ⟨hi, hk⟩, layer_at hG a.G r i k _ hp hk]
        have h2 : (c r).getD i 0 = (D.parts[i].cdR / ((D.data i r.1).nb : ℝ)) • ∑ j : Rank D.L,
            (List.range (D.data i j.1).surf.length).foldl
            (fun m k => m + D.S.cross ((D.data i j.1).radial.getD k 0) (a.G j.1 i k)) 0 := by
          rw [← h.nb r i, ← Finset.sum_congr rfl fun j _ => hcross j i hi, ← sumLists_getD n _ i hi]
          refine (getD_mapIdx _ (fun i m => ((D.parts[i]?.elim 0 fun p => p.cdR) / ((σ r).nb.getD i 0 : ℝ)) • m) i
            (by rw [length_sumLists]; exact hi) 0 _).trans ?_
          rw [hp]
          rfl
        rw [h1 r i hi, h2]
      · rw [if_neg fun e => hk e.2, hz _ _ _ (not_lt.1 hk)]
        unfold Setup.layer
        rw [hp]
        simp only [simpleLayer]
        rw [List.map_map, List.getD_eq_getElem?_getD, getD_map_idxOf D.rs r.1 ((hG.rs.2 r.1).2 r.2)]
        have hk' : (D.data i r.1).radial.length ≤ k := by rw [← data_aligned D i r.1]; exact not_lt.1 hk
        simp [hk']
    · rw [if_neg fun e => hi e.1, hz _ _ _ (by rw [length_data D i (not_lt.1 hi)]; exact Nat.zero_le _)]
      unfold Setup.layer
      rw [List.getElem?_eq_none (not_lt.1 hi)]
  · refine Eq.trans ?_ (h1 r i hi)
    exact congrArg (fun l : List (Pos d ℝ) => l.getD i 0)
      (dif_pos r.2 : (if hr : r.1 ∈ procs D.L then m ⟨r.1, hr⟩ else List.replicate n 0) = m r)

/-- `simple_layer`. -/
theorem exec_layer (hG : Good D Lp slv) (a : Abs d A) (σ : Rank D.L → Mem d A) (h : Rel D Lp a σ)
    (hz : ∀ r i k, (D.data i r).surf.length ≤ k → a.G r i k = 0) :
    ∃ σ' m c, Exec (fun _ => layerProg D Lp slv) σ σ' ∧ (∀ r, (m r).length = D.parts.length) ∧
      (∀ r, (c r).length = D.parts.length) ∧
      Rel D Lp { a with G := D.layer a.G, mean := m, cross := c } σ' := by
  obtain ⟨σ', m, c, h1, h2, h3, h4, -⟩ := exec_layer_mean hG a σ h hz
  exact ⟨σ', m, c, h1, h2, h3, h4⟩

/-! ### Projection -/

theorem project_local (hG : Good D Lp slv) (r : Rank D.L) (u u' : NodeVec d d ℝ) (hu : Work.Eqv D.L r.1 u u') (p : Part d A)
    (s : Pos d ℝ × A) :
    projectLoop D.S D.bf D.elem u p.contains p.center D.h D.scale ((getDMBounds D.L r.1 true).boxInside p.bbox) s =
      projectLoop D.S D.bf D.elem u' p.contains p.center D.h D.scale ((getDMBounds D.L r.1 true).boxInside p.bbox) s := by
  refine Work.iterate_rel (· = ·) _ _ _ (fun e he s s' hs => ?_) s s rfl
  refine Work.iterate_rel (· = ·) _ _ _ (fun ps _ s s' hs => ?_) s s' hs
  subst hs
  dsimp only
  rw [interp_local hG r u u' hu _ ((mem_boxInside _ _ _).1 he).1]

/-- What a process computes for one particle in `projection_impl`. -/
noncomputable def projOn (D : Setup d N A) (r : Fin d → ℕ) (la : NodeVec d d ℝ) (num : ℕ) (p : Part d A) : Pos d ℝ × A :=
  let t := if (getDMBounds D.L r true).intersect p.bbox then
    projectLoop D.S D.bf D.elem la p.contains p.center D.h D.scale ((getDMBounds D.L r true).boxInside p.bbox) (fun _ => 0, 0)
    else (fun _ => 0, 0)
  (vecDivScal t.1 (num : ℝ), (num : ℝ)⁻¹ • t.2)

/-- The body of the loop of `projection_impl`. -/
theorem exec_projBody (q : Part d A × ℕ) (σ : Rank D.L → Mem d A) (h1 : ∀ r, q.2 < (σ r).mean.length)
    (h2 : ∀ r, q.2 < (σ r).cross.length) :
    Exec (fun r => projBody D Lp slv r.1 q) σ fun r => { σ r with
      mean := (σ r).mean.set q.2 (projOn D r.1 (σ r).la ((σ r).num.getD q.2 0) q.1).1
      cross := (σ r).cross.set q.2 (projOn D r.1 (σ r).la ((σ r).num.getD q.2 0) q.1).2 } := by
  have e := exec_cons (exec_loc (C := comm (A := A) D.L Lp slv) (fun (_ : Rank D.L) (s : Mem d A) =>
      { s with mean := s.mean.set q.2 (fun _ => 0), cross := s.cross.set q.2 0 }) σ)
    (exec_cons (exec_ite_loc (fun (r : Rank D.L) (_ : Mem d A) => (getDMBounds D.L r.1 true).intersect q.1.bbox)
      (fun r s =>
        let t := projectLoop D.S D.bf D.elem s.la q.1.contains q.1.center D.h D.scale
          ((getDMBounds D.L r.1 true).boxInside q.1.bbox) (s.mean.getD q.2 0, s.cross.getD q.2 0)
        { s with mean := s.mean.set q.2 t.1, cross := s.cross.set q.2 t.2 }) _)
    (exec_cons (exec_loc (fun _ s => { s with
      mean := s.mean.set q.2 (vecDivScal (s.mean.getD q.2 0) (s.num.getD q.2 0 : ℝ))
      cross := s.cross.set q.2 ((s.num.getD q.2 0 : ℝ)⁻¹ • s.cross.getD q.2 0) }) _) (exec_nil _)))
  refine cast (congrArg _ (funext fun r => ?_)) e
  unfold projOn
  cases (getDMBounds D.L r.1 true).intersect q.1.bbox
  · simp only [Bool.false_eq_true, if_false, List.set_set, List.getD_eq_getElem?_getD]
    rw [List.getElem?_set_self (h1 r), List.getElem?_set_self (h2 r)]
    rfl
  · simp only [if_true, List.set_set, List.getD_eq_getElem?_getD]
    have l1 : q.2 < ((σ r).mean.set q.2 (fun _ => 0)).length := by rw [List.length_set]; exact h1 r
    rw [List.getElem?_set_self (h1 r), List.getElem?_set_self (h2 r)]
    simp only [Option.getD_some]
    rw [List.getElem?_set_self (h1 r), List.getElem?_set_self (h2 r)]
    rfl

/-- The loop of `projection_impl`. -/
theorem exec_projLoop (n : ℕ) (l : List (Part d A × ℕ)) (hl : ∀ q ∈ l, q.2 < n) (σ : Rank D.L → Mem d A)
    (h1 : ∀ r, (σ r).mean.length = n) (h2 : ∀ r, (σ r).cross.length = n) :
    Exec (fun r => seqs (l.map fun q => projBody D Lp slv r.1 q)) σ fun r => { σ r with
      mean := l.foldl (fun t q => t.set q.2 (projOn D r.1 (σ r).la ((σ r).num.getD q.2 0) q.1).1) (σ r).mean
      cross := l.foldl (fun t q => t.set q.2 (projOn D r.1 (σ r).la ((σ r).num.getD q.2 0) q.1).2) (σ r).cross } := by
  induction l generalizing σ with
  | nil => exact exec_skip σ
  | cons q l ih =>
    refine exec_cons (exec_projBody q σ (fun r => ?_) (fun r => ?_)) (ih (fun x hx => hl x (List.mem_cons_of_mem _ hx)) _
      (fun r => ?_) (fun r => ?_))
    · rw [h1 r]; exact hl q (List.mem_cons_self ..)
    · rw [h2 r]; exact hl q (List.mem_cons_self ..)
    · exact (List.length_set ..).trans (h1 r)
    · exact (List.length_set ..).trans (h2 r)

/-- The mean and the mean rotation of the particle `i`. -/
noncomputable def projAt (D : Setup d N A) (u : NodeVec d d ℝ) (r : Fin d → ℕ) (i : ℕ) : Pos d ℝ × A :=
  match D.parts[i]? with
  | some p => projection D.S D.L D.bf D.elem u p D.h D.scale (D.data i r).num
  | none => 0

theorem num_same (D : Setup d N A) (i : ℕ) (r s : Fin d → ℕ) : (D.data i r).num = (D.data i s).num := by
  unfold Setup.data
  cases D.parts[i]? <;> rfl

theorem getD_set_loop {α V : Type*} (v : α × ℕ → V) (l : List α) (t : List V) (ht : t.length = l.length) (i : ℕ)
    (hi : i < l.length) (v0 : V) : ((l.zipIdx).foldl (fun t q => t.set q.2 (v q)) t).getD i v0 = v (l[i], i) := by
  have := (foldl_set v l 0 t (by omega)).2 i
  rw [List.getD_eq_getElem?_getD, this]
  simp [hi]

/-- `projection`. -/
theorem exec_proj (hG : Good D Lp slv) (a : Abs d A) (σ : Rank D.L → Mem d A) (h : Rel D Lp a σ)
    (hm : ∀ r, (a.mean r).length = D.parts.length) (hc : ∀ r, (a.cross r).length = D.parts.length) :
    ∃ σ', Exec (fun r => projProg D Lp slv r.1) σ σ' ∧
      Rel D Lp { a with
        mean := fun r => (List.range D.parts.length).map fun i => (projAt D a.sol.1 r i).1
        cross := fun r => (List.range D.parts.length).map fun i => (projAt D a.sol.1 r i).2 } σ' := by
  set n := D.parts.length with hn
  set σ₁ : Rank D.L → Mem d A := fun r =>
      { σ r with la := fun p => if p ∈ (ghostWindow D.L r.1).visited then
          globalToLocal D.L (glue D.L (everywhere D.L fun j => (σ j).sol.1)) p else (σ r).la p } with hσ₁
  have hla : ∀ r, Work.Eqv D.L r.1 (σ₁ r).la (globalToLocal D.L a.sol.1) := fun r =>
    ghosts_eqv D.L hG.wf _ _ _ h.sol1 r
  have e1 : Exec (fun r => readGhosts D Lp slv r.1 fun s => s.sol.1) σ σ₁ := exec_ghosts _ _
  have l1 : ∀ r, (σ₁ r).mean.length = n := fun r => (congrArg List.length (h.mean r)).trans (hm r.1)
  have l2 : ∀ r, (σ₁ r).cross.length = n := fun r => (congrArg List.length (h.cross r)).trans (hc r.1)
  have e2 := exec_projLoop (Lp := Lp) (slv := slv) n D.parts.zipIdx (fun q hq => by
    obtain ⟨_, h2, _⟩ := List.mem_zipIdx (k := 0) hq
    omega) σ₁ l1 l2
  set σ₂ : Rank D.L → Mem d A := fun r => { σ₁ r with
      mean := D.parts.zipIdx.foldl (fun t q => t.set q.2 (projOn D r.1 (σ₁ r).la ((σ₁ r).num.getD q.2 0) q.1).1) (σ₁ r).mean
      cross := D.parts.zipIdx.foldl (fun t q => t.set q.2 (projOn D r.1 (σ₁ r).la ((σ₁ r).num.getD q.2 0) q.1).2)
        (σ₁ r).cross } with hσ₂
  have e3 := exec_reduce (Lp := Lp) (slv := slv) n σ₂
    (fun r => ((foldl_set _ D.parts 0 (σ₁ r).mean (by rw [l1 r]; omega)).1).trans (l1 r))
    (fun r => ((foldl_set _ D.parts 0 (σ₁ r).cross (by rw [l2 r]; omega)).1).trans (l2 r))
  have hon : ∀ (r j : Rank D.L) (i : ℕ) (p : Part d A), projOn D j.1 (σ₁ j).la ((σ₁ j).num.getD i 0) p =
      projOn D j.1 (globalToLocal D.L a.sol.1) (D.data i r.1).num p := fun r j i p => by
    have hnum : (σ₁ j).num.getD i 0 = (D.data i r.1).num := (h.num j i).trans (num_same D i _ _)
    unfold projOn
    rw [project_local hG j _ _ (hla j), hnum]
  refine ⟨_, exec_cons e1 (exec_cons e2 (exec_cons e3 (exec_nil _))), h.flags, h.x, h.rhs1, h.rhs2, h.sol1, h.sol2,
    h.surf, h.radial, h.nb, h.num, h.g, fun r => ?_, fun r => ?_⟩
  · show sumLists n (fun j => (σ₂ j).mean) = _
    unfold sumLists
    refine List.map_congr_left fun i hi => ?_
    have hi' : i < D.parts.length := List.mem_range.1 hi
    have hp : projAt D a.sol.1 r.1 i = projection D.S D.L D.bf D.elem a.sol.1 D.parts[i] D.h D.scale (D.data i r.1).num := by
      unfold projAt
      rw [List.getElem?_eq_getElem hi']
    rw [hp]
    refine (Finset.sum_congr rfl fun j _ => ((getD_set_loop _ D.parts _ (l1 j) i hi' _).trans
      (congrArg Prod.fst (hon r j i _)))).trans ?_
    exact Finset.sum_coe_sort (procs D.L) fun s => (projOn D s (globalToLocal D.L a.sol.1) (D.data i r.1).num D.parts[i]).1
  · show sumLists n (fun j => (σ₂ j).cross) = _
    unfold sumLists
    refine List.map_congr_left fun i hi => ?_
    have hi' : i < D.parts.length := List.mem_range.1 hi
    have hp : projAt D a.sol.1 r.1 i = projection D.S D.L D.bf D.elem a.sol.1 D.parts[i] D.h D.scale (D.data i r.1).num := by
      unfold projAt
      rw [List.getElem?_eq_getElem hi']
    rw [hp]
    refine (Finset.sum_congr rfl fun j _ => ((getD_set_loop _ D.parts _ (l2 j) i hi' _).trans
      (congrArg Prod.snd (hon r j i _)))).trans ?_
    exact Finset.sum_coe_sort (procs D.L) fun s => (projOn D s (globalToLocal D.L a.sol.1) (D.data i r.1).num D.parts[i]).2

/-! ### Materials -/

/-- What a process finds for a particle before the reductions. -/
noncomputable def locData (D : Setup d N A) (r : Fin d → ℕ) (p : Option (Part d A)) : PartData d :=
  match p with
  | some p => (partMaterials D.fluid (getDMBounds D.L r true) D.h D.scale p PartData.empty).1
  | none => PartData.empty

/-- The body of the loop of `set_materials` on one process. -/
noncomputable def matBody (D : Setup d N A) (r : Fin d → ℕ) (q : Part d A × ℕ) (s : Mem d A) : Mem d A :=
  if (getDMBounds D.L r true).intersect q.1.bbox then
    let t := (partMaterials D.fluid (getDMBounds D.L r true) D.h D.scale q.1
      ⟨s.surf q.2, s.radial q.2, s.nb.getD q.2 0, s.num.getD q.2 0⟩).1
    { s with
      surf := Function.update s.surf q.2 t.surf
      radial := Function.update s.radial q.2 t.radial
      nb := s.nb.set q.2 t.nb
      num := s.num.set q.2 t.num }
  else s

/-- The particle `i` has these data in the memory. -/
def HasData (s : Mem d A) (i : ℕ) (t : PartData d) : Prop :=
  s.surf i = t.surf ∧ s.radial i = t.radial ∧ s.nb.getD i 0 = t.nb ∧ s.num.getD i 0 = t.num

theorem matBody_spec (D : Setup d N A) (r : Fin d → ℕ) (p : Part d A) (k n : ℕ) (hk : k < n) (s : Mem d A)
    (hn : s.nb.length = n) (hm : s.num.length = n) (h0 : HasData s k PartData.empty) :
    (matBody D r (p, k) s).nb.length = n ∧ (matBody D r (p, k) s).num.length = n ∧
    HasData (matBody D r (p, k) s) k (locData D r (some p)) ∧
    ∀ i t, i ≠ k → HasData s i t → HasData (matBody D r (p, k) s) i t := by
  obtain ⟨a1, a2, a3, a4⟩ := h0
  cases hc : (getDMBounds D.L r true).intersect p.bbox with
  | false =>
    have e : matBody D r (p, k) s = s := if_neg (by simp [hc])
    rw [e]
    refine ⟨hn, hm, ?_, fun i t _ h => h⟩
    have : locData D r (some p) = PartData.empty := by
      show (partMaterials _ _ _ _ p PartData.empty).1 = _
      unfold partMaterials
      rw [hc]
      rfl
    rw [this]
    exact ⟨a1, a2, a3, a4⟩
  | true =>
    have e : matBody D r (p, k) s = { s with
        surf := Function.update s.surf k (locData D r (some p)).surf
        radial := Function.update s.radial k (locData D r (some p)).radial
        nb := s.nb.set k (locData D r (some p)).nb
        num := s.num.set k (locData D r (some p)).num } := by
      unfold matBody
      rw [hc]
      simp only [if_true, a1, a2, a3, a4]
      rfl
    rw [e]
    refine ⟨(List.length_set ..).trans hn, (List.length_set ..).trans hm,
      ⟨Function.update_self .., Function.update_self .., ?_, ?_⟩, fun i t hi h =>
      ⟨(Function.update_of_ne hi ..).trans h.1, (Function.update_of_ne hi ..).trans h.2.1, ?_, ?_⟩⟩
    · show (s.nb.set k _).getD k 0 = _
      rw [List.getD_eq_getElem?_getD, List.getElem?_set_self (by omega)]; rfl
    · show (s.num.set k _).getD k 0 = _
      rw [List.getD_eq_getElem?_getD, List.getElem?_set_self (by omega)]; rfl
    · show (s.nb.set k _).getD i 0 = _
      rw [List.getD_eq_getElem?_getD, List.getElem?_set_ne (Ne.symm hi), ← List.getD_eq_getElem?_getD]; exact h.2.2.1
    · show (s.num.set k _).getD i 0 = _
      rw [List.getD_eq_getElem?_getD, List.getElem?_set_ne (Ne.symm hi), ← List.getD_eq_getElem?_getD]; exact h.2.2.2

theorem matLoop_spec (D : Setup d N A) (r : Fin d → ℕ) (n : ℕ) : ∀ (l : List (Part d A)) (k : ℕ) (s : Mem d A),
    k + l.length ≤ n → s.nb.length = n → s.num.length = n → (∀ i, k ≤ i → HasData s i PartData.empty) →
    ((l.zipIdx k).foldl (fun s q => matBody D r q s) s).nb.length = n ∧
    ((l.zipIdx k).foldl (fun s q => matBody D r q s) s).num.length = n ∧
    (∀ i t, i < k → HasData s i t → HasData ((l.zipIdx k).foldl (fun s q => matBody D r q s) s) i t) ∧
    ∀ i, k ≤ i → HasData ((l.zipIdx k).foldl (fun s q => matBody D r q s) s) i (locData D r l[i - k]?) := by
  intro l
  induction l with
  | nil => exact fun k s _ h1 h2 h3 => ⟨h1, h2, fun _ _ _ h => h, fun i hi => by rw [List.getElem?_nil]; exact h3 i hi⟩
  | cons p l ih =>
    intro k s hk h1 h2 h3
    simp only [List.length_cons] at hk
    obtain ⟨b1, b2, b3, b4⟩ := matBody_spec D r p k n (by omega) s h1 h2 (h3 k le_rfl)
    obtain ⟨c1, c2, c3, c4⟩ := ih (k + 1) (matBody D r (p, k) s) (by omega) b1 b2
      fun i hi => b4 i _ (by omega) (h3 i (by omega))
    rw [List.zipIdx_cons, List.foldl_cons]
    refine ⟨c1, c2, fun i t hi h => c3 i t (by omega) (b4 i t (by omega) h), fun i hi => ?_⟩
    by_cases e : i = k
    · subst e
      rw [Nat.sub_self]
      exact c3 i _ (by omega) b3
    · have := c4 i (by omega)
      rwa [show i - k = (i - (k + 1)) + 1 by omega, List.getElem?_cons_succ]

/-- The processes have the surface points and the counts of `set_materials`. -/
structure Ready (D : Setup d N A) (σ : Rank D.L → Mem d A) : Prop where
  surf : ∀ r i, (σ r).surf i = (D.data i r.1).surf
  radial : ∀ r i, (σ r).radial i = (D.data i r.1).radial
  nb : ∀ r i, (σ r).nb.getD i 0 = (D.data i r.1).nb
  num : ∀ r i, (σ r).num.getD i 0 = (D.data i r.1).num

theorem exec_matBody (q : Part d A × ℕ) (σ : Rank D.L → Mem d A) :
    Exec (fun r => materialsBody D Lp slv r.1 q) σ fun r => matBody D r.1 q (σ r) :=
  exec_ite_loc _ _ _

/-- The loop on the particles leaves the vectors. -/
theorem matLoop_keep (D : Setup d N A) (r : Fin d → ℕ) (l : List (Part d A × ℕ)) (s : Mem d A) :
    (l.foldl (fun s q => matBody D r q s) s).rhs = s.rhs ∧ (l.foldl (fun s q => matBody D r q s) s).sol = s.sol := by
  induction l generalizing s with
  | nil => exact ⟨rfl, rfl⟩
  | cons q l ih =>
    rw [List.foldl_cons]
    have h : (matBody D r q s).rhs = s.rhs ∧ (matBody D r q s).sol = s.sol := by
      unfold matBody
      split <;> exact ⟨rfl, rfl⟩
    exact ⟨(ih _).1.trans h.1, (ih _).2.trans h.2⟩

/-- `set_materials`. -/
theorem exec_materials (σ : Rank D.L → Mem d A) :
    ∃ σ', Exec (fun r => materialsProg D Lp slv r.1) σ σ' ∧ Ready D σ' ∧
      ∀ r, (σ' r).rhs = (σ r).rhs ∧ (σ' r).sol = (σ r).sol := by
  set n := D.parts.length with hn
  set σ₁ : Rank D.L → Mem d A := fun r => { σ r with
    surf := fun _ => [], radial := fun _ => []
    nb := List.replicate D.parts.length 0, num := List.replicate D.parts.length 0 } with hσ₁
  have e2 : Exec (fun r => seqs (D.parts.zipIdx.map fun q => materialsBody D Lp slv r.1 q)) σ₁ _ :=
    exec_loop D.parts.zipIdx (fun q r => materialsBody D Lp slv r.1 q) (fun q r s => matBody D r.1 q s)
      (fun q _ σ => exec_matBody q σ) σ₁
  set σ₂ : Rank D.L → Mem d A := fun r => D.parts.zipIdx.foldl (fun s q => matBody D r.1 q s) (σ₁ r) with hσ₂
  have h2 := fun r : Rank D.L => matLoop_spec D r.1 n D.parts 0 (σ₁ r) (by omega) (by simp [hσ₁, ← hn])
    (by simp [hσ₁, ← hn]) fun i _ => ⟨rfl, rfl, by
      show (List.replicate D.parts.length 0).getD i 0 = 0
      simp [List.getD_eq_getElem?_getD, List.getElem?_replicate]; split <;> rfl, by
      show (List.replicate D.parts.length 0).getD i 0 = 0
      simp [List.getD_eq_getElem?_getD, List.getElem?_replicate]; split <;> rfl⟩
  have l1 : ∀ r, (σ₂ r).nb.length = n := fun r => (h2 r).1
  have l2 : ∀ r, (σ₂ r).num.length = n := fun r => (h2 r).2.1
  have hd : ∀ r i, HasData (σ₂ r) i (locData D r.1 D.parts[i]?) := fun r i => (h2 r).2.2.2 i (Nat.zero_le _)
  have e3 : Exec (C := comm (A := A) D.L Lp slv) (fun _ => .coll Kind.sumInt (fun _ => D.parts.length) (fun s => s.nb)
      fun s (v : List ℕ) => { s with nb := v }) σ₂ fun r => { σ₂ r with nb := sumLists n fun j => (σ₂ j).nb } := by
    have := exec_coll (C := comm (A := A) D.L Lp slv) Kind.sumInt (fun _ _ => D.parts.length) (fun _ s => s.nb)
      (fun _ s (v : List ℕ) => { s with nb := v }) σ₂ n fun r => rfl
    refine cast (congrArg _ (funext fun r => ?_)) this
    show ({ σ₂ r with nb := sumLists (σ₂ r).nb.length fun j => (σ₂ j).nb } : Mem d A) = _
    rw [l1 r]
  have e4 : Exec (C := comm (A := A) D.L Lp slv) (fun _ => .coll Kind.sumInt (fun _ => D.parts.length) (fun s => s.num)
      fun s (v : List ℕ) => { s with num := v }) (fun r => { σ₂ r with nb := sumLists n fun j => (σ₂ j).nb })
      fun r => { σ₂ r with nb := sumLists n fun j => (σ₂ j).nb, num := sumLists n fun j => (σ₂ j).num } := by
    have := exec_coll (C := comm (A := A) D.L Lp slv) Kind.sumInt (fun _ _ => D.parts.length) (fun _ s => s.num)
      (fun _ s (v : List ℕ) => { s with num := v }) (fun r => { σ₂ r with nb := sumLists n fun j => (σ₂ j).nb }) n fun r => rfl
    refine cast (congrArg _ (funext fun r => ?_)) this
    show ({ σ₂ r with
      nb := sumLists n fun j => (σ₂ j).nb
      num := sumLists (σ₂ r).num.length fun j => (σ₂ j).num } : Mem d A) = _
    rw [l2 r]
  refine ⟨_, exec_cons (exec_loc _ _) (exec_cons e2 (exec_cons e3 (exec_cons e4 (exec_nil _)))),
    ⟨fun r i => ?_, fun r i => ?_, fun r i => ?_, fun r i => ?_⟩, fun r => ?_⟩
  · refine (hd r i).1.trans ?_
    unfold Setup.data locData
    cases D.parts[i]? <;> rfl
  · refine (hd r i).2.1.trans ?_
    unfold Setup.data locData
    cases D.parts[i]? <;> rfl
  · show (sumLists n fun j => (σ₂ j).nb).getD i 0 = _
    by_cases hi : i < n
    · rw [sumLists_getD n _ i hi, Finset.sum_congr rfl fun j _ => (hd j i).2.2.1]
      unfold Setup.data
      rw [List.getElem?_eq_getElem hi]
      exact Finset.sum_coe_sort (procs D.L) fun s => (locData D s (some D.parts[i])).nb
    · rw [List.getD_eq_getElem?_getD, List.getElem?_eq_none (by rw [length_sumLists]; omega)]
      unfold Setup.data
      rw [List.getElem?_eq_none (by omega)]
      rfl
  · show (sumLists n fun j => (σ₂ j).num).getD i 0 = _
    by_cases hi : i < n
    · rw [sumLists_getD n _ i hi, Finset.sum_congr rfl fun j _ => (hd j i).2.2.2]
      unfold Setup.data
      rw [List.getElem?_eq_getElem hi]
      exact Finset.sum_coe_sort (procs D.L) fun s => (locData D s (some D.parts[i])).num
    · rw [List.getD_eq_getElem?_getD, List.getElem?_eq_none (by rw [length_sumLists]; omega)]
      unfold Setup.data
      rw [List.getElem?_eq_none (by omega)]
      rfl
  · exact matLoop_keep D r.1 _ (σ₁ r)

end Cafes.Spmd
