/-
The reports of SEM: the programs of the processes compute the reports of Verif/Model/SemPost.lean.
-/
import Verif.Spec.Report
import Verif.Lemmas.SpmdCtl
import Verif.Props.SemPost

namespace Cafes.Spmd
open Cafes Cafes.Particle Cafes.Driver Cafes.Geometry Cafes.Props

set_option linter.unusedSectionVars false
variable {d N : ℕ} {A : Type} [AddCommGroup A] [Module ℝ A] {D : Setup d N A} {Lp : Fin d → Dir}
  {slv : NodeVec d d ℝ × NodeVec d 1 ℝ → NodeVec d d ℝ × NodeVec d 1 ℝ}

theorem exec_outer {p : Rank D.L → DCode D Lp slv} {σ : Rank D.L → RMem d A} {σ' : Rank D.L → DMem d A}
    (h : Exec p (fun r => (σ r).base) σ') :
    Exec (fun r => outer D Lp slv (p r)) σ fun r => { σ r with base := σ' r } :=
  exec_lift RMem.base (fun m s => { m with base := s }) (fun _ _ => rfl) (fun _ _ _ => rfl) (fun _ => rfl) h

theorem nb_same (D : Setup d N A) (i : ℕ) (r s : Fin d → ℕ) : (D.data i r).nb = (D.data i s).nb := by
  unfold Setup.data
  cases D.parts[i]? <;> rfl

/-- The mean of the surface values of the particle `i`. -/
theorem surfaceMean_eq (hG : Good D Lp slv) (u : NodeVec d d ℝ) (r s : Fin d → ℕ) (i : ℕ) (hi : i < D.parts.length) :
    D.surfaceMean u r i = vecDivScal (∑ j : Rank D.L, (List.range (D.data i j.1).surf.length).foldl
      (fun m k => vecAddVec m (D.interp u j.1 i k)) (fun _ => 0)) ((D.data i s).nb : ℝ) := by
  have hl : ∀ s, (D.data i s).surf.length = (D.data i s).radial.length := fun s => data_aligned D i s
  unfold Setup.surfaceMean
  rw [List.getElem?_eq_getElem hi, nb_same D i s r]
  simp only [simpleLayer]
  rw [List.map_map]
  have hm : D.rs.map ((fun l : List (Pos d ℝ × Pos d ℝ) => l.foldl (fun m x => vecAddVec m x.1) (fun _ => (0 : ℝ))) ∘
      fun r' => (D.data i r').radial.zipIdx.map fun x => (D.interp u r' i x.2, x.1)) =
      D.rs.map fun s => (List.range (D.data i s).surf.length).foldl (fun m k => vecAddVec m (D.interp u s i k))
        (fun _ => 0) := by
    refine List.map_congr_left fun s _ => ?_
    simp only [Function.comp]
    rw [List.foldl_map, foldl_zipIdx _ 0 (fun m _ k => vecAddVec m (D.interp u s i k)), hl s]
  rw [hm, sum_procs D.L D.rs hG.rs (fun s => (List.range (D.data i s).surf.length).foldl
    (fun m k => vecAddVec m (D.interp u s i k)) (fun _ => 0))]

/-! ### The forces only look at the entries of the control -/

theorem forceLoop_congr (S : Spin d A) (h : Pos d ℝ) (pc pc' : ℕ → ℝ) (center : Pos d ℝ) (nodes : List (Pos d ℤ)) :
    ∀ s : ℕ × Pos d ℝ × A, (∀ e < s.1 + d * nodes.length, pc e = pc' e) →
      forceLoop S h pc center nodes s = forceLoop S h pc' center nodes s ∧
      (forceLoop S h pc center nodes s).1 = s.1 + d * nodes.length := by
  have inner : ∀ (l : List (Fin d)) (t : ℕ × Pos d ℝ × Pos d ℝ), (∀ e < t.1 + l.length, pc e = pc' e) →
      l.foldl (fun (t : ℕ × Pos d ℝ × Pos d ℝ) c =>
        (t.1 + 1, Function.update t.2.1 c (t.2.1 c + pc t.1), Function.update t.2.2 c (pc t.1))) t =
      l.foldl (fun (t : ℕ × Pos d ℝ × Pos d ℝ) c =>
        (t.1 + 1, Function.update t.2.1 c (t.2.1 c + pc' t.1), Function.update t.2.2 c (pc' t.1))) t ∧
      (l.foldl (fun (t : ℕ × Pos d ℝ × Pos d ℝ) c =>
        (t.1 + 1, Function.update t.2.1 c (t.2.1 c + pc t.1), Function.update t.2.2 c (pc t.1))) t).1 = t.1 + l.length := by
    intro l
    induction l with
    | nil => exact fun t _ => ⟨rfl, rfl⟩
    | cons c l ih =>
      intro t ht
      rw [List.foldl_cons, List.foldl_cons]
      beta_reduce
      rw [ht t.1 (by simp)]
      obtain ⟨h1, h2⟩ := ih (t.1 + 1, Function.update t.2.1 c (t.2.1 c + pc' t.1), Function.update t.2.2 c (pc' t.1))
        fun e he => ht e (by simp only [List.length_cons] at he ⊢; omega)
      exact ⟨h1, h2.trans (by simp only [List.length_cons]; omega)⟩
  induction nodes with
  | nil => exact fun s _ => ⟨rfl, by simp [forceLoop]⟩
  | cons k nodes ih =>
    intro s hs
    have hs' : ∀ e < s.1 + d, pc e = pc' e := fun e he => hs e (by
      simp only [List.length_cons, Nat.mul_add, Nat.mul_one]; omega)
    obtain ⟨i1, i2⟩ := inner (List.finRange d) (s.1, s.2.1, fun _ => 0) (by simpa using hs')
    have i2' := i2.trans (congrArg (s.1 + ·) (List.length_finRange (n := d)))
    unfold forceLoop at ih ⊢
    rw [List.foldl_cons, List.foldl_cons]
    dsimp only
    rw [← i1]
    set t := (List.finRange d).foldl (fun (t : ℕ × Pos d ℝ × Pos d ℝ) c =>
        (t.1 + 1, Function.update t.2.1 c (t.2.1 c + pc t.1), Function.update t.2.2 c (pc t.1)))
        (s.1, s.2.1, fun _ => 0) with ht
    obtain ⟨h1, h2⟩ := ih (t.1, t.2.1, s.2.2 + S.cross (fun i => k i * h i - center i) t.2.2) fun e he => hs e (by
      have he' : e < t.1 + d * nodes.length := he
      rw [i2'] at he'
      simp only [List.length_cons, Nat.mul_add, Nat.mul_one]; omega)
    refine ⟨h1, h2.trans ?_⟩
    show t.1 + d * nodes.length = _
    rw [i2', List.length_cons, Nat.mul_add]; omega

theorem localForces_congr (S : Spin d A) (fluid : (Pos d ℝ → Bool) → Box d ℤ → Pos d ℝ → List (Pos d ℤ))
    (box : Box d ℤ) (h : Pos d ℝ) (pc pc' : ℕ → ℝ) (parts : List (Part d A × ℕ))
    (hp : ∀ e < (layout (partNodes fluid Box.boxInside box h) (parts.map Prod.fst)).length, pc e = pc' e) :
    localForces S fluid box h pc parts = localForces S fluid box h pc' parts := by
  unfold localForces
  have gen : ∀ (parts : List (Part d A × ℕ)) (s : ℕ × List (Pos d ℝ × A)),
      (∀ e < s.1 + (layout (partNodes fluid Box.boxInside box h) (parts.map Prod.fst)).length, pc e = pc' e) →
      parts.foldl (fun s q =>
        let t := forceLoop S h pc q.1.center (partNodes fluid Box.overlap box h q.1) (s.1, fun _ => 0, 0)
        (t.1, s.2 ++ [(vecMulScal t.2.1 (q.1.volume / (q.2 : ℝ)), (q.1.volume / (q.2 : ℝ)) • t.2.2)])) s =
      parts.foldl (fun s q =>
        let t := forceLoop S h pc' q.1.center (partNodes fluid Box.overlap box h q.1) (s.1, fun _ => 0, 0)
        (t.1, s.2 ++ [(vecMulScal t.2.1 (q.1.volume / (q.2 : ℝ)), (q.1.volume / (q.2 : ℝ)) • t.2.2)])) s := by
    intro parts
    induction parts with
    | nil => exact fun _ _ => rfl
    | cons q parts ih =>
      intro s hs
      have hlen : (layout (partNodes fluid Box.boxInside box h) ((q :: parts).map Prod.fst)).length =
          d * (partNodes fluid Box.overlap box h q.1).length +
          (layout (partNodes fluid Box.boxInside box h) (parts.map Prod.fst)).length := by
        rw [overlap_eq_boxInside]
        simp [length_layout]
        ring
      rw [hlen] at hs
      obtain ⟨h1, h2⟩ := forceLoop_congr S h pc pc' q.1.center (partNodes fluid Box.overlap box h q.1)
        (s.1, (fun _ => 0), (0 : A)) fun e he => hs e (by
          have he' : e < s.1 + d * (partNodes fluid Box.overlap box h q.1).length := he
          omega)
      rw [List.foldl_cons, List.foldl_cons]
      dsimp only
      rw [← h1]
      refine ih _ fun e he => hs e ?_
      dsimp only at he
      rw [h2] at he
      dsimp only at he
      omega
  exact gen parts (0, []) fun e he => hp e (by
    have he' : e < 0 + _ := he
    omega)

theorem newForces_congr {X X' : (Fin d → ℕ) → ℕ → ℝ} (h : SameCtl D X X') (i : ℕ) :
    D.newForces X i = D.newForces X' i := by
  have hl : ∀ r ∈ procs D.L, (localForces D.S D.fluid (getDMBounds D.L r true) D.h (X r)
      (D.parts.zipIdx.map fun p => (p.1, (D.data p.2 r).num))).2 =
      (localForces D.S D.fluid (getDMBounds D.L r true) D.h (X' r)
      (D.parts.zipIdx.map fun p => (p.1, (D.data p.2 r).num))).2 := fun r hr => by
    rw [localForces_congr _ _ _ _ (X r) (X' r)]
    intro e he
    refine h r hr e ?_
    have hm : (D.parts.zipIdx.map fun p => (p.1, (D.data p.2 r).num)).map Prod.fst = D.parts := by
      rw [List.map_map]
      exact List.zipIdx_map_fst 0 D.parts
    rw [hm, length_slots (scale := D.scale)] at he
    exact he
  unfold Setup.newForces
  dsimp only
  unfold allReduce
  exact Prod.ext (Finset.sum_congr rfl fun r hr => by beta_reduce; rw [hl r hr])
    (Finset.sum_congr rfl fun r hr => by beta_reduce; rw [hl r hr])

/-! ### The tasks -/

/-- The processes hold the vectors and have been told the same. -/
def Informed (D : Setup d N A) (Lp : Fin d → Dir) (t : Ctl d × Told d A) (σ : Rank D.L → RMem d A) : Prop :=
  Inside D Lp t.1 (fun r => (σ r).base) ∧ Agreed D t.2 σ ∧ t.2.vel.length = D.parts.length

theorem trip_outer {p : Rank D.L → DCode D Lp slv} {P Q : (Rank D.L → DMem d A) → Prop} (h : Trip p P Q) (told : Told d A) :
    Trip (fun r => outer D Lp slv (p r)) (fun σ => P (fun r => (σ r).base) ∧ Agreed D told σ)
      fun σ => Q (fun r => (σ r).base) ∧ Agreed D told σ := by
  intro σ hσ
  obtain ⟨σ', e, h'⟩ := h _ hσ.1
  exact ⟨_, exec_outer e, h', hσ.2⟩

theorem trip_velocities (hG : Good D Lp slv) (t : Ctl d × Told d A) :
    Trip (fun r => Task.velocities.prog D Lp slv r.1) (Informed D Lp t) (Informed D Lp (Task.velocities.run D slv t)) := by
  intro σ h
  obtain ⟨h, hA, hn⟩ := h
  obtain ⟨a, ha, a1, a3, a4⟩ : ∃ a : Abs d A, Rel D Lp a (fun r => (σ r).base.base) ∧ a.fl = t.1.fl ∧ a.rhs = t.1.fRhs ∧
      a.sol = t.1.fSol := by
    obtain ⟨a, ha, a1, -, a3, a4⟩ := h.rel 0
    refine ⟨{ a with X := fun r => if h : r ∈ procs D.L then (σ ⟨r, h⟩).base.base.x else 0 }, ?_, a1, a3, a4⟩
    refine ⟨ha.flags, fun r => ?_, ha.rhs1, ha.rhs2, ha.sol1, ha.sol2, ha.surf, ha.radial, ha.nb, ha.num, ha.g, ha.mean, ha.cross⟩
    show (σ r).base.base.x = dite _ _ _
    rw [dif_pos r.2]
  obtain ⟨σ₁, e1, h1⟩ := exec_interp hG (fun _ => false) false a _ ha fun _ _ => rfl
  have h1' : Rel D Lp { a with G := D.interp a.sol.1 } σ₁ := h1
  obtain ⟨σ₂, m, c, e2, hm, hc, h2, hmean⟩ := exec_layer_mean hG _ σ₁ h1' fun r i k hk => by
    show (match (D.data i r).surf[k]? with
      | some pt => interpPoint D.bf D.elem (globalToLocal D.L _) pt
      | none => 0) = 0
    rw [List.getElem?_eq_none hk]
  have E1 := exec_outer (σ := σ) (exec_inner (σ := fun r => (σ r).base) e1)
  have E2 := exec_outer (σ := fun r => { σ r with base := { (σ r).base with base := σ₁ r } })
    (exec_inner (σ := fun r => { (σ r).base with base := σ₁ r }) e2)
  refine ⟨_, exec_cons E1 (exec_cons E2 (exec_cons (exec_loc _ _) (exec_nil _))), ⟨?_, ⟨h2.surf, h2.radial, h2.nb, h2.num⟩⟩,
    ?_, ?_⟩
  · refine ⟨fun r => (h2.flags r).trans a1, h.1.scalars, h.1.control, fun r p hp => ?_, fun r p hp => ?_, fun r p hp => ?_,
      fun r p hp => ?_⟩
    · exact (h2.rhs1 r p hp).trans (congrFun (congrArg Prod.fst a3) p)
    · exact (h2.rhs2 r p hp).trans (congrFun (congrArg Prod.snd a3) p)
    · exact (h2.sol1 r p hp).trans (congrFun (congrArg Prod.fst a4) p)
    · exact (h2.sol2 r p hp).trans (congrFun (congrArg Prod.snd a4) p)
  · intro r
    refine ⟨?_, (hA r).2.1, (hA r).2.2⟩
    show ((σ r).vel.mapIdx fun i v => (List.finRange d).foldl (fun v c => Function.update v c ((σ₂ r).mean.getD i 0 c)) v) =
      (D.newVelocities t.1.fSol.1 0).map fun p => p.velocity
    have hl : (σ r).vel.length = D.parts.length := by rw [(hA r).1]; exact hn
    refine List.ext_getElem (by simp [Setup.newVelocities, hl]) fun i hi hi' => ?_
    have hip : i < D.parts.length := by simpa [hl] using hi
    rw [List.getElem_mapIdx, update_loop]
    simp only [Setup.newVelocities, List.getElem_map, List.getElem_zipIdx, update_loop]
    rw [h2.mean r, hmean r i hip, ← a4, Nat.zero_add, surfaceMean_eq hG a.sol.1 0 r.1 i hip]
  · show ((D.newVelocities t.1.fSol.1 0).map fun p => p.velocity).length = _
    simp [Setup.newVelocities]

theorem trip_forces (t : Ctl d × Told d A) :
    Trip (fun r => Task.forces.prog D Lp slv r.1) (Informed D Lp t) (Informed D Lp (Task.forces.run D slv t)) := by
  intro σ h
  obtain ⟨h, hA, hn⟩ := h
  set X : (Fin d → ℕ) → ℕ → ℝ := fun r => if h : r ∈ procs D.L then (σ ⟨r, h⟩).base.v 0 else 0 with hX
  have hs : SameCtl D X (t.1.v 0) := fun r hr e he => by
    show (if h : r ∈ procs D.L then (σ ⟨r, h⟩).base.v 0 else 0) e = t.1.v 0 r e
    rw [dif_pos hr]
    exact h.1.control 0 ⟨r, hr⟩ e he
  have hx : ∀ r : Rank D.L, (σ r).base.v 0 = X r.1 := fun r => by
    show _ = dite _ _ _
    rw [dif_pos r.2]
  obtain ⟨σ₂, e2, hr, hl, hv, hk⟩ := exec_forces_keep (Lp := Lp) (slv := slv) X
    (fun r => { (σ r).base.base with x := (σ r).base.v 0 }) ⟨h.2.surf, h.2.radial, h.2.nb, h.2.num⟩ hx
  have E1 : Exec (fun r => outer D Lp slv (.loc fun m => { m with base := { m.base with x := m.v 0 } })) σ
      fun r => { σ r with base := { (σ r).base with base := { (σ r).base.base with x := (σ r).base.v 0 } } } :=
    exec_outer (exec_loc _ _)
  have E2 := exec_outer (σ := fun r => { σ r with base := { (σ r).base with base :=
      { (σ r).base.base with x := (σ r).base.v 0 } } })
    (exec_inner (σ := fun r => { (σ r).base with base := { (σ r).base.base with x := (σ r).base.v 0 } }) e2)
  refine ⟨_, exec_cons E1 (exec_cons E2 (exec_cons (exec_loc _ _) (exec_nil _))), ⟨?_, ⟨hr.surf, hr.radial, hr.nb, hr.num⟩⟩,
    ?_, hn⟩
  · refine ⟨fun r => ((hk r).1).trans (h.1.flags r), h.1.scalars, h.1.control, fun r p hp => ?_, fun r p hp => ?_,
      fun r p hp => ?_, fun r p hp => ?_⟩
    · exact (congrFun (congrArg Prod.fst (hk r).2.1) p).trans (h.1.rhsV r p hp)
    · exact (congrFun (congrArg Prod.snd (hk r).2.1) p).trans (h.1.rhsP r p hp)
    · exact (congrFun (congrArg Prod.fst (hk r).2.2) p).trans (h.1.solV r p hp)
    · exact (congrFun (congrArg Prod.snd (hk r).2.2) p).trans (h.1.solP r p hp)
  · intro r
    refine ⟨(hA r).1, ?_, ?_⟩
    · show (σ₂ r).mean = (List.range D.parts.length).map fun i => (D.newForces (t.1.v 0) i).1
      refine List.ext_getElem (by simp [(hl r).1]) fun i hi hi' => ?_
      have hip : i < D.parts.length := by rw [← (hl r).1]; exact hi
      have := (hv r i hip).1
      rw [List.getD_eq_getElem?_getD, List.getElem?_eq_getElem hi, Option.getD_some] at this
      rw [this, newForces_congr hs]
      simp
    · show (σ₂ r).cross = (List.range D.parts.length).map fun i => (D.newForces (t.1.v 0) i).2
      refine List.ext_getElem (by simp [(hl r).2]) fun i hi hi' => ?_
      have hip : i < D.parts.length := by rw [← (hl r).2]; exact hi
      have := (hv r i hip).2
      rw [List.getD_eq_getElem?_getD, List.getElem?_eq_getElem hi, Option.getD_some] at this
      rw [this, newForces_congr hs]
      simp

theorem trip_task (hG : Good D Lp slv) (k : Task) (t : Ctl d × Told d A) :
    Trip (fun r => k.prog D Lp slv r.1) (Informed D Lp t) (Informed D Lp (k.run D slv t)) := by
  cases k with
  | cmd c =>
    intro σ h
    obtain ⟨σ', e, h1, h2⟩ := trip_outer (trip_cmd hG c t.1) t.2 σ ⟨h.1, h.2.1⟩
    exact ⟨σ', e, h1, h2, h.2.2⟩
  | velocities => exact trip_velocities hG t
  | forces => exact trip_forces t

theorem trip_tasks (hG : Good D Lp slv) (ts : List Task) : ∀ t : Ctl d × Told d A,
    Trip (fun r => seqs (ts.map fun k => k.prog D Lp slv r.1)) (Informed D Lp t) (Informed D Lp (tasksRun D slv ts t)) := by
  induction ts with
  | nil => exact fun t σ h => ⟨σ, exec_nil σ, h⟩
  | cons k ts ih =>
    intro t σ h
    obtain ⟨σ₁, e1, h1⟩ := trip_task hG k t σ h
    obtain ⟨σ₂, e2, h2⟩ := ih _ σ₁ h1
    exact ⟨σ₂, exec_cons e1 e2, h2⟩

end Cafes.Spmd
