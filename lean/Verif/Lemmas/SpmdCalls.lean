/-
The programs of the particle problems: whole calls and histories of calls.
-/
import Verif.Lemmas.SpmdLoops

namespace Cafes.Spmd
open Cafes Cafes.Particle Cafes.Driver Cafes.Geometry Cafes.Props

set_option linter.unusedSectionVars false
variable {d N : ℕ} {A : Type} [AddCommGroup A] [Module ℝ A] {D : Setup d N A} {Lp : Fin d → Dir}
  {slv : NodeVec d d ℝ × NodeVec d 1 ℝ → NodeVec d d ℝ × NodeVec d 1 ℝ}

theorem Rel.ready {a : Abs d A} {σ : Rank D.L → Mem d A} (h : Rel D Lp a σ) : Ready D σ :=
  ⟨h.surf, h.radial, h.nb, h.num⟩

/-- Whatever the processes hold is a global vector. -/
theorem exists_holds {n : ℕ} (L Lp : Fin d → Dir) (hp : procs L = procs Lp) (hL : ∀ i, (Lp i).WF)
    (v : Rank L → NodeVec d n ℝ) : HoldsP L Lp v (glue Lp (everywhere L v)) := by
  intro r p hpr
  funext c
  have hr : r.1 ∈ procs Lp := hp ▸ r.2
  unfold glue
  rw [Finset.sum_eq_single r.1]
  · rw [if_pos ((Box.pointInside_iff _ _).2 hpr), everywhere_apply L v r]
  · intro s hs hne
    refine if_neg fun hc => hne ?_
    exact owned_unique Lp hL p s r.1 hs hr ((Box.pointInside_iff _ _).1 hc) hpr
  · exact fun h => absurd hr h

/-- The state of a call that begins: the right-hand side is set to zero. -/
theorem exec_begin (hG : Good D Lp slv) (fl : Flags) (X : (Fin d → ℕ) → ℕ → ℝ) (σ : Rank D.L → Mem d A)
    (hr : Ready D σ) (hfl : ∀ r, (σ r).flags = fl) (hX : ∀ r, (σ r).x = X r.1) :
    ∃ σ' a, Exec (C := comm (A := A) D.L Lp slv) (fun _ => .loc fun s => { s with rhs := (fun _ _ => 0, fun _ _ => 0) }) σ σ' ∧
      Rel D Lp a σ' ∧ a.fl = fl ∧ a.X = X ∧ a.rhs = 0 := by
  refine ⟨_, ⟨fl, X, 0, (glue D.L (everywhere D.L fun r => (σ r).sol.1), glue Lp (everywhere D.L fun r => (σ r).sol.2)),
    fun r => if h : r ∈ procs D.L then (σ ⟨r, h⟩).g else 0, fun r => if h : r ∈ procs D.L then (σ ⟨r, h⟩).mean else [],
    fun r => if h : r ∈ procs D.L then (σ ⟨r, h⟩).cross else []⟩, exec_loc _ _, ?_, rfl, rfl, rfl⟩
  refine ⟨hfl, hX, holds_zero D.L, fun _ _ _ => rfl, exists_holds D.L D.L rfl hG.wf _, exists_holds D.L Lp hG.procs hG.pres _,
    hr.surf, hr.radial, hr.nb, hr.num, fun r => ?_, fun r => ?_, fun r => ?_⟩
  · show (σ r).g = dite _ _ _
    rw [dif_pos r.2]
  · show (σ r).mean = dite _ _ _
    rw [dif_pos r.2]
  · show (σ r).cross = dite _ _ _
    rw [dif_pos r.2]

/-- The nodes of the layout of a process are its own. -/
theorem layout_own (hG : Good D Lp slv) (r : Rank D.L) {P : Type*} (f : P → Part d A) (parts : List P)
    (x : P × Pos d ℤ × Fin d)
    (hx : x ∈ layout (fun q => partNodes D.fluid Box.boxInside (getDMBounds D.L r.1 true) D.h (f q)) parts) :
    x.2.1 ∈ (getDMBounds D.L r.1 false).halfOpen := by
  simp only [layout, List.mem_flatMap, List.mem_map] at hx
  obtain ⟨p, -, k, hk, c, -, rfl⟩ := hx
  have := ((mem_partNodes hG.fluid D.L hG.mesh D.h (f p) r.1 r.2 k).1 hk).1
  intro i
  have := this i
  simp only [getDMBounds, Bool.false_and] at this ⊢
  refine ⟨this.1, ?_⟩
  split_ifs at this <;> simp at this ⊢ <;> omega

/-- `compute_y` on the part of a process. -/
theorem computeY_own (hG : Good D Lp slv) (r : Rank D.L) (u u' : NodeVec d d ℝ)
    (hu : ∀ p ∈ (getDMBounds D.L r.1 false).halfOpen, u p = u' p) (y : ℕ → ℝ) (k : ℕ)
    (hk : k < d * materialsSize D.fluid (getDMBounds D.L r.1 true) D.h D.scale D.parts) :
    (computeY D.fluid (getDMBounds D.L r.1 true) D.h u D.parts y).2 k = D.y u' r.1 k := by
  rw [← length_slots] at hk
  rw [(computeY_eq D.fluid (getDMBounds D.L r.1 true) D.h u D.parts y).2.2 k hk]
  unfold Setup.y
  rw [(computeY_eq D.fluid (getDMBounds D.L r.1 true) D.h u' D.parts 0).2.2 k hk]
  exact congrFun (hu _ (layout_own hG r id D.parts _ (List.getElem_mem hk))) _

theorem length_layout_map {P Q : Type*} (f : P → Q) (nodes : Q → List (Pos d ℤ)) (parts : List P) :
    (layout (fun q => nodes (f q)) parts).length = (layout nodes (parts.map f)).length := by
  rw [length_layout, length_layout, List.map_map]; rfl

/-- `compute_y` with the means on the part of a process. -/
theorem computeYMean_own (hG : Good D Lp slv) (r : Rank D.L) (u u' : NodeVec d d ℝ)
    (hu : ∀ p ∈ (getDMBounds D.L r.1 false).halfOpen, u p = u' p) (l : List (Part d A × Pos d ℝ × A))
    (hl : l = D.parts.zipIdx.map fun p => (p.1, projection D.S D.L D.bf D.elem u' p.1 D.h D.scale (D.data p.2 r.1).num))
    (y : ℕ → ℝ) (k : ℕ)
    (hk : k < d * materialsSize D.fluid (getDMBounds D.L r.1 true) D.h D.scale D.parts) :
    (computeYMean D.S D.fluid (getDMBounds D.L r.1 true) D.h u l y).2 k = D.yMean u' r.1 k := by
  have hlp : l.map Prod.fst = D.parts := by
    rw [hl, List.map_map]
    exact List.zipIdx_map_fst 0 D.parts
  rw [← length_slots] at hk
  have hk' : k < (layout (fun q : Part d A × Pos d ℝ × A =>
      partNodes D.fluid Box.boxInside (getDMBounds D.L r.1 true) D.h q.1) l).length := by
    rw [length_layout_map Prod.fst (partNodes D.fluid Box.boxInside (getDMBounds D.L r.1 true) D.h), hlp]; exact hk
  unfold Setup.yMean
  rw [← hl, (C47_compute_y_mean D.S D.fluid _ D.h u l y).2.1 k hk', (C47_compute_y_mean D.S D.fluid _ D.h u' l 0).2.1 k hk',
    hu _ (layout_own hG r Prod.fst l _ (List.getElem_mem hk'))]

/-- `DtoN_matrix`. -/
theorem exec_dton (hG : Good D Lp slv) (fl : Flags) (X : (Fin d → ℕ) → ℕ → ℝ) (σ : Rank D.L → Mem d A)
    (hr : Ready D σ) (hfl : ∀ r, (σ r).flags = fl) (hX : ∀ r, (σ r).x = X r.1) :
    ∃ σ', Exec (fun r => dtonProg D Lp slv r.1) σ σ' ∧ Ready D σ' ∧
      (∀ r k, k < d * materialsSize D.fluid (getDMBounds D.L r.1 true) D.h D.scale D.parts →
        (σ' r).y k = (dtonMatrix (D.pieces slv) fl X).2 r.1 k) ∧
      Holds D.L (fun r => (σ' r).sol.1) (dtonMatrix (D.pieces slv) fl X).1.2.1 ∧
      HoldsP D.L Lp (fun r => (σ' r).sol.2) (dtonMatrix (D.pieces slv) fl X).1.2.2  ∧
      Holds D.L (fun r => (σ' r).rhs.1) (dtonMatrix (D.pieces slv) fl X).1.1.1 ∧
      HoldsP D.L Lp (fun r => (σ' r).rhs.2) (dtonMatrix (D.pieces slv) fl X).1.1.2  ∧ ∀ r, (σ' r).flags = fl := by
  obtain ⟨σ₀, a, e0, h0, rfl, rfl, hz⟩ := exec_begin hG fl X σ hr hfl hX
  obtain ⟨σ₁, e1, h1⟩ := exec_init hG (fun _ => false) false a σ₀ h0 fun _ _ => rfl
  obtain ⟨σ₂, e2, h2⟩ := exec_solve hG _ σ₁ h1
  obtain ⟨σ₃, e3, h3⟩ := exec_interp hG (fun s => s.flags.addRigid) a.fl.addRigid _ σ₂ h2 fun s hs => by rw [hs]
  obtain ⟨σ₄, e4, h4⟩ := exec_sl hG _ σ₃ h3
  obtain ⟨σ₅, e5, h5⟩ := exec_solve hG _ σ₄ h4
  have hd : dtonMatrix (D.pieces slv) a.fl a.X = (((D.pieces slv).setNull ((D.pieces slv).sl
      (if a.fl.addRigid then D.interp (slv (initProblem (D.pieces slv) a.fl false a.X a.rhs)).1 + (D.pieces slv).rigid
        else D.interp (slv (initProblem (D.pieces slv) a.fl false a.X a.rhs)).1)),
      slv ((D.pieces slv).setNull ((D.pieces slv).sl
      (if a.fl.addRigid then D.interp (slv (initProblem (D.pieces slv) a.fl false a.X a.rhs)).1 + (D.pieces slv).rigid
        else D.interp (slv (initProblem (D.pieces slv) a.fl false a.X a.rhs)).1)))),
      D.y (slv ((D.pieces slv).setNull ((D.pieces slv).sl
      (if a.fl.addRigid then D.interp (slv (initProblem (D.pieces slv) a.fl false a.X a.rhs)).1 + (D.pieces slv).rigid
        else D.interp (slv (initProblem (D.pieces slv) a.fl false a.X a.rhs)).1)))).1) := by
    rw [hz]; rfl
  rw [hd]
  refine ⟨_, exec_cons e0 (exec_cons e1 (exec_cons e2 (exec_cons e3 (exec_cons e4 (exec_cons e5 (exec_cons (exec_loc _ _)
    (exec_nil _))))))), ⟨h5.surf, h5.radial, h5.nb, h5.num⟩, fun r k hk => ?_, h5.sol1, h5.sol2, h5.rhs1, h5.rhs2, h5.flags⟩
  exact computeY_own hG r _ _ (h5.sol1 r) _ k hk

/-- The end of `sem_matrix`. -/
theorem exec_semTail (hG : Good D Lp slv) (a : Abs d A) (σ : Rank D.L → Mem d A) (h : Rel D Lp a σ)
    (hm : ∀ r, (a.mean r).length = D.parts.length) (hc : ∀ r, (a.cross r).length = D.parts.length) :
    ∃ σ', Exec (fun r => seqs [slProg D Lp slv r.1, solveProg D Lp slv r.1, projProg D Lp slv r.1,
      .loc fun s => { s with y := (computeYMean D.S D.fluid (getDMBounds D.L r.1 true) D.h s.sol.1
        (D.parts.zipIdx.map fun p => (p.1, s.mean.getD p.2 0, s.cross.getD p.2 0)) s.y).2 }]) σ σ' ∧ Ready D σ' ∧
      (∀ r k, k < d * materialsSize D.fluid (getDMBounds D.L r.1 true) D.h D.scale D.parts →
        (σ' r).y k = D.yMean (slv ((D.pieces slv).setNull ((D.pieces slv).sl a.G))).1 r.1 k) ∧
      Holds D.L (fun r => (σ' r).sol.1) (slv ((D.pieces slv).setNull ((D.pieces slv).sl a.G))).1 ∧
      HoldsP D.L Lp (fun r => (σ' r).sol.2) (slv ((D.pieces slv).setNull ((D.pieces slv).sl a.G))).2  ∧
      Holds D.L (fun r => (σ' r).rhs.1) ((D.pieces slv).setNull ((D.pieces slv).sl a.G)).1 ∧
      HoldsP D.L Lp (fun r => (σ' r).rhs.2) ((D.pieces slv).setNull ((D.pieces slv).sl a.G)).2  ∧ ∀ r, (σ' r).flags = a.fl := by
  obtain ⟨σ₅, e5, h5⟩ := exec_sl hG _ σ h
  obtain ⟨σ₆, e6, h6⟩ := exec_solve hG _ σ₅ h5
  obtain ⟨σ₇, e7, h7⟩ := exec_proj hG _ σ₆ h6 hm hc
  generalize (D.pieces slv).setNull ((D.pieces slv).sl a.G) = b at h7 ⊢
  generalize slv b = v at h7 ⊢
  refine ⟨_, exec_cons e5 (exec_cons e6 (exec_cons e7 (exec_cons (exec_loc _ _) (exec_nil _)))),
    ⟨h7.surf, h7.radial, h7.nb, h7.num⟩, fun r k hk => ?_, h7.sol1, h7.sol2, h7.rhs1, h7.rhs2, h7.flags⟩
  refine computeYMean_own hG r _ _ (h7.sol1 r) _ ?_ _ k hk
  refine List.map_congr_left fun p hp => ?_
  have hp' := List.mem_zipIdx hp
  rw [h7.mean r, h7.cross r]
  have hlt : p.2 < D.parts.length := by omega
  have he : D.parts[p.2]? = some p.1 := by
    rw [List.getElem?_eq_getElem hlt, hp'.2.2]; simp
  simp only [List.getD_eq_getElem?_getD, List.getElem?_map, List.getElem?_range hlt, Option.map_some, Option.getD_some,
    projAt, he]

/-- `sem_matrix`. -/
theorem exec_sem (hG : Good D Lp slv) (fl : Flags) (X : (Fin d → ℕ) → ℕ → ℝ) (σ : Rank D.L → Mem d A)
    (hr : Ready D σ) (hfl : ∀ r, (σ r).flags = fl) (hX : ∀ r, (σ r).x = X r.1) :
    ∃ σ', Exec (fun r => semProg D Lp slv r.1) σ σ' ∧ Ready D σ' ∧
      (∀ r k, k < d * materialsSize D.fluid (getDMBounds D.L r.1 true) D.h D.scale D.parts →
        (σ' r).y k = (semMatrix (D.pieces slv) fl X).2 r.1 k) ∧
      Holds D.L (fun r => (σ' r).sol.1) (semMatrix (D.pieces slv) fl X).1.2.1 ∧
      HoldsP D.L Lp (fun r => (σ' r).sol.2) (semMatrix (D.pieces slv) fl X).1.2.2  ∧
      Holds D.L (fun r => (σ' r).rhs.1) (semMatrix (D.pieces slv) fl X).1.1.1 ∧
      HoldsP D.L Lp (fun r => (σ' r).rhs.2) (semMatrix (D.pieces slv) fl X).1.1.2  ∧ ∀ r, (σ' r).flags = fl := by
  obtain ⟨σ₀, a, e0, h0, rfl, rfl, hz⟩ := exec_begin hG fl X σ hr hfl hX
  obtain ⟨σ₁, e1, h1⟩ := exec_init hG (fun s => s.flags.computeRhs) a.fl.computeRhs a σ₀ h0 fun s hs => by rw [hs]
  rw [hz] at h1
  have hd : semMatrix (D.pieces slv) a.fl a.X = (((D.pieces slv).setNull ((D.pieces slv).sl
      (D.layer (D.interp (slv (initProblem (D.pieces slv) a.fl a.fl.computeRhs a.X 0)).1))),
      slv ((D.pieces slv).setNull ((D.pieces slv).sl
      (D.layer (D.interp (slv (initProblem (D.pieces slv) a.fl a.fl.computeRhs a.X 0)).1))))),
      D.yMean (slv ((D.pieces slv).setNull ((D.pieces slv).sl
      (D.layer (D.interp (slv (initProblem (D.pieces slv) a.fl a.fl.computeRhs a.X 0)).1))))).1) := rfl
  rw [hd]
  generalize initProblem (D.pieces slv) a.fl a.fl.computeRhs a.X 0 = R at h1 ⊢
  obtain ⟨σ₂, e2, h2⟩ := exec_solve hG _ σ₁ h1
  obtain ⟨σ₃, e3, h3⟩ := exec_interp hG (fun _ => false) false _ σ₂ h2 fun _ _ => rfl
  have h3' : Rel D Lp { a with rhs := R, sol := slv R, G := D.interp (slv R).1 } σ₃ := h3
  obtain ⟨σ₄, m, c, e4, hm, hc, h4⟩ := exec_layer hG _ σ₃ h3' fun r i k hk => by
    show (match (D.data i r).surf[k]? with
      | some pt => interpPoint D.bf D.elem (globalToLocal D.L _) pt
      | none => 0) = 0
    rw [List.getElem?_eq_none hk]
  obtain ⟨σ₅, e5, h5⟩ := exec_semTail hG _ σ₄ h4 hm hc
  exact ⟨σ₅, exec_cons e0 (exec_cons e1 (exec_cons e2 (exec_cons e3 (exec_cons e4 e5)))), h5⟩

theorem length_localForces (S : Spin d A) (fluid : (Pos d ℝ → Bool) → Box d ℤ → Pos d ℝ → List (Pos d ℤ))
    (box : Box d ℤ) (h : Pos d ℝ) (pc : ℕ → ℝ) (parts : List (Part d A × ℕ)) :
    (localForces S fluid box h pc parts).2.length = parts.length := by
  unfold localForces
  generalize hs : ((0, []) : ℕ × List (Pos d ℝ × A)) = s
  have h0 : s.2.length = 0 := by rw [← hs]; rfl
  rw [← Nat.zero_add parts.length, ← h0]
  clear hs h0
  induction parts generalizing s with
  | nil => rfl
  | cons q parts ih =>
    rw [List.foldl_cons, ih]
    simp only [List.length_append, List.length_cons, List.length_nil]
    omega

/-- `get_new_forces_torques`, with what it does not touch. -/
theorem exec_forces_keep (X : (Fin d → ℕ) → ℕ → ℝ) (σ : Rank D.L → Mem d A)
    (hr : Ready D σ) (hX : ∀ r, (σ r).x = X r.1) :
    ∃ σ', Exec (fun r => forcesProg D Lp slv r.1) σ σ' ∧ Ready D σ' ∧
      (∀ r, (σ' r).mean.length = D.parts.length ∧ (σ' r).cross.length = D.parts.length) ∧
      (∀ r, ∀ i < D.parts.length, (σ' r).mean.getD i 0 = (D.newForces X i).1 ∧
        (σ' r).cross.getD i 0 = (D.newForces X i).2) ∧
      ∀ r, (σ' r).flags = (σ r).flags ∧ (σ' r).rhs = (σ r).rhs ∧ (σ' r).sol = (σ r).sol := by
  have hl : ∀ r : Rank D.L, (D.parts.zipIdx.map fun q => (q.1, (σ r).num.getD q.2 0)) =
      D.parts.zipIdx.map fun p => (p.1, (D.data p.2 r.1).num) := fun r => by
    simp only [hr.num r]
  set loc := fun r : Fin d → ℕ => (localForces D.S D.fluid (getDMBounds D.L r true) D.h (X r)
    (D.parts.zipIdx.map fun p => (p.1, (D.data p.2 r).num))).2 with hloc
  have hlen : ∀ r, (loc r).length = D.parts.length := fun r => by
    rw [hloc]; simp [length_localForces]
  set σ₁ : Rank D.L → Mem d A := fun r =>
    let t := (localForces D.S D.fluid (getDMBounds D.L r.1 true) D.h (σ r).x
      (D.parts.zipIdx.map fun q => (q.1, (σ r).num.getD q.2 0))).2
    { σ r with mean := t.map Prod.fst, cross := t.map Prod.snd } with hσ₁
  have hm : ∀ r, (σ₁ r).mean = (loc r.1).map Prod.fst := fun r => by rw [hσ₁]; simp only [hl r, hX r]; rfl
  have hc : ∀ r, (σ₁ r).cross = (loc r.1).map Prod.snd := fun r => by rw [hσ₁]; simp only [hl r, hX r]; rfl
  have e2 := exec_reduce (Lp := Lp) (slv := slv) D.parts.length σ₁ (fun r => by rw [hm r, List.length_map, hlen])
    (fun r => by rw [hc r, List.length_map, hlen])
  refine ⟨_, exec_seq (exec_loc _ _) e2, ⟨hr.surf, hr.radial, hr.nb, hr.num⟩, fun r => ?_, fun r i hi => ?_,
    fun _ => ⟨rfl, rfl, rfl⟩⟩
  · exact ⟨length_sumLists _ _, length_sumLists _ _⟩
  · have key : ∀ r : Rank D.L, ({ σ₁ r with
        mean := sumLists D.parts.length fun j => (σ₁ j).mean
        cross := sumLists D.parts.length fun j => (σ₁ j).cross } : Mem d A).mean.getD i 0 = (D.newForces X i).1 ∧
        (sumLists D.parts.length fun j => (σ₁ j).cross).getD i 0 = (D.newForces X i).2 := fun r => by
      constructor
      · show (sumLists D.parts.length fun j => (σ₁ j).mean).getD i 0 = _
        rw [sumLists_getD _ _ i hi]
        simp only [hm]
        exact Finset.sum_coe_sort (procs D.L) fun r => ((loc r).map Prod.fst).getD i 0
      · rw [sumLists_getD _ _ i hi]
        simp only [hc]
        exact Finset.sum_coe_sort (procs D.L) fun r => ((loc r).map Prod.snd).getD i 0
    exact key r

/-- `get_new_forces_torques`. -/
theorem exec_forces (X : (Fin d → ℕ) → ℕ → ℝ) (σ : Rank D.L → Mem d A)
    (hr : Ready D σ) (hX : ∀ r, (σ r).x = X r.1) :
    ∃ σ', Exec (fun r => forcesProg D Lp slv r.1) σ σ' ∧ Ready D σ' ∧
      (∀ r, (σ' r).mean.length = D.parts.length ∧ (σ' r).cross.length = D.parts.length) ∧
      (∀ r, ∀ i < D.parts.length, (σ' r).mean.getD i 0 = (D.newForces X i).1 ∧
        (σ' r).cross.getD i 0 = (D.newForces X i).2) := by
  obtain ⟨σ', h1, h2, h3, h4, -⟩ := exec_forces_keep (Lp := Lp) (slv := slv) X σ hr hX
  exact ⟨σ', h1, h2, h3, h4⟩

end Cafes.Spmd
