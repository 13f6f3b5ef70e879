/-
C114: the operators of the library give the same result whatever was computed before with the recycled work arrays,
and give back the arrays they take.
-/
import Verif.Lemmas.Work
import Verif.Props.Stokes
import Verif.Lemmas.Solvable

namespace Cafes.Props
open Cafes Cafes.Work
variable {d n N : ℕ} {K : Type*}

section
variable [CommRing K]

theorem two_gets {A : Type*} (P : Pool A) (hP : Sound P) :
    P.get.1 ≠ P.get.2.get.1 ∧ Sound P.get.2.get.2 ∧
    (∀ Q : Pool A, Sound Q → (∀ j, Live Q j ↔ Live P.get.2.get.2 j) →
      (∀ j, j ≠ P.get.1 → j ≠ P.get.2.get.1 → Q.mem j = P.mem j) →
      Returned P ((Q.put P.get.2.get.1).put P.get.1)) := by
  obtain ⟨s1, n1, l1⟩ := get_live P hP
  obtain ⟨s2, n2, l2⟩ := get_live P.get.2 s1
  have hne : P.get.1 ≠ P.get.2.get.1 := fun e => n2 ((l1 _).2 (Or.inl e.symm))
  refine ⟨hne, s2, fun Q hQ hl hm => ?_⟩
  have hy : Live Q P.get.2.get.1 := (hl _).2 ((l2 _).2 (Or.inl rfl))
  obtain ⟨s3, l3⟩ := put_live Q hQ _ hy
  have hx : Live (Q.put P.get.2.get.1) P.get.1 :=
    (l3 _).2 ⟨(hl _).2 ((l2 _).2 (Or.inr ((l1 _).2 (Or.inl rfl)))), hne⟩
  obtain ⟨s4, l4⟩ := put_live _ s3 _ hx
  refine ⟨s4, fun i => ?_, fun i hi => ?_⟩
  · rw [l4, l3, hl, l2, l1]
    constructor
    · rintro ⟨⟨h1 | h1 | h1, h2⟩, h3⟩
      · exact absurd h1 h2
      · exact absurd h1 h3
      · exact h1
    · intro h
      exact ⟨⟨Or.inr (Or.inr h), fun e => n2 ((l1 _).2 (Or.inr (e ▸ h)))⟩, fun e => n1 (e ▸ h)⟩
  · rw [put_mem, put_mem]
    exact hm i (fun e => n1 (e ▸ hi)) fun e => n2 ((l1 _).2 (Or.inr (e ▸ hi)))

/-- The arrays of `diag_block_matrix` after the local computation. -/
def blockBody (L : Fin d → Dir) (apply : (Fin d → ℕ) → NodeVec d n K → NodeVec d n K → NodeVec d n K) (x : NodeVec d n K)
    (ix iy : ℕ) (P : Pool (Arr d n K)) : Pool (Arr d n K) :=
  onProcs (fun r yl => apply r ((fill L 0 iy (g2l L x ix P)).mem ix r) yl) iy (fill L 0 iy (g2l L x ix P))

theorem body_value (L : Fin d → Dir) (apply : (Fin d → ℕ) → NodeVec d n K → NodeVec d n K → NodeVec d n K)
    (hloc : LocalOp L apply) (x y : NodeVec d n K) (ix iy : ℕ) (hne : ix ≠ iy) (P : Pool (Arr d n K)) :
    localToGlobalAdd L ((blockBody L apply x ix iy P).mem iy) y =
      localToGlobalAdd L (fun r => apply r (globalToLocal L x) 0) y := by
  refine l2g_congr L _ _ (fun r hr => ?_) _
  rw [blockBody, onProcs, set_mem, if_pos rfl]
  refine hloc r hr _ _ _ _ ?_ (fill_eqv L 0 _ _ r)
  rw [fill, set_mem, if_neg hne]
  exact g2l_eqv L x _ _ r

theorem body_kept (L : Fin d → Dir) (apply : (Fin d → ℕ) → NodeVec d n K → NodeVec d n K → NodeVec d n K)
    (x : NodeVec d n K) (ix iy : ℕ) (P : Pool (Arr d n K)) (j : ℕ) (h1 : j ≠ ix) (h2 : j ≠ iy) :
    (blockBody L apply x ix iy P).mem j = P.mem j := by
  rw [blockBody, onProcs, set_mem, if_neg h2, fill, set_mem, if_neg h2, g2l, set_mem, if_neg h1]

theorem body_sound (L : Fin d → Dir) (apply : (Fin d → ℕ) → NodeVec d n K → NodeVec d n K → NodeVec d n K)
    (x : NodeVec d n K) (ix iy : ℕ) (P : Pool (Arr d n K)) (h : Sound P) : Sound (blockBody L apply x ix iy P) :=
  ⟨h.1, h.2⟩

/-- C114 (products by a block): whatever the previous content `y` of the output and of the work arrays, the product is
the one of the operator; the arrays taken are given back and those held by others are untouched. -/
theorem C114_block (L : Fin d → Dir) (apply : (Fin d → ℕ) → NodeVec d n K → NodeVec d n K → NodeVec d n K)
    (hloc : LocalOp L apply) (bc : NodeVec d n K → NodeVec d n K → NodeVec d n K) (x y : NodeVec d n K)
    (P : Pool (Arr d n K)) (hP : Sound P) :
    (runBlock L apply bc x y P).1 = bc x (blockMatrix L apply x) ∧ Returned P (runBlock L apply bc x y P).2 := by
  obtain ⟨hne, hs, hret⟩ := two_gets P hP
  have e : runBlock L apply bc x y P =
    (bc x (localToGlobalAdd L ((blockBody L apply x P.get.1 P.get.2.get.1 P.get.2.get.2).mem P.get.2.get.1)
      (fun _ _ => 0)), ((blockBody L apply x P.get.1 P.get.2.get.1 P.get.2.get.2).put P.get.2.get.1).put P.get.1) := rfl
  rw [e]
  refine ⟨congrArg (bc x) (body_value L apply hloc x _ _ _ hne _), hret _ (body_sound L apply x _ _ _ hs)
    (fun _ => Iff.rfl) fun j h1 h2 => ?_⟩
  rw [body_kept L apply x _ _ _ j h1 h2, get_mem, get_mem]

/-- C114 (diagonals): as for the products. -/
theorem C114_diagonal (L : Fin d → Dir) (applyDiag : (Fin d → ℕ) → NodeVec d n K → NodeVec d n K)
    (hloc : ∀ r ∈ procs L, ∀ y y', Eqv L r y y' → Eqv L r (applyDiag r y) (applyDiag r y')) (x : NodeVec d n K)
    (P : Pool (Arr d n K)) (hP : Sound P) :
    (runDiag L applyDiag x P).1 = diagMatrix L applyDiag ∧ Returned P (runDiag L applyDiag x P).2 := by
  have e : runDiag L applyDiag x P =
    (localToGlobalAdd L ((onProcs applyDiag P.get.1 (fill L 0 P.get.1 P.get.2)).mem P.get.1) (fun _ _ => 0),
      (onProcs applyDiag P.get.1 (fill L 0 P.get.1 P.get.2)).put P.get.1) := rfl
  rw [e]
  obtain ⟨s1, n1, l1⟩ := get_live P hP
  refine ⟨l2g_congr L _ _ (fun r hr => ?_) _, returned_one P _ hP ⟨s1.1, s1.2⟩ (fun _ => Iff.rfl) fun j hj _ => ?_⟩
  · rw [onProcs, set_mem, if_pos rfl]
    exact hloc r hr _ _ (fill_eqv L 0 _ _ r)
  · rw [onProcs, set_mem, if_neg hj, fill, set_mem, if_neg hj, get_mem]

theorem stokes_run {NP NV : ℕ} (Lv Lp : Fin d → Dir)
    (apply : (Fin d → ℕ) → NodeVec d n K → NodeVec d n K → NodeVec d n K)
    (elemP : Pos d ℤ → Fin NP → Pos d ℤ) (elemV : Pos d ℤ → Fin NV → Pos d ℤ) (B : Fin NP → Fin NV → Fin n → K)
    (bc : NodeVec d n K → NodeVec d n K → NodeVec d n K) (x y : NodeVec d n K × NodeVec d 1 K)
    (Pv : Pool (Arr d n K)) (Pp : Pool (Arr d 1 K)) :
    runStokes Lv Lp apply elemP elemV B bc x y Pv Pp =
      (let x0 := Pv.get.1
       let y0 := Pv.get.2.get.1
       let x1 := Pp.get.1
       let y1 := Pp.get.2.get.1
       let Qv := blockBody Lv apply x.1 x0 y0 Pv.get.2.get.2
       let Qp := fill Lp 0 y1 (g2l Lp x.2 x1 Pp.get.2.get.2)
       let out := fun r => offDiagBlockMult Lp elemP elemV B r (Qv.mem x0 r) (Qp.mem x1 r) (Qv.mem y0 r, Qp.mem y1 r)
       ((bc x.1 (localToGlobalAdd Lv ((Qv.set y0 fun r => (out r).1).mem y0) fun _ _ => 0),
          localToGlobalAdd Lp ((Qp.set y1 fun r => (out r).2).mem y1) fun _ _ => 0),
        ((Qv.set y0 fun r => (out r).1).put y0).put x0, ((Qp.set y1 fun r => (out r).2).put y1).put x1)) := rfl

/-- C114 (products by the Stokes matrix): as for the blocks, with the arrays of the two meshes. -/
theorem C114_stokes {NP NV : ℕ} (Lv Lp : Fin d → Dir) (hp : procs Lv = procs Lp)
    (apply : (Fin d → ℕ) → NodeVec d n K → NodeVec d n K → NodeVec d n K) (hloc : LocalOp Lv apply)
    (elemP : Pos d ℤ → Fin NP → Pos d ℤ) (elemV : Pos d ℤ → Fin NV → Pos d ℤ) (hoff : LocalOff Lv Lp elemP elemV)
    (B : Fin NP → Fin NV → Fin n → K) (bc : NodeVec d n K → NodeVec d n K → NodeVec d n K)
    (x y : NodeVec d n K × NodeVec d 1 K) (Pv : Pool (Arr d n K)) (Pp : Pool (Arr d 1 K)) (hv : Sound Pv)
    (hq : Sound Pp) :
    (runStokes Lv Lp apply elemP elemV B bc x y Pv Pp).1 =
      (bc x.1 (stokesMatrix Lv Lp apply elemP elemV B x.1 x.2).1, (stokesMatrix Lv Lp apply elemP elemV B x.1 x.2).2) ∧
    Returned Pv (runStokes Lv Lp apply elemP elemV B bc x y Pv Pp).2.1 ∧
    Returned Pp (runStokes Lv Lp apply elemP elemV B bc x y Pv Pp).2.2 := by
  obtain ⟨nv, sv, rv⟩ := two_gets Pv hv
  obtain ⟨np, sp, rp⟩ := two_gets Pp hq
  rw [stokes_run]
  extract_lets x0 y0 x1 y1 Qv Qp out
  have hx0 : ∀ r, Eqv Lv r (Qv.mem x0 r) (globalToLocal Lv x.1) := fun r => by
    show Eqv Lv r ((blockBody Lv apply x.1 x0 y0 Pv.get.2.get.2).mem x0 r) _
    rw [blockBody, onProcs, set_mem, if_neg nv, fill, set_mem, if_neg nv]
    exact g2l_eqv Lv x.1 _ _ r
  have hy0 : ∀ r ∈ procs Lv, Eqv Lv r (Qv.mem y0 r) (apply r (globalToLocal Lv x.1) 0) := fun r hr => by
    show Eqv Lv r ((blockBody Lv apply x.1 x0 y0 Pv.get.2.get.2).mem y0 r) _
    rw [blockBody, onProcs, set_mem, if_pos rfl]
    refine hloc r hr _ _ _ _ ?_ (fill_eqv Lv 0 _ _ r)
    rw [fill, set_mem, if_neg nv]
    exact g2l_eqv Lv x.1 _ _ r
  have hx1 : ∀ r, Eqv Lp r (Qp.mem x1 r) (globalToLocal Lp x.2) := fun r => by
    show Eqv Lp r ((fill Lp 0 y1 (g2l Lp x.2 x1 Pp.get.2.get.2)).mem x1 r) _
    rw [fill, set_mem, if_neg np]
    exact g2l_eqv Lp x.2 _ _ r
  have hy1 : ∀ r, Eqv Lp r (Qp.mem y1 r) (fun _ _ => 0) := fun r => fill_eqv Lp 0 _ _ r
  have hout : ∀ r ∈ procs Lp, _ := fun r hr => offDiag_local Lv Lp elemP elemV hoff B r hr _ _ _ _ _ _ _ _
    (hx0 r) (hx1 r) (hy0 r (hp ▸ hr)) (hy1 r)
  refine ⟨Prod.ext (congrArg (bc x.1) (l2g_congr Lv _ _ (fun r hr => ?_) _)) (l2g_congr Lp _ _ (fun r hr => ?_) _),
    rv _ ⟨sv.1, sv.2⟩ (fun _ => Iff.rfl) fun j h1 h2 => ?_, rp _ ⟨sp.1, sp.2⟩ (fun _ => Iff.rfl) fun j h1 h2 => ?_⟩
  · rw [set_mem, if_pos rfl]; exact (hout r (hp ▸ hr)).1
  · rw [set_mem, if_pos rfl]; exact (hout r hr).2
  · rw [set_mem, if_neg h2]
    exact (body_kept Lv apply x.1 _ _ _ j h1 h2).trans (by rw [get_mem, get_mem])
  · rw [set_mem, if_neg h2]
    show (fill Lp 0 y1 (g2l Lp x.2 x1 Pp.get.2.get.2)).mem j = _
    rw [fill, set_mem, if_neg h2, g2l, set_mem, if_neg h1, get_mem, get_mem]

/-- C114 (mass matrix of the two meshes). -/
theorem C114_mass (Lv Lp : Fin d → Dir) (mv : (Fin d → ℕ) → NodeVec d n K → NodeVec d n K → NodeVec d n K)
    (hmv : LocalOp Lv mv) (mp : (Fin d → ℕ) → NodeVec d 1 K → NodeVec d 1 K → NodeVec d 1 K) (hmp : LocalOp Lp mp)
    (x y : NodeVec d n K × NodeVec d 1 K) (Pv : Pool (Arr d n K)) (Pp : Pool (Arr d 1 K)) (hv : Sound Pv)
    (hq : Sound Pp) :
    (runMass Lv Lp mv mp x y Pv Pp).1 = (blockMatrix Lv mv x.1, blockMatrix Lp mp x.2) ∧
    Returned Pv (runMass Lv Lp mv mp x y Pv Pp).2.1 ∧ Returned Pp (runMass Lv Lp mv mp x y Pv Pp).2.2 := by
  have h1 := C114_block Lv mv hmv (fun _ y => y) x.1 y.1 Pv hv
  have h2 := C114_block Lp mp hmp (fun _ y => y) x.2 y.2 Pp hq
  exact ⟨Prod.ext h1.1 h2.1, h1.2, h2.2⟩

theorem setRhs_run (L : Fin d → Dir) (rs : List (Fin d → ℕ)) (src : Fin d → Cond d K) (h : Pos d K)
    (mv : (Fin d → ℕ) → NodeVec d d K → NodeVec d d K → NodeVec d d K) (rhs : NodeVec d d K × NodeVec d 1 K)
    (Pg : Pool (NodeVec d d K × NodeVec d 1 K)) (Pv : Pool (Arr d d K)) :
    runSetRhs L rs src h mv rhs Pg Pv =
      (let t := Pg.get.1
       let Q := Pg.get.2.set t (fun _ _ => 0, fun _ _ => 0)
       let Q := Q.set t (rs.foldl (fun y r => setRhsImpl L r src h y) (Q.mem t).1, (Q.mem t).2)
       let Qv := blockBody L mv (Q.mem t).1 Pv.get.1 Pv.get.2.get.1 Pv.get.2.get.2
       ((localToGlobalAdd L (Qv.mem Pv.get.2.get.1) rhs.1, rhs.2), Q.put t, (Qv.put Pv.get.2.get.1).put Pv.get.1)) := rfl

/-- C114 (source): the source integrated against the basis is added to the right-hand side, and nothing else. -/
theorem C114_source (L : Fin d → Dir) (rs : List (Fin d → ℕ)) (src : Fin d → Cond d K) (h : Pos d K)
    (mv : (Fin d → ℕ) → NodeVec d d K → NodeVec d d K → NodeVec d d K) (hmv : LocalOp L mv)
    (rhs : NodeVec d d K × NodeVec d 1 K) (Pg : Pool (NodeVec d d K × NodeVec d 1 K)) (Pv : Pool (Arr d d K))
    (hg : Sound Pg) (hv : Sound Pv) :
    (runSetRhs L rs src h mv rhs Pg Pv).1 = (setRhs L rs src h mv rhs.1, rhs.2) ∧
    Returned Pg (runSetRhs L rs src h mv rhs Pg Pv).2.1 ∧ Returned Pv (runSetRhs L rs src h mv rhs Pg Pv).2.2 := by
  obtain ⟨nv, sv, rv⟩ := two_gets Pv hv
  obtain ⟨sg, ng, lg⟩ := get_live Pg hg
  rw [setRhs_run]
  extract_lets t Q0 Q Qv
  have ht : (Q.mem t).1 = rs.foldl (fun y r => setRhsImpl L r src h y) 0 := by
    show ((Q0.set t _).mem t).1 = _
    rw [set_mem, if_pos rfl]
    show rs.foldl _ ((Pg.get.2.set t (fun _ _ => 0, fun _ _ => 0)).mem t).1 = _
    rw [set_mem, if_pos rfl]
    rfl
  refine ⟨Prod.ext ?_ rfl, returned_one Pg _ hg ⟨sg.1, sg.2⟩ (fun _ => Iff.rfl) fun j hj _ => ?_,
    rv _ (body_sound L mv _ _ _ _ sv) (fun _ => Iff.rfl) fun j h1 h2 => ?_⟩
  · refine (body_value L mv hmv _ rhs.1 _ _ nv _).trans ?_
    rw [ht]
    rfl
  · show ((Q0.set t _).mem j) = _
    rw [set_mem, if_neg hj]
    show (Pg.get.2.set t _).mem j = _
    rw [set_mem, if_neg hj, get_mem]
  · exact (body_kept L mv _ _ _ _ j h1 h2).trans (by rw [get_mem, get_mem])

end
section
variable {B : Type*}

theorem setRhsProblem_run (Lv Lp : Fin d → Dir) (write : NodeVec d d ℝ → NodeVec d d ℝ)
    (mv : (Fin d → ℕ) → NodeVec d d ℝ → NodeVec d d ℝ → NodeVec d d ℝ)
    (mp : (Fin d → ℕ) → NodeVec d 1 ℝ → NodeVec d 1 ℝ → NodeVec d 1 ℝ) (rhs : NodeVec d d ℝ × NodeVec d 1 ℝ)
    (Pg : Pool (NodeVec d d ℝ × NodeVec d 1 ℝ)) (Pv : Pool (Arr d d ℝ)) (Pp : Pool (Arr d 1 ℝ)) :
    runSetRhsProblem Lv Lp write mv mp rhs Pg Pv Pp =
      (let f := Pg.get.1
       let m := Pg.get.2.get.1
       let Q0 := Pg.get.2.get.2.set f (fun _ _ => 0, fun _ _ => 0)
       let Q := Q0.set f (write (Q0.mem f).1, (Q0.mem f).2)
       let R := runMass Lv Lp mv mp (Q.mem f) (Q.mem m) Pv.get.2 Pp
       let Q' := Q.set m R.1
       ((fun q c => rhs.1 q c + (Q'.mem m).1 q c, fun q c => rhs.2 q c + (Q'.mem m).2 q c),
         (Q'.put m).put f, R.2.1.put Pv.get.1, R.2.2)) := rfl

/-- C114 (control): the mass matrix times the control is added to the right-hand side, whatever the two global work
vectors contained. -/
theorem C114_control (Lv Lp : Fin d → Dir) (fluid : (Pos d ℝ → Bool) → Box d ℤ → Pos d ℝ → List (Pos d ℤ))
    (rs : List (Fin d → ℕ)) (h : Pos d ℝ) (pxs : (Fin d → ℕ) → ℕ → ℝ) (applyForces : Bool)
    (parts : List (Particle.Part d B))
    (mv : (Fin d → ℕ) → NodeVec d d ℝ → NodeVec d d ℝ → NodeVec d d ℝ) (hmv : LocalOp Lv mv)
    (mp : (Fin d → ℕ) → NodeVec d 1 ℝ → NodeVec d 1 ℝ → NodeVec d 1 ℝ) (hmp : LocalOp Lp mp)
    (hmp0 : blockMatrix Lp mp 0 = 0)
    (rhs : NodeVec d d ℝ × NodeVec d 1 ℝ) (Pg : Pool (NodeVec d d ℝ × NodeVec d 1 ℝ)) (Pv : Pool (Arr d d ℝ))
    (Pp : Pool (Arr d 1 ℝ)) (hg : Sound Pg) (hv : Sound Pv) (hq : Sound Pp) :
    let R := runSetRhsProblem Lv Lp (writeControl fluid Lv rs h pxs applyForces parts) mv mp rhs Pg Pv Pp
    R.1 = (Particle.setRhsProblem fluid Lv rs h (blockMatrix Lv mv) pxs applyForces parts rhs.1, rhs.2) ∧
      Returned Pg R.2.1 ∧ Returned Pv R.2.2.1 ∧ Returned Pp R.2.2.2 := by
  obtain ⟨ng, sg, rg⟩ := two_gets Pg hg
  obtain ⟨sv, nv, lv⟩ := get_live Pv hv
  intro R
  show R.1 = _ ∧ _
  have hR : R = _ := setRhsProblem_run Lv Lp (writeControl fluid Lv rs h pxs applyForces parts) mv mp rhs Pg Pv Pp
  rw [hR]
  clear hR R
  extract_lets f m Q0 Q R Q'
  have hf : Q.mem f = (Particle.controlField fluid Lv rs h pxs applyForces parts, 0) := by
    show ((Q0.set f _).mem f) = _
    rw [set_mem, if_pos rfl]
    have : Q0.mem f = (fun _ _ => 0, fun _ _ => 0) := by
      show (Pg.get.2.get.2.set f (fun _ _ => 0, fun _ _ => 0)).mem f = _
      rw [set_mem, if_pos rfl]
    rw [this]
    rfl
  obtain ⟨h1, h2, h3⟩ := C114_mass Lv Lp mv hmv mp hmp (Q.mem f) (Q.mem m) Pv.get.2 Pp sv hq
  have hm : Q'.mem m = (blockMatrix Lv mv (Particle.controlField fluid Lv rs h pxs applyForces parts), 0) := by
    show (Q.set m R.1).mem m = _
    rw [set_mem, if_pos rfl]
    refine h1.trans ?_
    rw [hf, hmp0]
  refine ⟨Prod.ext ?_ ?_, rg _ ⟨sg.1, sg.2⟩ (fun _ => Iff.rfl) fun j e1 e2 => ?_,
    returned_one Pv _ hv h2.sound (fun j => h2.same j) fun j hj hl => ?_, h3⟩
  · funext q c
    show rhs.1 q c + (Q'.mem m).1 q c = _
    rw [hm]
    rfl
  · funext q c
    show rhs.2 q c + (Q'.mem m).2 q c = _
    rw [hm]
    exact add_zero _
  · show (Q.set m R.1).mem j = _
    rw [set_mem, if_neg e2]
    show (Q0.set f _).mem j = _
    rw [set_mem, if_neg e1]
    show (Pg.get.2.get.2.set f _).mem j = _
    rw [set_mem, if_neg e1, get_mem, get_mem]
  · exact (h2.kept j ((lv j).2 (Or.inr hl))).trans (by rw [get_mem])

theorem spread_local {N : ℕ} (L : Fin d → Dir) (r : Fin d → ℕ) (bf : Pos d ℝ → Fin N → ℝ)
    (elem : Pos d ℤ → Fin N → Pos d ℤ) (parts : List (ℝ × ℕ × List (Pos d ℝ × (Pos d ℤ × Pos d ℝ))))
    (u u' : NodeVec d d ℝ) (hu : Eqv L r u u') : Eqv L r (spreadFrom bf elem parts u) (spreadFrom bf elem parts u') := by
  refine foldl_rel (Eqv L r) _ _ _ (fun q _ s s' h => ?_) _ _ hu
  refine foldl_rel (Eqv L r) _ _ _ (fun x _ s s' h => ?_) _ _ h
  refine foldl_rel (Eqv L r) _ _ _ (fun j _ s s' h => ?_) _ _ h
  refine foldl_rel (Eqv L r) _ _ _ (fun c _ s s' h => ?_) _ _ h
  exact addAt_eqv L r h _ _ rfl

/-- C114 (simple layer): the right-hand side receives the layer, whatever it contained before. -/
theorem C114_layer {N : ℕ} (L : Fin d → Dir) (bf : Pos d ℝ → Fin N → ℝ) (elem : Pos d ℤ → Fin N → Pos d ℤ)
    (parts : (Fin d → ℕ) → List (ℝ × ℕ × List (Pos d ℝ × (Pos d ℤ × Pos d ℝ))))
    (bc : NodeVec d d ℝ → NodeVec d d ℝ) (rhs : NodeVec d d ℝ × NodeVec d 1 ℝ) (Pv : Pool (Arr d d ℝ))
    (hv : Sound Pv) :
    (runSL L bf elem parts bc rhs Pv).1 = (bc (Particle.slToRhs L bf elem parts), 0) ∧
      Returned Pv (runSL L bf elem parts bc rhs Pv).2 := by
  have e : runSL L bf elem parts bc rhs Pv =
    (let i := Pv.get.1
     let Q := onProcs (fun r u => spreadFrom bf elem (parts r) u) i (fill L 0 i Pv.get.2)
     ((bc (localToGlobalAdd L (Q.mem i) fun _ _ => 0), fun _ _ => 0), (Q.get.2.put Q.get.1).put i)) := rfl
  rw [e]
  extract_lets i Q
  obtain ⟨s1, n1, l1⟩ := get_live Pv hv
  have sQ : Sound Q := ⟨s1.1, s1.2⟩
  obtain ⟨s2, n2, l2⟩ := get_live Q sQ
  have hret : Returned Q (Q.get.2.put Q.get.1) :=
    returned_one Q _ sQ s2 (fun _ => Iff.rfl) fun j _ _ => by rw [get_mem]
  refine ⟨Prod.ext (congrArg bc (l2g_congr L _ _ (fun r _ => ?_) _)) rfl,
    returned_one Pv _ hv hret.sound (fun j => hret.same j) fun j hj hl => ?_⟩
  · show Eqv L r ((onProcs (fun r u => spreadFrom bf elem (parts r) u) i (fill L 0 i Pv.get.2)).mem i r) _
    rw [onProcs, set_mem, if_pos rfl]
    exact spread_local L r bf elem _ _ 0 (fill_eqv L 0 _ _ r)
  · refine (hret.kept j ((l1 j).2 (Or.inr hl))).trans ?_
    show (onProcs (fun r u => spreadFrom bf elem (parts r) u) i (fill L 0 i Pv.get.2)).mem j = _
    rw [onProcs, set_mem, if_neg hj, fill, set_mem, if_neg hj, get_mem]

theorem pairs_local (L : Fin d → Dir) (r : Fin d → ℕ) (scale : ℕ) (h : Pos d ℝ) (box : Box d ℤ)
    (kernel : AddSing.Pair d → Pos d ℤ → Pos d ℝ → Pos d ℝ → NodeVec d d ℝ → NodeVec d d ℝ)
    (hk : ∀ q pos loc pts s s', Eqv L r s s' → Eqv L r (kernel q pos loc pts s) (kernel q pos loc pts s'))
    (pairs : List (AddSing.Pair d)) (u u' : NodeVec d d ℝ) (hu : Eqv L r u u') :
    Eqv L r (AddSing.pairsLoop scale h box kernel pairs u) (AddSing.pairsLoop scale h box kernel pairs u') := by
  refine foldl_rel (Eqv L r) _ _ _ (fun q _ s s' hs => ?_) _ _ hu
  split
  · refine iterate_rel (Eqv L r) _ _ _ (fun pos _ s s' hs => ?_) _ _ hs
    refine iterate_rel (Eqv L r) _ _ _ (fun ps _ s s' hs => ?_) _ _ hs
    dsimp only
    split
    · exact hk _ _ _ _ _ _ hs
    · exact hs
  · exact hs

theorem stKernel_local {N : ℕ} (L : Fin d → Dir) (r : Fin d → ℕ) (bfg : Pos d ℝ → Fin N → Pos d ℝ)
    (elem : Pos d ℤ → Fin N → Pos d ℤ) (coef : ℝ) (q : AddSing.Pair d) (pos : Pos d ℤ) (loc pts : Pos d ℝ)
    (s s' : NodeVec d d ℝ) (hs : Eqv L r s s') :
    Eqv L r (AddSing.stKernel bfg elem coef q pos loc pts s) (AddSing.stKernel bfg elem coef q pos loc pts s') := by
  refine foldl_rel (Eqv L r) _ _ _ (fun je _ s s' hs => ?_) _ _ hs
  refine foldl_rel (Eqv L r) _ _ _ (fun d1 _ s s' hs => ?_) _ _ hs
  refine addAt_eqv L r ?_ _ _ rfl
  refine foldl_rel (Eqv L r) _ _ _ (fun d2 _ s s' hs => ?_) _ _ hs
  exact addAt_eqv L r hs _ _ rfl

theorem addKernel_local {N : ℕ} (L : Fin d → Dir) (r : Fin d → ℕ) (bf : Pos d ℝ → Fin N → ℝ)
    (elem : Pos d ℤ → Fin N → Pos d ℤ) (coef : ℝ) (q : AddSing.Pair d) (pos : Pos d ℤ) (loc pts : Pos d ℝ)
    (s s' : NodeVec d d ℝ) (hs : Eqv L r s s') :
    Eqv L r (AddSing.addKernel bf elem coef q pos loc pts s) (AddSing.addKernel bf elem coef q pos loc pts s') := by
  refine foldl_rel (Eqv L r) _ _ _ (fun je _ s s' hs => ?_) _ _ hs
  refine foldl_rel (Eqv L r) _ _ _ (fun c _ s s' hs => ?_) _ _ hs
  exact addAt_eqv L r hs _ _ rfl

/-- C114 (singular source). -/
theorem C114_singular {N : ℕ} (L : Fin d → Dir) (bfg : Pos d ℝ → Fin N → Pos d ℝ)
    (elem : Pos d ℤ → Fin N → Pos d ℤ) (scale : ℕ) (h : Pos d ℝ) (pairs : List (AddSing.Pair d))
    (rhs : NodeVec d d ℝ × NodeVec d 1 ℝ) (Pv : Pool (Arr d d ℝ)) (hv : Sound Pv) :
    (runInFluid L bfg elem scale h pairs rhs Pv).1 = (AddSing.addInFluid L bfg elem scale h pairs rhs.1, rhs.2) ∧
      Returned Pv (runInFluid L bfg elem scale h pairs rhs Pv).2 := by
  have e : runInFluid L bfg elem scale h pairs rhs Pv =
    (let i := Pv.get.1
     let Q := onProcs (fun r u => AddSing.pairsLoop scale h (getDMBounds L r true)
       (AddSing.stKernel bfg elem (AddSing.coef d scale)) pairs u) i (fill L 0 i Pv.get.2)
     ((localToGlobalAdd L (Q.mem i) rhs.1, rhs.2), Q.put i)) := rfl
  rw [e]
  extract_lets i Q
  obtain ⟨s1, n1, l1⟩ := get_live Pv hv
  refine ⟨Prod.ext (l2g_congr L _ _ (fun r _ => ?_) _) rfl,
    returned_one Pv _ hv ⟨s1.1, s1.2⟩ (fun _ => Iff.rfl) fun j hj hl => ?_⟩
  · show Eqv L r ((onProcs _ i (fill L 0 i Pv.get.2)).mem i r) _
    rw [onProcs, set_mem, if_pos rfl]
    exact pairs_local L r scale h _ _ (stKernel_local L r bfg elem _) _ _ 0 (fill_eqv L 0 _ _ r)
  · show (onProcs _ i (fill L 0 i Pv.get.2)).mem j = _
    rw [onProcs, set_mem, if_neg hj, fill, set_mem, if_neg hj, get_mem]

/-- C114 (singular flow added to the solution). -/
theorem C114_lastSol {N : ℕ} (L : Fin d → Dir) (bf : Pos d ℝ → Fin N → ℝ) (elem : Pos d ℤ → Fin N → Pos d ℤ)
    (scale : ℕ) (h : Pos d ℝ) (pairs : List (AddSing.Pair d)) (sol : NodeVec d d ℝ × NodeVec d 1 ℝ)
    (hL : ∀ i, (L i).WF) (Pv : Pool (Arr d d ℝ)) (hv : Sound Pv) :
    (runLastSol L bf elem scale h pairs sol Pv).1 = (AddSing.addToLastSol L bf elem scale h pairs sol.1, sol.2) ∧
      Returned Pv (runLastSol L bf elem scale h pairs sol Pv).2 := by
  have e : runLastSol L bf elem scale h pairs sol Pv =
    (let i := Pv.get.1
     let Q := onProcs (fun r u => AddSing.pairsLoop scale h (getDMBounds L r true)
       (AddSing.addKernel bf elem (AddSing.coef d scale)) pairs u) i (g2l L sol.1 i Pv.get.2)
     ((AddSing.localToGlobalInsert L (Q.mem i), sol.2), Q.put i)) := rfl
  rw [e]
  extract_lets i Q
  obtain ⟨s1, n1, l1⟩ := get_live Pv hv
  refine ⟨Prod.ext ?_ rfl, returned_one Pv _ hv ⟨s1.1, s1.2⟩ (fun _ => Iff.rfl) fun j hj hl => ?_⟩
  · funext g c
    refine Finset.sum_congr rfl fun r hr => ?_
    split
    · rename_i hin
      refine congrFun ((?_ : Eqv L r (Q.mem i r) _) g ?_) c
      · show Eqv L r ((onProcs _ i (g2l L sol.1 i Pv.get.2)).mem i r) _
        rw [onProcs, set_mem, if_pos rfl]
        exact pairs_local L r scale h _ _ (addKernel_local L r bf elem _) _ _ _ (g2l_eqv L sol.1 _ _ r)
      · refine win_of_halfOpen L r fun i => ?_
        have h1 := (Box.pointInside_iff _ _).1 hin i
        have h2 := Dir.xs_nonneg (hL i) (r i)
        have h3 := Dir.xe_le (hL i) ((mem_procs L r).1 hr i)
        simp only [getDMBounds, Bool.false_and] at h1
        simp only [ghostWindow, Dir.gxs, Dir.gxe]
        split <;> simp_all <;> omega
    · rfl
  · show (onProcs _ i (g2l L sol.1 i Pv.get.2)).mem j = _
    rw [onProcs, set_mem, if_neg hj, g2l, set_mem, if_neg hj, get_mem]

/-- C114 (interpolation on the surfaces): the values read at the points of the cells of a process. -/
theorem C114_interp {N : ℕ} (L : Fin d → Dir) (hL : ∀ i, (L i).WF) (bf : Pos d ℝ → Fin N → ℝ)
    (elem : Pos d ℤ → Fin N → Pos d ℤ) (hel : IsQ1 elem) (sol : NodeVec d d ℝ) (Pv : Pool (Arr d d ℝ))
    (hv : Sound Pv) :
    (∀ r ∈ procs L, ∀ pt : Pos d ℤ × Pos d ℝ, pt.1 ∈ (getDMBounds L r true).halfOpen →
      (runInterp L bf elem sol Pv).1 r pt = Particle.interpPoint bf elem (globalToLocal L sol) pt) ∧
      Returned Pv (runInterp L bf elem sol Pv).2 := by
  have e : runInterp L bf elem sol Pv =
    (let i := Pv.get.1
     let Q := g2l L sol i Pv.get.2
     (fun r pt => Particle.interpPoint bf elem (Q.mem i r) pt, Q.put i)) := rfl
  rw [e]
  extract_lets i Q
  obtain ⟨s1, n1, l1⟩ := get_live Pv hv
  refine ⟨fun r hr pt hpt => ?_, returned_one Pv _ hv ⟨s1.1, s1.2⟩ (fun _ => Iff.rfl) fun j hj hl => ?_⟩
  · have hw : ∀ k, Q.mem i r (elem pt.1 k) = globalToLocal L sol (elem pt.1 k) := fun k =>
      g2l_eqv L sol i _ r _ (win_of_halfOpen L r (C04_q1_window L hL r hr pt.1 hpt _ (hel pt.1 k)))
    simp only [Particle.interpPoint, hw]
  · show (g2l L sol i Pv.get.2).mem j = _
    rw [g2l, set_mem, if_neg hj, get_mem]

end

/-! ### Histories -/

/-- A Stokes problem with its operators: meshes, processes, boundary conditions, source, local operators, shape
functions and element tables. -/
structure Site (d : ℕ) where
  {NP NV : ℕ}
  Lv : Fin d → Dir
  Lp : Fin d → Dir
  rs : List (Fin d → ℕ)
  bc : BC d ℝ
  src : Fin d → Cond d ℝ
  h : Pos d ℝ
  viscous : (Fin d → ℕ) → NodeVec d d ℝ → NodeVec d d ℝ → NodeVec d d ℝ
  diagonal : (Fin d → ℕ) → NodeVec d d ℝ → NodeVec d d ℝ
  massV : (Fin d → ℕ) → NodeVec d d ℝ → NodeVec d d ℝ → NodeVec d d ℝ
  massP : (Fin d → ℕ) → NodeVec d 1 ℝ → NodeVec d 1 ℝ → NodeVec d 1 ℝ
  elemP : Pos d ℤ → Fin NP → Pos d ℤ
  elemV : Pos d ℤ → Fin NV → Pos d ℤ
  B : Fin NP → Fin NV → Fin d → ℝ
  bf : Pos d ℝ → Fin NP → ℝ
  bfg : Pos d ℝ → Fin NP → Pos d ℝ
  fluid : (Pos d ℝ → Bool) → Box d ℤ → Pos d ℝ → List (Pos d ℤ)

/-- What can be asked of the library on this problem; `y` and `rhs` are the vectors that receive the result, with their
previous content. -/
inductive Request (d : ℕ) (B : Type*)
  | viscous (x y : NodeVec d d ℝ)
  | diagonal (y : NodeVec d d ℝ)
  | stokes (x y : NodeVec d d ℝ × NodeVec d 1 ℝ)
  | mass (x y : NodeVec d d ℝ × NodeVec d 1 ℝ)
  | source (rhs : NodeVec d d ℝ × NodeVec d 1 ℝ)
  | control (pxs : (Fin d → ℕ) → ℕ → ℝ) (applyForces : Bool) (parts : List (Particle.Part d B))
      (rhs : NodeVec d d ℝ × NodeVec d 1 ℝ)
  | layer (parts : (Fin d → ℕ) → List (ℝ × ℕ × List (Pos d ℝ × (Pos d ℤ × Pos d ℝ))))
      (rhs : NodeVec d d ℝ × NodeVec d 1 ℝ)
  | singular (scale : ℕ) (pairs : List (AddSing.Pair d)) (rhs : NodeVec d d ℝ × NodeVec d 1 ℝ)
  | lastSol (scale : ℕ) (pairs : List (AddSing.Pair d)) (sol : NodeVec d d ℝ × NodeVec d 1 ℝ)

/-- The answer as a function of the request alone. -/
noncomputable def answer {B : Type*} (S : Site d) : Request d B → NodeVec d d ℝ × NodeVec d 1 ℝ
  | .viscous x _ => (blockMatrixBC S.Lv S.rs S.bc S.viscous x, 0)
  | .diagonal _ => (diagMatrix S.Lv S.diagonal, 0)
  | .stokes x _ => stokesMatrixBC S.Lv S.Lp S.rs S.bc S.viscous S.elemP S.elemV S.B x.1 x.2
  | .mass x _ => (blockMatrix S.Lv S.massV x.1, blockMatrix S.Lp S.massP x.2)
  | .source rhs => (setRhs S.Lv S.rs S.src S.h S.massV rhs.1, rhs.2)
  | .control pxs f parts rhs =>
    (Particle.setRhsProblem S.fluid S.Lv S.rs S.h (blockMatrix S.Lv S.massV) pxs f parts rhs.1, rhs.2)
  | .layer parts _ => (setNullDirichletOnRHS S.Lv S.rs S.bc (Particle.slToRhs S.Lv S.bf S.elemP parts), 0)
  | .singular scale pairs rhs => (AddSing.addInFluid S.Lv S.bfg S.elemP scale S.h pairs rhs.1, rhs.2)
  | .lastSol scale pairs sol => (AddSing.addToLastSol S.Lv S.bf S.elemP scale S.h pairs sol.1, sol.2)

/-- The work arrays: global vectors, local velocity arrays, local pressure arrays. -/
structure Pools (d : ℕ) where
  g : Pool (NodeVec d d ℝ × NodeVec d 1 ℝ)
  v : Pool (Arr d d ℝ)
  p : Pool (Arr d 1 ℝ)

/-- The answer of the library, with its work arrays. -/
noncomputable def serve {B : Type*} (S : Site d) (W : Pools d) :
    Request d B → (NodeVec d d ℝ × NodeVec d 1 ℝ) × Pools d
  | .viscous x y =>
    let R := runBlock S.Lv S.viscous (fun x y => setDirichletOnVec S.Lv S.rs S.bc x y) x y W.v
    ((R.1, 0), { W with v := R.2 })
  | .diagonal y =>
    let R := runDiag S.Lv S.diagonal y W.v
    ((R.1, 0), { W with v := R.2 })
  | .stokes x y =>
    let R := runStokes S.Lv S.Lp S.viscous S.elemP S.elemV S.B (fun x y => setDirichletOnVec S.Lv S.rs S.bc x y) x y W.v W.p
    (R.1, { W with v := R.2.1, p := R.2.2 })
  | .mass x y =>
    let R := runMass S.Lv S.Lp S.massV S.massP x y W.v W.p
    (R.1, { W with v := R.2.1, p := R.2.2 })
  | .source rhs =>
    let R := runSetRhs S.Lv S.rs S.src S.h S.massV rhs W.g W.v
    (R.1, { W with g := R.2.1, v := R.2.2 })
  | .control pxs f parts rhs =>
    let R := runSetRhsProblem S.Lv S.Lp (writeControl S.fluid S.Lv S.rs S.h pxs f parts) S.massV S.massP rhs W.g W.v W.p
    (R.1, ⟨R.2.1, R.2.2.1, R.2.2.2⟩)
  | .layer parts rhs =>
    let R := runSL S.Lv S.bf S.elemP parts (setNullDirichletOnRHS S.Lv S.rs S.bc) rhs W.v
    (R.1, { W with v := R.2 })
  | .singular scale pairs rhs =>
    let R := runInFluid S.Lv S.bfg S.elemP scale S.h pairs rhs W.v
    (R.1, { W with v := R.2 })
  | .lastSol scale pairs sol =>
    let R := runLastSol S.Lv S.bf S.elemP scale S.h pairs sol W.v
    (R.1, { W with v := R.2 })

/-- The answers to a sequence of requests, each one using the arrays left by the previous ones. -/
noncomputable def serveAll {B : Type*} (S : Site d) : Pools d → List (Request d B) →
    List (NodeVec d d ℝ × NodeVec d 1 ℝ) × Pools d
  | W, [] => ([], W)
  | W, q :: t =>
    let R := serve S W q
    let T := serveAll S R.2 t
    (R.1 :: T.1, T.2)

/-- What the operators of the problem must satisfy: they only look at the windows of the processes. -/
structure Ready (S : Site d) : Prop where
  wf : ∀ i, (S.Lv i).WF
  procs : procs S.Lv = procs S.Lp
  viscous : LocalOp S.Lv S.viscous
  diagonal : ∀ r ∈ Cafes.procs S.Lv, ∀ y y', Eqv S.Lv r y y' → Eqv S.Lv r (S.diagonal r y) (S.diagonal r y')
  massV : LocalOp S.Lv S.massV
  massP : LocalOp S.Lp S.massP
  massP0 : blockMatrix S.Lp S.massP 0 = 0
  off : LocalOff S.Lv S.Lp S.elemP S.elemV

/-- The pools are well formed. -/
structure SoundAll (W : Pools d) : Prop where
  g : Sound W.g
  v : Sound W.v
  p : Sound W.p

/-- The pools are left as they were found. -/
structure ReturnedAll (W W' : Pools d) : Prop where
  g : Returned W.g W'.g
  v : Returned W.v W'.v
  p : Returned W.p W'.p

theorem serve_spec {B : Type*} (S : Site d) (hS : Ready S) (W : Pools d) (hW : SoundAll W) (q : Request d B) :
    (serve S W q).1 = answer S q ∧ ReturnedAll W (serve S W q).2 := by
  have rg := returned_refl _ hW.g
  have rv := returned_refl _ hW.v
  have rp := returned_refl _ hW.p
  cases q with
  | viscous x y =>
    have := C114_block S.Lv S.viscous hS.viscous (fun x y => setDirichletOnVec S.Lv S.rs S.bc x y) x y W.v hW.v
    exact ⟨Prod.ext this.1 rfl, rg, this.2, rp⟩
  | diagonal y =>
    have := C114_diagonal S.Lv S.diagonal hS.diagonal y W.v hW.v
    exact ⟨Prod.ext this.1 rfl, rg, this.2, rp⟩
  | stokes x y =>
    have := C114_stokes S.Lv S.Lp hS.procs S.viscous hS.viscous S.elemP S.elemV hS.off S.B
      (fun x y => setDirichletOnVec S.Lv S.rs S.bc x y) x y W.v W.p hW.v hW.p
    exact ⟨this.1, rg, this.2.1, this.2.2⟩
  | mass x y =>
    have := C114_mass S.Lv S.Lp S.massV hS.massV S.massP hS.massP x y W.v W.p hW.v hW.p
    exact ⟨this.1, rg, this.2.1, this.2.2⟩
  | source rhs =>
    have := C114_source S.Lv S.rs S.src S.h S.massV hS.massV rhs W.g W.v hW.g hW.v
    exact ⟨this.1, this.2.1, this.2.2, rp⟩
  | control pxs f parts rhs =>
    have := C114_control S.Lv S.Lp S.fluid S.rs S.h pxs f parts S.massV hS.massV S.massP hS.massP hS.massP0 rhs
      W.g W.v W.p hW.g hW.v hW.p
    exact ⟨this.1, this.2.1, this.2.2.1, this.2.2.2⟩
  | layer parts rhs =>
    have := C114_layer S.Lv S.bf S.elemP parts (setNullDirichletOnRHS S.Lv S.rs S.bc) rhs W.v hW.v
    exact ⟨this.1, rg, this.2, rp⟩
  | singular scale pairs rhs =>
    have := C114_singular S.Lv S.bfg S.elemP scale S.h pairs rhs W.v hW.v
    exact ⟨this.1, rg, this.2, rp⟩
  | lastSol scale pairs sol =>
    have := C114_lastSol S.Lv S.bf S.elemP scale S.h pairs sol hS.wf W.v hW.v
    exact ⟨this.1, rg, this.2, rp⟩

/-- C114 (histories): in every sequence of requests, each answer is the function of its request alone, whatever was
asked before and whatever the work arrays contained at the start; at the end the arrays taken have been given back, none
twice, and the arrays held by the caller are untouched. -/
theorem C114_history {B : Type*} (S : Site d) (hS : Ready S) (l : List (Request d B)) (W : Pools d) (hW : SoundAll W) :
    (serveAll S W l).1 = l.map (answer S) ∧ ReturnedAll W (serveAll S W l).2 := by
  induction l generalizing W with
  | nil => exact ⟨rfl, returned_refl _ hW.g, returned_refl _ hW.v, returned_refl _ hW.p⟩
  | cons q t ih =>
    obtain ⟨h1, h2⟩ := serve_spec S hS W hW q
    obtain ⟨h3, h4⟩ := ih (serve S W q).2 ⟨h2.g.sound, h2.v.sound, h2.p.sound⟩
    exact ⟨congrArg₂ List.cons h1 h3, returned_trans h2.g h4.g, returned_trans h2.v h4.v, returned_trans h2.p h4.p⟩

/-- A problem of the library: the meshes of `createMesh`, the strain tensor or the Laplacian, the mass matrices
of `apply_mass_matrix` and the diagonal given to the preconditioner. -/
noncomputable def siteOf {NP NV : ℕ} (N : Fin d → ℤ) (per : Fin d → Bool) (lx : Fin d → List ℤ) (rs : List (Fin d → ℕ))
    (bc : BC d ℝ) (src : Fin d → Cond d ℝ) (h : Pos d ℝ) (strain : Bool) (elemP : Pos d ℤ → Fin NP → Pos d ℤ)
    (elemV : Pos d ℤ → Fin NV → Pos d ℤ) (S : Fin NP → Fin NP → Fin d → Fin d → ℝ) (A Mv Mp : Fin NP → Fin NP → ℝ)
    (B : Fin NP → Fin NV → Fin d → ℝ) (bf : Pos d ℝ → Fin NP → ℝ) (bfg : Pos d ℝ → Fin NP → Pos d ℝ)
    (fluid : (Pos d ℝ → Bool) → Box d ℤ → Pos d ℝ → List (Pos d ℤ)) : Site d where
  Lv := velLayout N per lx
  Lp := presLayout N per lx
  rs := rs
  bc := bc
  src := src
  h := h
  viscous := if strain then tensorBlockMult (velLayout N per lx) elemP S else diagBlockMult (velLayout N per lx) elemP A
  diagonal := diagDiagBlockMult (velLayout N per lx) elemP A
  massV := diagBlockMult (velLayout N per lx) elemP Mv
  massP := diagBlockMult (presLayout N per lx) elemP Mp
  elemP := elemP
  elemV := elemV
  B := B
  bf := bf
  bfg := bfg
  fluid := fluid

/-- The problems of the library in 2D. -/
noncomputable def site2 (N : Fin 2 → ℤ) (per : Fin 2 → Bool) (lx : Fin 2 → List ℤ) (rs : List (Fin 2 → ℕ)) (bc : BC 2 ℝ)
    (src : Fin 2 → Cond 2 ℝ) (h : Pos 2 ℝ) (strain : Bool) (bf : Pos 2 ℝ → Fin 4 → ℝ) (bfg : Pos 2 ℝ → Fin 4 → Pos 2 ℝ)
    (fluid : (Pos 2 ℝ → Bool) → Box 2 ℤ → Pos 2 ℝ → List (Pos 2 ℤ)) : Site 2 :=
  siteOf N per lx rs bc src h strain getElement2 getElement4Q1_2 (matElemStrain2 h) (matElemLaplacian2 h) (matElemMass2 h)
    (matElemMass2 (forEachByValue (fun t => t * 2) h)) (matElemPressure2 h) bf bfg fluid

/-- The problems of the library in 3D. -/
noncomputable def site3 (N : Fin 3 → ℤ) (per : Fin 3 → Bool) (lx : Fin 3 → List ℤ) (rs : List (Fin 3 → ℕ)) (bc : BC 3 ℝ)
    (src : Fin 3 → Cond 3 ℝ) (h : Pos 3 ℝ) (strain : Bool) (bf : Pos 3 ℝ → Fin 8 → ℝ) (bfg : Pos 3 ℝ → Fin 8 → Pos 3 ℝ)
    (fluid : (Pos 3 ℝ → Bool) → Box 3 ℤ → Pos 3 ℝ → List (Pos 3 ℤ)) : Site 3 :=
  siteOf N per lx rs bc src h strain getElement3 getElement4Q1_3 (matElemStrain3 h) (matElemLaplacian3 h) (matElemMass3 h)
    (matElemMass3 (forEachByValue (fun t => t * 2) h)) (matElemPressure3 h) bf bfg fluid

theorem off_ready {NP NV : ℕ} (N : Fin d → ℤ) (per : Fin d → Bool) (lx : Fin d → List ℤ) (hne : ∀ i, lx i ≠ [])
    (hW : ∀ i, (presLayout N per lx i).WF) (elemP : Pos d ℤ → Fin NP → Pos d ℤ) (elemV : Pos d ℤ → Fin NV → Pos d ℤ)
    (hel : IsQ1 elemP) (off : Fin NV → Fin d → Fin 3) (hoff : Is4Q1 elemV off) :
    LocalOff (velLayout N per lx) (presLayout N per lx) elemP elemV := fun r hr e he =>
  ⟨fun k => C04_q1_window _ hW r hr e he _ (hel e k), win4 N per lx hne hW elemP elemV hel off hoff r hr e he⟩

theorem mass_zero {N : ℕ} (L : Fin d → Dir) (hL : ∀ i, (L i).WF) (elem : Pos d ℤ → Fin N → Pos d ℤ) (hel : IsQ1 elem)
    (M : Fin N → Fin N → ℝ) : blockMatrix L (diagBlockMult (n := n) L elem M) 0 = 0 := by
  have := diagBlock_combines (n := n) L hL elem hel M 0 0 0 0
  simpa using this

theorem ready_of {NP NV : ℕ} (N : Fin d → ℤ) (per : Fin d → Bool) (lx : Fin d → List ℤ) (hne : ∀ i, lx i ≠ [])
    (hW : ∀ i, (presLayout N per lx i).WF) (rs : List (Fin d → ℕ))
    (bc : BC d ℝ) (src : Fin d → Cond d ℝ) (h : Pos d ℝ) (strain : Bool) (elemP : Pos d ℤ → Fin NP → Pos d ℤ)
    (elemV : Pos d ℤ → Fin NV → Pos d ℤ) (S : Fin NP → Fin NP → Fin d → Fin d → ℝ) (A Mv Mp : Fin NP → Fin NP → ℝ)
    (B : Fin NP → Fin NV → Fin d → ℝ) (bf : Pos d ℝ → Fin NP → ℝ) (bfg : Pos d ℝ → Fin NP → Pos d ℝ)
    (fluid : (Pos d ℝ → Bool) → Box d ℤ → Pos d ℝ → List (Pos d ℤ)) (hel : IsQ1 elemP) (off : Fin NV → Fin d → Fin 3)
    (hoff : Is4Q1 elemV off) : Ready (siteOf N per lx rs bc src h strain elemP elemV S A Mv Mp B bf bfg fluid) := by
  have hv := velLayout_wf N per lx hne hW
  refine ⟨hv, procs_layout N per lx, ?_, fun r _ y y' hy => diagDiag_local (velLayout N per lx) elemP A r y y' hy,
    diagBlock_local (velLayout N per lx) hv elemP hel Mv, diagBlock_local (presLayout N per lx) hW elemP hel Mp,
    mass_zero (presLayout N per lx) hW elemP hel Mp, off_ready N per lx hne hW elemP elemV hel off hoff⟩
  show LocalOp (velLayout N per lx)
    (if strain then tensorBlockMult (velLayout N per lx) elemP S else diagBlockMult (velLayout N per lx) elemP A)
  split
  · exact tensorBlock_local (velLayout N per lx) hv elemP hel S
  · exact diagBlock_local (velLayout N per lx) hv elemP hel A

/-- C114 (the library, 2D): the operators of the library only look at the windows of the processes, so that every history
of requests gets the answers that depend on the requests alone. -/
theorem C114_library2 (N : Fin 2 → ℤ) (per : Fin 2 → Bool) (lx : Fin 2 → List ℤ) (hne : ∀ i, lx i ≠ [])
    (hW : ∀ i, (presLayout N per lx i).WF) (rs : List (Fin 2 → ℕ)) (bc : BC 2 ℝ) (src : Fin 2 → Cond 2 ℝ) (h : Pos 2 ℝ)
    (strain : Bool) (bf : Pos 2 ℝ → Fin 4 → ℝ) (bfg : Pos 2 ℝ → Fin 4 → Pos 2 ℝ)
    (fluid : (Pos 2 ℝ → Bool) → Box 2 ℤ → Pos 2 ℝ → List (Pos 2 ℤ)) {B : Type*} (l : List (Request 2 B)) (W : Pools 2)
    (hP : SoundAll W) :
    let S := site2 N per lx rs bc src h strain bf bfg fluid
    (serveAll S W l).1 = l.map (answer S) ∧ ReturnedAll W (serveAll S W l).2 := by
  exact C114_history _ (ready_of N per lx hne hW rs bc src h strain getElement2 getElement4Q1_2 (matElemStrain2 h)
    (matElemLaplacian2 h) (matElemMass2 h) (matElemMass2 (forEachByValue (fun t => t * 2) h)) (matElemPressure2 h) bf bfg
    fluid isQ1_2 _ is4Q1_2) l W hP

/-- C114 (the library, 3D). -/
theorem C114_library3 (N : Fin 3 → ℤ) (per : Fin 3 → Bool) (lx : Fin 3 → List ℤ) (hne : ∀ i, lx i ≠ [])
    (hW : ∀ i, (presLayout N per lx i).WF) (rs : List (Fin 3 → ℕ)) (bc : BC 3 ℝ) (src : Fin 3 → Cond 3 ℝ) (h : Pos 3 ℝ)
    (strain : Bool) (bf : Pos 3 ℝ → Fin 8 → ℝ) (bfg : Pos 3 ℝ → Fin 8 → Pos 3 ℝ)
    (fluid : (Pos 3 ℝ → Bool) → Box 3 ℤ → Pos 3 ℝ → List (Pos 3 ℤ)) {B : Type*} (l : List (Request 3 B)) (W : Pools 3)
    (hP : SoundAll W) :
    let S := site3 N per lx rs bc src h strain bf bfg fluid
    (serveAll S W l).1 = l.map (answer S) ∧ ReturnedAll W (serveAll S W l).2 := by
  exact C114_history _ (ready_of N per lx hne hW rs bc src h strain getElement3 getElement4Q1_3 (matElemStrain3 h)
    (matElemLaplacian3 h) (matElemMass3 h) (matElemMass3 (forEachByValue (fun t => t * 2) h)) (matElemPressure3 h) bf bfg
    fluid isQ1_3 _ is4Q1_3) l W hP

/-- Pools with two local arrays full of 7, one of them held by the caller, and one used global vector. -/
def dirtyPools : Pools d where
  g := ⟨fun _ => (fun _ _ => 5, fun _ _ => 5), [0], 1⟩
  v := ⟨fun _ _ _ _ => 7, [0], 2⟩
  p := ⟨fun _ _ _ _ => 7, [], 0⟩

/-- The hypotheses of C114 are met by used arrays, some of them held by the caller. -/
example : SoundAll (dirtyPools (d := 2)) ∧ Live (dirtyPools (d := 2)).v 1 :=
  ⟨⟨⟨by simp [dirtyPools], by simp [dirtyPools]⟩, ⟨by simp [dirtyPools], by simp [dirtyPools]⟩,
    ⟨by simp [dirtyPools], by simp [dirtyPools]⟩⟩, by simp [Live, dirtyPools]⟩

/-- The meshes of C114 exist: six processes, a periodic direction. -/
example : (∀ i, (![[2, 3, 1], [2, 3]] : Fin 2 → List ℤ) i ≠ []) ∧
    ∀ i, (presLayout (fun _ => 6) (fun i => decide (i = 1)) ![[2, 3, 1], [2, 3]] i).WF := by
  constructor <;> intro i <;> fin_cases i <;> first | decide | exact ⟨by decide, by decide⟩

end Cafes.Props
