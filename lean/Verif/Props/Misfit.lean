/-
Property theorems: C108, DtoN leaves the flow of least misfit on the surfaces of the particles.
-/
import Verif.Props.SurfacePieces
import Verif.Props.Dissipation
import Verif.Props.NtodInst
import Verif.Props.SemPost
import Verif.Lemmas.LeastSquares

namespace Cafes.Props
open Cafes Cafes.Spec Cafes.Driver Cafes.Particle Cafes.Geometry
variable {d N NP NV : ℕ} {A : Type*}

/-! ### What is used of the discrete Stokes operator -/

/-- A linear operator with identity rows at the constrained dofs, self-adjoint on the flows without divergence that vanish
there. -/
structure StokesLike (Lv Lp : Fin d → Dir) (bc : BC d ℝ)
    (F : NodeVec d d ℝ → NodeVec d 1 ℝ → NodeVec d d ℝ × NodeVec d 1 ℝ) : Prop where
  lin : ∀ (a b : ℝ) u p u' p', F (a • u + b • u') (a • p + b • p') = a • F u p + b • F u' p'
  held : ∀ f s u p, Solves Lv Lp F f s u p → ∀ g ∈ gridNodes Lv, ∀ c, Constrained Lv bc g c → u g c = f g c
  recip : ∀ f f' u u' p p', Solves Lv Lp F f 0 u p → Solves Lv Lp F f' 0 u' p' →
    (∀ g ∈ gridNodes Lv, ∀ c, Constrained Lv bc g c → f g c = 0) →
    (∀ g ∈ gridNodes Lv, ∀ c, Constrained Lv bc g c → f' g c = 0) →
    dot Lv f u' = dot Lv f' u

section general
variable (M : Fin d → ℤ) (per : Fin d → Bool)
  (lx : Fin d → List ℤ) (hne : ∀ i, lx i ≠ []) (hW : ∀ i, (presLayout M per lx i).WF)
  (elemP : Pos d ℤ → Fin NP → Pos d ℤ) (elemV : Pos d ℤ → Fin NV → Pos d ℤ) (hel : IsQ1 elemP)
  (off : Fin NV → Fin d → Fin 3) (hoff : Is4Q1 elemV off)
  (apply : (Fin d → ℕ) → NodeVec d d ℝ → NodeVec d d ℝ → NodeVec d d ℝ)
  (B : Fin NP → Fin NV → Fin d → ℝ)
include hne hW hel hoff

theorem stokesLike (rs : List (Fin d → ℕ)) (hrs : AllProcs (velLayout M per lx) rs) (bc : BC d ℝ)
    (hlin : Combines (blockMatrix (velLayout M per lx) apply))
    (hsym : ∀ x y, dot (velLayout M per lx) x (blockMatrix (velLayout M per lx) apply y) =
      dot (velLayout M per lx) y (blockMatrix (velLayout M per lx) apply x)) :
    StokesLike (velLayout M per lx) (presLayout M per lx) bc
      (stokesMatrixBC (velLayout M per lx) (presLayout M per lx) rs bc apply elemP elemV B) := by
  have held : ∀ f s u p, Solves (velLayout M per lx) (presLayout M per lx)
      (stokesMatrixBC (velLayout M per lx) (presLayout M per lx) rs bc apply elemP elemV B) f s u p →
      ∀ g ∈ gridNodes (velLayout M per lx), ∀ c, Constrained (velLayout M per lx) bc g c → u g c = f g c :=
    fun f s u p hs => (admissible_of_solves M per lx hne hW elemP elemV hel off hoff apply B rs hrs bc f u s p hs).1
  refine ⟨fun a b u p u' p' => ?_, held, fun f f' u u' p p' hu hu' hf hf' => ?_⟩
  · exact stokesBC_combines M per lx hne hW elemP elemV hel off hoff apply B rs hrs bc hlin a b (u, p) (u', p')
  · have h0 : ∀ g ∈ gridNodes (velLayout M per lx), ∀ c, Constrained (velLayout M per lx) bc g c → u g c = 0 :=
      fun g hg c hc => (held f 0 u p hu g hg c hc).trans (hf g hg c hc)
    have h0' : ∀ g ∈ gridNodes (velLayout M per lx), ∀ c, Constrained (velLayout M per lx) bc g c → u' g c = 0 :=
      fun g hg c hc => (held f' 0 u' p' hu' g hg c hc).trans (hf' g hg c hc)
    have e1 := work_rows M per lx hne hW elemP elemV hel off hoff apply B rs hrs bc f u u' 0 p hu h0'
    have e2 := work_rows M per lx hne hW elemP elemV hel off hoff apply B rs hrs bc f' u' u 0 p' hu' h0
    have hr := reciprocal M per lx hne hW elemP elemV hel off hoff apply B hsym u u' p p'
    have hz : ∀ (p p' : NodeVec d 1 ℝ) (v : NodeVec d d ℝ), (∀ q ∈ gridNodes (presLayout M per lx),
        (stokesMatrixBC (velLayout M per lx) (presLayout M per lx) rs bc apply elemP elemV B v p').2 q 0 = 0) →
        dot (presLayout M per lx) p (stokesMatrix (velLayout M per lx) (presLayout M per lx) apply elemP elemV B v p').2 = 0 := by
      intro p p' v hv
      unfold dot
      refine Finset.sum_eq_zero fun q hq => Finset.sum_eq_zero fun c _ => ?_
      have hc : c = 0 := Subsingleton.elim _ _
      subst hc
      exact mul_eq_zero_of_right _ (hv q hq)
    rw [hz p p' u' hu'.2, hz p' p u hu.2, add_zero, add_zero, e1, e2] at hr
    have hw : ∀ (f v : NodeVec d d ℝ), (∀ g ∈ gridNodes (velLayout M per lx), ∀ c,
        Constrained (velLayout M per lx) bc g c → f g c = 0) → work (velLayout M per lx) bc f v = dot (velLayout M per lx) f v := by
      intro f v hf
      unfold work dot
      refine Finset.sum_congr rfl fun g hg => Finset.sum_congr rfl fun c _ => ?_
      by_cases hc : Constrained (velLayout M per lx) bc g c
      · rw [if_pos hc, hf g hg c hc, zero_mul]
      · rw [if_neg hc]
    rwa [hw f u' hf, hw f' u hf'] at hr

end general

/-- The four Stokes operators of the code. -/
theorem stokesLike2 (M : Fin 2 → ℤ) (per : Fin 2 → Bool) (lx : Fin 2 → List ℤ)
    (hne : ∀ i, lx i ≠ []) (hW : ∀ i, (presLayout M per lx i).WF)
    (h : Pos 2 ℝ) (hh : ∀ c, 0 < h c) (rs : List (Fin 2 → ℕ)) (hrs : AllProcs (velLayout M per lx) rs) (bc : BC 2 ℝ) :
    StokesLike (velLayout M per lx) (presLayout M per lx) bc (stokesStrain2 M per lx rs bc h) ∧
    StokesLike (velLayout M per lx) (presLayout M per lx) bc (stokesLap2 M per lx rs bc h) := by
  have hv := velLayout_wf M per lx hne hW
  exact ⟨stokesLike M per lx hne hW _ _ isQ1_2 _ is4Q1_2 _ _ rs hrs bc (tensorBlock_combines _ hv _ isQ1_2 _)
      (C15_symmetric2 (n := 2) _ hv h hh).2.2,
    stokesLike M per lx hne hW _ _ isQ1_2 _ is4Q1_2 _ _ rs hrs bc (diagBlock_combines _ hv _ isQ1_2 _)
      (C15_symmetric2 (n := 2) _ hv h hh).1⟩

theorem stokesLike3 (M : Fin 3 → ℤ) (per : Fin 3 → Bool) (lx : Fin 3 → List ℤ)
    (hne : ∀ i, lx i ≠ []) (hW : ∀ i, (presLayout M per lx i).WF)
    (h : Pos 3 ℝ) (hh : ∀ c, 0 < h c) (rs : List (Fin 3 → ℕ)) (hrs : AllProcs (velLayout M per lx) rs) (bc : BC 3 ℝ) :
    StokesLike (velLayout M per lx) (presLayout M per lx) bc (stokesStrain3 M per lx rs bc h) ∧
    StokesLike (velLayout M per lx) (presLayout M per lx) bc (stokesLap3 M per lx rs bc h) := by
  have hv := velLayout_wf M per lx hne hW
  exact ⟨stokesLike M per lx hne hW _ _ isQ1_3 _ is4Q1_3 _ _ rs hrs bc (tensorBlock_combines _ hv _ isQ1_3 _)
      (C15_symmetric3 (n := 3) _ hv h hh).2.2,
    stokesLike M per lx hne hW _ _ isQ1_3 _ is4Q1_3 _ _ rs hrs bc (diagBlock_combines _ hv _ isQ1_3 _)
      (C15_symmetric3 (n := 3) _ hv h hh).1⟩

/-! ### Exact linear fluid solvers exist -/

/-- A linear fluid solver that is right whenever the discrete system has a solution. -/
structure FluidSolver (Lv Lp : Fin d → Dir) (F : NodeVec d d ℝ → NodeVec d 1 ℝ → NodeVec d d ℝ × NodeVec d 1 ℝ)
    (solve : NodeVec d d ℝ × NodeVec d 1 ℝ → NodeVec d d ℝ × NodeVec d 1 ℝ) : Prop where
  linear : IsLinearMap ℝ solve
  exact : ∀ f s, (∃ u p, Solves Lv Lp F f s u p) → Solves Lv Lp F f s (solve (f, s)).1 (solve (f, s)).2

/-- C108 (fluid solver): there is one. -/
theorem C108_solver (Lv Lp : Fin d → Dir) (bc : BC d ℝ)
    (F : NodeVec d d ℝ → NodeVec d 1 ℝ → NodeVec d d ℝ × NodeVec d 1 ℝ) (hF : StokesLike Lv Lp bc F) :
    ∃ solve, FluidSolver Lv Lp F solve := by
  classical
  set R : NodeVec d d ℝ × NodeVec d 1 ℝ → NodeVec d d ℝ × NodeVec d 1 ℝ := fun b =>
    (fun g c => if g ∈ gridNodes Lv then b.1 g c else 0, fun q c => if q ∈ gridNodes Lp then b.2 q c else 0) with hR
  have hRl : IsLinearMap ℝ R := by
    refine isLinear_of _ fun a b x y => ?_
    refine Prod.ext (funext fun g => funext fun c => ?_) (funext fun g => funext fun c => ?_)
    all_goals
      simp only [hR, Prod.fst_add, Prod.snd_add, Prod.smul_fst, Prod.smul_snd, Pi.add_apply, Pi.smul_apply, smul_eq_mul]
      split_ifs <;> ring
  have hA : IsLinearMap ℝ fun x : NodeVec d d ℝ × NodeVec d 1 ℝ => R (F x.1 x.2) := by
    refine isLinear_of _ fun a b x y => ?_
    show R (F (a • x.1 + b • y.1) (a • x.2 + b • y.2)) = _
    rw [hF.lin, hRl.map_add, hRl.map_smul, hRl.map_smul]
  obtain ⟨g, hg, he⟩ := linear_solver _ hA
  have hiff : ∀ f s (x : NodeVec d d ℝ × NodeVec d 1 ℝ), R (F x.1 x.2) = R (f, s) ↔ Solves Lv Lp F f s x.1 x.2 := by
    intro f s x
    constructor
    · intro e
      refine ⟨fun g hg c => ?_, fun q hq => ?_⟩
      · have := congrFun (congrFun (congrArg Prod.fst e) g) c
        simpa only [hR, if_pos hg] using this
      · have := congrFun (congrFun (congrArg Prod.snd e) q) 0
        simpa only [hR, if_pos hq] using this
    · intro e
      refine Prod.ext (funext fun g => funext fun c => ?_) (funext fun q => funext fun c => ?_)
      · simp only [hR]
        split_ifs with hg
        · exact e.1 g hg c
        · rfl
      · simp only [hR]
        split_ifs with hq
        · have hc : c = 0 := Subsingleton.elim _ _
          rw [hc]
          exact e.2 q hq
        · rfl
  refine ⟨fun b => g (R b), comp_linear hg hRl, fun f s ⟨u, p, h⟩ => ?_⟩
  exact (hiff f s (g (R (f, s)))).1 (he _ ⟨(u, p), (hiff f s (u, p)).2 h⟩)

/-! ### The misfit -/

variable [AddCommGroup A] [Module ℝ A]

/-- The node `g` is one of the nodes inside the particles, those that carry the control. -/
def InParticles (D : Setup d N A) (g : Pos d ℤ) : Prop := ∃ r ∈ procs D.L, ∃ P ∈ D.parts, g ∈ solidNodes D r P

/-- The misfit of a flow on the surfaces of the particles: the sum over the particles of `area / number of points` times the
sum over the surface points of the square of the gap between the velocity of the fluid and the motion `- V + omega x r`. -/
noncomputable def misfit (D : Setup d N A) (u : NodeVec d d ℝ) : ℝ :=
  ∑ r ∈ procs D.L, ∑ i : Fin D.parts.length, D.parts[i].area / (heldCount D D.parts[i] : ℝ) *
    ∑ k : Fin (heldPoints D D.parts[i] r).length, ∑ c, surfaceGap D u r i k c ^ 2

/-- The same with the interpolated velocity alone. -/
noncomputable def surfSize (D : Setup d N A) (v : NodeVec d d ℝ) : ℝ :=
  ∑ r ∈ procs D.L, ∑ i : Fin D.parts.length, D.parts[i].area / (heldCount D D.parts[i] : ℝ) *
    ∑ k : Fin (heldPoints D D.parts[i] r).length, ∑ c,
      interpPoint D.bf D.elem (globalToLocal D.L v) (heldPoints D D.parts[i] r)[k] c ^ 2

theorem surfSize_nonneg (D : Setup d N A) (ha : ∀ P ∈ D.parts, 0 ≤ P.area) (v : NodeVec d d ℝ) : 0 ≤ surfSize D v :=
  Finset.sum_nonneg fun _ _ => Finset.sum_nonneg fun i _ => mul_nonneg
    (div_nonneg (ha _ (List.getElem_mem _)) (Nat.cast_nonneg _))
    (Finset.sum_nonneg fun _ _ => Finset.sum_nonneg fun _ _ => sq_nonneg _)

theorem interpPoint_smul (D : Setup d N A) (u v : NodeVec d d ℝ) (t : ℝ) (pt : Pos d ℤ × Pos d ℝ) (c : Fin d) :
    interpPoint D.bf D.elem (globalToLocal D.L (u + t • v)) pt c =
      interpPoint D.bf D.elem (globalToLocal D.L u) pt c + t * interpPoint D.bf D.elem (globalToLocal D.L v) pt c := by
  simp only [interpPoint_apply, globalToLocal, Pi.add_apply, Pi.smul_apply, smul_eq_mul]
  rw [Finset.mul_sum, ← Finset.sum_add_distrib]
  exact Finset.sum_congr rfl fun _ _ => by ring

theorem gap_add (D : Setup d N A) (u v : NodeVec d d ℝ) (t : ℝ) (r : Fin d → ℕ) (i : Fin D.parts.length)
    (k : Fin (heldPoints D D.parts[i] r).length) (c : Fin d) :
    surfaceGap D (u + t • v) r i k c = surfaceGap D u r i k c +
      t * interpPoint D.bf D.elem (globalToLocal D.L v) (heldPoints D D.parts[i] r)[k] c := by
  obtain ⟨e1, e2, -⟩ := data_surf D i i.2 r
  have hl := data_aligned D i r
  have hk : (k : ℕ) < (D.data i r).surf.length := by rw [e1]; exact k.2
  unfold surfaceGap
  rw [List.getElem?_eq_getElem i.2, List.getElem?_eq_getElem (l := (D.data i r).surf) hk,
    List.getElem?_eq_getElem (l := (D.data i r).radial) (hl ▸ hk)]
  simp only
  rw [interpPoint_smul]
  have : (D.data i r).surf[(k : ℕ)] = (heldPoints D D.parts[i] r)[k] := by
    simp only [e1]
    rfl
  rw [this]
  ring

theorem misfit_add (D : Setup d N A) (hL : ∀ i, (D.L i).WF) (hh : ∀ i, 0 < D.h i) (hel : IsQ1 D.elem)
    (u v : NodeVec d d ℝ) (t : ℝ) :
    misfit D (u + t • v) = misfit D u + 2 * t * Cafes.dot D.L (D.sl (surfaceGap D u)) v + t ^ 2 * surfSize D v := by
  rw [C87_spread D hL hh hel]
  unfold misfit surfSize
  simp only [gap_add, Finset.mul_sum, ← Finset.sum_add_distrib]
  refine Finset.sum_congr rfl fun r _ => Finset.sum_congr rfl fun i _ => Finset.sum_congr rfl fun k _ =>
    Finset.sum_congr rfl fun c _ => ?_
  ring

/-- The flow `u, p` has the nodal forces and boundary values `f`, and no nodal forces added inside the particles give a flow of smaller
misfit. -/
def LeastMisfit (D : Setup d N A) (Lp : Fin d → Dir)
    (F : NodeVec d d ℝ → NodeVec d 1 ℝ → NodeVec d d ℝ × NodeVec d 1 ℝ) (f u : NodeVec d d ℝ) (p : NodeVec d 1 ℝ) : Prop :=
  Solves D.L Lp F f 0 u p ∧ ∀ δ u' p', (∀ g c, δ g c ≠ 0 → InParticles D g ∧ ¬ Constrained D.L D.bc g c) →
    Solves D.L Lp F (f + δ) 0 u' p' → misfit D u ≤ misfit D u'

section optimal
variable (D : Setup d N A) (hL : ∀ i, (D.L i).WF) (hrs : AllProcs D.L D.rs) (hh : ∀ i, 0 < D.h i) (hel : IsQ1 D.elem)
  (Lp : Fin d → Dir) (F : NodeVec d d ℝ → NodeVec d 1 ℝ → NodeVec d d ℝ × NodeVec d 1 ℝ)
  (hF : StokesLike D.L Lp D.bc F)
include hL hrs hh hel hF

/-- The slope of the misfit: for a flow `v` driven by the nodal forces `δ`, it is the work of `δ` in the flow `w` of the second
problem. -/
theorem misfit_slope (u v w δ : NodeVec d d ℝ) (p q : NodeVec d 1 ℝ)
    (hδ : ∀ g ∈ gridNodes D.L, ∀ c, Constrained D.L D.bc g c → δ g c = 0)
    (hv : Solves D.L Lp F δ 0 v p)
    (hw : Solves D.L Lp F (setNullDirichletOnRHS D.L D.rs D.bc (D.sl (surfaceGap D u))) 0 w q) :
    Cafes.dot D.L (D.sl (surfaceGap D u)) v = Cafes.dot D.L δ w := by
  have hn : ∀ g ∈ gridNodes D.L, ∀ c, Constrained D.L D.bc g c →
      setNullDirichletOnRHS D.L D.rs D.bc (D.sl (surfaceGap D u)) g c = 0 := fun g hg c hc => by
    rw [C27_null D.L hL D.rs hrs, if_pos ⟨hg, hc⟩]
  rw [← hF.recip _ _ w v q p hw hv hn hδ]
  unfold Cafes.dot
  refine Finset.sum_congr rfl fun g hg => Finset.sum_congr rfl fun c _ => ?_
  rw [C27_null D.L hL D.rs hrs]
  split_ifs with hc
  · rw [hF.held _ _ _ _ hv g hg c hc.2, hδ g hg c hc.2, mul_zero, mul_zero]
  · rfl

/-- The misfit of a flow with other nodal forces inside the particles, when the flow of the second problem is at rest there. -/
theorem misfit_gap (f f' u u' w : NodeVec d d ℝ) (p p' q : NodeVec d 1 ℝ)
    (hu : Solves D.L Lp F f 0 u p) (hu' : Solves D.L Lp F f' 0 u' p')
    (hff : ∀ g ∈ gridNodes D.L, ∀ c, f' g c ≠ f g c → InParticles D g ∧ ¬ Constrained D.L D.bc g c)
    (hw : Solves D.L Lp F (setNullDirichletOnRHS D.L D.rs D.bc (D.sl (surfaceGap D u))) 0 w q)
    (h0 : ∀ g, InParticles D g → ∀ c, w g c = 0) : misfit D u' = misfit D u + surfSize D (u' - u) := by
  have hv : Solves D.L Lp F (f' - f) 0 (u' - u) (p' - p) := by
    have e := hF.lin 1 (-1) u' p' u p
    simp only [one_smul, neg_smul, ← sub_eq_add_neg] at e
    refine ⟨fun g hg c => ?_, fun y hy => ?_⟩
    · rw [e]
      show (F u' p').1 g c - (F u p).1 g c = f' g c - f g c
      rw [hu'.1 g hg c, hu.1 g hg c]
    · rw [e]
      show (F u' p').2 y 0 - (F u p).2 y 0 = 0
      rw [hu'.2 y hy, hu.2 y hy, sub_self]
  have hs := misfit_slope D hL hrs hh hel Lp F hF u (u' - u) w (f' - f) _ q (fun g hg c hc => by
    by_contra hne
    exact (hff g hg c fun e => hne (sub_eq_zero.2 e)).2 hc) hv hw
  have hz : Cafes.dot D.L (f' - f) w = 0 := by
    unfold Cafes.dot
    refine Finset.sum_eq_zero fun g hg => Finset.sum_eq_zero fun c _ => ?_
    by_cases he : f' g c = f g c
    · show (f' g c - f g c) * w g c = 0
      rw [he, sub_self, zero_mul]
    · rw [h0 g (hff g hg c he).1 c, mul_zero]
  have e := misfit_add D hL hh hel u (u' - u) 1
  rw [hs, hz, one_smul, add_sub_cancel] at e
  rw [e]
  ring

/-- C108 (sufficient): if the flow of the second problem is at rest at the nodes inside the particles, no flow with the same
data but for nodal forces inside the particles has a smaller misfit. -/
theorem misfit_least (ha : ∀ P ∈ D.parts, 0 ≤ P.area) (f f' u u' w : NodeVec d d ℝ) (p p' q : NodeVec d 1 ℝ)
    (hu : Solves D.L Lp F f 0 u p) (hu' : Solves D.L Lp F f' 0 u' p')
    (hff : ∀ g ∈ gridNodes D.L, ∀ c, f' g c ≠ f g c → InParticles D g ∧ ¬ Constrained D.L D.bc g c)
    (hw : Solves D.L Lp F (setNullDirichletOnRHS D.L D.rs D.bc (D.sl (surfaceGap D u))) 0 w q)
    (h0 : ∀ g, InParticles D g → ∀ c, w g c = 0) : misfit D u ≤ misfit D u' := by
  rw [misfit_gap D hL hrs hh hel Lp F hF f f' u u' w p p' q hu hu' hff hw h0]
  have := surfSize_nonneg D ha (u' - u)
  linarith

/-- C108 (optimality): among the flows with the same boundary values and the same forces outside the particles, a flow has the
least misfit if and only if the flow of the second problem of DtoN is at rest at the nodes inside the particles. -/
theorem C108_optimal (ha : ∀ P ∈ D.parts, 0 ≤ P.area) (hin : ∀ g, InParticles D g → g ∈ gridNodes D.L)
    (hsolv : ∀ f, ∃ v p, Solves D.L Lp F (setNullDirichletOnRHS D.L D.rs D.bc f) 0 v p)
    (f u w : NodeVec d d ℝ) (p q : NodeVec d 1 ℝ) (hu : Solves D.L Lp F f 0 u p)
    (hw : Solves D.L Lp F (setNullDirichletOnRHS D.L D.rs D.bc (D.sl (surfaceGap D u))) 0 w q) :
    (∀ g, InParticles D g → ∀ c, w g c = 0) ↔
    ∀ f' u' p', (∀ g ∈ gridNodes D.L, ∀ c, f' g c ≠ f g c → InParticles D g ∧ ¬ Constrained D.L D.bc g c) →
      Solves D.L Lp F f' 0 u' p' → misfit D u ≤ misfit D u' := by
  refine ⟨fun h0 f' u' p' hff hu' => misfit_least D hL hrs hh hel Lp F hF ha f f' u u' w p p' q hu hu' hff hw h0,
    fun hmin g hg c => ?_⟩
  by_cases hc : Constrained D.L D.bc g c
  · rw [hF.held _ _ _ _ hw g (hin g hg) c hc, C27_null D.L hL D.rs hrs, if_pos ⟨hin g hg, hc⟩]
  classical
  set e : NodeVec d d ℝ := fun g' c' => if g' = g ∧ c' = c then 1 else 0 with he
  have hen : setNullDirichletOnRHS D.L D.rs D.bc e = e := by
    funext g' c'
    rw [C27_null D.L hL D.rs hrs]
    split_ifs with h1
    · simp only [he]
      rw [if_neg]
      rintro ⟨rfl, rfl⟩
      exact hc h1.2
    · rfl
  obtain ⟨v, pv, hv⟩ := hsolv e
  rw [hen] at hv
  have hs := misfit_slope D hL hrs hh hel Lp F hF u v w e pv q (fun g' hg' c' hc' => by
    simp only [he]
    rw [if_neg]
    rintro ⟨rfl, rfl⟩
    exact hc hc') hv hw
  have hd : Cafes.dot D.L e w = w g c := by
    unfold Cafes.dot
    rw [Finset.sum_eq_single g, Finset.sum_eq_single c]
    · simp [he]
    · intro c' _ h1
      simp [he, h1]
    · simp
    · intro g' _ h1
      simp [he, h1]
    · intro h1
      exact absurd (hin g hg) h1
  have hall : ∀ t : ℝ, 0 ≤ 2 * t * w g c + t ^ 2 * surfSize D v := by
    intro t
    have h1 := hmin (f + t • e) (u + t • v) (p + t • pv) (fun g' hg' c' hne => by
      have : g' = g ∧ c' = c := by
        by_contra h2
        apply hne
        simp [he, h2]
      obtain ⟨rfl, rfl⟩ := this
      exact ⟨hg, hc⟩) (by
      have e1 := hF.lin 1 t u p v pv
      simp only [one_smul] at e1
      refine ⟨fun g' hg' c' => ?_, fun y hy => ?_⟩
      · rw [e1]
        show (F u p).1 g' c' + t * (F v pv).1 g' c' = f g' c' + t * e g' c'
        rw [hu.1 g' hg' c', hv.1 g' hg' c']
      · rw [e1]
        show (F u p).2 y 0 + t * (F v pv).2 y 0 = 0
        rw [hu.2 y hy, hv.2 y hy]
        simp)
    rw [misfit_add D hL hh hel, hs, hd] at h1
    linarith
  have hn := surfSize_nonneg D ha v
  set b := w g c
  set n := surfSize D v
  have h1 := hall (-b / (n + 1))
  have hpos : 0 < n + 1 := by linarith
  have h2 : 2 * (-b / (n + 1)) * b + (-b / (n + 1)) ^ 2 * n = -(b ^ 2 * (n + 2)) / (n + 1) ^ 2 := by
    field_simp
    ring
  rw [h2, div_nonneg_iff] at h1
  rcases h1 with ⟨h1, -⟩ | ⟨-, h1⟩
  · have : b ^ 2 = 0 := by nlinarith [sq_nonneg b]
    exact pow_eq_zero_iff (two_ne_zero) |>.1 this
  · nlinarith

end optimal

/-! ### The driver -/

section driver
variable (D : Setup d N A) (hL : ∀ i, (D.L i).WF) (hrs : AllProcs D.L D.rs) (hh : ∀ i, 0 < D.h i) (hel : IsQ1 D.elem)
  (Lp : Fin d → Dir) (F : NodeVec d d ℝ → NodeVec d 1 ℝ → NodeVec d d ℝ × NodeVec d 1 ℝ)
  (hF : StokesLike D.L Lp D.bc F)
include hL hrs hh hel hF

omit hrs hh hel hF in
/-- The nodes inside the particles are nodes of the mesh. -/
theorem inParticles_grid (hf : IsFluid D.fluid) (hG : GoodMesh D.L) (g : Pos d ℤ) (hg : InParticles D g) :
    g ∈ gridNodes D.L := by
  obtain ⟨r, hr, P, hP, hk⟩ := hg
  have h1 := ((mem_partNodes hf D.L hG D.h P r hr g).1 hk).1
  rw [mem_elemBox D.L hL r hr] at h1
  rw [mem_gridNodes]
  intro i
  obtain ⟨⟨h2, -⟩, h3⟩ := h1 i
  exact ⟨le_trans (Dir.xs_nonneg (hL i) _) h2, lt_of_lt_of_le h3 (nElem_le _)⟩

/-- C108 (one surface velocity): two flows with the same data but for nodal forces inside the particles, the flow of the second
problem of the first one being at rest there: if the second has no larger misfit, they have the same velocity at all the points of the
surfaces. -/
theorem C108_surface (ha : ∀ P ∈ D.parts, 0 < P.area) (f f' u u' w : NodeVec d d ℝ) (p p' q : NodeVec d 1 ℝ)
    (hu : Solves D.L Lp F f 0 u p) (hu' : Solves D.L Lp F f' 0 u' p')
    (hff : ∀ g ∈ gridNodes D.L, ∀ c, f' g c ≠ f g c → InParticles D g ∧ ¬ Constrained D.L D.bc g c)
    (hw : Solves D.L Lp F (setNullDirichletOnRHS D.L D.rs D.bc (D.sl (surfaceGap D u))) 0 w q)
    (h0 : ∀ g, InParticles D g → ∀ c, w g c = 0) (hle : misfit D u' ≤ misfit D u) :
    ∀ r ∈ procs D.L, ∀ i : Fin D.parts.length, ∀ k : Fin (heldPoints D D.parts[i] r).length, ∀ c,
      interpPoint D.bf D.elem (globalToLocal D.L u') (heldPoints D D.parts[i] r)[k] c =
        interpPoint D.bf D.elem (globalToLocal D.L u) (heldPoints D D.parts[i] r)[k] c := by
  have e := misfit_gap D hL hrs hh hel Lp F hF f f' u u' w p p' q hu hu' hff hw h0
  have hz : surfSize D (u' - u) = 0 :=
    le_antisymm (by linarith) (surfSize_nonneg D (fun P hP => (ha P hP).le) _)
  intro r hr i k c
  have hpos : ∀ r, ∀ i : Fin D.parts.length, (∃ k : Fin (heldPoints D D.parts[i] r).length, True) → r ∈ procs D.L →
      0 < D.parts[i].area / (heldCount D D.parts[i] : ℝ) := by
    rintro r i ⟨k, -⟩ hr
    refine div_pos (ha _ (List.getElem_mem _)) (Nat.cast_pos.2 ?_)
    have h1 : 0 < (heldPoints D D.parts[i] r).length := lt_of_le_of_lt (Nat.zero_le _) k.2
    unfold heldCount
    exact lt_of_lt_of_le h1 (Finset.single_le_sum (f := fun r => (heldPoints D D.parts[i] r).length)
      (fun _ _ => Nat.zero_le _) hr)
  have hnn : ∀ i : Fin D.parts.length, 0 ≤ D.parts[i].area / (heldCount D D.parts[i] : ℝ) := fun i =>
    div_nonneg (ha _ (List.getElem_mem _)).le (Nat.cast_nonneg _)
  unfold surfSize at hz
  rw [Finset.sum_eq_zero_iff_of_nonneg fun r _ => Finset.sum_nonneg fun i _ => mul_nonneg (hnn i)
    (Finset.sum_nonneg fun _ _ => Finset.sum_nonneg fun _ _ => sq_nonneg _)] at hz
  have h1 := hz r hr
  rw [Finset.sum_eq_zero_iff_of_nonneg fun i _ => mul_nonneg (hnn i)
    (Finset.sum_nonneg fun _ _ => Finset.sum_nonneg fun _ _ => sq_nonneg _)] at h1
  have h2 := (mul_eq_zero.1 (h1 i (Finset.mem_univ _))).resolve_left (hpos r i ⟨k, trivial⟩ hr).ne'
  rw [Finset.sum_eq_zero_iff_of_nonneg fun _ _ => Finset.sum_nonneg fun _ _ => sq_nonneg _] at h2
  have h3 := h2 k (Finset.mem_univ _)
  rw [Finset.sum_eq_zero_iff_of_nonneg fun _ _ => sq_nonneg _] at h3
  have h4 := pow_eq_zero_iff (two_ne_zero) |>.1 (h3 c (Finset.mem_univ _))
  have h5 := interpPoint_smul D u (u' - u) 1 (heldPoints D D.parts[i] r)[k] c
  rw [h4, one_smul, add_sub_cancel, mul_zero, add_zero] at h5
  exact h5

/-- C108 (DtoN): a fresh DtoN object with the default flags and no singularity, any particles, boundary values and source, an
exact outer solver, a fluid solver right on the solvable problems, a control equation with a solution: `setup_RHS` and `solve`
leave a discrete Stokes flow, with the boundary values, such that adding nodal forces inside the particles never lowers the misfit on
the surfaces. -/
theorem C108_dton (ha : ∀ P ∈ D.parts, 0 ≤ P.area) (hS : SpinLaws D.S) (hA : ActLaws D.S)
    (solve : NodeVec d d ℝ × NodeVec d 1 ℝ → NodeVec d d ℝ × NodeVec d 1 ℝ) (hsolve : FluidSolver D.L Lp F solve)
    (hbc : ∀ f, ∃ u p, Solves D.L Lp F (setDirichletOnRHS D.L D.rs D.bc D.h f) 0 u p)
    (hnull : ∀ f, ∃ u p, Solves D.L Lp F (setNullDirichletOnRHS D.L D.rs D.bc f) 0 u p)
    (K : Krylov ((Fin d → ℕ) → ℕ → ℝ)) (hK : Exact K)
    (addSing : NodeVec d d ℝ × NodeVec d 1 ℝ → NodeVec d d ℝ × NodeVec d 1 ℝ)
    (s : St (NodeVec d d ℝ × NodeVec d 1 ℝ) ((Fin d → ℕ) → ℕ → ℝ)) (hs : s.sol = 0)
    (hex : ∃ x, dtonResidual (D.pieces solve) (dtonFluid (D.pieces solve) false x) = 0) :
    let t := dtonSolve (D.pieces solve) K addSing true false (dtonSetupRHS (D.pieces solve) true false s)
    LeastMisfit D Lp F t.fRhs.1 t.fSol.1 t.fSol.2 ∧
    ∀ g ∈ gridNodes D.L, ∀ c φ, LastCond D.L D.bc g c φ → t.fSol.1 g c = φ fun i => (g i : ℝ) * D.h i := by
  intro t
  have hP := pieces_lawful D hL hrs hS hA solve hsolve.linear
  obtain ⟨h1, h2⟩ := C55_solve hP K hK addSing s hs hex
  have hr : t.fRhs = (D.pieces solve).setBC ((D.pieces solve).setBC (D.pieces solve).source + (D.pieces solve).ctl t.sol) := by
    refine (dton_final_rhs (D.pieces solve) K addSing _).trans ?_
    simp [initProblem, setupRHSFluid]
    rfl
  have hr2 : t.fRhs.2 = 0 := by
    rw [hr]
    simp [Setup.pieces]
  have hr1 : ∃ f, t.fRhs.1 = setDirichletOnRHS D.L D.rs D.bc D.h f := ⟨_, congrArg Prod.fst hr⟩
  have hfs : t.fSol = solve t.fRhs := by
    have e : t.fSol = dtonFluid (D.pieces solve) false t.sol := h1
    rw [e, hr]
    unfold dtonFluid
    rw [if_neg (by simp), add_zero]
    rfl
  obtain ⟨f, hf⟩ := hr1
  have hsol : Solves D.L Lp F t.fRhs.1 0 t.fSol.1 t.fSol.2 := by
    have e := hsolve.exact t.fRhs.1 0 (by rw [hf]; exact hbc f)
    have e2 : (t.fRhs.1, (0 : NodeVec d 1 ℝ)) = t.fRhs := Prod.ext rfl hr2.symm
    rw [e2, ← hfs] at e
    exact e
  refine ⟨⟨hsol, fun δ u' p' hδ hu' => ?_⟩, fun g hg c φ hφ => ?_⟩
  rotate_left
  · have hc := (C26_rhs D.L hL D.rs hrs D.bc D.h 0 g c).2.2.2 ⟨φ, hφ⟩
    rw [hF.held _ _ _ _ hsol g hg c hc, hf, (C26_rhs D.L hL D.rs hrs D.bc D.h _ g c).1 hg φ hφ]
  · set w := (solve (setNullDirichletOnRHS D.L D.rs D.bc (D.sl (surfaceGap D t.fSol.1)), 0)) with hw
    have hws := hsolve.exact _ 0 (hnull (D.sl (surfaceGap D t.fSol.1)))
    have hy : D.y w.1 = 0 := by
      have : dtonResidual (D.pieces solve) t.fSol = D.y w.1 := by
        unfold dtonResidual
        rw [pieces_rigid]
        simp only [hw, ← rigidOn_eq]
        rfl
      rw [← this]; exact h2
    refine misfit_least D hL hrs hh hel Lp F hF ha t.fRhs.1 (t.fRhs.1 + δ) t.fSol.1 u' w.1 _ _ w.2 hsol hu'
      (fun g _ c hne => hδ g c fun h0 => hne ?_) hws ?_
    · show t.fRhs.1 g c + δ g c = _
      rw [h0, add_zero]
    · rintro g ⟨r, -, P, hP', hk⟩ c
      exact y_zero D w.1 hy r P hP' g hk c

omit hL hrs hh hel hF in
theorem natBox_any (hG : GoodMesh D.L) (hm : ∀ i, 0 < (D.L i).m) (r : Fin d → ℕ) (pb : Box d ℤ)
    (hi : (getDMBounds D.L r true).intersect pb = true) : NatBox ((getDMBounds D.L r true).boxInside pb) := by
  rw [C31_box_inside_eq]
  rw [Box.intersect_iff] at hi
  intro i
  have h1 := Dir.xs_nonneg (hG i).1 (r i)
  have h23 : 0 ≤ (D.L i).xm (r i) ∧ (D.L i).xs (r i) + (D.L i).xm (r i) ≤ (D.L i).m := by
    by_cases hr : r i < (D.L i).l.length
    · exact ⟨(Dir.xm_pos (hG i).1 hr).le, Dir.xe_le (hG i).1 hr⟩
    · have e1 : (D.L i).xs (r i) = (D.L i).m := by
        unfold Dir.xs
        rw [List.take_of_length_le (by omega), (hG i).1.sum_eq]
      have e2 : (D.L i).xm (r i) = 0 := by
        unfold Dir.xm
        rw [List.getD_eq_default _ _ (by omega)]
      omega
  have h4 := (hG i).2
  have h5 := hi i
  have h6 := hm i
  have hb : (getDMBounds D.L r true).bl i = (D.L i).xs (r i) := rfl
  have hu : (getDMBounds D.L r true).ur i ≤ (D.L i).xs (r i) + (D.L i).xm (r i) ∧
      0 ≤ (getDMBounds D.L r true).ur i := by
    simp only [getDMBounds]
    split_ifs with hc
    · simp only [Bool.true_and, Bool.and_eq_true, decide_eq_true_eq] at hc
      omega
    · omega
  simp only [Box.overlap]
  rw [hb] at h5 ⊢
  refine ⟨le_max_of_le_left h1, le_min (by omega) (by omega), max_lt (by omega) (by omega),
    min_lt_of_left_lt (by omega)⟩

omit hrs hh hel hF in
/-- The converse of `y_zero`: `compute_y` reads only nodes inside the particles. -/
theorem y_rest (hf : IsFluid D.fluid) (hG : GoodMesh D.L) (hm : ∀ i, 0 < (D.L i).m) (w : NodeVec d d ℝ)
    (h0 : ∀ g, InParticles D g → ∀ c, w g c = 0) : D.y w = 0 := by
  have key : ∀ r, ∀ P ∈ D.parts, ∀ k ∈ solidNodes D r P, InParticles D k := by
    intro r P hP k hk
    by_cases hr : r ∈ procs D.L
    · exact ⟨r, hr, P, hP, hk⟩
    · exfalso
      rw [mem_procs] at hr
      push Not at hr
      obtain ⟨i, hi⟩ := hr
      unfold solidNodes partNodes at hk
      split_ifs at hk with hc
      · rw [hf _ _ _ (natBox_any D hG hm r _ hc), List.mem_filter, Box.mem_visited] at hk
        have h1 := ((mem_boxInside _ _ k).1 hk.1).1 i
        have e1 : (D.L i).xs (r i) = (D.L i).m := by
          unfold Dir.xs
          rw [List.take_of_length_le (by omega), (hL i).sum_eq]
        have e2 : (D.L i).xm (r i) = 0 := by
          unfold Dir.xm
          rw [List.getD_eq_default _ _ (by omega)]
        simp only [getDMBounds, e1, e2] at h1
        split_ifs at h1 <;> omega
      · simp at hk
  funext r n
  obtain ⟨-, h1, h2⟩ := computeY_eq D.fluid (getDMBounds D.L r true) D.h w D.parts 0
  by_cases hn : n < (Particle.layout (partNodes D.fluid Box.boxInside (getDMBounds D.L r true) D.h) D.parts).length
  · have hall : ∀ y ∈ Particle.layout (partNodes D.fluid Box.boxInside (getDMBounds D.L r true) D.h) D.parts,
        w y.2.1 y.2.2 = 0 := by
      intro y hy
      simp only [Particle.layout, List.mem_flatMap, List.mem_map] at hy
      obtain ⟨P, hP, k, hk, c, -, e⟩ := hy
      rw [← e]
      exact h0 k (key r P hP k hk) c
    exact (h2 n hn).trans (hall _ (List.getElem_mem hn))
  · exact h1 n (by omega)

/-- C108 (control equation): with a fluid solver right on the solvable problems, a control solves the equation of DtoN if and only
if its flow has the least misfit on the surfaces with respect to nodal forces inside the particles. -/
theorem C108_control (hf : IsFluid D.fluid) (hG : GoodMesh D.L) (hm : ∀ i, 0 < (D.L i).m)
    (ha : ∀ P ∈ D.parts, 0 ≤ P.area)
    (solve : NodeVec d d ℝ × NodeVec d 1 ℝ → NodeVec d d ℝ × NodeVec d 1 ℝ) (hsolve : FluidSolver D.L Lp F solve)
    (hbc : ∀ f, ∃ u p, Solves D.L Lp F (setDirichletOnRHS D.L D.rs D.bc D.h f) 0 u p)
    (hnull : ∀ f, ∃ u p, Solves D.L Lp F (setNullDirichletOnRHS D.L D.rs D.bc f) 0 u p) (x : (Fin d → ℕ) → ℕ → ℝ) :
    let u := dtonFluid (D.pieces solve) false x
    let f := setDirichletOnRHS D.L D.rs D.bc D.h (setRhsProblem D.fluid D.L D.rs D.h D.mass x false D.parts
      (stokesSetupRHS D.L D.rs D.src D.bc D.h (diagBlockMult D.L D.elem D.M) 0))
    dtonResidual (D.pieces solve) u = 0 ↔ LeastMisfit D Lp F f u.1 u.2 := by
  intro u f
  have hu : u = solve (f, 0) := by
    show dtonFluid (D.pieces solve) false x = _
    unfold dtonFluid
    have e1 := pieces_setupRHS D solve 0
    simp only [setupRHSFluid, zero_add] at e1
    have e2 := pieces_ctl D solve x false ((D.pieces solve).setBC (D.pieces solve).source)
    simp only [Bool.false_eq_true, if_false, add_zero] at e2 ⊢
    rw [e2, e1]
    rfl
  have hsol : Solves D.L Lp F f 0 u.1 u.2 := by
    rw [hu]
    exact hsolve.exact f 0 (hbc _)
  set w := (solve (setNullDirichletOnRHS D.L D.rs D.bc (D.sl (surfaceGap D u.1)), 0)) with hw
  have hws := hsolve.exact _ 0 (hnull (D.sl (surfaceGap D u.1)))
  have hres : dtonResidual (D.pieces solve) u = D.y w.1 := by
    unfold dtonResidual
    rw [pieces_rigid]
    simp only [hw, ← rigidOn_eq]
    rfl
  have hopt := C108_optimal D hL hrs hh hel Lp F hF ha (inParticles_grid D hL hf hG) hnull f u.1 w.1 u.2 w.2 hsol hws
  rw [hres]
  constructor
  · intro hy
    refine ⟨hsol, fun δ u' p' hδ hu' => hopt.1 ?_ (f + δ) u' p' (fun g _ c hne => hδ g c fun h0 => hne ?_) hu'⟩
    · rintro g ⟨r, -, P, hP', hk⟩ c
      exact y_zero D w.1 hy r P hP' g hk c
    · show f g c + δ g c = _
      rw [h0, add_zero]
  · rintro ⟨-, hmin⟩
    refine y_rest D hL hf hG hm w.1 (hopt.2 fun f' u' p' hff hu' => ?_)
    classical
    refine hmin (fun g c => if g ∈ gridNodes D.L then f' g c - f g c else 0) u' p' (fun g c hne => ?_) ⟨fun g hg c => ?_, hu'.2⟩
    · split_ifs at hne with hg
      · exact hff g hg c fun e => hne (by rw [e, sub_self])
      · exact absurd rfl hne
    · rw [hu'.1 g hg c]
      show _ = f g c + (if g ∈ gridNodes D.L then f' g c - f g c else 0)
      rw [if_pos hg]
      ring

end driver

/-! ### There is a flow of least misfit -/

/-- The points of the surfaces, with a component. -/
abbrev SurfIndex (D : Setup d N A) : Type :=
  (r : {r // r ∈ procs D.L}) × (i : Fin D.parts.length) × (Fin (heldPoints D D.parts[i] r.1).length × Fin d)

theorem misfit_sum (D : Setup d N A) (ha : ∀ P ∈ D.parts, 0 ≤ P.area) (u v : NodeVec d d ℝ) :
    misfit D (u + v) = ∑ x : SurfIndex D, (Real.sqrt (D.parts[x.2.1].area / (heldCount D D.parts[x.2.1] : ℝ)) *
        surfaceGap D u x.1.1 x.2.1 x.2.2.1 x.2.2.2 +
      Real.sqrt (D.parts[x.2.1].area / (heldCount D D.parts[x.2.1] : ℝ)) *
        interpPoint D.bf D.elem (globalToLocal D.L v) (heldPoints D D.parts[x.2.1] x.1.1)[x.2.2.1] x.2.2.2) ^ 2 := by
  rw [Fintype.sum_sigma]
  unfold misfit
  rw [← Finset.sum_coe_sort]
  refine Finset.sum_congr rfl fun r _ => ?_
  rw [Fintype.sum_sigma]
  refine Finset.sum_congr rfl fun i _ => ?_
  rw [Fintype.sum_prod_type, Finset.mul_sum]
  refine Finset.sum_congr rfl fun k _ => ?_
  rw [Finset.mul_sum]
  refine Finset.sum_congr rfl fun c _ => ?_
  have hg := gap_add D u v 1 r.1 i k c
  rw [one_smul, one_mul] at hg
  have hsq := Real.sq_sqrt (div_nonneg (ha _ (List.getElem_mem i.2)) (Nat.cast_nonneg (α := ℝ) (heldCount D D.parts[i])))
  show _ = (Real.sqrt (D.parts[i].area / (heldCount D D.parts[i] : ℝ)) * surfaceGap D u r.1 i k c +
    Real.sqrt (D.parts[i].area / (heldCount D D.parts[i] : ℝ)) *
      interpPoint D.bf D.elem (globalToLocal D.L v) (heldPoints D D.parts[i] r.1)[k] c) ^ 2
  rw [hg, ← mul_add, mul_pow]
  exact congrArg₂ (· * ·) hsq.symm rfl

/-- C108 (existence): for any flow there are nodal forces inside the particles that bring the misfit to its least value. -/
theorem C108_exists (D : Setup d N A) (Lp : Fin d → Dir)
    (F : NodeVec d d ℝ → NodeVec d 1 ℝ → NodeVec d d ℝ × NodeVec d 1 ℝ)
    (hF : StokesLike D.L Lp D.bc F) (ha : ∀ P ∈ D.parts, 0 ≤ P.area) (f u : NodeVec d d ℝ) (p : NodeVec d 1 ℝ)
    (hu : Solves D.L Lp F f 0 u p) :
    ∃ δ u1 p1, (∀ g c, δ g c ≠ 0 → InParticles D g ∧ ¬ Constrained D.L D.bc g c) ∧
      LeastMisfit D Lp F (f + δ) u1 p1 := by
  let V : Submodule ℝ (NodeVec d d ℝ × NodeVec d d ℝ × NodeVec d 1 ℝ) :=
    { carrier := {x | (∀ g c, x.1 g c ≠ 0 → InParticles D g ∧ ¬ Constrained D.L D.bc g c) ∧
        Solves D.L Lp F x.1 0 x.2.1 x.2.2}
      zero_mem' := by
        have e := hF.lin 0 0 0 0 0 0
        simp only [zero_smul, add_zero] at e
        refine ⟨fun g c hne => absurd rfl hne, fun g _ c => ?_, fun q _ => ?_⟩
        · exact congrFun (congrFun (congrArg Prod.fst e) g) c
        · exact congrFun (congrFun (congrArg Prod.snd e) q) 0
      add_mem' := by
        rintro x y ⟨h1, h2⟩ ⟨h3, h4⟩
        have e := hF.lin 1 1 x.2.1 x.2.2 y.2.1 y.2.2
        simp only [one_smul] at e
        refine ⟨fun g c hne => ?_, fun g hg c => ?_, fun q hq => ?_⟩
        · by_cases h0 : x.1 g c = 0
          · refine h3 g c fun h5 => hne ?_
            show x.1 g c + y.1 g c = 0
            rw [h0, h5, add_zero]
          · exact h1 g c h0
        · refine (congrFun (congrFun (congrArg Prod.fst e) g) c).trans ?_
          show (F _ _).1 g c + (F _ _).1 g c = x.1 g c + y.1 g c
          rw [h2.1 g hg c, h4.1 g hg c]
        · refine (congrFun (congrFun (congrArg Prod.snd e) q) 0).trans ?_
          show (F _ _).2 q 0 + (F _ _).2 q 0 = 0
          rw [h2.2 q hq, h4.2 q hq]
          exact add_zero _
      smul_mem' := by
        rintro a x ⟨h1, h2⟩
        have e := hF.lin a 0 x.2.1 x.2.2 0 0
        simp only [zero_smul, add_zero] at e
        refine ⟨fun g c hne => h1 g c fun h0 => hne ?_, fun g hg c => ?_, fun q hq => ?_⟩
        · show a * x.1 g c = 0
          rw [h0, mul_zero]
        · refine (congrFun (congrFun (congrArg Prod.fst e) g) c).trans ?_
          show a * (F _ _).1 g c = a * x.1 g c
          rw [h2.1 g hg c]
        · refine (congrFun (congrFun (congrArg Prod.snd e) q) 0).trans ?_
          show a * (F _ _).2 q 0 = 0
          rw [h2.2 q hq]
          exact mul_zero _ }
  obtain ⟨x, hx⟩ := least_squares (V := V) (ι := SurfIndex D)
    (fun v x => Real.sqrt (D.parts[x.2.1].area / (heldCount D D.parts[x.2.1] : ℝ)) *
        interpPoint D.bf D.elem (globalToLocal D.L v.1.2.1) (heldPoints D D.parts[x.2.1] x.1.1)[x.2.2.1] x.2.2.2)
    (isLinear_of _ fun a b v v' => by
      funext x
      have e0 := interpPoint_smul D (a • v.1.2.1) v'.1.2.1 b (heldPoints D D.parts[x.2.1] x.1.1)[x.2.2.1] x.2.2.2
      have e1 := interpPoint_smul D 0 v.1.2.1 a (heldPoints D D.parts[x.2.1] x.1.1)[x.2.2.1] x.2.2.2
      have e2 : interpPoint D.bf D.elem (globalToLocal D.L 0) (heldPoints D D.parts[x.2.1] x.1.1)[x.2.2.1] x.2.2.2 = 0 := by
        rw [interpPoint_apply]
        exact Finset.sum_eq_zero fun _ _ => by simp [globalToLocal]
      rw [zero_add, e2, zero_add] at e1
      show _ * interpPoint D.bf D.elem (globalToLocal D.L (a • v.1.2.1 + b • v'.1.2.1)) _ _ = a * _ + b * _
      rw [e0, e1]
      ring)
    (fun x => Real.sqrt (D.parts[x.2.1].area / (heldCount D D.parts[x.2.1] : ℝ)) *
        surfaceGap D u x.1.1 x.2.1 x.2.2.1 x.2.2.2)
  obtain ⟨⟨δ, v, q⟩, hδ, hv⟩ := x
  have hadd : ∀ (δ v : NodeVec d d ℝ) (q : NodeVec d 1 ℝ), Solves D.L Lp F δ 0 v q →
      Solves D.L Lp F (f + δ) 0 (u + v) (p + q) := by
    intro δ v q hv
    have e := hF.lin 1 1 u p v q
    simp only [one_smul] at e
    rw [Solves, e]
    refine ⟨fun g hg c => ?_, fun y hy => ?_⟩
    · show (F u p).1 g c + (F v q).1 g c = f g c + δ g c
      rw [hu.1 g hg c, hv.1 g hg c]
    · show (F u p).2 y 0 + (F v q).2 y 0 = 0
      rw [hu.2 y hy, hv.2 y hy]
      exact add_zero _
  refine ⟨δ, u + v, p + q, hδ, hadd δ v q hv, fun δ1 u' p' hδ1 hu' => ?_⟩
  obtain ⟨δ', hδe⟩ : ∃ δ', δ' = δ + δ1 := ⟨_, rfl⟩
  rw [add_assoc, ← hδe] at hu'
  have hδ' : ∀ g c, δ' g c ≠ 0 → InParticles D g ∧ ¬ Constrained D.L D.bc g c := by
    intro g c hne
    by_cases h0 : δ g c = 0
    · refine hδ1 g c fun h5 => hne ?_
      rw [hδe]
      show δ g c + δ1 g c = 0
      rw [h0, h5, add_zero]
    · exact hδ g c h0
  have hv' : Solves D.L Lp F δ' 0 (u' - u) (p' - p) := by
    have e := hF.lin 1 (-1) u' p' u p
    simp only [one_smul, neg_smul, ← sub_eq_add_neg] at e
    rw [Solves, e]
    refine ⟨fun g hg c => ?_, fun y hy => ?_⟩
    · show (F u' p').1 g c - (F u p).1 g c = δ' g c
      rw [hu'.1 g hg c, hu.1 g hg c]
      show f g c + δ' g c - f g c = _
      ring
    · show (F u' p').2 y 0 - (F u p).2 y 0 = 0
      rw [hu'.2 y hy, hu.2 y hy, sub_self]
  have h1 := hx ⟨(δ', u' - u, p' - p), hδ', hv'⟩
  rw [← misfit_sum D ha, ← misfit_sum D ha, add_sub_cancel] at h1
  exact h1

/-! ### In the plane and in space -/

/-- In a closed box (all walls impose their normal component), the imposed velocity has no net flux through the walls; `U` is any
field with the imposed values. -/
def FluxFree (L : Fin d → Dir) (per : Fin d → Bool) (bc : BC d ℝ) (h : Pos d ℝ) : Prop :=
  NormalHeld per bc → ∃ U : NodeVec d d ℝ, (∀ g ∈ gridNodes L, ∀ a φ, LastCond L bc g a φ → U g a = φ fun i => (g i : ℝ) * h i) ∧
    wallFlux L h U = 0

theorem wall_constrained (L : Fin d → Dir) (per : Fin d → Bool) (hp : ∀ i, (L i).periodic = per i) (bc : BC d ℝ)
    (hn : NormalHeld per bc) (g : Pos d ℤ) (a : Fin d) (ha : (L a).periodic = false) (hw : g a = 0 ∨ g a = (L a).m - 1) :
    Constrained L bc g a := by
  have := hn a ((hp a).symm.trans ha)
  rcases hw with hw | hw
  · exact ⟨2 * a.1, ⟨a, ha, Or.inl ⟨rfl, hw⟩⟩, this.1⟩
  · exact ⟨2 * a.1 + 1, ⟨a, ha, Or.inr ⟨rfl, hw⟩⟩, this.2⟩

theorem flux_dirichlet (L : Fin d → Dir) (hL : ∀ i, (L i).WF) (rs : List (Fin d → ℕ)) (hrs : AllProcs L rs)
    (per : Fin d → Bool) (hp : ∀ i, (L i).periodic = per i) (bc : BC d ℝ) (h : Pos d ℝ) (hx : FluxFree L per bc h)
    (hn : NormalHeld per bc) (f : NodeVec d d ℝ) : wallFlux L h (setDirichletOnRHS L rs bc h f) = 0 := by
  obtain ⟨U, hU, h0⟩ := hx hn
  rw [← h0]
  refine wallFlux_congr _ h _ _ fun g hg a ha hw => ?_
  obtain ⟨φ, hφ⟩ := (C26_rhs L hL rs hrs bc h f g a).2.2.1 (wall_constrained L per hp bc hn g a ha hw)
  rw [(C26_rhs L hL rs hrs bc h f g a).1 hg φ hφ, hU g hg a φ hφ]

theorem flux_null (L : Fin d → Dir) (hL : ∀ i, (L i).WF) (rs : List (Fin d → ℕ)) (hrs : AllProcs L rs)
    (per : Fin d → Bool) (hp : ∀ i, (L i).periodic = per i) (bc : BC d ℝ) (h : Pos d ℝ)
    (hn : NormalHeld per bc) (f : NodeVec d d ℝ) : wallFlux L h (setNullDirichletOnRHS L rs bc f) = 0 := by
  have h0 : wallFlux L h (0 : NodeVec d d ℝ) = 0 := by
    unfold wallFlux
    exact Finset.sum_eq_zero fun _ _ => Finset.sum_eq_zero fun _ _ => by simp
  rw [← h0]
  refine wallFlux_congr _ h _ _ fun g hg a ha hw => ?_
  rw [C27_null L hL rs hrs, if_pos ⟨hg, wall_constrained L per hp bc hn g a ha hw⟩]
  rfl

theorem problems2 (M : Fin 2 → ℤ) (per : Fin 2 → Bool) (lx : Fin 2 → List ℤ)
    (hne : ∀ i, lx i ≠ []) (hW : ∀ i, (presLayout M per lx i).WF) (hM : Fine M)
    (h : Pos 2 ℝ) (hh : ∀ c, 0 < h c) (rs : List (Fin 2 → ℕ)) (hrs : AllProcs (velLayout M per lx) rs) (bc : BC 2 ℝ)
    (hx : FluxFree (velLayout M per lx) per bc h)
    (F : NodeVec 2 2 ℝ → NodeVec 2 1 ℝ → NodeVec 2 2 ℝ × NodeVec 2 1 ℝ)
    (hF : F = stokesStrain2 M per lx rs bc h ∧ WallHeld (velLayout M per lx) bc ∨
      F = stokesLap2 M per lx rs bc h ∧ ComponentsHeld (velLayout M per lx) bc) :
    StokesLike (velLayout M per lx) (presLayout M per lx) bc F ∧
    (∀ f, ∃ u p, Solves (velLayout M per lx) (presLayout M per lx) F (setDirichletOnRHS (velLayout M per lx) rs bc h f) 0 u p) ∧
    ∀ f, ∃ u p, Solves (velLayout M per lx) (presLayout M per lx) F (setNullDirichletOnRHS (velLayout M per lx) rs bc f) 0 u p := by
  have hv := velLayout_wf M per lx hne hW
  have hS := stokesLike2 M per lx hne hW h hh rs hrs bc
  have key : ∀ f, (NormalHeld per bc → wallFlux (velLayout M per lx) h f = 0) →
      ∃ u p, Solves (velLayout M per lx) (presLayout M per lx) F f 0 u p := by
    intro f hf
    by_cases hn : NormalHeld per bc
    · have hc := C94_closed2 M per lx hne hW hM h hh rs hrs bc hn f 0
      simp only [Pi.zero_apply, Finset.sum_const_zero] at hc
      rcases hF with ⟨rfl, hb⟩ | ⟨rfl, hb⟩
      · exact (hc.1 hb).2 (hf hn).symm
      · exact (hc.2 hb).2 (hf hn).symm
    · have hc := C94_open2 M per lx hne hW hM h hh rs hrs bc ((open_iff per bc).2 hn) f 0
      rcases hF with ⟨rfl, hb⟩ | ⟨rfl, hb⟩
      · obtain ⟨u, p, e, -⟩ := hc.1 hb
        exact ⟨u, p, e⟩
      · obtain ⟨u, p, e, -⟩ := hc.2 hb
        exact ⟨u, p, e⟩
  refine ⟨?_, fun f => key _ fun hn => ?_, fun f => key _ fun hn => ?_⟩
  · rcases hF with ⟨rfl, -⟩ | ⟨rfl, -⟩
    · exact hS.1
    · exact hS.2
  · exact flux_dirichlet _ hv rs hrs per (fun i => rfl) bc h hx hn f
  · exact flux_null _ hv rs hrs per (fun i => rfl) bc h hn f

/-- C108 (2D): both Stokes operators, closed boxes (without net flux imposed) and open ones, all meshes, processes, particles, boundary values
and sources: fluid solvers right on the solvable problems exist; with any of them and any exact outer solver, if the control
equation has a solution, `setup_RHS` and `solve` leave a discrete Stokes flow with the boundary values, of least misfit on the
surfaces of the particles with respect to nodal forces inside them. -/
theorem C108_least2 {B : Type*} [AddCommGroup B] [Module ℝ B] (D : Setup 2 4 B) (M : Fin 2 → ℤ) (per : Fin 2 → Bool)
    (lx : Fin 2 → List ℤ) (hDL : D.L = velLayout M per lx) (hel : D.elem = getElement2)
    (hne : ∀ i, lx i ≠ []) (hW : ∀ i, (presLayout M per lx i).WF) (hM : Fine M)
    (hh : ∀ c, 0 < D.h c) (hrs : AllProcs D.L D.rs) (hx : FluxFree D.L per D.bc D.h)
    (hS : SpinLaws D.S) (hA : ActLaws D.S) (ha : ∀ P ∈ D.parts, 0 ≤ P.area)
    (F : NodeVec 2 2 ℝ → NodeVec 2 1 ℝ → NodeVec 2 2 ℝ × NodeVec 2 1 ℝ)
    (hF : F = stokesStrain2 M per lx D.rs D.bc D.h ∧ WallHeld D.L D.bc ∨
      F = stokesLap2 M per lx D.rs D.bc D.h ∧ ComponentsHeld D.L D.bc) :
    (∃ solve, FluidSolver D.L (presLayout M per lx) F solve) ∧
    ∀ solve, FluidSolver D.L (presLayout M per lx) F solve → ∀ K, Exact K → ∀ addSing s, s.sol = 0 →
      (∃ x, dtonResidual (D.pieces solve) (dtonFluid (D.pieces solve) false x) = 0) →
      let t := dtonSolve (D.pieces solve) K addSing true false (dtonSetupRHS (D.pieces solve) true false s)
      LeastMisfit D (presLayout M per lx) F t.fRhs.1 t.fSol.1 t.fSol.2 ∧
      ∀ g ∈ gridNodes D.L, ∀ c φ, LastCond D.L D.bc g c φ → t.fSol.1 g c = φ fun i => (g i : ℝ) * D.h i := by
  have hv : ∀ i, (D.L i).WF := by rw [hDL]; exact velLayout_wf M per lx hne hW
  obtain ⟨h1, h2, h3⟩ := problems2 M per lx hne hW hM D.h hh D.rs (hDL ▸ hrs) D.bc (hDL ▸ hx) F (hDL ▸ hF)
  rw [← hDL] at h1 h2 h3
  refine ⟨C108_solver _ _ _ _ h1, fun solve hs K hK addSing s h0 hex => ?_⟩
  exact C108_dton D hv hrs hh (by rw [hel]; exact isQ1_2) _ F h1 ha hS hA solve hs h2 h3 K hK addSing s h0 hex

theorem problems3 (M : Fin 3 → ℤ) (per : Fin 3 → Bool) (lx : Fin 3 → List ℤ)
    (hne : ∀ i, lx i ≠ []) (hW : ∀ i, (presLayout M per lx i).WF) (hM : Fine M)
    (h : Pos 3 ℝ) (hh : ∀ c, 0 < h c) (rs : List (Fin 3 → ℕ)) (hrs : AllProcs (velLayout M per lx) rs) (bc : BC 3 ℝ)
    (hx : FluxFree (velLayout M per lx) per bc h)
    (F : NodeVec 3 3 ℝ → NodeVec 3 1 ℝ → NodeVec 3 3 ℝ × NodeVec 3 1 ℝ)
    (hF : F = stokesStrain3 M per lx rs bc h ∧ WallHeld (velLayout M per lx) bc ∨
      F = stokesLap3 M per lx rs bc h ∧ ComponentsHeld (velLayout M per lx) bc) :
    StokesLike (velLayout M per lx) (presLayout M per lx) bc F ∧
    (∀ f, ∃ u p, Solves (velLayout M per lx) (presLayout M per lx) F (setDirichletOnRHS (velLayout M per lx) rs bc h f) 0 u p) ∧
    ∀ f, ∃ u p, Solves (velLayout M per lx) (presLayout M per lx) F (setNullDirichletOnRHS (velLayout M per lx) rs bc f) 0 u p := by
  have hv := velLayout_wf M per lx hne hW
  have hS := stokesLike3 M per lx hne hW h hh rs hrs bc
  have key : ∀ f, (NormalHeld per bc → wallFlux (velLayout M per lx) h f = 0) →
      ∃ u p, Solves (velLayout M per lx) (presLayout M per lx) F f 0 u p := by
    intro f hf
    by_cases hn : NormalHeld per bc
    · have hc := C94_closed3 M per lx hne hW hM h hh rs hrs bc hn f 0
      simp only [Pi.zero_apply, Finset.sum_const_zero] at hc
      rcases hF with ⟨rfl, hb⟩ | ⟨rfl, hb⟩
      · exact (hc.1 hb).2 (hf hn).symm
      · exact (hc.2 hb).2 (hf hn).symm
    · have hc := C94_open3 M per lx hne hW hM h hh rs hrs bc ((open_iff per bc).2 hn) f 0
      rcases hF with ⟨rfl, hb⟩ | ⟨rfl, hb⟩
      · obtain ⟨u, p, e, -⟩ := hc.1 hb
        exact ⟨u, p, e⟩
      · obtain ⟨u, p, e, -⟩ := hc.2 hb
        exact ⟨u, p, e⟩
  refine ⟨?_, fun f => key _ fun hn => ?_, fun f => key _ fun hn => ?_⟩
  · rcases hF with ⟨rfl, -⟩ | ⟨rfl, -⟩
    · exact hS.1
    · exact hS.2
  · exact flux_dirichlet _ hv rs hrs per (fun i => rfl) bc h hx hn f
  · exact flux_null _ hv rs hrs per (fun i => rfl) bc h hn f

/-- C108 (3D): both Stokes operators, closed boxes (without net flux imposed) and open ones, all meshes, processes, particles, boundary values
and sources: fluid solvers right on the solvable problems exist; with any of them and any exact outer solver, if the control
equation has a solution, `setup_RHS` and `solve` leave a discrete Stokes flow with the boundary values, of least misfit on the
surfaces of the particles with respect to nodal forces inside them. -/
theorem C108_least3 {B : Type*} [AddCommGroup B] [Module ℝ B] (D : Setup 3 8 B) (M : Fin 3 → ℤ) (per : Fin 3 → Bool)
    (lx : Fin 3 → List ℤ) (hDL : D.L = velLayout M per lx) (hel : D.elem = getElement3)
    (hne : ∀ i, lx i ≠ []) (hW : ∀ i, (presLayout M per lx i).WF) (hM : Fine M)
    (hh : ∀ c, 0 < D.h c) (hrs : AllProcs D.L D.rs) (hx : FluxFree D.L per D.bc D.h)
    (hS : SpinLaws D.S) (hA : ActLaws D.S) (ha : ∀ P ∈ D.parts, 0 ≤ P.area)
    (F : NodeVec 3 3 ℝ → NodeVec 3 1 ℝ → NodeVec 3 3 ℝ × NodeVec 3 1 ℝ)
    (hF : F = stokesStrain3 M per lx D.rs D.bc D.h ∧ WallHeld D.L D.bc ∨
      F = stokesLap3 M per lx D.rs D.bc D.h ∧ ComponentsHeld D.L D.bc) :
    (∃ solve, FluidSolver D.L (presLayout M per lx) F solve) ∧
    ∀ solve, FluidSolver D.L (presLayout M per lx) F solve → ∀ K, Exact K → ∀ addSing s, s.sol = 0 →
      (∃ x, dtonResidual (D.pieces solve) (dtonFluid (D.pieces solve) false x) = 0) →
      let t := dtonSolve (D.pieces solve) K addSing true false (dtonSetupRHS (D.pieces solve) true false s)
      LeastMisfit D (presLayout M per lx) F t.fRhs.1 t.fSol.1 t.fSol.2 ∧
      ∀ g ∈ gridNodes D.L, ∀ c φ, LastCond D.L D.bc g c φ → t.fSol.1 g c = φ fun i => (g i : ℝ) * D.h i := by
  have hv : ∀ i, (D.L i).WF := by rw [hDL]; exact velLayout_wf M per lx hne hW
  obtain ⟨h1, h2, h3⟩ := problems3 M per lx hne hW hM D.h hh D.rs (hDL ▸ hrs) D.bc (hDL ▸ hx) F (hDL ▸ hF)
  rw [← hDL] at h1 h2 h3
  refine ⟨C108_solver _ _ _ _ h1, fun solve hs K hK addSing s h0 hex => ?_⟩
  exact C108_dton D hv hrs hh (by rw [hel]; exact isQ1_3) _ F h1 ha hS hA solve hs h2 h3 K hK addSing s h0 hex

/-- C108 (control equation, 2D): the equation of DtoN has a solution if and only if some control gives a flow of least misfit. -/
theorem C108_control2 {B : Type*} [AddCommGroup B] [Module ℝ B] (D : Setup 2 4 B) (M : Fin 2 → ℤ) (per : Fin 2 → Bool)
    (lx : Fin 2 → List ℤ) (hDL : D.L = velLayout M per lx) (hel : D.elem = getElement2) (hfl : D.fluid = fluidPoints2)
    (hne : ∀ i, lx i ≠ []) (hW : ∀ i, (presLayout M per lx i).WF) (hM : Fine M) (hG : GoodMesh D.L)
    (hh : ∀ c, 0 < D.h c) (hrs : AllProcs D.L D.rs) (hx : FluxFree D.L per D.bc D.h) (ha : ∀ P ∈ D.parts, 0 ≤ P.area)
    (F : NodeVec 2 2 ℝ → NodeVec 2 1 ℝ → NodeVec 2 2 ℝ × NodeVec 2 1 ℝ)
    (hF : F = stokesStrain2 M per lx D.rs D.bc D.h ∧ WallHeld D.L D.bc ∨
      F = stokesLap2 M per lx D.rs D.bc D.h ∧ ComponentsHeld D.L D.bc)
    (solve) (hs : FluidSolver D.L (presLayout M per lx) F solve) (x : (Fin 2 → ℕ) → ℕ → ℝ) :
    let u := dtonFluid (D.pieces solve) false x
    let f := setDirichletOnRHS D.L D.rs D.bc D.h (setRhsProblem D.fluid D.L D.rs D.h D.mass x false D.parts
      (stokesSetupRHS D.L D.rs D.src D.bc D.h (diagBlockMult D.L D.elem D.M) 0))
    dtonResidual (D.pieces solve) u = 0 ↔ LeastMisfit D (presLayout M per lx) F f u.1 u.2 := by
  have hv : ∀ i, (D.L i).WF := by rw [hDL]; exact velLayout_wf M per lx hne hW
  obtain ⟨h1, h2, h3⟩ := problems2 M per lx hne hW hM D.h hh D.rs (hDL ▸ hrs) D.bc (hDL ▸ hx) F (hDL ▸ hF)
  rw [← hDL] at h1 h2 h3
  have hm : ∀ i, 0 < (D.L i).m := by
    intro i
    have := hM.1 i
    rw [hDL]
    show 0 < meshVel (M i) (per i)
    unfold meshVel
    split_ifs <;> omega
  exact C108_control D hv hrs hh (by rw [hel]; exact isQ1_2) _ F h1 (by rw [hfl]; exact isFluid2) hG hm ha solve hs h2 h3 x

/-- C108 (control equation, 3D): the equation of DtoN has a solution if and only if some control gives a flow of least misfit. -/
theorem C108_control3 {B : Type*} [AddCommGroup B] [Module ℝ B] (D : Setup 3 8 B) (M : Fin 3 → ℤ) (per : Fin 3 → Bool)
    (lx : Fin 3 → List ℤ) (hDL : D.L = velLayout M per lx) (hel : D.elem = getElement3) (hfl : D.fluid = fluidPoints3)
    (hne : ∀ i, lx i ≠ []) (hW : ∀ i, (presLayout M per lx i).WF) (hM : Fine M) (hG : GoodMesh D.L)
    (hh : ∀ c, 0 < D.h c) (hrs : AllProcs D.L D.rs) (hx : FluxFree D.L per D.bc D.h) (ha : ∀ P ∈ D.parts, 0 ≤ P.area)
    (F : NodeVec 3 3 ℝ → NodeVec 3 1 ℝ → NodeVec 3 3 ℝ × NodeVec 3 1 ℝ)
    (hF : F = stokesStrain3 M per lx D.rs D.bc D.h ∧ WallHeld D.L D.bc ∨
      F = stokesLap3 M per lx D.rs D.bc D.h ∧ ComponentsHeld D.L D.bc)
    (solve) (hs : FluidSolver D.L (presLayout M per lx) F solve) (x : (Fin 3 → ℕ) → ℕ → ℝ) :
    let u := dtonFluid (D.pieces solve) false x
    let f := setDirichletOnRHS D.L D.rs D.bc D.h (setRhsProblem D.fluid D.L D.rs D.h D.mass x false D.parts
      (stokesSetupRHS D.L D.rs D.src D.bc D.h (diagBlockMult D.L D.elem D.M) 0))
    dtonResidual (D.pieces solve) u = 0 ↔ LeastMisfit D (presLayout M per lx) F f u.1 u.2 := by
  have hv : ∀ i, (D.L i).WF := by rw [hDL]; exact velLayout_wf M per lx hne hW
  obtain ⟨h1, h2, h3⟩ := problems3 M per lx hne hW hM D.h hh D.rs (hDL ▸ hrs) D.bc (hDL ▸ hx) F (hDL ▸ hF)
  rw [← hDL] at h1 h2 h3
  have hm : ∀ i, 0 < (D.L i).m := by
    intro i
    have := hM.1 i
    rw [hDL]
    show 0 < meshVel (M i) (per i)
    unfold meshVel
    split_ifs <;> omega
  exact C108_control D hv hrs hh (by rw [hel]; exact isQ1_3) _ F h1 (by rw [hfl]; exact isFluid3) hG hm ha solve hs h2 h3 x

/-! ### The example: the disk carried by the uniform flow -/

/-- Flows that agree on the mesh have the same misfit. -/
theorem misfit_congr (D : Setup d N A) (hL : ∀ i, (D.L i).WF) (hh : ∀ i, 0 < D.h i) (hel : IsQ1 D.elem) (u u' : NodeVec d d ℝ)
    (huu : ∀ g ∈ gridNodes D.L, ∀ c, u' g c = u g c) : misfit D u' = misfit D u := by
  have h0 : ∀ x, Cafes.dot D.L x (u' - u) = 0 := fun x => Finset.sum_eq_zero fun g hg => Finset.sum_eq_zero fun c _ => by
    show _ * (u' g c - u g c) = 0
    rw [huu g hg c, sub_self, mul_zero]
  have e := misfit_add D hL hh hel u (u' - u) 1
  have hs : surfSize D (u' - u) = Cafes.dot D.L (D.sl fun r i k c =>
      surfaceGap D u' r i k c - surfaceGap D u r i k c) (u' - u) := by
    rw [C87_spread D hL hh hel]
    unfold surfSize
    refine Finset.sum_congr rfl fun r _ => Finset.sum_congr rfl fun i _ => congrArg₂ (· * ·) rfl
      (Finset.sum_congr rfl fun k _ => Finset.sum_congr rfl fun c _ => ?_)
    have hg := gap_add D u (u' - u) 1 r i k c
    rw [one_smul, add_sub_cancel, one_mul] at hg
    rw [hg]
    ring
  rw [one_smul, add_sub_cancel, h0, hs, h0] at e
  rw [e]
  ring

theorem exD_mesh : (∀ i, (![[2, 1], [3]] : Fin 2 → List ℤ) i ≠ []) ∧
    (∀ i, (presLayout ![3, 3] ![false, false] ![[2, 1], [3]] i).WF) ∧ Fine (![3, 3] : Fin 2 → ℤ) := by
  refine ⟨by intro i; fin_cases i <;> simp, ?_, ⟨?_, ?_⟩⟩
  · intro i; fin_cases i <;> exact ⟨by decide, by decide⟩
  · intro i; fin_cases i <;> decide
  · intro i j _; left; fin_cases i <;> decide

theorem exD_h : ∀ c, 0 < exD.h c := by intro c; fin_cases c <;> simp [exD]

theorem exD_fluxFree : FluxFree exD.L ![false, false] exD.bc exD.h := by
  intro _
  refine ⟨exFlow.1, fun g hg a φ hφ => ?_, ?_⟩
  · obtain ⟨f, -, h2, -⟩ := hφ
    simp only [exD, Option.some.injEq] at h2
    rw [← h2]
    rfl
  · have h1 := (C94_flux2 ![3, 3] ![false, false] ![[2, 1], [3]] exD_mesh.1 exD_mesh.2.1 exD_mesh.2.2.1 exD.h exD.rs exD.bc
      exFlow.1 0).1
    refine h1.symm.trans (Finset.sum_eq_zero fun q _ => ?_)
    have h2 := uniform_stokes ![3, 3] ![false, false] ![[2, 1], [3]] exD_mesh.1 exD_mesh.2.1 exD.h exD_h exD.rs exD_procs exD.bc
      ![1, 0]
    exact congrFun (congrFun (congrArg Prod.snd h2) q) 0

theorem exD_held : WallHeld exD.L exD.bc :=
  ⟨0, exD_corner.2, 0, ⟨0, rfl, Or.inl ⟨rfl, rfl⟩⟩, fun _ => rfl⟩

theorem exD_area : ∀ P ∈ exD.parts, 0 < P.area := by
  intro P hP
  simp only [exD, List.mem_singleton] at hP
  subst hP
  norm_num [exPart]

/-- The uniform flow has no misfit: the disk moves with it. -/
theorem exD_misfit : misfit exD exFlow.1 = 0 := by
  have h0 : surfaceGap exD exFlow.1 = 0 := by rw [← rigidOn_eq]; exact exD_surface
  unfold misfit
  rw [h0]
  exact Finset.sum_eq_zero fun r _ => Finset.sum_eq_zero fun i _ => by simp

/-- The hypotheses of `C108_least2` and `C108_control2` are met, the control equation included, whatever the fluid
solver. -/
theorem C108_example (solve)
    (hs : FluidSolver exD.L (presLayout ![3, 3] ![false, false] ![[2, 1], [3]])
      (stokesStrain2 ![3, 3] ![false, false] ![[2, 1], [3]] exD.rs exD.bc exD.h) solve) :
    dtonResidual (exD.pieces solve) (dtonFluid (exD.pieces solve) false 0) = 0 := by
  have hP := pieces_lawful exD exD_wf exD_procs spinLaws2 actLaws2 solve hs.linear
  refine (C108_control2 exD ![3, 3] ![false, false] ![[2, 1], [3]] rfl rfl rfl exD_mesh.1 exD_mesh.2.1 exD_mesh.2.2 exD_good
    exD_h exD_procs exD_fluxFree (fun P hP => (exD_area P hP).le) _ (Or.inl ⟨rfl, exD_held⟩) solve hs 0).2 ?_
  set f := setDirichletOnRHS exD.L exD.rs exD.bc exD.h (setRhsProblem exD.fluid exD.L exD.rs exD.h exD.mass 0 false exD.parts
      (stokesSetupRHS exD.L exD.rs exD.src exD.bc exD.h (diagBlockMult exD.L exD.elem exD.M) 0)) with hf
  have hpair : (exD.pieces solve).setBC ((exD.pieces solve).setBC 0) = (f, 0) := by
    have e1 := pieces_setupRHS exD solve 0
    have e2 := pieces_ctl exD solve 0 false ((exD.pieces solve).setBC (exD.pieces solve).source)
    simp only [setupRHSFluid, zero_add, Bool.false_eq_true, if_false, add_zero, hP.ctl.map_zero] at e1 e2
    have hsrc : (exD.pieces solve).source = 0 := by
      have : hasCondition exD.src = false := rfl
      simp only [Setup.pieces, this]
      rfl
    rw [hsrc] at e1 e2
    rw [e2, e1]
    rfl
  have hu : dtonFluid (exD.pieces solve) false 0 = solve (f, 0) := by
    unfold dtonFluid
    have hsrc : (exD.pieces solve).source = 0 := by
      have : hasCondition exD.src = false := rfl
      simp only [Setup.pieces, this]
      rfl
    rw [hP.ctl.map_zero, if_neg (by simp), add_zero, add_zero, hsrc, hpair]
    rfl
  have hex : Solves exD.L (presLayout ![3, 3] ![false, false] ![[2, 1], [3]])
      (stokesStrain2 ![3, 3] ![false, false] ![[2, 1], [3]] exD.rs exD.bc exD.h) f 0 exFlow.1 0 := by
    have h2 := uniform_stokes ![3, 3] ![false, false] ![[2, 1], [3]] exD_mesh.1 exD_mesh.2.1 exD.h exD_h exD.rs exD_procs exD.bc
      ![1, 0]
    refine ⟨fun g hg c => ?_, fun q hq => congrFun (congrFun (congrArg Prod.snd h2) q) 0⟩
    refine (congrFun (congrFun (congrArg Prod.fst h2) g) c).trans ?_
    have hf2 := congrFun (congrFun (congrArg Prod.fst hpair) g) c
    refine Eq.trans ?_ hf2
    show setDirichletOnVec exD.L exD.rs exD.bc _ _ g c = setDirichletOnRHS exD.L exD.rs exD.bc exD.h
      (setDirichletOnRHS exD.L exD.rs exD.bc exD.h 0) g c
    rw [C25_vec _ exD_wf _ exD_procs]
    split_ifs with hg
    · rw [exD_bc _ _ _ hg.1 hg.2]
    · rw [(C26_rhs exD.L exD_wf exD.rs exD_procs exD.bc exD.h _ g c).2.1 hg,
        (C26_rhs exD.L exD_wf exD.rs exD_procs exD.bc exD.h _ g c).2.1 hg]
  have hsol := hs.exact f 0 ⟨_, _, hex⟩
  rw [hu]
  refine ⟨hsol, fun δ u' p' _ _ => ?_⟩
  have hz : misfit exD (solve (f, 0)).1 = 0 := by
    rw [← exD_misfit]
    refine misfit_congr exD exD_wf exD_h isQ1_2 _ _ fun g hg c => ?_
    exact (C93_velocity2 ![3, 3] ![false, false] ![[2, 1], [3]] exD_mesh.1 exD_mesh.2.1 exD_mesh.2.2.1 exD.h exD_h exD.rs
      exD_procs exD.bc _ exFlow.1 _ 0).1 exD_held (fun g hg c => (hsol.1 g hg c).trans (hex.1 g hg c).symm)
      (fun q hq => (hsol.2 q hq).trans (hex.2 q hq).symm) g hg c
  rw [hz]
  exact Finset.sum_nonneg fun _ _ => Finset.sum_nonneg fun i _ => mul_nonneg
    (div_nonneg (exD_area _ (List.getElem_mem _)).le (Nat.cast_nonneg _))
    (Finset.sum_nonneg fun _ _ => Finset.sum_nonneg fun _ _ => sq_nonneg _)

end Cafes.Props
