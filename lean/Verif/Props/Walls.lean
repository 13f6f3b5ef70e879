/-
C113: the Stokes problems of the programs of the library are well posed on every mesh: walls sliding in their own
planes (cavities, shear boxes), quadratic solenoidal velocities (analytic tests); and the compatibility condition of a
lid whose velocity varies.
-/
import Verif.Lemmas.Poincare
import Verif.Lemmas.Flow
import Verif.Props.Solvable
import Verif.Props.StokesRhs
import Verif.Props.Misfit
import Verif.Props.Exact

namespace Cafes.Props
open Cafes Cafes.Spec
variable {d : ℕ}

/-! ### Fluxes -/

theorem sum_zero_of_lines {β : Type*} [DecidableEq β] (s : Fin d → Finset β) (a : Fin d) (F : (Fin d → β) → ℝ)
    (hF : ∀ e ∈ Fintype.piFinset s, ∑ k ∈ s a, F (Function.update e a k) = 0) :
    ∑ e ∈ Fintype.piFinset s, F e = 0 := by
  have h1 := sum_le_of_lines s a F (fun _ => 0) fun e he => by rw [hF e he]; simp
  have h2 := sum_le_of_lines s a (fun _ => 0) F fun e he => by rw [hF e he]; simp
  simp only [Finset.sum_const_zero] at h1 h2
  exact le_antisymm h1 h2

theorem sum_outward (D : Dir) (hp : D.periodic = false) (hm : 1 ≤ D.m) (f : ℤ → ℝ) :
    ∑ k ∈ Finset.Ico 0 D.m, outward D k * f k = f (D.m - 1) - f 0 := by
  unfold outward
  simp only [hp, Bool.false_eq_true, if_false, sub_mul, Finset.sum_sub_distrib, ite_mul, one_mul, zero_mul]
  rw [Finset.sum_ite_eq', Finset.sum_ite_eq', if_pos (by rw [Finset.mem_Ico]; omega),
    if_pos (by rw [Finset.mem_Ico]; omega)]

/-- No flux when the normal component has the same values on opposite walls. -/
theorem flux_zero (L : Fin d → Dir) (h : Pos d ℝ) (U : NodeVec d d ℝ)
    (hU : ∀ g ∈ gridNodes L, ∀ a, (L a).periodic = false →
      U (Function.update g a ((L a).m - 1)) a = U (Function.update g a 0) a) :
    wallFlux L h U = 0 := by
  unfold wallFlux
  refine Finset.sum_eq_zero fun a _ => ?_
  by_cases hp : (L a).periodic = false
  swap
  · refine Finset.sum_eq_zero fun g _ => ?_
    have : (L a).periodic = true := by simpa using hp
    simp [outward, this]
  refine sum_zero_of_lines _ a _ fun e he => ?_
  have hm : 1 ≤ (L a).m := by
    have := (mem_gridNodes L e).1 he a
    omega
  have hprod : ∀ k : ℤ, ∏ j ∈ Finset.univ.erase a, trapezoid (L j) (Function.update e a k j) * h j =
      ∏ j ∈ Finset.univ.erase a, trapezoid (L j) (e j) * h j := fun k =>
    Finset.prod_congr rfl fun j hj => by rw [Function.update_of_ne (Finset.ne_of_mem_erase hj)]
  simp only [hprod, Function.update_self, ← Finset.sum_mul]
  rw [sum_outward (L a) hp hm (fun k => U (Function.update e a k) a), hU e he a hp, sub_self, zero_mul]

/-! ### Walls that slide in their own planes -/

/-- Every wall `f` has the velocity `φ f`, a function of the point. -/
def wallsMove (φ : ℕ → Fin d → (Pos d ℝ → ℝ)) : BC d ℝ := fun f c => some (φ f c)

/-- The walls slide in their own planes: on a wall of direction `a` the component `a` is zero; and the velocity along
`a` of the walls of the other directions is the same at their two edges of direction `a` (it is constant on each wall,
for instance). -/
structure Sliding (L : Fin d → Dir) (h : Pos d ℝ) (φ : ℕ → Fin d → (Pos d ℝ → ℝ)) : Prop where
  /-- no normal velocity -/
  normal : ∀ a : Fin d, ∀ x, φ (2 * a.1) a x = 0 ∧ φ (2 * a.1 + 1) a x = 0
  /-- same velocity at opposite edges -/
  edges : ∀ (f : ℕ) (a : Fin d), f ≠ 2 * a.1 → f ≠ 2 * a.1 + 1 → ∀ x : Pos d ℝ,
    φ f a (Function.update x a 0) = φ f a (Function.update x a ((((L a).m - 1 : ℤ) : ℝ) * h a))

theorem onFace_update (L : Fin d → Dir) (g : Pos d ℤ) (a : Fin d) (k k' : ℤ) (f : ℕ) (h0 : f ≠ 2 * a.1)
    (h1 : f ≠ 2 * a.1 + 1) : OnFace L (Function.update g a k) f → OnFace L (Function.update g a k') f := by
  rintro ⟨i, hp, hi⟩
  have hia : i ≠ a := by rintro rfl; rcases hi with hi | hi <;> omega
  exact ⟨i, hp, by simpa only [Function.update_of_ne hia] using hi⟩

theorem update_coord (g : Pos d ℤ) (a : Fin d) (k : ℤ) (h : Pos d ℝ) :
    (fun i => ((Function.update g a k i : ℤ) : ℝ) * h i) =
      Function.update (fun i => (g i : ℝ) * h i) a ((k : ℝ) * h a) := by
  funext i
  by_cases hi : i = a
  · subst hi; simp
  · simp [Function.update_of_ne hi]

theorem update_mem (L : Fin d → Dir) (g : Pos d ℤ) (hg : g ∈ gridNodes L) (a : Fin d) (k : ℤ) (h0 : 0 ≤ k)
    (h1 : k < (L a).m) : Function.update g a k ∈ gridNodes L := by
  rw [mem_gridNodes] at hg ⊢
  intro i
  by_cases hi : i = a
  · subst hi; simpa using ⟨h0, h1⟩
  · simpa [Function.update_of_ne hi] using hg i

/-- The values imposed by sliding walls have no net flux, whatever condition prevails at the edges. -/
theorem sliding_flux (L : Fin d → Dir) (hL : ∀ i, (L i).WF) (rs : List (Fin d → ℕ)) (hrs : AllProcs L rs) (h : Pos d ℝ)
    (φ : ℕ → Fin d → (Pos d ℝ → ℝ)) (hs : Sliding L h φ) :
    wallFlux L h (setDirichletOnRHS L rs (wallsMove φ) h 0) = 0 := by
  refine flux_zero L h _ fun g hg a hp => ?_
  have hga := (mem_gridNodes L g).1 hg a
  by_cases hm : (L a).m - 1 = 0
  · rw [hm]
  have hl : ∀ k : ℤ, (k = 0 ∨ k = (L a).m - 1) → Constrained L (wallsMove φ) (Function.update g a k) a := by
    rintro k (hk | hk)
    · exact ⟨2 * a.1, ⟨a, hp, Or.inl ⟨rfl, by simp [hk]⟩⟩, rfl⟩
    · exact ⟨2 * a.1 + 1, ⟨a, hp, Or.inr ⟨rfl, by simp [hk]⟩⟩, rfl⟩
  have hm0 := update_mem L g hg a 0 le_rfl (by omega)
  have hm1 := update_mem L g hg a ((L a).m - 1) (by omega) (by omega)
  have r0 := C26_rhs L hL rs hrs (wallsMove φ) h 0 (Function.update g a 0) a
  have r1 := C26_rhs L hL rs hrs (wallsMove φ) h 0 (Function.update g a ((L a).m - 1)) a
  obtain ⟨ψ0, hψ0⟩ := r0.2.2.1 (hl 0 (Or.inl rfl))
  obtain ⟨ψ1, hψ1⟩ := r1.2.2.1 (hl _ (Or.inr rfl))
  rw [r0.1 hm0 ψ0 hψ0, r1.1 hm1 ψ1 hψ1]
  obtain ⟨f0, hf0, e0, l0⟩ := hψ0
  obtain ⟨f1, hf1, e1, l1⟩ := hψ1
  simp only [wallsMove, Option.some.injEq] at e0 e1
  have l0' : ∀ f', OnFace L (Function.update g a 0) f' → f' ≤ f0 := fun f' hf' => by
    by_contra hlt
    exact absurd (l0 f' (by omega) hf') (by simp [wallsMove])
  have l1' : ∀ f', OnFace L (Function.update g a ((L a).m - 1)) f' → f' ≤ f1 := fun f' hf' => by
    by_contra hlt
    exact absurd (l1 f' (by omega) hf') (by simp [wallsMove])
  have a0 : 2 * a.1 ≤ f0 := l0' _ ⟨a, hp, Or.inl ⟨rfl, by simp⟩⟩
  have a1 : 2 * a.1 + 1 ≤ f1 := l1' _ ⟨a, hp, Or.inr ⟨rfl, by simp⟩⟩
  have n0 : f0 ≠ 2 * a.1 + 1 := by
    rintro rfl
    obtain ⟨i, -, hi⟩ := hf0
    rcases hi with hi | hi
    · omega
    · have : i = a := Fin.ext (by omega)
      subst this
      rw [Function.update_self] at hi
      omega
  rw [update_coord, update_coord, ← e0, ← e1]
  by_cases c0 : f0 = 2 * a.1
  · by_cases c1 : f1 = 2 * a.1 + 1
    · rw [c0, c1, (hs.normal a _).1, (hs.normal a _).2]
    · have := l0' f1 (onFace_update L g a _ 0 f1 (by omega) c1 hf1)
      omega
  · have h2 := l1' f0 (onFace_update L g a 0 ((L a).m - 1) f0 c0 n0 hf0)
    have h3 := l0' f1 (onFace_update L g a _ 0 f1 (by omega) (by omega) hf1)
    have h4 : f0 = f1 := by omega
    rw [← h4, Int.cast_zero, zero_mul, hs.edges f0 a c0 n0]

theorem walls_held_all (N : Fin d → ℤ) (per : Fin d → Bool) (lx : Fin d → List ℤ) (hN : ∀ i, 2 ≤ N i)
    (φ : ℕ → Fin d → (Pos d ℝ → ℝ)) (hp : ∃ a, per a = false) : WallHeld (velLayout N per lx) (wallsMove φ) := by
  obtain ⟨a, ha⟩ := hp
  refine ⟨fun _ => 0, ?_, 2 * a.1, ⟨a, ha, Or.inl ⟨rfl, rfl⟩⟩, fun _ => rfl⟩
  rw [mem_gridNodes]
  intro i
  have := vel_nElem N per lx hN i
  simp only [Dir.nElem] at this
  split_ifs at this <;> omega

/-- The discrete Stokes problem of right-hand side `f`, without divergence source, has a solution, one velocity, and one
pressure up to a constant. -/
def WellPosed (Lv Lp : Fin d → Dir) (F : NodeVec d d ℝ → NodeVec d 1 ℝ → NodeVec d d ℝ × NodeVec d 1 ℝ)
    (f : NodeVec d d ℝ) : Prop :=
  ∃ u p, Solves Lv Lp F f 0 u p ∧ ∀ u' p', Solves Lv Lp F f 0 u' p' →
    (∀ g ∈ gridNodes Lv, ∀ c, u' g c = u g c) ∧ ∃ k, ∀ q ∈ gridNodes Lp, p' q 0 = p q 0 + k

/-- Without net flux through the walls the problem is well posed (2D). -/
theorem wellPosed_of_flux2 (N : Fin 2 → ℤ) (per : Fin 2 → Bool) (lx : Fin 2 → List ℤ)
    (hne : ∀ i, lx i ≠ []) (hW : ∀ i, (presLayout N per lx i).WF) (hN : Fine N)
    (h : Pos 2 ℝ) (hh : ∀ c, 0 < h c) (rs : List (Fin 2 → ℕ)) (hrs : AllProcs (velLayout N per lx) rs)
    (φ : ℕ → Fin 2 → (Pos 2 ℝ → ℝ)) (hp : ∃ a, per a = false)
    (hf : wallFlux (velLayout N per lx) h (setDirichletOnRHS (velLayout N per lx) rs (wallsMove φ) h 0) = 0)
    (src : Fin 2 → Cond 2 ℝ) :
    ∀ F ∈ [stokesStrain2 N per lx rs (wallsMove φ) h, stokesLap2 N per lx rs (wallsMove φ) h],
      WellPosed (velLayout N per lx) (presLayout N per lx) F
        (stokesSetupRHS (velLayout N per lx) rs src (wallsMove φ) h
          (diagBlockMult (velLayout N per lx) getElement2 (matElemMass2 h)) 0) := by
  have hv := velLayout_wf N per lx hne hW
  have hw := walls_held_all N per lx hN.1 φ hp
  have key := C94_problem2 N per lx hne hW hN h hh rs hrs (wallsMove φ) (fun _ _ => ⟨rfl, rfl⟩) getElement2 isQ1_2
    (matElemMass2 h) src 0 (setDirichletOnRHS (velLayout N per lx) rs (wallsMove φ) h 0)
    fun g hg a ψ hψ => (C26_rhs _ hv rs hrs (wallsMove φ) h 0 g a).1 hg ψ hψ
  intro F hF
  simp only [List.mem_cons, List.not_mem_nil, or_false] at hF
  rcases hF with rfl | rfl
  · obtain ⟨u, p, hu⟩ := (key.1 hw).2 hf
    refine ⟨u, p, hu, fun u' p' hu' => ?_⟩
    have e1 := fun g hg c => (hu'.1 g hg c).trans (hu.1 g hg c).symm
    have e2 := fun q hq => (hu'.2 q hq).trans (hu.2 q hq).symm
    exact ⟨(C93_velocity2 N per lx hne hW hN.1 h hh rs hrs _ u' u p' p).1 hw e1 e2,
      (C93_pressure2 N per lx hne hW hN h hh rs hrs _ u' u p' p).1 hw e1 e2⟩
  · obtain ⟨u, p, hu⟩ := (key.2 hw.components).2 hf
    refine ⟨u, p, hu, fun u' p' hu' => ?_⟩
    have e1 := fun g hg c => (hu'.1 g hg c).trans (hu.1 g hg c).symm
    have e2 := fun q hq => (hu'.2 q hq).trans (hu.2 q hq).symm
    exact ⟨(C93_velocity2 N per lx hne hW hN.1 h hh rs hrs _ u' u p' p).2 hw.components e1 e2,
      (C93_pressure2 N per lx hne hW hN h hh rs hrs _ u' u p' p).2 hw.components e1 e2⟩

/-- C113 (sliding walls, 2D): when the walls slide in their own planes, the velocity of each being the same at its
opposite edges, the discrete problem has one velocity and, up to a constant, one pressure, for every source, on every
mesh and every process grid. -/
theorem C113_sliding2 (N : Fin 2 → ℤ) (per : Fin 2 → Bool) (lx : Fin 2 → List ℤ)
    (hne : ∀ i, lx i ≠ []) (hW : ∀ i, (presLayout N per lx i).WF) (hN : Fine N)
    (h : Pos 2 ℝ) (hh : ∀ c, 0 < h c) (rs : List (Fin 2 → ℕ)) (hrs : AllProcs (velLayout N per lx) rs)
    (φ : ℕ → Fin 2 → (Pos 2 ℝ → ℝ)) (hs : Sliding (velLayout N per lx) h φ) (hp : ∃ a, per a = false)
    (src : Fin 2 → Cond 2 ℝ) :
    ∀ F ∈ [stokesStrain2 N per lx rs (wallsMove φ) h, stokesLap2 N per lx rs (wallsMove φ) h],
      WellPosed (velLayout N per lx) (presLayout N per lx) F
        (stokesSetupRHS (velLayout N per lx) rs src (wallsMove φ) h
          (diagBlockMult (velLayout N per lx) getElement2 (matElemMass2 h)) 0) :=
  wellPosed_of_flux2 N per lx hne hW hN h hh rs hrs φ hp
    (sliding_flux _ (velLayout_wf N per lx hne hW) rs hrs h φ hs) src

/-- Without net flux through the walls the problem is well posed (3D). -/
theorem wellPosed_of_flux3 (N : Fin 3 → ℤ) (per : Fin 3 → Bool) (lx : Fin 3 → List ℤ)
    (hne : ∀ i, lx i ≠ []) (hW : ∀ i, (presLayout N per lx i).WF) (hN : Fine N)
    (h : Pos 3 ℝ) (hh : ∀ c, 0 < h c) (rs : List (Fin 3 → ℕ)) (hrs : AllProcs (velLayout N per lx) rs)
    (φ : ℕ → Fin 3 → (Pos 3 ℝ → ℝ)) (hp : ∃ a, per a = false)
    (hf : wallFlux (velLayout N per lx) h (setDirichletOnRHS (velLayout N per lx) rs (wallsMove φ) h 0) = 0)
    (src : Fin 3 → Cond 3 ℝ) :
    ∀ F ∈ [stokesStrain3 N per lx rs (wallsMove φ) h, stokesLap3 N per lx rs (wallsMove φ) h],
      WellPosed (velLayout N per lx) (presLayout N per lx) F
        (stokesSetupRHS (velLayout N per lx) rs src (wallsMove φ) h
          (diagBlockMult (velLayout N per lx) getElement3 (matElemMass3 h)) 0) := by
  have hv := velLayout_wf N per lx hne hW
  have hw := walls_held_all N per lx hN.1 φ hp
  have key := C94_problem3 N per lx hne hW hN h hh rs hrs (wallsMove φ) (fun _ _ => ⟨rfl, rfl⟩) getElement3 isQ1_3
    (matElemMass3 h) src 0 (setDirichletOnRHS (velLayout N per lx) rs (wallsMove φ) h 0)
    fun g hg a ψ hψ => (C26_rhs _ hv rs hrs (wallsMove φ) h 0 g a).1 hg ψ hψ
  intro F hF
  simp only [List.mem_cons, List.not_mem_nil, or_false] at hF
  rcases hF with rfl | rfl
  · obtain ⟨u, p, hu⟩ := (key.1 hw).2 hf
    refine ⟨u, p, hu, fun u' p' hu' => ?_⟩
    have e1 := fun g hg c => (hu'.1 g hg c).trans (hu.1 g hg c).symm
    have e2 := fun q hq => (hu'.2 q hq).trans (hu.2 q hq).symm
    exact ⟨(C93_velocity3 N per lx hne hW hN.1 h hh rs hrs _ u' u p' p).1 hw e1 e2,
      (C93_pressure3 N per lx hne hW hN h hh rs hrs _ u' u p' p).1 hw e1 e2⟩
  · obtain ⟨u, p, hu⟩ := (key.2 hw.components).2 hf
    refine ⟨u, p, hu, fun u' p' hu' => ?_⟩
    have e1 := fun g hg c => (hu'.1 g hg c).trans (hu.1 g hg c).symm
    have e2 := fun q hq => (hu'.2 q hq).trans (hu.2 q hq).symm
    exact ⟨(C93_velocity3 N per lx hne hW hN.1 h hh rs hrs _ u' u p' p).2 hw.components e1 e2,
      (C93_pressure3 N per lx hne hW hN h hh rs hrs _ u' u p' p).2 hw.components e1 e2⟩

/-- C113 (sliding walls, 3D): when the walls slide in their own planes, the velocity of each being the same at its
opposite edges, the discrete problem has one velocity and, up to a constant, one pressure, for every source, on every
mesh and every process grid. -/
theorem C113_sliding3 (N : Fin 3 → ℤ) (per : Fin 3 → Bool) (lx : Fin 3 → List ℤ)
    (hne : ∀ i, lx i ≠ []) (hW : ∀ i, (presLayout N per lx i).WF) (hN : Fine N)
    (h : Pos 3 ℝ) (hh : ∀ c, 0 < h c) (rs : List (Fin 3 → ℕ)) (hrs : AllProcs (velLayout N per lx) rs)
    (φ : ℕ → Fin 3 → (Pos 3 ℝ → ℝ)) (hs : Sliding (velLayout N per lx) h φ) (hp : ∃ a, per a = false)
    (src : Fin 3 → Cond 3 ℝ) :
    ∀ F ∈ [stokesStrain3 N per lx rs (wallsMove φ) h, stokesLap3 N per lx rs (wallsMove φ) h],
      WellPosed (velLayout N per lx) (presLayout N per lx) F
        (stokesSetupRHS (velLayout N per lx) rs src (wallsMove φ) h
          (diagBlockMult (velLayout N per lx) getElement3 (matElemMass3 h)) 0) :=
  wellPosed_of_flux3 N per lx hne hW hN h hh rs hrs φ hp
    (sliding_flux _ (velLayout_wf N per lx hne hW) rs hrs h φ hs) src

/-! ### The boxes of the programs -/

/-- The walls of tests/cavity2d.cpp: the top wall (the last one) moves with velocity `(1, 0)`. -/
def cavity2 : ℕ → Fin 2 → (Pos 2 ℝ → ℝ) := fun f c _ => if f = 3 ∧ c = 0 then 1 else 0

/-- The walls of tests/cavity3d.cpp: the fourth wall moves with velocity `(1, 0, 0)`. -/
def cavity3 : ℕ → Fin 3 → (Pos 3 ℝ → ℝ) := fun f c _ => if f = 3 ∧ c = 0 then 1 else 0

/-- The walls of tests/dton.cpp: the third wall moves with velocity `(-1, 0)`, the fourth with `(1, 0)`. -/
def shear2 : ℕ → Fin 2 → (Pos 2 ℝ → ℝ) :=
  fun f c _ => if f = 2 ∧ c = 0 then -1 else if f = 3 ∧ c = 0 then 1 else 0

/-- The walls of tests/dton_sphere.cpp, tests/ntod_sphere.cpp and tests/ntod_one_part.cpp. -/
def shear3 : ℕ → Fin 3 → (Pos 3 ℝ → ℝ) :=
  fun f c _ => if f = 2 ∧ c = 0 then -1 else if f = 3 ∧ c = 0 then 1 else 0

/-- Walls with constant velocities slide as soon as the normal components are zero. -/
theorem sliding_const (L : Fin d → Dir) (h : Pos d ℝ) (V : ℕ → Fin d → ℝ)
    (hV : ∀ a : Fin d, V (2 * a.1) a = 0 ∧ V (2 * a.1 + 1) a = 0) : Sliding L h (fun f c _ => V f c) :=
  ⟨fun a _ => hV a, fun _ _ _ _ _ => rfl⟩

theorem program_walls (L2 : Fin 2 → Dir) (h2 : Pos 2 ℝ) (L3 : Fin 3 → Dir) (h3 : Pos 3 ℝ) :
    Sliding L2 h2 cavity2 ∧ Sliding L2 h2 shear2 ∧ Sliding L3 h3 cavity3 ∧ Sliding L3 h3 shear3 := by
  refine ⟨sliding_const L2 h2 (fun f c => if f = 3 ∧ c = 0 then 1 else 0) fun a => ?_,
    sliding_const L2 h2 (fun f c => if f = 2 ∧ c = 0 then -1 else if f = 3 ∧ c = 0 then 1 else 0) fun a => ?_,
    sliding_const L3 h3 (fun f c => if f = 3 ∧ c = 0 then 1 else 0) fun a => ?_,
    sliding_const L3 h3 (fun f c => if f = 2 ∧ c = 0 then -1 else if f = 3 ∧ c = 0 then 1 else 0) fun a => ?_⟩ <;>
    fin_cases a <;> simp

/-- The hypotheses of `C113_sliding2` on a mesh of two processes: the cavity has its flow. -/
example : WellPosed exD.L (presLayout ![3, 3] ![false, false] ![[2, 1], [3]])
    (stokesStrain2 ![3, 3] ![false, false] ![[2, 1], [3]] exD.rs (wallsMove cavity2) exD.h)
    (stokesSetupRHS exD.L exD.rs (fun _ => some fun _ => 0) (wallsMove cavity2) exD.h
      (diagBlockMult exD.L getElement2 (matElemMass2 exD.h)) 0) :=
  C113_sliding2 ![3, 3] ![false, false] ![[2, 1], [3]] exD_mesh.1 exD_mesh.2.1 exD_mesh.2.2 exD.h exD_h exD.rs exD_procs
    cavity2 (program_walls exD.L exD.h (fun _ => exDir) 0).1 ⟨0, rfl⟩ _ _ (by simp)

/-! ### A lid whose velocity varies -/

/-- Walls at rest, except the top one (the last) that slides with the velocity `ψ` along `x`. -/
def lid2 (ψ : Pos 2 ℝ → ℝ) : ℕ → Fin 2 → (Pos 2 ℝ → ℝ) := fun f c x => if f = 3 ∧ c = 0 then ψ x else 0

theorem lid_values (L : Fin 2 → Dir) (hL : ∀ i, (L i).WF) (hp : ∀ i, (L i).periodic = false)
    (rs : List (Fin 2 → ℕ)) (hrs : AllProcs L rs) (h : Pos 2 ℝ) (ψ : Pos 2 ℝ → ℝ)
    (g : Pos 2 ℤ) (hg : g ∈ gridNodes L) :
    (g 1 = (L 1).m - 1 → setDirichletOnRHS L rs (wallsMove (lid2 ψ)) h 0 g 0 = ψ fun i => (g i : ℝ) * h i) ∧
    (g 1 ≠ (L 1).m - 1 → setDirichletOnRHS L rs (wallsMove (lid2 ψ)) h 0 g 0 = 0) ∧
    setDirichletOnRHS L rs (wallsMove (lid2 ψ)) h 0 g 1 = 0 := by
  have r := fun c => C26_rhs L hL rs hrs (wallsMove (lid2 ψ)) h 0 g c
  refine ⟨fun h1 => ?_, fun h1 => ?_, ?_⟩
  · have hf : OnFace L g 3 := ⟨1, hp 1, Or.inr ⟨rfl, h1⟩⟩
    rw [(r 0).1 hg _ ⟨3, hf, rfl, fun f' hf' ⟨i, _, hi⟩ => by
      have := i.2
      rcases hi with hi | hi <;> omega⟩]
    simp [lid2]
  · by_cases hc : Constrained L (wallsMove (lid2 ψ)) g 0
    · obtain ⟨ψ', hψ⟩ := (r 0).2.2.1 hc
      rw [(r 0).1 hg ψ' hψ]
      obtain ⟨f, ⟨i, -, hi⟩, e, -⟩ := hψ
      simp only [wallsMove, Option.some.injEq] at e
      rw [← e]
      have : ¬ (f = 3 ∧ (0 : Fin 2) = 0) := by
        rintro ⟨rfl, -⟩
        have hi1 : i = 1 := Fin.ext (by show i.1 = 1; have := i.2; omega)
        subst hi1
        rcases hi with hi | hi
        · omega
        · exact h1 hi.2
      exact if_neg this
    · rw [(r 0).2.1 fun h => hc h.2]
      rfl
  · by_cases hc : Constrained L (wallsMove (lid2 ψ)) g 1
    · obtain ⟨ψ', hψ⟩ := (r 1).2.2.1 hc
      rw [(r 1).1 hg ψ' hψ]
      obtain ⟨f, -, e, -⟩ := hψ
      simp only [wallsMove, Option.some.injEq] at e
      rw [← e]
      exact if_neg fun h => absurd h.2 (by decide)
    · rw [(r 1).2.1 fun h => hc h.2]
      rfl

theorem lid_flux (L : Fin 2 → Dir) (hL : ∀ i, (L i).WF) (hp : ∀ i, (L i).periodic = false) (hm : ∀ i, 2 ≤ (L i).m)
    (rs : List (Fin 2 → ℕ)) (hrs : AllProcs L rs) (h : Pos 2 ℝ) (ψ : Pos 2 ℝ → ℝ) :
    wallFlux L h (setDirichletOnRHS L rs (wallsMove (lid2 ψ)) h 0) =
      (ψ (fun i => (((L i).m - 1 : ℤ) : ℝ) * h i) - ψ ![0, (((L 1).m - 1 : ℤ) : ℝ) * h 1]) * (h 1 / 2) := by
  have hv := lid_values L hL hp rs hrs h ψ
  set U := setDirichletOnRHS L rs (wallsMove (lid2 ψ)) h 0 with hU
  unfold wallFlux
  have m0 := hm 0
  have m1 := hm 1
  rw [Fin.sum_univ_two, Finset.sum_eq_zero (s := gridNodes L) (f := fun g => outward (L 1) (g 1) * U g 1 *
    ∏ j ∈ Finset.univ.erase 1, trapezoid (L j) (g j) * h j) fun g hg => by rw [(hv g hg).2.2]; ring, add_zero]
  have he : (Finset.univ.erase (0 : Fin 2)) = {1} := by decide
  simp only [he, Finset.prod_singleton]
  have hA : (![0, (L 1).m - 1] : Pos 2 ℤ) ∈ gridNodes L := by
    rw [mem_gridNodes]; intro i; fin_cases i
    · show (0 : ℤ) ≤ 0 ∧ (0 : ℤ) < (L 0).m; omega
    · show (0 : ℤ) ≤ (L 1).m - 1 ∧ (L 1).m - 1 < (L 1).m; omega
  have hB : (![(L 0).m - 1, (L 1).m - 1] : Pos 2 ℤ) ∈ gridNodes L := by
    rw [mem_gridNodes]; intro i; fin_cases i
    · show (0 : ℤ) ≤ (L 0).m - 1 ∧ (L 0).m - 1 < (L 0).m; omega
    · show (0 : ℤ) ≤ (L 1).m - 1 ∧ (L 1).m - 1 < (L 1).m; omega
  have hAB : (![0, (L 1).m - 1] : Pos 2 ℤ) ≠ ![(L 0).m - 1, (L 1).m - 1] := fun h => by
    have : (0 : ℤ) = (L 0).m - 1 := congrFun h 0
    omega
  have hsub : ({![0, (L 1).m - 1], ![(L 0).m - 1, (L 1).m - 1]} : Finset (Pos 2 ℤ)) ⊆ gridNodes L := by
    intro g hg
    simp only [Finset.mem_insert, Finset.mem_singleton] at hg
    rcases hg with rfl | rfl
    · exact hA
    · exact hB
  rw [← Finset.sum_subset hsub, Finset.sum_pair hAB]
  · rw [(hv _ hA).1 rfl, (hv _ hB).1 rfl]
    have e1 : (fun i => (((![0, (L 1).m - 1] : Pos 2 ℤ) i : ℤ) : ℝ) * h i) = ![0, (((L 1).m - 1 : ℤ) : ℝ) * h 1] := by
      funext i; fin_cases i
      · show ((0 : ℤ) : ℝ) * h 0 = 0; simp
      · rfl
    have e2 : (fun i => (((![(L 0).m - 1, (L 1).m - 1] : Pos 2 ℤ) i : ℤ) : ℝ) * h i) =
        fun i => (((L i).m - 1 : ℤ) : ℝ) * h i := by
      funext i; fin_cases i <;> rfl
    have o1 : outward (L 0) ((![0, (L 1).m - 1] : Pos 2 ℤ) 0) = -1 := by
      show outward (L 0) 0 = -1
      have : ¬ (0 : ℤ) = (L 0).m - 1 := by omega
      simp [outward, hp 0, this]
    have o2 : outward (L 0) ((![(L 0).m - 1, (L 1).m - 1] : Pos 2 ℤ) 0) = 1 := by
      show outward (L 0) ((L 0).m - 1) = 1
      have : ¬ (L 0).m - 1 = 0 := by omega
      simp [outward, hp 0, this]
    have t1 : trapezoid (L 1) ((L 1).m - 1) = 1 / 2 := by simp [trapezoid, hp 1]
    rw [e1, e2, o1, o2]
    show -1 * _ * (trapezoid (L 1) ((L 1).m - 1) * h 1) + 1 * _ * (trapezoid (L 1) ((L 1).m - 1) * h 1) = _
    rw [t1]; ring
  · intro g hg hn
    simp only [Finset.mem_insert, Finset.mem_singleton, not_or] at hn
    by_cases h1 : g 1 = (L 1).m - 1
    · have a0 : g 0 ≠ 0 := fun h0 => hn.1 (by funext i; fin_cases i <;> assumption)
      have a1 : g 0 ≠ (L 0).m - 1 := fun h0 => hn.2 (by funext i; fin_cases i <;> assumption)
      simp [outward, a0, a1]
    · rw [(hv g hg).2.1 h1]; ring

/-- C113 (lid, 2D): in a closed box at rest whose top wall slides with the velocity `ψ`, a function of the point, the
discrete problem is solvable if and only if `ψ` has the same value at the two top corners, although a wall that slides in
its plane injects no fluid: the condition of the top wall also replaces the zero normal velocity of the side walls at the
corners. -/
theorem C113_lid2 (N : Fin 2 → ℤ) (lx : Fin 2 → List ℤ)
    (hne : ∀ i, lx i ≠ []) (hW : ∀ i, (presLayout N (fun _ => false) lx i).WF) (hN : Fine N)
    (h : Pos 2 ℝ) (hh : ∀ c, 0 < h c) (rs : List (Fin 2 → ℕ)) (hrs : AllProcs (velLayout N (fun _ => false) lx) rs)
    (ψ : Pos 2 ℝ → ℝ) (src : Fin 2 → Cond 2 ℝ) :
    ∀ F ∈ [stokesStrain2 N (fun _ => false) lx rs (wallsMove (lid2 ψ)) h,
        stokesLap2 N (fun _ => false) lx rs (wallsMove (lid2 ψ)) h],
      (∃ u p, Solves (velLayout N (fun _ => false) lx) (presLayout N (fun _ => false) lx) F
        (stokesSetupRHS (velLayout N (fun _ => false) lx) rs src (wallsMove (lid2 ψ)) h
          (diagBlockMult (velLayout N (fun _ => false) lx) getElement2 (matElemMass2 h)) 0) 0 u p) ↔
      ψ ![2 * (N 0 - 1) * h 0, 2 * (N 1 - 1) * h 1] = ψ ![0, 2 * (N 1 - 1) * h 1] := by
  have hv := velLayout_wf N (fun _ => false) lx hne hW
  have hw := walls_held_all N (fun _ => false) lx hN.1 (lid2 ψ) ⟨0, rfl⟩
  have key := C94_problem2 N (fun _ => false) lx hne hW hN h hh rs hrs (wallsMove (lid2 ψ)) (fun _ _ => ⟨rfl, rfl⟩) getElement2
    isQ1_2 (matElemMass2 h) src 0 (setDirichletOnRHS (velLayout N (fun _ => false) lx) rs (wallsMove (lid2 ψ)) h 0)
    fun g hg a ψ' hψ => (C26_rhs _ hv rs hrs (wallsMove (lid2 ψ)) h 0 g a).1 hg ψ' hψ
  have hm : ∀ i, (velLayout N (fun _ => false) lx i).m = 2 * N i - 1 := fun i => rfl
  have hfl := lid_flux (velLayout N (fun _ => false) lx) hv (fun _ => rfl)
    (fun i => by rw [hm]; have := hN.1 i; omega) rs hrs h ψ
  have hiff : wallFlux (velLayout N (fun _ => false) lx) h
      (setDirichletOnRHS (velLayout N (fun _ => false) lx) rs (wallsMove (lid2 ψ)) h 0) = 0 ↔
      ψ ![2 * (N 0 - 1) * h 0, 2 * (N 1 - 1) * h 1] = ψ ![0, 2 * (N 1 - 1) * h 1] := by
    rw [hfl]
    have e1 : (fun i => ((((velLayout N (fun _ => false) lx) i).m - 1 : ℤ) : ℝ) * h i) =
        ![2 * (N 0 - 1) * h 0, 2 * (N 1 - 1) * h 1] := by
      funext i
      rw [hm]
      fin_cases i
      · show ((2 * N 0 - 1 - 1 : ℤ) : ℝ) * h 0 = 2 * (N 0 - 1) * h 0
        push_cast; ring
      · show ((2 * N 1 - 1 - 1 : ℤ) : ℝ) * h 1 = 2 * (N 1 - 1) * h 1
        push_cast; ring
    have e2 : (((velLayout N (fun _ => false) lx 1).m - 1 : ℤ) : ℝ) * h 1 = 2 * (N 1 - 1) * h 1 := by
      rw [hm]; push_cast; ring
    rw [e1, e2]
    have h1 := hh 1
    constructor
    · intro h0
      rcases mul_eq_zero.1 h0 with h2 | h2
      · exact sub_eq_zero.1 h2
      · linarith
    · intro h0
      rw [h0]; ring
  intro F hF
  simp only [List.mem_cons, List.not_mem_nil, or_false] at hF
  rcases hF with rfl | rfl
  · exact (key.1 hw).trans hiff
  · exact (key.2 hw.components).trans hiff

/-! ### Quadratic solenoidal velocities -/

/-- Trapezoidal rule on a closed direction: constants and linear functions. -/
theorem sum_trapezoid (D : Dir) (hp : D.periodic = false) (hm : 2 ≤ D.m) (α β : ℝ) :
    ∑ k ∈ Finset.Ico 0 D.m, trapezoid D k * (α + β * (k : ℝ)) = (D.m - 1 : ℝ) * (α + β * ((D.m - 1 : ℝ) / 2)) := by
  have key : ∀ n : ℕ, 1 ≤ n → ∑ k ∈ Finset.range (n + 1),
      (if k = 0 ∨ k = n then (1 / 2 : ℝ) else 1) * (α + β * (k : ℝ)) = (n : ℝ) * (α + β * ((n : ℝ) / 2)) := by
    intro n hn
    obtain ⟨n, rfl⟩ : ∃ k, n = k + 1 := ⟨n - 1, by omega⟩
    rw [Finset.sum_range_succ, if_pos (Or.inr rfl), Finset.sum_range_succ', if_pos (Or.inl rfl)]
    have h1 : ∑ k ∈ Finset.range n, (if k + 1 = 0 ∨ k + 1 = n + 1 then (1 / 2 : ℝ) else 1) * (α + β * ((k + 1 : ℕ) : ℝ)) =
        ∑ k ∈ Finset.range n, (α + β * ((k + 1 : ℕ) : ℝ)) := Finset.sum_congr rfl fun k hk => by
      rw [Finset.mem_range] at hk
      rw [if_neg (by omega), one_mul]
    rw [h1]
    have h2 : ∀ m : ℕ, ∑ k ∈ Finset.range m, (α + β * ((k + 1 : ℕ) : ℝ)) = m * α + β * (m * (m + 1) / 2) := by
      intro m
      induction m with
      | zero => simp
      | succ m ih => rw [Finset.sum_range_succ, ih]; push_cast; ring
    rw [h2]; push_cast; ring
  rw [sum_Ico_int]
  have hn : D.m.toNat = (D.m - 1).toNat + 1 := by omega
  have hc : (((D.m - 1).toNat : ℕ) : ℝ) = D.m - 1 := by
    have : (((D.m - 1).toNat : ℕ) : ℤ) = D.m - 1 := Int.toNat_of_nonneg (by omega)
    have h2 : ((((D.m - 1).toNat : ℕ) : ℤ) : ℝ) = ((D.m - 1 : ℤ) : ℝ) := by rw [this]
    push_cast at h2
    exact h2
  rw [hn, ← hc, ← key _ (by omega)]
  refine Finset.sum_congr rfl fun k hk => ?_
  rw [Finset.mem_range] at hk
  have e : ((k : ℤ) = 0 ∨ (k : ℤ) = D.m - 1) ↔ (k = 0 ∨ k = (D.m - 1).toNat) := by omega
  unfold trapezoid
  simp only [hp, true_and, e, Int.cast_natCast]

section quadratic
variable (L : Fin d → Dir) (hp : ∀ i, (L i).periodic = false) (hm : ∀ i, 2 ≤ (L i).m) (h : Pos d ℝ)

/-- Flux of a scalar function through the walls of direction `a`. -/
noncomputable def fluxA (a : Fin d) (f : Pos d ℤ → ℝ) : ℝ :=
  ∑ g ∈ gridNodes L, outward (L a) (g a) * f g * ∏ j ∈ Finset.univ.erase a, trapezoid (L j) (g j) * h j

/-- A product of functions of one coordinate. -/
theorem fluxA_prod (a : Fin d) (F : Fin d → ℤ → ℝ) : fluxA L h a (fun g => ∏ j, F j (g j)) =
    ∏ j, ∑ k ∈ Finset.Ico 0 (L j).m, (if j = a then outward (L j) k else trapezoid (L j) k * h j) * F j k := by
  rw [Finset.prod_univ_sum]
  unfold fluxA gridNodes
  refine Finset.sum_congr rfl fun g _ => ?_
  rw [Finset.prod_mul_distrib (s := Finset.univ) (f := fun j => if j = a then outward (L j) (g j) else trapezoid (L j) (g j) * h j)
    (g := fun j => F j (g j)), ← Finset.mul_prod_erase Finset.univ (fun j => if j = a then outward (L j) (g j) else
      trapezoid (L j) (g j) * h j) (Finset.mem_univ a), if_pos rfl]
  have : ∏ j ∈ Finset.univ.erase a, (if j = a then outward (L j) (g j) else trapezoid (L j) (g j) * h j) =
      ∏ j ∈ Finset.univ.erase a, trapezoid (L j) (g j) * h j :=
    Finset.prod_congr rfl fun j hj => if_neg (Finset.ne_of_mem_erase hj)
  rw [this]; ring

/-- Length of the box in a direction. -/
noncomputable def boxLen (j : Fin d) : ℝ := ((L j).m - 1 : ℝ) * h j

include hp hm in
theorem fluxA_factor (a j : Fin d) (α β : ℝ) (γ : ℝ) :
    ∑ k ∈ Finset.Ico 0 (L j).m, (if j = a then outward (L j) k else trapezoid (L j) k * h j) *
      (α + β * ((k : ℝ) * h j) + (if j = a then γ * (((k : ℝ) * h j) * ((k : ℝ) * h j)) else 0)) =
      boxLen L h j * (if j = a then β + γ * boxLen L h j else α + β * (boxLen L h j / 2)) := by
  unfold boxLen
  by_cases hj : j = a
  · simp only [hj, if_true]
    rw [sum_outward (L a) (hp a) (by have := hm a; omega)
      (fun k => α + β * ((k : ℝ) * h a) + γ * (((k : ℝ) * h a) * ((k : ℝ) * h a)))]
    push_cast; ring
  · simp only [hj, if_false, add_zero]
    have := sum_trapezoid (L j) (hp j) (hm j) (α * h j) (β * h j * h j)
    rw [show ((L j).m - 1 : ℝ) * h j * (α + β * (((L j).m - 1 : ℝ) * h j / 2)) =
      ((L j).m - 1 : ℝ) * (α * h j + β * h j * h j * (((L j).m - 1 : ℝ) / 2)) by ring, ← this]
    refine Finset.sum_congr rfl fun k _ => ?_
    ring

include hp hm

theorem fluxA_free (a : Fin d) (f : Pos d ℤ → ℝ)
    (hf : ∀ g ∈ gridNodes L, f (Function.update g a ((L a).m - 1)) = f (Function.update g a 0)) : fluxA L h a f = 0 := by
  refine sum_zero_of_lines _ a _ fun e he => ?_
  have hm' : 1 ≤ (L a).m := by have := hm a; omega
  have hprod : ∀ k : ℤ, ∏ j ∈ Finset.univ.erase a, trapezoid (L j) (Function.update e a k j) * h j =
      ∏ j ∈ Finset.univ.erase a, trapezoid (L j) (e j) * h j := fun k =>
    Finset.prod_congr rfl fun j hj => by rw [Function.update_of_ne (Finset.ne_of_mem_erase hj)]
  simp only [hprod, Function.update_self, ← Finset.sum_mul]
  rw [sum_outward (L a) (hp a) hm' (fun k => f (Function.update e a k)), hf e he, sub_self, zero_mul]

/-- Flux of a product of a coordinate of direction `a`, its square, and another coordinate. -/
theorem fluxA_mono (a : Fin d) :
    fluxA L h a (fun g => (g a : ℝ) * h a) = ∏ j, boxLen L h j ∧
    fluxA L h a (fun g => ((g a : ℝ) * h a) * ((g a : ℝ) * h a)) = (∏ j, boxLen L h j) * boxLen L h a ∧
    ∀ k, k ≠ a → fluxA L h a (fun g => ((g a : ℝ) * h a) * ((g k : ℝ) * h k)) =
      (∏ j, boxLen L h j) * (boxLen L h k / 2) := by
  have gen : ∀ (α β : Fin d → ℝ) (γ : ℝ), fluxA L h a (fun g => ∏ j, (α j + β j * ((g j : ℝ) * h j) +
      (if j = a then γ * (((g j : ℝ) * h j) * ((g j : ℝ) * h j)) else 0))) =
      (∏ j, boxLen L h j) * ∏ j, (if j = a then β j + γ * boxLen L h j else α j + β j * (boxLen L h j / 2)) := by
    intro α β γ
    rw [fluxA_prod L h a (fun j k => α j + β j * ((k : ℝ) * h j) +
      (if j = a then γ * (((k : ℝ) * h j) * ((k : ℝ) * h j)) else 0)), ← Finset.prod_mul_distrib]
    exact Finset.prod_congr rfl fun j _ => fluxA_factor L hp hm h a j (α j) (β j) γ
  refine ⟨?_, ?_, fun k hk => ?_⟩
  · refine (congrArg (fluxA L h a) (funext fun g => ?_)).trans
      ((gen (fun j => if j = a then 0 else 1) (fun j => if j = a then 1 else 0) 0).trans ?_)
    · rw [Finset.prod_eq_single a (fun j _ hj => by simp [hj]) (fun h => absurd (Finset.mem_univ a) h)]
      simp
    · refine Eq.trans (congrArg _ (Finset.prod_eq_one fun j _ => ?_)) (mul_one _)
      by_cases hj : j = a <;> simp [hj]
  · refine (congrArg (fluxA L h a) (funext fun g => ?_)).trans
      ((gen (fun j => if j = a then 0 else 1) (fun _ => 0) 1).trans ?_)
    · rw [Finset.prod_eq_single a (fun j _ hj => by simp [hj]) (fun h => absurd (Finset.mem_univ a) h)]
      simp
    · refine congrArg _ ((Finset.prod_eq_single a (fun j _ hj => by simp [hj])
        (fun h => absurd (Finset.mem_univ a) h)).trans ?_)
      simp
  · refine (congrArg (fluxA L h a) (funext fun g => ?_)).trans
      ((gen (fun j => if j = a then 0 else if j = k then 0 else 1) (fun j => if j = a then 1 else if j = k then 1 else 0)
        0).trans ?_)
    · rw [← Finset.mul_prod_erase Finset.univ _ (Finset.mem_univ a), Finset.prod_eq_single k
        (fun j hj hjk => by simp [Finset.ne_of_mem_erase hj, hjk])
        (fun h => absurd (Finset.mem_erase.2 ⟨hk, Finset.mem_univ k⟩) h)]
      simp [hk]
    · refine congrArg _ ((Finset.prod_eq_single k (fun j _ hj => by by_cases h : j = a <;> simp [hj, h])
        (fun h => absurd (Finset.mem_univ k) h)).trans ?_)
      simp [hk]

/-- Quadratic velocities without divergence have no net flux by the trapezoidal rule. -/
theorem quad_flux (c : Fin d → ℝ) (G : Fin d → Fin d → ℝ) (H : Fin d → Fin d → Fin d → ℝ)
    (hG : ∑ i, G i i = 0) (hH : ∀ k, ∑ i, (H i i k + H i k i) = 0) :
    wallFlux L h (fun g a => quad (c a) (G a) (H a) fun i => (g i : ℝ) * h i) = 0 := by
  have hadd : ∀ a (f f' : Pos d ℤ → ℝ), fluxA L h a (fun g => f g + f' g) = fluxA L h a f + fluxA L h a f' :=
    fun a f f' => by
      unfold fluxA
      rw [← Finset.sum_add_distrib]
      exact Finset.sum_congr rfl fun g _ => by ring
  have hsum : ∀ (a : Fin d) (f : Fin d → Pos d ℤ → ℝ), fluxA L h a (fun g => ∑ i, f i g) = ∑ i, fluxA L h a (f i) :=
    fun a f => by
      unfold fluxA
      rw [Finset.sum_comm]
      refine Finset.sum_congr rfl fun g _ => ?_
      rw [Finset.mul_sum, Finset.sum_mul]
  have hsmul : ∀ (a : Fin d) (r : ℝ) (f : Pos d ℤ → ℝ), fluxA L h a (fun g => r * f g) = r * fluxA L h a f :=
    fun a r f => by
      unfold fluxA
      rw [Finset.mul_sum]
      exact Finset.sum_congr rfl fun g _ => by ring
  set Vol := ∏ j, boxLen L h j with hVol
  have hlin : ∀ a i, fluxA L h a (fun g => (g i : ℝ) * h i) = if i = a then Vol else 0 := by
    intro a i
    split_ifs with hi
    · subst hi; exact (fluxA_mono L hp hm h i).1
    · exact fluxA_free L hp hm h a _ fun g _ => by simp [Function.update_of_ne hi]
  have hquad : ∀ a i k, fluxA L h a (fun g => ((g i : ℝ) * h i) * ((g k : ℝ) * h k)) =
      (if i = a then Vol * (boxLen L h k / 2) else 0) + (if k = a then Vol * (boxLen L h i / 2) else 0) := by
    intro a i k
    by_cases hi : i = a
    · by_cases hk : k = a
      · subst hi; subst hk
        rw [(fluxA_mono L hp hm h k).2.1]
        simp only [if_true]; ring
      · subst hi
        rw [(fluxA_mono L hp hm h i).2.2 k hk]
        simp only [if_true, hk, if_false, add_zero]
        rw [← hVol]
    · by_cases hk : k = a
      · subst hk
        have := (fluxA_mono L hp hm h k).2.2 i hi
        rw [show (fun g : Pos d ℤ => ((g i : ℝ) * h i) * ((g k : ℝ) * h k)) = fun g => ((g k : ℝ) * h k) * ((g i : ℝ) * h i) from
          funext fun g => mul_comm _ _, this]
        simp only [if_true, hi, if_false, zero_add]
        rw [← hVol]
      · rw [fluxA_free L hp hm h a _ fun g _ => by simp [Function.update_of_ne hi, Function.update_of_ne hk]]
        simp [hi, hk]
  have hconst : ∀ a (r : ℝ), fluxA L h a (fun _ => r) = 0 := fun a r => fluxA_free L hp hm h a _ fun _ _ => rfl
  have key : ∀ a, fluxA L h a (fun g => quad (c a) (G a) (H a) fun i => (g i : ℝ) * h i) =
      Vol * (G a a + ∑ k, (H a a k + H a k a) * (boxLen L h k / 2)) := by
    intro a
    unfold quad
    rw [hadd, hadd, hconst, hsum, hsum]
    simp only [hsmul, hsum, hlin, hquad, mul_add, Finset.sum_add_distrib, mul_ite, mul_zero, Finset.sum_ite_eq',
      Finset.mem_univ, if_true, zero_add]
    have e1 : ∑ x, ∑ x1, (if x = a then H a x x1 * (Vol * (boxLen L h x1 / 2)) else 0) =
        ∑ k, H a a k * (Vol * (boxLen L h k / 2)) := by
      rw [Finset.sum_comm]
      refine Finset.sum_congr rfl fun k _ => ?_
      rw [Finset.sum_ite_eq', if_pos (Finset.mem_univ a)]
    rw [e1, Finset.mul_sum, ← Finset.sum_add_distrib]
    refine congrArg₂ _ (mul_comm _ _) (Finset.sum_congr rfl fun k _ => ?_)
    ring
  show ∑ a, fluxA L h a (fun g => quad (c a) (G a) (H a) fun i => (g i : ℝ) * h i) = 0
  simp only [key, ← Finset.mul_sum, Finset.sum_add_distrib, hG, zero_add]
  rw [Finset.sum_comm]
  simp only [← Finset.sum_mul, hH, zero_mul, Finset.sum_const_zero, mul_zero]

end quadratic

/-- Each component is a polynomial of degree two. -/
def Quadratic (v : Pos d ℝ → Fin d → ℝ) : Prop := ∃ (c : Fin d → ℝ) (G : Fin d → Fin d → ℝ) (H : Fin d → Fin d → Fin d → ℝ), ∀ x a, v x a = quad (c a) (G a) (H a) x

theorem quadratic_flux (L : Fin d → Dir) (hL : ∀ i, (L i).WF) (hp : ∀ i, (L i).periodic = false) (hm : ∀ i, 2 ≤ (L i).m)
    (h : Pos d ℝ) (rs : List (Fin d → ℕ)) (hrs : AllProcs L rs) (v : Pos d ℝ → Fin d → ℝ) (hv : Quadratic v)
    (hdiv : ∀ x, ∑ i, pderiv i (fun y => v y i) x = 0) :
    wallFlux L h (setDirichletOnRHS L rs (wallsMove fun _ c x => v x c) h 0) = 0 := by
  obtain ⟨c, G, H, hq⟩ := hv
  have hx : ∀ x : Pos d ℝ, ∑ i, G i i + ∑ k, (∑ i, (H i i k + H i k i)) * x k = 0 := by
    intro x
    rw [← hdiv x]
    simp only [hq, pderiv_quad, Finset.sum_add_distrib, Finset.sum_mul]
    refine congrArg₂ _ rfl ?_
    simp only [← Finset.sum_mul, ← Finset.sum_add_distrib]
    simp only [Finset.sum_mul]
    exact Finset.sum_comm
  have hG : ∑ i, G i i = 0 := by
    have := hx 0
    simpa using this
  have hH : ∀ k, ∑ i, (H i i k + H i k i) = 0 := fun k => by
    have := hx (Pi.single k 1)
    rw [hG, zero_add, Finset.sum_eq_single k (fun j _ hj => by simp [hj]) (fun h => absurd (Finset.mem_univ k) h)] at this
    simpa using this
  rw [← quad_flux L hp hm h c G H hG hH]
  refine wallFlux_congr L h _ _ fun g hg a hp' hw => ?_
  have hc : Constrained L (wallsMove fun _ c x => v x c) g a := by
    rcases hw with hw | hw
    · exact ⟨2 * a.1, ⟨a, hp', Or.inl ⟨rfl, hw⟩⟩, rfl⟩
    · exact ⟨2 * a.1 + 1, ⟨a, hp', Or.inr ⟨rfl, hw⟩⟩, rfl⟩
  have r := C26_rhs L hL rs hrs (wallsMove fun _ c x => v x c) h 0 g a
  obtain ⟨ψ, hψ⟩ := r.2.2.1 hc
  rw [r.1 hg ψ hψ]
  obtain ⟨f, -, e, -⟩ := hψ
  simp only [wallsMove, Option.some.injEq] at e
  rw [← e]
  exact hq _ _

/-- C113 (quadratic velocities, 2D): in a closed box whose walls all impose the same quadratic velocity of zero
divergence, the discrete problem is well posed, for every source, on every mesh and every process grid. -/
theorem C113_quadratic2 (N : Fin 2 → ℤ) (lx : Fin 2 → List ℤ)
    (hne : ∀ i, lx i ≠ []) (hW : ∀ i, (presLayout N (fun _ => false) lx i).WF) (hN : Fine N)
    (h : Pos 2 ℝ) (hh : ∀ c, 0 < h c) (rs : List (Fin 2 → ℕ)) (hrs : AllProcs (velLayout N (fun _ => false) lx) rs)
    (v : Pos 2 ℝ → Fin 2 → ℝ) (hv : Quadratic v) (hdiv : ∀ x, ∑ i, pderiv i (fun y => v y i) x = 0)
    (src : Fin 2 → Cond 2 ℝ) :
    ∀ F ∈ [stokesStrain2 N (fun _ => false) lx rs (wallsMove fun _ c x => v x c) h,
        stokesLap2 N (fun _ => false) lx rs (wallsMove fun _ c x => v x c) h],
      WellPosed (velLayout N (fun _ => false) lx) (presLayout N (fun _ => false) lx) F
        (stokesSetupRHS (velLayout N (fun _ => false) lx) rs src (wallsMove fun _ c x => v x c) h
          (diagBlockMult (velLayout N (fun _ => false) lx) getElement2 (matElemMass2 h)) 0) :=
  wellPosed_of_flux2 N (fun _ => false) lx hne hW hN h hh rs hrs _ ⟨0, rfl⟩
    (quadratic_flux _ (velLayout_wf N _ lx hne hW) (fun _ => rfl)
      (fun i => by show 2 ≤ 2 * N i - 1; have := hN.1 i; omega) h rs hrs v hv hdiv) src

/-- C113 (quadratic velocities, 3D): in a closed box whose walls all impose the same quadratic velocity of zero
divergence, the discrete problem is well posed, for every source, on every mesh and every process grid. -/
theorem C113_quadratic3 (N : Fin 3 → ℤ) (lx : Fin 3 → List ℤ)
    (hne : ∀ i, lx i ≠ []) (hW : ∀ i, (presLayout N (fun _ => false) lx i).WF) (hN : Fine N)
    (h : Pos 3 ℝ) (hh : ∀ c, 0 < h c) (rs : List (Fin 3 → ℕ)) (hrs : AllProcs (velLayout N (fun _ => false) lx) rs)
    (v : Pos 3 ℝ → Fin 3 → ℝ) (hv : Quadratic v) (hdiv : ∀ x, ∑ i, pderiv i (fun y => v y i) x = 0)
    (src : Fin 3 → Cond 3 ℝ) :
    ∀ F ∈ [stokesStrain3 N (fun _ => false) lx rs (wallsMove fun _ c x => v x c) h,
        stokesLap3 N (fun _ => false) lx rs (wallsMove fun _ c x => v x c) h],
      WellPosed (velLayout N (fun _ => false) lx) (presLayout N (fun _ => false) lx) F
        (stokesSetupRHS (velLayout N (fun _ => false) lx) rs src (wallsMove fun _ c x => v x c) h
          (diagBlockMult (velLayout N (fun _ => false) lx) getElement3 (matElemMass3 h)) 0) :=
  wellPosed_of_flux3 N (fun _ => false) lx hne hW hN h hh rs hrs _ ⟨0, rfl⟩
    (quadratic_flux _ (velLayout_wf N _ lx hne hW) (fun _ => rfl)
      (fun i => by show 2 ≤ 2 * N i - 1; have := hN.1 i; omega) h rs hrs v hv hdiv) src

/-- The velocity of tests/stokes_analytic_2d.cpp. -/
def analytic2 (x : Pos 2 ℝ) : Fin 2 → ℝ := ![x 0 * x 0 + x 1 * x 1, 2 * x 0 * x 0 - 2 * x 0 * x 1]

/-- The velocity of tests/stokes_analytic_3d.cpp. -/
def analytic3 (x : Pos 3 ℝ) : Fin 3 → ℝ :=
  ![x 0 * x 0 + x 1 * x 1, x 1 * x 1 + x 2 * x 2, x 0 * x 0 + x 1 * x 1 - 2 * (x 0 + x 1) * x 2]

/-- The velocities of the analytic tests meet the hypotheses of `C113_quadratic2` and `C113_quadratic3`. -/
theorem C113_analytic : (Quadratic analytic2 ∧ ∀ x, ∑ i, pderiv i (fun y => analytic2 y i) x = 0) ∧
    Quadratic analytic3 ∧ ∀ x, ∑ i, pderiv i (fun y => analytic3 y i) x = 0 := by
  have h2 : ∀ x a, analytic2 x a = quad 0 0
      ((![![![1, 0], ![0, 1]], ![![2, -2], ![0, 0]]] : Fin 2 → Fin 2 → Fin 2 → ℝ) a) x := by
    intro x a
    fin_cases a <;> simp [analytic2, quad, Fin.sum_univ_two] <;> ring
  have h3 : ∀ x a, analytic3 x a = quad 0 0
      ((![![![1, 0, 0], ![0, 1, 0], ![0, 0, 0]], ![![0, 0, 0], ![0, 1, 0], ![0, 0, 1]],
        ![![1, 0, -2], ![0, 1, -2], ![0, 0, 0]]] : Fin 3 → Fin 3 → Fin 3 → ℝ) a) x := by
    intro x a
    fin_cases a <;> simp [analytic3, quad, Fin.sum_univ_three] <;> ring
  refine ⟨⟨⟨fun _ => 0, fun _ => 0, _, h2⟩, fun x => ?_⟩, ⟨fun _ => 0, fun _ => 0, _, h3⟩, fun x => ?_⟩
  · simp only [h2, pderiv_quad]
    simp [Fin.sum_univ_two]
    ring
  · simp only [h3, pderiv_quad]
    simp [Fin.sum_univ_three]
    ring

/-- The flow `(y², 2x²)`: the part of the velocity of tests/stokes_analytic_2d.cpp without the square of the own
coordinate. -/
noncomputable def analyticPart : PolyFlow (d := 2) (fun _ => false) where
  a := 0
  G := 0
  H := fun c i j => if c = 0 ∧ i = 1 ∧ j = 1 then 1 else if c = 1 ∧ i = 0 ∧ j = 0 then 2 else 0
  p0 := 0
  γ := ![0, 0]
  F := ![-2, -4]
  stokes := by
    refine (stokesFlow_iff _ _ _ _ _ _).2 ⟨?_, fun k => ?_, fun c => ?_⟩
    · simp
    · fin_cases k <;> simp [Fin.sum_univ_two]
    · fin_cases c <;> simp [Fin.sum_univ_two] <;> norm_num
  noSquare := fun c => by fin_cases c <;> simp
  perG := fun i hi c => by simp at hi
  perH := fun i hi c k => by simp at hi
  perγ := fun i hi => by simp at hi

/-- C113 (what the analytic test does not give, 2D): no solution of the discrete problem of tests/stokes_analytic_2d.cpp
has the analytic velocity at all the nodes, whatever the mesh: its nodal values do not satisfy the divergence row of a
corner. -/
theorem C113_inexact2 (N : Fin 2 → ℤ) (lx : Fin 2 → List ℤ)
    (hne : ∀ i, lx i ≠ []) (hW : ∀ i, (presLayout N (fun _ => false) lx i).WF) (hN : ∀ i, 2 ≤ N i)
    (h : Pos 2 ℝ) (hh : ∀ c, 0 < h c) (rs : List (Fin 2 → ℕ)) (hrs : AllProcs (velLayout N (fun _ => false) lx) rs)
    (bc : BC 2 ℝ) (f u : NodeVec 2 2 ℝ) (p : NodeVec 2 1 ℝ) :
    ∀ F ∈ [stokesStrain2 N (fun _ => false) lx rs bc h, stokesLap2 N (fun _ => false) lx rs bc h],
      Solves (velLayout N (fun _ => false) lx) (presLayout N (fun _ => false) lx) F f 0 u p →
      ∃ g ∈ gridNodes (velLayout N (fun _ => false) lx), ∃ c, u g c ≠ analytic2 (fun i => (g i : ℝ) * h i) c := by
  intro F hF hsol
  by_contra hcon
  push Not at hcon
  have hdivF : ∀ q, (F u p).2 q 0 = (stokesStrain2 N (fun _ => false) lx rs bc h u p).2 q 0 := by
    intro q
    simp only [List.mem_cons, List.not_mem_nil, or_false] at hF
    rcases hF with rfl | rfl
    · rfl
    · rw [stokesBC_div N _ lx hne hW _ _ isQ1_2 _ is4Q1_2, stokesBC_div N _ lx hne hW _ _ isQ1_2 _ is4Q1_2]
  have hm0 : (fun _ => 0 : Pos 2 ℤ) ∈ gridNodes (presLayout N (fun _ => false) lx) := by
    rw [mem_gridNodes]; intro i; have := hN i
    show (0 : ℤ) ≤ 0 ∧ 0 < N i
    omega
  have hz : (stokesStrain2 N (fun _ => false) lx rs bc h u p).2 (fun _ => 0) 0 = 0 := by
    rw [← hdivF]; exact hsol.2 _ hm0
  have hpart := ((C96_exact2 N _ lx hne hW hN h hh rs hrs _ _ analyticPart
    (walls_of analyticPart (velLayout N (fun _ => false) lx) h).1 (walls_of analyticPart (velLayout N (fun _ => false) lx) h).2).1).2 _ hm0
  apply C96_square_needed N lx hne hW hN h hh rs bc 0
  rw [stokesBC_div N _ lx hne hW _ _ isQ1_2 _ is4Q1_2] at hz hpart ⊢
  change (stokesMatrix _ _ (fun _ _ y => y) _ _ _ _ _).2 (fun _ => 0) 0 = 0 at hz
  change (stokesMatrix _ _ (fun _ _ y => y) _ _ _ _ _).2 (fun _ => 0) 0 = 0 at hpart
  change (stokesMatrix _ _ (fun _ _ y => y) _ _ _ _ _).2 (fun _ => 0) 0 = 0
  rw [pres_out N _ lx hne hW _ _ isQ1_2 _ is4Q1_2] at hz hpart ⊢
  refine Eq.trans ?_ ((congrArg₂ (· - ·) hz hpart).trans (sub_zero 0))

  rw [← Finset.sum_sub_distrib]
  refine Finset.sum_congr rfl fun e he => ?_
  rw [← Finset.sum_sub_distrib]
  refine Finset.sum_congr rfl fun ip _ => ?_
  split_ifs
  · rw [← Finset.sum_sub_distrib]
    refine Finset.sum_congr rfl fun k _ => ?_
    rw [← Finset.sum_sub_distrib]
    refine Finset.sum_congr rfl fun c _ => ?_
    rw [← sub_mul]
    congr 1
    rw [hcon _ (mem4 N _ lx hne hW _ _ isQ1_2 _ is4Q1_2 e he k)]
    generalize wrap (velLayout N (fun _ => false) lx) _ = g
    fin_cases c <;> simp [nodalVel, PolyFlow.vel, analyticPart, analytic2, quad, Fin.sum_univ_two] <;> ring
  · simp
end Cafes.Props
