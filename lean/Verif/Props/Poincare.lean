/-
C112: Poincaré inequality of the finite element velocities of the mesh and stability of the Stokes solver with
respect to the source, with constants that depend on the length of the box and not on the mesh.
-/
import Verif.Lemmas.Poincare
import Verif.Props.Korn
import Verif.Props.Dissipation
import Verif.Props.StokesRhs
import Verif.Props.Solvable
import Verif.Props.Misfit

namespace Cafes.Spec
open Cafes Cafes.Props

/-- The integral over the domain of the square of a finite element velocity (2D). -/
noncomputable def normSq2 (L : Fin 2 → Dir) (h : Pos 2 ℝ) (u : NodeVec 2 2 ℝ) : ℝ :=
  ∑ e ∈ gridElems L, ∑ c, int2 h (fun x y => Props.field2 L h u e c x y ^ 2)

/-- The same in 3D. -/
noncomputable def normSq3 (L : Fin 3 → Dir) (h : Pos 3 ℝ) (u : NodeVec 3 3 ℝ) : ℝ :=
  ∑ e ∈ gridElems L, ∑ c, int3 h (fun x y z => Props.field3 L h u e c x y z ^ 2)

/-- The component `c` of `u` vanishes on one of the two walls of a direction in which the box has at most the
length `ℓ`. -/
def PinnedWithin {d n : ℕ} (L : Fin d → Dir) (h : Pos d ℝ) (ℓ : ℝ) (u : NodeVec d n ℝ) (c : Fin n) : Prop :=
  ∃ a, (L a).periodic = false ∧ (((L a).m - 1 : ℤ) : ℝ) * h a ≤ ℓ ∧
    ((∀ g ∈ gridNodes L, g a = 0 → u g c = 0) ∨ ∀ g ∈ gridNodes L, g a = (L a).m - 1 → u g c = 0)

/-- The component `c` of the velocity is imposed on one of the two walls of a direction in which the box has at most
the length `ℓ`. -/
def HeldWithin {d : ℕ} {C : Type*} (L : Fin d → Dir) (bc : ℕ → Fin d → Option C) (h : Pos d ℝ) (ℓ : ℝ) (c : Fin d) :
    Prop :=
  ∃ a : Fin d, (L a).periodic = false ∧ (((L a).m - 1 : ℤ) : ℝ) * h a ≤ ℓ ∧
    ((bc (2 * a.1) c).isSome ∨ (bc (2 * a.1 + 1) c).isSome)

end Cafes.Spec

namespace Cafes.Props
open Cafes Cafes.Spec
variable {d n NP NV : ℕ}

/-! ### The forms cell by cell -/

section forms
variable (L : Fin d → Dir) (hL : ∀ i, (L i).WF) (elem : Pos d ℤ → Fin NP → Pos d ℤ) (hel : IsQ1 elem)
  (bit : Fin NP → Fin d → Fin 2) (hbit : Function.Bijective bit)
  (hel' : ∀ e k i, elem e k i = e i + ((bit k i : ℕ) : ℤ))
include hL hel hbit hel'

theorem form_cells (M : Fin NP → Fin NP → ℝ) (β : Fin d → Fin 2 → Fin 2 → ℝ)
    (hM : ∀ i j, M i j = ∏ t, β t (bit i t) (bit j t)) (u : NodeVec d n ℝ) :
    dot L u (blockMatrix L (diagBlockMult L elem M) u) =
      ∑ c, ∑ e ∈ gridElems L, cellForm (fun p => u (wrap L p) c) β e := by
  rw [dot_diagBlock L hL elem hel]
  refine Eq.trans ?_ Finset.sum_comm
  refine Finset.sum_congr rfl fun e _ => ?_
  rw [Finset.sum_comm]
  refine Finset.sum_congr rfl fun c _ => ?_
  unfold cellForm
  refine Fintype.sum_bijective bit hbit _ _ fun k => ?_
  rw [Finset.mul_sum]
  refine Fintype.sum_bijective bit hbit _ _ fun k' => ?_
  have e1 : ∀ k, (fun i => e i + ((bit k i : ℕ) : ℤ)) = elem e k := fun k => by funext i; rw [hel']
  rw [e1, e1, hM]; ring

/-- The form of the Laplacian: one tensor product per direction. -/
theorem lap_cells (M : Fin NP → Fin NP → ℝ) (β : Fin d → Fin d → Fin 2 → Fin 2 → ℝ)
    (hM : ∀ i j, M i j = ∑ p, ∏ t, β p t (bit i t) (bit j t)) (u : NodeVec d n ℝ) :
    dot L u (blockMatrix L (diagBlockMult L elem M) u) =
      ∑ c, ∑ p, ∑ e ∈ gridElems L, cellForm (fun q => u (wrap L q) c) (β p) e := by
  rw [dot_diagBlock L hL elem hel]
  have e0 : ∀ c : Fin n, ∑ p, ∑ e ∈ gridElems L, cellForm (fun q => u (wrap L q) c) (β p) e =
      ∑ e ∈ gridElems L, ∑ p, cellForm (fun q => u (wrap L q) c) (β p) e := fun c => Finset.sum_comm
  simp only [e0]
  refine Eq.trans ?_ Finset.sum_comm
  refine Finset.sum_congr rfl fun e _ => ?_
  rw [Finset.sum_comm]
  refine Finset.sum_congr rfl fun c _ => ?_
  unfold cellForm
  refine Eq.trans ?_ Finset.sum_comm
  refine Fintype.sum_bijective bit hbit _ _ fun k => ?_
  rw [Finset.mul_sum]
  refine Eq.trans ?_ Finset.sum_comm
  refine Fintype.sum_bijective bit hbit _ _ fun k' => ?_
  have e1 : ∀ k, (fun i => e i + ((bit k i : ℕ) : ℤ)) = elem e k := fun k => by funext i; rw [hel']
  rw [e1, e1, hM, ← Finset.mul_sum]; ring

omit hL hel hbit hel' in
theorem cell_stiff_nonneg (U : Pos d ℤ → ℝ) (h : Pos d ℝ) (hh : ∀ i, 0 < h i) (a : Fin d) (e : Pos d ℤ) :
    0 ≤ cellForm U (fun i x y => J (decide (a = i)) (decide (a = i)) x y (h i)) e := by
  have := cell_stiff U h a e (e a)
  rw [Function.update_eq_self] at this
  rw [this]
  refine Finset.sum_nonneg fun s _ => mul_nonneg (Finset.prod_nonneg fun i _ => ?_) (sq_nonneg _)
  have := hh i
  split_ifs <;> positivity

/-- The mass form of a velocity whose components are pinned is bounded by the form of its gradient. -/
theorem poincare_form (h : Pos d ℝ) (hh : ∀ i, 0 < h i) (ℓ : ℝ) (M S : Fin NP → Fin NP → ℝ)
    (hM : ∀ i j, M i j = ∏ t, J false false (bit i t) (bit j t) (h t))
    (hS : ∀ i j, S i j = ∑ p, ∏ t, J (decide (p = t)) (decide (p = t)) (bit i t) (bit j t) (h t))
    (u : NodeVec d n ℝ) (hu : ∀ c, PinnedWithin L h ℓ u c) :
    dot L u (blockMatrix L (diagBlockMult L elem M) u) ≤
      ℓ ^ 2 / 2 * dot L u (blockMatrix L (diagBlockMult L elem S) u) := by
  rw [form_cells L hL elem hel bit hbit hel' M (fun i x y => J false false x y (h i)) hM,
    lap_cells L hL elem hel bit hbit hel' S (fun p i x y => J (decide (p = i)) (decide (p = i)) x y (h i)) hS,
    Finset.mul_sum]
  refine Finset.sum_le_sum fun c _ => ?_
  obtain ⟨a, hper, hlen, hz⟩ := hu c
  have hm : (L a).nElem = (L a).m - 1 := by simp [Dir.nElem, hper]
  by_cases hm0 : 0 ≤ (L a).nElem
  swap
  · have he : gridElems L = ∅ := Finset.eq_empty_of_forall_notMem fun e he => by
      have := (mem_gridElems L e).1 he a
      omega
    simp [he]
  have key := poincare_cells (fun i => (L i).nElem) a hm0 h hh (fun q => u (wrap L q) c) (by
    have hmem : ∀ (k : ℤ), 0 ≤ k → k ≤ (L a).m - 1 → ∀ e ∈ gridElems L, ∀ t : Fin d → Fin 2,
        wrap L (Function.update (fun i => e i + ((t i : ℕ) : ℤ)) a k) ∈ gridNodes L ∧
        wrap L (Function.update (fun i => e i + ((t i : ℕ) : ℤ)) a k) a = k := by
      intro k hk0 hk1 e he t
      refine ⟨?_, by simp [wrap, hper]⟩
      rw [mem_gridNodes]
      have he' := (mem_gridElems L e).1 he
      intro i
      by_cases hi : i = a
      · subst hi
        simp only [wrap, hper, Function.update_self]
        exact ⟨hk0, by simpa using by omega⟩
      · simp only [wrap, Function.update_of_ne hi]
        have h1 := he' i
        have ht : ((t i : ℕ) : ℤ) ≤ 1 := by have := (t i).2; omega
        by_cases hp : (L i).periodic
        · simp only [hp, if_true]
          simp [Dir.nElem, hp] at h1
          exact ⟨Int.emod_nonneg _ (by omega), Int.emod_lt_of_pos _ (by omega)⟩
        · simp only [hp]
          simp [Dir.nElem, hp] at h1
          exact ⟨by simp; omega, by simp; omega⟩
    rcases hz with h1 | h1
    · left
      intro e he t
      have := hmem 0 le_rfl (by omega) e he t
      exact h1 _ this.1 this.2
    · right
      intro e he t
      have := hmem (L a).nElem hm0 hm.le e he t
      exact h1 _ this.1 (this.2.trans hm))
  refine key.trans ?_
  have h1 := hh a
  have h2 : (0 : ℝ) ≤ ((L a).nElem : ℝ) := by exact_mod_cast hm0
  rw [← hm] at hlen
  have h0 : ∀ p : Fin d, 0 ≤ ∑ e ∈ gridElems L,
      cellForm (fun q => u (wrap L q) c) (fun i x y => J (decide (p = i)) (decide (p = i)) x y (h i)) e :=
    fun p => Finset.sum_nonneg fun e _ => cell_stiff_nonneg _ h hh p e
  refine mul_le_mul ?_ ?_ (h0 a) (by positivity)
  · have : (((L a).nElem : ℝ) * h a) ^ 2 ≤ ℓ ^ 2 := pow_le_pow_left₀ (by positivity) hlen 2
    linarith
  · exact Finset.single_le_sum (f := fun p => ∑ e ∈ gridElems L,
      cellForm (fun q => u (wrap L q) c) (fun i x y => J (decide (p = i)) (decide (p = i)) x y (h i)) e)
      (fun p _ => h0 p) (Finset.mem_univ a)

end forms

/-! ### The difference of two flows -/

section general
variable (N : Fin d → ℤ) (per : Fin d → Bool)
  (lx : Fin d → List ℤ) (hne : ∀ i, lx i ≠ []) (hW : ∀ i, (presLayout N per lx i).WF)
  (elemP : Pos d ℤ → Fin NP → Pos d ℤ) (elemV : Pos d ℤ → Fin NV → Pos d ℤ) (hel : IsQ1 elemP)
  (off : Fin NV → Fin d → Fin 3) (hoff : Is4Q1 elemV off)
  (apply : (Fin d → ℕ) → NodeVec d d ℝ → NodeVec d d ℝ → NodeVec d d ℝ)
  (B : Fin NP → Fin NV → Fin d → ℝ)
include hne hW hel hoff

/-- Work of the difference of two solutions with the same imposed velocities and the same divergence. -/
theorem difference_work (hsub : ∀ x y g c, blockMatrix (velLayout N per lx) apply (x - y) g c =
      blockMatrix (velLayout N per lx) apply x g c - blockMatrix (velLayout N per lx) apply y g c)
    (rs : List (Fin d → ℕ)) (hrs : AllProcs (velLayout N per lx) rs)
    (bc : BC d ℝ) (f f' u u' : NodeVec d d ℝ) (s p p' : NodeVec d 1 ℝ)
    (hf : ∀ g ∈ gridNodes (velLayout N per lx), ∀ c, Constrained (velLayout N per lx) bc g c → f g c = f' g c)
    (hu : Solves (velLayout N per lx) (presLayout N per lx) (stokesMatrixBC (velLayout N per lx)
      (presLayout N per lx) rs bc apply elemP elemV B) f s u p)
    (hu' : Solves (velLayout N per lx) (presLayout N per lx) (stokesMatrixBC (velLayout N per lx)
      (presLayout N per lx) rs bc apply elemP elemV B) f' s u' p') :
    (∀ g ∈ gridNodes (velLayout N per lx), ∀ c, Constrained (velLayout N per lx) bc g c → (u - u') g c = 0) ∧
    dot (velLayout N per lx) (u - u') (blockMatrix (velLayout N per lx) apply (u - u')) =
      work (velLayout N per lx) bc f (u - u') - work (velLayout N per lx) bc f' (u - u') := by
  have hua := admissible_of_solves N per lx hne hW elemP elemV hel off hoff apply B rs hrs bc f u s p hu
  have hua' := admissible_of_solves N per lx hne hW elemP elemV hel off hoff apply B rs hrs bc f' u' s p' hu'
  have hw : ∀ g ∈ gridNodes (velLayout N per lx), ∀ c, Constrained (velLayout N per lx) bc g c →
      (u - u') g c = 0 := fun g hg c hc => by
    show u g c - u' g c = 0
    rw [hua.1 g hg c hc, hua'.1 g hg c hc, hf g hg c hc, sub_self]
  refine ⟨hw, ?_⟩
  have hz : ∀ q : NodeVec d 1 ℝ, dot (presLayout N per lx) q
      (offDiagMatrix (velLayout N per lx) (presLayout N per lx) elemP elemV B (u - u') 0).2 = 0 := by
    intro r
    unfold dot
    refine Finset.sum_eq_zero fun q hq => Finset.sum_eq_zero fun c _ => ?_
    have hc : c = 0 := Subsingleton.elim _ _
    subst hc
    have e := (stokes_sub N per lx hne hW elemP elemV hel off hoff apply B hsub u u' 0 0).2 q 0
    rw [(stokes_split N per lx hne hW elemP elemV hel off hoff apply B u 0).2,
      (stokes_split N per lx hne hW elemP elemV hel off hoff apply B u' 0).2,
      (stokes_split N per lx hne hW elemP elemV hel off hoff apply B _ _).2] at e
    have e1 := hua.2 q hq 0
    have e2 := hua'.2 q hq 0
    rw [stokesBC_div N per lx hne hW elemP elemV hel off hoff] at e1 e2
    rw [e1, e2, sub_self, sub_self] at e
    rw [e, mul_zero]
  have hrow : ∀ (f u : NodeVec d d ℝ) (p : NodeVec d 1 ℝ), Solves (velLayout N per lx) (presLayout N per lx)
      (stokesMatrixBC (velLayout N per lx) (presLayout N per lx) rs bc apply elemP elemV B) f s u p →
      ∀ w : NodeVec d d ℝ, (∀ g ∈ gridNodes (velLayout N per lx), ∀ c, Constrained (velLayout N per lx) bc g c →
        w g c = 0) → (∀ q : NodeVec d 1 ℝ, dot (presLayout N per lx) q
          (offDiagMatrix (velLayout N per lx) (presLayout N per lx) elemP elemV B w 0).2 = 0) →
      dot (velLayout N per lx) w (blockMatrix (velLayout N per lx) apply u) = work (velLayout N per lx) bc f w := by
    intro f u p hu w hw hz
    have hrow := work_rows N per lx hne hW elemP elemV hel off hoff apply B rs hrs bc f u w s p hu hw
    have hfun : (stokesMatrix (velLayout N per lx) (presLayout N per lx) apply elemP elemV B u p).1 =
        blockMatrix (velLayout N per lx) apply u +
          (offDiagMatrix (velLayout N per lx) (presLayout N per lx) elemP elemV B u p).1 := by
      funext g c; exact (stokes_split N per lx hne hW elemP elemV hel off hoff apply B u p).1 g c
    rwa [hfun, dot_add, adjoint N per lx hne hW elemP elemV hel off hoff B w u p 0, hz, neg_zero, add_zero] at hrow
  have hbs : blockMatrix (velLayout N per lx) apply (u - u') =
      blockMatrix (velLayout N per lx) apply u - blockMatrix (velLayout N per lx) apply u' := by
    funext g c; exact hsub u u' g c
  rw [hbs, dot_sub, hrow f u p hu _ hw hz, hrow f' u' p' hu' _ hw hz]

end general

/-- Two right-hand sides assembled for the same imposed velocities. -/
theorem setup_held (L : Fin d → Dir) (hL : ∀ i, (L i).WF)
    (rs : List (Fin d → ℕ)) (hrs : AllProcs L rs) (elem : Pos d ℤ → Fin NP → Pos d ℤ)
    (hel : IsQ1 elem) (M : Fin NP → Fin NP → ℝ) (src src' : Fin d → Cond d ℝ) (bc : BC d ℝ) (h : Pos d ℝ)
    (rhs rhs' : NodeVec d d ℝ) (g : Pos d ℤ) (hg : g ∈ gridNodes L) (c : Fin d) (hc : Constrained L bc g c) :
    stokesSetupRHS L rs src bc h (diagBlockMult L elem M) rhs g c =
      stokesSetupRHS L rs src' bc h (diagBlockMult L elem M) rhs' g c := by
  obtain ⟨φ, hφ⟩ := (C26_rhs L hL rs hrs bc h rhs g c).2.2.1 hc
  rw [(setup_once L hL rs hrs elem hel M src bc h rhs g c).1 hg φ hφ,
    (setup_once L hL rs hrs elem hel M src' bc h rhs' g c).1 hg φ hφ]

/-- The work of an assembled right-hand side in a motion that vanishes at the constrained dofs. -/
theorem setup_work (L : Fin d → Dir) (hL : ∀ i, (L i).WF)
    (rs : List (Fin d → ℕ)) (hrs : AllProcs L rs) (elem : Pos d ℤ → Fin NP → Pos d ℤ)
    (hel : IsQ1 elem) (M : Fin NP → Fin NP → ℝ) (src : Fin d → Cond d ℝ) (bc : BC d ℝ) (h : Pos d ℝ)
    (w : NodeVec d d ℝ) (hw : ∀ g ∈ gridNodes L, ∀ c, Constrained L bc g c → w g c = 0) :
    work L bc (stokesSetupRHS L rs src bc h (diagBlockMult L elem M) 0) w =
      dot L w (blockMatrix L (diagBlockMult L elem M) (sourceVec src h)) := by
  unfold work dot
  refine Finset.sum_congr rfl fun g hg => Finset.sum_congr rfl fun c _ => ?_
  by_cases hc : Constrained L bc g c
  · rw [if_pos hc, hw g hg c hc, zero_mul]
  · rw [if_neg hc, (setup_once L hL rs hrs elem hel M src bc h 0 g c).2 fun h => hc h.2, mul_comm]
    show w g c * (0 + _) = _
    rw [zero_add]

theorem pinned_of_held (L : Fin d → Dir) (bc : BC d ℝ) (h : Pos d ℝ) (ℓ : ℝ) (w : NodeVec d d ℝ)
    (hw : ∀ g ∈ gridNodes L, ∀ c, Constrained L bc g c → w g c = 0) (c : Fin d) (hc : HeldWithin L bc h ℓ c) :
    PinnedWithin L h ℓ w c := by
  obtain ⟨a, h1, h2, h3⟩ := hc
  refine ⟨a, h1, h2, h3.imp (fun h4 g hg hga => ?_) fun h4 g hg hga => ?_⟩
  · exact hw g hg c ⟨_, ⟨a, h1, Or.inl ⟨rfl, hga⟩⟩, h4⟩
  · exact hw g hg c ⟨_, ⟨a, h1, Or.inr ⟨rfl, hga⟩⟩, h4⟩

/-- The two estimates from the inequalities between the forms. -/
theorem two_estimates (C E X T S : ℝ) (hC : 0 < C) (hET : E ≤ T) (hX : X ≤ C * E) (hcs : 2 * C * T ≤ X + C ^ 2 * S) :
    E ≤ C * S ∧ X ≤ C ^ 2 * S := by
  have h1 : C * E ≤ C * (C * S) := by nlinarith
  have h2 := le_of_mul_le_mul_left h1 hC
  exact ⟨h2, by nlinarith⟩

/-- Young's inequality for the mass form. -/
theorem mass_young (L : Fin d → Dir) (hL : ∀ i, (L i).WF) (elem : Pos d ℤ → Fin NP → Pos d ℤ) (hel : IsQ1 elem)
    (M : Fin NP → Fin NP → ℝ)
    (hsym : ∀ x y : NodeVec d n ℝ, dot L x (blockMatrix L (diagBlockMult L elem M) y) =
      dot L y (blockMatrix L (diagBlockMult L elem M) x))
    (hpos : ∀ x : NodeVec d n ℝ, 0 ≤ dot L x (blockMatrix L (diagBlockMult L elem M) x))
    (C : ℝ) (w s : NodeVec d n ℝ) :
    2 * C * dot L w (blockMatrix L (diagBlockMult L elem M) s) ≤
      dot L w (blockMatrix L (diagBlockMult L elem M) w) + C ^ 2 * dot L s (blockMatrix L (diagBlockMult L elem M) s) := by
  have h0 := hpos ((1 : ℝ) • w + (-C) • s)
  have hsm : ∀ (a : ℝ) (x y : NodeVec d n ℝ), dot L x (a • y) = a * dot L x y := fun a x y => by
    unfold dot
    rw [Finset.mul_sum]
    refine Finset.sum_congr rfl fun g _ => ?_
    rw [Finset.mul_sum]
    refine Finset.sum_congr rfl fun c _ => ?_
    show x g c * (a * y g c) = _
    ring
  have hl : ∀ (a b : ℝ) (x y z : NodeVec d n ℝ), dot L (a • x + b • y) z = a * dot L x z + b * dot L y z :=
    fun a b x y z => by rw [dot_comm', dot_add, hsm, hsm, dot_comm' L z x, dot_comm' L z y]
  rw [diagBlock_combines L hL elem hel M, hl, dot_add, dot_add, hsm, hsm, hsm, hsm, hsym s w] at h0
  nlinarith

/-! ### 2D -/

theorem normSq2_eq (L : Fin 2 → Dir) (hL : ∀ i, (L i).WF) (h : Pos 2 ℝ) (hh : ∀ c, 0 < h c) (u : NodeVec 2 2 ℝ) :
    normSq2 L h u = dot L u (mass2 L h u) := by
  rw [C86_mass2 L hL h hh]
  simp only [normSq2, sq]

theorem mass2_nonneg (L : Fin 2 → Dir) (hL : ∀ i, (L i).WF) (h : Pos 2 ℝ) (hh : ∀ c, 0 < h c) (u : NodeVec 2 2 ℝ) :
    0 ≤ dot L u (mass2 L h u) := by
  rw [C86_mass2 L hL h hh]
  exact Finset.sum_nonneg fun e _ => Finset.sum_nonneg fun c _ => int2_nonneg h hh _ fun s t => mul_self_nonneg _

/-- C112 (Poincaré, 2D): a finite element velocity of the mesh whose every component vanishes on one of the two walls of
some direction of length at most `ℓ` has `∫ |u|² ≤ ℓ²/2 ∫ |∇u|²`, whatever the numbers of nodes and the steps. -/
theorem C112_poincare2 (L : Fin 2 → Dir) (hL : ∀ i, (L i).WF) (h : Pos 2 ℝ) (hh : ∀ c, 0 < h c) (ℓ : ℝ)
    (u : NodeVec 2 2 ℝ) (hu : ∀ c, PinnedWithin L h ℓ u c) :
    normSq2 L h u ≤ ℓ ^ 2 / 2 * gradEnergy2 L h u u := by
  rw [normSq2_eq L hL h hh, show gradEnergy2 L h u u = _ from (C86_laplacian2 L hL h hh u u).symm]
  exact poincare_form L hL _ isQ1_2 bit2 bit2_bij elem2_bit h hh ℓ _ _ (mass2_tensor h hh) (lap2_tensor h hh) u hu

/-- The difference of two flows with the same imposed velocities: what the two operators have in common. -/
theorem stability2 (N : Fin 2 → ℤ) (per : Fin 2 → Bool) (lx : Fin 2 → List ℤ)
    (hne : ∀ i, lx i ≠ []) (hW : ∀ i, (presLayout N per lx i).WF)
    (h : Pos 2 ℝ) (hh : ∀ c, 0 < h c) (rs : List (Fin 2 → ℕ)) (hrs : AllProcs (velLayout N per lx) rs)
    (bc : BC 2 ℝ) (ℓ : ℝ) (hl0 : 0 < ℓ) (hb : ∀ c, HeldWithin (velLayout N per lx) bc h ℓ c)
    (apply : (Fin 2 → ℕ) → NodeVec 2 2 ℝ → NodeVec 2 2 ℝ → NodeVec 2 2 ℝ)
    (hsub : ∀ x y g c, blockMatrix (velLayout N per lx) apply (x - y) g c =
      blockMatrix (velLayout N per lx) apply x g c - blockMatrix (velLayout N per lx) apply y g c)
    (hlow : ∀ w : NodeVec 2 2 ℝ, (∀ g ∈ gridNodes (velLayout N per lx), ∀ c,
      Constrained (velLayout N per lx) bc g c → w g c = 0) →
      dot (velLayout N per lx) w (laplacian2 (velLayout N per lx) h w) ≤
        dot (velLayout N per lx) w (blockMatrix (velLayout N per lx) apply w))
    (src src' : Fin 2 → Cond 2 ℝ) (u u' : NodeVec 2 2 ℝ) (p p' : NodeVec 2 1 ℝ)
    (hu : Solves (velLayout N per lx) (presLayout N per lx) (stokesMatrixBC (velLayout N per lx)
      (presLayout N per lx) rs bc apply getElement2 getElement4Q1_2 (matElemPressure2 h))
      (stokesSetupRHS (velLayout N per lx) rs src bc h
        (diagBlockMult (velLayout N per lx) getElement2 (matElemMass2 h)) 0) 0 u p)
    (hu' : Solves (velLayout N per lx) (presLayout N per lx) (stokesMatrixBC (velLayout N per lx)
      (presLayout N per lx) rs bc apply getElement2 getElement4Q1_2 (matElemPressure2 h))
      (stokesSetupRHS (velLayout N per lx) rs src' bc h
        (diagBlockMult (velLayout N per lx) getElement2 (matElemMass2 h)) 0) 0 u' p') :
    gradEnergy2 (velLayout N per lx) h (u - u') (u - u') ≤
      ℓ ^ 2 / 2 * normSq2 (velLayout N per lx) h (sourceVec src h - sourceVec src' h) ∧
    normSq2 (velLayout N per lx) h (u - u') ≤
      (ℓ ^ 2 / 2) ^ 2 * normSq2 (velLayout N per lx) h (sourceVec src h - sourceVec src' h) := by
  have hv := velLayout_wf N per lx hne hW
  obtain ⟨hw, hwork⟩ := difference_work N per lx hne hW _ _ isQ1_2 _ is4Q1_2 apply _ hsub rs hrs bc _ _ u u' 0 p p'
    (fun g hg c hc => setup_held _ hv rs hrs _ isQ1_2 _ src src' bc h 0 0 g hg c hc) hu hu'
  rw [setup_work _ hv rs hrs _ isQ1_2 _ src bc h _ hw, setup_work _ hv rs hrs _ isQ1_2 _ src' bc h _ hw, ← dot_sub] at hwork
  have hms : blockMatrix (velLayout N per lx) (diagBlockMult (velLayout N per lx) getElement2 (matElemMass2 h))
      (sourceVec src h) - blockMatrix (velLayout N per lx) (diagBlockMult (velLayout N per lx) getElement2
        (matElemMass2 h)) (sourceVec src' h) =
      mass2 (velLayout N per lx) h (sourceVec src h - sourceVec src' h) := by
    funext g c
    exact (diagBlock_sub _ hv _ isQ1_2 _ _ _ g c).symm
  rw [hms] at hwork
  have hX := C112_poincare2 _ hv h hh ℓ (u - u') fun c => pinned_of_held _ bc h ℓ _ hw c (hb c)
  have hE := hlow _ hw
  rw [hwork, C86_laplacian2 _ hv h hh] at hE
  have hcs := mass_young _ hv _ isQ1_2 _ (C15_symmetric2 (n := 2) _ hv h hh).2.1 (mass2_nonneg _ hv h hh) (ℓ ^ 2 / 2)
    (u - u') (sourceVec src h - sourceVec src' h)
  rw [normSq2_eq _ hv h hh (u - u')] at hX ⊢
  rw [normSq2_eq _ hv h hh]
  exact two_estimates _ _ _ _ _ (by positivity) hE hX hcs

/-- C112 (stability, 2D, Laplacian form): two runs of the solver with the same mesh and the same imposed velocities, each
component of which is imposed on a wall of a direction of length at most `ℓ`; the velocities and their gradients differ
by at most `(ℓ²/2)²` and `ℓ²/2` times the sources, in the norms of the integrals, with no dependence on the mesh. -/
theorem C112_laplacian2 (N : Fin 2 → ℤ) (per : Fin 2 → Bool) (lx : Fin 2 → List ℤ)
    (hne : ∀ i, lx i ≠ []) (hW : ∀ i, (presLayout N per lx i).WF)
    (h : Pos 2 ℝ) (hh : ∀ c, 0 < h c) (rs : List (Fin 2 → ℕ)) (hrs : AllProcs (velLayout N per lx) rs)
    (bc : BC 2 ℝ) (ℓ : ℝ) (hl0 : 0 < ℓ) (hb : ∀ c, HeldWithin (velLayout N per lx) bc h ℓ c)
    (src src' : Fin 2 → Cond 2 ℝ) (u u' : NodeVec 2 2 ℝ) (p p' : NodeVec 2 1 ℝ)
    (hu : Solves (velLayout N per lx) (presLayout N per lx) (stokesLap2 N per lx rs bc h)
      (stokesSetupRHS (velLayout N per lx) rs src bc h
        (diagBlockMult (velLayout N per lx) getElement2 (matElemMass2 h)) 0) 0 u p)
    (hu' : Solves (velLayout N per lx) (presLayout N per lx) (stokesLap2 N per lx rs bc h)
      (stokesSetupRHS (velLayout N per lx) rs src' bc h
        (diagBlockMult (velLayout N per lx) getElement2 (matElemMass2 h)) 0) 0 u' p') :
    gradEnergy2 (velLayout N per lx) h (u - u') (u - u') ≤
      ℓ ^ 2 / 2 * normSq2 (velLayout N per lx) h (sourceVec src h - sourceVec src' h) ∧
    normSq2 (velLayout N per lx) h (u - u') ≤
      (ℓ ^ 2 / 2) ^ 2 * normSq2 (velLayout N per lx) h (sourceVec src h - sourceVec src' h) :=
  stability2 N per lx hne hW h hh rs hrs bc ℓ hl0 hb _
    (diagBlock_sub _ (velLayout_wf N per lx hne hW) _ isQ1_2 _) (fun _ _ => le_rfl) src src' u u' p p' hu hu'

/-- C112 (stability, 2D, strain form): the same with the strain tensor when all the components are imposed on all the
walls (the energy of the strain bounds that of the gradient). -/
theorem C112_strain2 (N : Fin 2 → ℤ) (per : Fin 2 → Bool) (lx : Fin 2 → List ℤ)
    (hne : ∀ i, lx i ≠ []) (hW : ∀ i, (presLayout N per lx i).WF) (hN : ∀ i, 2 ≤ N i)
    (h : Pos 2 ℝ) (hh : ∀ c, 0 < h c) (rs : List (Fin 2 → ℕ)) (hrs : AllProcs (velLayout N per lx) rs)
    (bc : BC 2 ℝ) (hb : AllHeld (velLayout N per lx) bc) (a : Fin 2) (ha : per a = false) (ℓ : ℝ)
    (hl : (((velLayout N per lx a).m - 1 : ℤ) : ℝ) * h a = ℓ)
    (src src' : Fin 2 → Cond 2 ℝ) (u u' : NodeVec 2 2 ℝ) (p p' : NodeVec 2 1 ℝ)
    (hu : Solves (velLayout N per lx) (presLayout N per lx) (stokesStrain2 N per lx rs bc h)
      (stokesSetupRHS (velLayout N per lx) rs src bc h
        (diagBlockMult (velLayout N per lx) getElement2 (matElemMass2 h)) 0) 0 u p)
    (hu' : Solves (velLayout N per lx) (presLayout N per lx) (stokesStrain2 N per lx rs bc h)
      (stokesSetupRHS (velLayout N per lx) rs src' bc h
        (diagBlockMult (velLayout N per lx) getElement2 (matElemMass2 h)) 0) 0 u' p') :
    gradEnergy2 (velLayout N per lx) h (u - u') (u - u') ≤
      ℓ ^ 2 / 2 * normSq2 (velLayout N per lx) h (sourceVec src h - sourceVec src' h) ∧
    normSq2 (velLayout N per lx) h (u - u') ≤
      (ℓ ^ 2 / 2) ^ 2 * normSq2 (velLayout N per lx) h (sourceVec src h - sourceVec src' h) := by
  have hv := velLayout_wf N per lx hne hW
  have hn := vel_nElem N per lx hN
  have hpa : (velLayout N per lx a).periodic = false := ha
  have hm : (velLayout N per lx a).nElem = (velLayout N per lx a).m - 1 := by simp [Dir.nElem, hpa]
  have hl0 : 0 < ℓ := by
    rw [← hl, ← hm]
    have := hn a
    exact mul_pos (by exact_mod_cast (by omega)) (hh a)
  have hmem : (fun _ => 0 : Pos 2 ℤ) ∈ gridNodes (velLayout N per lx) := by
    rw [mem_gridNodes]
    intro i
    have := hn i
    simp only [Dir.nElem] at this
    split_ifs at this <;> omega
  exact stability2 N per lx hne hW h hh rs hrs bc ℓ hl0
    (fun c => ⟨a, hpa, hl.le, Or.inl (hb _ hmem _ ⟨a, hpa, Or.inl ⟨rfl, rfl⟩⟩ c)⟩) _
    (tensorBlock_sub _ hv _ isQ1_2 _)
    (fun w hw => (C98_bounds2 _ hv h hh w).1 (vanishes_of_held _ bc hb w hw)) src src' u u' p p' hu hu'

/-! ### 3D -/

theorem normSq3_eq (L : Fin 3 → Dir) (hL : ∀ i, (L i).WF) (h : Pos 3 ℝ) (hh : ∀ c, 0 < h c) (u : NodeVec 3 3 ℝ) :
    normSq3 L h u = dot L u (mass3 L h u) := by
  rw [C86_mass3 L hL h hh]
  simp only [normSq3, sq]

theorem mass3_nonneg (L : Fin 3 → Dir) (hL : ∀ i, (L i).WF) (h : Pos 3 ℝ) (hh : ∀ c, 0 < h c) (u : NodeVec 3 3 ℝ) :
    0 ≤ dot L u (mass3 L h u) := by
  rw [C86_mass3 L hL h hh]
  exact Finset.sum_nonneg fun e _ => Finset.sum_nonneg fun c _ => int3_nonneg h hh _ fun s t r => mul_self_nonneg _

/-- C112 (Poincaré, 3D): a finite element velocity of the mesh whose every component vanishes on one of the two walls of
some direction of length at most `ℓ` has `∫ |u|² ≤ ℓ²/2 ∫ |∇u|²`, whatever the numbers of nodes and the steps. -/
theorem C112_poincare3 (L : Fin 3 → Dir) (hL : ∀ i, (L i).WF) (h : Pos 3 ℝ) (hh : ∀ c, 0 < h c) (ℓ : ℝ)
    (u : NodeVec 3 3 ℝ) (hu : ∀ c, PinnedWithin L h ℓ u c) :
    normSq3 L h u ≤ ℓ ^ 2 / 2 * gradEnergy3 L h u u := by
  rw [normSq3_eq L hL h hh, show gradEnergy3 L h u u = _ from (C86_laplacian3 L hL h hh u u).symm]
  exact poincare_form L hL _ isQ1_3 bit3 bit3_bij elem3_bit h hh ℓ _ _ (mass3_tensor h hh) (lap3_tensor h hh) u hu

/-- The difference of two flows with the same imposed velocities: what the two operators have in common. -/
theorem stability3 (N : Fin 3 → ℤ) (per : Fin 3 → Bool) (lx : Fin 3 → List ℤ)
    (hne : ∀ i, lx i ≠ []) (hW : ∀ i, (presLayout N per lx i).WF)
    (h : Pos 3 ℝ) (hh : ∀ c, 0 < h c) (rs : List (Fin 3 → ℕ)) (hrs : AllProcs (velLayout N per lx) rs)
    (bc : BC 3 ℝ) (ℓ : ℝ) (hl0 : 0 < ℓ) (hb : ∀ c, HeldWithin (velLayout N per lx) bc h ℓ c)
    (apply : (Fin 3 → ℕ) → NodeVec 3 3 ℝ → NodeVec 3 3 ℝ → NodeVec 3 3 ℝ)
    (hsub : ∀ x y g c, blockMatrix (velLayout N per lx) apply (x - y) g c =
      blockMatrix (velLayout N per lx) apply x g c - blockMatrix (velLayout N per lx) apply y g c)
    (hlow : ∀ w : NodeVec 3 3 ℝ, (∀ g ∈ gridNodes (velLayout N per lx), ∀ c,
      Constrained (velLayout N per lx) bc g c → w g c = 0) →
      dot (velLayout N per lx) w (laplacian3 (velLayout N per lx) h w) ≤
        dot (velLayout N per lx) w (blockMatrix (velLayout N per lx) apply w))
    (src src' : Fin 3 → Cond 3 ℝ) (u u' : NodeVec 3 3 ℝ) (p p' : NodeVec 3 1 ℝ)
    (hu : Solves (velLayout N per lx) (presLayout N per lx) (stokesMatrixBC (velLayout N per lx)
      (presLayout N per lx) rs bc apply getElement3 getElement4Q1_3 (matElemPressure3 h))
      (stokesSetupRHS (velLayout N per lx) rs src bc h
        (diagBlockMult (velLayout N per lx) getElement3 (matElemMass3 h)) 0) 0 u p)
    (hu' : Solves (velLayout N per lx) (presLayout N per lx) (stokesMatrixBC (velLayout N per lx)
      (presLayout N per lx) rs bc apply getElement3 getElement4Q1_3 (matElemPressure3 h))
      (stokesSetupRHS (velLayout N per lx) rs src' bc h
        (diagBlockMult (velLayout N per lx) getElement3 (matElemMass3 h)) 0) 0 u' p') :
    gradEnergy3 (velLayout N per lx) h (u - u') (u - u') ≤
      ℓ ^ 2 / 2 * normSq3 (velLayout N per lx) h (sourceVec src h - sourceVec src' h) ∧
    normSq3 (velLayout N per lx) h (u - u') ≤
      (ℓ ^ 2 / 2) ^ 2 * normSq3 (velLayout N per lx) h (sourceVec src h - sourceVec src' h) := by
  have hv := velLayout_wf N per lx hne hW
  obtain ⟨hw, hwork⟩ := difference_work N per lx hne hW _ _ isQ1_3 _ is4Q1_3 apply _ hsub rs hrs bc _ _ u u' 0 p p'
    (fun g hg c hc => setup_held _ hv rs hrs _ isQ1_3 _ src src' bc h 0 0 g hg c hc) hu hu'
  rw [setup_work _ hv rs hrs _ isQ1_3 _ src bc h _ hw, setup_work _ hv rs hrs _ isQ1_3 _ src' bc h _ hw, ← dot_sub] at hwork
  have hms : blockMatrix (velLayout N per lx) (diagBlockMult (velLayout N per lx) getElement3 (matElemMass3 h))
      (sourceVec src h) - blockMatrix (velLayout N per lx) (diagBlockMult (velLayout N per lx) getElement3
        (matElemMass3 h)) (sourceVec src' h) =
      mass3 (velLayout N per lx) h (sourceVec src h - sourceVec src' h) := by
    funext g c
    exact (diagBlock_sub _ hv _ isQ1_3 _ _ _ g c).symm
  rw [hms] at hwork
  have hX := C112_poincare3 _ hv h hh ℓ (u - u') fun c => pinned_of_held _ bc h ℓ _ hw c (hb c)
  have hE := hlow _ hw
  rw [hwork, C86_laplacian3 _ hv h hh] at hE
  have hcs := mass_young _ hv _ isQ1_3 _ (C15_symmetric3 (n := 3) _ hv h hh).2.1 (mass3_nonneg _ hv h hh) (ℓ ^ 2 / 2)
    (u - u') (sourceVec src h - sourceVec src' h)
  rw [normSq3_eq _ hv h hh (u - u')] at hX ⊢
  rw [normSq3_eq _ hv h hh]
  exact two_estimates _ _ _ _ _ (by positivity) hE hX hcs

/-- C112 (stability, 3D, Laplacian form): two runs of the solver with the same mesh and the same imposed velocities, each
component of which is imposed on a wall of a direction of length at most `ℓ`; the velocities and their gradients differ
by at most `(ℓ²/2)²` and `ℓ²/2` times the sources, in the norms of the integrals, with no dependence on the mesh. -/
theorem C112_laplacian3 (N : Fin 3 → ℤ) (per : Fin 3 → Bool) (lx : Fin 3 → List ℤ)
    (hne : ∀ i, lx i ≠ []) (hW : ∀ i, (presLayout N per lx i).WF)
    (h : Pos 3 ℝ) (hh : ∀ c, 0 < h c) (rs : List (Fin 3 → ℕ)) (hrs : AllProcs (velLayout N per lx) rs)
    (bc : BC 3 ℝ) (ℓ : ℝ) (hl0 : 0 < ℓ) (hb : ∀ c, HeldWithin (velLayout N per lx) bc h ℓ c)
    (src src' : Fin 3 → Cond 3 ℝ) (u u' : NodeVec 3 3 ℝ) (p p' : NodeVec 3 1 ℝ)
    (hu : Solves (velLayout N per lx) (presLayout N per lx) (stokesLap3 N per lx rs bc h)
      (stokesSetupRHS (velLayout N per lx) rs src bc h
        (diagBlockMult (velLayout N per lx) getElement3 (matElemMass3 h)) 0) 0 u p)
    (hu' : Solves (velLayout N per lx) (presLayout N per lx) (stokesLap3 N per lx rs bc h)
      (stokesSetupRHS (velLayout N per lx) rs src' bc h
        (diagBlockMult (velLayout N per lx) getElement3 (matElemMass3 h)) 0) 0 u' p') :
    gradEnergy3 (velLayout N per lx) h (u - u') (u - u') ≤
      ℓ ^ 2 / 2 * normSq3 (velLayout N per lx) h (sourceVec src h - sourceVec src' h) ∧
    normSq3 (velLayout N per lx) h (u - u') ≤
      (ℓ ^ 2 / 2) ^ 2 * normSq3 (velLayout N per lx) h (sourceVec src h - sourceVec src' h) :=
  stability3 N per lx hne hW h hh rs hrs bc ℓ hl0 hb _
    (diagBlock_sub _ (velLayout_wf N per lx hne hW) _ isQ1_3 _) (fun _ _ => le_rfl) src src' u u' p p' hu hu'

/-- C112 (stability, 3D, strain form): the same with the strain tensor when all the components are imposed on all the
walls (the energy of the strain bounds that of the gradient). -/
theorem C112_strain3 (N : Fin 3 → ℤ) (per : Fin 3 → Bool) (lx : Fin 3 → List ℤ)
    (hne : ∀ i, lx i ≠ []) (hW : ∀ i, (presLayout N per lx i).WF) (hN : ∀ i, 2 ≤ N i)
    (h : Pos 3 ℝ) (hh : ∀ c, 0 < h c) (rs : List (Fin 3 → ℕ)) (hrs : AllProcs (velLayout N per lx) rs)
    (bc : BC 3 ℝ) (hb : AllHeld (velLayout N per lx) bc) (a : Fin 3) (ha : per a = false) (ℓ : ℝ)
    (hl : (((velLayout N per lx a).m - 1 : ℤ) : ℝ) * h a = ℓ)
    (src src' : Fin 3 → Cond 3 ℝ) (u u' : NodeVec 3 3 ℝ) (p p' : NodeVec 3 1 ℝ)
    (hu : Solves (velLayout N per lx) (presLayout N per lx) (stokesStrain3 N per lx rs bc h)
      (stokesSetupRHS (velLayout N per lx) rs src bc h
        (diagBlockMult (velLayout N per lx) getElement3 (matElemMass3 h)) 0) 0 u p)
    (hu' : Solves (velLayout N per lx) (presLayout N per lx) (stokesStrain3 N per lx rs bc h)
      (stokesSetupRHS (velLayout N per lx) rs src' bc h
        (diagBlockMult (velLayout N per lx) getElement3 (matElemMass3 h)) 0) 0 u' p') :
    gradEnergy3 (velLayout N per lx) h (u - u') (u - u') ≤
      ℓ ^ 2 / 2 * normSq3 (velLayout N per lx) h (sourceVec src h - sourceVec src' h) ∧
    normSq3 (velLayout N per lx) h (u - u') ≤
      (ℓ ^ 2 / 2) ^ 2 * normSq3 (velLayout N per lx) h (sourceVec src h - sourceVec src' h) := by
  have hv := velLayout_wf N per lx hne hW
  have hn := vel_nElem N per lx hN
  have hpa : (velLayout N per lx a).periodic = false := ha
  have hm : (velLayout N per lx a).nElem = (velLayout N per lx a).m - 1 := by simp [Dir.nElem, hpa]
  have hl0 : 0 < ℓ := by
    rw [← hl, ← hm]
    have := hn a
    exact mul_pos (by exact_mod_cast (by omega)) (hh a)
  have hmem : (fun _ => 0 : Pos 3 ℤ) ∈ gridNodes (velLayout N per lx) := by
    rw [mem_gridNodes]
    intro i
    have := hn i
    simp only [Dir.nElem] at this
    split_ifs at this <;> omega
  exact stability3 N per lx hne hW h hh rs hrs bc ℓ hl0
    (fun c => ⟨a, hpa, hl.le, Or.inl (hb _ hmem _ ⟨a, hpa, Or.inl ⟨rfl, rfl⟩⟩ c)⟩) _
    (tensorBlock_sub _ hv _ isQ1_3 _)
    (fun w hw => (C98_bounds3 _ hv h hh w).1 (vanishes_of_held _ bc hb w hw)) src src' u u' p p' hu hu'

/-! ### The hypotheses are met -/

/-- No slip on the four walls. -/
def noSlip : BC 2 ℝ := fun _ _ => some fun _ => 0

/-- On the closed box of 5 × 5 velocity nodes on two processes, every pair of sources has its two flows and the
estimates hold with the side of the box, 4. -/
theorem C112_example (src src' : Fin 2 → Cond 2 ℝ) : ∃ u p u' p',
    Solves exD.L (presLayout ![3, 3] ![false, false] ![[2, 1], [3]])
      (stokesStrain2 ![3, 3] ![false, false] ![[2, 1], [3]] exD.rs noSlip exD.h)
      (stokesSetupRHS exD.L exD.rs src noSlip exD.h (diagBlockMult exD.L getElement2 (matElemMass2 exD.h)) 0) 0 u p ∧
    Solves exD.L (presLayout ![3, 3] ![false, false] ![[2, 1], [3]])
      (stokesStrain2 ![3, 3] ![false, false] ![[2, 1], [3]] exD.rs noSlip exD.h)
      (stokesSetupRHS exD.L exD.rs src' noSlip exD.h (diagBlockMult exD.L getElement2 (matElemMass2 exD.h)) 0) 0 u' p' ∧
    gradEnergy2 exD.L exD.h (u - u') (u - u') ≤
      8 * normSq2 exD.L exD.h (sourceVec src exD.h - sourceVec src' exD.h) ∧
    normSq2 exD.L exD.h (u - u') ≤ 64 * normSq2 exD.L exD.h (sourceVec src exD.h - sourceVec src' exD.h) := by
  have hheld : WallHeld exD.L noSlip := ⟨0, exD_corner.2, 0, ⟨0, rfl, Or.inl ⟨rfl, rfl⟩⟩, fun _ => rfl⟩
  have hsol : ∀ s : Fin 2 → Cond 2 ℝ, ∃ u p, Solves exD.L (presLayout ![3, 3] ![false, false] ![[2, 1], [3]])
      (stokesStrain2 ![3, 3] ![false, false] ![[2, 1], [3]] exD.rs noSlip exD.h)
      (stokesSetupRHS exD.L exD.rs s noSlip exD.h (diagBlockMult exD.L getElement2 (matElemMass2 exD.h)) 0) 0 u p := by
    intro s
    refine ((C94_problem2 ![3, 3] ![false, false] ![[2, 1], [3]] exD_mesh.1 exD_mesh.2.1 exD_mesh.2.2 exD.h exD_h exD.rs
      exD_procs noSlip (fun a _ => ⟨rfl, rfl⟩) getElement2 isQ1_2 (matElemMass2 exD.h) s 0 0 ?_).1 hheld).2 ?_
    · intro g _ a φ hφ
      obtain ⟨f, -, h2, -⟩ := hφ
      simp only [noSlip, Option.some.injEq] at h2
      rw [← h2]
      rfl
    · unfold wallFlux
      simp
  obtain ⟨u, p, h1⟩ := hsol src
  obtain ⟨u', p', h2⟩ := hsol src'
  have h3 := C112_strain2 ![3, 3] ![false, false] ![[2, 1], [3]] exD_mesh.1 exD_mesh.2.1 exD_mesh.2.2.1 exD.h exD_h exD.rs
    exD_procs noSlip (fun _ _ _ _ _ => rfl) 0 rfl 4 (by
      simp [exD, velLayout, velDir, meshVel]) src src' u u' p p' h1 h2
  norm_num at h3
  exact ⟨u, p, u', p', h1, h2, h3.1, h3.2⟩

end Cafes.Props
