/-
Property theorems for the transfers between the surface of the particles and the mesh: C51, C73.
-/
import Verif.Props.Surface
import Verif.Props.Dirichlet
import Verif.Props.FE

namespace Cafes.Particle
open Cafes Cafes.Geometry Cafes.Props
variable {d N : ℕ} {A : Type*}

theorem interpPoint_apply (bf : Pos d ℝ → Fin N → ℝ) (elem : Pos d ℤ → Fin N → Pos d ℤ)
    (sol : NodeVec d d ℝ) (pt : Pos d ℤ × Pos d ℝ) (c : Fin d) :
    interpPoint bf elem sol pt c = ∑ j, sol (elem pt.1 j) c * bf pt.2 j := by
  unfold interpPoint
  refine (foldl_finRange_eval _ (fun g : Pos d ℝ => g c) (fun j => sol (elem pt.1 j) c * bf pt.2 j)
    (fun g j => ?_) _).trans (zero_add _)
  refine (foldl_finRange_eval _ (fun g : Pos d ℝ => g c)
    (fun e => if c = e then sol (elem pt.1 j) e * bf pt.2 j else 0) (fun g e => ?_) g).trans ?_
  · by_cases h : c = e
    · subst h; simp
    · simp [Function.update_of_ne h, h]
  · simp

theorem spreadPoint_apply (bf : Pos d ℝ → Fin N → ℝ) (elem : Pos d ℤ → Fin N → Pos d ℤ) (gammak : ℝ)
    (g : Pos d ℝ) (pt : Pos d ℤ × Pos d ℝ) (u : NodeVec d d ℝ) (q : Pos d ℤ) (e : Fin d) :
    spreadPoint bf elem gammak g pt u q e =
      u q e + ∑ j, if q = elem pt.1 j then g e * bf pt.2 j * gammak else 0 := by
  unfold spreadPoint
  refine foldl_finRange_eval _ (fun u : NodeVec d d ℝ => u q e) _ (fun u j => ?_) u
  refine (foldl_finRange_eval _ (fun u : NodeVec d d ℝ => u q e)
    (fun c => if q = elem pt.1 j ∧ e = c then g c * bf pt.2 j * gammak else 0)
    (fun u c => addAt_apply _ _ _ _ _ _) u).trans ?_
  by_cases hq : q = elem pt.1 j <;> simp [hq]

theorem spreadLocal_apply (bf : Pos d ℝ → Fin N → ℝ) (elem : Pos d ℤ → Fin N → Pos d ℤ)
    (parts : List (ℝ × ℕ × List (Pos d ℝ × (Pos d ℤ × Pos d ℝ)))) (q : Pos d ℤ) (e : Fin d) :
    spreadLocal bf elem parts q e = (parts.map fun s => (s.2.2.map fun x =>
      ∑ j, if q = elem x.2.1 j then x.1 e * bf x.2.2 j * (s.1 / (s.2.1 : ℝ)) else 0).sum).sum := by
  unfold spreadLocal
  refine (foldl_add_eval parts _ (fun u : NodeVec d d ℝ => u q e) _ (fun u s => ?_) 0).trans (zero_add _)
  exact foldl_add_eval s.2.2 _ (fun u : NodeVec d d ℝ => u q e) _ (fun u x => spreadPoint_apply _ _ _ _ _ _ _ _) u

theorem sum_list_comm {α ι : Type*} (s : Finset ι) (l : List α) (f : ι → α → ℝ) :
    ∑ i ∈ s, (l.map fun x => f i x).sum = (l.map fun x => ∑ i ∈ s, f i x).sum := by
  induction l with
  | nil => simp
  | cons a l ih => simp only [List.map_cons, List.sum_cons, Finset.sum_add_distrib, ih]

theorem list_sum_mul {α : Type*} (l : List α) (f : α → ℝ) (a : ℝ) :
    (l.map f).sum * a = (l.map fun x => f x * a).sum := by
  induction l with
  | nil => simp
  | cons b l ih => simp only [List.map_cons, List.sum_cons, add_mul, ih]

/-- The surface product of two surface fields of the particles of all the processes, with the surface weights
`area / nb` of `SL_to_Rhs`. -/
noncomputable def surfaceProduct (L : Fin d → Dir)
    (parts : (Fin d → ℕ) → List (ℝ × ℕ × List (Pos d ℝ × (Pos d ℤ × Pos d ℝ))))
    (v : (Fin d → ℕ) → (Pos d ℤ × Pos d ℝ) → Pos d ℝ) : ℝ :=
  ∑ r ∈ procs L, ((parts r).map fun s => s.1 / (s.2.1 : ℝ) *
    (s.2.2.map fun x => ∑ c, x.1 c * v r x.2 c).sum).sum

/-- C51: `SL_to_Rhs` (before the boundary conditions) is the transpose of the interpolation of
`interp_fluid_to_surf`, for the surface weights: for every velocity `u`,
`<spread(g), u>` on the mesh is the weighted surface product of `g` and of the interpolation of `u`. The
points held by a process are in its elements (C43, C45). -/
theorem C51_adjoint (L : Fin d → Dir) (hL : ∀ i, (L i).WF) (bf : Pos d ℝ → Fin N → ℝ)
    (elem : Pos d ℤ → Fin N → Pos d ℤ) (hel : IsQ1 elem)
    (parts : (Fin d → ℕ) → List (ℝ × ℕ × List (Pos d ℝ × (Pos d ℤ × Pos d ℝ))))
    (hpts : ∀ r ∈ procs L, ∀ s ∈ parts r, ∀ x ∈ s.2.2, x.2.1 ∈ (getDMBounds L r true).halfOpen)
    (u : NodeVec d d ℝ) :
    Cafes.dot L (slToRhs L bf elem parts) u =
      surfaceProduct L parts fun _ pt => interpPoint bf elem (globalToLocal L u) pt := by
  have hdef : ∀ g c, slToRhs L bf elem parts g c = ∑ r ∈ procs L,
      ∑ p ∈ (ghostWindow L r).visited.toFinset, if wrap L p = g then spreadLocal bf elem (parts r) p c else 0 := by
    intro g c
    exact zero_add _
  have h1 : Cafes.dot L (slToRhs L bf elem parts) u = ∑ r ∈ procs L,
      ∑ p ∈ (ghostWindow L r).visited.toFinset, ∑ c, if wrap L p ∈ gridNodes L then
        spreadLocal bf elem (parts r) p c * u (wrap L p) c else 0 := by
    unfold Cafes.dot
    simp only [hdef, Finset.sum_mul]
    rw [Finset.sum_congr rfl fun g _ => Finset.sum_comm, Finset.sum_comm]
    refine Finset.sum_congr rfl fun r _ => ?_
    rw [Finset.sum_congr rfl fun g _ => Finset.sum_comm, Finset.sum_comm]
    refine Finset.sum_congr rfl fun p _ => ?_
    rw [Finset.sum_comm]
    refine Finset.sum_congr rfl fun c _ => ?_
    simp only [ite_mul, zero_mul]
    rw [Finset.sum_ite_eq]
  rw [h1]
  unfold surfaceProduct
  refine Finset.sum_congr rfl fun r hr => ?_
  simp only [spreadLocal_apply]
  -- the sum over the window of one contribution
  have key : ∀ s ∈ parts r, ∀ x ∈ s.2.2, ∀ (j : Fin N) (F : Pos d ℤ → ℝ),
      (∑ p ∈ (ghostWindow L r).visited.toFinset, if p = elem x.2.1 j ∧ wrap L p ∈ gridNodes L then F p else 0) =
        F (elem x.2.1 j) := by
    intro s hs x hx j F
    have hb := hpts r hr s hs x hx
    have hw : elem x.2.1 j ∈ (ghostWindow L r).halfOpen := C04_q1_window L hL r hr _ hb _ (hel x.2.1 j)
    have hg : wrap L (elem x.2.1 j) ∈ gridNodes L := by
      apply wrap_q1_mem L elem hel
      rw [mem_gridElems]
      exact (C02_elements_partition L hL).2 r hr hb
    rw [Finset.sum_eq_single (elem x.2.1 j)]
    · rw [if_pos ⟨rfl, hg⟩]
    · intro p _ hp
      rw [if_neg fun h => hp h.1]
    · intro hn
      exact absurd (by rw [List.mem_toFinset, Box.mem_visited]; exact hw) hn
  have e : ∀ (p : Pos d ℤ) (c : Fin d), (if wrap L p ∈ gridNodes L then
      ((parts r).map fun s => (s.2.2.map fun x => ∑ j, if p = elem x.2.1 j then
        x.1 c * bf x.2.2 j * (s.1 / (s.2.1 : ℝ)) else 0).sum).sum * u (wrap L p) c else 0) =
      ((parts r).map fun s => (s.2.2.map fun x => ∑ j, if p = elem x.2.1 j ∧ wrap L p ∈ gridNodes L then
        x.1 c * bf x.2.2 j * (s.1 / (s.2.1 : ℝ)) * u (wrap L p) c else 0).sum).sum := by
    intro p c
    by_cases hp : wrap L p ∈ gridNodes L
    · simp only [hp, if_true, and_true, list_sum_mul, Finset.sum_mul, ite_mul, zero_mul]
    · simp [hp]
  simp only [e]
  rw [Finset.sum_comm]
  simp only [sum_list_comm]
  congr 1
  apply List.map_congr_left
  intro s hs
  rw [mul_comm, list_sum_mul]
  congr 1
  apply List.map_congr_left
  intro x hx
  rw [Finset.sum_mul]
  refine Finset.sum_congr rfl fun c _ => ?_
  rw [Finset.sum_comm]
  simp only [key s hs x hx]
  rw [interpPoint_apply, Finset.mul_sum, Finset.sum_mul]
  refine Finset.sum_congr rfl fun j _ => ?_
  simp only [globalToLocal]
  ring

/-- C51 (with the boundary conditions): after `SetNullDirichletOnRHS` the same holds for every velocity `u`
that vanishes at the constrained degrees of freedom. -/
theorem C51_adjoint_bc (L : Fin d → Dir) (hL : ∀ i, (L i).WF) (bf : Pos d ℝ → Fin N → ℝ)
    (elem : Pos d ℤ → Fin N → Pos d ℤ) (hel : IsQ1 elem)
    (parts : (Fin d → ℕ) → List (ℝ × ℕ × List (Pos d ℝ × (Pos d ℤ × Pos d ℝ))))
    (hpts : ∀ r ∈ procs L, ∀ s ∈ parts r, ∀ x ∈ s.2.2, x.2.1 ∈ (getDMBounds L r true).halfOpen)
    (rs : List (Fin d → ℕ)) (hrs : AllProcs L rs) (bc : BC d ℝ)
    (u : NodeVec d d ℝ) (hu : ∀ g c, Constrained L bc g c → u g c = 0) :
    Cafes.dot L (setNullDirichletOnRHS L rs bc (slToRhs L bf elem parts)) u =
      surfaceProduct L parts fun _ pt => interpPoint bf elem (globalToLocal L u) pt := by
  rw [← C51_adjoint L hL bf elem hel parts hpts u]
  unfold Cafes.dot
  refine Finset.sum_congr rfl fun g _ => Finset.sum_congr rfl fun c _ => ?_
  rw [C27_null L hL rs hrs]
  split_ifs with h
  · rw [hu g c h.2, mul_zero, mul_zero]
  · rfl

/-- The surface points computed by `set_materials` satisfy the hypothesis of `C51_adjoint`. -/
theorem C51_points (fluid : (Pos d ℝ → Bool) → Box d ℤ → Pos d ℝ → List (Pos d ℤ)) (L : Fin d → Dir)
    (h : Pos d ℝ) (hh : ∀ i, 0 < h i) (scale : ℕ) (p : Part d A) (r : Fin d → ℕ)
    (pt : Pos d ℤ × Pos d ℝ) (hpt : pt ∈ (setMaterials fluid L h scale p (fun _ => PartData.empty) r).surf) :
    pt.1 ∈ (getDMBounds L r true).halfOpen := by
  have : pt ∈ (partMaterials fluid (getDMBounds L r true) h scale p PartData.empty).1.surf := hpt
  rw [(partMaterials_surf fluid _ h scale p).1] at this
  exact ((mem_boxInside _ _ _).1 (C43_localised p.surface _ h hh _ this).1).1

/-! ### C73: consistency of the transfers -/

/-- C73 (total force): the sum of the spread field is the sum of the weighted surface values, component by
component: no force is lost or created by `SL_to_Rhs`. -/
theorem C73_total (L : Fin d → Dir) (hL : ∀ i, (L i).WF) (bf : Pos d ℝ → Fin N → ℝ)
    (hbf : ∀ x, ∑ j, bf x j = 1) (elem : Pos d ℤ → Fin N → Pos d ℤ) (hel : IsQ1 elem)
    (parts : (Fin d → ℕ) → List (ℝ × ℕ × List (Pos d ℝ × (Pos d ℤ × Pos d ℝ))))
    (hpts : ∀ r ∈ procs L, ∀ s ∈ parts r, ∀ x ∈ s.2.2, x.2.1 ∈ (getDMBounds L r true).halfOpen)
    (c : Fin d) :
    ∑ g ∈ gridNodes L, slToRhs L bf elem parts g c =
      ∑ r ∈ procs L, ((parts r).map fun s => s.1 / (s.2.1 : ℝ) * (s.2.2.map fun x => x.1 c).sum).sum := by
  have h := C51_adjoint L hL bf elem hel parts hpts fun _ e => if e = c then 1 else 0
  have h1 : Cafes.dot L (slToRhs L bf elem parts) (fun _ e => if e = c then 1 else 0) =
      ∑ g ∈ gridNodes L, slToRhs L bf elem parts g c := by
    unfold Cafes.dot
    refine Finset.sum_congr rfl fun g _ => ?_
    simp
  rw [← h1, h]
  unfold surfaceProduct
  refine Finset.sum_congr rfl fun r _ => ?_
  congr 1
  apply List.map_congr_left
  intro s _
  congr 2
  apply List.map_congr_left
  intro x _
  simp only [interpPoint_apply, globalToLocal]
  have : ∀ e : Fin d, (∑ j, (if e = c then (1 : ℝ) else 0) * bf x.2.2 j) = if e = c then 1 else 0 := by
    intro e
    rw [← Finset.mul_sum, hbf, mul_one]
  simp only [this]
  simp

/-- C73 (interpolation, 2D): on a mesh without periodic direction, the value interpolated at a surface point
from the nodal values of an affine velocity field is the value of the field at that point. -/
theorem C73_interp2 (L : Fin 2 → Dir) (hper : ∀ i, (L i).periodic = false) (h : Pos 2 ℝ) (hh : ∀ i, 0 < h i)
    (a : Pos 2 ℝ) (b : Fin 2 → Pos 2 ℝ) (u : NodeVec 2 2 ℝ)
    (hu : ∀ q c, u q c = a c + ∑ i, b c i * node h q i) (e : Pos 2 ℤ) (x : Pos 2 ℝ) (c : Fin 2) :
    interpPoint (fun x => p1Integration2 x h) getElement2 (globalToLocal L u) (e, fun i => x i - node h e i) c =
      a c + ∑ i, b c i * x i := by
  have hw : ∀ p, wrap L p = p := by intro p; funext i; simp [wrap, hper i]
  rw [interpPoint_apply]
  simp only [globalToLocal, hw, hu]
  have := (C08_affine2 h hh e fun i => x i - node h e i).1 (a c) (b c)
  simp only [node] at this ⊢
  rw [Finset.sum_congr rfl fun j _ => mul_comm _ _, this]
  congr 1
  refine Finset.sum_congr rfl fun i _ => ?_
  ring

/-- C73 (interpolation, 3D). -/
theorem C73_interp3 (L : Fin 3 → Dir) (hper : ∀ i, (L i).periodic = false) (h : Pos 3 ℝ) (hh : ∀ i, 0 < h i)
    (a : Pos 3 ℝ) (b : Fin 3 → Pos 3 ℝ) (u : NodeVec 3 3 ℝ)
    (hu : ∀ q c, u q c = a c + ∑ i, b c i * node h q i) (e : Pos 3 ℤ) (x : Pos 3 ℝ) (c : Fin 3) :
    interpPoint (fun x => p1Integration3 x h) getElement3 (globalToLocal L u) (e, fun i => x i - node h e i) c =
      a c + ∑ i, b c i * x i := by
  have hw : ∀ p, wrap L p = p := by intro p; funext i; simp [wrap, hper i]
  rw [interpPoint_apply]
  simp only [globalToLocal, hw, hu]
  have := (C08_affine3 h hh e fun i => x i - node h e i).1 (a c) (b c)
  simp only [node] at this ⊢
  rw [Finset.sum_congr rfl fun j _ => mul_comm _ _, this]
  congr 1
  refine Finset.sum_congr rfl fun i _ => ?_
  ring

/-- C73 (bounds): the value interpolated at a point of the cell is between the extreme nodal values of the
cell; the weights are those of the code. -/
theorem C73_bounds2 (L : Fin 2 → Dir) (h : Pos 2 ℝ) (hh : ∀ i, 0 < h i) (u : NodeVec 2 2 ℝ) (e : Pos 2 ℤ)
    (x : Pos 2 ℝ) (hx : ∀ i, 0 ≤ x i ∧ x i ≤ h i) (c : Fin 2) (lo hi : ℝ)
    (hb : ∀ k, lo ≤ u (wrap L (getElement2 e k)) c ∧ u (wrap L (getElement2 e k)) c ≤ hi) :
    lo ≤ interpPoint (fun x => p1Integration2 x h) getElement2 (globalToLocal L u) (e, x) c ∧
    interpPoint (fun x => p1Integration2 x h) getElement2 (globalToLocal L u) (e, x) c ≤ hi := by
  have := (C08_affine2 h hh e x).2 (fun k => u (wrap L (getElement2 e k)) c) lo hi hx hb
  rw [interpPoint_apply]
  simp only [globalToLocal]
  rw [Finset.sum_congr rfl fun j _ => mul_comm _ _]
  exact this

/-- The weights of the code satisfy the hypothesis of `C73_total`. -/
example (h : Pos 2 ℝ) (hh : ∀ i, 0 < h i) : ∀ x, ∑ j, (fun x => p1Integration2 x h) x j = 1 := (C06_weights2 h hh).1

/-- A surface point held by the only process of a one-process mesh satisfies the hypotheses. -/
example : ∀ r ∈ procs (![⟨4, false, [4]⟩, ⟨4, false, [4]⟩] : Fin 2 → Dir), ∀ s ∈
    [((6 : ℝ), 1, [((![1, 0] : Pos 2 ℝ), (![1, 2] : Pos 2 ℤ), (![0, 0] : Pos 2 ℝ))])], ∀ x ∈ s.2.2,
    x.2.1 ∈ (getDMBounds ![⟨4, false, [4]⟩, ⟨4, false, [4]⟩] r true).halfOpen := by
  intro r hr s hs x hx
  rw [mem_procs] at hr
  simp only [List.mem_singleton] at hs
  subst hs
  simp only [List.mem_singleton] at hx
  subst hx
  have h0 : r 0 = 0 := by have := hr 0; simp at this; exact this
  have h1 : r 1 = 0 := by have := hr 1; simp at this; exact this
  have hr0 : r = fun _ => 0 := by funext i; fin_cases i <;> assumption
  subst hr0
  have : (![1, 2] : Pos 2 ℤ) ∈ (getDMBounds ![⟨4, false, [4]⟩, ⟨4, false, [4]⟩] (fun _ => 0) true).halfOpen := by
    intro i
    revert i
    decide +kernel
  exact this

end Cafes.Particle
