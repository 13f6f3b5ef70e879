/-
Property theorems for the source term of the singular fields and their addition to the solution: C80, C81.
-/
import Verif.Props.PairLoop
import Verif.Props.Spread
import Verif.Props.FE

namespace Cafes.Props
open Cafes Cafes.Geometry Cafes.Particle Cafes.Sing Cafes.AddSing

variable {d N : ℕ}

/-! ### C80: the source term of the singular fields -/

/-- The point number `ps` of the cell `e`, the cells being cut in `m` in each direction, and its position in the
cell. -/
noncomputable def subPt (h : Pos d ℝ) (m : ℕ) (e ps : Pos d ℤ) : Pos d ℝ := fun i => e i * h i + ps i * (h i / m)
/-- See `subPt`. -/
noncomputable def subLoc (h : Pos d ℝ) (m : ℕ) (ps : Pos d ℤ) : Pos d ℝ := fun i => ps i * (h i / m)

/-- The cell `e` is in the box of the pair. -/
def inBox (q : Pair d) (e : Pos d ℤ) : Prop := ∀ i, q.box.bl i ≤ e i ∧ e i < q.box.ur i

instance (q : Pair d) (e : Pos d ℤ) : Decidable (inBox q e) := by unfold inBox; infer_instance

/-- The contribution of the loops over the points of one cell for a kernel scattering `w` to the nodes of the
cell. -/
noncomputable def cellSum (m : ℕ) (h : Pos d ℝ) (w : Pair d → Pos d ℝ → Pos d ℝ → Fin N → Fin d → ℝ)
    (q : Pair d) (e : Pos d ℤ) (k : Fin N) (c : Fin d) : ℝ :=
  ∑ ps ∈ offs d m, if q.wet (subPt h m e ps) then w q (subLoc h m ps) (subPt h m e ps) k c else 0

theorem subLoop_apply (m : ℕ) (h : Pos d ℝ) (q : Pair d) (b : Box d ℤ)
    (elem : Pos d ℤ → Fin N → Pos d ℤ) (w : Pair d → Pos d ℝ → Pos d ℝ → Fin N → Fin d → ℝ)
    (kernel : Pos d ℤ → Pos d ℝ → Pos d ℝ → NodeVec d d ℝ → NodeVec d d ℝ)
    (hk : ∀ pos loc pts u p c, kernel pos loc pts u p c = u p c + ∑ k, if p = elem pos k then w q loc pts k c else 0)
    (u : NodeVec d d ℝ) (p : Pos d ℤ) (c : Fin d) :
    subLoop m h q.wet b kernel u p c = u p c + ∑ e ∈ b.visited.toFinset,
      ∑ k, if p = elem e k then cellSum m h w q e k c else 0 := by
  unfold subLoop
  refine iterate_add_eval b _ (fun u : NodeVec d d ℝ => u p c) _ (fun e u => ?_) u
  refine (iterate_add_eval _ _ (fun u : NodeVec d d ℝ => u p c) (fun ps => if q.wet (subPt h m e ps) then
    ∑ k, if p = elem e k then w q (subLoc h m ps) (subPt h m e ps) k c else 0 else 0) (fun ps u => ?_) u).trans ?_
  · change (if q.wet (subPt h m e ps) = true then kernel e (subLoc h m ps) (subPt h m e ps) u else u) p c = _
    split_ifs with hw
    · rw [hk]
    · rw [add_zero]
  · congr 1
    rw [visited_offs]
    unfold cellSum
    have : ∀ ps, (if q.wet (subPt h m e ps) then
        ∑ k, if p = elem e k then w q (subLoc h m ps) (subPt h m e ps) k c else 0 else 0) =
        ∑ k, if p = elem e k then
          (if q.wet (subPt h m e ps) then w q (subLoc h m ps) (subPt h m e ps) k c else 0) else 0 := by
      intro ps
      split_ifs <;> simp
    simp only [this]
    rw [Finset.sum_comm]
    refine Finset.sum_congr rfl fun k _ => ?_
    split_ifs <;> simp

theorem pairsLoop_apply (m : ℕ) (h : Pos d ℝ) (b : Box d ℤ) (pairs : List (Pair d))
    (elem : Pos d ℤ → Fin N → Pos d ℤ) (w : Pair d → Pos d ℝ → Pos d ℝ → Fin N → Fin d → ℝ)
    (kernel : Pair d → Pos d ℤ → Pos d ℝ → Pos d ℝ → NodeVec d d ℝ → NodeVec d d ℝ)
    (hk : ∀ q pos loc pts u p c, kernel q pos loc pts u p c = u p c + ∑ k, if p = elem pos k then w q loc pts k c else 0)
    (u : NodeVec d d ℝ) (p : Pos d ℤ) (c : Fin d) :
    pairsLoop m h b kernel pairs u p c = u p c + ∑ e ∈ b.visited.toFinset,
      ∑ k, if p = elem e k then
        (pairs.map fun q => if inBox q e then cellSum m h w q e k c else 0).sum else 0 := by
  unfold pairsLoop
  refine (foldl_add_eval pairs _ (fun u : NodeVec d d ℝ => u p c) (fun q => ∑ e ∈ b.visited.toFinset,
      ∑ k, if p = elem e k then (if inBox q e then cellSum m h w q e k c else 0) else 0)
      (fun u q => ?_) u).trans ?_
  · by_cases hi : b.intersect q.box
    · simp only [hi, if_true]
      rw [subLoop_apply m h q _ elem w (kernel q) (hk q)]
      congr 1
      have hsub : ((b.boxInside q.box).visited.toFinset) = b.visited.toFinset.filter (fun e => inBox q e) := by
        ext e
        rw [Finset.mem_filter, mem_visited_toFinset, mem_visited_toFinset, mem_boxInside]
        rfl
      rw [hsub, Finset.sum_filter]
      refine Finset.sum_congr rfl fun e _ => ?_
      by_cases he : inBox q e
      · simp only [he, if_true]
      · simp [he]
    · simp only [hi]
      rw [Finset.sum_eq_zero, add_zero]
      · rfl
      intro e he
      rw [mem_visited_toFinset] at he
      have hne : ¬ inBox q e := by
        intro hq
        apply hi
        rw [Box.intersect_iff]
        intro i
        have h1 := he i
        have h2 := hq i
        omega
      simp [hne]
  · congr 1
    rw [← sum_list_comm]
    refine Finset.sum_congr rfl fun e _ => ?_
    rw [← sum_list_comm]
    refine Finset.sum_congr rfl fun k _ => ?_
    split_ifs
    · rfl
    · simp

theorem stKernel_apply (bfg : Pos d ℝ → Fin N → Pos d ℝ) (elem : Pos d ℤ → Fin N → Pos d ℤ) (co : ℝ)
    (q : Pair d) (pos : Pos d ℤ) (loc pts : Pos d ℝ) (u : NodeVec d d ℝ) (p : Pos d ℤ) (c : Fin d) :
    stKernel bfg elem co q pos loc pts u p c = u p c + ∑ k, if p = elem pos k then
      co * (q.P pts * bfg loc k c - ∑ b, q.G pts c b * bfg loc k b) else 0 := by
  unfold stKernel
  refine foldl_finRange_eval _ (fun u : NodeVec d d ℝ => u p c) _ (fun u k => ?_) u
  refine (foldl_finRange_eval _ (fun u : NodeVec d d ℝ => u p c)
    (fun a => if p = elem pos k ∧ c = a then
      co * (q.P pts * bfg loc k a - ∑ b, q.G pts a b * bfg loc k b) else 0) (fun u a => ?_) u).trans ?_
  · rw [addAt_apply]
    rw [foldl_finRange_eval _ (fun u : NodeVec d d ℝ => u p c)
      (fun b => if p = elem pos k ∧ c = a then -(co * q.G pts a b * bfg loc k b) else 0)
      (fun u b => addAt_apply _ _ _ _ _ _) u]
    by_cases hp : p = elem pos k ∧ c = a
    · simp only [hp, if_true, and_self, Finset.sum_neg_distrib, mul_sub, Finset.mul_sum]
      rw [add_assoc]
      congr 1
      rw [add_comm, ← sub_eq_add_neg]
      congr 1
      · ring
      · refine Finset.sum_congr rfl fun b _ => ?_
        ring
    · simp only [hp, if_false, Finset.sum_const_zero, add_zero]
  · by_cases hp : p = elem pos k <;> simp [hp]

theorem addKernel_apply (bf : Pos d ℝ → Fin N → ℝ) (elem : Pos d ℤ → Fin N → Pos d ℤ) (co : ℝ)
    (q : Pair d) (pos : Pos d ℤ) (loc pts : Pos d ℝ) (u : NodeVec d d ℝ) (p : Pos d ℤ) (c : Fin d) :
    addKernel bf elem co q pos loc pts u p c = u p c + ∑ k, if p = elem pos k then
      co * q.U pts c * bf loc k else 0 := by
  unfold addKernel
  refine foldl_finRange_eval _ (fun u : NodeVec d d ℝ => u p c) _ (fun u k => ?_) u
  refine (foldl_finRange_eval _ (fun u : NodeVec d d ℝ => u p c)
    (fun a => if p = elem pos k ∧ c = a then co * q.U pts a * bf loc k else 0)
    (fun u a => addAt_apply _ _ _ _ _ _) u).trans ?_
  by_cases hp : p = elem pos k <;> simp [hp]

/-- The weights of `computesingularST`. -/
noncomputable def stWeight (bfg : Pos d ℝ → Fin N → Pos d ℝ) (m : ℕ) (q : Pair d) (loc pts : Pos d ℝ) (k : Fin N)
    (c : Fin d) : ℝ := coef d m * (q.P pts * bfg loc k c - ∑ b, q.G pts c b * bfg loc k b)

/-- `add_singularity_in_fluid` node by node, as a sum over the elements of the grid. -/
theorem addInFluid_global (L : Fin d → Dir) (hL : ∀ i, (L i).WF) (bfg : Pos d ℝ → Fin N → Pos d ℝ)
    (elem : Pos d ℤ → Fin N → Pos d ℤ) (hel : IsQ1 elem) (m : ℕ) (h : Pos d ℝ) (pairs : List (Pair d))
    (rhs : NodeVec d d ℝ) (g : Pos d ℤ) (c : Fin d) :
    addInFluid L bfg elem m h pairs rhs g c = rhs g c + ∑ e ∈ gridElems L, ∑ k,
      if wrap L (elem e k) = g then
        (pairs.map fun q => if inBox q e then cellSum m h (stWeight bfg m) q e k c else 0).sum else 0 := by
  have ha : ∀ (r : Fin d → ℕ) (_ : NodeVec d d ℝ) (p : Pos d ℤ) (c : Fin d),
      pairsLoop m h (getDMBounds L r true) (stKernel bfg elem (coef d m)) pairs 0 p c =
      ∑ e ∈ (getDMBounds L r true).visited.toFinset, ∑ k, if p = elem e k then
        (pairs.map fun q => if inBox q e then cellSum m h (stWeight bfg m) q e k c else 0).sum else 0 := by
    intro r _ p c
    have := pairsLoop_apply m h (getDMBounds L r true) pairs elem (stWeight bfg m) (stKernel bfg elem (coef d m))
      (fun q pos loc pts u p c => by rw [stKernel_apply]; rfl) 0 p c
    rw [this]
    exact zero_add _
  have hb : addInFluid L bfg elem m h pairs rhs g c = rhs g c +
      blockMatrix L (fun r _ u => pairsLoop m h (getDMBounds L r true) (stKernel bfg elem (coef d m)) pairs u)
        (0 : NodeVec d d ℝ) g c := by
    unfold addInFluid blockMatrix localToGlobalAdd
    rw [Pi.zero_apply, Pi.zero_apply, zero_add]
  rw [hb]
  congr 1
  exact blockMatrix_global L hL elem hel _
    (fun _ e k c => (pairs.map fun q => if inBox q e then cellSum m h (stWeight bfg m) q e k c else 0).sum)
    ha 0 g c

/-- C80 (decomposition): the source term does not depend on the distribution of the grid between the
processes. -/
theorem C80_decomposition (L L' : Fin d → Dir) (hL : ∀ i, (L i).WF) (hL' : ∀ i, (L' i).WF) (hs : SameGrid L L')
    (bfg : Pos d ℝ → Fin N → Pos d ℝ) (elem : Pos d ℤ → Fin N → Pos d ℤ) (hel : IsQ1 elem) (m : ℕ) (h : Pos d ℝ)
    (pairs : List (Pair d)) (rhs : NodeVec d d ℝ) :
    addInFluid L bfg elem m h pairs rhs = addInFluid L' bfg elem m h pairs rhs := by
  have he : gridElems L = gridElems L' := by
    unfold gridElems Dir.nElem
    congr 1; funext i
    rw [(hs i).1, (hs i).2]
  have hw : wrap L = wrap L' := by
    funext p i
    unfold wrap
    rw [(hs i).1, (hs i).2]
  funext g c
  rw [addInFluid_global L hL bfg elem hel, addInFluid_global L' hL' bfg elem hel, he, hw]

/-- The points where the pair `q` contributes: the cells of the grid in its box, cut in `m^d`, and the points of
the cells that pass its test. -/
noncomputable def wetPoints (L : Fin d → Dir) (h : Pos d ℝ) (m : ℕ) (q : Pair d) : Finset (Pos d ℤ × Pos d ℤ) :=
  (gridElems L ×ˢ offs d m).filter fun x => inBox q x.1 ∧ q.wet (subPt h m x.1 x.2) = true

private theorem weak_form (L : Fin d → Dir) (hL : ∀ i, (L i).WF) (bfg : Pos d ℝ → Fin N → Pos d ℝ)
    (elem : Pos d ℤ → Fin N → Pos d ℤ) (hel : IsQ1 elem) (m : ℕ) (h : Pos d ℝ) (pairs : List (Pair d))
    (rhs v : NodeVec d d ℝ) (D : Pos d ℤ → Pos d ℝ → Fin d → Fin d → ℝ) (V : ℝ)
    (hD : ∀ e loc a b, ∑ k, v (wrap L (elem e k)) a * bfg loc k b = V * D e loc a b) :
    Cafes.dot L v (addInFluid L bfg elem m h pairs rhs) = Cafes.dot L v rhs +
      (pairs.map fun q => ∑ x ∈ wetPoints L h m q, V / (m : ℝ) ^ d *
        (q.P (subPt h m x.1 x.2) * ∑ a, D x.1 (subLoc h m x.2) a a
          - ∑ a, ∑ b, q.G (subPt h m x.1 x.2) a b * D x.1 (subLoc h m x.2) a b)).sum := by
  have hsplit : Cafes.dot L v (addInFluid L bfg elem m h pairs rhs) = Cafes.dot L v rhs +
      Cafes.dot L v (addInFluid L bfg elem m h pairs 0) := by
    unfold Cafes.dot
    rw [← Finset.sum_add_distrib]
    refine Finset.sum_congr rfl fun g _ => ?_
    rw [← Finset.sum_add_distrib]
    refine Finset.sum_congr rfl fun c _ => ?_
    rw [addInFluid_global L hL bfg elem hel, addInFluid_global L hL bfg elem hel]
    simp only [Pi.zero_apply, zero_add]
    ring
  rw [hsplit]
  congr 1
  rw [dot_scatter L L elem (fun e he k => wrap_q1_mem L elem hel e he k)
    (fun e k c => (pairs.map fun q => if inBox q e then cellSum m h (stWeight bfg m) q e k c else 0).sum)
    v _ (fun g _ c => by
      rw [addInFluid_global L hL bfg elem hel]
      simp)]
  have hmul : ∀ (l : List (Pair d)) (f : Pair d → ℝ) (a : ℝ), a * (l.map f).sum = (l.map fun q => a * f q).sum := by
    intro l f a
    rw [mul_comm, list_sum_mul]
    congr 1
    apply List.map_congr_left
    intro q _
    ring
  simp only [hmul, sum_list_comm]
  congr 1
  apply List.map_congr_left
  intro q _
  unfold wetPoints
  rw [Finset.sum_filter, Finset.sum_product]
  refine Finset.sum_congr rfl fun e _ => ?_
  by_cases he : inBox q e
  · simp only [he, if_true, true_and]
    unfold cellSum
    conv_lhs =>
      simp only [Finset.mul_sum]
      enter [2, k]
      rw [Finset.sum_comm]
    rw [Finset.sum_comm]
    refine Finset.sum_congr rfl fun ps _ => ?_
    by_cases hw : q.wet (subPt h m e ps) = true
    · simp only [hw, if_true]
      set P := q.P (subPt h m e ps)
      set G := q.G (subPt h m e ps)
      have e1 : ∀ k (c : Fin d), v (wrap L (elem e k)) c * stWeight bfg m q (subLoc h m ps) (subPt h m e ps) k c =
          coef d m * (P * (v (wrap L (elem e k)) c * bfg (subLoc h m ps) k c)
            - ∑ b, G c b * (v (wrap L (elem e k)) c * bfg (subLoc h m ps) k b)) := by
        intro k c
        unfold stWeight
        rw [mul_sub, mul_sub, mul_sub, Finset.mul_sum, Finset.mul_sum, Finset.mul_sum]
        congr 1
        · ring
        · refine Finset.sum_congr rfl fun b _ => ?_
          ring
      simp only [e1]
      rw [Finset.sum_comm]
      simp only [← Finset.mul_sum, Finset.sum_sub_distrib]
      have e2 : ∀ c : Fin d, ∑ k, ∑ b, G c b * (v (wrap L (elem e k)) c * bfg (subLoc h m ps) k b) =
          ∑ b, G c b * (V * D e (subLoc h m ps) c b) := by
        intro c
        rw [Finset.sum_comm]
        refine Finset.sum_congr rfl fun b _ => ?_
        rw [← Finset.mul_sum, hD]
      simp only [e2, hD]
      unfold coef
      rw [show V / (m : ℝ) ^ d = 1 / (m : ℝ) ^ d * V by ring, mul_assoc]
      congr 1
      rw [mul_sub]
      congr 1
      · simp only [Finset.mul_sum]
        refine Finset.sum_congr rfl fun a _ => ?_
        ring
      · simp only [Finset.mul_sum]
        refine Finset.sum_congr rfl fun a _ => ?_
        refine Finset.sum_congr rfl fun b _ => ?_
        ring
    · simp [hw]
  · simp [he]

/-- Gradient of the finite element field of nodal values `v` at the position `loc` of the cell `e`, 2D: entry
`a b` is the derivative in direction `b` of the component `a`. -/
noncomputable def fieldGrad2 (L : Fin 2 → Dir) (h : Pos 2 ℝ) (v : NodeVec 2 2 ℝ) (e : Pos 2 ℤ) (loc : Pos 2 ℝ)
    (a b : Fin 2) : ℝ :=
  deriv (fun t => ∑ k, v (wrap L (getElement2 e k)) a * p1Integration2 (Function.update loc b t) h k) (loc b)

/-- Gradient of the finite element field, 3D. -/
noncomputable def fieldGrad3 (L : Fin 3 → Dir) (h : Pos 3 ℝ) (v : NodeVec 3 3 ℝ) (e : Pos 3 ℤ) (loc : Pos 3 ℝ)
    (a b : Fin 3) : ℝ :=
  deriv (fun t => ∑ k, v (wrap L (getElement3 e k)) a * p1Integration3 (Function.update loc b t) h k) (loc b)

/-- C80 (2D): against every finite element velocity `v`, the source added by `add_singularity_in_fluid` is the
quadrature, over the sub-cells of the wet part of the zone of each pair, of `p div v - grad u : grad v`, `u` and
`p` being the singular velocity and pressure: each sub-cell has weight its measure `h0 h1 / scale^2`. -/
theorem C80_weak_form2 (L : Fin 2 → Dir) (hL : ∀ i, (L i).WF) (h : Pos 2 ℝ) (hh : ∀ i, 0 < h i) (scale : ℕ)
    (pairs : List (Pair 2)) (rhs v : NodeVec 2 2 ℝ) :
    Cafes.dot L v (addInFluid L (fun x => p1IntegrationGrad2 x h) getElement2 scale h pairs rhs) =
      Cafes.dot L v rhs + (pairs.map fun q => ∑ x ∈ wetPoints L h scale q, h 0 * h 1 / (scale : ℝ) ^ 2 *
        (q.P (subPt h scale x.1 x.2) * ∑ a, fieldGrad2 L h v x.1 (subLoc h scale x.2) a a
          - ∑ a, ∑ b, q.G (subPt h scale x.1 x.2) a b * fieldGrad2 L h v x.1 (subLoc h scale x.2) a b)).sum := by
  refine weak_form L hL _ getElement2 isQ1_2 scale h pairs rhs v (fieldGrad2 L h v) (h 0 * h 1) ?_
  intro e loc a b
  have hd := (C07_grad2 h (fun c => (hh c).ne') loc).1
  have : HasDerivAt (fun t => ∑ k, v (wrap L (getElement2 e k)) a * p1Integration2 (Function.update loc b t) h k)
      (∑ k, v (wrap L (getElement2 e k)) a * (p1IntegrationGrad2 loc h k b / (h 0 * h 1))) (loc b) :=
    HasDerivAt.fun_sum fun k _ => (hd k b).const_mul _
  unfold fieldGrad2
  rw [this.deriv, Finset.mul_sum]
  refine Finset.sum_congr rfl fun k _ => ?_
  have h0 := (hh 0).ne'
  have h1 := (hh 1).ne'
  field_simp

/-- C80 (3D). -/
theorem C80_weak_form3 (L : Fin 3 → Dir) (hL : ∀ i, (L i).WF) (h : Pos 3 ℝ) (hh : ∀ i, 0 < h i) (scale : ℕ)
    (pairs : List (Pair 3)) (rhs v : NodeVec 3 3 ℝ) :
    Cafes.dot L v (addInFluid L (fun x => p1IntegrationGrad3 x h) getElement3 scale h pairs rhs) =
      Cafes.dot L v rhs + (pairs.map fun q => ∑ x ∈ wetPoints L h scale q, h 0 * h 1 * h 2 / (scale : ℝ) ^ 3 *
        (q.P (subPt h scale x.1 x.2) * ∑ a, fieldGrad3 L h v x.1 (subLoc h scale x.2) a a
          - ∑ a, ∑ b, q.G (subPt h scale x.1 x.2) a b * fieldGrad3 L h v x.1 (subLoc h scale x.2) a b)).sum := by
  refine weak_form L hL _ getElement3 isQ1_3 scale h pairs rhs v (fieldGrad3 L h v) (h 0 * h 1 * h 2) ?_
  intro e loc a b
  have hd := (C07_grad3 h (fun c => (hh c).ne') loc).1
  have : HasDerivAt (fun t => ∑ k, v (wrap L (getElement3 e k)) a * p1Integration3 (Function.update loc b t) h k)
      (∑ k, v (wrap L (getElement3 e k)) a * (p1IntegrationGrad3 loc h k b / (h 0 * h 1 * h 2))) (loc b) :=
    HasDerivAt.fun_sum fun k _ => (hd k b).const_mul _
  unfold fieldGrad3
  rw [this.deriv, Finset.mul_sum]
  refine Finset.sum_congr rfl fun k _ => ?_
  have h0 := (hh 0).ne'
  have h1 := (hh 1).ne'
  have h2 := (hh 2).ne'
  field_simp

/-- C80 (no net force): the sum of the source over the nodes is 0, component by component: the singular fields
add no net force to the fluid. -/
theorem C80_no_net_force2 (L : Fin 2 → Dir) (hL : ∀ i, (L i).WF) (h : Pos 2 ℝ) (scale : ℕ)
    (pairs : List (Pair 2)) (rhs : NodeVec 2 2 ℝ) (hh : ∀ i, 0 < h i) (c : Fin 2) :
    ∑ g ∈ gridNodes L, addInFluid L (fun x => p1IntegrationGrad2 x h) getElement2 scale h pairs rhs g c =
      ∑ g ∈ gridNodes L, rhs g c := by
  have key := weak_form L hL (fun x => p1IntegrationGrad2 x h) getElement2 isQ1_2 scale h pairs rhs
    (fun _ e => if e = c then 1 else 0) (fun _ _ _ _ => 0) (h 0 * h 1) (by
      intro e loc a b
      rw [← Finset.mul_sum, (C07_grad2 h (fun c => (hh c).ne') loc).2 b]
      simp)
  unfold Cafes.dot at key
  simpa using key

/-- C80 (no net force, 3D). -/
theorem C80_no_net_force3 (L : Fin 3 → Dir) (hL : ∀ i, (L i).WF) (h : Pos 3 ℝ) (scale : ℕ)
    (pairs : List (Pair 3)) (rhs : NodeVec 3 3 ℝ) (hh : ∀ i, 0 < h i) (c : Fin 3) :
    ∑ g ∈ gridNodes L, addInFluid L (fun x => p1IntegrationGrad3 x h) getElement3 scale h pairs rhs g c =
      ∑ g ∈ gridNodes L, rhs g c := by
  have key := weak_form L hL (fun x => p1IntegrationGrad3 x h) getElement3 isQ1_3 scale h pairs rhs
    (fun _ e => if e = c then 1 else 0) (fun _ _ _ _ => 0) (h 0 * h 1 * h 2) (by
      intro e loc a b
      rw [← Finset.mul_sum, (C07_grad3 h (fun c => (hh c).ne') loc).2 b]
      simp)
  unfold Cafes.dot at key
  simpa using key

/-! ### C81: the singular fields added to the solution -/

/-- The weights of `addsingularity`. -/
noncomputable def addWeight (bf : Pos d ℝ → Fin N → ℝ) (m : ℕ) (q : Pair d) (loc pts : Pos d ℝ) (k : Fin N)
    (c : Fin d) : ℝ := coef d m * q.U pts c * bf loc k

theorem owned_unique (L : Fin d → Dir) (hL : ∀ i, (L i).WF) (g : Pos d ℤ) (r s : Fin d → ℕ) (hr : r ∈ procs L)
    (hs : s ∈ procs L) (hgr : g ∈ (getDMBounds L r false).halfOpen) (hgs : g ∈ (getDMBounds L s false).halfOpen) :
    r = s := by
  obtain ⟨q, -, hq⟩ := (C02_nodes_partition L hL).1 g ((C02_nodes_partition L hL).2 r hr hgr)
  rw [hq r ⟨hr, hgr⟩, hq s ⟨hs, hgs⟩]

theorem wrap_owned (L : Fin d → Dir) (hL : ∀ i, (L i).WF) (r : Fin d → ℕ) (hr : r ∈ procs L) (g : Pos d ℤ)
    (hg : g ∈ (getDMBounds L r false).halfOpen) : wrap L g = g := by
  apply wrap_grid
  rw [mem_gridNodes]
  exact (C02_nodes_partition L hL).2 r hr hg

/-- C81 (what is computed): at a node of process `r`, `add_singularity_to_last_sol` adds to the solution the
contributions of the cells that process `r` owns, and only those: the contributions of the cells of the
neighbours and those behind a periodic boundary are dropped by `INSERT_VALUES`. -/
theorem C81_owner_only (L : Fin d → Dir) (hL : ∀ i, (L i).WF) (bf : Pos d ℝ → Fin N → ℝ)
    (elem : Pos d ℤ → Fin N → Pos d ℤ) (m : ℕ) (h : Pos d ℝ) (pairs : List (Pair d)) (x : NodeVec d d ℝ)
    (r : Fin d → ℕ) (hr : r ∈ procs L) (g : Pos d ℤ) (hg : g ∈ (getDMBounds L r false).halfOpen) (c : Fin d) :
    addToLastSol L bf elem m h pairs x g c = x g c + ∑ e ∈ (getDMBounds L r true).visited.toFinset,
      ∑ k, if g = elem e k then
        (pairs.map fun q => if inBox q e then cellSum m h (addWeight bf m) q e k c else 0).sum else 0 := by
  unfold addToLastSol localToGlobalInsert
  rw [Finset.sum_eq_single r]
  · rw [if_pos ((Box.pointInside_iff _ _).2 hg)]
    beta_reduce
    rw [pairsLoop_apply m h (getDMBounds L r true) pairs elem (addWeight bf m) (addKernel bf elem (coef d m))
      (fun q pos loc pts u p c => by rw [addKernel_apply]; rfl)]
    congr 1
    unfold globalToLocal
    rw [wrap_owned L hL r hr g hg]
  · intro s hs hsr
    rw [if_neg]
    intro hin
    rw [Box.pointInside_iff] at hin
    exact hsr (owned_unique L hL g s r hs hr hin hg)
  · intro hn
    exact absurd hr hn

/-- C81, where it is right: at a node whose neighbouring cells all belong to the process of the node, the sum is
over all the cells of the grid, as a sum over the processes would give. For the other nodes see
`C81_owner_only` and `C81_refuted`. -/
theorem C81_interior (L : Fin d → Dir) (hL : ∀ i, (L i).WF) (bf : Pos d ℝ → Fin N → ℝ)
    (elem : Pos d ℤ → Fin N → Pos d ℤ) (m : ℕ) (h : Pos d ℝ) (pairs : List (Pair d)) (x : NodeVec d d ℝ)
    (r : Fin d → ℕ) (hr : r ∈ procs L) (g : Pos d ℤ) (hg : g ∈ (getDMBounds L r false).halfOpen)
    (hin : ∀ e ∈ gridElems L, ∀ k, wrap L (elem e k) = g →
      elem e k = g ∧ e ∈ (getDMBounds L r true).halfOpen) (c : Fin d) :
    addToLastSol L bf elem m h pairs x g c = x g c + ∑ e ∈ gridElems L, ∑ k, if wrap L (elem e k) = g then
        (pairs.map fun q => if inBox q e then cellSum m h (addWeight bf m) q e k c else 0).sum else 0 := by
  rw [C81_owner_only L hL bf elem m h pairs x r hr g hg]
  congr 1
  have hsub : (getDMBounds L r true).visited.toFinset ⊆ gridElems L := by
    intro e he
    rw [mem_visited_toFinset] at he
    rw [mem_gridElems]
    exact (C02_elements_partition L hL).2 r hr he
  symm
  rw [← Finset.sum_subset hsub]
  · refine Finset.sum_congr rfl fun e he => Finset.sum_congr rfl fun k _ => ?_
    congr 1
    apply propext
    constructor
    · intro hw
      exact (hin e (hsub he) k hw).1.symm
    · intro hge
      rw [← hge]
      exact wrap_owned L hL r hr g hg
  · intro e he hne
    refine Finset.sum_eq_zero fun k _ => ?_
    rw [if_neg]
    intro hw
    exact hne ((mem_visited_toFinset _ _).2 (hin e he k hw).2)

/-- C81 (average): at a node surrounded by cells of its process, all inside the box of the only pair and all
wet, what is added is an average of the singular velocity over the points of these cells: a uniform velocity is
added as such. -/
theorem C81_average (L : Fin d → Dir) (hL : ∀ i, (L i).WF) (bf : Pos d ℝ → Fin N → ℝ)
    (hbf : ∀ y, ∑ k, bf y k = 1) (off : Fin N → Pos d ℤ) (m : ℕ) (hm : 0 < m)
    (h : Pos d ℝ) (q : Pair d) (x : NodeVec d d ℝ) (r : Fin d → ℕ) (hr : r ∈ procs L) (g : Pos d ℤ)
    (hg : g ∈ (getDMBounds L r false).halfOpen)
    (hown : ∀ k, g - off k ∈ (getDMBounds L r true).halfOpen) (hbox : ∀ k, inBox q (g - off k))
    (hwet : ∀ k, ∀ ps ∈ offs d m, q.wet (subPt h m (g - off k) ps) = true) (u0 : Pos d ℝ)
    (hU : ∀ k, ∀ ps ∈ offs d m, q.U (subPt h m (g - off k) ps) = u0) (c : Fin d) :
    addToLastSol L bf (fun e k => e + off k) m h [q] x g c = x g c + u0 c := by
  rw [C81_owner_only L hL bf _ m h [q] x r hr g hg]
  congr 1
  rw [Finset.sum_comm]
  have hcard : ((offs d m).card : ℝ) = (m : ℝ) ^ d := by
    unfold offs
    rw [Fintype.card_piFinset]
    simp
  have e1 : ∀ k, (∑ e ∈ (getDMBounds L r true).visited.toFinset, if g = e + off k then
      ([q].map fun q => if inBox q e then cellSum m h (addWeight bf m) q e k c else 0).sum else 0) =
      ∑ ps ∈ offs d m, coef d m * u0 c * bf (subLoc h m ps) k := by
    intro k
    rw [Finset.sum_eq_single (g - off k)]
    · rw [if_pos (by abel)]
      simp only [List.map_cons, List.map_nil, List.sum_cons, List.sum_nil, add_zero, hbox k, if_true]
      unfold cellSum
      refine Finset.sum_congr rfl fun ps hps => ?_
      rw [if_pos (hwet k ps hps)]
      unfold addWeight
      rw [hU k ps hps]
    · intro e _ hne
      rw [if_neg]
      intro he
      apply hne
      rw [he]; abel
    · intro hn
      exact absurd ((mem_visited_toFinset _ _).2 (hown k)) hn
  simp only [e1]
  rw [Finset.sum_comm]
  simp only [← Finset.mul_sum, hbf, mul_one]
  rw [Finset.sum_const, nsmul_eq_mul, hcard]
  unfold coef
  have : (m : ℝ) ^ d ≠ 0 := by positivity
  field_simp

/-- A pair whose zone is everything, with a uniform singular velocity, used in the examples. -/
noncomputable def exPair : Pair 2 := ⟨⟨fun _ => -10, fun _ => 10⟩, fun _ => true, fun _ _ => 1, fun _ _ _ => 0, fun _ => 0⟩

/-- The grid of 3 × 2 nodes on one process and on two. -/
def exOne : Fin 2 → Dir := ![⟨3, false, [3]⟩, ⟨2, false, [2]⟩]
/-- See `exOne`. -/
def exTwo : Fin 2 → Dir := ![⟨3, false, [1, 2]⟩, ⟨2, false, [2]⟩]

theorem exOne_wf : ∀ i, (exOne i).WF := by
  intro i; fin_cases i
  · exact ⟨by decide, by decide⟩
  · exact ⟨by decide, by decide⟩
theorem exTwo_wf : ∀ i, (exTwo i).WF := by
  intro i; fin_cases i
  · exact ⟨by decide, by decide⟩
  · exact ⟨by decide, by decide⟩

/-- C81 is refuted: on the same grid, the same pair adds to the node `(1, 0)` of a null solution different values
with one process and with two, because the contribution of the cell `(0, 0)` is computed by the process that
does not own the node and is dropped. -/
theorem C81_refuted : SameGrid exOne exTwo ∧
    addToLastSol exOne (fun x => p1Integration2 x (fun _ => 1)) getElement2 2 (fun _ => 1) [exPair] 0 ![1, 0] 0 ≠
      addToLastSol exTwo (fun x => p1Integration2 x (fun _ => 1)) getElement2 2 (fun _ => 1) [exPair] 0 ![1, 0] 0 := by
  refine ⟨by intro i; fin_cases i <;> simp [exOne, exTwo], ?_⟩
  rw [C81_owner_only exOne exOne_wf _ _ _ _ _ _ ![0, 0] (by
      rw [mem_procs]; intro i; fin_cases i <;> simp [exOne]) _ (by
      intro i; fin_cases i <;> simp [getDMBounds, exOne, Dir.xs, Dir.xm]),
    C81_owner_only exTwo exTwo_wf _ _ _ _ _ _ ![1, 0] (by
      rw [mem_procs]; intro i; fin_cases i <;> simp [exTwo]) _ (by
      intro i; fin_cases i <;> simp [getDMBounds, exTwo, Dir.xs, Dir.xm])]
  have v1 : (getDMBounds exOne ![0, 0] true).visited.toFinset = {![0, 0], ![1, 0]} := by
    decide +kernel
  have v2 : (getDMBounds exTwo ![1, 0] true).visited.toFinset = {![1, 0]} := by
    decide +kernel
  rw [v1, v2, Finset.sum_pair (by decide), Finset.sum_singleton]
  intro hcon
  have h0 := add_eq_right.1 (add_left_cancel hcon)
  rw [Finset.sum_eq_single 1 (fun k _ hk => if_neg (by revert k; decide)) (by simp), if_pos (by decide)] at h0
  have ho : offs 2 2 = {![0, 0], ![0, 1], ![1, 0], ![1, 1]} := by decide +kernel
  have hb : inBox exPair ![0, 0] := by decide +kernel
  simp only [List.map_cons, List.map_nil, List.sum_cons, List.sum_nil, add_zero, hb, if_true] at h0
  unfold cellSum at h0
  have hw : ∀ x, exPair.wet x = true := fun _ => rfl
  simp only [hw, if_true] at h0
  rw [ho, Finset.sum_insert (by decide), Finset.sum_insert (by decide), Finset.sum_pair (by decide)] at h0
  have hv : ∀ ps : Pos 2 ℤ, addWeight (fun x => p1Integration2 x (fun _ => (1 : ℝ))) 2 exPair
      (subLoc (fun _ => 1) 2 ps) (subPt (fun _ => 1) 2 ![0, 0] ps) 1 0 =
      1 / 4 * ((ps 0 / 2) * (1 - ps 1 / 2) : ℝ) := by
    intro ps
    simp [addWeight, coef, exPair, p1Integration2, subLoc]
    ring
  rw [hv, hv, hv, hv] at h0
  norm_num at h0

/-- The hypotheses of `C81_average` are met: on a grid of 3 × 3 nodes on one process, at the node `(1, 1)`. -/
example : addToLastSol ![⟨3, false, [3]⟩, ⟨3, false, [3]⟩] (fun x => p1Integration2 x (fun _ => 1))
    (fun e k => e + getElement2 0 k) 2 (fun _ => 1) [exPair] 0 ![1, 1] 0 = 1 := by
  rw [C81_average _ (by intro i; fin_cases i <;> exact ⟨by decide, by decide⟩) _
    ((C06_weights2 (fun _ => 1) (by intro _; norm_num)).1) _ 2 (by norm_num) _ exPair _ ![0, 0]
    (by rw [mem_procs]; intro i; fin_cases i <;> simp) _
    (by intro i; fin_cases i <;> simp [getDMBounds, Dir.xs, Dir.xm])
    (by intro k; fin_cases k <;> (intro i; fin_cases i <;> simp [getDMBounds, Dir.xs, Dir.xm, getElement2]))
    (by intro k; revert k; decide +kernel) (fun _ _ _ => rfl) (fun _ => 1) (fun _ _ _ => rfl)]
  simp

end Cafes.Props
