import Verif.Spec.Box
import Verif.Lemmas.Iterate
import Mathlib.Data.Set.Lattice
import Mathlib.Order.Bounds.Basic
import Mathlib.Data.Fintype.BigOperators
import Mathlib.Algebra.BigOperators.Group.List.Basic

namespace Cafes
variable {d : ℕ} {T : Type*}

theorem Box.intersect_iff [LinearOrder T] (b1 b2 : Box d T) :
    b1.intersect b2 = true ↔ ∀ i, b1.bl i ≤ b2.ur i ∧ b2.bl i ≤ b1.ur i := by
  simp [Box.intersect]

theorem Box.pointInside_iff [LinearOrder T] (b : Box d T) (p : Pos d T) :
    b.pointInside p = true ↔ p ∈ b.halfOpen := by
  simp [Box.pointInside, Box.halfOpen]

theorem Box.boxInside_eq [LinearOrder T] (b1 b2 : Box d T) :
    b1.boxInside b2 = b1.overlap b2 := by
  unfold Box.boxInside Box.overlap
  congr 1 <;> funext i
  · split_ifs with h
    · exact (max_eq_right h.le).symm
    · exact (max_eq_left (not_lt.mp h)).symm
  · split_ifs with h
    · exact (min_eq_right h.le).symm
    · exact (min_eq_left (not_lt.mp h)).symm

private theorem foldl_count_mono {α : Type*} (l : List α) (p q : α → Prop) [DecidablePred p]
    [DecidablePred q] (c : ℕ) :
    l.foldl (fun c i => let c := if p i then c + 1 else c; if q i then c + 1 else c) c
      = c + (l.map fun i => (if p i then 1 else 0) + (if q i then 1 else 0)).sum := by
  induction l generalizing c with
  | nil => simp
  | cons a l ih => simp only [List.foldl_cons, List.map_cons, List.sum_cons, ih]; split_ifs <;> omega

theorem Box.checkBoxInside_iff [LinearOrder T] (b1 b2 : Box d T) :
    b1.checkBoxInside b2 = true ↔
      ∃ i, (b1.bl i ≤ b2.bl i ∧ b2.bl i ≤ b1.ur i) ∨ (b1.bl i ≤ b2.ur i ∧ b2.ur i ≤ b1.ur i) := by
  unfold Box.checkBoxInside
  simp only [decide_eq_true_eq]
  rw [foldl_count_mono, Nat.zero_add, Nat.pos_iff_ne_zero, ne_eq, List.sum_eq_zero_iff_forall_eq_nat]
  simp only [List.mem_map, List.mem_finRange, true_and, forall_exists_index,
    forall_apply_eq_imp_iff, not_forall]
  refine exists_congr fun i => ?_
  split_ifs <;> simp_all

end Cafes
