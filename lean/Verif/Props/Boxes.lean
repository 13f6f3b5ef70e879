/-
Property theorems for boxes and traversal: C01, C30, C31, C32, C33, C85.
-/
import Verif.Lemmas.Box
import Verif.Lemmas.Prelude
import Mathlib.Algebra.Order.BigOperators.Ring.Finset
import Mathlib.Tactic.Positivity

namespace Cafes.Props
open Cafes

/-! ### C01: box traversal is exact -/

/-- C01 (which points): the kernel is called exactly on the integer points of the half-open box. -/
theorem C01_visits_exactly {d : ℕ} (b : Box d ℤ) (p : Pos d ℤ) :
    p ∈ b.visited ↔ ∀ i, b.bl i ≤ p i ∧ p i < b.ur i :=
  b.mem_visited p

/-- C01 (once, in order): the recorded calls are strictly increasing for the order with the first
coordinate fastest; in particular there is no repetition. -/
theorem C01_order_once {d : ℕ} (b : Box d ℤ) :
    b.visited.Pairwise ColexLt ∧ b.visited.Nodup :=
  ⟨b.visited_pairwise, b.visited_nodup⟩

/-- C01 (any kernel): for every kernel the effect of `iterate` is the effect of calling the kernel
successively on the points of that list, so the two theorems above apply to every kernel. -/
theorem C01_any_kernel {d : ℕ} {σ : Type*} (b : Box d ℤ) (f : Pos d ℤ → σ → σ) (s : σ) :
    iterate b f s = b.visited.foldl (fun s p => f p s) s :=
  iterate_eq_foldl b f s

/-- C01 (empty): when one side is empty the kernel is not called. -/
theorem C01_empty {d : ℕ} {σ : Type*} (b : Box d ℤ) (f : Pos d ℤ → σ → σ) (s : σ) (i : Fin d)
    (hi : b.ur i ≤ b.bl i) : iterate b f s = s := by
  rw [iterate_eq_foldl]
  have : b.visited = [] := by
    rw [List.eq_nil_iff_forall_not_mem]
    intro p hp
    have := (b.mem_visited p).1 hp i
    omega
  rw [this]; rfl

example : (⟨![0, 5], ![2, 7]⟩ : Box 2 ℤ).visited = [![0, 5], ![1, 5], ![0, 6], ![1, 6]] := by
  have h5 : forRange 5 7 = [5, 6] := by decide +kernel
  have h0 : forRange 0 2 = [0, 1] := by decide +kernel
  rw [Box.visited_eq]
  simp [ptsFrom, h0, h5]
  refine ⟨?_, ?_, ?_, ?_⟩ <;> funext i <;> fin_cases i <;> simp
example : ∃ i, (⟨![0, 5], ![2, 5]⟩ : Box 2 ℤ).ur i ≤ (⟨![0, 5], ![2, 5]⟩ : Box 2 ℤ).bl i :=
  ⟨1, by simp⟩

/-! ### C30: intersection test -/

/-- C30: for boxes with ordered corners, `intersect` answers whether the closed boxes share a
point. -/
theorem C30_intersect_iff {d : ℕ} {T : Type*} [LinearOrder T] (b1 b2 : Box d T)
    (h1 : b1.Valid) (h2 : b2.Valid) :
    b1.intersect b2 = true ↔ (b1.closed ∩ b2.closed).Nonempty := by
  rw [Box.intersect_iff]
  constructor
  · intro h
    refine ⟨fun i => max (b1.bl i) (b2.bl i), fun i => ⟨le_max_left _ _, max_le (h1 i) (h i).2⟩,
      fun i => ⟨le_max_right _ _, max_le (h i).1 (h2 i)⟩⟩
  · rintro ⟨p, hp1, hp2⟩ i
    exact ⟨(hp1 i).1.trans (hp2 i).2, (hp2 i).1.trans (hp1 i).2⟩

/-- C30 (no missed particle): whatever the corners, if the two half-open boxes have a common point
the test is true, so a particle meeting a process box is never skipped. -/
theorem C30_never_skips {d : ℕ} {T : Type*} [LinearOrder T] (b1 b2 : Box d T) (p : Pos d T)
    (hp1 : p ∈ b1.halfOpen) (hp2 : p ∈ b2.halfOpen) : b1.intersect b2 = true := by
  rw [Box.intersect_iff]
  intro i
  exact ⟨(hp1 i).1.trans (hp2 i).2.le, (hp2 i).1.trans (hp1 i).2.le⟩

/-- C30 (symmetry). -/
theorem C30_symm {d : ℕ} {T : Type*} [LinearOrder T] (b1 b2 : Box d T) :
    b1.intersect b2 = b2.intersect b1 := by
  rw [Bool.eq_iff_iff, Box.intersect_iff, Box.intersect_iff]
  exact forall_congr' fun i => And.comm

example : (⟨![0, 0], ![1, 1]⟩ : Box 2 ℤ).Valid ∧ (⟨![1, 0], ![3, 1]⟩ : Box 2 ℤ).Valid := by
  constructor <;> intro i <;> fin_cases i <;> simp
example : (![1, 0] : Pos 2 ℤ) ∈ (⟨![0, 0], ![2, 1]⟩ : Box 2 ℤ).halfOpen ∧
    (![1, 0] : Pos 2 ℤ) ∈ (⟨![1, 0], ![3, 1]⟩ : Box 2 ℤ).halfOpen := by
  constructor <;> intro i <;> fin_cases i <;> simp

/-! ### C31: overlap and union -/

/-- C31: the overlap box denotes exactly the common points (closed and half-open readings). -/
theorem C31_overlap_exact {d : ℕ} {T : Type*} [LinearOrder T] (b1 b2 : Box d T) :
    (b1.overlap b2).closed = b1.closed ∩ b2.closed ∧
    (b1.overlap b2).halfOpen = b1.halfOpen ∩ b2.halfOpen := by
  constructor <;> ext p <;>
    simp only [Box.closed, Box.halfOpen, Box.overlap, Set.mem_ofPred_eq, Set.mem_inter_iff,
      max_le_iff, le_min_iff, lt_min_iff] <;>
    constructor <;> intro h <;>
    first
      | exact ⟨fun i => ⟨(h i).1.1, (h i).2.1⟩, fun i => ⟨(h i).1.2, (h i).2.2⟩⟩
      | exact fun i => ⟨⟨(h.1 i).1, (h.2 i).1⟩, (h.1 i).2, (h.2 i).2⟩

/-- C31: `box_inside` (written differently in the code) computes the same box. -/
theorem C31_box_inside_eq {d : ℕ} {T : Type*} [LinearOrder T] (b1 b2 : Box d T) :
    b1.boxInside b2 = b1.overlap b2 := b1.boxInside_eq b2

/-- C31: the union box contains both boxes and is contained in every box that contains both
(boxes with ordered corners). -/
theorem C31_union_least {d : ℕ} {T : Type*} [LinearOrder T] (b1 b2 : Box d T)
    (h1 : b1.Valid) (h2 : b2.Valid) :
    b1.closed ⊆ (b1.union b2).closed ∧ b2.closed ⊆ (b1.union b2).closed ∧
    ∀ c : Box d T, b1.closed ⊆ c.closed → b2.closed ⊆ c.closed →
      (b1.union b2).closed ⊆ c.closed := by
  refine ⟨fun p hp i => ⟨(min_le_left _ _).trans (hp i).1, (hp i).2.trans (le_max_left _ _)⟩,
    fun p hp i => ⟨(min_le_right _ _).trans (hp i).1, (hp i).2.trans (le_max_right _ _)⟩, ?_⟩
  intro c hc1 hc2 p hp i
  have a1 := hc1 (show b1.bl ∈ b1.closed from fun i => ⟨le_rfl, h1 i⟩) i
  have a2 := hc1 (show b1.ur ∈ b1.closed from fun i => ⟨h1 i, le_rfl⟩) i
  have a3 := hc2 (show b2.bl ∈ b2.closed from fun i => ⟨le_rfl, h2 i⟩) i
  have a4 := hc2 (show b2.ur ∈ b2.closed from fun i => ⟨h2 i, le_rfl⟩) i
  exact ⟨(le_min a1.1 a3.1).trans (hp i).1, (hp i).2.trans (max_le a2.2 a4.2)⟩

/-- C31: overlap and union are commutative, associative and idempotent. -/
theorem C31_laws {d : ℕ} {T : Type*} [LinearOrder T] (a b c : Box d T) :
    a.overlap b = b.overlap a ∧ (a.overlap b).overlap c = a.overlap (b.overlap c) ∧
    a.overlap a = a ∧ a.union b = b.union a ∧ (a.union b).union c = a.union (b.union c) ∧
    a.union a = a := by
  simp [Box.overlap, Box.union, max_comm, min_comm, max_assoc, min_assoc]

example : (⟨![0, 0], ![2, 2]⟩ : Box 2 ℤ).overlap ⟨![1, -1], ![3, 1]⟩ = ⟨![1, 0], ![2, 1]⟩ := by
  simp only [Box.overlap]
  congr 1 <;> funext i <;> fin_cases i <;> simp

/-! ### C32: point test and traversal agree -/

/-- C32: the points accepted by `point_inside` are exactly those visited by `iterate`. -/
theorem C32_point_inside_iff_visited {d : ℕ} (b : Box d ℤ) (p : Pos d ℤ) :
    b.pointInside p = true ↔ p ∈ b.visited := by
  rw [Box.pointInside_iff, Box.mem_visited]; rfl

example : (⟨![0, 0], ![2, 2]⟩ : Box 2 ℤ).pointInside ![1, 0] = true := by decide
example : (⟨![0, 0], ![2, 2]⟩ : Box 2 ℤ).pointInside ![2, 0] = false := by decide

/-! ### C33: `check_box_inside` does not decide intersection -/

/-- C33, the property as documented ("a part of b2 is inside b1"), for one pair of boxes. -/
def CheckBoxInsideCorrect (b1 b2 : Box 2 ℤ) : Prop :=
  b1.checkBoxInside b2 = true ↔ (b1.closed ∩ b2.closed).Nonempty

/-- C33 is false: two disjoint valid boxes for which the answer is `true`. -/
theorem C33_refuted_true : ∃ b1 b2 : Box 2 ℤ, b1.Valid ∧ b2.Valid ∧
    b1.checkBoxInside b2 = true ∧ ¬ (b1.closed ∩ b2.closed).Nonempty := by
  refine ⟨⟨![0, 0], ![1, 1]⟩, ⟨![0, 5], ![1, 6]⟩, ?_, ?_, by decide, ?_⟩
  · intro i; fin_cases i <;> simp
  · intro i; fin_cases i <;> simp
  · rintro ⟨p, hp1, hp2⟩
    have h1 := (hp1 1).2
    have h2 := (hp2 1).1
    simp at h1 h2
    omega

/-- C33 is false in the other direction too: a box strictly inside the other, answer `false`. -/
theorem C33_refuted_false : ∃ b1 b2 : Box 2 ℤ, b1.Valid ∧ b2.Valid ∧
    b1.checkBoxInside b2 = false ∧ (b1.closed ∩ b2.closed).Nonempty := by
  refine ⟨⟨![1, 1], ![2, 2]⟩, ⟨![0, 0], ![3, 3]⟩, ?_, ?_, by decide, ![1, 1], ?_, ?_⟩ <;>
    intro i <;> fin_cases i <;> simp

/-- C33, what the test computes, for every pair of boxes: in some direction, one of the two extreme
coordinates of `b2` is in the interval of `b1`. -/
theorem C33_exact {d : ℕ} {T : Type*} [LinearOrder T] (b1 b2 : Box d T) :
    b1.checkBoxInside b2 = true ↔ ∃ i, (b1.bl i ≤ b2.bl i ∧ b2.bl i ≤ b1.ur i) ∨
      (b1.bl i ≤ b2.ur i ∧ b2.ur i ≤ b1.ur i) := by
  rw [Box.checkBoxInside_iff]

/-- C33, boxes with a common point: the answer is `true` unless `b2` goes strictly beyond `b1` on both
sides in every direction. -/
theorem C33_meeting {d : ℕ} {T : Type*} [LinearOrder T] (b1 b2 : Box d T)
    (h : (b1.closed ∩ b2.closed).Nonempty) :
    b1.checkBoxInside b2 = true ↔ ¬ ∀ i, b2.bl i < b1.bl i ∧ b1.ur i < b2.ur i := by
  obtain ⟨p, h1, h2⟩ := h
  rw [C33_exact, not_forall]
  refine exists_congr fun i => ?_
  have a1 := h1 i
  have a2 := h2 i
  constructor
  · rintro (h | h) ⟨h3, h4⟩
    · exact absurd h.1 (not_le.2 h3)
    · exact absurd h.2 (not_le.2 h4)
  · intro h
    by_cases h3 : b1.bl i ≤ b2.bl i
    · exact Or.inl ⟨h3, a2.1.trans a1.2⟩
    · right
      refine ⟨a1.1.trans a2.2, ?_⟩
      by_contra h4
      exact h ⟨not_le.1 h3, not_le.1 h4⟩

/-- C33, the cases in which the answer is the documented one: a box `b2` that has one of its two extreme
corners in `b1` meets it and is reported; boxes of which `b2` is on one side of `b1` in every direction
are disjoint and not reported. -/
theorem C33_corner {d : ℕ} {T : Type*} [LinearOrder T] (b1 b2 : Box (d + 1) T) (h2 : b2.Valid) :
    (b2.bl ∈ b1.closed ∨ b2.ur ∈ b1.closed →
      b1.checkBoxInside b2 = true ∧ (b1.closed ∩ b2.closed).Nonempty) ∧
    ((∀ i, b2.ur i < b1.bl i ∨ b1.ur i < b2.bl i) →
      b1.checkBoxInside b2 = false ∧ ¬ (b1.closed ∩ b2.closed).Nonempty) := by
  constructor
  · intro h
    refine ⟨(C33_exact b1 b2).2 ⟨0, h.imp (fun h => h 0) (fun h => h 0)⟩, ?_⟩
    rcases h with h | h
    · exact ⟨b2.bl, h, fun i => ⟨le_rfl, h2 i⟩⟩
    · exact ⟨b2.ur, h, fun i => ⟨h2 i, le_rfl⟩⟩
  · intro h
    constructor
    · rw [← Bool.not_eq_true, C33_exact]
      rintro ⟨i, hi⟩
      have := h2 i
      rcases h i with h | h <;> rcases hi with hi | hi
      · exact absurd (hi.1.trans this) (not_le.2 h)
      · exact absurd hi.1 (not_le.2 h)
      · exact absurd hi.2 (not_le.2 h)
      · exact absurd (this.trans hi.2) (not_le.2 h)
    · rintro ⟨p, p1, p2⟩
      rcases h 0 with h | h
      · exact absurd ((p1 0).1.trans (p2 0).2) (not_le.2 h)
      · exact absurd ((p2 0).1.trans (p1 0).2) (not_le.2 h)

example : (⟨![1, 1], ![5, 5]⟩ : Box 2 ℤ).bl ∈ (⟨![0, 0], ![2, 2]⟩ : Box 2 ℤ).closed := by
  intro i; fin_cases i <;> simp

/-! ### C85: measure and corners of a box -/

/-- Product of the sides of the first `n` directions, an empty side counting for 0. -/
private theorem length_ptsFrom {d : ℕ} (b : Box d ℤ) (n : ℕ) (h : n ≤ d) (p : Pos d ℤ) :
    (ptsFrom b n h p).length
      = ∏ i : Fin n, (b.ur (Fin.castLE h i) - b.bl (Fin.castLE h i)).toNat := by
  induction n generalizing p with
  | zero => simp [ptsFrom]
  | succ n ih =>
    rw [Fin.prod_univ_castSucc]
    simp only [ptsFrom, List.length_flatMap, ih, List.map_const', List.sum_replicate,
      length_forRange, smul_eq_mul]
    rw [mul_comm]; rfl

private theorem box_length_eq {d : ℕ} {T : Type*} [Lattice T] [CommRing T] (b : Box d T) :
    b.length = ∏ i, |b.ur i - b.bl i| := by
  unfold Box.length Box.lengthAt
  rw [← List.prod_ofFn, List.ofFn_eq_map, List.prod_eq_foldl, List.foldl_map]

/-- C85 (count): for a box with ordered corners, `length()` is the number of points on which
`iterate` calls its kernel. -/
theorem C85_count {d : ℕ} (b : Box d ℤ) (hb : b.Valid) : b.length = (b.visited.length : ℤ) := by
  rw [box_length_eq, Box.visited_eq, length_ptsFrom]
  push_cast
  refine Finset.prod_congr rfl fun i _ => ?_
  have := hb i
  rw [abs_of_nonneg (by omega), Int.toNat_of_nonneg (by simpa using this)]
  rfl

/-- C85 (capacity): for every box, ordered or not, `length()` is nonnegative and no smaller than the
number of points visited, so reserving `length()` slots (particle.hpp:115, 133) is always legal and
always enough. -/
theorem C85_capacity {d : ℕ} (b : Box d ℤ) :
    0 ≤ b.length ∧ (b.visited.length : ℤ) ≤ b.length := by
  rw [box_length_eq, Box.visited_eq, length_ptsFrom]
  refine ⟨Finset.prod_nonneg fun i _ => abs_nonneg _, ?_⟩
  push_cast
  refine Finset.prod_le_prod (fun i _ => by positivity) fun i _ => ?_
  change ((b.ur i - b.bl i).toNat : ℤ) ≤ _
  rw [Int.ofNat_toNat]
  exact max_le (le_abs_self _) (abs_nonneg _)

/-- C85 (symmetry): the length is the product of the distances between opposite faces, in either
order of the corners. -/
theorem C85_length {d : ℕ} {T : Type*} [CommRing T] [LinearOrder T] [IsStrictOrderedRing T]
    (b : Box d T) :
    b.length = ∏ i, |b.ur i - b.bl i| ∧ (⟨b.ur, b.bl⟩ : Box d T).length = b.length ∧
      (b.length = 0 ↔ ∃ i, b.ur i = b.bl i) := by
  refine ⟨box_length_eq b, ?_, ?_⟩
  · rw [box_length_eq, box_length_eq]
    exact Finset.prod_congr rfl fun i _ => abs_sub_comm _ _
  · rw [box_length_eq, Finset.prod_eq_zero_iff]
    simp [sub_eq_zero]

/-- C85 (corners, 2D): `get_box_points` lists every corner, and nothing else, in the documented
order; without repetition when no side is degenerate. -/
theorem C85_corners2 {T : Type*} (b : Box 2 T) :
    (∀ p, p ∈ b.points2 ↔ ∀ i, p i = b.bl i ∨ p i = b.ur i) ∧
    ((∀ i, b.bl i ≠ b.ur i) → b.points2.Nodup) ∧ b.points2.length = 4 := by
  refine ⟨fun p => ?_, fun h => ?_, rfl⟩
  · simp only [Box.points2, List.mem_cons, List.not_mem_nil, or_false, funext_iff, Fin.forall_fin_two,
      Matrix.cons_val]
    tauto
  · have h0 := h 0; have h1 := h 1
    simp [Box.points2, funext_iff, Fin.forall_fin_two, h0, h1, h0.symm]

/-- C85 (corners, 3D). -/
theorem C85_corners3 {T : Type*} (b : Box 3 T) :
    (∀ p, p ∈ b.points3 ↔ ∀ i, p i = b.bl i ∨ p i = b.ur i) ∧
    ((∀ i, b.bl i ≠ b.ur i) → b.points3.Nodup) ∧ b.points3.length = 8 := by
  refine ⟨fun p => ?_, fun h => ?_, rfl⟩
  · simp only [Box.points3, List.mem_cons, List.not_mem_nil, or_false, funext_iff,
      Fin.forall_fin_succ, Matrix.cons_val, Fin.forall_fin_zero, and_true]
    simp only [Fin.succ_zero_eq_one, Fin.succ_one_eq_two, Matrix.cons_val]
    tauto
  · have h0 := h 0; have h1 := h 1; have h2 := h 2
    simp [Box.points3, funext_iff, Fin.forall_fin_succ, h0, h1, h0.symm, h1.symm, h2]

example : (⟨![0, 5], ![2, 7]⟩ : Box 2 ℤ).Valid := by intro i; fin_cases i <;> simp
example : (⟨![2, 5], ![0, 8]⟩ : Box 2 ℤ).length = 6 ∧ (⟨![2, 5], ![0, 8]⟩ : Box 2 ℤ).visited = [] := by
  constructor
  · simp [Box.length, Box.lengthAt, List.finRange_succ]
  · rw [List.eq_nil_iff_forall_not_mem]
    intro p hp
    have h0 := ((Box.mem_visited _ p).1 hp 0)
    simp at h0; omega

end Cafes.Props
