/-
Property theorems for the multigrid set-up: C64 (number of levels), C65 (level of a coarse mesh).
-/
import Verif.Model.Multigrid
import Mathlib.Tactic.Ring
import Mathlib.Tactic.Linarith
import Mathlib.Tactic.NormNum
import Mathlib.Algebra.Order.Ring.Nat
import Mathlib.Data.Rat.Defs
import Mathlib.Data.Real.Basic

namespace Cafes.Props
open Cafes.Multigrid

/-- Number of points, in a non periodic direction, of the mesh coarsened once (contract of `DMCoarsen`:
`1 + (m - 1) / 2`). -/
def coarsen (m : ℕ) : ℕ := 1 + (m - 1) / 2

/-- Number of points after `k` coarsenings. -/
def coarsenTimes (m k : ℕ) : ℕ := coarsen^[k] m

/-! ### C64 -/

theorem mgLoop_spec (i : ℕ) : ∀ l, ∃ k, mgLoop i l = l + k ∧ i / 2 ^ k ≤ 8 ∧ ∀ j < k, 8 < i / 2 ^ j := by
  induction i using Nat.strong_induction_on with
  | _ i ih =>
    intro l
    rw [mgLoop]
    split_ifs with h
    · have e : i >>> 1 = i / 2 := by simp [Nat.shiftRight_eq_div_pow]
      obtain ⟨k, h1, h2, h3⟩ := ih (i >>> 1) (by rw [e]; omega) (l + 1)
      rw [e] at h2 h3
      refine ⟨k + 1, by rw [h1]; omega, ?_, ?_⟩
      · rw [Nat.pow_succ, Nat.mul_comm, ← Nat.div_div_eq_div_mul]; exact h2
      · intro j hj
        cases j with
        | zero => simpa using h
        | succ j =>
          rw [Nat.pow_succ, Nat.mul_comm, ← Nat.div_div_eq_div_mul]
          exact h3 j (by omega)
    · exact ⟨0, rfl, by simpa using h, by intro j hj; omega⟩

theorem coarsenTimes_eq (m : ℕ) (hm : 1 ≤ m) (k : ℕ) : coarsenTimes m k = (m - 1) / 2 ^ k + 1 := by
  induction k with
  | zero => simp [coarsenTimes]; omega
  | succ k ih =>
    unfold coarsenTimes at ih ⊢
    rw [Function.iterate_succ_apply', ih, coarsen, Nat.add_sub_cancel, Nat.div_div_eq_div_mul, ← Nat.pow_succ,
      Nat.add_comm]

/-- C64 (smallest direction): the number the levels are computed from is the smallest number of points; the third
direction counts in 3D only. -/
theorem C64_smallest (mx my mz : ℕ) :
    smallestDir mx my mz = if mz = 1 then min mx my else min (min mx my) mz := by
  unfold smallestDir
  have : (if mx < my then mx else my) = min mx my := by
    split_ifs with h
    · rw [min_eq_left h.le]
    · rw [min_eq_right (not_lt.1 h)]
  simp only [this]
  by_cases h1 : mz = 1
  · simp [h1]
  · simp only [h1, false_or, if_false]
    split_ifs with h
    · rw [min_eq_left h.le]
    · rw [min_eq_right (not_lt.1 h)]

/-- C64 (levels): with `L` levels, `L - 1` is the least number of halvings which brings the smallest direction to at most 8;
`L` is at least 1. -/
theorem C64_least (mx my mz : ℕ) :
    1 ≤ mgLevels mx my mz ∧ smallestDir mx my mz / 2 ^ (mgLevels mx my mz - 1) ≤ 8 ∧
    ∀ j, smallestDir mx my mz / 2 ^ j ≤ 8 → mgLevels mx my mz - 1 ≤ j := by
  obtain ⟨k, h1, h2, h3⟩ := mgLoop_spec (smallestDir mx my mz) 1
  unfold mgLevels
  rw [h1]
  refine ⟨by omega, by rw [Nat.add_sub_cancel_left]; exact h2, fun j hj => ?_⟩
  by_contra hlt
  exact absurd hj (not_le.2 (h3 j (by omega)))

/-- C64 (coarsest mesh): on a non periodic mesh with more than 8 points in the smallest direction, that direction has 5
to 9 points on the coarsest level, and more than 8 on the other ones. -/
theorem C64_coarsest (mx my mz : ℕ) (h9 : 9 ≤ smallestDir mx my mz) :
    5 ≤ coarsenTimes (smallestDir mx my mz) (mgLevels mx my mz - 1) ∧
    coarsenTimes (smallestDir mx my mz) (mgLevels mx my mz - 1) ≤ 9 ∧
    ∀ j < mgLevels mx my mz - 1, 9 ≤ coarsenTimes (smallestDir mx my mz) j := by
  obtain ⟨k, h1, h2, h3⟩ := mgLoop_spec (smallestDir mx my mz) 1
  unfold mgLevels
  rw [h1, Nat.add_sub_cancel_left]
  generalize smallestDir mx my mz = m at *
  have mono : ∀ j, (m - 1) / 2 ^ j ≤ m / 2 ^ j := fun j => Nat.div_le_div_right (by omega)
  refine ⟨?_, ?_, ?_⟩
  · rw [coarsenTimes_eq m (by omega)]
    cases k with
    | zero => simp; omega
    | succ k =>
      have := h3 k (by omega)
      have h9' : 9 * 2 ^ k ≤ m := by
        have := (Nat.le_div_iff_mul_le (Nat.two_pow_pos k)).1 this
        omega
      have : 4 ≤ (m - 1) / 2 ^ (k + 1) := by
        rw [Nat.le_div_iff_mul_le (Nat.two_pow_pos _), Nat.pow_succ]
        have := Nat.two_pow_pos k
        omega
      omega
  · rw [coarsenTimes_eq m (by omega)]
    have := mono k
    omega
  · intro j hj
    rw [coarsenTimes_eq m (by omega)]
    have := (Nat.le_div_iff_mul_le (Nat.two_pow_pos j)).1 (h3 j hj)
    have : 8 ≤ (m - 1) / 2 ^ j := by
      rw [Nat.le_div_iff_mul_le (Nat.two_pow_pos _)]
      have := Nat.two_pow_pos j
      omega
    omega

example : 9 ≤ smallestDir 33 65 1 ∧ mgLevels 33 65 1 = 3 := by
  refine ⟨by decide, ?_⟩
  rw [mgLevels, show smallestDir 33 65 1 = 33 by decide]
  simp [mgLoop, Nat.shiftRight_eq_div_pow]

/-! ### C65 -/

/-- The search ends with at most one level. -/
theorem loop_unique {Dim nx nx0 l r r' : ℕ} (h : LevelLoop Dim nx nx0 l r) (h' : LevelLoop Dim nx nx0 l r') : r = r' := by
  induction h with
  | stop l =>
    cases h' with
    | stop => rfl
    | step _ _ _ hne _ => exact absurd rfl hne
  | step nx0 l r hne _ ih =>
    cases h' with
    | stop => exact absurd rfl hne
    | step _ _ _ _ h2 => exact ih h2

theorem loop_iff (Dim nx nx0 l r : ℕ) : LevelLoop Dim nx nx0 l r ↔
    ∃ k, r = l + k ∧ (fun x => (x + 1) / Dim)^[k] nx0 = nx ∧ ∀ j < k, (fun x => (x + 1) / Dim)^[j] nx0 ≠ nx := by
  constructor
  · intro h
    induction h with
    | stop l => exact ⟨0, rfl, rfl, by intro j hj; omega⟩
    | step nx0 l r hne _ ih =>
      obtain ⟨k, h1, h2, h3⟩ := ih
      refine ⟨k + 1, by omega, h2, ?_⟩
      intro j hj
      cases j with
      | zero => exact hne
      | succ j => exact h3 j (by omega)
  · rintro ⟨k, h1, h2, h3⟩
    induction k generalizing nx0 l with
    | zero =>
      simp at h1 h2
      subst h1 h2
      exact LevelLoop.stop _
    | succ k ih =>
      refine LevelLoop.step _ _ _ (h3 0 (by omega)) (ih _ _ (by omega) h2 fun j hj => h3 (j + 1) (by omega))

theorem sizeRoot_square (m : ℕ) : sizeRoot (2 * (m * m)) = m := by
  unfold sizeRoot
  rw [Nat.mul_div_cancel_left _ (by omega)]
  exact Nat.sqrt_eq m

/-- C65 (square plane meshes): on a hierarchy of square meshes with two components, `M k` points per direction on the level
`k`, each obtained from the one before by halving the intervals (`M (k+1) = ⌈M k / 2⌉`, non periodic, or periodic with
an even number of points), the search for the mesh of level `k` ends, with `k`, as long as this mesh has two points. -/
theorem C65_square (M : ℕ → ℕ) (hM : ∀ k, M (k + 1) = (M k + 1) / 2) (k : ℕ) (hk : 2 ≤ M k) (r : ℕ) :
    LevelOf 2 (2 * (M 0 * M 0)) (2 * (M k * M k)) r ↔ r = k := by
  unfold LevelOf
  rw [sizeRoot_square, sizeRoot_square, loop_iff]
  have it : ∀ j, (fun x => (x + 1) / 2)^[j] (M 0) = M j := by
    intro j
    induction j with
    | zero => rfl
    | succ j ih => rw [Function.iterate_succ_apply', ih, hM]
  have lt : ∀ j < k, M k < M j := by
    intro j hj
    have : ∀ n, j + n ≤ k → M (j + n) ≤ M j := by
      intro n hn
      induction n with
      | zero => exact le_rfl
      | succ n ih =>
        have h1 := ih (by omega)
        have h2 := hM (j + n)
        rw [← Nat.add_assoc, h2]
        by_cases h0 : M (j + n) = 0
        · omega
        · omega
    have hb : ∀ n, 2 ≤ M (n + 1) → M (n + 1) < M n := by
      intro n hn
      rw [hM n] at hn ⊢
      omega
    have hk1 : M k < M (k - 1) := by
      have := hb (k - 1)
      rw [show k - 1 + 1 = k by omega] at this
      exact this hk
    have := this (k - 1 - j) (by omega)
    rw [show j + (k - 1 - j) = k - 1 by omega] at this
    omega
  simp only [it]
  constructor
  · rintro ⟨j, h1, h2, h3⟩
    rcases Nat.lt_trichotomy j k with hj | hj | hj
    · have := lt j hj; omega
    · omega
    · exact absurd rfl (h3 k hj)
  · rintro rfl
    exact ⟨r, by omega, rfl, fun j hj => (lt j hj).ne'⟩

/-- C65 (step): the operator of level `k` is given the step of the mesh coarsened `k` times. -/
theorem C65_step (h : Fin 2 → ℝ) (k : ℕ) (i : Fin 2) : levelStep h k i = 2 ^ k * h i := by
  unfold levelStep
  push_cast
  ring

/-- The value of `nx_0` decreases (to a fixed point at most 1): the search cannot end once it is below the target. -/
theorem loop_never (Dim : ℕ) (hD : 2 ≤ Dim) (nx nx0 : ℕ) (h2 : 2 ≤ nx) (hgt : nx0 ≠ nx) (hlt : (nx0 + 1) / Dim < nx) (r : ℕ) :
    ¬ LevelLoop Dim nx nx0 0 r := by
  rw [loop_iff]
  rintro ⟨k, -, h1, h3⟩
  have low : ∀ j, (fun x => (x + 1) / Dim)^[j + 1] nx0 < nx := by
    intro j
    induction j with
    | zero => exact hlt
    | succ j ih =>
      rw [Function.iterate_succ_apply']
      refine (Nat.div_lt_iff_lt_mul (by omega)).2 ?_
      have : nx * 2 ≤ nx * Dim := Nat.mul_le_mul_left _ hD
      omega
  cases k with
  | zero => exact hgt h1
  | succ k => exact absurd h1 (low k).ne

/-- C65 (rectangles): the search does not end for all plane hierarchies: on 9 by 129 velocity points, two levels are
built (`C64`) and the search for the level of the coarse mesh, 5 by 65 points, does not end. -/
theorem C65_rectangle_refuted : mgLevels 9 129 1 = 2 ∧ coarsen 9 = 5 ∧ coarsen 129 = 65 ∧
    ∀ r, ¬ LevelOf 2 (2 * (9 * 129)) (2 * (5 * 65)) r := by
  refine ⟨?_, by decide, by decide, fun r => ?_⟩
  · rw [mgLevels, show smallestDir 9 129 1 = 9 by decide]
    simp [mgLoop, Nat.shiftRight_eq_div_pow]
  · have a : sizeRoot (2 * (9 * 129)) = 34 := (Nat.eq_sqrt.2 ⟨by norm_num, by norm_num⟩).symm
    have b : sizeRoot (2 * (5 * 65)) = 18 := (Nat.eq_sqrt.2 ⟨by norm_num, by norm_num⟩).symm
    unfold LevelOf
    rw [a, b]
    exact loop_never 2 le_rfl 18 34 (by norm_num) (by norm_num) (by norm_num) r

/-- C65 (cubes): in 3D the search never ends on cubic meshes: for every finest mesh of `2p+1` points per direction
(`p ≥ 4`, at least two levels), the search for the level of the mesh coarsened once, of `p+1` points, does not end. -/
theorem C65_cube_never (p : ℕ) (hp : 4 ≤ p) (r : ℕ) :
    coarsen (2 * p + 1) = p + 1 ∧ 2 ≤ mgLevels (2 * p + 1) (2 * p + 1) (2 * p + 1) ∧
    ¬ LevelOf 3 (3 * (2 * p + 1) ^ 3) (3 * (p + 1) ^ 3) r := by
  refine ⟨?_, ?_, ?_⟩
  · simp [coarsen]; omega
  · obtain ⟨h1, h2, -⟩ := C64_least (2 * p + 1) (2 * p + 1) (2 * p + 1)
    by_contra hlt
    have e : mgLevels (2 * p + 1) (2 * p + 1) (2 * p + 1) - 1 = 0 := by omega
    rw [e, C64_smallest] at h2
    simp only [min_self, ite_self, pow_zero, Nat.div_one] at h2
    omega
  · set a := sizeRoot (3 * (2 * p + 1) ^ 3) with ha
    set b := sizeRoot (3 * (p + 1) ^ 3) with hb
    have a1 : a * a ≤ 3 * (2 * p + 1) ^ 3 / 2 := Nat.sqrt_le _
    have a2 : 2 * (a * a) ≤ 3 * (2 * p + 1) ^ 3 := by
      have := Nat.mul_div_le (3 * (2 * p + 1) ^ 3) 2
      linarith
    have b1 : 3 * (p + 1) ^ 3 / 2 < (b + 1) * (b + 1) := Nat.lt_succ_sqrt _
    have b2 : 3 * (p + 1) ^ 3 < 2 * ((b + 1) * (b + 1)) := by omega
    have b3 : b * b ≤ 3 * (p + 1) ^ 3 / 2 := Nat.sqrt_le _
    have b4 : 2 * (b * b) ≤ 3 * (p + 1) ^ 3 := by
      have := Nat.mul_div_le (3 * (p + 1) ^ 3) 2
      linarith
    have a3 : 3 * (2 * p + 1) ^ 3 / 2 < (a + 1) * (a + 1) := Nat.lt_succ_sqrt _
    have a4 : 3 * (2 * p + 1) ^ 3 < 2 * ((a + 1) * (a + 1)) := by omega
    obtain ⟨q, rfl⟩ : ∃ q, p = q + 4 := ⟨p - 4, by omega⟩
    have key : a + 1 < 3 * b := by
      by_contra hge
      push Not at hge
      zify at a2 b2 hge
      set A : ℤ := (a : ℤ)
      set c : ℤ := (b : ℤ) + 1 with hc
      set Q : ℤ := (q : ℤ) + 5 with hQ
      have hQ5 : 5 ≤ Q := by rw [hQ]; linarith [Int.natCast_nonneg q]
      have e1 : (q : ℤ) + 4 + 1 = Q := by rw [hQ]; ring
      have e2 : 2 * ((q : ℤ) + 4) + 1 = 2 * Q - 1 := by rw [hQ]; ring
      rw [e2] at a2
      rw [e1] at b2
      have b0 : 1 ≤ c := by rw [hc]; linarith [Int.natCast_nonneg b]
      have hA : 3 * c - 4 ≤ A := by rw [hc]; linarith
      have c8 : 2 ≤ c := by
        by_contra h
        have : c = 1 := by omega
        rw [this] at b2
        nlinarith [pow_le_pow_left₀ (by norm_num : (0:ℤ) ≤ 5) hQ5 3]
      have s1 : (3 * c - 4) * (3 * c - 4) ≤ A * A := mul_self_le_mul_self (by linarith) hA
      have q2 : 5 * Q ≤ Q ^ 2 := by nlinarith
      have q3 : 5 * Q ^ 2 ≤ Q ^ 3 := by nlinarith
      have s2 : 3 * Q ^ 3 + 36 * Q ^ 2 - 18 * Q + 35 < 48 * c := by nlinarith
      have s3 : 2 * Q ^ 2 ≤ 3 * c - 4 := by nlinarith
      have s4 : (2 * Q ^ 2) * (2 * Q ^ 2) ≤ (3 * c - 4) * (3 * c - 4) := mul_self_le_mul_self (by positivity) s3
      have s5 : 5 * Q ^ 3 ≤ Q ^ 4 := by nlinarith [pow_pos (by linarith : 0 < Q) 3]
      nlinarith
    have ab : a ≠ b := by
      intro h
      rw [h] at a4
      rw [h] at key
      have : (q + 4 + 1) ^ 3 < (2 * (q + 4) + 1) ^ 3 := Nat.pow_lt_pow_left (by omega) (by omega)
      have m : 8 * (q + 4 + 1) ^ 3 ≤ 8 * (q + 4 + 1) ^ 3 := le_rfl
      have big : 8 * (q + 4) ^ 3 ≤ (2 * (q + 4) + 1) ^ 3 := by
        have := Nat.pow_le_pow_left (show 2 * (q + 4) ≤ 2 * (q + 4) + 1 by omega) 3
        rw [Nat.mul_pow] at this
        exact this
      rw [h] at a2
      nlinarith
    have hb2 : 2 ≤ b := by
      by_contra h
      have h1 : b + 1 ≤ 2 := by omega
      have h2 := Nat.mul_le_mul h1 h1
      have h3 := Nat.pow_le_pow_left (show 5 ≤ q + 4 + 1 by omega) 3
      omega
    unfold LevelOf
    rw [← ha, ← hb]
    refine loop_never 3 (by norm_num) b a hb2 ab ?_ r
    rw [Nat.div_lt_iff_lt_mul (by omega)]
    omega

example : LevelOf 2 (2 * (33 * 33)) (2 * (9 * 9)) 2 := by
  have := (C65_square (fun k => 32 / 2 ^ k + 1) ?_ 2 (by norm_num) 2).2 rfl
  · simpa using this
  · intro k
    rw [show 32 / 2 ^ k + 1 + 1 = 32 / 2 ^ k + 2 by omega, Nat.pow_succ, ← Nat.div_div_eq_div_mul]
    omega

end Cafes.Props
