/-
Discrete Poincaré inequality of the Q1 fields on a box: the mass form is bounded by the square of the length of the box in one
direction times the form of the derivative in this direction, when the field vanishes on one of the two walls of this direction.
-/
import Verif.Lemmas.Exact
import Mathlib.Algebra.Order.Chebyshev

namespace Cafes.Props
open Cafes Cafes.Spec
variable {d : ℕ}

/-! ### One line of cells -/

/-- A value is bounded by the squares of the increments (Cauchy-Schwarz). -/
theorem line_value (V : ℕ → ℝ) (h0 : V 0 = 0) (n : ℕ) :
    V n ^ 2 ≤ n * ∑ k ∈ Finset.range n, (V (k + 1) - V k) ^ 2 := by
  have e : V n = ∑ k ∈ Finset.range n, (V (k + 1) - V k) := by
    rw [Finset.sum_range_sub, h0, sub_zero]
  rw [e]
  have := sq_sum_le_card_mul_sum_sq (s := Finset.range n) (f := fun k => V (k + 1) - V k)
  rwa [Finset.card_range] at this

theorem line_nat (V : ℕ → ℝ) (h0 : V 0 = 0) (n : ℕ) :
    ∑ k ∈ Finset.range n, (V k ^ 2 + V (k + 1) ^ 2 + (V k + V (k + 1)) ^ 2) ≤
      3 * (n : ℝ) ^ 2 * ∑ k ∈ Finset.range n, (V (k + 1) - V k) ^ 2 := by
  set S := ∑ k ∈ Finset.range n, (V (k + 1) - V k) ^ 2 with hS
  have hS0 : 0 ≤ S := Finset.sum_nonneg fun _ _ => sq_nonneg _
  have hb : ∀ k ≤ n, V k ^ 2 ≤ k * S := by
    intro k hk
    refine (line_value V h0 k).trans (mul_le_mul_of_nonneg_left ?_ (Nat.cast_nonneg k))
    exact Finset.sum_le_sum_of_subset_of_nonneg (Finset.range_subset_range.2 hk) fun _ _ _ => sq_nonneg _
  have h1 : ∑ k ∈ Finset.range n, (V k ^ 2 + V (k + 1) ^ 2 + (V k + V (k + 1)) ^ 2) ≤
      ∑ k ∈ Finset.range n, 3 * (2 * (k : ℝ) + 1) * S := by
    refine Finset.sum_le_sum fun k hk => ?_
    have hk := Finset.mem_range.1 hk
    have a := hb k hk.le
    have b := hb (k + 1) hk
    push_cast at b
    nlinarith [sq_nonneg (V k - V (k + 1))]
  refine h1.trans (le_of_eq ?_)
  rw [← Finset.sum_mul, ← Finset.mul_sum]
  congr 2
  clear h1 hb hS hS0
  induction n with
  | zero => simp
  | succ n ih => rw [Finset.sum_range_succ, ih]; push_cast; ring

theorem line_nat' (V : ℕ → ℝ) (n : ℕ) (hz : V 0 = 0 ∨ V n = 0) :
    ∑ k ∈ Finset.range n, (V k ^ 2 + V (k + 1) ^ 2 + (V k + V (k + 1)) ^ 2) ≤
      3 * (n : ℝ) ^ 2 * ∑ k ∈ Finset.range n, (V (k + 1) - V k) ^ 2 := by
  rcases hz with h0 | h0
  · exact line_nat V h0 n
  have := line_nat (fun k => V (n - k)) (by simpa using h0) n
  have e1 : ∑ k ∈ Finset.range n, (V k ^ 2 + V (k + 1) ^ 2 + (V k + V (k + 1)) ^ 2) =
      ∑ k ∈ Finset.range n, (V (n - k) ^ 2 + V (n - (k + 1)) ^ 2 + (V (n - k) + V (n - (k + 1))) ^ 2) := by
    rw [← Finset.sum_range_reflect]
    refine Finset.sum_congr rfl fun k hk => ?_
    have hk := Finset.mem_range.1 hk
    rw [show n - 1 - k = n - (k + 1) by omega, show n - (k + 1) + 1 = n - k by omega]
    ring
  have e2 : ∑ k ∈ Finset.range n, (V (k + 1) - V k) ^ 2 =
      ∑ k ∈ Finset.range n, (V (n - (k + 1)) - V (n - k)) ^ 2 := by
    rw [← Finset.sum_range_reflect]
    refine Finset.sum_congr rfl fun k hk => ?_
    have hk := Finset.mem_range.1 hk
    rw [show n - 1 - k = n - (k + 1) by omega, show n - (k + 1) + 1 = n - k by omega]
    ring
  rw [e1, e2]
  exact this

theorem sum_Ico_int (n : ℤ) (f : ℤ → ℝ) : ∑ k ∈ Finset.Ico (0 : ℤ) n, f k = ∑ k ∈ Finset.range n.toNat, f k := by
  symm
  refine Finset.sum_nbij' (fun k => (k : ℤ)) (fun k => k.toNat) ?_ ?_ ?_ ?_ ?_
  · intro k hk
    have := Finset.mem_range.1 hk
    rw [Finset.mem_Ico]
    omega
  · intro k hk
    have := Finset.mem_Ico.1 hk
    rw [Finset.mem_range]
    omega
  · intro k _; simp
  · intro k hk
    have := Finset.mem_Ico.1 hk
    show ((k.toNat : ℕ) : ℤ) = k
    omega
  · intro k _; rfl

theorem line_int (V : ℤ → ℝ) (n : ℤ) (hn : 0 ≤ n) (hz : V 0 = 0 ∨ V n = 0) :
    ∑ k ∈ Finset.Ico (0 : ℤ) n, (V k ^ 2 + V (k + 1) ^ 2 + (V k + V (k + 1)) ^ 2) ≤
      3 * (n : ℝ) ^ 2 * ∑ k ∈ Finset.Ico (0 : ℤ) n, (V (k + 1) - V k) ^ 2 := by
  rw [sum_Ico_int, sum_Ico_int]
  have := line_nat' (fun k => V k) n.toNat (by
    rcases hz with h | h
    · left; simpa using h
    · right; rw [Int.toNat_of_nonneg hn]; exact h)
  have e : ((n.toNat : ℕ) : ℝ) = (n : ℝ) := by
    rw [← Int.cast_natCast, Int.toNat_of_nonneg hn]
  rw [e] at this
  push_cast at this
  exact this

/-! ### Sums by lines -/

/-- Summing a function of a multi-index over the lines of direction `a` counts each index as many times as there are on a line. -/
theorem sum_lines {β : Type*} [DecidableEq β] (s : Fin d → Finset β) (a : Fin d) (F : (Fin d → β) → ℝ) :
    ∑ e ∈ Fintype.piFinset s, ∑ k ∈ s a, F (Function.update e a k) = ((s a).card : ℝ) * ∑ e ∈ Fintype.piFinset s, F e := by
  rw [Finset.mul_sum]
  have : ∑ e ∈ Fintype.piFinset s, ((s a).card : ℝ) * F e = ∑ e ∈ Fintype.piFinset s, ∑ k ∈ s a, F e := by
    refine Finset.sum_congr rfl fun e _ => ?_
    rw [Finset.sum_const, nsmul_eq_mul]
  rw [this, ← Finset.sum_product', ← Finset.sum_product']
  refine Finset.sum_nbij' (fun x => (Function.update x.1 a x.2, x.1 a)) (fun x => (Function.update x.1 a x.2, x.1 a)) ?_ ?_ ?_ ?_ ?_
  · rintro ⟨e, k⟩ hx
    rw [Finset.mem_product] at hx ⊢
    have he := Fintype.mem_piFinset.1 hx.1
    refine ⟨Fintype.mem_piFinset.2 fun i => ?_, he a⟩
    by_cases hi : i = a
    · subst hi; simpa using hx.2
    · simpa [Function.update_of_ne hi] using he i
  · rintro ⟨e, k⟩ hx
    rw [Finset.mem_product] at hx ⊢
    have he := Fintype.mem_piFinset.1 hx.1
    refine ⟨Fintype.mem_piFinset.2 fun i => ?_, he a⟩
    by_cases hi : i = a
    · subst hi; simpa using hx.2
    · simpa [Function.update_of_ne hi] using he i
  · rintro ⟨e, k⟩ _; simp
  · rintro ⟨e, k⟩ _; simp
  · rintro ⟨e, k⟩ _; rfl

/-- A bound on each line of direction `a` gives the bound of the sums. -/
theorem sum_le_of_lines {β : Type*} [DecidableEq β] (s : Fin d → Finset β) (a : Fin d) (F G : (Fin d → β) → ℝ)
    (hFG : ∀ e ∈ Fintype.piFinset s, ∑ k ∈ s a, F (Function.update e a k) ≤ ∑ k ∈ s a, G (Function.update e a k)) :
    ∑ e ∈ Fintype.piFinset s, F e ≤ ∑ e ∈ Fintype.piFinset s, G e := by
  by_cases h0 : (s a).card = 0
  · have : Fintype.piFinset s = ∅ := by
      rw [Finset.card_eq_zero] at h0
      refine Finset.eq_empty_of_forall_notMem fun e he => ?_
      have := Fintype.mem_piFinset.1 he a
      rw [h0] at this
      exact absurd this (Finset.notMem_empty _)
    rw [this, Finset.sum_empty, Finset.sum_empty]
  · have hc : 0 < ((s a).card : ℝ) := by exact_mod_cast Nat.pos_of_ne_zero h0
    refine le_of_mul_le_mul_left ?_ hc
    rw [← sum_lines, ← sum_lines]
    exact Finset.sum_le_sum hFG

/-! ### Tensor products of sums of squares -/

theorem tensor_squares (U : (Fin d → Fin 2) → ℝ) (c : Fin d → Fin 3 → ℝ) (r : Fin d → Fin 3 → Fin 2 → ℝ) :
    ∑ t, ∑ t', U t * U t' * ∏ i, ∑ j, c i j * r i j (t i) * r i j (t' i) =
      ∑ s : Fin d → Fin 3, (∏ i, c i (s i)) * (∑ t, U t * ∏ i, r i (s i) (t i)) ^ 2 := by
  have e : ∀ t t' : Fin d → Fin 2, ∏ i, ∑ j, c i j * r i j (t i) * r i j (t' i) =
      ∑ s : Fin d → Fin 3, ∏ i, (c i (s i) * r i (s i) (t i) * r i (s i) (t' i)) := by
    intro t t'
    rw [Finset.prod_univ_sum, Fintype.piFinset_univ]
  simp only [e, Finset.mul_sum]
  have e2 : ∀ t : Fin d → Fin 2, ∑ t' : Fin d → Fin 2, ∑ s : Fin d → Fin 3,
      U t * U t' * ∏ i, (c i (s i) * r i (s i) (t i) * r i (s i) (t' i)) =
      ∑ s : Fin d → Fin 3, ∑ t' : Fin d → Fin 2, U t * U t' * ∏ i, (c i (s i) * r i (s i) (t i) * r i (s i) (t' i)) :=
    fun t => Finset.sum_comm
  simp only [e2]
  rw [Finset.sum_comm]
  refine Finset.sum_congr rfl fun s _ => ?_
  rw [sq, Finset.sum_mul_sum, Finset.mul_sum]
  refine Finset.sum_congr rfl fun t _ => ?_
  rw [Finset.mul_sum]
  refine Finset.sum_congr rfl fun t' _ => ?_
  rw [Finset.prod_mul_distrib, Finset.prod_mul_distrib]
  ring

/-- The vectors of the three squares of the one-dimensional mass form. -/
def rho : Fin 3 → Fin 2 → ℝ := ![![1, 0], ![0, 1], ![1, 1]]

theorem mass_squares (a b : Fin 2) (h : ℝ) : J false false a b h = ∑ j, h / 6 * rho j a * rho j b := by
  rw [Fin.sum_univ_three]
  fin_cases a <;> fin_cases b <;> simp [J, m1, rho] <;> ring

theorem stiff_squares (a b : Fin 2) (h : ℝ) :
    J true true a b h = ∑ j : Fin 3, (if j = 0 then 1 / h else 0) * (![-1, 1] : Fin 2 → ℝ) a * (![-1, 1] : Fin 2 → ℝ) b := by
  rw [Fin.sum_univ_three]
  fin_cases a <;> fin_cases b <;> simp [J, k1] <;> ring

/-! ### The cells of the box -/

/-- The form of a tensor product of one-dimensional matrices on the cell `e`. -/
noncomputable def cellForm (U : Pos d ℤ → ℝ) (β : Fin d → Fin 2 → Fin 2 → ℝ) (e : Pos d ℤ) : ℝ :=
  ∑ t : Fin d → Fin 2, ∑ t' : Fin d → Fin 2, U (fun i => e i + ((t i : ℕ) : ℤ)) * U (fun i => e i + ((t' i : ℕ) : ℤ)) *
    ∏ i, β i (t i) (t' i)

/-- The combination of the values on the transverse plane of coordinate `k`. -/
noncomputable def planeSum (U : Pos d ℤ → ℝ) (a : Fin d) (e : Pos d ℤ) (s : Fin d → Fin 3) (k : ℤ) : ℝ :=
  1 / 2 * ∑ t : Fin d → Fin 2, U (Function.update (fun i => e i + ((t i : ℕ) : ℤ)) a k) *
    ∏ i ∈ Finset.univ.erase a, rho (s i) (t i)

theorem line_split (U : Pos d ℤ → ℝ) (a : Fin d) (e : Pos d ℤ) (s : Fin d → Fin 3) (k : ℤ) (q : Fin 2 → ℝ) :
    ∑ t : Fin d → Fin 2, U (fun i => Function.update e a k i + ((t i : ℕ) : ℤ)) *
        ∏ i, (if i = a then q (t i) else rho (s i) (t i)) =
      q 0 * planeSum U a e s k + q 1 * planeSum U a e s (k + 1) := by
  have hl := sum_lines (β := Fin 2) (fun _ => Finset.univ) a
    (fun t : Fin d → Fin 2 => U (fun i => Function.update e a k i + ((t i : ℕ) : ℤ)) *
        ∏ i, (if i = a then q (t i) else rho (s i) (t i)))
  rw [Fintype.piFinset_univ, Finset.card_univ, Fintype.card_fin] at hl
  have h2 : ∀ t : Fin d → Fin 2, ∑ b : Fin 2, (U (fun i => Function.update e a k i + ((Function.update t a b i : ℕ) : ℤ)) *
      ∏ i, (if i = a then q (Function.update t a b i) else rho (s i) (Function.update t a b i))) =
      q 0 * (U (Function.update (fun i => e i + ((t i : ℕ) : ℤ)) a k) * ∏ i ∈ Finset.univ.erase a, rho (s i) (t i)) +
      q 1 * (U (Function.update (fun i => e i + ((t i : ℕ) : ℤ)) a (k + 1)) *
        ∏ i ∈ Finset.univ.erase a, rho (s i) (t i)) := by
    intro t
    have hb : ∀ b : Fin 2, U (fun i => Function.update e a k i + ((Function.update t a b i : ℕ) : ℤ)) *
        ∏ i, (if i = a then q (Function.update t a b i) else rho (s i) (Function.update t a b i)) =
        q b * (U (Function.update (fun i => e i + ((t i : ℕ) : ℤ)) a (k + ((b : ℕ) : ℤ))) *
          ∏ i ∈ Finset.univ.erase a, rho (s i) (t i)) := by
      intro b
      have e1 : (fun i => Function.update e a k i + ((Function.update t a b i : ℕ) : ℤ)) =
          Function.update (fun i => e i + ((t i : ℕ) : ℤ)) a (k + ((b : ℕ) : ℤ)) := by
        funext i
        by_cases hi : i = a
        · subst hi; simp
        · simp [Function.update_of_ne hi]
      rw [e1, ← Finset.mul_prod_erase Finset.univ _ (Finset.mem_univ a), if_pos rfl, Function.update_self]
      have e2 : ∏ i ∈ Finset.univ.erase a, (if i = a then q (Function.update t a b i) else rho (s i) (Function.update t a b i)) =
          ∏ i ∈ Finset.univ.erase a, rho (s i) (t i) := by
        refine Finset.prod_congr rfl fun i hi => ?_
        have hi := Finset.ne_of_mem_erase hi
        rw [if_neg hi, Function.update_of_ne hi]
      rw [e2]
      ring
    rw [Fin.sum_univ_two, hb 0, hb 1]
    simp
  simp only [h2, Finset.sum_add_distrib, ← Finset.mul_sum] at hl
  unfold planeSum
  push_cast at hl
  linarith

theorem planeSum_update (U : Pos d ℤ → ℝ) (a : Fin d) (e : Pos d ℤ) (s : Fin d → Fin 3) (j : Fin 3) (k : ℤ) :
    planeSum U a e (Function.update s a j) k = planeSum U a e s k := by
  unfold planeSum
  refine congrArg₂ _ rfl (Finset.sum_congr rfl fun t _ => congrArg₂ _ rfl (Finset.prod_congr rfl fun i hi => ?_))
  rw [Function.update_of_ne (Finset.ne_of_mem_erase hi)]

theorem cell_mass (U : Pos d ℤ → ℝ) (h : Pos d ℝ) (a : Fin d) (e : Pos d ℤ) (k : ℤ) :
    cellForm U (fun i x y => J false false x y (h i)) (Function.update e a k) =
      ∑ s : Fin d → Fin 3, (∏ i, h i / 6) * (rho (s a) 0 * planeSum U a e s k + rho (s a) 1 * planeSum U a e s (k + 1)) ^ 2 := by
  unfold cellForm
  simp only [mass_squares]
  rw [tensor_squares (fun t => U (fun i => Function.update e a k i + ((t i : ℕ) : ℤ))) (fun i _ => h i / 6) (fun _ => rho)]
  refine Finset.sum_congr rfl fun s _ => ?_
  rw [← line_split]
  refine congrArg₂ _ rfl (congrArg (· ^ 2) (Finset.sum_congr rfl fun t _ => congrArg₂ _ rfl
    (Finset.prod_congr rfl fun i _ => ?_)))
  split_ifs with hi
  · rw [hi]
  · rfl

theorem cell_stiff (U : Pos d ℤ → ℝ) (h : Pos d ℝ) (a : Fin d) (e : Pos d ℤ) (k : ℤ) :
    cellForm U (fun i x y => J (decide (a = i)) (decide (a = i)) x y (h i)) (Function.update e a k) =
      ∑ s : Fin d → Fin 3, (∏ i, if i = a then (if s i = 0 then 1 / h i else 0) else h i / 6) *
        (planeSum U a e s (k + 1) - planeSum U a e s k) ^ 2 := by
  unfold cellForm
  have hJ : ∀ (i : Fin d) (x y : Fin 2), J (decide (a = i)) (decide (a = i)) x y (h i) =
      ∑ j : Fin 3, (if i = a then (if j = 0 then 1 / h i else 0) else h i / 6) *
        (if i = a then (![-1, 1] : Fin 2 → ℝ) x else rho j x) * (if i = a then (![-1, 1] : Fin 2 → ℝ) y else rho j y) := by
    intro i x y
    by_cases hi : a = i
    · subst hi
      simp only [decide_true, if_true]
      exact stiff_squares x y (h a)
    · have hi' : ¬ i = a := fun h => hi h.symm
      simp only [hi, hi', decide_false, if_false]
      exact mass_squares x y (h i)
  simp only [hJ]
  rw [tensor_squares (fun t => U (fun i => Function.update e a k i + ((t i : ℕ) : ℤ)))
    (fun i j => if i = a then (if j = 0 then 1 / h i else 0) else h i / 6)
    (fun i j x => if i = a then (![-1, 1] : Fin 2 → ℝ) x else rho j x)]
  refine Finset.sum_congr rfl fun s _ => ?_
  rw [line_split U a e s k ![-1, 1]]
  simp only [Matrix.cons_val_zero, Matrix.cons_val_one]
  congr 2
  ring

/-- The mass form against the form of the derivative in direction `a`. -/
theorem poincare_cells (n : Fin d → ℤ) (a : Fin d) (hn : 0 ≤ n a) (h : Pos d ℝ) (hh : ∀ i, 0 < h i) (U : Pos d ℤ → ℝ)
    (hz : (∀ e ∈ Fintype.piFinset fun i => Finset.Ico 0 (n i), ∀ t : Fin d → Fin 2,
        U (Function.update (fun i => e i + ((t i : ℕ) : ℤ)) a 0) = 0) ∨
      ∀ e ∈ Fintype.piFinset fun i => Finset.Ico 0 (n i), ∀ t : Fin d → Fin 2,
        U (Function.update (fun i => e i + ((t i : ℕ) : ℤ)) a (n a)) = 0) :
    ∑ e ∈ Fintype.piFinset fun i => Finset.Ico 0 (n i), cellForm U (fun i x y => J false false x y (h i)) e ≤
      ((n a : ℝ) * h a) ^ 2 / 2 * ∑ e ∈ Fintype.piFinset fun i => Finset.Ico 0 (n i),
        cellForm U (fun i x y => J (decide (a = i)) (decide (a = i)) x y (h i)) e := by
  rw [Finset.mul_sum]
  refine sum_le_of_lines _ a _ _ fun e he => ?_
  simp only [cell_mass, cell_stiff, Finset.mul_sum]
  rw [Finset.sum_comm, Finset.sum_comm (s := Finset.Ico 0 (n a))]
  rw [← Fintype.piFinset_univ]
  refine sum_le_of_lines (β := Fin 3) _ a _ _ fun s _ => ?_
  simp only [planeSum_update, Function.update_self]
  set V := planeSum U a e s with hV
  set P := ∏ i ∈ Finset.univ.erase a, h i / 6 with hP
  have hP0 : 0 ≤ P := Finset.prod_nonneg fun i _ => by have := hh i; positivity
  have e1 : ∏ i, h i / 6 = h a / 6 * P := (Finset.mul_prod_erase Finset.univ _ (Finset.mem_univ a)).symm
  have e2 : ∀ j : Fin 3, (∏ i, if i = a then (if Function.update s a j i = 0 then 1 / h i else 0) else h i / 6) =
      (if j = 0 then 1 / h a else 0) * P := by
    intro j
    rw [← Finset.mul_prod_erase Finset.univ _ (Finset.mem_univ a), if_pos rfl, Function.update_self]
    refine congrArg₂ _ rfl (Finset.prod_congr rfl fun i hi => ?_)
    rw [if_neg (Finset.ne_of_mem_erase hi)]
  have hline := line_int V (n a) hn (by
    rcases hz with h1 | h1
    · left
      rw [hV]
      unfold planeSum
      rw [Finset.sum_eq_zero fun t _ => by rw [h1 e he t, zero_mul], mul_zero]
    · right
      rw [hV]
      unfold planeSum
      rw [Finset.sum_eq_zero fun t _ => by rw [h1 e he t, zero_mul], mul_zero])
  simp only [e2, e1, Fin.sum_univ_three]
  have hl : ∀ k : ℤ, h a / 6 * P * (rho 0 0 * V k + rho 0 1 * V (k + 1)) ^ 2 = h a / 6 * P * V k ^ 2 ∧
      h a / 6 * P * (rho 1 0 * V k + rho 1 1 * V (k + 1)) ^ 2 = h a / 6 * P * V (k + 1) ^ 2 ∧
      h a / 6 * P * (rho 2 0 * V k + rho 2 1 * V (k + 1)) ^ 2 = h a / 6 * P * (V k + V (k + 1)) ^ 2 := by
    intro k
    simp [rho]
  simp only [fun k => (hl k).1, fun k => (hl k).2.1, fun k => (hl k).2.2, ← Finset.mul_sum]
  simp only [Finset.sum_add_distrib] at hline
  have hha := hh a
  simp
  have h3 := mul_le_mul_of_nonneg_left hline (mul_nonneg (div_nonneg hha.le (by norm_num : (0:ℝ) ≤ 6)) hP0)
  refine (le_of_eq (by ring)).trans (h3.trans (le_of_eq ?_))
  field_simp
  ring

end Cafes.Props
