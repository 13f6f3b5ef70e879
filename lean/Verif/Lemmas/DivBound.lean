/-
Lemmas for C124: the integral of a pressure times a divergence, cut along the velocity cells, and its
Cauchy-Schwarz inequality.
-/
import Verif.Props.Korn
import Verif.Props.WeakPressure
import Verif.Props.Solvable
import Mathlib.Algebra.QuadraticDiscriminant

namespace Cafes.Props
open Cafes Cafes.Spec
variable {d : ℕ}

/-- Value of the coarse shape function `a` at the corner `b` of the half `s` of its cell. -/
def wT (a s b : Fin 2) : ℚ := if a = 0 then 1 - ((s.1 : ℚ) + b.1) / 2 else ((s.1 : ℚ) + b.1) / 2

/-- Node of a cell of two halves: corner `b` of the half `s`. -/
def addF (s b : Fin 2) : Fin 3 := ⟨s.1 + b.1, by omega⟩

theorem JP_halves (dd : Bool) (a : Fin 2) (j : Fin 3) (h : ℝ) :
    JP dd a j h = ∑ x : Fin 2 × Fin 2 × Fin 2, if addF x.1 x.2.1 = j then
      (wT a x.1 x.2.2 : ℝ) * J false dd x.2.2 x.2.1 h else 0 := by
  have t1 : ∀ a j, pT a j = ∑ x : Fin 2 × Fin 2 × Fin 2, if addF x.1 x.2.1 = j then
      wT a x.1 x.2.2 * m1 x.2.2 x.2.1 else 0 := by decide +kernel
  have t2 : ∀ a j, qT a j = ∑ x : Fin 2 × Fin 2 × Fin 2, if addF x.1 x.2.1 = j then
      wT a x.1 x.2.2 * s1 x.2.1 else 0 := by decide +kernel
  cases dd
  · simp only [JP, J, Bool.false_eq_true, if_false, t1]
    push_cast
    rw [Finset.mul_sum]
    refine Finset.sum_congr rfl fun x _ => ?_
    split_ifs <;> push_cast <;> ring
  · simp only [JP, J, if_true, t2]
    push_cast
    refine Finset.sum_congr rfl fun x _ => ?_
    split_ifs <;> push_cast <;> ring

theorem J_halves (a a' : Fin 2) (h : ℝ) :
    J false false a a' (2 * h) = ∑ x : Fin 2 × Fin 2 × Fin 2,
      (wT a x.1 x.2.1 : ℝ) * wT a' x.1 x.2.2 * J false false x.2.1 x.2.2 h := by
  have t1 : ∀ a a', 2 * m1 a a' = ∑ x : Fin 2 × Fin 2 × Fin 2, wT a x.1 x.2.1 * wT a' x.1 x.2.2 * m1 x.2.1 x.2.2 := by
    decide +kernel
  have t := congrArg (fun q : ℚ => (q : ℝ)) (t1 a a')
  push_cast at t
  simp only [J]
  rw [show (2 * h * (m1 a a' : ℝ)) = h * (2 * m1 a a') by ring, t, Finset.mul_sum]
  exact Finset.sum_congr rfl fun x _ => by ring

/-- A sum on triples of corners, direction by direction. -/
theorem sum_triples (F : (Fin d → Fin 2) → (Fin d → Fin 2) → (Fin d → Fin 2) → ℝ) :
    ∑ x : Fin d → Fin 2 × Fin 2 × Fin 2, F (fun i => (x i).1) (fun i => (x i).2.1) (fun i => (x i).2.2) =
      ∑ s, ∑ b, ∑ b', F s b b' := by
  have e : ∀ (α β : Type) [Fintype α] [Fintype β] [DecidableEq α] [DecidableEq β]
      (G : (Fin d → α) → (Fin d → β) → ℝ),
      ∑ x : Fin d → α × β, G (fun i => (x i).1) (fun i => (x i).2) = ∑ s, ∑ b, G s b := by
    intro α β _ _ _ _ G
    rw [← Fintype.sum_prod_type']
    exact Fintype.sum_equiv (Equiv.arrowProdEquivProdArrow (Fin d) (fun _ => α) (fun _ => β)) _ _ fun x => rfl
  refine (e (Fin 2) (Fin 2 × Fin 2) fun s y => F s (fun i => (y i).1) (fun i => (y i).2)).trans ?_
  exact Finset.sum_congr rfl fun s _ => e _ _ fun b b' => F s b b'

/-- The pressure of a coarse cell at the corners of one of its parts. -/
noncomputable def fineP (q : (Fin d → Fin 2) → ℝ) (s b : Fin d → Fin 2) : ℝ :=
  ∑ a, q a * ∏ i, (wT (a i) (s i) (b i) : ℝ)

theorem macro_div (h : Pos d ℝ) (q : (Fin d → Fin 2) → ℝ) (U : (Fin d → Fin 3) → ℝ) (c : Fin d) :
    ∑ a : Fin d → Fin 2, ∑ t : Fin d → Fin 3, q a * U t * ∏ i, JP (decide (c = i)) (a i) (t i) (h i) =
      ∑ s : Fin d → Fin 2, ∑ b : Fin d → Fin 2, ∑ b' : Fin d → Fin 2, fineP q s b' * U (fun i => addF (s i) (b i)) *
        ∏ i, J false (decide (c = i)) (b' i) (b i) (h i) := by
  have key : ∀ a : Fin d → Fin 2, ∑ t : Fin d → Fin 3, U t * ∏ i, JP (decide (c = i)) (a i) (t i) (h i) =
      ∑ s : Fin d → Fin 2, ∑ b : Fin d → Fin 2, ∑ b' : Fin d → Fin 2, (∏ i, (wT (a i) (s i) (b' i) : ℝ)) * U (fun i => addF (s i) (b i)) *
        ∏ i, J false (decide (c = i)) (b' i) (b i) (h i) := by
    intro a
    rw [← sum_triples fun s b b' => (∏ i, (wT (a i) (s i) (b' i) : ℝ)) * U (fun i => addF (s i) (b i)) *
        ∏ i, J false (decide (c = i)) (b' i) (b i) (h i)]
    have e : ∀ t : Fin d → Fin 3, ∏ i, JP (decide (c = i)) (a i) (t i) (h i) =
        ∑ x : Fin d → Fin 2 × Fin 2 × Fin 2, if (fun i => addF (x i).1 (x i).2.1) = t then
          (∏ i, (wT (a i) (x i).1 (x i).2.2 : ℝ)) * ∏ i, J false (decide (c = i)) (x i).2.2 (x i).2.1 (h i) else 0 := by
      intro t
      simp only [JP_halves]
      rw [Finset.prod_univ_sum, Fintype.piFinset_univ]
      refine Finset.sum_congr rfl fun x _ => ?_
      by_cases ht : (fun i => addF (x i).1 (x i).2.1) = t
      · rw [if_pos ht, ← Finset.prod_mul_distrib]
        exact Finset.prod_congr rfl fun i _ => if_pos (congrFun ht i)
      · rw [if_neg ht]
        obtain ⟨i, hi⟩ := Function.ne_iff.1 ht
        exact Finset.prod_eq_zero (Finset.mem_univ i) (if_neg hi)
    simp only [e, Finset.mul_sum]
    rw [Finset.sum_comm]
    refine Finset.sum_congr rfl fun x _ => ?_
    simp only [mul_ite, mul_zero]
    rw [Finset.sum_ite_eq, if_pos (Finset.mem_univ _)]
    ring
  have e0 : ∀ a : Fin d → Fin 2, ∑ t : Fin d → Fin 3, q a * U t * ∏ i, JP (decide (c = i)) (a i) (t i) (h i) =
      q a * ∑ t : Fin d → Fin 3, U t * ∏ i, JP (decide (c = i)) (a i) (t i) (h i) := by
    intro a; rw [Finset.mul_sum]; exact Finset.sum_congr rfl fun t _ => by ring
  simp only [e0, key, fineP, Finset.sum_mul, Finset.mul_sum]
  rw [Finset.sum_comm]
  refine Finset.sum_congr rfl fun s _ => ?_
  rw [Finset.sum_comm]
  refine Finset.sum_congr rfl fun b _ => ?_
  rw [Finset.sum_comm]
  refine Finset.sum_congr rfl fun b' _ => Finset.sum_congr rfl fun a _ => by ring

theorem macro_mass (h : Pos d ℝ) (q : (Fin d → Fin 2) → ℝ) :
    ∑ a : Fin d → Fin 2, ∑ a' : Fin d → Fin 2, q a * q a' * ∏ i, J false false (a i) (a' i) (2 * h i) =
      ∑ s : Fin d → Fin 2, ∑ b : Fin d → Fin 2, ∑ b' : Fin d → Fin 2, fineP q s b * fineP q s b' * ∏ i, J false false (b i) (b' i) (h i) := by
  have key : ∀ a a' : Fin d → Fin 2, ∏ i, J false false (a i) (a' i) (2 * h i) =
      ∑ s : Fin d → Fin 2, ∑ b : Fin d → Fin 2, ∑ b' : Fin d → Fin 2, (∏ i, (wT (a i) (s i) (b i) : ℝ)) * (∏ i, (wT (a' i) (s i) (b' i) : ℝ)) *
        ∏ i, J false false (b i) (b' i) (h i) := by
    intro a a'
    rw [← sum_triples fun s b b' => (∏ i, (wT (a i) (s i) (b i) : ℝ)) * (∏ i, (wT (a' i) (s i) (b' i) : ℝ)) *
        ∏ i, J false false (b i) (b' i) (h i)]
    simp only [J_halves]
    rw [Finset.prod_univ_sum, Fintype.piFinset_univ]
    exact Finset.sum_congr rfl fun x _ => by rw [← Finset.prod_mul_distrib, ← Finset.prod_mul_distrib]
  have e1 : ∀ s b b' : Fin d → Fin 2, fineP q s b * fineP q s b' * ∏ i, J false false (b i) (b' i) (h i) =
      ∑ a : Fin d → Fin 2, ∑ a' : Fin d → Fin 2, q a * q a' * ((∏ i, (wT (a i) (s i) (b i) : ℝ)) * (∏ i, (wT (a' i) (s i) (b' i) : ℝ)) *
        ∏ i, J false false (b i) (b' i) (h i)) := by
    intro s b b'
    unfold fineP
    rw [Finset.sum_mul_sum, Finset.sum_mul]
    refine Finset.sum_congr rfl fun a _ => ?_
    rw [Finset.sum_mul]
    exact Finset.sum_congr rfl fun a' _ => by ring
  have e2 : ∀ a a' : Fin d → Fin 2, q a * q a' * ∏ i, J false false (a i) (a' i) (2 * h i) =
      ∑ s : Fin d → Fin 2, ∑ b : Fin d → Fin 2, ∑ b' : Fin d → Fin 2, q a * q a' * ((∏ i, (wT (a i) (s i) (b i) : ℝ)) * (∏ i, (wT (a' i) (s i) (b' i) : ℝ)) *
        ∏ i, J false false (b i) (b' i) (h i)) := by
    intro a a'; rw [key]; simp only [Finset.mul_sum]
  simp only [e1, e2]
  rw [Finset.sum_congr rfl fun a _ => Finset.sum_comm]
  rw [Finset.sum_comm]
  refine Finset.sum_congr rfl fun s _ => ?_
  rw [Finset.sum_congr rfl fun a _ => Finset.sum_comm]
  rw [Finset.sum_comm]
  refine Finset.sum_congr rfl fun b _ => ?_
  rw [Finset.sum_congr rfl fun a _ => Finset.sum_comm]
  rw [Finset.sum_comm]

/-- Positivity on a velocity cell of the square of a pressure plus a divergence. -/
def CellPsd (h : Pos d ℝ) : Prop := ∀ (P : (Fin d → Fin 2) → ℝ) (U : (Fin d → Fin 2) → Fin d → ℝ),
  0 ≤ ∑ b, ∑ b', P b * P b' * ∏ i, J false false (b i) (b' i) (h i) +
    2 * ∑ c, ∑ b, ∑ b', P b' * U b c * ∏ i, J false (decide (c = i)) (b' i) (b i) (h i) +
    ∑ c, ∑ c', ∑ b, ∑ b', U b c * U b' c' * ∏ i, J (decide (c = i)) (decide (c' = i)) (b i) (b' i) (h i)

/-- Form of the divergences on the cell `e`. -/
noncomputable def divCell (L : Fin d → Dir) (h : Pos d ℝ) (u : NodeVec d d ℝ) (e : Pos d ℤ) : ℝ :=
  ∑ c : Fin d, ∑ c' : Fin d, ∑ b : Fin d → Fin 2, ∑ b' : Fin d → Fin 2, u (wrap L fun i => e i + ((b i : ℕ) : ℤ)) c * u (wrap L fun i => e i + ((b' i : ℕ) : ℤ)) c' *
    ∏ i, J (decide (c = i)) (decide (c' = i)) (b i) (b' i) (h i)

/-- The velocity cells are the parts of the pressure cells. -/
theorem sum_parts (N : Fin d → ℤ) (per : Fin d → Bool) (lx : Fin d → List ℤ) (F : Pos d ℤ → ℝ) :
    ∑ e ∈ gridElems (presLayout N per lx), ∑ s : Fin d → Fin 2, F (fun i => 2 * e i + ((s i : ℕ) : ℤ)) =
      ∑ e ∈ gridElems (velLayout N per lx), F e := by
  rw [← Finset.sum_product']
  have hm : ∀ i, (velLayout N per lx i).nElem = 2 * (presLayout N per lx i).nElem := by
    intro i
    simp only [velLayout, velDir, presLayout, presDir, Dir.nElem, meshVel, meshPres]
    split_ifs <;> omega
  refine Finset.sum_bij (fun x _ i => 2 * x.1 i + ((x.2 i : ℕ) : ℤ)) ?_ ?_ ?_ (fun _ _ => rfl)
  · intro x hx
    rw [Finset.mem_product, mem_gridElems] at hx
    rw [mem_gridElems]
    intro i
    have := hx.1 i; have := hm i; have := (x.2 i).2
    omega
  · intro x _ y _ hxy
    have e : ∀ i, x.1 i = y.1 i ∧ x.2 i = y.2 i := fun i => by
      have h0 := congrFun hxy i
      have := (x.2 i).2; have := (y.2 i).2
      refine ⟨by omega, Fin.ext (by omega)⟩
    exact Prod.ext (funext fun i => (e i).1) (funext fun i => (e i).2)
  · intro e he
    rw [mem_gridElems] at he
    refine ⟨(fun i => e i / 2, fun i => ⟨(e i % 2).toNat, by omega⟩), ?_, ?_⟩
    · rw [Finset.mem_product, mem_gridElems]
      exact ⟨fun i => by have := he i; have := hm i; simp only; omega, Finset.mem_univ _⟩
    · funext i
      simp only
      omega

/-- The positivity on a cell from its form as the square of a sum. -/
theorem cellPsd_of (h : Pos d ℝ) (H : ∀ cf : (Fin d → Fin 2) × Option (Fin d) → ℝ,
    0 ≤ ∑ x, ∑ y, cf x * cf y * ∏ i, J (decide (x.2 = some i)) (decide (y.2 = some i)) (x.1 i) (y.1 i) (h i)) :
    CellPsd h := by
  intro P U
  refine (H fun x => x.2.elim (P x.1) (U x.1)).trans (le_of_eq ?_)
  simp only [Fintype.sum_prod_type, Fintype.sum_option, Option.elim, reduceCtorEq, decide_false, Option.some.injEq,
    Finset.sum_add_distrib]
  have hs : ∀ (dd ee : Bool) (a b : Fin 2) (t : ℝ), J dd ee a b t = J ee dd b a t := by
    intro dd ee a b t
    cases dd <;> cases ee <;> simp only [J]
    · rw [show m1 a b = m1 b a from (by decide +kernel : ∀ a b, m1 a b = m1 b a) a b]
    · rw [show k1 a b = k1 b a from (by decide +kernel : ∀ a b, k1 a b = k1 b a) a b]
  have e1 : ∑ b : Fin d → Fin 2, ∑ b' : Fin d → Fin 2, ∑ c, P b * U b' c *
      ∏ i, J false (decide (c = i)) (b i) (b' i) (h i) =
      ∑ c, ∑ b : Fin d → Fin 2, ∑ b' : Fin d → Fin 2, P b' * U b c *
        ∏ i, J false (decide (c = i)) (b' i) (b i) (h i) := by
    rw [Finset.sum_comm, Finset.sum_congr rfl fun b _ => Finset.sum_comm, Finset.sum_comm]
  have e2 : ∑ b : Fin d → Fin 2, ∑ c, ∑ b' : Fin d → Fin 2, U b c * P b' *
      ∏ i, J (decide (c = i)) false (b i) (b' i) (h i) =
      ∑ c, ∑ b : Fin d → Fin 2, ∑ b' : Fin d → Fin 2, P b' * U b c *
        ∏ i, J false (decide (c = i)) (b' i) (b i) (h i) := by
    rw [Finset.sum_comm]
    refine Finset.sum_congr rfl fun c _ => Finset.sum_congr rfl fun b _ => Finset.sum_congr rfl fun b' _ => ?_
    rw [Finset.prod_congr rfl fun i _ => hs _ _ _ _ _]
    ring
  have e3 : ∑ b : Fin d → Fin 2, ∑ c, ∑ b' : Fin d → Fin 2, ∑ c', U b c * U b' c' *
      ∏ i, J (decide (c = i)) (decide (c' = i)) (b i) (b' i) (h i) =
      ∑ c, ∑ c', ∑ b : Fin d → Fin 2, ∑ b' : Fin d → Fin 2, U b c * U b' c' *
      ∏ i, J (decide (c = i)) (decide (c' = i)) (b i) (b' i) (h i) := by
    rw [Finset.sum_comm]
    refine Finset.sum_congr rfl fun c _ => ?_
    rw [Finset.sum_congr rfl fun b _ => Finset.sum_comm, Finset.sum_comm]
  rw [e1, e2, e3]
  ring

theorem cellPsd2 (h : Pos 2 ℝ) (hh : ∀ c, 0 < h c) : CellPsd h := by
  refine cellPsd_of h fun cf => ?_
  have hb := int2_bilin h
    (fun (x : (Fin 2 → Fin 2) × Option (Fin 2)) s t => fac (decide (x.2 = some 0)) (x.1 0) (h 0) s *
      fac (decide (x.2 = some 1)) (x.1 1) (h 1) t)
    (fun (x : (Fin 2 → Fin 2) × Option (Fin 2)) s t => fac (decide (x.2 = some 0)) (x.1 0) (h 0) s *
      fac (decide (x.2 = some 1)) (x.1 1) (h 1) t)
    (fun i j => by
      have := fun dd b t => continuous_fac dd b t
      fun_prop) cf cf
  refine le_of_le_of_eq (int2_nonneg h hh _ fun s t => mul_self_nonneg _) (hb.trans ?_)
  refine Finset.sum_congr rfl fun x _ => Finset.sum_congr rfl fun y _ => congrArg _ ?_
  rw [Fin.prod_univ_two, ← int_fac _ _ _ _ _ (hh 0).ne', ← int_fac _ _ _ _ _ (hh 1).ne', ← int2_mul]
  congr 1; funext s t; ring

theorem cellPsd3 (h : Pos 3 ℝ) (hh : ∀ c, 0 < h c) : CellPsd h := by
  refine cellPsd_of h fun cf => ?_
  have hb := int3_bilin h
    (fun (x : (Fin 3 → Fin 2) × Option (Fin 3)) s t r => fac (decide (x.2 = some 0)) (x.1 0) (h 0) s *
      fac (decide (x.2 = some 1)) (x.1 1) (h 1) t * fac (decide (x.2 = some 2)) (x.1 2) (h 2) r)
    (fun (x : (Fin 3 → Fin 2) × Option (Fin 3)) s t r => fac (decide (x.2 = some 0)) (x.1 0) (h 0) s *
      fac (decide (x.2 = some 1)) (x.1 1) (h 1) t * fac (decide (x.2 = some 2)) (x.1 2) (h 2) r)
    (fun i j => by
      have := fun dd b t => continuous_fac dd b t
      fun_prop) cf cf
  refine le_of_le_of_eq (int3_nonneg h hh _ fun s t r => mul_self_nonneg _) (hb.trans ?_)
  refine Finset.sum_congr rfl fun x _ => Finset.sum_congr rfl fun y _ => congrArg _ ?_
  rw [Fin.prod_univ_three, ← int_fac _ _ _ _ _ (hh 0).ne', ← int_fac _ _ _ _ _ (hh 1).ne',
    ← int_fac _ _ _ _ _ (hh 2).ne', ← int3_mul]
  congr 1; funext s t r; ring

/-- The forms of the divergences, as in the operators. -/
theorem divCell_eq {NE : ℕ} (L : Fin d → Dir) (elem : Pos d ℤ → Fin NE → Pos d ℤ) (bit : Fin NE → Fin d → Fin 2)
    (hbit : Function.Bijective bit) (hel : ∀ e k i, elem e k i = e i + ((bit k i : ℕ) : ℤ)) (h : Pos d ℝ)
    (u : NodeVec d d ℝ) (e : Pos d ℤ) :
    divCell L h u e = ∑ x : Fin NE × Fin d, ∑ y : Fin NE × Fin d,
      u (wrap L (elem e x.1)) x.2 * u (wrap L (elem e y.1)) y.2 *
        ∏ i, J (decide (x.2 = i)) (decide (y.2 = i)) (bit x.1 i) (bit y.1 i) (h i) := by
  have hP : ∀ k, elem e k = fun i => e i + ((bit k i : ℕ) : ℤ) := fun k => funext fun i => hel e k i
  unfold divCell
  simp only [Fintype.sum_prod_type_right, hP]
  refine Finset.sum_congr rfl fun c _ => ?_
  rw [Finset.sum_comm]
  refine (Fintype.sum_bijective bit hbit _ _ fun k => ?_).symm
  refine Finset.sum_congr rfl fun c' _ => ?_
  exact Fintype.sum_bijective bit hbit _ _ fun k' => rfl

section cs
variable {NP NV : ℕ} (N : Fin d → ℤ) (per : Fin d → Bool)
  (lx : Fin d → List ℤ) (hne : ∀ i, lx i ≠ []) (hW : ∀ i, (presLayout N per lx i).WF)
  (elemP : Pos d ℤ → Fin NP → Pos d ℤ) (elemV : Pos d ℤ → Fin NV → Pos d ℤ) (hel : IsQ1 elemP)
  (bit : Fin NP → Fin d → Fin 2) (hbit : Function.Bijective bit)
  (hel' : ∀ e k i, elemP e k i = e i + ((bit k i : ℕ) : ℤ))
  (trit : Fin NV → Fin d → Fin 3) (htrit : Function.Bijective trit) (hoff : Is4Q1 elemV trit)
  (B : Fin NP → Fin NV → Fin d → ℝ) (M : Fin NP → Fin NP → ℝ) (h : Pos d ℝ)
  (hB : ∀ i j c, B i j c = ∏ t, JP (decide (c = t)) (bit i t) (trit j t) (h t))
  (hM : ∀ i j, M i j = ∏ t, J false false (bit i t) (bit j t) (2 * h t))
include hne hW hel hbit hel' htrit hoff hB

theorem dot_div_cells (u : NodeVec d d ℝ) (p p' : NodeVec d 1 ℝ) :
    dot (presLayout N per lx) p (offDiagMatrix (velLayout N per lx) (presLayout N per lx) elemP elemV B u p').2 =
    ∑ e ∈ gridElems (presLayout N per lx), ∑ s : Fin d → Fin 2, ∑ c : Fin d, ∑ b : Fin d → Fin 2, ∑ b' : Fin d → Fin 2,
      fineP (fun a => p (wrap (presLayout N per lx) fun i => e i + ((a i : ℕ) : ℤ)) 0) s b' *
        u (wrap (velLayout N per lx) fun i => 2 * e i + ((s i : ℕ) : ℤ) + ((b i : ℕ) : ℤ)) c *
          ∏ i, J false (decide (c = i)) (b' i) (b i) (h i) := by
  rw [dot_pres N per lx hne hW elemP elemV hel trit hoff]
  refine Finset.sum_congr rfl fun e _ => ?_
  have hP : ∀ k, elemP e k = fun i => e i + ((bit k i : ℕ) : ℤ) := fun k => funext fun i => hel' e k i
  have hV : ∀ k, elemV e k = fun i => 2 * e i + ((trit k i : ℕ) : ℤ) := fun k => funext fun i => hoff e k i
  have m := fun c => macro_div h (fun a => p (wrap (presLayout N per lx) fun i => e i + ((a i : ℕ) : ℤ)) 0)
    (fun t => u (wrap (velLayout N per lx) fun i => 2 * e i + ((t i : ℕ) : ℤ)) c) c
  have hadd : ∀ s b : Fin d → Fin 2, (fun i => 2 * e i + ((addF (s i) (b i) : ℕ) : ℤ)) =
      fun i => 2 * e i + ((s i : ℕ) : ℤ) + ((b i : ℕ) : ℤ) := fun s b => by
    funext i; simp only [addF]; push_cast; ring
  simp only [hadd] at m
  refine Eq.trans ?_ Finset.sum_comm
  rw [Finset.sum_congr rfl fun c _ => (m c).symm]
  simp only [Finset.univ_unique, Finset.sum_singleton, Fin.default_eq_zero, hP, hV, hB, Finset.mul_sum]
  rw [Finset.sum_congr rfl fun k _ => Finset.sum_comm, Finset.sum_comm]
  refine Finset.sum_congr rfl fun c _ => ?_
  refine Fintype.sum_bijective bit hbit _ _ fun k => ?_
  refine Fintype.sum_bijective trit htrit _ _ fun j => ?_
  ring

include hM in
theorem div_cs (hpsd : CellPsd h) (u : NodeVec d d ℝ) (p p' : NodeVec d 1 ℝ) :
    dot (presLayout N per lx) p (offDiagMatrix (velLayout N per lx) (presLayout N per lx) elemP elemV B u p').2 ^ 2 ≤
      dot (presLayout N per lx) p (blockMatrix (presLayout N per lx) (diagBlockMult (presLayout N per lx) elemP M) p) *
        ∑ e ∈ gridElems (velLayout N per lx), divCell (velLayout N per lx) h u e := by
  have hX := dot_div_cells N per lx hne hW elemP elemV hel bit hbit hel' trit htrit hoff B h hB u p p'
  have hmass : dot (presLayout N per lx) p (blockMatrix (presLayout N per lx)
      (diagBlockMult (presLayout N per lx) elemP M) p) = ∑ e ∈ gridElems (presLayout N per lx), ∑ s : Fin d → Fin 2,
      ∑ b : Fin d → Fin 2, ∑ b' : Fin d → Fin 2,
      fineP (fun a => p (wrap (presLayout N per lx) fun i => e i + ((a i : ℕ) : ℤ)) 0) s b *
      fineP (fun a => p (wrap (presLayout N per lx) fun i => e i + ((a i : ℕ) : ℤ)) 0) s b' *
        ∏ i, J false false (b i) (b' i) (h i) := by
    rw [dot_diagBlock _ hW _ hel]
    refine Finset.sum_congr rfl fun e _ => ?_
    have hP : ∀ k, elemP e k = fun i => e i + ((bit k i : ℕ) : ℤ) := fun k => funext fun i => hel' e k i
    rw [← macro_mass]
    simp only [Finset.univ_unique, Finset.sum_singleton, Fin.default_eq_zero, hP, hM, Finset.mul_sum]
    refine Fintype.sum_bijective bit hbit _ _ fun k => ?_
    refine Fintype.sum_bijective bit hbit _ _ fun j => ?_
    ring
  rw [← sum_parts, hmass, hX]
  have q := discrim_le_zero (K := ℝ)
    (a := ∑ e ∈ gridElems (presLayout N per lx), ∑ s : Fin d → Fin 2,
      ∑ b : Fin d → Fin 2, ∑ b' : Fin d → Fin 2,
      fineP (fun a => p (wrap (presLayout N per lx) fun i => e i + ((a i : ℕ) : ℤ)) 0) s b *
      fineP (fun a => p (wrap (presLayout N per lx) fun i => e i + ((a i : ℕ) : ℤ)) 0) s b' *
        ∏ i, J false false (b i) (b' i) (h i))
    (b := 2 * ∑ e ∈ gridElems (presLayout N per lx), ∑ s : Fin d → Fin 2, ∑ c : Fin d, ∑ b : Fin d → Fin 2,
      ∑ b' : Fin d → Fin 2,
      fineP (fun a => p (wrap (presLayout N per lx) fun i => e i + ((a i : ℕ) : ℤ)) 0) s b' *
        u (wrap (velLayout N per lx) fun i => 2 * e i + ((s i : ℕ) : ℤ) + ((b i : ℕ) : ℤ)) c *
          ∏ i, J false (decide (c = i)) (b' i) (b i) (h i))
    (c := ∑ e ∈ gridElems (presLayout N per lx), ∑ s : Fin d → Fin 2,
      divCell (velLayout N per lx) h u (fun i => 2 * e i + ((s i : ℕ) : ℤ))) (fun t => by
    rw [Finset.mul_sum, Finset.sum_mul, Finset.sum_mul, ← Finset.sum_add_distrib, ← Finset.sum_add_distrib]
    refine Finset.sum_nonneg fun e _ => ?_
    rw [Finset.mul_sum, Finset.sum_mul, Finset.sum_mul, ← Finset.sum_add_distrib, ← Finset.sum_add_distrib]
    refine Finset.sum_nonneg fun s _ => ?_
    refine (hpsd (fun b => t * fineP (fun a => p (wrap (presLayout N per lx) fun i => e i + ((a i : ℕ) : ℤ)) 0) s b)
      (fun b c => u (wrap (velLayout N per lx) fun i => 2 * e i + ((s i : ℕ) : ℤ) + ((b i : ℕ) : ℤ)) c)).trans
      (le_of_eq ?_)
    unfold divCell
    refine congrArg₂ (· + ·) (congrArg₂ (· + ·) ?_ ?_) rfl
    · simp only [Finset.sum_mul]
      exact Finset.sum_congr rfl fun b _ => Finset.sum_congr rfl fun b' _ => by ring
    · simp only [Finset.sum_mul, Finset.mul_sum]
      exact Finset.sum_congr rfl fun c _ => Finset.sum_congr rfl fun b _ => Finset.sum_congr rfl fun b' _ => by ring)
  unfold discrim at q
  nlinarith [q]

end cs

end Cafes.Props
