/-
C113, the analytic test in 3D.
-/
import Verif.Props.Walls

namespace Cafes.Props
open Cafes Cafes.Spec

/-- C113 (what the analytic test does not give, 3D): no solution of the discrete problem of tests/stokes_analytic_3d.cpp has the
analytic velocity at all the nodes, whatever the mesh: its nodal values do not satisfy the divergence row of a corner. -/
theorem C113_inexact3 (N : Fin 3 → ℤ) (lx : Fin 3 → List ℤ)
    (hne : ∀ i, lx i ≠ []) (hW : ∀ i, (presLayout N (fun _ => false) lx i).WF) (hN : ∀ i, 2 ≤ N i)
    (h : Pos 3 ℝ) (hh : ∀ c, 0 < h c) (rs : List (Fin 3 → ℕ))
    (bc : BC 3 ℝ) (f u : NodeVec 3 3 ℝ) (p : NodeVec 3 1 ℝ) :
    ∀ F ∈ [stokesStrain3 N (fun _ => false) lx rs bc h, stokesLap3 N (fun _ => false) lx rs bc h],
      Solves (velLayout N (fun _ => false) lx) (presLayout N (fun _ => false) lx) F f 0 u p →
      ∃ g ∈ gridNodes (velLayout N (fun _ => false) lx), ∃ c, u g c ≠ analytic3 (fun i => (g i : ℝ) * h i) c := by
  intro F hF hsol
  by_contra hcon
  push Not at hcon
  have hm0 : (fun _ => 0 : Pos 3 ℤ) ∈ gridNodes (presLayout N (fun _ => false) lx) := by
    rw [mem_gridNodes]; intro i; have := hN i
    show (0 : ℤ) ≤ 0 ∧ 0 < N i
    omega
  have hz : (F u p).2 (fun _ => 0) 0 = 0 := hsol.2 _ hm0
  have hz' : (stokesStrain3 N (fun _ => false) lx rs bc h u p).2 (fun _ => 0) 0 = 0 := by
    simp only [List.mem_cons, List.not_mem_nil, or_false] at hF
    rcases hF with rfl | rfl
    · exact hz
    · rw [stokesBC_div N _ lx hne hW _ _ isQ1_3 _ is4Q1_3] at hz ⊢
      exact hz
  rw [stokesBC_div N _ lx hne hW _ _ isQ1_3 _ is4Q1_3] at hz'
  change (stokesMatrix _ _ (fun _ _ y => y) _ _ _ _ _).2 (fun _ => 0) 0 = 0 at hz'
  rw [pres_out N _ lx hne hW _ _ isQ1_3 _ is4Q1_3] at hz'
  have hB : ∀ ip k c, matElemPressure3 h ip k c =
      ∏ i, JP (decide (c = i)) (bit3 ip i) (trit3 k i) (h i) := fun ip k c => by
    rw [pressure3_tensor h hh, Fin.prod_univ_three]
  have h0 := hh 0
  have h1 := hh 1
  have h2 := hh 2
  have hw : ∀ e : Pos 3 ℤ, wrap (presLayout N (fun _ => false) lx) e = e := fun e => by
    funext i; simp [wrap, presLayout, presDir]
  have hw2 : ∀ e : Pos 3 ℤ, wrap (velLayout N (fun _ => false) lx) e = e := fun e => by
    funext i; simp [wrap, velLayout, velDir]
  have hnode : ∀ k, getElement4Q1_3 (fun _ => 0) k ∈ gridNodes (velLayout N (fun _ => false) lx) := fun k => by
    rw [mem_gridNodes]; intro i
    rw [is4Q1_3]
    have := hN i
    have := (trit3 k i).2
    show (0 : ℤ) ≤ 2 * 0 + _ ∧ 2 * 0 + _ < 2 * N i - 1
    constructor <;> omega
  rw [Finset.sum_eq_single (fun _ => 0), Finset.sum_eq_single 0] at hz'
  · rw [hw, if_pos (by funext i; rw [elem3_bit]; fin_cases i <;> rfl)] at hz'
    have := sum_trit3 (fun a b c => analytic3 ![(a : ℕ) * h 0, (b : ℕ) * h 1, (c : ℕ) * h 2] 0 *
        (JP true 0 a (h 0) * JP false 0 b (h 1) * JP false 0 c (h 2)) +
      analytic3 ![(a : ℕ) * h 0, (b : ℕ) * h 1, (c : ℕ) * h 2] 1 *
        (JP false 0 a (h 0) * JP true 0 b (h 1) * JP false 0 c (h 2)) +
      analytic3 ![(a : ℕ) * h 0, (b : ℕ) * h 1, (c : ℕ) * h 2] 2 *
        (JP false 0 a (h 0) * JP false 0 b (h 1) * JP true 0 c (h 2)))
    have e := this.symm.trans (Eq.trans ?_ hz')
    · simp [Fin.sum_univ_three, JP, pT, qT, analytic3] at e
      have hm := mul_pos (mul_pos h0 h1) h2
      have hm0 := mul_pos hm h0
      have hm1 := mul_pos hm h1
      nlinarith
    · refine Finset.sum_congr rfl fun k _ => ?_
      simp only [hw2, hcon _ (hnode k), hB, Fin.sum_univ_three, Fin.prod_univ_three]
      have b : ∀ i, bit3 0 i = 0 := fun i => by fin_cases i <;> rfl
      have x : (fun i => ((getElement4Q1_3 (fun _ => 0) k i : ℤ) : ℝ) * h i) =
          ![((trit3 k 0 : ℕ) : ℝ) * h 0, ((trit3 k 1 : ℕ) : ℝ) * h 1, ((trit3 k 2 : ℕ) : ℝ) * h 2] := by
        funext i
        rw [is4Q1_3]
        fin_cases i <;> simp
      simp [b, x]
  · intro ip _ hip
    rw [hw, if_neg]
    intro hc
    have c0 := congrFun hc 0
    have c1 := congrFun hc 1
    have c2 := congrFun hc 2
    rw [elem3_bit] at c0 c1 c2
    fin_cases ip <;> simp [bit3] at c0 c1 c2 hip
  · simp
  · intro e he hne
    refine Finset.sum_eq_zero fun ip _ => ?_
    rw [hw, if_neg]
    intro hc
    rw [mem_gridElems] at he
    refine hne (funext fun i => ?_)
    have ci := congrFun hc i
    rw [elem3_bit] at ci
    have := (he i).1
    omega
  · intro hc
    refine absurd ?_ hc
    rw [mem_gridElems]
    intro i
    have := hN i
    rw [pres_nElem]
    omega

end Cafes.Props
