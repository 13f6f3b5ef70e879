/-
C113, the lid whose velocity varies, in 3D.
-/
import Verif.Props.Walls

namespace Cafes.Props
open Cafes Cafes.Spec

/-- Walls at rest, except the top one in `y` (the fourth, as in tests/cavity3d.cpp) that slides with the velocity `ψ` along
`x`. -/
def lid3 (ψ : Pos 3 ℝ → ℝ) : ℕ → Fin 3 → (Pos 3 ℝ → ℝ) := fun f c x => if f = 3 ∧ c = 0 then ψ x else 0

theorem lid_values3 (L : Fin 3 → Dir) (hL : ∀ i, (L i).WF) (hp : ∀ i, (L i).periodic = false)
    (rs : List (Fin 3 → ℕ)) (hrs : AllProcs L rs) (h : Pos 3 ℝ) (ψ : Pos 3 ℝ → ℝ)
    (g : Pos 3 ℤ) (hg : g ∈ gridNodes L) :
    (g 1 = (L 1).m - 1 → g 2 ≠ 0 → g 2 ≠ (L 2).m - 1 →
      setDirichletOnRHS L rs (wallsMove (lid3 ψ)) h 0 g 0 = ψ fun i => (g i : ℝ) * h i) ∧
    (¬ (g 1 = (L 1).m - 1 ∧ g 2 ≠ 0 ∧ g 2 ≠ (L 2).m - 1) → setDirichletOnRHS L rs (wallsMove (lid3 ψ)) h 0 g 0 = 0) ∧
    ∀ c, c ≠ 0 → setDirichletOnRHS L rs (wallsMove (lid3 ψ)) h 0 g c = 0 := by
  have r := fun c => C26_rhs L hL rs hrs (wallsMove (lid3 ψ)) h 0 g c
  refine ⟨fun h1 h2 h3 => ?_, fun h1 => ?_, fun c hc0 => ?_⟩
  · have hf : OnFace L g 3 := ⟨1, hp 1, Or.inr ⟨rfl, h1⟩⟩
    rw [(r 0).1 hg _ ⟨3, hf, rfl, fun f' hf' ⟨i, _, hi⟩ => by
      have hi3 := i.2
      exfalso
      have hi2 : i = 2 := Fin.ext (by show i.1 = 2; rcases hi with hi | hi <;> omega)
      subst hi2
      rcases hi with hi | hi
      · exact h2 hi.2
      · exact h3 hi.2⟩]
    simp [lid3]
  · by_cases hc : Constrained L (wallsMove (lid3 ψ)) g 0
    · obtain ⟨ψ', hψ⟩ := (r 0).2.2.1 hc
      rw [(r 0).1 hg ψ' hψ]
      obtain ⟨f, ⟨i, -, hi⟩, e, hlast⟩ := hψ
      simp only [wallsMove, Option.some.injEq] at e
      rw [← e]
      have : ¬ (f = 3 ∧ (0 : Fin 3) = 0) := by
        rintro ⟨rfl, -⟩
        have hi1 : i = 1 := Fin.ext (by show i.1 = 1; have := i.2; omega)
        subst hi1
        have htop : g 1 = (L 1).m - 1 := by
          rcases hi with hi | hi
          · omega
          · exact hi.2
        have hz : g 2 = 0 ∨ g 2 = (L 2).m - 1 := by
          by_contra hz
          rw [not_or] at hz
          exact h1 ⟨htop, hz⟩
        rcases hz with hz | hz
        · exact absurd (hlast 4 (by norm_num) ⟨2, hp 2, Or.inl ⟨rfl, hz⟩⟩) (by simp [wallsMove])
        · exact absurd (hlast 5 (by norm_num) ⟨2, hp 2, Or.inr ⟨rfl, hz⟩⟩) (by simp [wallsMove])
      exact if_neg this
    · rw [(r 0).2.1 fun h => hc h.2]
      rfl
  · by_cases hc : Constrained L (wallsMove (lid3 ψ)) g c
    · obtain ⟨ψ', hψ⟩ := (r c).2.2.1 hc
      rw [(r c).1 hg ψ' hψ]
      obtain ⟨f, -, e, -⟩ := hψ
      simp only [wallsMove, Option.some.injEq] at e
      rw [← e]
      exact if_neg fun h => hc0 h.2
    · rw [(r c).2.1 fun h => hc h.2]
      rfl

theorem sum_grid3 (L : Fin 3 → Dir) (F : Pos 3 ℤ → ℝ) :
    ∑ g ∈ gridNodes L, F g = ∑ j ∈ Finset.Ico 0 (L 1).m, ∑ l ∈ Finset.Ico 0 (L 2).m, ∑ k ∈ Finset.Ico 0 (L 0).m,
      F ![k, j, l] := by
  have e : ∀ g : Pos 3 ℤ, (![g 0, g 1, g 2] : Pos 3 ℤ) = g := fun g => by funext i; fin_cases i <;> rfl
  rw [← Finset.sum_product', ← Finset.sum_product']
  refine Finset.sum_bij' (fun g _ => ((g 1, g 2), g 0)) (fun q _ => (![q.2, q.1.1, q.1.2] : Pos 3 ℤ)) ?_ ?_ ?_ ?_ ?_
  · intro g hg
    have := (mem_gridNodes L g).1 hg
    simp only [Finset.mem_product, Finset.mem_Ico]
    exact ⟨⟨this 1, this 2⟩, this 0⟩
  · intro q hq
    simp only [Finset.mem_product, Finset.mem_Ico] at hq
    rw [mem_gridNodes]
    intro i
    fin_cases i
    · exact hq.2
    · exact hq.1.1
    · exact hq.1.2
  · intro g _; exact e g
  · intro q _; rfl
  · intro g _; exact congrArg F (e g).symm

theorem lid_flux3 (L : Fin 3 → Dir) (hL : ∀ i, (L i).WF) (hp : ∀ i, (L i).periodic = false) (hm : ∀ i, 2 ≤ (L i).m)
    (rs : List (Fin 3 → ℕ)) (hrs : AllProcs L rs) (h : Pos 3 ℝ) (ψ : Pos 3 ℝ → ℝ) :
    wallFlux L h (setDirichletOnRHS L rs (wallsMove (lid3 ψ)) h 0) =
      (∑ l ∈ Finset.Ico 1 ((L 2).m - 1), (ψ ![(((L 0).m - 1 : ℤ) : ℝ) * h 0, (((L 1).m - 1 : ℤ) : ℝ) * h 1, (l : ℝ) * h 2] -
        ψ ![0, (((L 1).m - 1 : ℤ) : ℝ) * h 1, (l : ℝ) * h 2])) * (h 1 / 2 * h 2) := by
  have hv := lid_values3 L hL hp rs hrs h ψ
  set U := setDirichletOnRHS L rs (wallsMove (lid3 ψ)) h 0 with hU
  have m0 := hm 0
  have m1 := hm 1
  have m2 := hm 2
  have hmem : ∀ k j l : ℤ, 0 ≤ k → k < (L 0).m → 0 ≤ j → j < (L 1).m → 0 ≤ l → l < (L 2).m →
      (![k, j, l] : Pos 3 ℤ) ∈ gridNodes L := fun k j l a1 a2 a3 a4 a5 a6 => by
    rw [mem_gridNodes]; intro i; fin_cases i
    · exact ⟨a1, a2⟩
    · exact ⟨a3, a4⟩
    · exact ⟨a5, a6⟩
  unfold wallFlux
  rw [Fin.sum_univ_three, Finset.sum_eq_zero (s := gridNodes L) (f := fun g => outward (L 1) (g 1) * U g 1 *
    ∏ j ∈ Finset.univ.erase 1, trapezoid (L j) (g j) * h j) fun g hg => by rw [(hv g hg).2.2 1 (by decide)]; ring,
    Finset.sum_eq_zero (s := gridNodes L) (f := fun g => outward (L 2) (g 2) * U g 2 *
    ∏ j ∈ Finset.univ.erase 2, trapezoid (L j) (g j) * h j) fun g hg => by rw [(hv g hg).2.2 2 (by decide)]; ring,
    add_zero, add_zero]
  have he : (Finset.univ.erase (0 : Fin 3)) = {1, 2} := by decide
  have h12 : (1 : Fin 3) ≠ 2 := by decide
  simp only [he, Finset.prod_pair h12]
  rw [sum_grid3]
  have hk : ∀ j l : ℤ, ∑ k ∈ Finset.Ico 0 (L 0).m, outward (L 0) ((![k, j, l] : Pos 3 ℤ) 0) * U ![k, j, l] 0 *
      (trapezoid (L 1) ((![k, j, l] : Pos 3 ℤ) 1) * h 1 * (trapezoid (L 2) ((![k, j, l] : Pos 3 ℤ) 2) * h 2)) =
      (U ![(L 0).m - 1, j, l] 0 - U ![0, j, l] 0) * (trapezoid (L 1) j * h 1 * (trapezoid (L 2) l * h 2)) := fun j l => by
    rw [← sum_outward (L 0) (hp 0) (by omega) (fun k => U ![k, j, l] 0), Finset.sum_mul]
    rfl
  simp only [hk]
  rw [Finset.sum_eq_single ((L 1).m - 1)]
  · have t1 : trapezoid (L 1) ((L 1).m - 1) = 1 / 2 := by simp [trapezoid, hp 1]
    rw [← Finset.sum_subset (s₁ := Finset.Ico 1 ((L 2).m - 1)), Finset.sum_mul]
    · refine Finset.sum_congr rfl fun l hl => ?_
      rw [Finset.mem_Ico] at hl
      have t2 : trapezoid (L 2) l = 1 := by
        have a : ¬ l = 0 := by omega
        have b : ¬ l = (L 2).m - 1 := by omega
        simp [trapezoid, hp 2, a, b]
      rw [(hv _ (hmem _ ((L 1).m - 1) l (by omega) (by omega) (by omega) (by omega) (by omega) (by omega))).1 rfl
          (show l ≠ 0 by omega) (show l ≠ (L 2).m - 1 by omega),
        (hv _ (hmem 0 ((L 1).m - 1) l (by omega) (by omega) (by omega) (by omega) (by omega) (by omega))).1 rfl
          (show l ≠ 0 by omega) (show l ≠ (L 2).m - 1 by omega), t1, t2]
      have e1 : (fun i => (((![(L 0).m - 1, (L 1).m - 1, l] : Pos 3 ℤ) i : ℤ) : ℝ) * h i) =
          ![(((L 0).m - 1 : ℤ) : ℝ) * h 0, (((L 1).m - 1 : ℤ) : ℝ) * h 1, (l : ℝ) * h 2] := by
        funext i; fin_cases i <;> rfl
      have e2 : (fun i => (((![0, (L 1).m - 1, l] : Pos 3 ℤ) i : ℤ) : ℝ) * h i) =
          ![0, (((L 1).m - 1 : ℤ) : ℝ) * h 1, (l : ℝ) * h 2] := by
        funext i; fin_cases i
        · show ((0 : ℤ) : ℝ) * h 0 = 0; simp
        · rfl
        · rfl
      rw [e1, e2]; ring
    · intro l hl
      rw [Finset.mem_Ico] at hl ⊢
      omega
    · intro l hl hn
      rw [Finset.mem_Ico] at hl hn
      have hz : l = 0 ∨ l = (L 2).m - 1 := by omega
      have hno : ∀ k : ℤ, ¬ ((![k, (L 1).m - 1, l] : Pos 3 ℤ) 1 = (L 1).m - 1 ∧ (![k, (L 1).m - 1, l] : Pos 3 ℤ) 2 ≠ 0 ∧
          (![k, (L 1).m - 1, l] : Pos 3 ℤ) 2 ≠ (L 2).m - 1) := fun k hk => hz.elim hk.2.1 hk.2.2
      rw [(hv _ (hmem _ ((L 1).m - 1) l (by omega) (by omega) (by omega) (by omega) (by omega) (by omega))).2.1 (hno _),
        (hv _ (hmem 0 ((L 1).m - 1) l (by omega) (by omega) (by omega) (by omega) (by omega) (by omega))).2.1 (hno _)]
      ring
  · intro j hj hne
    rw [Finset.mem_Ico] at hj
    refine Finset.sum_eq_zero fun l hl => ?_
    rw [Finset.mem_Ico] at hl
    rw [(hv _ (hmem _ j l (by omega) (by omega) (by omega) (by omega) (by omega) (by omega))).2.1 fun hk => hne hk.1,
      (hv _ (hmem 0 j l (by omega) (by omega) (by omega) (by omega) (by omega) (by omega))).2.1 fun hk => hne hk.1]
    ring
  · intro hn
    exact absurd (Finset.mem_Ico.2 ⟨by omega, by omega⟩) hn

/-- C113 (lid, 3D): in a closed box at rest whose top wall slides along `x` with the velocity `ψ`, a function of the point, the
discrete problem is solvable if and only if the values of `ψ` have the same sum on the interior nodes of the two edges where
the lid meets the walls that face its motion. -/
theorem C113_lid3 (N : Fin 3 → ℤ) (lx : Fin 3 → List ℤ)
    (hne : ∀ i, lx i ≠ []) (hW : ∀ i, (presLayout N (fun _ => false) lx i).WF) (hN : Fine N)
    (h : Pos 3 ℝ) (hh : ∀ c, 0 < h c) (rs : List (Fin 3 → ℕ)) (hrs : AllProcs (velLayout N (fun _ => false) lx) rs)
    (ψ : Pos 3 ℝ → ℝ) (src : Fin 3 → Cond 3 ℝ) :
    ∀ F ∈ [stokesStrain3 N (fun _ => false) lx rs (wallsMove (lid3 ψ)) h,
        stokesLap3 N (fun _ => false) lx rs (wallsMove (lid3 ψ)) h],
      (∃ u p, Solves (velLayout N (fun _ => false) lx) (presLayout N (fun _ => false) lx) F
        (stokesSetupRHS (velLayout N (fun _ => false) lx) rs src (wallsMove (lid3 ψ)) h
          (diagBlockMult (velLayout N (fun _ => false) lx) getElement3 (matElemMass3 h)) 0) 0 u p) ↔
      ∑ k ∈ Finset.Ico 1 (2 * (N 2 - 1)), ψ ![2 * (N 0 - 1) * h 0, 2 * (N 1 - 1) * h 1, (k : ℝ) * h 2] =
        ∑ k ∈ Finset.Ico 1 (2 * (N 2 - 1)), ψ ![0, 2 * (N 1 - 1) * h 1, (k : ℝ) * h 2] := by
  have hv := velLayout_wf N (fun _ => false) lx hne hW
  have hw := walls_held_all N (fun _ => false) lx hN.1 (lid3 ψ) ⟨0, rfl⟩
  have key := C94_problem3 N (fun _ => false) lx hne hW hN h hh rs hrs (wallsMove (lid3 ψ)) (fun _ _ => ⟨rfl, rfl⟩) getElement3
    isQ1_3 (matElemMass3 h) src 0 (setDirichletOnRHS (velLayout N (fun _ => false) lx) rs (wallsMove (lid3 ψ)) h 0)
    fun g hg a ψ' hψ => (C26_rhs _ hv rs hrs (wallsMove (lid3 ψ)) h 0 g a).1 hg ψ' hψ
  have hm : ∀ i, (velLayout N (fun _ => false) lx i).m = 2 * N i - 1 := fun i => rfl
  have hfl := lid_flux3 (velLayout N (fun _ => false) lx) hv (fun _ => rfl)
    (fun i => by rw [hm]; have := hN.1 i; omega) rs hrs h ψ
  have hiff : wallFlux (velLayout N (fun _ => false) lx) h
      (setDirichletOnRHS (velLayout N (fun _ => false) lx) rs (wallsMove (lid3 ψ)) h 0) = 0 ↔
      ∑ k ∈ Finset.Ico 1 (2 * (N 2 - 1)), ψ ![2 * (N 0 - 1) * h 0, 2 * (N 1 - 1) * h 1, (k : ℝ) * h 2] =
        ∑ k ∈ Finset.Ico 1 (2 * (N 2 - 1)), ψ ![0, 2 * (N 1 - 1) * h 1, (k : ℝ) * h 2] := by
    rw [hfl, Finset.sum_sub_distrib]
    have e : ∀ i, (((velLayout N (fun _ => false) lx i).m - 1 : ℤ) : ℝ) * h i = 2 * (N i - 1) * h i := fun i => by
      rw [hm]; push_cast; ring
    have e2 : (velLayout N (fun _ => false) lx 2).m - 1 = 2 * (N 2 - 1) := by rw [hm]; ring
    rw [e 0, e 1, e2]
    have h1 := hh 1
    have h2 := hh 2
    have hpos : h 1 / 2 * h 2 ≠ 0 := by positivity
    rw [mul_eq_zero, or_iff_left hpos, sub_eq_zero]
  intro F hF
  simp only [List.mem_cons, List.not_mem_nil, or_false] at hF
  rcases hF with rfl | rfl
  · exact (key.1 hw).trans hiff
  · exact (key.2 hw.components).trans hiff

/-- Concrete cases of `C113_lid3`, on every mesh: a lid that stretches (`ψ = x`) has no discrete flow, a lid whose velocity
only depends on `y` and `z` has one. -/
theorem C113_stretch3 (N : Fin 3 → ℤ) (lx : Fin 3 → List ℤ)
    (hne : ∀ i, lx i ≠ []) (hW : ∀ i, (presLayout N (fun _ => false) lx i).WF) (hN : Fine N)
    (h : Pos 3 ℝ) (hh : ∀ c, 0 < h c) (rs : List (Fin 3 → ℕ)) (hrs : AllProcs (velLayout N (fun _ => false) lx) rs)
    (η : ℝ → ℝ → ℝ) (src : Fin 3 → Cond 3 ℝ) :
    (¬ ∃ u p, Solves (velLayout N (fun _ => false) lx) (presLayout N (fun _ => false) lx)
      (stokesStrain3 N (fun _ => false) lx rs (wallsMove (lid3 fun x => x 0)) h)
      (stokesSetupRHS (velLayout N (fun _ => false) lx) rs src (wallsMove (lid3 fun x => x 0)) h
        (diagBlockMult (velLayout N (fun _ => false) lx) getElement3 (matElemMass3 h)) 0) 0 u p) ∧
    ∃ u p, Solves (velLayout N (fun _ => false) lx) (presLayout N (fun _ => false) lx)
      (stokesStrain3 N (fun _ => false) lx rs (wallsMove (lid3 fun x => η (x 1) (x 2))) h)
      (stokesSetupRHS (velLayout N (fun _ => false) lx) rs src (wallsMove (lid3 fun x => η (x 1) (x 2))) h
        (diagBlockMult (velLayout N (fun _ => false) lx) getElement3 (matElemMass3 h)) 0) 0 u p := by
  refine ⟨fun hs => ?_, ?_⟩
  · have := (C113_lid3 N lx hne hW hN h hh rs hrs (fun x => x 0) src _ (by simp)).1 hs
    simp only [Matrix.cons_val_zero, Finset.sum_const_zero, Finset.sum_const, Int.card_Ico] at this
    have n0 := hN.1 0
    have n2 := hN.1 2
    have h0 := hh 0
    have c0 : (0 : ℝ) < 2 * (N 0 - 1) * h 0 := by
      have : (2 : ℝ) ≤ N 0 := by exact_mod_cast n0
      exact mul_pos (by linarith) h0
    rw [nsmul_eq_mul, mul_eq_zero, or_iff_left c0.ne'] at this
    have h3 : (2 * (N 2 - 1) - 1).toNat = 0 := by exact_mod_cast this
    omega
  · exact (C113_lid3 N lx hne hW hN h hh rs hrs (fun x => η (x 1) (x 2)) src _ (by simp)).2 rfl

end Cafes.Props
