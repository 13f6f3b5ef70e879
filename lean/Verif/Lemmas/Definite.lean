/-
Definiteness of the diffusion forms on one cell: an integral of a non negative continuous function
that vanishes has a zero integrand, hence a cell without energy carries a constant (Laplacian) or a
rigid motion (strain tensor).
-/
import Verif.Props.Energy

namespace Cafes.Spec
open intervalIntegral

theorem int1_zero (h : ℝ) (hh : 0 < h) (f : ℝ → ℝ) (hf : Continuous f) (h0 : ∀ x, 0 ≤ f x)
    (hz : ∫ x in (0:ℝ)..h, f x = 0) : ∀ x ∈ Set.Icc 0 h, f x = 0 := by
  intro x hx
  by_contra hne
  have := intervalIntegral.integral_pos (f := f) hh hf.continuousOn (fun y _ => h0 y)
    ⟨x, hx, lt_of_le_of_ne (h0 x) (Ne.symm hne)⟩
  exact this.ne' hz

theorem int2_zero_imp (h : Fin 2 → ℝ) (hh : ∀ c, 0 < h c) (F : ℝ → ℝ → ℝ)
    (hF : Continuous fun v : ℝ × ℝ => F v.1 v.2) (h0 : ∀ x y, 0 ≤ F x y) (hz : int2 h F = 0) :
    ∀ x ∈ Set.Icc 0 (h 0), ∀ y ∈ Set.Icc 0 (h 1), F x y = 0 := by
  have hc : Continuous fun x => ∫ y in (0:ℝ)..h 1, F x y :=
    intervalIntegral.continuous_parametric_intervalIntegral_of_continuous' hF _ _
  intro x hx y hy
  have h1 := int1_zero (h 0) (hh 0) _ hc
    (fun x => integral_nonneg_of_forall (hh 1).le fun y => h0 x y) hz x hx
  exact int1_zero (h 1) (hh 1) _ (hF.comp (continuous_const.prodMk continuous_id)) (h0 x) h1 y hy

theorem int3_zero_imp (h : Fin 3 → ℝ) (hh : ∀ c, 0 < h c) (F : ℝ → ℝ → ℝ → ℝ)
    (hF : Continuous fun v : ℝ × ℝ × ℝ => F v.1 v.2.1 v.2.2) (h0 : ∀ x y z, 0 ≤ F x y z)
    (hz : int3 h F = 0) :
    ∀ x ∈ Set.Icc 0 (h 0), ∀ y ∈ Set.Icc 0 (h 1), ∀ z ∈ Set.Icc 0 (h 2), F x y z = 0 := by
  have hF' : Continuous fun w : (ℝ × ℝ) × ℝ => F w.1.1 w.1.2 w.2 :=
    hF.comp (continuous_fst.fst.prodMk (continuous_fst.snd.prodMk continuous_snd))
  have hc : Continuous fun v : ℝ × ℝ => ∫ z in (0:ℝ)..h 2, F v.1 v.2 z :=
    intervalIntegral.continuous_parametric_intervalIntegral_of_continuous'
      (f := fun (v : ℝ × ℝ) z => F v.1 v.2 z) hF' _ _
  intro x hx y hy z hz'
  have h1 := int2_zero_imp ![h 0, h 1] (by intro c; fin_cases c; exacts [hh 0, hh 1])
    (fun x y => ∫ z in (0:ℝ)..h 2, F x y z) hc
    (fun x y => integral_nonneg_of_forall (hh 2).le fun z => h0 x y z) hz x hx y hy
  exact int1_zero (h 2) (hh 2) _
    (hF.comp (continuous_const.prodMk (continuous_const.prodMk continuous_id))) (h0 x y) h1 z hz'

/-- Position of the corner `b` of `[0, h]`. -/
noncomputable def cpt (b : Fin 2) (h : ℝ) : ℝ := if b = 0 then 0 else h

theorem cpt_mem (b : Fin 2) (h : ℝ) (hh : 0 < h) : cpt b h ∈ Set.Icc 0 h := by
  unfold cpt; split_ifs
  · exact ⟨le_rfl, hh.le⟩
  · exact ⟨hh.le, le_rfl⟩

/-- At the corners of the cell the gradient of a nodal field is the difference quotient along the
edges. -/
theorem grad2_corner (h : Fin 2 → ℝ) (h0 : ∀ c, h c ≠ 0) (x : Fin 4 → ℝ) (b : Fin 2) :
    (∑ i, x i * grad2 (phi2 h i) 0 (cpt b (h 1)) 0 =
      ((if b = 0 then x 1 else x 3) - (if b = 0 then x 0 else x 2)) / h 0) ∧
    (∑ i, x i * grad2 (phi2 h i) (cpt b (h 0)) 0 1 =
      ((if b = 0 then x 2 else x 3) - (if b = 0 then x 0 else x 1)) / h 1) := by
  have a0 := h0 0
  have a1 := h0 1
  simp only [grad2_phi2, Fin.sum_univ_four]
  fin_cases b <;> constructor <;> simp [bit2, fac, hat0, hat1, dhat, cpt, a0, a1] <;> field_simp <;> ring

theorem grad3_corner (h : Fin 3 → ℝ) (h0 : ∀ c, h c ≠ 0) (x : Fin 8 → ℝ) (b b' : Fin 2) :
    (∑ i, x i * grad3 (phi3 h i) 0 (cpt b (h 1)) (cpt b' (h 2)) 0 =
      ((if b' = 0 then if b = 0 then x 1 else x 3 else if b = 0 then x 5 else x 7)
        - (if b' = 0 then if b = 0 then x 0 else x 2 else if b = 0 then x 4 else x 6)) / h 0) ∧
    (∑ i, x i * grad3 (phi3 h i) (cpt b (h 0)) 0 (cpt b' (h 2)) 1 =
      ((if b' = 0 then if b = 0 then x 2 else x 3 else if b = 0 then x 6 else x 7)
        - (if b' = 0 then if b = 0 then x 0 else x 1 else if b = 0 then x 4 else x 5)) / h 1) ∧
    (∑ i, x i * grad3 (phi3 h i) (cpt b (h 0)) (cpt b' (h 1)) 0 2 =
      ((if b' = 0 then if b = 0 then x 4 else x 5 else if b = 0 then x 6 else x 7)
        - (if b' = 0 then if b = 0 then x 0 else x 1 else if b = 0 then x 2 else x 3)) / h 2) := by
  have a0 := h0 0
  have a1 := h0 1
  have a2 := h0 2
  simp only [grad3_phi3, Fin.sum_univ_eight]
  fin_cases b <;> fin_cases b' <;> refine ⟨?_, ?_, ?_⟩ <;>
    simp [bit3, fac, hat0, hat1, dhat, cpt, a0, a1, a2] <;> field_simp <;> ring


end Cafes.Spec

namespace Cafes.Props
open Cafes Cafes.Spec

/-- The integrand vanishes at every point of a cell without Laplacian energy. -/
theorem lap2_zero (h : Pos 2 ℝ) (hh : ∀ c, 0 < h c) (x : Fin 4 → ℝ)
    (hz : ∑ i, ∑ j, x i * x j * matElemLaplacian2 h i j = 0) :
    ∀ s ∈ Set.Icc 0 (h 0), ∀ t ∈ Set.Icc 0 (h 1), ∀ c,
      ∑ i, x i * grad2 (phi2 h i) s t c = 0 := by
  rw [lap2_form h hh] at hz
  intro s hs t ht c
  have := int2_zero_imp h hh _ (continuous_finsetSum _ fun c _ =>
    (continuous_finsetSum _ fun i _ => continuous_const.mul (cont_g2 h i c)).mul
      (continuous_finsetSum _ fun i _ => continuous_const.mul (cont_g2 h i c)))
    (fun s t => Finset.sum_nonneg fun c _ => mul_self_nonneg _) hz s hs t ht
  rw [Finset.sum_eq_zero_iff_of_nonneg fun c _ => mul_self_nonneg _] at this
  exact mul_self_eq_zero.1 (this c (Finset.mem_univ c))

theorem lap3_zero (h : Pos 3 ℝ) (hh : ∀ c, 0 < h c) (x : Fin 8 → ℝ)
    (hz : ∑ i, ∑ j, x i * x j * matElemLaplacian3 h i j = 0) :
    ∀ s ∈ Set.Icc 0 (h 0), ∀ t ∈ Set.Icc 0 (h 1), ∀ r ∈ Set.Icc 0 (h 2), ∀ c,
      ∑ i, x i * grad3 (phi3 h i) s t r c = 0 := by
  rw [lap3_form h hh] at hz
  intro s hs t ht r hr c
  have := int3_zero_imp h hh _ (continuous_finsetSum _ fun c _ =>
    (continuous_finsetSum _ fun i _ => continuous_const.mul (cont_g3 h i c)).mul
      (continuous_finsetSum _ fun i _ => continuous_const.mul (cont_g3 h i c)))
    (fun s t r => Finset.sum_nonneg fun c _ => mul_self_nonneg _) hz s hs t ht r hr
  rw [Finset.sum_eq_zero_iff_of_nonneg fun c _ => mul_self_nonneg _] at this
  exact mul_self_eq_zero.1 (this c (Finset.mem_univ c))

theorem strain2_zero (h : Pos 2 ℝ) (hh : ∀ c, 0 < h c) (x : Fin 4 × Fin 2 → ℝ)
    (hz : ∑ p, ∑ q, x p * x q * matElemStrain2 h p.1 q.1 p.2 q.2 = 0) :
    ∀ s ∈ Set.Icc 0 (h 0), ∀ t ∈ Set.Icc 0 (h 1), ∀ c d,
      (∑ i, x (i, d) * grad2 (phi2 h i) s t c) + ∑ i, x (i, c) * grad2 (phi2 h i) s t d = 0 := by
  rw [strain2_form h hh] at hz
  intro s hs t ht c d
  have hcont : ∀ c d, Continuous fun v : ℝ × ℝ =>
      strainOf (fun i => grad2 (phi2 h i) v.1 v.2) x c d := fun c d =>
    continuous_finsetSum _ fun p _ => continuous_const.mul
      (cont_symGrad (fun v : ℝ × ℝ => grad2 (phi2 h p.1) v.1 v.2) (cont_g2 h p.1) p.2 c d)
  have := int2_zero_imp h hh _ (continuous_const.mul (continuous_finsetSum _ fun c _ =>
      continuous_finsetSum _ fun d _ => (hcont c d).mul (hcont c d)))
    (fun s t => mul_nonneg (by norm_num) (Finset.sum_nonneg fun c _ =>
      Finset.sum_nonneg fun d _ => mul_self_nonneg _)) hz s hs t ht
  have h2 := (mul_eq_zero.1 this).resolve_left (by norm_num)
  rw [Finset.sum_eq_zero_iff_of_nonneg fun c _ =>
    Finset.sum_nonneg fun d _ => mul_self_nonneg _] at h2
  have h3 := h2 c (Finset.mem_univ c)
  rw [Finset.sum_eq_zero_iff_of_nonneg fun c _ => mul_self_nonneg _] at h3
  have h4 := mul_self_eq_zero.1 (h3 d (Finset.mem_univ d))
  rw [strainOf_eq] at h4
  linarith

theorem strain3_zero (h : Pos 3 ℝ) (hh : ∀ c, 0 < h c) (x : Fin 8 × Fin 3 → ℝ)
    (hz : ∑ p, ∑ q, x p * x q * matElemStrain3 h p.1 q.1 p.2 q.2 = 0) :
    ∀ s ∈ Set.Icc 0 (h 0), ∀ t ∈ Set.Icc 0 (h 1), ∀ r ∈ Set.Icc 0 (h 2), ∀ c d,
      (∑ i, x (i, d) * grad3 (phi3 h i) s t r c) + ∑ i, x (i, c) * grad3 (phi3 h i) s t r d = 0 := by
  rw [strain3_form h hh] at hz
  intro s hs t ht r hr c d
  have hcont : ∀ c d, Continuous fun v : ℝ × ℝ × ℝ =>
      strainOf (fun i => grad3 (phi3 h i) v.1 v.2.1 v.2.2) x c d := fun c d =>
    continuous_finsetSum _ fun p _ => continuous_const.mul
      (cont_symGrad (fun v : ℝ × ℝ × ℝ => grad3 (phi3 h p.1) v.1 v.2.1 v.2.2) (cont_g3 h p.1) p.2 c d)
  have := int3_zero_imp h hh _ (continuous_const.mul (continuous_finsetSum _ fun c _ =>
      continuous_finsetSum _ fun d _ => (hcont c d).mul (hcont c d)))
    (fun s t r => mul_nonneg (by norm_num) (Finset.sum_nonneg fun c _ =>
      Finset.sum_nonneg fun d _ => mul_self_nonneg _)) hz s hs t ht r hr
  have h2 := (mul_eq_zero.1 this).resolve_left (by norm_num)
  rw [Finset.sum_eq_zero_iff_of_nonneg fun c _ =>
    Finset.sum_nonneg fun d _ => mul_self_nonneg _] at h2
  have h3 := h2 c (Finset.mem_univ c)
  rw [Finset.sum_eq_zero_iff_of_nonneg fun c _ => mul_self_nonneg _] at h3
  have h4 := mul_self_eq_zero.1 (h3 d (Finset.mem_univ d))
  rw [strainOf_eq] at h4
  linarith

/-- A field of the cell whose derivative along direction `i` vanishes takes the same value at both
ends of every edge of that direction. -/
theorem edge2 (h : Pos 2 ℝ) (hh : ∀ c, 0 < h c) (x : Fin 4 → ℝ) (i : Fin 2)
    (hg : ∀ s ∈ Set.Icc 0 (h 0), ∀ t ∈ Set.Icc 0 (h 1), ∑ k, x k * grad2 (phi2 h k) s t i = 0)
    (k l : Fin 4) (hkl : ∀ j, j ≠ i → bit2 k j = bit2 l j) : x k = x l := by
  have h0 : ∀ c, h c ≠ 0 := fun c => (hh c).ne'
  have z : ∀ c, (0:ℝ) ∈ Set.Icc 0 (h c) := fun c => ⟨le_rfl, (hh c).le⟩
  fin_cases i
  · have e : ∀ b, _ = _ := fun b => (grad2_corner h h0 x b).1.symm.trans
      (hg 0 (z 0) _ (cpt_mem b _ (hh 1)))
    have e' := fun b => (div_eq_zero_iff.1 (e b)).resolve_right (h0 0)
    have e0 := e' 0; have e1 := e' 1
    simp at e0 e1
    have q1 := hkl 1 (by decide)
    clear hkl hg e e'
    fin_cases k <;> fin_cases l <;>
      first | rfl | (exfalso; revert q1; decide) | (simp; linarith)
  · have e : ∀ b, _ = _ := fun b => (grad2_corner h h0 x b).2.symm.trans
      (hg _ (cpt_mem b _ (hh 0)) 0 (z 1))
    have e' := fun b => (div_eq_zero_iff.1 (e b)).resolve_right (h0 1)
    have e0 := e' 0; have e1 := e' 1
    simp at e0 e1
    have q1 := hkl 0 (by decide)
    clear hkl hg e e'
    fin_cases k <;> fin_cases l <;>
      first | rfl | (exfalso; revert q1; decide) | (simp; linarith)

theorem edge3 (h : Pos 3 ℝ) (hh : ∀ c, 0 < h c) (x : Fin 8 → ℝ) (i : Fin 3)
    (hg : ∀ s ∈ Set.Icc 0 (h 0), ∀ t ∈ Set.Icc 0 (h 1), ∀ r ∈ Set.Icc 0 (h 2),
      ∑ k, x k * grad3 (phi3 h k) s t r i = 0)
    (k l : Fin 8) (hkl : ∀ j, j ≠ i → bit3 k j = bit3 l j) : x k = x l := by
  have h0 : ∀ c, h c ≠ 0 := fun c => (hh c).ne'
  have z : ∀ c, (0:ℝ) ∈ Set.Icc 0 (h c) := fun c => ⟨le_rfl, (hh c).le⟩
  fin_cases i
  · have e : ∀ b b', _ = _ := fun b b' => (grad3_corner h h0 x b b').1.symm.trans
      (hg 0 (z 0) _ (cpt_mem b _ (hh 1)) _ (cpt_mem b' _ (hh 2)))
    have e' := fun b b' => (div_eq_zero_iff.1 (e b b')).resolve_right (h0 0)
    have e00 := e' 0 0; have e10 := e' 1 0; have e01 := e' 0 1; have e11 := e' 1 1
    simp at e00 e10 e01 e11
    have q1 := hkl 1 (by decide); have q2 := hkl 2 (by decide)
    clear hkl hg e e'
    fin_cases k <;> fin_cases l <;>
      first | rfl | (exfalso; revert q1 q2; decide) | (simp; linarith)
  · have e : ∀ b b', _ = _ := fun b b' => (grad3_corner h h0 x b b').2.1.symm.trans
      (hg _ (cpt_mem b _ (hh 0)) 0 (z 1) _ (cpt_mem b' _ (hh 2)))
    have e' := fun b b' => (div_eq_zero_iff.1 (e b b')).resolve_right (h0 1)
    have e00 := e' 0 0; have e10 := e' 1 0; have e01 := e' 0 1; have e11 := e' 1 1
    simp at e00 e10 e01 e11
    have q1 := hkl 0 (by decide); have q2 := hkl 2 (by decide)
    clear hkl hg e e'
    fin_cases k <;> fin_cases l <;>
      first | rfl | (exfalso; revert q1 q2; decide) | (simp; linarith)
  · have e : ∀ b b', _ = _ := fun b b' => (grad3_corner h h0 x b b').2.2.symm.trans
      (hg _ (cpt_mem b _ (hh 0)) _ (cpt_mem b' _ (hh 1)) 0 (z 2))
    have e' := fun b b' => (div_eq_zero_iff.1 (e b b')).resolve_right (h0 2)
    have e00 := e' 0 0; have e10 := e' 1 0; have e01 := e' 0 1; have e11 := e' 1 1
    simp at e00 e10 e01 e11
    have q1 := hkl 0 (by decide); have q2 := hkl 1 (by decide)
    clear hkl hg e e'
    fin_cases k <;> fin_cases l <;>
      first | rfl | (exfalso; revert q1 q2; decide) | (simp; linarith)

/-- The corner of the cell facing `k` on the side `b` of direction `i`. -/
theorem facing2 (k : Fin 4) (i b : Fin 2) :
    ∃ l, bit2 l i = b ∧ ∀ j, j ≠ i → bit2 k j = bit2 l j := by
  revert k i b; decide
theorem facing3 (k : Fin 8) (i : Fin 3) (b : Fin 2) :
    ∃ l, bit3 l i = b ∧ ∀ j, j ≠ i → bit3 k j = bit3 l j := by
  revert k i b; decide

/-- A cell without Laplacian energy that vanishes on one of its faces vanishes. -/
theorem lap2_cell (h : Pos 2 ℝ) (hh : ∀ c, 0 < h c) (x : Fin 4 → ℝ)
    (hz : ∑ i, ∑ j, x i * x j * matElemLaplacian2 h i j = 0) (i b : Fin 2)
    (hf : ∀ k, bit2 k i = b → x k = 0) (k : Fin 4) : x k = 0 := by
  obtain ⟨l, hl, hkl⟩ := facing2 k i b
  rw [edge2 h hh x i (fun s hs t ht => lap2_zero h hh x hz s hs t ht i) k l hkl]
  exact hf l hl

theorem lap3_cell (h : Pos 3 ℝ) (hh : ∀ c, 0 < h c) (x : Fin 8 → ℝ)
    (hz : ∑ i, ∑ j, x i * x j * matElemLaplacian3 h i j = 0) (i : Fin 3) (b : Fin 2)
    (hf : ∀ k, bit3 k i = b → x k = 0) (k : Fin 8) : x k = 0 := by
  obtain ⟨l, hl, hkl⟩ := facing3 k i b
  rw [edge3 h hh x i (fun s hs t ht r hr => lap3_zero h hh x hz s hs t ht r hr i) k l hkl]
  exact hf l hl

/-- A cell without strain energy that vanishes on one of its faces vanishes. -/
theorem strain2_cell (h : Pos 2 ℝ) (hh : ∀ c, 0 < h c) (x : Fin 4 × Fin 2 → ℝ)
    (hz : ∑ p, ∑ q, x p * x q * matElemStrain2 h p.1 q.1 p.2 q.2 = 0) (i b : Fin 2)
    (hf : ∀ k, bit2 k i = b → ∀ a, x (k, a) = 0) (k : Fin 4) (a : Fin 2) : x (k, a) = 0 := by
  have h1 := strain2_zero h hh x hz
  have hn : ∀ k, x (k, i) = 0 := by
    intro k
    obtain ⟨l, hl, hkl⟩ := facing2 k i b
    rw [edge2 h hh (fun k => x (k, i)) i (fun s hs t ht => by
      have := h1 s hs t ht i i; linarith) k l hkl]
    exact hf l hl i
  obtain ⟨l, hl, hkl⟩ := facing2 k i b
  rw [edge2 h hh (fun k => x (k, a)) i (fun s hs t ht => by
    have := h1 s hs t ht i a
    simp only [hn, zero_mul, Finset.sum_const_zero, add_zero] at this
    exact this) k l hkl]
  exact hf l hl a

theorem strain3_cell (h : Pos 3 ℝ) (hh : ∀ c, 0 < h c) (x : Fin 8 × Fin 3 → ℝ)
    (hz : ∑ p, ∑ q, x p * x q * matElemStrain3 h p.1 q.1 p.2 q.2 = 0) (i : Fin 3) (b : Fin 2)
    (hf : ∀ k, bit3 k i = b → ∀ a, x (k, a) = 0) (k : Fin 8) (a : Fin 3) : x (k, a) = 0 := by
  have h1 := strain3_zero h hh x hz
  have hn : ∀ k, x (k, i) = 0 := by
    intro k
    obtain ⟨l, hl, hkl⟩ := facing3 k i b
    rw [edge3 h hh (fun k => x (k, i)) i (fun s hs t ht r hr => by
      have := h1 s hs t ht r hr i i; linarith) k l hkl]
    exact hf l hl i
  obtain ⟨l, hl, hkl⟩ := facing3 k i b
  rw [edge3 h hh (fun k => x (k, a)) i (fun s hs t ht r hr => by
    have := h1 s hs t ht r hr i a
    simp only [hn, zero_mul, Finset.sum_const_zero, add_zero] at this
    exact this) k l hkl]
  exact hf l hl a

end Cafes.Props
