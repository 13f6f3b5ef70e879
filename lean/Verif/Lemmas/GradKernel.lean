/-
Kernel of the discrete pressure gradient. In one direction the pressure/velocity coupling is made of
two operators, from the pressure nodes `0..n` to the interior velocity nodes `1..2n-1`: the mass
operator, which is injective when `n ≥ 2`, and the derivative, whose kernel is made of the constants.
The gradient is the tensor product of these.
-/
import Verif.Props.Stokes
import Verif.Props.FE

namespace Cafes.Props
open Cafes Cafes.Spec

/-- The contribution of the `n` cells of one direction at the velocity node `g`, for the element
coefficients `F`. -/
noncomputable def op1 (F : Fin 2 → Fin 3 → ℝ) (n : ℤ) (q : ℤ → ℝ) (g : ℤ) : ℝ :=
  ∑ e ∈ Finset.Ico 0 n, ∑ k : Fin 3,
    if 2 * e + ((k : ℕ) : ℤ) = g then ∑ a : Fin 2, q (e + ((a : ℕ) : ℤ)) * F a k else 0

theorem op1_cell (F : Fin 2 → Fin 3 → ℝ) (q : ℤ → ℝ) (g e : ℤ) :
    (∑ k : Fin 3, if 2 * e + ((k : ℕ) : ℤ) = g then ∑ a : Fin 2, q (e + ((a : ℕ) : ℤ)) * F a k
      else 0) =
    (if 2 * e = g then q e * F 0 0 + q (e + 1) * F 1 0 else 0) +
    (if 2 * e + 1 = g then q e * F 0 1 + q (e + 1) * F 1 1 else 0) +
    (if 2 * e + 2 = g then q e * F 0 2 + q (e + 1) * F 1 2 else 0) := by
  rw [Fin.sum_univ_three]
  simp only [Fin.sum_univ_two, Fin.val_zero, Fin.val_one, Fin.val_two, Nat.cast_zero, Nat.cast_one,
    Nat.cast_ofNat, add_zero]

theorem op1_odd (F : Fin 2 → Fin 3 → ℝ) (n : ℤ) (q : ℤ → ℝ) (e : ℤ) (h0 : 0 ≤ e) (h1 : e < n) :
    op1 F n q (2 * e + 1) = q e * F 0 1 + q (e + 1) * F 1 1 := by
  unfold op1
  simp only [op1_cell]
  rw [Finset.sum_eq_single e]
  · rw [if_neg (by omega), if_pos rfl, if_neg (by omega)]; ring
  · intro b _ hb
    rw [if_neg (by omega), if_neg (by omega), if_neg (by omega)]; ring
  · intro h; exact absurd (Finset.mem_Ico.2 ⟨h0, h1⟩) h

theorem op1_even (F : Fin 2 → Fin 3 → ℝ) (n : ℤ) (q : ℤ → ℝ) (e : ℤ) (h0 : 1 ≤ e) (h1 : e < n) :
    op1 F n q (2 * e) =
      q (e - 1) * F 0 2 + q e * (F 1 2 + F 0 0) + q (e + 1) * F 1 0 := by
  unfold op1
  simp only [op1_cell]
  rw [Finset.sum_eq_add (e - 1) e (by omega)]
  · rw [if_neg (by omega), if_neg (by omega), if_pos (by omega), if_pos rfl, if_neg (by omega),
      if_neg (by omega), sub_add_cancel]; ring
  · rintro b _ ⟨hb, hb'⟩
    rw [if_neg (by omega), if_neg (by omega), if_neg (by omega)]; ring
  · intro h; exact absurd (Finset.mem_Ico.2 ⟨by omega, by omega⟩) h
  · intro h; exact absurd (Finset.mem_Ico.2 ⟨by omega, h1⟩) h

theorem op1_sub (F : Fin 2 → Fin 3 → ℝ) (n : ℤ) (q r : ℤ → ℝ) (g : ℤ) :
    op1 F n (fun x => q x - r x) g = op1 F n q g - op1 F n r g := by
  unfold op1
  rw [← Finset.sum_sub_distrib]
  refine Finset.sum_congr rfl fun e _ => ?_
  rw [← Finset.sum_sub_distrib]
  refine Finset.sum_congr rfl fun k _ => ?_
  split_ifs
  · rw [← Finset.sum_sub_distrib]
    exact Finset.sum_congr rfl fun a _ => by ring
  · ring

theorem op1_congr (F : Fin 2 → Fin 3 → ℝ) (n : ℤ) (q r : ℤ → ℝ) (g : ℤ)
    (h : ∀ x, 0 ≤ x → x ≤ n → q x = r x) : op1 F n q g = op1 F n r g := by
  unfold op1
  refine Finset.sum_congr rfl fun e he => Finset.sum_congr rfl fun k _ => ?_
  have := Finset.mem_Ico.1 he
  split_ifs
  · refine Finset.sum_congr rfl fun a _ => ?_
    have := a.2
    rw [h _ (by omega) (by omega)]
  · rfl

/-- A function with equal consecutive values is constant. -/
theorem const_of_step (n : ℤ) (q : ℤ → ℝ) (h : ∀ e, 0 ≤ e → e < n → q (e + 1) = q e) :
    ∀ x, 0 ≤ x → x ≤ n → q x = q 0 := by
  have key : ∀ j : ℕ, (j : ℤ) ≤ n → q j = q 0 := by
    intro j
    induction j with
    | zero => intro _; rfl
    | succ j ih =>
      intro hj
      push_cast at hj ⊢
      rw [h j (by omega) (by omega), ih (by omega)]
  intro x h0 h1
  obtain ⟨j, rfl⟩ := Int.eq_ofNat_of_zero_le h0
  exact key j h1

/-- Mass coefficients of one direction. -/
noncomputable def FM (h : ℝ) : Fin 2 → Fin 3 → ℝ := fun a k => JP false a k h
/-- Derivative coefficients of one direction. -/
noncomputable def FD (h : ℝ) : Fin 2 → Fin 3 → ℝ := fun a k => JP true a k h

/-- The kernel of the derivative is made of the constants. -/
theorem derivative_kernel (h : ℝ) (n : ℤ) (q : ℤ → ℝ)
    (hz : ∀ g, 1 ≤ g → g ≤ 2 * n - 1 → op1 (FD h) n q g = 0) :
    ∀ x, 0 ≤ x → x ≤ n → q x = q 0 := by
  apply const_of_step
  intro e h0 h1
  have := hz (2 * e + 1) (by omega) (by omega)
  rw [op1_odd _ _ _ e h0 h1] at this
  simp [FD, JP, qT] at this
  linarith

/-- The mass operator is injective on two cells or more, and on the constants. -/
theorem mass_kernel (h : ℝ) (hh : 0 < h) (n : ℤ) (hn : 1 ≤ n) (q : ℤ → ℝ)
    (hq : 2 ≤ n ∨ ∀ x, 0 ≤ x → x ≤ n → q x = q 0)
    (hz : ∀ g, 1 ≤ g → g ≤ 2 * n - 1 → op1 (FM h) n q g = 0) :
    ∀ x, 0 ≤ x → x ≤ n → q x = 0 := by
  have hodd : ∀ e, 0 ≤ e → e < n → q (e + 1) = - q e := by
    intro e h0 h1
    have := hz (2 * e + 1) (by omega) (by omega)
    rw [op1_odd _ _ _ e h0 h1] at this
    simp [FM, JP, pT] at this
    have h2 : h * (q e + q (e + 1)) = 0 := by linarith
    rcases mul_eq_zero.1 h2 with h3 | h3
    · exact absurd h3 hh.ne'
    · linarith
  have q0 : q 0 = 0 := by
    rcases hq with h2 | hc
    · have e1 := hodd 0 le_rfl (by omega)
      have e2 := hodd 1 (by omega) (by omega)
      have := hz (2 * 1) (by omega) (by omega)
      rw [op1_even _ _ _ 1 le_rfl (by omega)] at this
      simp [FM, JP, pT] at this
      norm_num at e1 e2 this
      rw [e2, e1] at this
      have h3 : h * q 0 = 0 := by linarith
      exact (mul_eq_zero.1 h3).resolve_left hh.ne'
    · have e1 := hodd 0 le_rfl (by omega)
      have e2 := hc 1 (by omega) (by omega)
      norm_num at e1
      linarith
  intro x h0 h1
  have habs := const_of_step n (fun x => q x * q x) (fun e h0 h1 => by
    show q (e + 1) * q (e + 1) = q e * q e
    rw [hodd e h0 h1]; ring) x h0 h1
  simp only [q0, mul_zero] at habs
  exact mul_self_eq_zero.1 habs

theorem sumPi2 {ι : Type*} [DecidableEq ι] (s : Fin 2 → Finset ι) (f : (Fin 2 → ι) → ℝ) :
    ∑ e ∈ Fintype.piFinset s, f e = ∑ a ∈ s 0, ∑ b ∈ s 1, f ![a, b] := by
  rw [← Finset.sum_product']
  refine Finset.sum_nbij' (fun e => (e 0, e 1)) (fun x => ![x.1, x.2]) ?_ ?_ ?_ ?_ ?_
  · intro e he
    have := Fintype.mem_piFinset.1 he
    exact Finset.mem_product.2 ⟨this 0, this 1⟩
  · intro x hx
    have := Finset.mem_product.1 hx
    rw [Fintype.mem_piFinset]; intro i; fin_cases i
    · exact this.1
    · exact this.2
  · intro e _; funext i; fin_cases i <;> rfl
  · intro x _; rfl
  · intro e _; congr 1; funext i; fin_cases i <;> rfl

theorem sumPi3 {ι : Type*} [DecidableEq ι] (s : Fin 3 → Finset ι) (f : (Fin 3 → ι) → ℝ) :
    ∑ e ∈ Fintype.piFinset s, f e = ∑ a ∈ s 0, ∑ b ∈ s 1, ∑ c ∈ s 2, f ![a, b, c] := by
  have : ∀ a ∈ s 0, ∑ b ∈ s 1, ∑ c ∈ s 2, f ![a, b, c] =
      ∑ y ∈ s 1 ×ˢ s 2, f ![a, y.1, y.2] := fun a _ => by rw [← Finset.sum_product']
  rw [Finset.sum_congr rfl this, ← Finset.sum_product']
  refine Finset.sum_nbij' (fun e => (e 0, e 1, e 2)) (fun x => ![x.1, x.2.1, x.2.2]) ?_ ?_ ?_ ?_ ?_
  · intro e he
    have := Fintype.mem_piFinset.1 he
    exact Finset.mem_product.2 ⟨this 0, Finset.mem_product.2 ⟨this 1, this 2⟩⟩
  · intro x hx
    have h1 := Finset.mem_product.1 hx
    have h2 := Finset.mem_product.1 h1.2
    rw [Fintype.mem_piFinset]; intro i; fin_cases i
    · exact h1.1
    · exact h2.1
    · exact h2.2
  · intro e _; funext i; fin_cases i <;> rfl
  · intro x _; rfl
  · intro e _; congr 1; funext i; fin_cases i <;> rfl

/-- One direction taken out of a sum over cells and nodes. -/
theorem peel {I : Type*} (S : Finset I) (C : I → Prop) [DecidablePred C] (G : ℤ → I → ℝ)
    (F : Fin 2 → Fin 3 → ℝ) (n g : ℤ) :
    ∑ e ∈ Finset.Ico 0 n, ∑ k : Fin 3, ∑ i ∈ S,
      (if 2 * e + ((k : ℕ) : ℤ) = g ∧ C i then ∑ a : Fin 2, G (e + ((a : ℕ) : ℤ)) i * F a k else 0) =
    op1 F n (fun x => ∑ i ∈ S, if C i then G x i else 0) g := by
  unfold op1
  refine Finset.sum_congr rfl fun e _ => Finset.sum_congr rfl fun k _ => ?_
  by_cases hc : 2 * e + ((k : ℕ) : ℤ) = g
  · simp only [hc, true_and, if_true]
    simp only [Finset.sum_mul]
    rw [Finset.sum_comm]
    refine Finset.sum_congr rfl fun i _ => ?_
    split_ifs <;> simp
  · simp [hc]


theorem pressure2_tensor (h : Pos 2 ℝ) (hh : ∀ c, 0 < h c) (i : Fin 4) (j : Fin 9) (a : Fin 2) :
    matElemPressure2 h i j a = JP (decide (a = 0)) (bit2 i 0) (trit2 j 0) (h 0) *
      JP (decide (a = 1)) (bit2 i 1) (trit2 j 1) (h 1) := by
  rw [C13_pressure2 h hh, int2_pg h hh]

theorem pressure3_tensor (h : Pos 3 ℝ) (hh : ∀ c, 0 < h c) (i : Fin 8) (j : Fin 27) (a : Fin 3) :
    matElemPressure3 h i j a = JP (decide (a = 0)) (bit3 i 0) (trit3 j 0) (h 0) *
      JP (decide (a = 1)) (bit3 i 1) (trit3 j 1) (h 1) *
      JP (decide (a = 2)) (bit3 i 2) (trit3 j 2) (h 2) := by
  rw [C13_pressure3 h hh, int3_pg h hh]

theorem sum_bit2 (f : Fin 2 → Fin 2 → ℝ) :
    ∑ i : Fin 4, f (bit2 i 0) (bit2 i 1) = ∑ a, ∑ b, f a b := by
  simp [Fin.sum_univ_four, Fin.sum_univ_two, bit2]; ring

theorem sum_bit3 (f : Fin 2 → Fin 2 → Fin 2 → ℝ) :
    ∑ i : Fin 8, f (bit3 i 0) (bit3 i 1) (bit3 i 2) = ∑ a, ∑ b, ∑ c, f a b c := by
  simp [Fin.sum_univ_eight, Fin.sum_univ_two, bit3]; ring

theorem sum_trit2 (f : Fin 3 → Fin 3 → ℝ) :
    ∑ k : Fin 9, f (trit2 k 0) (trit2 k 1) = ∑ a, ∑ b, f a b := by
  rw [trit2_bij.sum_comp (fun t => f (t 0) (t 1)), ← Fintype.piFinset_univ, sumPi2]
  rfl

theorem sum_trit3 (f : Fin 3 → Fin 3 → Fin 3 → ℝ) :
    ∑ k : Fin 27, f (trit3 k 0) (trit3 k 1) (trit3 k 2) = ∑ a, ∑ b, ∑ c, f a b c := by
  rw [trit3_bij.sum_comp (fun t => f (t 0) (t 1) (t 2)), ← Fintype.piFinset_univ, sumPi3]
  rfl

/-- Interior velocity nodes. -/
def Inner {d : ℕ} (N : Fin d → ℤ) (g : Pos d ℤ) : Prop := ∀ i, 1 ≤ g i ∧ g i ≤ 2 * (N i - 1) - 1

theorem wrap_inner {d : ℕ} (N : Fin d → ℤ) (per : Fin d → Bool) (lx : Fin d → List ℤ) (g : Pos d ℤ)
    (hg : Inner N g) (e : Pos d ℤ) (he : e ∈ gridElems (presLayout N per lx)) (t : Fin d → Fin 3)
    (p : Pos d ℤ) (hp : ∀ i, p i = 2 * e i + ((t i : ℕ) : ℤ)) :
    wrap (velLayout N per lx) p = g ↔ ∀ i, 2 * e i + ((t i : ℕ) : ℤ) = g i := by
  rw [mem_gridElems] at he
  constructor
  · intro hw i
    have h1 := congrFun hw i
    have h2 := hg i
    have h3 := he i
    rw [pres_nElem] at h3
    have h4 := (t i).2
    simp only [wrap, velLayout, velDir, meshVel] at h1
    rw [hp i] at h1
    split_ifs at h1 with hper
    · by_cases hlt : 2 * e i + ((t i : ℕ) : ℤ) < 2 * N i - 1 - 1
      · rwa [Int.emod_eq_of_lt (by omega) hlt] at h1
      · have : 2 * e i + ((t i : ℕ) : ℤ) = 2 * N i - 1 - 1 := by omega
        rw [this, Int.emod_self] at h1
        omega
    · exact h1
  · intro hw
    funext i
    have h2 := hg i
    simp only [wrap, velLayout, velDir, meshVel]
    rw [hp i, hw i]
    split_ifs with hper
    · exact Int.emod_eq_of_lt (by omega) (by omega)
    · rfl

theorem gradient2 (N : Fin 2 → ℤ) (per : Fin 2 → Bool) (lx : Fin 2 → List ℤ) (h : Pos 2 ℝ)
    (hh : ∀ c, 0 < h c) (p : NodeVec 2 1 ℝ) (g : Pos 2 ℤ) (hg : Inner N g) (c : Fin 2) :
    (∑ e ∈ gridElems (presLayout N per lx), ∑ k,
      if wrap (velLayout N per lx) (getElement4Q1_2 e k) = g then
        ∑ ip, p (wrap (presLayout N per lx) (getElement2 e ip)) 0 * matElemPressure2 h ip k c
      else 0) =
    op1 (fun a k => JP (decide (c = 0)) a k (h 0)) (N 0 - 1) (fun x =>
      op1 (fun a k => JP (decide (c = 1)) a k (h 1)) (N 1 - 1) (fun y =>
        p (wrap (presLayout N per lx) ![x, y]) 0) (g 1)) (g 0) := by
  set P := fun x y => p (wrap (presLayout N per lx) ![x, y]) 0 with hP
  set F0 : Fin 2 → Fin 3 → ℝ := fun a k => JP (decide (c = 0)) a k (h 0) with hF0
  set F1 : Fin 2 → Fin 3 → ℝ := fun a k => JP (decide (c = 1)) a k (h 1) with hF1
  have h1 : ∀ e ∈ gridElems (presLayout N per lx), (∑ k,
      if wrap (velLayout N per lx) (getElement4Q1_2 e k) = g then
        ∑ ip, p (wrap (presLayout N per lx) (getElement2 e ip)) 0 * matElemPressure2 h ip k c
      else 0) = ∑ k0 : Fin 3, ∑ k1 : Fin 3,
        if 2 * e 0 + ((k0 : ℕ) : ℤ) = g 0 ∧ 2 * e 1 + ((k1 : ℕ) : ℤ) = g 1 then
          ∑ a : Fin 2, (∑ b : Fin 2, P (e 0 + ((a : ℕ) : ℤ)) (e 1 + ((b : ℕ) : ℤ)) * F1 b k1) * F0 a k0
        else 0 := by
    intro e he
    rw [← sum_trit2]
    refine Finset.sum_congr rfl fun k _ => ?_
    have hw := wrap_inner N per lx g hg e he (trit2 k) _ (is4Q1_2 e k)
    have hand : (∀ i, 2 * e i + ((trit2 k i : ℕ) : ℤ) = g i) ↔
        (2 * e 0 + ((trit2 k 0 : ℕ) : ℤ) = g 0 ∧ 2 * e 1 + ((trit2 k 1 : ℕ) : ℤ) = g 1) := by
      rw [Fin.forall_fin_two]
    by_cases hc : wrap (velLayout N per lx) (getElement4Q1_2 e k) = g
    · rw [if_pos hc, if_pos (hand.1 (hw.1 hc))]
      simp only [Finset.sum_mul]
      rw [← sum_bit2 (fun a b => P (e 0 + ((a : ℕ) : ℤ)) (e 1 + ((b : ℕ) : ℤ)) * F1 b (trit2 k 1) *
        F0 a (trit2 k 0))]
      refine Finset.sum_congr rfl fun ip _ => ?_
      rw [pressure2_tensor h hh, hP, hF0, hF1]
      have : getElement2 e ip = ![e 0 + ((bit2 ip 0 : ℕ) : ℤ), e 1 + ((bit2 ip 1 : ℕ) : ℤ)] := by
        rw [getElement2_eq]; rfl
      rw [this]; ring
    · rw [if_neg hc, if_neg fun hcc => hc (hw.2 (hand.2 hcc))]
  rw [Finset.sum_congr rfl h1]
  unfold gridElems
  rw [sumPi2, pres_nElem, pres_nElem]
  have := peel (Finset.Ico 0 (N 1 - 1) ×ˢ (Finset.univ : Finset (Fin 3)))
    (fun i => 2 * i.1 + ((i.2 : ℕ) : ℤ) = g 1)
    (fun x i => ∑ b : Fin 2, P x (i.1 + ((b : ℕ) : ℤ)) * F1 b i.2) F0 (N 0 - 1) (g 0)
  simp only [Finset.sum_product] at this
  refine Eq.trans ?_ (this.trans rfl)
  refine Finset.sum_congr rfl fun e0 _ => ?_
  rw [Finset.sum_comm]
  rfl

theorem gradient3 (N : Fin 3 → ℤ) (per : Fin 3 → Bool) (lx : Fin 3 → List ℤ) (h : Pos 3 ℝ)
    (hh : ∀ c, 0 < h c) (p : NodeVec 3 1 ℝ) (g : Pos 3 ℤ) (hg : Inner N g) (c : Fin 3) :
    (∑ e ∈ gridElems (presLayout N per lx), ∑ k,
      if wrap (velLayout N per lx) (getElement4Q1_3 e k) = g then
        ∑ ip, p (wrap (presLayout N per lx) (getElement3 e ip)) 0 * matElemPressure3 h ip k c
      else 0) =
    op1 (fun a k => JP (decide (c = 0)) a k (h 0)) (N 0 - 1) (fun x =>
      op1 (fun a k => JP (decide (c = 1)) a k (h 1)) (N 1 - 1) (fun y =>
        op1 (fun a k => JP (decide (c = 2)) a k (h 2)) (N 2 - 1) (fun z =>
          p (wrap (presLayout N per lx) ![x, y, z]) 0) (g 2)) (g 1)) (g 0) := by
  set P := fun x y z => p (wrap (presLayout N per lx) ![x, y, z]) 0 with hP
  set F0 : Fin 2 → Fin 3 → ℝ := fun a k => JP (decide (c = 0)) a k (h 0) with hF0
  set F1 : Fin 2 → Fin 3 → ℝ := fun a k => JP (decide (c = 1)) a k (h 1) with hF1
  set F2 : Fin 2 → Fin 3 → ℝ := fun a k => JP (decide (c = 2)) a k (h 2) with hF2
  have h1 : ∀ e ∈ gridElems (presLayout N per lx), (∑ k,
      if wrap (velLayout N per lx) (getElement4Q1_3 e k) = g then
        ∑ ip, p (wrap (presLayout N per lx) (getElement3 e ip)) 0 * matElemPressure3 h ip k c
      else 0) = ∑ k0 : Fin 3, ∑ k1 : Fin 3, ∑ k2 : Fin 3,
        if 2 * e 0 + ((k0 : ℕ) : ℤ) = g 0 ∧ 2 * e 1 + ((k1 : ℕ) : ℤ) = g 1 ∧
            2 * e 2 + ((k2 : ℕ) : ℤ) = g 2 then
          ∑ a : Fin 2, (∑ b : Fin 2, (∑ d : Fin 2, P (e 0 + ((a : ℕ) : ℤ)) (e 1 + ((b : ℕ) : ℤ))
            (e 2 + ((d : ℕ) : ℤ)) * F2 d k2) * F1 b k1) * F0 a k0
        else 0 := by
    intro e he
    rw [← sum_trit3]
    refine Finset.sum_congr rfl fun k _ => ?_
    have hw := wrap_inner N per lx g hg e he (trit3 k) _ (is4Q1_3 e k)
    have hand : (∀ i, 2 * e i + ((trit3 k i : ℕ) : ℤ) = g i) ↔
        (2 * e 0 + ((trit3 k 0 : ℕ) : ℤ) = g 0 ∧ 2 * e 1 + ((trit3 k 1 : ℕ) : ℤ) = g 1 ∧
          2 * e 2 + ((trit3 k 2 : ℕ) : ℤ) = g 2) := by
      constructor
      · intro hi; exact ⟨hi 0, hi 1, hi 2⟩
      · rintro ⟨a, b, c⟩ i; fin_cases i; exacts [a, b, c]
    by_cases hc : wrap (velLayout N per lx) (getElement4Q1_3 e k) = g
    · rw [if_pos hc, if_pos (hand.1 (hw.1 hc))]
      simp only [Finset.sum_mul]
      rw [← sum_bit3 (fun a b d => P (e 0 + ((a : ℕ) : ℤ)) (e 1 + ((b : ℕ) : ℤ)) (e 2 + ((d : ℕ) : ℤ))
        * F2 d (trit3 k 2) * F1 b (trit3 k 1) * F0 a (trit3 k 0))]
      refine Finset.sum_congr rfl fun ip _ => ?_
      rw [pressure3_tensor h hh, hP, hF0, hF1, hF2]
      have : getElement3 e ip = ![e 0 + ((bit3 ip 0 : ℕ) : ℤ), e 1 + ((bit3 ip 1 : ℕ) : ℤ),
          e 2 + ((bit3 ip 2 : ℕ) : ℤ)] := by
        rw [getElement3_eq]; rfl
      rw [this]; ring
    · rw [if_neg hc, if_neg fun hcc => hc (hw.2 (hand.2 hcc))]
  rw [Finset.sum_congr rfl h1]
  unfold gridElems
  rw [sumPi3, pres_nElem, pres_nElem, pres_nElem]
  -- inner two directions
  have in2 : ∀ x, op1 F1 (N 1 - 1) (fun y => op1 F2 (N 2 - 1) (fun z => P x y z) (g 2)) (g 1) =
      ∑ e1 ∈ Finset.Ico 0 (N 1 - 1), ∑ k1 : Fin 3, ∑ e2 ∈ Finset.Ico 0 (N 2 - 1), ∑ k2 : Fin 3,
        if 2 * e1 + ((k1 : ℕ) : ℤ) = g 1 ∧ 2 * e2 + ((k2 : ℕ) : ℤ) = g 2 then
          ∑ b : Fin 2, (∑ d : Fin 2, P x (e1 + ((b : ℕ) : ℤ)) (e2 + ((d : ℕ) : ℤ)) * F2 d k2) * F1 b k1
        else 0 := by
    intro x
    have := peel (Finset.Ico 0 (N 2 - 1) ×ˢ (Finset.univ : Finset (Fin 3)))
      (fun i => 2 * i.1 + ((i.2 : ℕ) : ℤ) = g 2)
      (fun y i => ∑ b : Fin 2, P x y (i.1 + ((b : ℕ) : ℤ)) * F2 b i.2) F1 (N 1 - 1) (g 1)
    simp only [Finset.sum_product] at this
    exact this.symm
  show _ = op1 F0 (N 0 - 1) (fun x => op1 F1 (N 1 - 1) (fun y =>
    op1 F2 (N 2 - 1) (fun z => P x y z) (g 2)) (g 1)) (g 0)
  rw [funext in2]
  have := peel ((Finset.Ico 0 (N 1 - 1) ×ˢ (Finset.univ : Finset (Fin 3))) ×ˢ
      (Finset.Ico 0 (N 2 - 1) ×ˢ (Finset.univ : Finset (Fin 3))))
    (fun i => 2 * i.1.1 + ((i.1.2 : ℕ) : ℤ) = g 1 ∧ 2 * i.2.1 + ((i.2.2 : ℕ) : ℤ) = g 2)
    (fun x i => ∑ b : Fin 2, (∑ d : Fin 2, P x (i.1.1 + ((b : ℕ) : ℤ)) (i.2.1 + ((d : ℕ) : ℤ)) *
      F2 d i.2.2) * F1 b i.1.2) F0 (N 0 - 1) (g 0)
  simp only [Finset.sum_product] at this
  refine Eq.trans ?_ (this.trans rfl)
  refine Finset.sum_congr rfl fun e0 _ => ?_
  calc _ = ∑ e1 ∈ Finset.Ico 0 (N 1 - 1), ∑ k0 : Fin 3, ∑ e2 ∈ Finset.Ico 0 (N 2 - 1), _ :=
        Finset.sum_congr rfl fun e1 _ => Finset.sum_comm
    _ = ∑ k0 : Fin 3, ∑ e1 ∈ Finset.Ico 0 (N 1 - 1), ∑ e2 ∈ Finset.Ico 0 (N 2 - 1), _ :=
        Finset.sum_comm
    _ = _ := Finset.sum_congr rfl fun k0 _ => Finset.sum_congr rfl fun e1 _ => Finset.sum_comm


section kernel2
variable (h : Pos 2 ℝ) (hh : ∀ c, 0 < h c) (n0 n1 : ℤ) (hn0 : 1 ≤ n0) (hn1 : 1 ≤ n1) (P : ℤ → ℤ → ℝ)
include hh hn0 hn1

theorem indep2_0 (hz : ∀ g0 g1, 1 ≤ g0 → g0 ≤ 2 * n0 - 1 → 1 ≤ g1 → g1 ≤ 2 * n1 - 1 →
      op1 (FD (h 0)) n0 (fun x => op1 (FM (h 1)) n1 (P x) g1) g0 = 0)
    (hq : 2 ≤ n1 ∨ ∀ x y, 0 ≤ x → x ≤ n0 → 0 ≤ y → y ≤ n1 → P x y = P x 0) :
    ∀ x y, 0 ≤ x → x ≤ n0 → 0 ≤ y → y ≤ n1 → P x y = P 0 y := by
  intro x y hx hx' hy hy'
  have := mass_kernel (h 1) (hh 1) n1 hn1 (fun y => P x y - P 0 y)
    (hq.imp_right fun hc y hy hy' => by
      show P x y - P 0 y = P x 0 - P 0 0
      rw [hc x y hx hx' hy hy', hc 0 y le_rfl (by omega) hy hy'])
    (fun g1 a b => by
      rw [op1_sub]
      have := derivative_kernel (h 0) n0 (fun x => op1 (FM (h 1)) n1 (P x) g1)
        (fun g0 c d => hz g0 g1 c d a b) x hx hx'
      exact sub_eq_zero.2 this) y hy hy'
  exact sub_eq_zero.1 this

theorem indep2_1 (hz : ∀ g0 g1, 1 ≤ g0 → g0 ≤ 2 * n0 - 1 → 1 ≤ g1 → g1 ≤ 2 * n1 - 1 →
      op1 (FM (h 0)) n0 (fun x => op1 (FD (h 1)) n1 (P x) g1) g0 = 0)
    (hq : 2 ≤ n0 ∨ ∀ x y, 0 ≤ x → x ≤ n0 → 0 ≤ y → y ≤ n1 → P x y = P 0 y) :
    ∀ x y, 0 ≤ x → x ≤ n0 → 0 ≤ y → y ≤ n1 → P x y = P x 0 := by
  intro x y hx hx' hy hy'
  refine derivative_kernel (h 1) n1 (P x) (fun g1 a b => ?_) y hy hy'
  exact mass_kernel (h 0) (hh 0) n0 hn0 (fun x => op1 (FD (h 1)) n1 (P x) g1)
    (hq.imp_right fun hc x hx hx' => op1_congr _ _ _ _ _ fun y hy hy' => hc x y hx hx' hy hy')
    (fun g0 c d => hz g0 g1 c d a b) x hx hx'

/-- A pressure whose gradient vanishes at the interior velocity nodes is constant. -/
theorem kernel2 (h2 : 2 ≤ n0 ∨ 2 ≤ n1)
    (hz0 : ∀ g0 g1, 1 ≤ g0 → g0 ≤ 2 * n0 - 1 → 1 ≤ g1 → g1 ≤ 2 * n1 - 1 →
      op1 (FD (h 0)) n0 (fun x => op1 (FM (h 1)) n1 (P x) g1) g0 = 0)
    (hz1 : ∀ g0 g1, 1 ≤ g0 → g0 ≤ 2 * n0 - 1 → 1 ≤ g1 → g1 ≤ 2 * n1 - 1 →
      op1 (FM (h 0)) n0 (fun x => op1 (FD (h 1)) n1 (P x) g1) g0 = 0) :
    ∀ x y, 0 ≤ x → x ≤ n0 → 0 ≤ y → y ≤ n1 → P x y = P 0 0 := by
  intro x y hx hx' hy hy'
  rcases h2 with h2 | h2
  · have i1 := indep2_1 h hh n0 n1 hn0 hn1 P hz1 (Or.inl h2)
    have i0 := indep2_0 h hh n0 n1 hn0 hn1 P hz0 (Or.inr i1)
    rw [i0 x y hx hx' hy hy', i1 0 y le_rfl (by omega) hy hy']
  · have i0 := indep2_0 h hh n0 n1 hn0 hn1 P hz0 (Or.inl h2)
    have i1 := indep2_1 h hh n0 n1 hn0 hn1 P hz1 (Or.inr i0)
    rw [i0 x y hx hx' hy hy', i1 0 y le_rfl (by omega) hy hy']

end kernel2

section kernel3
variable (h : Pos 3 ℝ) (hh : ∀ c, 0 < h c) (n0 n1 n2 : ℤ) (hn0 : 1 ≤ n0) (hn1 : 1 ≤ n1) (hn2 : 1 ≤ n2)
  (P : ℤ → ℤ → ℤ → ℝ)
include hh hn0 hn1 hn2

theorem indep3_0 (hz : ∀ g0 g1 g2, 1 ≤ g0 → g0 ≤ 2 * n0 - 1 → 1 ≤ g1 → g1 ≤ 2 * n1 - 1 →
      1 ≤ g2 → g2 ≤ 2 * n2 - 1 → op1 (FD (h 0)) n0 (fun x => op1 (FM (h 1)) n1 (fun y =>
        op1 (FM (h 2)) n2 (P x y) g2) g1) g0 = 0)
    (hq1 : 2 ≤ n1 ∨ ∀ x y z, 0 ≤ x → x ≤ n0 → 0 ≤ y → y ≤ n1 → 0 ≤ z → z ≤ n2 → P x y z = P x 0 z)
    (hq2 : 2 ≤ n2 ∨ ∀ x y z, 0 ≤ x → x ≤ n0 → 0 ≤ y → y ≤ n1 → 0 ≤ z → z ≤ n2 → P x y z = P x y 0) :
    ∀ x y z, 0 ≤ x → x ≤ n0 → 0 ≤ y → y ≤ n1 → 0 ≤ z → z ≤ n2 → P x y z = P 0 y z := by
  intro x y z hx hx' hy hy' hz1 hz1'
  have key := fun g2 (a2 : 1 ≤ g2) (b2 : g2 ≤ 2 * n2 - 1) =>
    mass_kernel (h 1) (hh 1) n1 hn1
      (fun y => op1 (FM (h 2)) n2 (P x y) g2 - op1 (FM (h 2)) n2 (P 0 y) g2)
      (hq1.imp_right fun hc y hy hy' => by
        show op1 (FM (h 2)) n2 (P x y) g2 - op1 (FM (h 2)) n2 (P 0 y) g2 =
          op1 (FM (h 2)) n2 (P x 0) g2 - op1 (FM (h 2)) n2 (P 0 0) g2
        rw [op1_congr _ n2 (P x y) (P x 0) g2 fun z c d => hc x y z hx hx' hy hy' c d,
          op1_congr _ n2 (P 0 y) (P 0 0) g2 fun z c d => hc 0 y z le_rfl (by omega) hy hy' c d])
      (fun g1 a b => by
        rw [op1_sub]
        have := derivative_kernel (h 0) n0 (fun x => op1 (FM (h 1)) n1 (fun y =>
          op1 (FM (h 2)) n2 (P x y) g2) g1) (fun g0 c d => hz g0 g1 g2 c d a b a2 b2) x hx hx'
        exact sub_eq_zero.2 this) y hy hy'
  have := mass_kernel (h 2) (hh 2) n2 hn2 (fun z => P x y z - P 0 y z)
    (hq2.imp_right fun hc z c d => by
      show P x y z - P 0 y z = P x y 0 - P 0 y 0
      rw [hc x y z hx hx' hy hy' c d, hc 0 y z le_rfl (by omega) hy hy' c d])
    (fun g2 a b => by rw [op1_sub]; exact key g2 a b) z hz1 hz1'
  exact sub_eq_zero.1 this

theorem indep3_1 (hz : ∀ g0 g1 g2, 1 ≤ g0 → g0 ≤ 2 * n0 - 1 → 1 ≤ g1 → g1 ≤ 2 * n1 - 1 →
      1 ≤ g2 → g2 ≤ 2 * n2 - 1 → op1 (FM (h 0)) n0 (fun x => op1 (FD (h 1)) n1 (fun y =>
        op1 (FM (h 2)) n2 (P x y) g2) g1) g0 = 0)
    (hq0 : 2 ≤ n0 ∨ ∀ x y z, 0 ≤ x → x ≤ n0 → 0 ≤ y → y ≤ n1 → 0 ≤ z → z ≤ n2 → P x y z = P 0 y z)
    (hq2 : 2 ≤ n2 ∨ ∀ x y z, 0 ≤ x → x ≤ n0 → 0 ≤ y → y ≤ n1 → 0 ≤ z → z ≤ n2 → P x y z = P x y 0) :
    ∀ x y z, 0 ≤ x → x ≤ n0 → 0 ≤ y → y ≤ n1 → 0 ≤ z → z ≤ n2 → P x y z = P x 0 z := by
  intro x y z hx hx' hy hy' hz1 hz1'
  have key := fun g1 (a1 : 1 ≤ g1) (b1 : g1 ≤ 2 * n1 - 1) g2 (a2 : 1 ≤ g2) (b2 : g2 ≤ 2 * n2 - 1) =>
    mass_kernel (h 0) (hh 0) n0 hn0 (fun x => op1 (FD (h 1)) n1 (fun y =>
        op1 (FM (h 2)) n2 (P x y) g2) g1)
      (hq0.imp_right fun hc x hx hx' => op1_congr _ _ _ _ _ fun y hy hy' =>
        op1_congr _ _ _ _ _ fun z c d => hc x y z hx hx' hy hy' c d)
      (fun g0 c d => hz g0 g1 g2 c d a1 b1 a2 b2) x hx hx'
  have := mass_kernel (h 2) (hh 2) n2 hn2 (fun z => P x y z - P x 0 z)
    (hq2.imp_right fun hc z c d => by
      show P x y z - P x 0 z = P x y 0 - P x 0 0
      rw [hc x y z hx hx' hy hy' c d, hc x 0 z hx hx' le_rfl (by omega) c d])
    (fun g2 a b => by
      rw [op1_sub]
      exact sub_eq_zero.2 (derivative_kernel (h 1) n1 (fun y => op1 (FM (h 2)) n2 (P x y) g2)
        (fun g1 c d => key g1 c d g2 a b) y hy hy')) z hz1 hz1'
  exact sub_eq_zero.1 this

theorem indep3_2 (hz : ∀ g0 g1 g2, 1 ≤ g0 → g0 ≤ 2 * n0 - 1 → 1 ≤ g1 → g1 ≤ 2 * n1 - 1 →
      1 ≤ g2 → g2 ≤ 2 * n2 - 1 → op1 (FM (h 0)) n0 (fun x => op1 (FM (h 1)) n1 (fun y =>
        op1 (FD (h 2)) n2 (P x y) g2) g1) g0 = 0)
    (hq0 : 2 ≤ n0 ∨ ∀ x y z, 0 ≤ x → x ≤ n0 → 0 ≤ y → y ≤ n1 → 0 ≤ z → z ≤ n2 → P x y z = P 0 y z)
    (hq1 : 2 ≤ n1 ∨ ∀ x y z, 0 ≤ x → x ≤ n0 → 0 ≤ y → y ≤ n1 → 0 ≤ z → z ≤ n2 → P x y z = P x 0 z) :
    ∀ x y z, 0 ≤ x → x ≤ n0 → 0 ≤ y → y ≤ n1 → 0 ≤ z → z ≤ n2 → P x y z = P x y 0 := by
  intro x y z hx hx' hy hy' hz1 hz1'
  refine derivative_kernel (h 2) n2 (P x y) (fun g2 a2 b2 => ?_) z hz1 hz1'
  refine mass_kernel (h 1) (hh 1) n1 hn1 (fun y => op1 (FD (h 2)) n2 (P x y) g2)
    (hq1.imp_right fun hc y hy hy' => op1_congr _ _ _ _ _ fun z c d => hc x y z hx hx' hy hy' c d)
    (fun g1 a1 b1 => ?_) y hy hy'
  exact mass_kernel (h 0) (hh 0) n0 hn0 (fun x => op1 (FM (h 1)) n1 (fun y =>
      op1 (FD (h 2)) n2 (P x y) g2) g1)
    (hq0.imp_right fun hc x hx hx' => op1_congr _ _ _ _ _ fun y hy hy' =>
      op1_congr _ _ _ _ _ fun z c d => hc x y z hx hx' hy hy' c d)
    (fun g0 c d => hz g0 g1 g2 c d a1 b1 a2 b2) x hx hx'

/-- A pressure whose gradient vanishes at the interior velocity nodes is constant (3D). -/
theorem kernel3 (h2 : (2 ≤ n0 ∧ 2 ≤ n1) ∨ (2 ≤ n0 ∧ 2 ≤ n2) ∨ (2 ≤ n1 ∧ 2 ≤ n2))
    (hz0 : ∀ g0 g1 g2, 1 ≤ g0 → g0 ≤ 2 * n0 - 1 → 1 ≤ g1 → g1 ≤ 2 * n1 - 1 →
      1 ≤ g2 → g2 ≤ 2 * n2 - 1 → op1 (FD (h 0)) n0 (fun x => op1 (FM (h 1)) n1 (fun y =>
        op1 (FM (h 2)) n2 (P x y) g2) g1) g0 = 0)
    (hz1 : ∀ g0 g1 g2, 1 ≤ g0 → g0 ≤ 2 * n0 - 1 → 1 ≤ g1 → g1 ≤ 2 * n1 - 1 →
      1 ≤ g2 → g2 ≤ 2 * n2 - 1 → op1 (FM (h 0)) n0 (fun x => op1 (FD (h 1)) n1 (fun y =>
        op1 (FM (h 2)) n2 (P x y) g2) g1) g0 = 0)
    (hz2 : ∀ g0 g1 g2, 1 ≤ g0 → g0 ≤ 2 * n0 - 1 → 1 ≤ g1 → g1 ≤ 2 * n1 - 1 →
      1 ≤ g2 → g2 ≤ 2 * n2 - 1 → op1 (FM (h 0)) n0 (fun x => op1 (FM (h 1)) n1 (fun y =>
        op1 (FD (h 2)) n2 (P x y) g2) g1) g0 = 0) :
    ∀ x y z, 0 ≤ x → x ≤ n0 → 0 ≤ y → y ≤ n1 → 0 ≤ z → z ≤ n2 → P x y z = P 0 0 0 := by
  intro x y z hx hx' hy hy' hz hz'
  have z0 : ∀ n : ℤ, 1 ≤ n → (0:ℤ) ≤ n := fun n hn => by omega
  rcases h2 with ⟨ha, hb⟩ | ⟨ha, hb⟩ | ⟨ha, hb⟩
  · have i2 := indep3_2 h hh n0 n1 n2 hn0 hn1 hn2 P hz2 (Or.inl ha) (Or.inl hb)
    have i0 := indep3_0 h hh n0 n1 n2 hn0 hn1 hn2 P hz0 (Or.inl hb) (Or.inr i2)
    have i1 := indep3_1 h hh n0 n1 n2 hn0 hn1 hn2 P hz1 (Or.inl ha) (Or.inr i2)
    rw [i0 x y z hx hx' hy hy' hz hz', i1 0 y z le_rfl (z0 _ hn0) hy hy' hz hz',
      i2 0 0 z le_rfl (z0 _ hn0) le_rfl (z0 _ hn1) hz hz']
  · have i1 := indep3_1 h hh n0 n1 n2 hn0 hn1 hn2 P hz1 (Or.inl ha) (Or.inl hb)
    have i0 := indep3_0 h hh n0 n1 n2 hn0 hn1 hn2 P hz0 (Or.inr i1) (Or.inl hb)
    have i2 := indep3_2 h hh n0 n1 n2 hn0 hn1 hn2 P hz2 (Or.inl ha) (Or.inr i1)
    rw [i0 x y z hx hx' hy hy' hz hz', i1 0 y z le_rfl (z0 _ hn0) hy hy' hz hz',
      i2 0 0 z le_rfl (z0 _ hn0) le_rfl (z0 _ hn1) hz hz']
  · have i0 := indep3_0 h hh n0 n1 n2 hn0 hn1 hn2 P hz0 (Or.inl ha) (Or.inl hb)
    have i1 := indep3_1 h hh n0 n1 n2 hn0 hn1 hn2 P hz1 (Or.inr i0) (Or.inl hb)
    have i2 := indep3_2 h hh n0 n1 n2 hn0 hn1 hn2 P hz2 (Or.inr i0) (Or.inl ha)
    rw [i0 x y z hx hx' hy hy' hz hz', i1 0 y z le_rfl (z0 _ hn0) hy hy' hz hz',
      i2 0 0 z le_rfl (z0 _ hn0) le_rfl (z0 _ hn1) hz hz']

end kernel3

end Cafes.Props
