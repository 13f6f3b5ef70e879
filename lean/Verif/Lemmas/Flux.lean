/-
The gradient of a constant pressure and the total of the discrete divergence, in terms of the walls.
-/
import Verif.Props.Stokes
import Verif.Spec.Flux

namespace Cafes.Props
open Cafes Cafes.Spec
variable {d n : ℕ}

theorem sum_ico_one (n : ℤ) (P : ℤ → Prop) [DecidablePred P] (m : ℤ) (h0 : 0 ≤ m) (h1 : m < n) (hm : P m)
    (hu : ∀ e, 0 ≤ e → e < n → P e → e = m) :
    ∑ e ∈ Finset.Ico (0 : ℤ) n, (if P e then (1 : ℝ) else 0) = 1 := by
  rw [Finset.sum_eq_single m, if_pos hm]
  · intro b hb hbm
    rw [Finset.mem_Ico] at hb
    exact if_neg fun hp => hbm (hu b hb.1 hb.2 hp)
  · intro h; exact absurd (Finset.mem_Ico.2 ⟨h0, h1⟩) h

theorem sum_ico_zero (n : ℤ) (P : ℤ → Prop) [DecidablePred P]
    (hu : ∀ e, 0 ≤ e → e < n → ¬ P e) :
    ∑ e ∈ Finset.Ico (0 : ℤ) n, (if P e then (1 : ℝ) else 0) = 0 := by
  refine Finset.sum_eq_zero fun e he => ?_
  rw [Finset.mem_Ico] at he
  exact if_neg (hu e he.1 he.2)

theorem mod_last (x m : ℤ) (h0 : 0 ≤ x) (h1 : x ≤ m) (hm : 0 < m) :
    x % m = if x = m then 0 else x := by
  split_ifs with h
  · rw [h, Int.emod_self]
  · exact Int.emod_eq_of_lt h0 (by omega)

/-- One directional factor of the mass weights: the trapezoidal weight of the node. -/
theorem factor_mass (per : Bool) (N g : ℤ) (lx : List ℤ) (hN : 2 ≤ N) (h0 : 0 ≤ g)
    (h1 : g < meshVel N per) :
    ∑ e ∈ Finset.Ico (0 : ℤ) (N - 1), ∑ t : Fin 3,
      (if (if per then (2 * e + ((t : ℕ) : ℤ)) % meshVel N per else 2 * e + ((t : ℕ) : ℤ)) = g
        then (mW t : ℝ) else 0) = trapezoid (velDir N per lx) g := by
  have hc : ∀ e : ℤ, ∑ t : Fin 3,
      (if (if per then (2 * e + ((t : ℕ) : ℤ)) % meshVel N per else 2 * e + ((t : ℕ) : ℤ)) = g
        then (mW t : ℝ) else 0) =
      1 / 2 * (if (if per then (2 * e) % meshVel N per else 2 * e) = g then 1 else 0) +
      (if (if per then (2 * e + 1) % meshVel N per else 2 * e + 1) = g then 1 else 0) +
      1 / 2 * (if (if per then (2 * e + 2) % meshVel N per else 2 * e + 2) = g then 1 else 0) := by
    intro e
    rw [Fin.sum_univ_three]
    simp only [mW, Fin.val_zero, Fin.val_one, Fin.val_two, Nat.cast_zero, Nat.cast_one,
      Nat.cast_ofNat, add_zero, Matrix.cons_val_zero, Matrix.cons_val_one, Matrix.cons_val]
    congr 1
    · congr 1
      · split_ifs <;> norm_num
      · split_ifs <;> norm_num
    · split_ifs <;> norm_num
  rw [Finset.sum_congr rfl fun e _ => hc e, Finset.sum_add_distrib, Finset.sum_add_distrib,
    ← Finset.mul_sum, ← Finset.mul_sum]
  unfold trapezoid velDir
  cases per with
  | false =>
    simp only [meshVel, Bool.false_eq_true, if_false, true_and] at h1 ⊢
    rcases Int.even_or_odd' g with ⟨m, hm | hm⟩
    · rw [sum_ico_zero (N - 1) (fun e => 2 * e + 1 = g) (fun e _ _ => by omega)]
      by_cases hl : m = N - 1
      · rw [sum_ico_zero (N - 1) (fun e => 2 * e = g) (fun e _ _ => by omega),
          sum_ico_one (N - 1) (fun e => 2 * e + 2 = g) (m - 1) (by omega) (by omega) (by omega)
            (by intros; omega), if_pos (by omega)]
        norm_num
      · rw [sum_ico_one (N - 1) (fun e => 2 * e = g) m (by omega) (by omega) (by omega)
            (by intros; omega)]
        by_cases hz : m = 0
        · rw [sum_ico_zero (N - 1) (fun e => 2 * e + 2 = g) (fun e _ _ => by omega),
            if_pos (by omega)]
          norm_num
        · rw [sum_ico_one (N - 1) (fun e => 2 * e + 2 = g) (m - 1) (by omega) (by omega) (by omega)
            (by intros; omega), if_neg (by omega)]
          norm_num
    · rw [sum_ico_zero (N - 1) (fun e => 2 * e = g) (fun e _ _ => by omega),
        sum_ico_zero (N - 1) (fun e => 2 * e + 2 = g) (fun e _ _ => by omega),
        sum_ico_one (N - 1) (fun e => 2 * e + 1 = g) m (by omega) (by omega) (by omega)
            (by intros; omega), if_neg (by omega)]
      norm_num
  | true =>
    simp only [meshVel, if_true, Bool.true_eq_false, false_and, if_false] at h1 ⊢
    have m0 : ∀ e, 0 ≤ e → e < N - 1 → (2 * e) % (2 * N - 1 - 1) = 2 * e := fun e a b => by
      rw [mod_last _ _ (by omega) (by omega) (by omega), if_neg (by omega)]
    have m1 : ∀ e, 0 ≤ e → e < N - 1 → (2 * e + 1) % (2 * N - 1 - 1) = 2 * e + 1 := fun e a b => by
      rw [mod_last _ _ (by omega) (by omega) (by omega), if_neg (by omega)]
    have m2 : ∀ e, 0 ≤ e → e < N - 1 → (2 * e + 2) % (2 * N - 1 - 1) =
        if e = N - 2 then 0 else 2 * e + 2 := fun e a b => by
      rw [mod_last _ _ (by omega) (by omega) (by omega)]
      split_ifs <;> omega
    rcases Int.even_or_odd' g with ⟨m, hm | hm⟩
    · rw [sum_ico_zero (N - 1) (fun e => (2 * e + 1) % (2 * N - 1 - 1) = g)
          (fun e a b => by rw [m1 e a b]; omega),
        sum_ico_one (N - 1) (fun e => (2 * e) % (2 * N - 1 - 1) = g) m (by omega) (by omega)
          (by rw [m0 m (by omega) (by omega)]; omega)
          (fun e a b c => by rw [m0 e a b] at c; omega),
        sum_ico_one (N - 1) (fun e => (2 * e + 2) % (2 * N - 1 - 1) = g)
          (if m = 0 then N - 2 else m - 1) (by split_ifs <;> omega) (by split_ifs <;> omega)
          (by
            rw [m2 _ (by split_ifs <;> omega) (by split_ifs <;> omega)]
            split_ifs <;> omega)
          (fun e a b c => by rw [m2 e a b] at c; split_ifs at c ⊢ <;> omega)]
      norm_num
    · rw [sum_ico_zero (N - 1) (fun e => (2 * e) % (2 * N - 1 - 1) = g)
          (fun e a b => by rw [m0 e a b]; omega),
        sum_ico_zero (N - 1) (fun e => (2 * e + 2) % (2 * N - 1 - 1) = g)
          (fun e a b => by rw [m2 e a b]; split_ifs <;> omega),
        sum_ico_one (N - 1) (fun e => (2 * e + 1) % (2 * N - 1 - 1) = g) m (by omega) (by omega)
          (by rw [m1 m (by omega) (by omega)]; omega)
          (fun e a b c => by rw [m1 e a b] at c; omega)]
      norm_num

/-- One directional factor of the derivative weights: the outward normal. -/
theorem factor_normal (per : Bool) (N g : ℤ) (lx : List ℤ) (hN : 2 ≤ N) :
    ∑ e ∈ Finset.Ico (0 : ℤ) (N - 1), ∑ t : Fin 3,
      (if (if per then (2 * e + ((t : ℕ) : ℤ)) % meshVel N per else 2 * e + ((t : ℕ) : ℤ)) = g
        then (dW t : ℝ) else 0) = outward (velDir N per lx) g := by
  cases per with
  | true => rw [factor_zero true N g (by omega) (Or.inl rfl)]; simp [outward, velDir]
  | false =>
    simp only [Bool.false_eq_true, if_false, outward, velDir, meshVel]
    have h1 : ∀ e : ℤ, ∑ t : Fin 3, (if 2 * e + ((t : ℕ) : ℤ) = g then (dW t : ℝ) else 0) =
        (if 2 * (e + 1) = g then 1 else 0) - (if 2 * e = g then 1 else 0) := by
      intro e
      rw [Fin.sum_univ_three]
      have e2 : 2 * (e + 1) = 2 * e + 2 := by ring
      rw [e2]
      simp only [dW, Fin.val_zero, Fin.val_one, Fin.val_two, Nat.cast_zero, Nat.cast_one,
        Nat.cast_ofNat, add_zero, Matrix.cons_val_zero, Matrix.cons_val_one, Matrix.cons_val]
      split_ifs <;> norm_num
    rw [Finset.sum_congr rfl fun e _ => h1 e]
    obtain ⟨M, hM⟩ := Int.eq_ofNat_of_zero_le (show 0 ≤ N - 1 by omega)
    rw [hM, tele (fun e => if 2 * e = g then (1 : ℝ) else 0)]
    congr 1
    · exact if_congr (by omega) rfl rfl
    · exact if_congr (by omega) rfl rfl

section const
variable {NP NV : ℕ} (N : Fin d → ℤ) (per : Fin d → Bool)
  (lx : Fin d → List ℤ) (hne : ∀ i, lx i ≠ []) (hW : ∀ i, (presLayout N per lx i).WF)
  (elemP : Pos d ℤ → Fin NP → Pos d ℤ) (elemV : Pos d ℤ → Fin NV → Pos d ℤ) (hel : IsQ1 elemP)
  (off : Fin NV → Fin d → Fin 3) (hoff : Is4Q1 elemV off)
  (B : Fin NP → Fin NV → Fin d → ℝ)
include hne hW hel hoff

/-- The gradient of a constant pressure: zero but on the walls, where it is the normal. -/
theorem const_pressure_value (hN : ∀ i, 2 ≤ N i) (hbij : Function.Bijective off) (a : Fin d) (h : Pos d ℝ)
    (hB : ∀ k, ∑ ip, B ip k a = (∏ j ∈ Finset.univ.erase a, h j) *
      ∏ i, (((if i = a then dW else mW) (off k i) : ℚ) : ℝ))
    (u : NodeVec d d ℝ) (p0 : ℝ) (g : Pos d ℤ) (hg : g ∈ gridNodes (velLayout N per lx)) :
    (offDiagMatrix (velLayout N per lx) (presLayout N per lx) elemP elemV B u
      (fun _ _ => p0)).1 g a = -p0 * (outward (velLayout N per lx a) (g a) *
        ∏ j ∈ Finset.univ.erase a, trapezoid (velLayout N per lx j) (g j) * h j) := by
  set s := ∏ j ∈ Finset.univ.erase a, h j with hs
  set w : Fin d → Fin 3 → ℚ := fun i => if i = a then dW else mW with hw
  unfold offDiagMatrix
  rw [vel_out N per lx hne hW elemP elemV hel off hoff,
    block_id_zero N per lx hne hW elemP elemV hel off hoff, zero_add]
  have h1 : ∀ e : Pos d ℤ, (∑ k, if wrap (velLayout N per lx) (elemV e k) = g then
        ∑ ip, -(p0 * B ip k a) else 0) = (-p0 * s) * ∑ t : Fin d → Fin 3, ∏ i,
        (if (if per i then (2 * e i + ((t i : ℕ) : ℤ)) % meshVel (N i) (per i)
          else 2 * e i + ((t i : ℕ) : ℤ)) = g i then (w i (t i) : ℝ) else 0) := by
    intro e
    rw [Finset.mul_sum, ← hbij.sum_comp (fun t : Fin d → Fin 3 => (-p0 * s) * ∏ i,
        (if (if per i then (2 * e i + ((t i : ℕ) : ℤ)) % meshVel (N i) (per i)
          else 2 * e i + ((t i : ℕ) : ℤ)) = g i then (w i (t i) : ℝ) else 0))]
    refine Finset.sum_congr rfl fun k _ => ?_
    rw [Finset.prod_ite_zero]
    have hiff : wrap (velLayout N per lx) (elemV e k) = g ↔ ∀ i ∈ Finset.univ,
        (if per i then (2 * e i + ((off k i : ℕ) : ℤ)) % meshVel (N i) (per i)
          else 2 * e i + ((off k i : ℕ) : ℤ)) = g i := by
      rw [funext_iff]
      simp only [wrap, velLayout, velDir, hoff e k, Finset.mem_univ, true_imp_iff]
    simp only [hiff]
    split_ifs
    · rw [Finset.sum_neg_distrib, ← Finset.mul_sum, hB]; ring
    · ring
  rw [Finset.sum_congr rfl fun e _ => h1 e, ← Finset.mul_sum]
  unfold gridElems
  rw [sum_prod_form (fun i => Finset.Ico 0 (presLayout N per lx i).nElem) (fun i x t =>
      (if (if per i then (2 * x + ((t : ℕ) : ℤ)) % meshVel (N i) (per i)
          else 2 * x + ((t : ℕ) : ℤ)) = g i then (w i t : ℝ) else 0)),
    ← Finset.mul_prod_erase Finset.univ _ (Finset.mem_univ a)]
  have e1 : (∑ e ∈ Finset.Ico 0 (presLayout N per lx a).nElem, ∑ t : Fin 3,
      (if (if per a then (2 * e + ((t : ℕ) : ℤ)) % meshVel (N a) (per a)
          else 2 * e + ((t : ℕ) : ℤ)) = g a then (w a t : ℝ) else 0)) =
      outward (velLayout N per lx a) (g a) := by
    rw [pres_nElem]
    have : w a = dW := by simp [hw]
    rw [this]
    exact factor_normal (per a) (N a) (g a) (lx a) (hN a)
  have e2 : ∀ j ∈ Finset.univ.erase a, (∑ e ∈ Finset.Ico 0 (presLayout N per lx j).nElem, ∑ t : Fin 3,
      (if (if per j then (2 * e + ((t : ℕ) : ℤ)) % meshVel (N j) (per j)
          else 2 * e + ((t : ℕ) : ℤ)) = g j then (w j t : ℝ) else 0)) =
      trapezoid (velLayout N per lx j) (g j) := by
    intro j hj
    rw [pres_nElem]
    have : w j = mW := by simp [hw, Finset.ne_of_mem_erase hj]
    rw [this]
    have hgj := (mem_gridNodes _ g).1 hg j
    exact factor_mass (per j) (N j) (g j) (lx j) (hN j) hgj.1 hgj.2
  rw [e1, Finset.prod_congr rfl e2, Finset.prod_mul_distrib, hs]
  ring

end const

theorem grad_const2 (N : Fin 2 → ℤ) (per : Fin 2 → Bool) (lx : Fin 2 → List ℤ)
    (hne : ∀ i, lx i ≠ []) (hW : ∀ i, (presLayout N per lx i).WF) (hN : ∀ i, 2 ≤ N i) (h : Pos 2 ℝ)
    (u : NodeVec 2 2 ℝ) (p0 : ℝ) (g : Pos 2 ℤ) (hg : g ∈ gridNodes (velLayout N per lx)) (a : Fin 2) :
    (bAndBT2 N per lx h u (fun _ _ => p0)).1 g a = -p0 * (outward (velLayout N per lx a) (g a) *
        ∏ j ∈ Finset.univ.erase a, trapezoid (velLayout N per lx j) (g j) * h j) := by
  refine const_pressure_value N per lx hne hW _ _ isQ1_2 _ is4Q1_2 _ hN trit2_bij a h (fun k => ?_)
    u p0 g hg
  fin_cases a
  · have := congrArg (fun q : ℚ => (q : ℝ)) (col2.1 k)
    push_cast at this
    have he : (Finset.univ.erase (0 : Fin 2)) = {1} := by decide
    show ∑ ip, -h 1 * (matElem2d_pdxu ip k : ℝ) = (∏ j ∈ Finset.univ.erase (0 : Fin 2), h j) *
      ∏ i, (((if i = (0 : Fin 2) then dW else mW) (trit2 k i) : ℚ) : ℝ)
    rw [he, Finset.prod_singleton, Fin.prod_univ_two]
    show ∑ ip, -h 1 * (matElem2d_pdxu ip k : ℝ) = h 1 * ((dW (trit2 k 0) : ℝ) * (mW (trit2 k 1) : ℝ))
    rw [← this, ← Finset.mul_sum]; ring
  · have := congrArg (fun q : ℚ => (q : ℝ)) (col2.2 k)
    push_cast at this
    have he : (Finset.univ.erase (1 : Fin 2)) = {0} := by decide
    show ∑ ip, -h 0 * (matElem2d_pdyu ip k : ℝ) = (∏ j ∈ Finset.univ.erase (1 : Fin 2), h j) *
      ∏ i, (((if i = (1 : Fin 2) then dW else mW) (trit2 k i) : ℚ) : ℝ)
    rw [he, Finset.prod_singleton, Fin.prod_univ_two]
    show ∑ ip, -h 0 * (matElem2d_pdyu ip k : ℝ) = h 0 * ((mW (trit2 k 0) : ℝ) * (dW (trit2 k 1) : ℝ))
    rw [← this, ← Finset.mul_sum]; ring

theorem grad_const3 (N : Fin 3 → ℤ) (per : Fin 3 → Bool) (lx : Fin 3 → List ℤ)
    (hne : ∀ i, lx i ≠ []) (hW : ∀ i, (presLayout N per lx i).WF) (hN : ∀ i, 2 ≤ N i) (h : Pos 3 ℝ)
    (u : NodeVec 3 3 ℝ) (p0 : ℝ) (g : Pos 3 ℤ) (hg : g ∈ gridNodes (velLayout N per lx)) (a : Fin 3) :
    (bAndBT3 N per lx h u (fun _ _ => p0)).1 g a = -p0 * (outward (velLayout N per lx a) (g a) *
        ∏ j ∈ Finset.univ.erase a, trapezoid (velLayout N per lx j) (g j) * h j) := by
  refine const_pressure_value N per lx hne hW _ _ isQ1_3 _ is4Q1_3 _ hN trit3_bij a h (fun k => ?_)
    u p0 g hg
  fin_cases a
  · have := congrArg (fun q : ℚ => (q : ℝ)) (col3.1 k)
    push_cast at this
    have he : (Finset.univ.erase (0 : Fin 3)) = {1, 2} := by decide
    show ∑ ip, -h 1 * h 2 * (matElem3d_pdxu ip k : ℝ) =
      (∏ j ∈ Finset.univ.erase (0 : Fin 3), h j) *
      ∏ i, (((if i = (0 : Fin 3) then dW else mW) (trit3 k i) : ℚ) : ℝ)
    rw [he, Finset.prod_pair (by decide), Fin.prod_univ_three]
    show ∑ ip, -h 1 * h 2 * (matElem3d_pdxu ip k : ℝ) = h 1 * h 2 * ((dW (trit3 k 0) : ℝ) * (mW (trit3 k 1) : ℝ) * (mW (trit3 k 2) : ℝ))
    rw [← this, ← Finset.mul_sum]; ring
  · have := congrArg (fun q : ℚ => (q : ℝ)) (col3.2.1 k)
    push_cast at this
    have he : (Finset.univ.erase (1 : Fin 3)) = {0, 2} := by decide
    show ∑ ip, -h 0 * h 2 * (matElem3d_pdyu ip k : ℝ) =
      (∏ j ∈ Finset.univ.erase (1 : Fin 3), h j) *
      ∏ i, (((if i = (1 : Fin 3) then dW else mW) (trit3 k i) : ℚ) : ℝ)
    rw [he, Finset.prod_pair (by decide), Fin.prod_univ_three]
    show ∑ ip, -h 0 * h 2 * (matElem3d_pdyu ip k : ℝ) = h 0 * h 2 * ((mW (trit3 k 0) : ℝ) * (dW (trit3 k 1) : ℝ) * (mW (trit3 k 2) : ℝ))
    rw [← this, ← Finset.mul_sum]; ring
  · have := congrArg (fun q : ℚ => (q : ℝ)) (col3.2.2 k)
    push_cast at this
    have he : (Finset.univ.erase (2 : Fin 3)) = {0, 1} := by decide
    show ∑ ip, -h 0 * h 1 * (matElem3d_pdzu ip k : ℝ) =
      (∏ j ∈ Finset.univ.erase (2 : Fin 3), h j) *
      ∏ i, (((if i = (2 : Fin 3) then dW else mW) (trit3 k i) : ℚ) : ℝ)
    rw [he, Finset.prod_pair (by decide), Fin.prod_univ_three]
    show ∑ ip, -h 0 * h 1 * (matElem3d_pdzu ip k : ℝ) = h 0 * h 1 * ((mW (trit3 k 0) : ℝ) * (mW (trit3 k 1) : ℝ) * (dW (trit3 k 2) : ℝ))
    rw [← this, ← Finset.mul_sum]; ring

/-- The total of the discrete divergence is the flux through the walls (2D). -/
theorem total_div2 (N : Fin 2 → ℤ) (per : Fin 2 → Bool) (lx : Fin 2 → List ℤ)
    (hne : ∀ i, lx i ≠ []) (hW : ∀ i, (presLayout N per lx i).WF) (hN : ∀ i, 2 ≤ N i) (h : Pos 2 ℝ)
    (u : NodeVec 2 2 ℝ) (p : NodeVec 2 1 ℝ) :
    ∑ q ∈ gridNodes (presLayout N per lx), (bAndBT2 N per lx h u p).2 q 0 =
      wallFlux (velLayout N per lx) h u := by
  have key : ∑ q ∈ gridNodes (presLayout N per lx), (bAndBT2 N per lx h u p).2 q 0
      = - dot (velLayout N per lx) u (bAndBT2 N per lx h 0 (fun _ _ => 1)).1 := by
    rw [C18_adjoint2 N per lx hne hW h u 0 (fun _ _ => 1) p]
    simp [dot]
  rw [key]
  unfold dot wallFlux
  rw [Finset.sum_comm, ← Finset.sum_neg_distrib]
  refine Finset.sum_congr rfl fun a _ => ?_
  rw [← Finset.sum_neg_distrib]
  refine Finset.sum_congr rfl fun g hg => ?_
  rw [grad_const2 N per lx hne hW hN h 0 1 g hg a]
  ring

/-- The total of the discrete divergence is the flux through the walls (3D). -/
theorem total_div3 (N : Fin 3 → ℤ) (per : Fin 3 → Bool) (lx : Fin 3 → List ℤ)
    (hne : ∀ i, lx i ≠ []) (hW : ∀ i, (presLayout N per lx i).WF) (hN : ∀ i, 2 ≤ N i) (h : Pos 3 ℝ)
    (u : NodeVec 3 3 ℝ) (p : NodeVec 3 1 ℝ) :
    ∑ q ∈ gridNodes (presLayout N per lx), (bAndBT3 N per lx h u p).2 q 0 =
      wallFlux (velLayout N per lx) h u := by
  have key : ∑ q ∈ gridNodes (presLayout N per lx), (bAndBT3 N per lx h u p).2 q 0
      = - dot (velLayout N per lx) u (bAndBT3 N per lx h 0 (fun _ _ => 1)).1 := by
    rw [C18_adjoint3 N per lx hne hW h u 0 (fun _ _ => 1) p]
    simp [dot]
  rw [key]
  unfold dot wallFlux
  rw [Finset.sum_comm, ← Finset.sum_neg_distrib]
  refine Finset.sum_congr rfl fun a _ => ?_
  rw [← Finset.sum_neg_distrib]
  refine Finset.sum_congr rfl fun g hg => ?_
  rw [grad_const3 N per lx hne hW hN h 0 1 g hg a]
  ring

end Cafes.Props
