import Verif.Model.Assemble
import Verif.Spec.Assemble
import Mathlib.Data.Finset.Sum
import Verif.Props.Stokes

namespace Cafes
open Cafes.Props
variable {K : Type*}

theorem gxm_eq (D : Dir) (r : ℕ) : D.gxs r + D.gxm r = D.gxe r := by unfold Dir.gxm; ring

/-- Decoding of a local velocity id. -/
theorem ltog_vel (Lv Lp : Fin 2 → Dir) (r : Fin 2 → ℕ) (p : Pos 2 ℤ)
    (hp : p ∈ (ghostWindow Lv r).halfOpen) (c : Fin 2) :
    ltog Lv Lp r (c.1 + localIndex2 2 ((Lv 0).gxs (r 0)) ((Lv 1).gxs (r 1)) ((Lv 0).gxm (r 0))
      (p 0) (p 1)) = some (.inl (wrap Lv p, c)) := by
  have h0 := hp 0
  have h1 := hp 1
  simp only [ghostWindow] at h0 h1
  have e0 := gxm_eq (Lv 0) (r 0)
  have e1 := gxm_eq (Lv 1) (r 1)
  have hr := C04_localIndex2_range 2 ((Lv 0).gxs (r 0)) ((Lv 1).gxs (r 1)) ((Lv 0).gxm (r 0))
    ((Lv 1).gxm (r 1)) (p 0) (p 1) c.1 (by omega) (by omega) (by omega)
  have hd : decOf Lv r = 2 * ((Lv 0).gxm (r 0) * (Lv 1).gxm (r 1)) := by unfold decOf; ring
  have hq : ((c.1:ℤ) + localIndex2 2 ((Lv 0).gxs (r 0)) ((Lv 1).gxs (r 1)) ((Lv 0).gxm (r 0))
      (p 0) (p 1)) / 2 = (p 0 - (Lv 0).gxs (r 0)) + (Lv 0).gxm (r 0) * (p 1 - (Lv 1).gxs (r 1)) := by
    have : localIndex2 2 ((Lv 0).gxs (r 0)) ((Lv 1).gxs (r 1)) ((Lv 0).gxm (r 0)) (p 0) (p 1)
      = 2 * ((p 0 - (Lv 0).gxs (r 0)) + (Lv 0).gxm (r 0) * (p 1 - (Lv 1).gxs (r 1))) := by
      unfold localIndex2; ring
    omega
  have hm : ((c.1:ℤ) + localIndex2 2 ((Lv 0).gxs (r 0)) ((Lv 1).gxs (r 1)) ((Lv 0).gxm (r 0))
      (p 0) (p 1)) % 2 = c.1 := by
    unfold localIndex2; omega
  unfold ltog
  simp only [hd]
  rw [if_pos hr, hq, hm]
  have hn : nodeOf Lv r ((p 0 - (Lv 0).gxs (r 0)) + (Lv 0).gxm (r 0) * (p 1 - (Lv 1).gxs (r 1)))
      = wrap Lv p := by
    unfold nodeOf
    congr 1
    have hg : 0 < (Lv 0).gxm (r 0) := by omega
    funext i
    fin_cases i
    · simp only [Int.add_mul_emod_self_left]
      have := Int.emod_eq_of_lt (a := p 0 - (Lv 0).gxs (r 0)) (b := (Lv 0).gxm (r 0))
        (by omega) (by omega)
      simp [this]
    · have h2 := Int.add_mul_ediv_left (p 0 - (Lv 0).gxs (r 0)) (p 1 - (Lv 1).gxs (r 1))
        (ne_of_gt hg)
      have := Int.ediv_eq_zero_of_lt (a := p 0 - (Lv 0).gxs (r 0)) (b := (Lv 0).gxm (r 0))
        (by omega) (by omega)
      simp only [h2, this]
      simp
  rw [hn]
  congr 2
  fin_cases c <;> simp

/-- Decoding of a local pressure id. -/
theorem ltog_pres (Lv Lp : Fin 2 → Dir) (r : Fin 2 → ℕ) (p : Pos 2 ℤ)
    (hp : p ∈ (ghostWindow Lp r).halfOpen)
    (hv : 0 ≤ decOf Lv r) :
    ltog Lv Lp r (decOf Lv r + localIndex2 1 ((Lp 0).gxs (r 0)) ((Lp 1).gxs (r 1))
      ((Lp 0).gxm (r 0)) (p 0) (p 1)) = some (.inr (wrap Lp p)) := by
  have h0 := hp 0
  have h1 := hp 1
  simp only [ghostWindow] at h0 h1
  have e0 := gxm_eq (Lp 0) (r 0)
  have e1 := gxm_eq (Lp 1) (r 1)
  have hr := C04_localIndex2_range 1 ((Lp 0).gxs (r 0)) ((Lp 1).gxs (r 1)) ((Lp 0).gxm (r 0))
    ((Lp 1).gxm (r 1)) (p 0) (p 1) 0 (by omega) (by omega) (by omega)
  have hq : localIndex2 1 ((Lp 0).gxs (r 0)) ((Lp 1).gxs (r 1)) ((Lp 0).gxm (r 0)) (p 0) (p 1)
      = (p 0 - (Lp 0).gxs (r 0)) + (Lp 0).gxm (r 0) * (p 1 - (Lp 1).gxs (r 1)) := by
    unfold localIndex2; ring
  unfold ltog
  rw [if_neg (by omega), if_pos (by omega)]
  rw [add_sub_cancel_left, hq]
  congr 2
  unfold nodeOf
  congr 1
  have hg : 0 < (Lp 0).gxm (r 0) := by omega
  funext i
  fin_cases i
  · simp only [Int.add_mul_emod_self_left]
    have := Int.emod_eq_of_lt (a := p 0 - (Lp 0).gxs (r 0)) (b := (Lp 0).gxm (r 0))
      (by omega) (by omega)
    simp [this]
  · have h2 := Int.add_mul_ediv_left (p 0 - (Lp 0).gxs (r 0)) (p 1 - (Lp 1).gxs (r 1))
      (ne_of_gt hg)
    have := Int.ediv_eq_zero_of_lt (a := p 0 - (Lp 0).gxs (r 0)) (b := (Lp 0).gxm (r 0))
      (by omega) (by omega)
    simp only [h2, this]
    simp

/-- A fold that stays in `some`. -/
theorem foldl_some {α σ : Type*} (l : List α) (step : Option σ → α → Option σ) (step' : σ → α → σ)
    (h : ∀ s, ∀ a ∈ l, step (some s) a = some (step' s a)) (s : σ) :
    l.foldl step (some s) = some (l.foldl step' s) := by
  induction l generalizing s with
  | nil => rfl
  | cons a l ih =>
    simp only [List.foldl_cons]
    rw [h s a (by simp)]
    exact ih (fun s a ha => h s a (by simp [ha])) _

variable [CommRing K]

/-- A fold of additive steps on matrices. -/
theorem foldl_addmat {α : Type*} (l : List α) (step : Option (GMat K) → α → Option (GMat K))
    (W : α → GMat K) (h : ∀ A, ∀ a ∈ l, step (some A) a = some (fun p q => A p q + W a p q))
    (A : GMat K) :
    l.foldl step (some A) = some fun p q => A p q + (l.map fun a => W a p q).sum := by
  rw [foldl_some l step (fun A a p q => A p q + W a p q) h]
  congr 1
  funext p q
  exact foldl_add_eval l _ (fun A : GMat K => A p q) (fun a => W a p q) (fun _ _ => rfl) A

theorem matSetValuesLocal_eq {a b : ℕ} (map : ℤ → Option Dof) (rows : Fin a → ℤ) (cols : Fin b → ℤ)
    (vals : ℕ → Option K) (R : Fin a → Dof) (C : Fin b → Dof) (V : Fin a → Fin b → K)
    (hR : ∀ i, map (rows i) = some (R i)) (hC : ∀ j, map (cols j) = some (C j))
    (hV : ∀ i j, vals (i.1 * b + j.1) = some (V i j)) (A : GMat K) :
    matSetValuesLocal map rows cols vals (some A) =
      some fun p q => A p q + ∑ i, ∑ j, if p = R i ∧ q = C j then V i j else 0 := by
  unfold matSetValuesLocal
  rw [foldl_addmat _ _ (fun i p q => ∑ j, if p = R i ∧ q = C j then V i j else 0)]
  · simp only [Fin.sum_univ_def]
  · intro A i _
    rw [foldl_addmat _ _ (fun j p q => if p = R i ∧ q = C j then V i j else 0)]
    · simp only [Fin.sum_univ_def]
    · intro A j _
      rw [hR, hC, hV]
      simp only [addEntry]
      congr 1; funext p q
      split_ifs <;> simp

/-- Collective assembly: each element of the grid contributes once. -/
theorem assembleBy_eq (LE : Fin 2 → Dir) (hLE : ∀ i, (LE i).WF) (rs : List (Fin 2 → ℕ))
    (hrs : AllProcs LE rs)
    (kernel : (Fin 2 → ℕ) → Pos 2 ℤ → Option (GMat K) → Option (GMat K)) (W : Pos 2 ℤ → GMat K)
    (hk : ∀ r ∈ procs LE, ∀ e ∈ (getDMBounds LE r true).halfOpen, ∀ A,
      kernel r e (some A) = some fun p q => A p q + W e p q) (A : GMat K) :
    assembleBy LE rs kernel (some A) = some fun p q => A p q + ∑ e ∈ gridElems LE, W e p q := by
  unfold assembleBy
  rw [foldl_addmat rs _ (fun r p q => ∑ e ∈ (getDMBounds LE r true).visited.toFinset, W e p q)]
  · congr 1; funext p q
    congr 1
    rw [← List.sum_toFinset _ hrs.1]
    have : rs.toFinset = procs LE := by ext r; simp [hrs.2]
    rw [this, ← visited_globalElems]
    have := sum_procs_visited (procs LE) (fun r => getDMBounds LE r true) (globalElems LE)
      (C02_elements_partition LE hLE).1 (C02_elements_partition LE hLE).2 (fun e => W e p q)
    simp only [sum_visited_eq] at this
    exact this
  · intro A r hr
    rw [iterate_eq_foldl]
    rw [foldl_addmat _ _ W]
    · congr 1; funext p q; rw [← sum_visited_eq]
    · intro A e he
      exact hk r ((hrs.2 r).1 hr) e (by rw [← mem_visited_toFinset, List.mem_toFinset]; exact he) A

/-! Action of assembled matrices. -/

section action
variable (Lv Lp : Fin 2 → Dir)

theorem mem_dofs_vel (g : Pos 2 ℤ) (c : Fin 2) : (.inl (g, c) : Dof) ∈ dofs Lv Lp ↔ g ∈ gridNodes Lv := by
  simp [dofs]

theorem mem_dofs_pres (g : Pos 2 ℤ) : (.inr g : Dof) ∈ dofs Lv Lp ↔ g ∈ gridNodes Lp := by
  simp [dofs]

theorem applyMat_add (A : GMat K) {ι : Type*} (s : Finset ι) (W : ι → GMat K) (x : Dof → K) (p : Dof) :
    applyMat Lv Lp (fun p q => A p q + ∑ e ∈ s, W e p q) x p =
      applyMat Lv Lp A x p + ∑ e ∈ s, applyMat Lv Lp (W e) x p := by
  unfold applyMat
  simp only [add_mul, Finset.sum_add_distrib, Finset.sum_mul]
  congr 1
  rw [Finset.sum_comm]

theorem applyMat_block {a b : ℕ} (R : Fin a → Dof) (C : Fin b → Dof) (V : Fin a → Fin b → K)
    (hC : ∀ j, C j ∈ dofs Lv Lp) (x : Dof → K) (p : Dof) :
    applyMat Lv Lp (fun p q => ∑ i, ∑ j, if p = R i ∧ q = C j then V i j else 0) x p =
      ∑ i, if p = R i then ∑ j, V i j * x (C j) else 0 := by
  unfold applyMat
  simp only [Finset.sum_mul]
  rw [Finset.sum_comm]
  refine Finset.sum_congr rfl fun i _ => ?_
  rw [Finset.sum_comm]
  by_cases hp : p = R i
  · rw [if_pos hp]
    refine Finset.sum_congr rfl fun j _ => ?_
    simp only [hp, true_and, ite_mul, zero_mul]
    rw [Finset.sum_ite_eq']
    simp [hC j]
  · simp [hp]

end action

end Cafes
