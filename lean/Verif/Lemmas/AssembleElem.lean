import Verif.Lemmas.Assemble

namespace Cafes
open Cafes.Props
variable {K : Type*} [Field K]

theorem tab_symm2 : ∀ i j : Fin 4, matElem2d_dxudxu i j = matElem2d_dxudxu j i ∧
    matElem2d_dyudyu i j = matElem2d_dyudyu j i ∧ matElemMass2d i j = matElemMass2d j i := by
  decide +kernel

theorem laplacianA_val (h : Pos 2 K) (i j : Fin 4) :
    matElemLaplacianA h (i.1 * 4 + j.1) = some (matElemLaplacian2 h i j) := by
  have : matElemLaplacianA h (i.1 * 4 + j.1) = some (matElemLaplacian2 h j i) := by
    fin_cases i <;> fin_cases j <;> rfl
  rw [this]
  unfold matElemLaplacian2
  rw [(tab_symm2 i j).1, (tab_symm2 i j).2.1]

theorem massA_val (h : Pos 2 K) (i j : Fin 4) :
    matElemMassA h (i.1 * 4 + j.1) = some (matElemMass2 h i j) := by
  have : matElemMassA h (i.1 * 4 + j.1) = some (matElemMass2 h j i) := by
    fin_cases i <;> fin_cases j <;> rfl
  rw [this]
  unfold matElemMass2
  rw [(tab_symm2 i j).2.2]

theorem pressureA_val (h : Pos 2 K) (i : Fin 4) (m : Fin 18) :
    matElemPressureA h (i.1 * 18 + m.1) =
      some (matElemPressure2 h i ⟨m.1 % 9, by omega⟩ ⟨m.1 / 9, by omega⟩) := by
  fin_cases i <;> fin_cases m <;> rfl

theorem pressureAT_val (h : Pos 2 K) (m : Fin 18) (i : Fin 4) :
    matElemPressureAT h (m.1 * 4 + i.1) =
      some (-matElemPressure2 h i ⟨m.1 % 9, by omega⟩ ⟨m.1 / 9, by omega⟩) := by
  have : ∀ (m : Fin 18) (i : Fin 4), matElemPressureAT h (m.1 * 4 + i.1) =
      some (match (⟨m.1 / 9, by omega⟩ : Fin 2) with
        | 0 => h 1 * (matElem2d_pdxu i ⟨m.1 % 9, by omega⟩ : K)
        | 1 => h 0 * (matElem2d_pdyu i ⟨m.1 % 9, by omega⟩ : K)) := by
    intro m i; fin_cases m <;> fin_cases i <;> rfl
  rw [this]
  congr 1
  generalize (⟨m.1 / 9, by omega⟩ : Fin 2) = a
  fin_cases a <;> simp [matElemPressure2]

/-- Entry of the assembled strain matrix: row `(j, a)`, column `(i, b)`. -/
theorem strainA_val (h : Pos 2 K) (m n : Fin 8) :
    matElemStrainA h (m.1 * 8 + n.1) =
      some (match (⟨m.1 / 4, by omega⟩ : Fin 2), (⟨n.1 / 4, by omega⟩ : Fin 2) with
        | 0, 0 => matElemStrain2 h ⟨n.1 % 4, by omega⟩ ⟨m.1 % 4, by omega⟩ 0 0
        | 1, 1 => matElemStrain2 h ⟨n.1 % 4, by omega⟩ ⟨m.1 % 4, by omega⟩ 1 1
        | 0, 1 => (matElem2d_dxudyu ⟨n.1 % 4, by omega⟩ ⟨m.1 % 4, by omega⟩ : K)
        | 1, 0 => (matElem2d_dxudyu ⟨n.1 % 4, by omega⟩ ⟨m.1 % 4, by omega⟩ : K)) := by
  fin_cases m <;> fin_cases n <;> rfl

/-! The kernels. -/

theorem getIndices2_eq (dof gxs gys gxm : ℤ) (ix : Pos 2 ℤ) (c : ℤ) (k : Fin 4) :
    getIndices2 dof gxs gys gxm ix c k =
      c + localIndex2 dof gxs gys gxm (getElement2 ix k 0) (getElement2 ix k 1) := by
  fin_cases k <;> rfl

theorem getIndicesTensor2_eq (dof gxs gys gxm : ℤ) (ix : Pos 2 ℤ) (m : Fin 8) :
    getIndicesTensor2 dof gxs gys gxm ix m =
      ((⟨m.1 / 4, by omega⟩ : Fin 2).1 : ℤ) + localIndex2 dof gxs gys gxm
        (getElement2 ix ⟨m.1 % 4, by omega⟩ 0) (getElement2 ix ⟨m.1 % 4, by omega⟩ 1) := by
  fin_cases m <;>
    simp [getIndicesTensor2, getElement2]

/-- Contribution of one element to a velocity block made of identical diagonal blocks. -/
def wDiagVel (Lv : Fin 2 → Dir) (V : Fin 4 → Fin 4 → K) (e : Pos 2 ℤ) : GMat K := fun p q =>
  ∑ c : Fin 2, ∑ i, ∑ j, if p = .inl (wrap Lv (getElement2 e i), c) ∧
    q = .inl (wrap Lv (getElement2 e j), c) then V i j else 0

/-- Contribution of one element to the pressure block. -/
def wDiagPres (Lp : Fin 2 → Dir) (V : Fin 4 → Fin 4 → K) (e : Pos 2 ℤ) : GMat K := fun p q =>
  ∑ i, ∑ j, if p = .inr (wrap Lp (getElement2 e i)) ∧
    q = .inr (wrap Lp (getElement2 e j)) then V i j else 0

theorem kernelDiagBlockA_vel (Lv Lp : Fin 2 → Dir) (r : Fin 2 → ℕ) (vals : ℕ → Option K)
    (V : Fin 4 → Fin 4 → K) (hV : ∀ i j : Fin 4, vals (i.1 * 4 + j.1) = some (V i j)) (e : Pos 2 ℤ)
    (hw : ∀ k, getElement2 e k ∈ (ghostWindow Lv r).halfOpen) (A : GMat K) :
    kernelDiagBlockA (ltog Lv Lp r) Lv r 2 vals 0 e (some A) =
      some fun p q => A p q + wDiagVel Lv V e p q := by
  unfold kernelDiagBlockA
  rw [foldl_addmat _ _ (fun c p q => ∑ i, ∑ j, if p = .inl (wrap Lv (getElement2 e i), c) ∧
    q = .inl (wrap Lv (getElement2 e j), c) then V i j else 0)]
  · simp only [wDiagVel, Fin.sum_univ_def]
  · intro A c _
    have hid : ∀ k, ltog Lv Lp r (getIndices2 (2:ℕ) ((Lv 0).gxs (r 0)) ((Lv 1).gxs (r 1))
        ((Lv 0).gxm (r 0)) e (c.1 + 0) k) = some (.inl (wrap Lv (getElement2 e k), c)) := by
      intro k
      rw [getIndices2_eq, add_zero]
      exact ltog_vel Lv Lp r _ (hw k) c
    exact matSetValuesLocal_eq _ _ _ _ _ _ V hid hid hV A

theorem kernelDiagBlockA_pres (Lv Lp : Fin 2 → Dir) (r : Fin 2 → ℕ) (vals : ℕ → Option K)
    (V : Fin 4 → Fin 4 → K) (hV : ∀ i j : Fin 4, vals (i.1 * 4 + j.1) = some (V i j)) (e : Pos 2 ℤ)
    (hv : 0 ≤ decOf Lv r)
    (hw : ∀ k, getElement2 e k ∈ (ghostWindow Lp r).halfOpen) (A : GMat K) :
    kernelDiagBlockA (ltog Lv Lp r) Lp r 1 vals (decOf Lv r) e (some A) =
      some fun p q => A p q + wDiagPres Lp V e p q := by
  unfold kernelDiagBlockA
  rw [foldl_addmat _ _ (fun _ => wDiagPres Lp V e)]
  · simp
  · intro A c _
    have hid : ∀ k, ltog Lv Lp r (getIndices2 (1:ℕ) ((Lp 0).gxs (r 0)) ((Lp 1).gxs (r 1))
        ((Lp 0).gxm (r 0)) e (c.1 + decOf Lv r) k) = some (.inr (wrap Lp (getElement2 e k))) := by
      intro k
      rw [getIndices2_eq]
      have hc : ((c.1 : ℕ) : ℤ) = 0 := by have := c.2; omega
      rw [hc, zero_add]
      exact ltog_pres Lv Lp r _ (hw k) hv
    exact matSetValuesLocal_eq _ _ _ _ _ _ V hid hid hV A

/-- Contribution of one element to the velocity block, tensor case. -/
def wTensor (Lv : Fin 2 → Dir) (V : Fin 8 → Fin 8 → K) (e : Pos 2 ℤ) : GMat K := fun p q =>
  ∑ m : Fin 8, ∑ n : Fin 8,
    if p = .inl (wrap Lv (getElement2 e ⟨m.1 % 4, by omega⟩), ⟨m.1 / 4, by omega⟩) ∧
      q = .inl (wrap Lv (getElement2 e ⟨n.1 % 4, by omega⟩), ⟨n.1 / 4, by omega⟩) then V m n else 0

theorem kernelTensorBlockA_vel (Lv Lp : Fin 2 → Dir) (r : Fin 2 → ℕ) (vals : ℕ → Option K)
    (V : Fin 8 → Fin 8 → K) (hV : ∀ i j : Fin 8, vals (i.1 * 8 + j.1) = some (V i j)) (e : Pos 2 ℤ)
    (hw : ∀ k, getElement2 e k ∈ (ghostWindow Lv r).halfOpen) (A : GMat K) :
    kernelTensorBlockA (ltog Lv Lp r) Lv r vals e (some A) =
      some fun p q => A p q + wTensor Lv V e p q := by
  unfold kernelTensorBlockA
  have hid : ∀ m : Fin 8, ltog Lv Lp r (getIndicesTensor2 2 ((Lv 0).gxs (r 0)) ((Lv 1).gxs (r 1))
        ((Lv 0).gxm (r 0)) e m) =
        some (.inl (wrap Lv (getElement2 e ⟨m.1 % 4, by omega⟩), ⟨m.1 / 4, by omega⟩)) := by
    intro m
    rw [getIndicesTensor2_eq]
    exact ltog_vel Lv Lp r _ (hw _) _
  exact matSetValuesLocal_eq _ _ _ _ _ _ V hid hid hV A

/-- Contribution of one pressure cell to the two coupling blocks. -/
def wOff (Lv Lp : Fin 2 → Dir) (B : Fin 4 → Fin 9 → Fin 2 → K) (e : Pos 2 ℤ) : GMat K := fun p q =>
  (∑ i : Fin 4, ∑ m : Fin 18, if p = .inr (wrap Lp (getElement2 e i)) ∧
      q = .inl (wrap Lv (getElement4Q1_2 e ⟨m.1 % 9, by omega⟩), ⟨m.1 / 9, by omega⟩)
    then B i ⟨m.1 % 9, by omega⟩ ⟨m.1 / 9, by omega⟩ else 0) +
  (∑ m : Fin 18, ∑ i : Fin 4,
    if p = .inl (wrap Lv (getElement4Q1_2 e ⟨m.1 % 9, by omega⟩), ⟨m.1 / 9, by omega⟩) ∧
      q = .inr (wrap Lp (getElement2 e i))
    then -B i ⟨m.1 % 9, by omega⟩ ⟨m.1 / 9, by omega⟩ else 0)

theorem kernelOffDiagBlockA_eq (Lv Lp : Fin 2 → Dir) (r : Fin 2 → ℕ) (h : Pos 2 K) (e : Pos 2 ℤ)
    (hv : 0 ≤ decOf Lv r)
    (hw : ∀ k, getElement2 e k ∈ (ghostWindow Lp r).halfOpen)
    (hw4 : ∀ k, getElement4Q1_2 e k ∈ (ghostWindow Lv r).halfOpen) (A : GMat K) :
    kernelOffDiagBlockA (ltog Lv Lp r) Lv Lp r (decOf Lv r) (matElemPressureA h)
      (matElemPressureAT h) e (some A) =
      some fun p q => A p q + wOff Lv Lp (matElemPressure2 h) e p q := by
  unfold kernelOffDiagBlockA
  have hp : ∀ k, ltog Lv Lp r (getIndices2 1 ((Lp 0).gxs (r 0)) ((Lp 1).gxs (r 1))
        ((Lp 0).gxm (r 0)) e (decOf Lv r) k) = some (.inr (wrap Lp (getElement2 e k))) := by
    intro k
    rw [getIndices2_eq]
    exact ltog_pres Lv Lp r _ (hw k) hv
  have hq : ∀ m : Fin 18, ltog Lv Lp r (getIndices4Q1 2 ((Lv 0).gxs (r 0)) ((Lv 1).gxs (r 1))
      ((Lv 0).gxm (r 0)) e ⟨m.1 / 9, by omega⟩ ⟨m.1 % 9, by omega⟩) =
        some (.inl (wrap Lv (getElement4Q1_2 e ⟨m.1 % 9, by omega⟩), ⟨m.1 / 9, by omega⟩)) := by
    intro m
    exact ltog_vel Lv Lp r _ (hw4 _) _
  simp only
  rw [matSetValuesLocal_eq _ _ _ _ _ _
      (fun i m => matElemPressure2 h i ⟨m.1 % 9, by omega⟩ ⟨m.1 / 9, by omega⟩) hp hq
      (pressureA_val h) A,
    matSetValuesLocal_eq _ _ _ _ _ _
      (fun m i => -matElemPressure2 h i ⟨m.1 % 9, by omega⟩ ⟨m.1 / 9, by omega⟩) hq hp
      (pressureAT_val h)]
  congr 1; funext p q
  unfold wOff
  rw [add_assoc]

/-- The velocity window of a well-formed layout is not empty, hence `0 ≤ dec`. -/
theorem decOf_nonneg (Lv : Fin 2 → Dir) (hL : ∀ i, (Lv i).WF) (r : Fin 2 → ℕ)
    (hr : r ∈ procs Lv) : 0 ≤ decOf Lv r := by
  rw [mem_procs] at hr
  have key : ∀ i, 0 ≤ (Lv i).gxm (r i) := by
    intro i
    have h1 := Dir.xm_pos (hL i) (hr i)
    have h2 := Dir.xe_le (hL i) (hr i)
    have h3 := Dir.xs_nonneg (hL i) (r i)
    unfold Dir.gxm Dir.gxs Dir.gxe
    split_ifs <;> omega
  unfold decOf
  have := mul_nonneg (mul_nonneg (by norm_num : (0:ℤ) ≤ 2) (key 0)) (key 1)
  exact this

end Cafes
