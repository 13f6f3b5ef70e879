/-
Property theorems for assembled matrices: C22, C23, C28, C68.
-/
import Verif.Lemmas.AssembleElem
import Verif.Props.Dirichlet

namespace Cafes.Props
open Cafes Cafes.Spec
variable {K : Type*} [Field K]

/-! Action of the element contributions. -/

theorem apply_wDiagVel (Lv Lp : Fin 2 → Dir) (V : Fin 4 → Fin 4 → K) (e : Pos 2 ℤ)
    (he : ∀ k, wrap Lv (getElement2 e k) ∈ gridNodes Lv) (u : NodeVec 2 2 K) (p : NodeVec 2 1 K) :
    (∀ g c, applyMat Lv Lp (wDiagVel Lv V e) (pack u p) (.inl (g, c)) =
      ∑ k1, if wrap Lv (getElement2 e k1) = g then
        ∑ k2, u (wrap Lv (getElement2 e k2)) c * V k1 k2 else 0) ∧
    (∀ g, applyMat Lv Lp (wDiagVel Lv V e) (pack u p) (.inr g) = 0) := by
  have hW : ∀ row, applyMat Lv Lp (wDiagVel Lv V e) (pack u p) row = ∑ c : Fin 2,
      ∑ i, if row = .inl (wrap Lv (getElement2 e i), c) then
        ∑ j, V i j * pack u p (.inl (wrap Lv (getElement2 e j), c)) else 0 := by
    intro row
    have h0 := applyMat_add Lv Lp (fun _ _ => (0 : K)) (Finset.univ : Finset (Fin 2))
      (fun c p q => ∑ i, ∑ j, if p = .inl (wrap Lv (getElement2 e i), c) ∧
        q = .inl (wrap Lv (getElement2 e j), c) then V i j else 0) (pack u p) row
    simp only [zero_add] at h0
    refine (h0.trans ?_)
    have hz : applyMat Lv Lp (fun _ _ => (0 : K)) (pack u p) row = 0 := by simp [applyMat]
    rw [hz, zero_add]
    refine Finset.sum_congr rfl fun c _ => ?_
    exact applyMat_block Lv Lp _ _ V (fun j => (mem_dofs_vel Lv Lp _ _).2 (he j)) _ _
  constructor
  · intro g c
    rw [hW, Finset.sum_eq_single c]
    · refine Finset.sum_congr rfl fun i _ => ?_
      by_cases hg : wrap Lv (getElement2 e i) = g
      · rw [if_pos (by rw [hg]), if_pos hg]
        exact Finset.sum_congr rfl fun j _ => mul_comm _ _
      · rw [if_neg (by simpa using fun hh => hg hh.symm), if_neg hg]
    · intro c' _ hc
      refine Finset.sum_eq_zero fun i _ => if_neg ?_
      simp [hc.symm]
    · simp
  · intro g
    rw [hW]
    simp

theorem apply_wDiagPres (Lv Lp : Fin 2 → Dir) (V : Fin 4 → Fin 4 → K) (e : Pos 2 ℤ)
    (he : ∀ k, wrap Lp (getElement2 e k) ∈ gridNodes Lp) (u : NodeVec 2 2 K) (p : NodeVec 2 1 K) :
    (∀ g c, applyMat Lv Lp (wDiagPres Lp V e) (pack u p) (.inl (g, c)) = 0) ∧
    (∀ g, applyMat Lv Lp (wDiagPres Lp V e) (pack u p) (.inr g) =
      ∑ k1, if wrap Lp (getElement2 e k1) = g then
        ∑ k2, p (wrap Lp (getElement2 e k2)) 0 * V k1 k2 else 0) := by
  have hW : ∀ row, applyMat Lv Lp (wDiagPres Lp V e) (pack u p) row =
      ∑ i, if row = .inr (wrap Lp (getElement2 e i)) then
        ∑ j, V i j * pack u p (.inr (wrap Lp (getElement2 e j))) else 0 := fun row =>
    applyMat_block Lv Lp _ _ V (fun j => (mem_dofs_pres Lv Lp _).2 (he j)) _ _
  constructor
  · intro g c
    rw [hW]
    simp
  · intro g
    rw [hW]
    refine Finset.sum_congr rfl fun i _ => ?_
    by_cases hg : wrap Lp (getElement2 e i) = g
    · rw [if_pos (by rw [hg]), if_pos hg]
      exact Finset.sum_congr rfl fun j _ => mul_comm _ _
    · rw [if_neg (by simpa using fun hh => hg hh.symm), if_neg hg]

/-- Sum over the 18 ids of `get_indices_4Q1`. -/
theorem sum18 (f : Fin 9 → Fin 2 → K) :
    ∑ m : Fin 18, f ⟨m.1 % 9, by omega⟩ ⟨m.1 / 9, by omega⟩ = ∑ k, ∑ c, f k c := by
  simp only [Fin.sum_univ_def, List.finRange_succ, List.finRange_zero]
  simp
  ring

theorem apply_wOff (Lv Lp : Fin 2 → Dir) (B : Fin 4 → Fin 9 → Fin 2 → K) (e : Pos 2 ℤ)
    (he : ∀ k, wrap Lp (getElement2 e k) ∈ gridNodes Lp)
    (he4 : ∀ k, wrap Lv (getElement4Q1_2 e k) ∈ gridNodes Lv) (u : NodeVec 2 2 K) (p : NodeVec 2 1 K) :
    (∀ g c, applyMat Lv Lp (wOff Lv Lp B e) (pack u p) (.inl (g, c)) =
      ∑ k, if wrap Lv (getElement4Q1_2 e k) = g then
        ∑ ip, -(p (wrap Lp (getElement2 e ip)) 0 * B ip k c) else 0) ∧
    (∀ g, applyMat Lv Lp (wOff Lv Lp B e) (pack u p) (.inr g) =
      ∑ ip, if wrap Lp (getElement2 e ip) = g then
        ∑ k, ∑ c, u (wrap Lv (getElement4Q1_2 e k)) c * B ip k c else 0) := by
  have hsplit : ∀ row, applyMat Lv Lp (wOff Lv Lp B e) (pack u p) row =
      (∑ i : Fin 4, if row = .inr (wrap Lp (getElement2 e i)) then
        ∑ m : Fin 18, B i ⟨m.1 % 9, by omega⟩ ⟨m.1 / 9, by omega⟩ * pack u p
          (.inl (wrap Lv (getElement4Q1_2 e ⟨m.1 % 9, by omega⟩), ⟨m.1 / 9, by omega⟩)) else 0) +
      ∑ m : Fin 18, if row =
          .inl (wrap Lv (getElement4Q1_2 e ⟨m.1 % 9, by omega⟩), ⟨m.1 / 9, by omega⟩) then
        ∑ i : Fin 4, -B i ⟨m.1 % 9, by omega⟩ ⟨m.1 / 9, by omega⟩ *
          pack u p (.inr (wrap Lp (getElement2 e i))) else 0 := by
    intro row
    rw [← applyMat_block Lv Lp (fun i : Fin 4 => .inr (wrap Lp (getElement2 e i)))
        (fun m : Fin 18 =>
          .inl (wrap Lv (getElement4Q1_2 e ⟨m.1 % 9, by omega⟩), ⟨m.1 / 9, by omega⟩))
        (fun i m => B i ⟨m.1 % 9, by omega⟩ ⟨m.1 / 9, by omega⟩)
        (fun j => (mem_dofs_vel Lv Lp _ _).2 (he4 _)),
      ← applyMat_block Lv Lp
        (fun m : Fin 18 =>
          .inl (wrap Lv (getElement4Q1_2 e ⟨m.1 % 9, by omega⟩), ⟨m.1 / 9, by omega⟩))
        (fun i : Fin 4 => .inr (wrap Lp (getElement2 e i)))
        (fun m i => -B i ⟨m.1 % 9, by omega⟩ ⟨m.1 / 9, by omega⟩)
        (fun j => (mem_dofs_pres Lv Lp _).2 (he _))]
    unfold applyMat wOff
    rw [← Finset.sum_add_distrib]
    exact Finset.sum_congr rfl fun q _ => add_mul _ _ _
  constructor
  · intro g c
    rw [hsplit]
    simp only [reduceCtorEq, if_false, Finset.sum_const_zero, zero_add]
    refine (sum18 fun k c' => if (Sum.inl (g, c) : Dof) = .inl (wrap Lv (getElement4Q1_2 e k), c')
      then ∑ i : Fin 4, -B i k c' * pack u p (.inr (wrap Lp (getElement2 e i))) else 0).trans ?_
    refine Finset.sum_congr rfl fun k _ => ?_
    rw [Finset.sum_eq_single c]
    · by_cases hg : wrap Lv (getElement4Q1_2 e k) = g
      · rw [if_pos (by rw [hg]), if_pos hg]
        refine Finset.sum_congr rfl fun j _ => ?_
        simp only [pack, Sum.elim_inr]
        ring
      · rw [if_neg (by simpa using fun hh => hg hh.symm), if_neg hg]
    · intro c' _ hc
      refine if_neg ?_
      simp [hc.symm]
    · simp
  · intro g
    rw [hsplit]
    simp only [reduceCtorEq, if_false, Finset.sum_const_zero, add_zero]
    refine Finset.sum_congr rfl fun i _ => ?_
    by_cases hg : wrap Lp (getElement2 e i) = g
    · rw [if_pos (by rw [hg]), if_pos hg]
      refine (sum18 fun k c => B i k c * pack u p (.inl (wrap Lv (getElement4Q1_2 e k), c))).trans ?_
      refine Finset.sum_congr rfl fun k _ => Finset.sum_congr rfl fun c _ => ?_
      simp only [pack, Sum.elim_inl]
      ring
    · rw [if_neg (by simpa using fun hh => hg hh.symm), if_neg hg]

/-! ### C22: assembled and matrix-free operators agree -/

/-- C22 (Laplacian): `laplacian_assembling` uses no id outside the local map and no unset value, and
adds to any matrix `A` the matrix of `laplacian_mult` on the velocity block; the pressure rows and
columns are unchanged. -/
theorem C22_laplacian (Lv Lp : Fin 2 → Dir) (hL : ∀ i, (Lv i).WF) (rs : List (Fin 2 → ℕ))
    (hrs : AllProcs Lv rs) (h : Pos 2 K) (A : GMat K) :
    ∃ A', laplacianAssembling Lv Lp rs h (some A) = some A' ∧ ∀ u p,
      (∀ g c, applyMat Lv Lp A' (pack u p) (.inl (g, c)) =
        applyMat Lv Lp A (pack u p) (.inl (g, c)) + laplacian2 Lv h u g c) ∧
      (∀ g, applyMat Lv Lp A' (pack u p) (.inr g) = applyMat Lv Lp A (pack u p) (.inr g)) := by
  refine ⟨_, assembleBy_eq Lv hL rs hrs _ (wDiagVel Lv (matElemLaplacian2 h)) (fun r hr e he A =>
    kernelDiagBlockA_vel Lv Lp r _ _ (laplacianA_val h) e
      (C04_element2_in_window Lv hL r hr e he) A) A, fun u p => ⟨fun g c => ?_, fun g => ?_⟩⟩
  · rw [applyMat_add]
    congr 1
    unfold laplacian2
    rw [diagBlock_global Lv hL getElement2 isQ1_2]
    exact Finset.sum_congr rfl fun e he =>
      (apply_wDiagVel Lv Lp _ e (wrap_q1_mem Lv _ isQ1_2 e he) u p).1 g c
  · rw [applyMat_add, Finset.sum_eq_zero, add_zero]
    exact fun e he => (apply_wDiagVel Lv Lp _ e (wrap_q1_mem Lv _ isQ1_2 e he) u p).2 g

/-- C22 (mass): `mass_assembling` adds the matrix of `mass_mult` on the pressure block. -/
theorem C22_mass (Lv Lp : Fin 2 → Dir) (hv : ∀ i, (Lv i).WF) (hL : ∀ i, (Lp i).WF)
    (hpr : procs Lv = procs Lp) (rs : List (Fin 2 → ℕ))
    (hrs : AllProcs Lp rs) (h : Pos 2 K) (A : GMat K) :
    ∃ A', massAssembling Lv Lp rs h (some A) = some A' ∧ ∀ u p,
      (∀ g c, applyMat Lv Lp A' (pack u p) (.inl (g, c)) = applyMat Lv Lp A (pack u p) (.inl (g, c))) ∧
      (∀ g, applyMat Lv Lp A' (pack u p) (.inr g) =
        applyMat Lv Lp A (pack u p) (.inr g) + mass2 Lp h p g 0) := by
  refine ⟨_, assembleBy_eq Lp hL rs hrs _ (wDiagPres Lp (matElemMass2 h)) (fun r hr e he A =>
    kernelDiagBlockA_pres Lv Lp r _ _ (massA_val h) e (decOf_nonneg Lv hv r (hpr ▸ hr))
      (C04_element2_in_window Lp hL r hr e he) A) A, fun u p => ⟨fun g c => ?_, fun g => ?_⟩⟩
  · rw [applyMat_add, Finset.sum_eq_zero, add_zero]
    exact fun e he => (apply_wDiagPres Lv Lp _ e (wrap_q1_mem Lp _ isQ1_2 e he) u p).1 g c
  · rw [applyMat_add]
    congr 1
    unfold mass2
    rw [diagBlock_global Lp hL getElement2 isQ1_2]
    exact Finset.sum_congr rfl fun e he =>
      (apply_wDiagPres Lv Lp _ e (wrap_q1_mem Lp _ isQ1_2 e he) u p).2 g

/-- C22 (coupling): on the mesh of `createMesh`, `B_BT_assembling` adds the matrix of
`B_and_BT_mult`. -/
theorem C22_coupling (N : Fin 2 → ℤ) (per : Fin 2 → Bool) (lx : Fin 2 → List ℤ)
    (hne : ∀ i, lx i ≠ []) (hW : ∀ i, (presLayout N per lx i).WF) (rs : List (Fin 2 → ℕ))
    (hrs : AllProcs (presLayout N per lx) rs) (h : Pos 2 K) (A : GMat K) :
    ∃ A', bBTAssembling (velLayout N per lx) (presLayout N per lx) rs h (some A) = some A' ∧ ∀ u p,
      (∀ g c, applyMat (velLayout N per lx) (presLayout N per lx) A' (pack u p) (.inl (g, c)) =
        applyMat (velLayout N per lx) (presLayout N per lx) A (pack u p) (.inl (g, c)) +
          (bAndBT2 N per lx h u p).1 g c) ∧
      (∀ g, applyMat (velLayout N per lx) (presLayout N per lx) A' (pack u p) (.inr g) =
        applyMat (velLayout N per lx) (presLayout N per lx) A (pack u p) (.inr g) +
          (bAndBT2 N per lx h u p).2 g 0) := by
  have hv := velLayout_wf N per lx hne hW
  have hpr := procs_layout N per lx
  have h4 := mem4 N per lx hne hW getElement2 getElement4Q1_2 isQ1_2 trit2 is4Q1_2
  refine ⟨_, assembleBy_eq _ hW rs hrs _
    (wOff (velLayout N per lx) (presLayout N per lx) (matElemPressure2 h)) (fun r hr e he A =>
    kernelOffDiagBlockA_eq _ _ r h e (decOf_nonneg _ hv r (hpr ▸ hr))
      (C04_element2_in_window _ hW r hr e he)
      (win4 N per lx hne hW getElement2 getElement4Q1_2 isQ1_2 trit2 is4Q1_2 r hr e he) A) A,
    fun u p => ⟨fun g c => ?_, fun g => ?_⟩⟩
  · rw [applyMat_add]
    congr 1
    unfold bAndBT2 offDiagMatrix
    rw [vel_out N per lx hne hW getElement2 getElement4Q1_2 isQ1_2 trit2 is4Q1_2,
      block_id_zero N per lx hne hW getElement2 getElement4Q1_2 isQ1_2 trit2 is4Q1_2, zero_add]
    exact Finset.sum_congr rfl fun e he =>
      (apply_wOff _ _ _ e (wrap_q1_mem _ _ isQ1_2 e he) (h4 e he) u p).1 g c
  · rw [applyMat_add]
    congr 1
    unfold bAndBT2 offDiagMatrix
    rw [pres_out N per lx hne hW getElement2 getElement4Q1_2 isQ1_2 trit2 is4Q1_2]
    exact Finset.sum_congr rfl fun e he =>
      (apply_wOff _ _ _ e (wrap_q1_mem _ _ isQ1_2 e he) (h4 e he) u p).2 g

/-! ### C68: diagonal assembling -/

/-- What `diagonal_assembling` really does, for every value: it completes without error and leaves
the matrix unchanged. -/
theorem diagonalAssembling_id (Lv Lp : Fin 2 → Dir) (hv : ∀ i, (Lv i).WF) (hL : ∀ i, (Lp i).WF)
    (hpr : procs Lv = procs Lp) (rs : List (Fin 2 → ℕ)) (hrs : AllProcs Lp rs) (v : K)
    (A : GMat K) : diagonalAssembling Lv Lp rs v (some A) = some A := by
  have := assembleBy_eq Lp hL rs hrs _ (wDiagPres Lp (fun _ _ => (0 : K))) (fun r hr e he A =>
    kernelDiagBlockA_pres Lv Lp r (fun _ => some 0) _ (fun _ _ => rfl) e
      (decOf_nonneg Lv hv r (hpr ▸ hr)) (C04_element2_in_window Lp hL r hr e he) A) A
  refine this.trans ?_
  congr 1; funext p q
  simp [wDiagPres]

/-- C22 (whole matrix): on the mesh of `createMesh` the matrix `A` that `stokes` builds with the
option `assembling` (Laplacian form) is the matrix of the matrix-free Stokes operator. -/
theorem C22_stokes (N : Fin 2 → ℤ) (per : Fin 2 → Bool) (lx : Fin 2 → List ℤ)
    (hne : ∀ i, lx i ≠ []) (hW : ∀ i, (presLayout N per lx i).WF) (rs : List (Fin 2 → ℕ))
    (hrs : AllProcs (presLayout N per lx) rs) (h : Pos 2 K) :
    ∃ A, stokesAssembled (velLayout N per lx) (presLayout N per lx) rs h = some A ∧ ∀ u p,
      (∀ g c, applyMat (velLayout N per lx) (presLayout N per lx) A (pack u p) (.inl (g, c)) =
        (stokesLap2 N per lx h u p).1 g c) ∧
      (∀ g, applyMat (velLayout N per lx) (presLayout N per lx) A (pack u p) (.inr g) =
        (stokesLap2 N per lx h u p).2 g 0) := by
  have hv := velLayout_wf N per lx hne hW
  have hpr := procs_layout N per lx
  have hrs' : AllProcs (velLayout N per lx) rs := ⟨hrs.1, fun r => by rw [hrs.2, hpr]⟩
  obtain ⟨A1, h1, h1'⟩ := C22_laplacian (velLayout N per lx) (presLayout N per lx) hv rs hrs' h
    (fun _ _ => 0)
  obtain ⟨A2, h2, h2'⟩ := C22_coupling N per lx hne hW rs hrs h A1
  refine ⟨A2, ?_, fun u p => ?_⟩
  · unfold stokesAssembled
    rw [h1, h2]
    exact diagonalAssembling_id _ _ hv hW hpr rs hrs 0 A2
  · have hs := stokes_split N per lx hne hW getElement2 getElement4Q1_2 isQ1_2 trit2 is4Q1_2
      (diagBlockMult (velLayout N per lx) getElement2 (matElemLaplacian2 h))
      (matElemPressure2 h) u p
    have hz : ∀ row, applyMat (velLayout N per lx) (presLayout N per lx) (fun _ _ => (0:K))
      (pack u p) row = 0 := fun row => by simp [applyMat]
    constructor
    · intro g c
      rw [(h2' u p).1, (h1' u p).1, hz, zero_add]
      exact (hs.1 g c).symm
    · intro g
      rw [(h2' u p).2, (h1' u p).2, hz, zero_add]
      exact (hs.2 g 0).symm

/-- C68 is false of the code: whatever the matrix, on every mesh with a pressure node, for every
non zero `value` the result is not the matrix with `value` added on the diagonal of the pressure
block (`matelem` is filled with `0` instead of being built from `value`,
cafes/fem/assembling.hpp:557-558). -/
theorem C68_refuted (Lv Lp : Fin 2 → Dir) (hv : ∀ i, (Lv i).WF) (hL : ∀ i, (Lp i).WF)
    (hpr : procs Lv = procs Lp) (rs : List (Fin 2 → ℕ)) (hrs : AllProcs Lp rs) (v : K) (hv0 : v ≠ 0)
    (hn : (gridNodes Lp).Nonempty) (A : GMat K) :
    diagonalAssembling Lv Lp rs v (some A) ≠
      some fun p q => A p q + if p = q ∧ ∃ g ∈ gridNodes Lp, p = .inr g then v else 0 := by
  rw [diagonalAssembling_id Lv Lp hv hL hpr rs hrs v A]
  obtain ⟨g, hg⟩ := hn
  intro hh
  have := congrFun (congrFun (Option.some.inj hh) (.inr g)) (.inr g)
  rw [if_pos ⟨rfl, g, hg, rfl⟩] at this
  exact hv0 (by simpa using this.symm)

/-- C68 (exact): on every mesh, for every decomposition, every matrix and every `value`,
`diagonal_assembling` completes without error and leaves the matrix unchanged, so that it adds
`value` on the diagonal of the pressure block if and only if `value = 0` (when there is a pressure
node). -/
theorem C68_exact (Lv Lp : Fin 2 → Dir) (hv : ∀ i, (Lv i).WF) (hL : ∀ i, (Lp i).WF)
    (hpr : procs Lv = procs Lp) (rs : List (Fin 2 → ℕ)) (hrs : AllProcs Lp rs) (v : K)
    (hn : (gridNodes Lp).Nonempty) (A : GMat K) :
    diagonalAssembling Lv Lp rs v (some A) = some A ∧
    (diagonalAssembling Lv Lp rs v (some A) =
      some (fun p q => A p q + if p = q ∧ ∃ g ∈ gridNodes Lp, p = .inr g then v else 0) ↔ v = 0) := by
  refine ⟨diagonalAssembling_id Lv Lp hv hL hpr rs hrs v A, fun h => ?_, ?_⟩
  · by_contra h0
    exact C68_refuted Lv Lp hv hL hpr rs hrs v h0 hn A h
  · rintro rfl
    rw [diagonalAssembling_id Lv Lp hv hL hpr rs hrs 0 A]
    simp

/-- C68, the case used by `stokes` (cafes/problem/stokes.hpp:267): for `value = 0` the claim holds. -/
theorem C68_zero (Lv Lp : Fin 2 → Dir) (hv : ∀ i, (Lv i).WF) (hL : ∀ i, (Lp i).WF)
    (hpr : procs Lv = procs Lp) (rs : List (Fin 2 → ℕ)) (hrs : AllProcs Lp rs) (A : GMat K) :
    diagonalAssembling Lv Lp rs 0 (some A) =
      some fun p q => A p q + if p = q ∧ ∃ g ∈ gridNodes Lp, p = .inr g then 0 else 0 := by
  rw [diagonalAssembling_id Lv Lp hv hL hpr rs hrs 0 A]
  simp

/-- The hypotheses of C22, C23 and C68 are met by a 6 x 6 mesh, periodic in `y`, on 3 x 2
processes. -/
example : let Lv := velLayout (fun _ => 6) (fun i => decide (i = (1 : Fin 2))) ![[2, 3, 1], [2, 3]]
    let Lp := presLayout (fun _ => 6) (fun i => decide (i = (1 : Fin 2))) ![[2, 3, 1], [2, 3]]
    (∀ i, (Lp i).WF) ∧ (∀ i, (Lv i).WF) ∧ procs Lv = procs Lp ∧ AllProcs Lp (procs Lp).toList ∧
    AllProcs Lv (procs Lp).toList ∧ (gridNodes Lp).Nonempty ∧
    ∃ g ∈ gridNodes Lv, ∀ f, ¬ OnFace Lv g f := by
  have hne : ∀ i, (![[2, 3, 1], [2, 3]] : Fin 2 → List ℤ) i ≠ [] := by
    intro i; fin_cases i <;> decide
  have hW : ∀ i, (presLayout (fun _ => 6) (fun i => decide (i = (1 : Fin 2)))
      ![[2, 3, 1], [2, 3]] i).WF := by
    intro i; fin_cases i <;> exact ⟨by decide, by decide⟩
  have hp := procs_layout (fun _ => 6) (fun i => decide (i = (1 : Fin 2))) ![[2, 3, 1], [2, 3]]
  refine ⟨hW, velLayout_wf _ _ _ hne hW, hp, ⟨Finset.nodup_toList _, by simp⟩,
    ⟨Finset.nodup_toList _, by simp [hp]⟩, ⟨![0, 0], by decide +kernel⟩, ![1, 0],
    by decide +kernel, ?_⟩
  rintro f ⟨i, hp, h⟩
  fin_cases i
  · rcases h with ⟨-, h⟩ | ⟨-, h⟩ <;> revert h <;> decide +kernel
  · revert hp; decide +kernel

/-! ### C23: the assembled strain tensor -/

theorem sum8 (f : Fin 4 → Fin 2 → K) :
    ∑ m : Fin 8, f ⟨m.1 % 4, by omega⟩ ⟨m.1 / 4, by omega⟩ = ∑ k, ∑ c, f k c := by
  simp only [Fin.sum_univ_def, List.finRange_succ, List.finRange_zero]
  simp
  ring

/-- Entry of the assembled strain element matrix, row `(i, a)`, column `(j, b)`. -/
def strainAE (h : Pos 2 K) (i : Fin 4) (a : Fin 2) (j : Fin 4) (b : Fin 2) : K :=
  match a, b with
  | 0, 0 => matElemStrain2 h j i 0 0
  | 1, 1 => matElemStrain2 h j i 1 1
  | 0, 1 => (matElem2d_dxudyu j i : K)
  | 1, 0 => (matElem2d_dxudyu j i : K)

theorem apply_wTensor (Lv Lp : Fin 2 → Dir) (V : Fin 4 → Fin 2 → Fin 4 → Fin 2 → K) (e : Pos 2 ℤ)
    (he : ∀ k, wrap Lv (getElement2 e k) ∈ gridNodes Lv) (u : NodeVec 2 2 K) (p : NodeVec 2 1 K) :
    (∀ g c, applyMat Lv Lp (wTensor Lv (fun m n => V ⟨m.1 % 4, by omega⟩ ⟨m.1 / 4, by omega⟩
        ⟨n.1 % 4, by omega⟩ ⟨n.1 / 4, by omega⟩) e) (pack u p) (.inl (g, c)) =
      ∑ k1, if wrap Lv (getElement2 e k1) = g then
        ∑ k2, ∑ c2, u (wrap Lv (getElement2 e k2)) c2 * V k1 c k2 c2 else 0) ∧
    (∀ g, applyMat Lv Lp (wTensor Lv (fun m n => V ⟨m.1 % 4, by omega⟩ ⟨m.1 / 4, by omega⟩
        ⟨n.1 % 4, by omega⟩ ⟨n.1 / 4, by omega⟩) e) (pack u p) (.inr g) = 0) := by
  have hW : ∀ row, applyMat Lv Lp (wTensor Lv (fun m n => V ⟨m.1 % 4, by omega⟩ ⟨m.1 / 4, by omega⟩
        ⟨n.1 % 4, by omega⟩ ⟨n.1 / 4, by omega⟩) e) (pack u p) row =
      ∑ k1, ∑ c1 : Fin 2, if row = .inl (wrap Lv (getElement2 e k1), c1) then
        ∑ k2, ∑ c2 : Fin 2, V k1 c1 k2 c2 * pack u p (.inl (wrap Lv (getElement2 e k2), c2))
        else 0 := by
    intro row
    refine (applyMat_block Lv Lp _ _ _ (fun j => (mem_dofs_vel Lv Lp _ _).2 (he _)) _ _).trans ?_
    rw [← sum8 (fun k1 c1 => if row = .inl (wrap Lv (getElement2 e k1), c1) then
        ∑ k2, ∑ c2 : Fin 2, V k1 c1 k2 c2 * pack u p (.inl (wrap Lv (getElement2 e k2), c2))
        else 0)]
    refine Finset.sum_congr rfl fun m _ => ?_
    congr 1
    exact sum8 (fun k2 c2 => V ⟨m.1 % 4, by omega⟩ ⟨m.1 / 4, by omega⟩ k2 c2 *
      pack u p (.inl (wrap Lv (getElement2 e k2), c2)))
  constructor
  · intro g c
    rw [hW]
    refine Finset.sum_congr rfl fun k1 _ => ?_
    rw [Finset.sum_eq_single c]
    · by_cases hg : wrap Lv (getElement2 e k1) = g
      · rw [if_pos (by rw [hg]), if_pos hg]
        exact Finset.sum_congr rfl fun j _ => Finset.sum_congr rfl fun c2 _ => mul_comm _ _
      · rw [if_neg (by simpa using fun hh => hg hh.symm), if_neg hg]
    · intro c' _ hc
      refine if_neg ?_
      simp [hc.symm]
    · simp
  · intro g
    rw [hW]
    simp

/-- What `strain_tensor_assembling` builds: the matrix of `strain_tensor_mult`, plus, in the rows of
the first component, the contributions of the antisymmetric part of the mixed derivatives table. -/
theorem strain_assembled (Lv Lp : Fin 2 → Dir) (hL : ∀ i, (Lv i).WF) (rs : List (Fin 2 → ℕ))
    (hrs : AllProcs Lv rs) (h : Pos 2 K) (A : GMat K) :
    ∃ A', strainAssembling Lv Lp rs h (some A) = some A' ∧ ∀ u p,
      (∀ g, applyMat Lv Lp A' (pack u p) (.inl (g, 0)) =
        applyMat Lv Lp A (pack u p) (.inl (g, 0)) + strain2 Lv h u g 0 +
        ∑ e ∈ gridElems Lv, ∑ k1, if wrap Lv (getElement2 e k1) = g then
          ∑ k2, u (wrap Lv (getElement2 e k2)) 1 *
            ((matElem2d_dxudyu k2 k1 : K) - (matElem2d_dxudyu k1 k2 : K)) else 0) ∧
      (∀ g, applyMat Lv Lp A' (pack u p) (.inl (g, 1)) =
        applyMat Lv Lp A (pack u p) (.inl (g, 1)) + strain2 Lv h u g 1) ∧
      (∀ g, applyMat Lv Lp A' (pack u p) (.inr g) = applyMat Lv Lp A (pack u p) (.inr g)) := by
  have hval : ∀ m n : Fin 8, matElemStrainA h (m.1 * 8 + n.1) =
      some (strainAE h ⟨m.1 % 4, by omega⟩ ⟨m.1 / 4, by omega⟩
        ⟨n.1 % 4, by omega⟩ ⟨n.1 / 4, by omega⟩) := fun m n => strainA_val h m n
  have key : ∀ e u p, e ∈ gridElems Lv → _ := fun e (u : NodeVec 2 2 K) (p : NodeVec 2 1 K)
    (he : e ∈ gridElems Lv) =>
    apply_wTensor Lv Lp (strainAE h) e (wrap_q1_mem Lv _ isQ1_2 e he) u p
  refine ⟨_, assembleBy_eq Lv hL rs hrs _ (wTensor Lv _) (fun r hr e he A =>
    kernelTensorBlockA_vel Lv Lp r _ _ hval e
      (C04_element2_in_window Lv hL r hr e he) A) A, fun u p => ⟨fun g => ?_, fun g => ?_, fun g => ?_⟩⟩
  · rw [applyMat_add, add_assoc]
    congr 1
    unfold strain2
    rw [tensorBlock_global Lv hL getElement2 isQ1_2, ← Finset.sum_add_distrib]
    refine Finset.sum_congr rfl fun e he => ?_
    rw [(key e u p he).1 g 0, ← Finset.sum_add_distrib]
    refine Finset.sum_congr rfl fun k1 _ => ?_
    split_ifs
    · rw [← Finset.sum_add_distrib]
      refine Finset.sum_congr rfl fun k2 _ => ?_
      simp only [Fin.sum_univ_two, strainAE, matElemStrain2, (tab_symm2 k2 k1).1,
        (tab_symm2 k2 k1).2.1]
      ring
    · simp
  · rw [applyMat_add]
    congr 1
    unfold strain2
    rw [tensorBlock_global Lv hL getElement2 isQ1_2]
    refine Finset.sum_congr rfl fun e he => ?_
    rw [(key e u p he).1 g 1]
    refine Finset.sum_congr rfl fun k1 _ => ?_
    congr 1
    refine Finset.sum_congr rfl fun k2 _ => ?_
    simp only [Fin.sum_univ_two, strainAE, matElemStrain2, (tab_symm2 k2 k1).1,
      (tab_symm2 k2 k1).2.1]
  · rw [applyMat_add, Finset.sum_eq_zero, add_zero]
    exact fun e he => (key e u p he).2 g

/-- The element having the interior node `g` as its corner of offset `b`, and where its other
corners are. -/
theorem elem_at_corner {d : ℕ} (L : Fin d → Dir) (g : Pos d ℤ) (hg : g ∈ gridNodes L)
    (hi : ∀ f, ¬ OnFace L g f) (b : Fin d → ℤ) (hb : ∀ i, b i = 0 ∨ b i = 1) :
    ∃ e ∈ gridElems L, (∀ e' ∈ gridElems L, wrap L (fun i => e' i + b i) = g ↔ e' = e) ∧
      ∀ b' : Fin d → ℤ, wrap L (fun i => e i + b' i) = wrap L (fun i => g i + (b' i - b i)) := by
  have hgi := (mem_gridNodes L g).1 hg
  have hint : ∀ i, (L i).periodic = false → 0 < g i ∧ g i < (L i).m - 1 := by
    intro i hp
    have h1 := hi (2 * i.1)
    have h2 := hi (2 * i.1 + 1)
    have := hgi i
    refine ⟨lt_of_le_of_ne this.1 fun h => h1 ⟨i, hp, Or.inl ⟨rfl, h.symm⟩⟩, ?_⟩
    have h3 : g i ≠ (L i).m - 1 := fun h => h2 ⟨i, hp, Or.inr ⟨rfl, h⟩⟩
    omega
  refine ⟨fun i => if (L i).periodic then (g i - b i) % (L i).m else g i - b i, ?_, ?_, ?_⟩
  · rw [mem_gridElems]
    intro i
    have h1 := hgi i
    have h2 := hb i
    unfold Dir.nElem
    by_cases hp : (L i).periodic = true
    · simp only [hp, if_true]
      exact ⟨Int.emod_nonneg _ (by omega), Int.emod_lt_of_pos _ (by omega)⟩
    · have h3 := hint i (by simpa using hp)
      simp only [hp, Bool.false_eq_true, if_false]
      omega
  · intro e' he'
    rw [mem_gridElems] at he'
    constructor
    · intro hw
      funext i
      have h1 := hgi i
      have h2 := he' i
      have h3 := congrFun hw i
      unfold Dir.nElem at h2
      simp only [wrap] at h3
      by_cases hp : (L i).periodic = true
      · simp only [hp, if_true] at h2 h3 ⊢
        rw [← h3, Int.sub_emod, Int.emod_emod_of_dvd _ (dvd_refl _), ← Int.sub_emod,
          add_sub_cancel_right, Int.emod_eq_of_lt h2.1 h2.2]
      · simp only [hp, Bool.false_eq_true, if_false] at h2 h3 ⊢
        omega
    · rintro rfl
      funext i
      have h1 := hgi i
      simp only [wrap]
      by_cases hp : (L i).periodic = true
      · simp only [hp, if_true]
        rw [Int.emod_add_emod, sub_add_cancel, Int.emod_eq_of_lt h1.1 h1.2]
      · simp only [hp, Bool.false_eq_true, if_false]
        omega
  · intro b'
    funext i
    simp only [wrap]
    by_cases hp : (L i).periodic = true
    · simp only [hp, if_true]
      rw [Int.emod_add_emod]
      congr 1; ring
    · simp only [hp, Bool.false_eq_true, if_false]
      ring

/-- The antisymmetric part of the mixed derivatives table gives no contribution at an interior
node: the terms of the two elements sharing an edge cancel. -/
theorem null_lagrangian [CharZero K] (L : Fin 2 → Dir) (g : Pos 2 ℤ) (hg : g ∈ gridNodes L)
    (hi : ∀ f, ¬ OnFace L g f) (w : Pos 2 ℤ → K) :
    (∑ e ∈ gridElems L, ∑ k1, if wrap L (getElement2 e k1) = g then
      ∑ k2, w (wrap L (getElement2 e k2)) *
        ((matElem2d_dxudyu k2 k1 : K) - (matElem2d_dxudyu k1 k2 : K)) else 0) = 0 := by
  rw [Finset.sum_comm]
  have hoff : ∀ (e : Pos 2 ℤ) (k : Fin 4), getElement2 e k = fun i => e i + ((bit2 k i : ℕ) : ℤ) := by
    intro e k
    funext i
    rw [getElement2_eq]
    fin_cases i <;> simp [bit2]
  have hk : ∀ k1 : Fin 4, (∑ e ∈ gridElems L, if wrap L (getElement2 e k1) = g then
      ∑ k2, w (wrap L (getElement2 e k2)) *
        ((matElem2d_dxudyu k2 k1 : K) - (matElem2d_dxudyu k1 k2 : K)) else 0) =
      ∑ k2, w (wrap L (fun i => g i + (((bit2 k2 i : ℕ) : ℤ) - ((bit2 k1 i : ℕ) : ℤ)))) *
        ((matElem2d_dxudyu k2 k1 : K) - (matElem2d_dxudyu k1 k2 : K)) := by
    intro k1
    obtain ⟨e, he, h1, h2⟩ := elem_at_corner L g hg hi (fun i => ((bit2 k1 i : ℕ) : ℤ))
      (fun i => by have := (bit2 k1 i).2; omega)
    rw [Finset.sum_eq_single e]
    · rw [if_pos (by rw [hoff]; exact (h1 e he).2 rfl)]
      refine Finset.sum_congr rfl fun k2 _ => ?_
      rw [hoff, h2 (fun i => ((bit2 k2 i : ℕ) : ℤ))]
    · intro e' he' hne
      refine if_neg fun hh => hne ((h1 e' he').1 ?_)
      rw [← hh, hoff]
    · exact fun hh => absurd he hh
  rw [Finset.sum_congr rfl fun k1 _ => hk k1]
  set U : ℤ → ℤ → K := fun x y => w (wrap L (fun i => g i + (![x, y] : Fin 2 → ℤ) i)) with hU
  have hUk : ∀ k1 k2 : Fin 4,
      w (wrap L (fun i => g i + (((bit2 k2 i : ℕ) : ℤ) - ((bit2 k1 i : ℕ) : ℤ)))) =
      U (((bit2 k2 0 : ℕ) : ℤ) - ((bit2 k1 0 : ℕ) : ℤ)) (((bit2 k2 1 : ℕ) : ℤ) - ((bit2 k1 1 : ℕ) : ℤ)) := by
    intro k1 k2
    rw [hU]
    dsimp only
    congr 2
    funext i
    fin_cases i <;> rfl
  simp only [hUk, Fin.sum_univ_four]
  have t : matElem2d_dxudyu 0 1 - matElem2d_dxudyu 1 0 = (matElem2d_dxudyu 0 1 - matElem2d_dxudyu 1 0) ∧
      matElem2d_dxudyu 0 2 - matElem2d_dxudyu 2 0 = -(matElem2d_dxudyu 0 1 - matElem2d_dxudyu 1 0) ∧
      matElem2d_dxudyu 0 3 - matElem2d_dxudyu 3 0 = 0 ∧
      matElem2d_dxudyu 1 0 - matElem2d_dxudyu 0 1 = -(matElem2d_dxudyu 0 1 - matElem2d_dxudyu 1 0) ∧
      matElem2d_dxudyu 1 2 - matElem2d_dxudyu 2 1 = 0 ∧
      matElem2d_dxudyu 1 3 - matElem2d_dxudyu 3 1 = (matElem2d_dxudyu 0 1 - matElem2d_dxudyu 1 0) ∧
      matElem2d_dxudyu 2 0 - matElem2d_dxudyu 0 2 = (matElem2d_dxudyu 0 1 - matElem2d_dxudyu 1 0) ∧
      matElem2d_dxudyu 2 1 - matElem2d_dxudyu 1 2 = 0 ∧
      matElem2d_dxudyu 2 3 - matElem2d_dxudyu 3 2 = -(matElem2d_dxudyu 0 1 - matElem2d_dxudyu 1 0) ∧
      matElem2d_dxudyu 3 0 - matElem2d_dxudyu 0 3 = 0 ∧
      matElem2d_dxudyu 3 1 - matElem2d_dxudyu 1 3 = -(matElem2d_dxudyu 0 1 - matElem2d_dxudyu 1 0) ∧
      matElem2d_dxudyu 3 2 - matElem2d_dxudyu 2 3 = (matElem2d_dxudyu 0 1 - matElem2d_dxudyu 1 0) := by decide +kernel
  obtain ⟨t01, t02, t03, t10, t12, t13, t20, t21, t23, t30, t31, t32⟩ := t
  have hc : ∀ a b q : ℚ, a - b = q → (a : K) - (b : K) = (q : K) := by
    intro a b q h; rw [← h]; push_cast; ring
  simp only [sub_self, mul_zero, zero_add, add_zero, hc _ _ _ t01, hc _ _ _ t02, hc _ _ _ t03, hc _ _ _ t10, hc _ _ _ t12, hc _ _ _ t13, hc _ _ _ t20, hc _ _ _ t21, hc _ _ _ t23, hc _ _ _ t30, hc _ _ _ t31, hc _ _ _ t32, Rat.cast_neg, Rat.cast_zero]
  generalize ((matElem2d_dxudyu 0 1 - matElem2d_dxudyu 1 0 : ℚ) : K) = q
  have hb : (∀ i, bit2 0 i = 0) ∧ bit2 1 0 = 1 ∧ bit2 1 1 = 0 ∧ bit2 2 0 = 0 ∧ bit2 2 1 = 1 ∧
    bit2 3 0 = 1 ∧ bit2 3 1 = 1 := by decide +kernel
  obtain ⟨b0, b10, b11, b20, b21, b30, b31⟩ := hb
  simp only [b0, b10, b11, b20, b21, b30, b31]
  norm_num
  ring

/-- C23, exact: `strain_tensor_assembling` succeeds and adds to the matrix, for every row: the rows of
`strain_tensor_mult` for the second component; the same plus the contribution of the antisymmetric part
of the element table `∫ ∂x φ ∂y φ` for the first component; nothing in the pressure rows. -/
theorem C23_exact (Lv Lp : Fin 2 → Dir) (hL : ∀ i, (Lv i).WF) (rs : List (Fin 2 → ℕ))
    (hrs : AllProcs Lv rs) (h : Pos 2 K) (A : GMat K) :
    ∃ A', strainAssembling Lv Lp rs h (some A) = some A' ∧ ∀ u p,
      (∀ g, applyMat Lv Lp A' (pack u p) (.inl (g, 0)) =
        applyMat Lv Lp A (pack u p) (.inl (g, 0)) + strain2 Lv h u g 0 +
        ∑ e ∈ gridElems Lv, ∑ k1, if wrap Lv (getElement2 e k1) = g then
          ∑ k2, u (wrap Lv (getElement2 e k2)) 1 *
            ((matElem2d_dxudyu k2 k1 : K) - (matElem2d_dxudyu k1 k2 : K)) else 0) ∧
      (∀ g, applyMat Lv Lp A' (pack u p) (.inl (g, 1)) =
        applyMat Lv Lp A (pack u p) (.inl (g, 1)) + strain2 Lv h u g 1) ∧
      (∀ g, applyMat Lv Lp A' (pack u p) (.inr g) = applyMat Lv Lp A (pack u p) (.inr g)) :=
  strain_assembled Lv Lp hL rs hrs h A

/-- C23: `strain_tensor_assembling` succeeds, and at every node that is not on a wall
(all the rows that survive when every wall carries Dirichlet conditions) its rows are those of
`strain_tensor_mult`; the rows of the second component agree everywhere. At wall nodes the rows of the
first component differ (`C23_exact`, `C23_refuted`). -/
theorem C23_interior [CharZero K] (Lv Lp : Fin 2 → Dir) (hL : ∀ i, (Lv i).WF)
    (rs : List (Fin 2 → ℕ)) (hrs : AllProcs Lv rs) (h : Pos 2 K) (A : GMat K) :
    ∃ A', strainAssembling Lv Lp rs h (some A) = some A' ∧ ∀ u p,
      (∀ g ∈ gridNodes Lv, ∀ c, (c = 1 ∨ ∀ f, ¬ OnFace Lv g f) →
        applyMat Lv Lp A' (pack u p) (.inl (g, c)) =
          applyMat Lv Lp A (pack u p) (.inl (g, c)) + strain2 Lv h u g c) ∧
      (∀ g, applyMat Lv Lp A' (pack u p) (.inr g) = applyMat Lv Lp A (pack u p) (.inr g)) := by
  obtain ⟨A', hA, h'⟩ := strain_assembled Lv Lp hL rs hrs h A
  refine ⟨A', hA, fun u p => ⟨fun g hg c hc => ?_, (h' u p).2.2⟩⟩
  by_cases h1 : c = 1
  · subst h1; exact (h' u p).2.1 g
  · have h0 : c = 0 := by omega
    subst h0
    rw [(h' u p).1 g, null_lagrangian Lv g hg (hc.resolve_left h1) (fun g => u g 1), add_zero]

/-- The smallest mesh: one element, one process. -/
def oneCell : Fin 2 → Dir := fun _ => ⟨2, false, [2]⟩

theorem oneCell_wf : ∀ i, (oneCell i).WF := fun _ => ⟨by simp [oneCell], by simp [oneCell]⟩

theorem oneCell_procs : AllProcs oneCell [fun _ => 0] := by
  refine ⟨by simp, fun r => ?_⟩
  rw [mem_procs]
  simp only [oneCell, List.mem_singleton, List.length_cons, List.length_nil]
  constructor
  · rintro rfl i; simp
  · intro h; funext i; have := h i; omega

/-- C23 is false of the code: on a mesh of one cell with unit steps, `strain_tensor_assembling`
does not build the matrix of `strain_tensor_mult`, and the matrix it builds is not symmetric. -/
theorem C23_refuted : ∃ A : GMat ℚ, strainAssembling oneCell oneCell [fun _ => 0] (fun _ => 1)
      (some fun _ _ => 0) = some A ∧
    (¬ ∀ u p g c, applyMat oneCell oneCell A (pack u p) (.inl (g, c)) =
      strain2 oneCell (fun _ => 1) u g c) ∧
    (¬ ∀ x y : Dof → ℚ, ∑ q ∈ dofs oneCell oneCell, x q * applyMat oneCell oneCell A y q =
      ∑ q ∈ dofs oneCell oneCell, y q * applyMat oneCell oneCell A x q) := by
  obtain ⟨A, hA, h'⟩ := strain_assembled oneCell oneCell oneCell_wf _ oneCell_procs
    (fun _ => (1:ℚ)) (fun _ _ => 0)
  have hz : ∀ x row, applyMat oneCell oneCell (fun _ _ => (0:ℚ)) x row = 0 := by simp [applyMat]
  have hdiff : (∑ e ∈ gridElems oneCell, ∑ k1, if wrap oneCell (getElement2 e k1) = ![0, 0] then
          ∑ k2, (if wrap oneCell (getElement2 e k2) = ![1, 0] then (1:ℚ) else 0) *
            ((matElem2d_dxudyu k2 k1 : ℚ) - (matElem2d_dxudyu k1 k2 : ℚ)) else 0) ≠ 0 := by
    decide +kernel
  refine ⟨A, hA, fun hall => ?_, fun hsym => ?_⟩
  · have h1 := (h' (fun g c => if g = ![1, 0] then 1 else 0) 0).1 ![0, 0]
    rw [hall, hz, zero_add] at h1
    exact hdiff (by simpa using h1)
  · have hind : ∀ (q : Pos 2 ℤ) (c : Fin 2) (y : Dof → ℚ), q ∈ gridNodes oneCell →
        ∑ s ∈ dofs oneCell oneCell, pack (fun g e => if g = q ∧ e = c then 1 else 0) 0 s *
          applyMat oneCell oneCell A y s = applyMat oneCell oneCell A y (.inl (q, c)) := by
      intro q c y hq
      rw [Finset.sum_eq_single (.inl (q, c))]
      · simp [pack]
      · rintro (⟨g, e⟩ | g) - hne
        · have : ¬ (g = q ∧ e = c) := fun hh => hne (by rw [hh.1, hh.2])
          simp [pack, this]
        · simp [pack]
      · exact fun hh => absurd ((mem_dofs_vel _ _ q c).2 hq) hh
    have h1 := hsym (pack (fun g e => if g = ![0, 0] ∧ e = 0 then 1 else 0) 0)
      (pack (fun g e => if g = ![1, 0] ∧ e = 1 then 1 else 0) 0)
    rw [hind _ _ _ (by decide +kernel), hind _ _ _ (by decide +kernel), (h' _ _).1, (h' _ _).2.1,
      hz, hz, zero_add, zero_add] at h1
    unfold strain2 at h1
    rw [tensorBlock_global oneCell oneCell_wf getElement2 isQ1_2,
      tensorBlock_global oneCell oneCell_wf getElement2 isQ1_2] at h1
    revert h1
    decide +kernel

end Cafes.Props
