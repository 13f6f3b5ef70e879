/-
Property theorems: C115, the null space attached to the assembled Stokes matrix.
-/
import Verif.Model.NullSpace
import Verif.Props.AssembleBC
import Verif.Props.Solvable
import Mathlib.Tactic.Linarith

namespace Cafes.Props
open Cafes Cafes.Spec

/-- Conditions on all the components of all the walls. -/
def heldEverywhere : BC 2 ℝ := fun _ _ => some fun _ => 0

section
variable (N : Fin 2 → ℤ) (per : Fin 2 → Bool) (lx : Fin 2 → List ℤ) (hne : ∀ i, lx i ≠ [])
  (hW : ∀ i, (presLayout N per lx i).WF)

theorem nullspace_norm (Lv Lp : Fin 2 → Dir) :
    ∑ q ∈ dofs Lv Lp, (Sum.elim (fun _ => (0 : ℝ)) (fun _ => 1) q : ℝ) ^ 2 = (gridNodes Lp).card := by
  unfold dofs
  rw [Finset.sum_disjSum]
  simp

include hne hW in
theorem pres_card : 0 < (gridNodes (presLayout N per lx)).card := by
  have := fun i => (hW i)
  refine Finset.card_pos.2 ⟨fun _ => 0, (mem_gridNodes _ _).2 fun i => ⟨le_refl _, ?_⟩⟩
  obtain ⟨f1, f2, f3, -⟩ := dir_facts (hW i) (r := 0) (List.length_pos_iff.2 (hne i))
  omega

include hne hW in
/-- The attached vector: zero velocity, and the pressure `1 / √(number of pressure nodes)`. -/
theorem nullspace_eq : pressureNullSpace (velLayout N per lx) (presLayout N per lx) =
    pack 0 fun _ _ => 1 / Real.sqrt (gridNodes (presLayout N per lx)).card := by
  have hc := pres_card N per lx hne hW
  have hs : Real.sqrt ((gridNodes (presLayout N per lx)).card : ℝ) ≠ 0 :=
    (Real.sqrt_pos.2 (by exact_mod_cast hc)).ne'
  unfold pressureNullSpace vecNormalize
  simp only
  rw [nullspace_norm, if_neg hs]
  funext q
  rcases q with ⟨g, c⟩ | g
  · show (0 : ℝ) / _ = 0
    rw [zero_div]
  · rfl

/-- The matrix-free operator with all the walls held. -/
noncomputable def heldOp (strain : Bool) (N : Fin 2 → ℤ) (per : Fin 2 → Bool) (lx : Fin 2 → List ℤ) (rs : List (Fin 2 → ℕ))
    (h : Pos 2 ℝ) : NodeVec 2 2 ℝ → NodeVec 2 1 ℝ → NodeVec 2 2 ℝ × NodeVec 2 1 ℝ :=
  if strain then Props.stokesStrain2 N per lx rs heldEverywhere h else Props.stokesLap2 N per lx rs heldEverywhere h

include hne hW in
theorem stokesMat_acts (strain : Bool) (rs : List (Fin 2 → ℕ)) (hrs : AllProcs (presLayout N per lx) rs) (h : Pos 2 ℝ)
    (hH : ¬ (rs.length = 1 ∧ per 0 = true ∧ per 1 = false)) :
    ∃ A, stokesMat strain (velLayout N per lx) (presLayout N per lx) rs h = some A ∧ ∀ u p,
      (∀ g ∈ gridNodes (velLayout N per lx), ∀ c, applyMat (velLayout N per lx) (presLayout N per lx) A (pack u p)
        (.inl (g, c)) = (heldOp strain N per lx rs h u p).1 g c) ∧
      (∀ g, applyMat (velLayout N per lx) (presLayout N per lx) A (pack u p) (.inr g) =
        (heldOp strain N per lx rs h u p).2 g 0) := by
  cases strain with
  | true => exact C28_stokes_strain N per lx hne hW rs hrs h heldEverywhere (fun _ _ => rfl) hH
  | false => exact C28_stokes_laplacian N per lx hne hW rs hrs h heldEverywhere (fun _ _ => rfl) hH

theorem pack_parts (x : Dof → ℝ) : x = pack (fun g c => x (.inl (g, c))) (fun g _ => x (.inr g)) := by
  funext q
  rcases q with ⟨g, c⟩ | g <;> rfl

include hne hW in
theorem held_const (strain : Bool) (rs : List (Fin 2 → ℕ)) (hrs : AllProcs (velLayout N per lx) rs) (h : Pos 2 ℝ)
    (hN : ∀ i, 2 ≤ N i) (k : ℝ) : Solves (velLayout N per lx) (presLayout N per lx) (heldOp strain N per lx rs h) 0 0
      0 (fun _ _ => k) := by
  have hv := velLayout_wf N per lx hne hW
  have key : ∀ apply : (Fin 2 → ℕ) → NodeVec 2 2 ℝ → NodeVec 2 2 ℝ → NodeVec 2 2 ℝ,
      (∀ g c, blockMatrix (velLayout N per lx) apply 0 g c = 0) →
      Solves (velLayout N per lx) (presLayout N per lx) (stokesMatrixBC (velLayout N per lx) (presLayout N per lx) rs
        heldEverywhere apply getElement2 getElement4Q1_2 (matElemPressure2 h)) 0 0 0 (fun _ _ => k) := by
    intro apply h0
    refine ⟨fun g hg a => ?_, fun q _ => ?_⟩
    · show setDirichletOnVec _ rs heldEverywhere 0 _ g a = 0
      rw [C25_vec _ hv rs hrs]
      split_ifs with hc
      · rfl
      · rw [(stokes_split N per lx hne hW _ _ isQ1_2 _ is4Q1_2 _ _ _ _).1, h0, zero_add]
        refine (grad_const2 N per lx hne hW hN h 0 k g hg a).trans ?_
        have : outward (velLayout N per lx a) (g a) = 0 := by
          unfold outward
          split_ifs with h1 h2 h3 h3
          · rfl
          · exact absurd ⟨hg, 2 * a.1 + 1, ⟨a, by simpa using h1, Or.inr ⟨rfl, h2⟩⟩, rfl⟩ hc
          · exact absurd ⟨hg, 2 * a.1 + 1, ⟨a, by simpa using h1, Or.inr ⟨rfl, h2⟩⟩, rfl⟩ hc
          · exact absurd ⟨hg, 2 * a.1, ⟨a, by simpa using h1, Or.inl ⟨rfl, h3⟩⟩, rfl⟩ hc
          · simp
        rw [this, zero_mul, mul_zero]
    · rw [stokesBC_div N per lx hne hW _ _ isQ1_2 _ is4Q1_2]
      exact C20_constant_velocity2 N per lx hne hW h 0 (fun _ _ => k) q
  cases strain with
  | true => exact key _ (tensorBlock_null _ hv _ isQ1_2 _ 0 fun _ _ _ => rfl)
  | false => exact key _ (diagBlock_null _ hv _ isQ1_2 _ 0 fun _ _ _ => rfl)

include hne hW in
theorem held_kernel (strain : Bool) (rs : List (Fin 2 → ℕ)) (hrs : AllProcs (velLayout N per lx) rs) (h : Pos 2 ℝ)
    (hh : ∀ c, 0 < h c) (hN : Fine N) (a : Fin 2) (ha : per a = false) (u : NodeVec 2 2 ℝ) (p : NodeVec 2 1 ℝ)
    (hs : Solves (velLayout N per lx) (presLayout N per lx) (heldOp strain N per lx rs h) 0 0 u p) :
    (∀ g ∈ gridNodes (velLayout N per lx), ∀ c, u g c = 0) ∧
      ∃ k, ∀ q ∈ gridNodes (presLayout N per lx), p q 0 = k := by
  have hw : WallHeld (velLayout N per lx) heldEverywhere := by
    refine ⟨fun _ => 0, ?_, 2 * a.1, ⟨a, ha, Or.inl ⟨rfl, rfl⟩⟩, fun _ => rfl⟩
    rw [mem_gridNodes]
    intro i
    have h1 := hN.1 i
    refine ⟨le_refl _, ?_⟩
    show 0 < meshVel (N i) (per i)
    unfold meshVel
    split_ifs <;> omega
  cases strain with
  | true => exact ker_strain2 N per lx hne hW hN h hh rs hrs heldEverywhere hw u p hs
  | false => exact ker_lap2 N per lx hne hW hN h hh rs hrs heldEverywhere hw.components u p hs

end

/-- The matrix of the assembled Stokes problem is `A`. -/
def Assembled (strain : Bool) (N : Fin 2 → ℤ) (per : Fin 2 → Bool) (lx : Fin 2 → List ℤ) (rs : List (Fin 2 → ℕ))
    (h : Pos 2 ℝ) (A : GMat ℝ) : Prop :=
  stokesMat strain (velLayout N per lx) (presLayout N per lx) rs h = some A

/-- C115 (null space): whatever the conditions declared by the user, the vector attached to the assembled Stokes matrix has
norm one and is in the kernel of the matrix; with a wall and a fine enough mesh the kernel is its multiples. -/
theorem C115_null (strain : Bool) (N : Fin 2 → ℤ) (per : Fin 2 → Bool) (lx : Fin 2 → List ℤ) (hne : ∀ i, lx i ≠ [])
    (hW : ∀ i, (presLayout N per lx i).WF) (hN : ∀ i, 2 ≤ N i) (rs : List (Fin 2 → ℕ))
    (hrs : AllProcs (presLayout N per lx) rs) (h : Pos 2 ℝ) (hH : ¬ (rs.length = 1 ∧ per 0 = true ∧ per 1 = false)) :
    let Lv := velLayout N per lx
    let Lp := presLayout N per lx
    let n := pressureNullSpace Lv Lp
    ∃ A, Assembled strain N per lx rs h A ∧ ∑ q ∈ dofs Lv Lp, n q ^ 2 = 1 ∧
      (∀ q ∈ dofs Lv Lp, applyMat Lv Lp A n q = 0) ∧
      ((∀ c, 0 < h c) → Fine N → (∃ a, per a = false) → ∀ x : Dof → ℝ, (∀ q ∈ dofs Lv Lp, applyMat Lv Lp A x q = 0) →
        ∃ k, ∀ q ∈ dofs Lv Lp, x q = k * n q) := by
  intro Lv Lp n
  have hrs' : AllProcs (velLayout N per lx) rs := ⟨hrs.1, fun r => by rw [hrs.2, procs_layout N per lx]⟩
  have hc : (0 : ℝ) < (gridNodes (presLayout N per lx)).card := by exact_mod_cast pres_card N per lx hne hW
  have hs := Real.sqrt_pos.2 hc
  have hn : n = pack 0 fun _ _ => 1 / Real.sqrt (gridNodes (presLayout N per lx)).card := nullspace_eq N per lx hne hW
  obtain ⟨A, hA, hact⟩ := stokesMat_acts N per lx hne hW strain rs hrs h hH
  refine ⟨A, hA, ?_, ?_, ?_⟩
  · rw [hn]
    show ∑ q ∈ (gridNodes Lv ×ˢ Finset.univ).disjSum (gridNodes Lp), _ = _
    rw [Finset.sum_disjSum]
    simp only [pack, Sum.elim_inl, Sum.elim_inr, Pi.zero_apply, ne_eq, OfNat.ofNat_ne_zero, not_false_eq_true, zero_pow,
      Finset.sum_const_zero, zero_add, Finset.sum_const, nsmul_eq_mul, div_pow, one_pow, Real.sq_sqrt hc.le]
    exact mul_one_div_cancel hc.ne'
  · have hz := held_const N per lx hne hW strain rs hrs' h hN (1 / Real.sqrt (gridNodes (presLayout N per lx)).card)
    rw [hn]
    rintro (⟨g, c⟩ | g) hq
    · rw [(hact _ _).1 g ((mem_dofs_vel _ _ _ _).1 hq) c]
      exact hz.1 g ((mem_dofs_vel _ _ _ _).1 hq) c
    · rw [(hact _ _).2 g]
      exact hz.2 g ((mem_dofs_pres _ _ _).1 hq)
  · rintro hh hF ⟨a, ha⟩ x hx
    rw [pack_parts x] at hx
    obtain ⟨h1, k, h2⟩ := held_kernel N per lx hne hW strain rs hrs' h hh hF a ha (fun g c => x (.inl (g, c)))
      (fun g _ => x (.inr g)) ⟨fun g hg c => by
        rw [← (hact _ _).1 g hg c]; exact hx _ ((mem_dofs_vel _ _ _ _).2 hg), fun q hq => by
        rw [← (hact _ _).2 q]; exact hx _ ((mem_dofs_pres _ _ _).2 hq)⟩
    refine ⟨k * Real.sqrt (gridNodes (presLayout N per lx)).card, ?_⟩
    rw [hn]
    rintro (⟨g, c⟩ | g) hq
    · refine (h1 g ((mem_dofs_vel _ _ _ _).1 hq) c).trans ?_
      simp [pack]
    · refine (h2 g ((mem_dofs_pres _ _ _).1 hq)).trans ?_
      simp only [pack, Sum.elim_inr]
      field_simp

theorem applyMat_sub_smul (Lv Lp : Fin 2 → Dir) (A : GMat ℝ) (x n : Dof → ℝ) (t : ℝ) (q : Dof) :
    applyMat Lv Lp A (fun q => x q - t * n q) q = applyMat Lv Lp A x q - t * applyMat Lv Lp A n q := by
  unfold applyMat
  rw [Finset.mul_sum, ← Finset.sum_sub_distrib]
  exact Finset.sum_congr rfl fun p _ => by ring

/-- C115 (the pressure that is returned): removing the null space from a solution of the assembled system gives a solution
with the same velocity and whose pressures have total zero, and there is only one such solution: the result of a solver
that removes the attached null space is determined, pressure included. -/
theorem C115_unique (strain : Bool) (N : Fin 2 → ℤ) (per : Fin 2 → Bool) (lx : Fin 2 → List ℤ) (hne : ∀ i, lx i ≠ [])
    (hW : ∀ i, (presLayout N per lx i).WF) (hN : Fine N) (hwall : ∃ a, per a = false) (rs : List (Fin 2 → ℕ))
    (hrs : AllProcs (presLayout N per lx) rs) (h : Pos 2 ℝ) (hh : ∀ c, 0 < h c)
    (hH : ¬ (rs.length = 1 ∧ per 0 = true ∧ per 1 = false)) :
    let Lv := velLayout N per lx
    let Lp := presLayout N per lx
    let remove := matNullSpaceRemove (dofs Lv Lp) (pressureNullSpace Lv Lp)
    ∃ A, Assembled strain N per lx rs h A ∧ ∀ b x : Dof → ℝ, (∀ q ∈ dofs Lv Lp, applyMat Lv Lp A x q = b q) →
      (∀ q ∈ dofs Lv Lp, applyMat Lv Lp A (remove x) q = b q) ∧ (∀ g c, remove x (.inl (g, c)) = x (.inl (g, c))) ∧
      ∑ q ∈ gridNodes Lp, remove x (.inr q) = 0 ∧
      ∀ y : Dof → ℝ, (∀ q ∈ dofs Lv Lp, applyMat Lv Lp A y q = b q) → ∑ q ∈ gridNodes Lp, y (.inr q) = 0 →
        ∀ q ∈ dofs Lv Lp, y q = remove x q := by
  intro Lv Lp remove
  have hc : (0 : ℝ) < (gridNodes (presLayout N per lx)).card := by exact_mod_cast pres_card N per lx hne hW
  have hs := Real.sqrt_pos.2 hc
  have hn : pressureNullSpace Lv Lp = pack 0 fun _ _ => 1 / Real.sqrt (gridNodes (presLayout N per lx)).card :=
    nullspace_eq N per lx hne hW
  obtain ⟨A, hA, -, hker, hall⟩ := C115_null strain N per lx hne hW hN.1 rs hrs h hH
  have hip : ∀ x : Dof → ℝ, ∑ q' ∈ dofs Lv Lp, x q' * pressureNullSpace Lv Lp q' =
      (∑ q ∈ gridNodes Lp, x (.inr q)) / Real.sqrt (gridNodes Lp).card := by
    intro x
    rw [hn]
    show ∑ q ∈ (gridNodes Lv ×ˢ Finset.univ).disjSum (gridNodes Lp), _ = _
    rw [Finset.sum_disjSum]
    simp only [pack, Sum.elim_inl, Sum.elim_inr, Pi.zero_apply, mul_zero, Finset.sum_const_zero, zero_add]
    rw [← Finset.sum_mul, mul_one_div]
  have hsol : ∀ b x : Dof → ℝ, (∀ q ∈ dofs Lv Lp, applyMat Lv Lp A x q = b q) →
      ∀ q ∈ dofs Lv Lp, applyMat Lv Lp A (remove x) q = b q := fun b x hx q hq => by
    refine (applyMat_sub_smul Lv Lp A x (pressureNullSpace Lv Lp) _ q).trans ?_
    rw [hx q hq, hker q hq, mul_zero, sub_zero]
  have hmean : ∀ x : Dof → ℝ, ∑ q ∈ gridNodes Lp, remove x (.inr q) = 0 := fun x => by
    show ∑ q ∈ gridNodes Lp, (x (.inr q) - _ * pressureNullSpace Lv Lp (.inr q)) = 0
    rw [hip, hn, Finset.sum_sub_distrib]
    simp only [pack, Sum.elim_inr, Finset.sum_const, nsmul_eq_mul]
    have : Real.sqrt ((gridNodes (presLayout N per lx)).card : ℝ) ^ 2 = (gridNodes (presLayout N per lx)).card :=
      Real.sq_sqrt hc.le
    show _ - (gridNodes (presLayout N per lx)).card * (_ / Real.sqrt (gridNodes (presLayout N per lx)).card *
      (1 / Real.sqrt (gridNodes (presLayout N per lx)).card)) = 0
    rw [div_mul_div_comm, mul_one, ← sq, this, mul_div_cancel₀ _ hc.ne', sub_self]
  refine ⟨A, hA, fun b x hx => ⟨hsol b x hx, fun g c => ?_, hmean x, fun y hy hy0 => ?_⟩⟩
  · show x (.inl (g, c)) - _ * pressureNullSpace Lv Lp (.inl (g, c)) = _
    rw [hn]
    simp [pack]
  · obtain ⟨k, hk⟩ := hall hh hN hwall (fun q => y q - 1 * remove x q) fun q hq => by
      rw [applyMat_sub_smul, hy q hq, hsol b x hx q hq, one_mul, sub_self]
    have hk0 : k = 0 := by
      have h1 : ∑ q ∈ gridNodes Lp, (y (.inr q) - 1 * remove x (.inr q)) = 0 := by
        rw [Finset.sum_sub_distrib, hy0, ← Finset.mul_sum, hmean x]; simp
      rw [Finset.sum_congr rfl fun q hq => hk (.inr q) ((mem_dofs_pres _ _ _).2 hq), hn] at h1
      simp only [pack, Sum.elim_inr, Finset.sum_const, nsmul_eq_mul] at h1
      rcases mul_eq_zero.1 h1 with h1 | h1
      · exact absurd h1 hc.ne'
      · rcases mul_eq_zero.1 h1 with h1 | h1
        · exact h1
        · exact absurd h1 (one_div_pos.2 hs).ne'
    intro q hq
    have := hk q hq
    rw [hk0, zero_mul, one_mul] at this
    linarith

/-- C115 (no wall): in a fully periodic box the uniform velocities are in the kernel of the assembled matrix too, so the
attached null space is only a part of it: no multiple of the attached vector is a uniform velocity. -/
theorem C115_periodic (strain : Bool) (N : Fin 2 → ℤ) (per : Fin 2 → Bool) (lx : Fin 2 → List ℤ) (hne : ∀ i, lx i ≠ [])
    (hW : ∀ i, (presLayout N per lx i).WF) (hp : ∀ i, per i = true) (rs : List (Fin 2 → ℕ))
    (hrs : AllProcs (presLayout N per lx) rs) (h : Pos 2 ℝ) (hh : ∀ c, 0 < h c) :
    let Lv := velLayout N per lx
    let Lp := presLayout N per lx
    ∃ A, Assembled strain N per lx rs h A ∧ ∀ t : Fin 2 → ℝ,
      (∀ q ∈ dofs Lv Lp, applyMat Lv Lp A (pack (fun _ => t) 0) q = 0) ∧
      ∀ k g c, k * pressureNullSpace Lv Lp (.inl (g, c)) = t c → t c = 0 := by
  intro Lv Lp
  have hv := velLayout_wf N per lx hne hW
  have hrs' : AllProcs (velLayout N per lx) rs := ⟨hrs.1, fun r => by rw [hrs.2, procs_layout N per lx]⟩
  obtain ⟨A, hA, hact⟩ := stokesMat_acts N per lx hne hW strain rs hrs h (by simp [hp])
  have key : ∀ (t : Fin 2 → ℝ) (apply : (Fin 2 → ℕ) → NodeVec 2 2 ℝ → NodeVec 2 2 ℝ → NodeVec 2 2 ℝ),
      (∀ g c, blockMatrix (velLayout N per lx) apply (fun _ => t) g c = 0) →
      Solves (velLayout N per lx) (presLayout N per lx) (stokesMatrixBC (velLayout N per lx) (presLayout N per lx) rs
        heldEverywhere apply getElement2 getElement4Q1_2 (matElemPressure2 h)) 0 0 (fun _ => t) 0 := by
    intro t apply h0
    refine ⟨fun g hg a => ?_, fun q _ => ?_⟩
    · show setDirichletOnVec _ rs heldEverywhere _ _ g a = 0
      rw [C25_vec _ hv rs hrs', if_neg]
      · rw [(stokes_split N per lx hne hW _ _ isQ1_2 _ is4Q1_2 _ _ _ _).1, h0, zero_add, offDiagMatrix,
          vel_out N per lx hne hW _ _ isQ1_2 _ is4Q1_2, block_id_zero N per lx hne hW _ _ isQ1_2 _ is4Q1_2]
        simp
      · rintro ⟨-, f, ⟨i, hi, -⟩, -⟩
        have : per i = false := hi
        rw [hp] at this
        exact Bool.noConfusion this
    · rw [stokesBC_div N per lx hne hW _ _ isQ1_2 _ is4Q1_2]
      exact C20_constant_velocity2 N per lx hne hW h t 0 q
  have hs : ∀ t : Fin 2 → ℝ, Solves (velLayout N per lx) (presLayout N per lx) (heldOp strain N per lx rs h) 0 0
      (fun _ => t) 0 := by
    intro t
    cases strain with
    | true => exact key t _ ((C16_kernel2 (n := 2) _ hv h hh).2.1 t)
    | false => exact key t _ ((C16_kernel2 _ hv h hh).1 t)
  refine ⟨A, hA, fun t => ⟨?_, fun k g c hk => ?_⟩⟩
  · rintro (⟨g, c⟩ | g) hq
    · rw [(hact _ _).1 g ((mem_dofs_vel _ _ _ _).1 hq) c]
      exact (hs t).1 g ((mem_dofs_vel _ _ _ _).1 hq) c
    · rw [(hact _ _).2 g]
      exact (hs t).2 g ((mem_dofs_pres _ _ _).1 hq)
  · rw [← hk, nullspace_eq N per lx hne hW]
    simp [pack]

section open_
variable {d NP NV : ℕ} (N : Fin d → ℤ) (per : Fin d → Bool)
  (lx : Fin d → List ℤ) (hne : ∀ i, lx i ≠ []) (hW : ∀ i, (presLayout N per lx i).WF)
  (elemP : Pos d ℤ → Fin NP → Pos d ℤ) (elemV : Pos d ℤ → Fin NV → Pos d ℤ) (hel : IsQ1 elemP)
  (off : Fin NV → Fin d → Fin 3) (hoff : Is4Q1 elemV off)
  (apply : (Fin d → ℕ) → NodeVec d d ℝ → NodeVec d d ℝ → NodeVec d d ℝ)
  (B : Fin NP → Fin NV → Fin d → ℝ)

include hne hW hel hoff in
theorem const_iff (rs : List (Fin d → ℕ)) (hrs : AllProcs (velLayout N per lx) rs) (bc : BC d ℝ)
    (h : Pos d ℝ) (hh : ∀ c, 0 < h c) (hN : ∀ i, 2 ≤ N i)
    (hnull : ∀ g c, blockMatrix (velLayout N per lx) apply 0 g c = 0)
    (hgrad : ∀ p0 : ℝ, ∀ g ∈ gridNodes (velLayout N per lx), ∀ a,
      (offDiagMatrix (velLayout N per lx) (presLayout N per lx) elemP elemV B 0 (fun _ _ => p0)).1 g a =
        -p0 * (outward (velLayout N per lx a) (g a) *
        ∏ j ∈ Finset.univ.erase a, trapezoid (velLayout N per lx j) (g j) * h j)) (k : ℝ) :
    Solves (velLayout N per lx) (presLayout N per lx) (stokesMatrixBC (velLayout N per lx)
      (presLayout N per lx) rs bc apply elemP elemV B) 0 0 0 (fun _ _ => k) ↔ NormalHeld per bc ∨ k = 0 := by
  classical
  have hv := velLayout_wf N per lx hne hW
  have hval : ∀ g ∈ gridNodes (velLayout N per lx), ∀ a, (stokesMatrixBC (velLayout N per lx)
      (presLayout N per lx) rs bc apply elemP elemV B 0 (fun _ _ => k)).1 g a =
      if Constrained (velLayout N per lx) bc g a then 0 else -k * (outward (velLayout N per lx a) (g a) *
        ∏ j ∈ Finset.univ.erase a, trapezoid (velLayout N per lx j) (g j) * h j) := by
    intro g hg a
    show setDirichletOnVec _ rs bc 0 _ g a = _
    rw [C25_vec _ hv rs hrs]
    by_cases hc : Constrained (velLayout N per lx) bc g a
    · rw [if_pos ⟨hg, hc⟩, if_pos hc]; rfl
    · rw [if_neg fun hx => hc hx.2, if_neg hc, (stokes_split N per lx hne hW elemP elemV hel off hoff _ _ _ _).1, hnull,
        zero_add, hgrad k g hg a]
  constructor
  · intro hs
    by_contra hcon
    push Not at hcon
    obtain ⟨a, g, hg, hc, ho, ht⟩ := open_node N per lx hne hW elemP elemV hel off hoff hN bc
      ((open_iff per bc).2 hcon.1)
    have := hs.1 g hg a
    rw [hval g hg a, if_neg hc, Finset.prod_congr rfl fun j hj => by rw [ht j (Finset.ne_of_mem_erase hj), one_mul]] at this
    have hpos : 0 < ∏ j ∈ Finset.univ.erase a, h j := Finset.prod_pos fun j _ => hh j
    exact (mul_ne_zero (neg_ne_zero.2 hcon.2) (mul_ne_zero ho hpos.ne')) this
  · intro hk
    refine ⟨fun g hg a => ?_, fun q _ => ?_⟩
    · rw [hval g hg a]
      split_ifs with hc
      · rfl
      · rcases hk with hk | hk
        · have : outward (velLayout N per lx a) (g a) = 0 := by
            unfold outward
            split_ifs with h1 h2 h3 h3
            · rfl
            · exact absurd ⟨2 * a.1 + 1, ⟨a, by simpa using h1, Or.inr ⟨rfl, h2⟩⟩, (hk a (Bool.eq_false_iff.2 h1)).2⟩ hc
            · exact absurd ⟨2 * a.1 + 1, ⟨a, by simpa using h1, Or.inr ⟨rfl, h2⟩⟩, (hk a (Bool.eq_false_iff.2 h1)).2⟩ hc
            · exact absurd ⟨2 * a.1, ⟨a, by simpa using h1, Or.inl ⟨rfl, h3⟩⟩, (hk a (Bool.eq_false_iff.2 h1)).1⟩ hc
            · simp
          rw [this, zero_mul, mul_zero]; rfl
        · rw [hk, neg_zero, zero_mul]; rfl
    · rw [stokesBC_div N per lx hne hW elemP elemV hel off hoff, offDiagMatrix,
        pres_out N per lx hne hW elemP elemV hel off hoff]
      simp
end open_

/-- C115 (matrix-free operators, 2D): a constant pressure without velocity is in the kernel exactly when all the walls
impose their normal velocity. -/
theorem C115_constant2 (N : Fin 2 → ℤ) (per : Fin 2 → Bool) (lx : Fin 2 → List ℤ)
    (hne : ∀ i, lx i ≠ []) (hW : ∀ i, (presLayout N per lx i).WF) (hN : ∀ i, 2 ≤ N i)
    (h : Pos 2 ℝ) (hh : ∀ c, 0 < h c) (rs : List (Fin 2 → ℕ)) (hrs : AllProcs (velLayout N per lx) rs) (bc : BC 2 ℝ)
    (k : ℝ) (hk : k ≠ 0) :
    (Solves (velLayout N per lx) (presLayout N per lx) (Props.stokesStrain2 N per lx rs bc h) 0 0 0 (fun _ _ => k) ↔
      NormalHeld per bc) ∧
    (Solves (velLayout N per lx) (presLayout N per lx) (Props.stokesLap2 N per lx rs bc h) 0 0 0 (fun _ _ => k) ↔
      NormalHeld per bc) := by
  have hv := velLayout_wf N per lx hne hW
  have := fun apply h0 => const_iff N per lx hne hW _ _ isQ1_2 _ is4Q1_2 apply _ rs hrs bc h hh hN h0
    (fun p0 g hg a => grad_const2 N per lx hne hW hN h 0 p0 g hg a) k
  simp only [hk, or_false] at this
  exact ⟨this _ (tensorBlock_null _ hv _ isQ1_2 _ 0 fun _ _ _ => rfl),
    this _ (diagBlock_null _ hv _ isQ1_2 _ 0 fun _ _ _ => rfl)⟩

/-- C115 (matrix-free operators, 3D). -/
theorem C115_constant3 (N : Fin 3 → ℤ) (per : Fin 3 → Bool) (lx : Fin 3 → List ℤ)
    (hne : ∀ i, lx i ≠ []) (hW : ∀ i, (presLayout N per lx i).WF) (hN : ∀ i, 2 ≤ N i)
    (h : Pos 3 ℝ) (hh : ∀ c, 0 < h c) (rs : List (Fin 3 → ℕ)) (hrs : AllProcs (velLayout N per lx) rs) (bc : BC 3 ℝ)
    (k : ℝ) (hk : k ≠ 0) :
    (Solves (velLayout N per lx) (presLayout N per lx) (Props.stokesStrain3 N per lx rs bc h) 0 0 0 (fun _ _ => k) ↔
      NormalHeld per bc) ∧
    (Solves (velLayout N per lx) (presLayout N per lx) (Props.stokesLap3 N per lx rs bc h) 0 0 0 (fun _ _ => k) ↔
      NormalHeld per bc) := by
  have hv := velLayout_wf N per lx hne hW
  have := fun apply h0 => const_iff N per lx hne hW _ _ isQ1_3 _ is4Q1_3 apply _ rs hrs bc h hh hN h0
    (fun p0 g hg a => grad_const3 N per lx hne hW hN h 0 p0 g hg a) k
  simp only [hk, or_false] at this
  exact ⟨this _ (tensorBlock_null _ hv _ isQ1_3 _ 0 fun _ _ _ => rfl),
    this _ (diagBlock_null _ hv _ isQ1_3 _ 0 fun _ _ _ => rfl)⟩

/-- With one process, the first direction periodic and the second not, `SetDirichletOnMat` never touches the row of the node
before the last one of the upper wall. -/
theorem stride_row (Lv Lp : Fin 2 → Dir) (hL : ∀ i, (Lv i).WF) (hm : ∀ i, 2 ≤ (Lv i).m) (rs : List (Fin 2 → ℕ))
    (hrs : AllProcs Lv rs) (h1 : rs.length = 1) (hp0 : (Lv 0).periodic = true) (hp1 : (Lv 1).periodic = false)
    (A : GMat ℝ) : ∃ A', setDirichletOnMat Lv Lp rs (some A) = some A' ∧
      (∀ c q, A' (.inl (![(Lv 0).m - 2, (Lv 1).m - 1], c)) q = A (.inl (![(Lv 0).m - 2, (Lv 1).m - 1], c)) q) ∧
      ∀ g q, A' (.inr g) q = A (.inr g) q := by
  obtain ⟨r, rfl⟩ := List.length_eq_one_iff.1 h1
  have hr : r ∈ procs Lv := (hrs.2 r).1 (by simp)
  have s0 := single_proc Lv hL [r] hrs h1 r hr 0
  have s1 := single_proc Lv hL [r] hrs h1 r hr 1
  obtain ⟨-, -, -, a4, -, a6⟩ := dir_facts (hL 0) ((mem_procs Lv r).1 hr 0)
  obtain ⟨-, -, -, b4, b5, -⟩ := dir_facts (hL 1) ((mem_procs Lv r).1 hr 1)
  have a6 := a6 hp0
  have b5 := b5 hp1
  have m0 := hm 0
  have m1 := hm 1
  have gx0 : (Lv 0).gxs (r 0) = -1 := by omega
  have gx1 : (Lv 1).gxs (r 1) = 0 := by omega
  have gm0 : (Lv 0).gxm (r 0) = (Lv 0).m + 2 := by omega
  have gm1 : (Lv 1).gxm (r 1) = (Lv 1).m := by omega
  have hids : ∀ id ∈ bcIds Lv [r].length r, ∃ (x y : ℤ) (c : Fin 2), ltog Lv Lp r id =
      some (.inl (wrap Lv ![x, y], c)) ∧ (y = (Lv 1).m - 1 → x ≤ (Lv 0).m - 3) ∧ -1 ≤ x := by
    intro id hid
    have hq : ∃ (q : ℤ) (c : Fin 2), id = c.1 + 2 * q ∧ 0 ≤ q ∧ q < (Lv 0).m * (Lv 1).m := by
      unfold bcIds at hid
      simp only [List.mem_append, List.length_singleton, if_true] at hid
      rcases hid with ((hid | hid) | hid) | hid
      · have := (mem_ite_nil.1 hid).1
        simp [hp0] at this
      · have := (mem_ite_nil.1 hid).1
        simp [hp0] at this
      · obtain ⟨-, hid⟩ := mem_ite_nil.1 hid
        rw [mem_border] at hid
        obtain ⟨i, hi, c, rfl⟩ := hid
        exact ⟨_, c, rfl, by omega, by nlinarith⟩
      · obtain ⟨-, hid⟩ := mem_ite_nil.1 hid
        rw [mem_border] at hid
        obtain ⟨i, hi, c, rfl⟩ := hid
        exact ⟨_, c, rfl, by nlinarith, by nlinarith⟩
    obtain ⟨q, c, rfl, q0, q1⟩ := hq
    have hmod := Int.emod_nonneg q (show (Lv 0).m + 2 ≠ 0 by omega)
    have hmod' := Int.emod_lt_of_pos q (show 0 < (Lv 0).m + 2 by omega)
    have hdm := Int.emod_add_mul_ediv q ((Lv 0).m + 2)
    have hd0 : 0 ≤ q / ((Lv 0).m + 2) := Int.ediv_nonneg q0 (by omega)
    have hd1 : q / ((Lv 0).m + 2) < (Lv 1).m := by
      by_contra hcon
      push Not at hcon
      nlinarith
    have hl := ltog_border Lv Lp r (q % ((Lv 0).m + 2)) (q / ((Lv 0).m + 2)) c (by rw [gm0]; exact ⟨hmod, hmod'⟩)
      (by rw [gm1]; exact ⟨hd0, hd1⟩)
    rw [gm0, gx0, gx1, show q % ((Lv 0).m + 2) + q / ((Lv 0).m + 2) * ((Lv 0).m + 2) = q by linarith] at hl
    refine ⟨_, _, c, hl, fun e2 => ?_, by omega⟩
    have e3 : q / ((Lv 0).m + 2) = (Lv 1).m - 1 := by omega
    rw [e3] at hdm
    nlinarith
  refine ⟨identityRows (fun p => ∃ id ∈ bcIds Lv [r].length r, ltog Lv Lp r id = some p) A, ?_, fun c q => ?_, fun g q => ?_⟩
  · show setDirichletOnMatImpl Lv Lp [r].length r (some A) = _
    rw [setDirichletOnMatImpl_ids, matZeroRowsLocal_eq]
    intro id hid
    obtain ⟨x, y, c, h, -⟩ := hids id hid
    exact ⟨_, h⟩
  · unfold identityRows
    rw [if_neg]
    rintro ⟨id, hid, hl⟩
    obtain ⟨x, y, c', h, hn, x0⟩ := hids id hid
    rw [h] at hl
    have hw := congrArg Prod.fst (Sum.inl.inj (Option.some.inj hl))
    have w0 := congrFun hw 0
    have w1 := congrFun hw 1
    simp only [wrap, hp0, hp1, if_true, Bool.false_eq_true, if_false, Matrix.cons_val_zero, Matrix.cons_val_one] at w0 w1
    have hx := hn w1
    rcases lt_or_ge x 0 with hx' | hx'
    · obtain rfl : x = -1 := by omega
      have : (-1 : ℤ) % (Lv 0).m = (Lv 0).m - 1 := by
        rw [← Int.add_emod_right, show (-1 : ℤ) + (Lv 0).m = (Lv 0).m - 1 by ring]
        exact Int.emod_eq_of_lt (by omega) (by omega)
      omega
    · rw [Int.emod_eq_of_lt hx' (by omega)] at w0
      omega
  · unfold identityRows
    rw [if_neg]
    rintro ⟨id, hid, hl⟩
    obtain ⟨x, y, c', h, -⟩ := hids id hid
    rw [h] at hl
    exact absurd (Option.some.inj hl) (by simp)

/-- The rows of the normal velocities before the boundary conditions, for a constant pressure. -/
theorem raw_const (strain : Bool) (N : Fin 2 → ℤ) (per : Fin 2 → Bool) (lx : Fin 2 → List ℤ) (hne : ∀ i, lx i ≠ [])
    (hW : ∀ i, (presLayout N per lx i).WF) (rs : List (Fin 2 → ℕ)) (hrs : AllProcs (presLayout N per lx) rs) (h : Pos 2 ℝ) :
    ∃ A, (if strain then stokesAssembledStrain (velLayout N per lx) (presLayout N per lx) rs h else
        stokesAssembled (velLayout N per lx) (presLayout N per lx) rs h) = some A ∧
      ∀ p g, applyMat (velLayout N per lx) (presLayout N per lx) A (pack 0 p) (.inl (g, 1)) =
        (bAndBT2 N per lx h 0 p).1 g 1 := by
  have hv := velLayout_wf N per lx hne hW
  have hpr := procs_layout N per lx
  have hrs' : AllProcs (velLayout N per lx) rs := ⟨hrs.1, fun r => by rw [hrs.2, hpr]⟩
  have hz : ∀ x row, applyMat (velLayout N per lx) (presLayout N per lx) (fun _ _ => (0 : ℝ)) x row = 0 := fun x row => by
    simp [applyMat]
  cases strain with
  | true =>
    obtain ⟨A1, hA1, h1⟩ := strain_assembled (velLayout N per lx) (presLayout N per lx) hv rs hrs' h (fun _ _ => 0)
    obtain ⟨A2, hA2, h2⟩ := C22_coupling N per lx hne hW rs hrs h A1
    refine ⟨A2, ?_, fun p g => ?_⟩
    · show stokesAssembledStrain _ _ rs h = _
      unfold stokesAssembledStrain
      rw [hA1, hA2, diagonalAssembling_id _ _ hv hW hpr rs hrs 0 A2]
    · rw [(h2 0 p).1, (h1 0 p).2.1, hz, zero_add]
      refine (congrArg (· + _) (tensorBlock_null _ hv _ isQ1_2 _ 0 (fun _ _ _ => rfl) g 1)).trans ?_
      rw [zero_add]
  | false =>
    obtain ⟨A, hA, h1⟩ := C22_stokes N per lx hne hW rs hrs h
    refine ⟨A, hA, fun p g => ?_⟩
    rw [(h1 0 p).1]
    refine ((stokes_split N per lx hne hW _ _ isQ1_2 _ is4Q1_2 _ _ _ _).1 g 1).trans ?_
    rw [diagBlock_null _ hv _ isQ1_2 _ 0 (fun _ _ _ => rfl) g 1, zero_add]
    rfl

/-- C115 (the exception): with one process, the first direction periodic and the second not, the attached vector is never
in the kernel of the assembled matrix, whatever the mesh: `SetDirichletOnMat` misses rows of the upper wall. -/
theorem C115_stride (strain : Bool) (N : Fin 2 → ℤ) (per : Fin 2 → Bool) (lx : Fin 2 → List ℤ) (hne : ∀ i, lx i ≠ [])
    (hW : ∀ i, (presLayout N per lx i).WF) (hN : ∀ i, 2 ≤ N i) (rs : List (Fin 2 → ℕ))
    (hrs : AllProcs (presLayout N per lx) rs) (h : Pos 2 ℝ) (hh : ∀ c, 0 < h c) (h1 : rs.length = 1)
    (hp0 : per 0 = true) (hp1 : per 1 = false) :
    let Lv := velLayout N per lx
    let Lp := presLayout N per lx
    ∃ A, Assembled strain N per lx rs h A ∧ ∃ q ∈ dofs Lv Lp, applyMat Lv Lp A (pressureNullSpace Lv Lp) q ≠ 0 := by
  intro Lv Lp
  have hv := velLayout_wf N per lx hne hW
  have hrs' : AllProcs (velLayout N per lx) rs := ⟨hrs.1, fun r => by rw [hrs.2, procs_layout N per lx]⟩
  have hm : ∀ i, 2 ≤ (velLayout N per lx i).m := fun i => by
    have := hN i
    show 2 ≤ meshVel (N i) (per i)
    unfold meshVel
    split_ifs <;> omega
  obtain ⟨A0, hA0, hval⟩ := raw_const strain N per lx hne hW rs hrs h
  obtain ⟨A, hA, hrow, -⟩ := stride_row (velLayout N per lx) (presLayout N per lx) hv hm rs hrs' h1 hp0 hp1 A0
  have hg : (![(velLayout N per lx 0).m - 2, (velLayout N per lx 1).m - 1] : Pos 2 ℤ) ∈ gridNodes (velLayout N per lx) := by
    rw [mem_gridNodes]
    intro i
    have a0 := hm 0
    have a1 := hm 1
    fin_cases i
    · show 0 ≤ (velLayout N per lx 0).m - 2 ∧ (velLayout N per lx 0).m - 2 < (velLayout N per lx 0).m; omega
    · show 0 ≤ (velLayout N per lx 1).m - 1 ∧ (velLayout N per lx 1).m - 1 < (velLayout N per lx 1).m; omega
  have hc : (0 : ℝ) < (gridNodes (presLayout N per lx)).card := by exact_mod_cast pres_card N per lx hne hW
  refine ⟨A, by unfold Assembled stokesMat; rw [hA0]; exact hA, .inl (_, 1), (mem_dofs_vel _ _ _ _).2 hg, ?_⟩
  rw [nullspace_eq N per lx hne hW, applyMat_congr_row _ _ _ A0 _ _ (hrow 1), hval]
  rw [grad_const2 N per lx hne hW hN h 0 _ _ hg 1]
  have he : (Finset.univ.erase (1 : Fin 2)) = {0} := by decide
  have ht : trapezoid (velLayout N per lx 0) ((velLayout N per lx 0).m - 2) = 1 := by
    unfold trapezoid
    rw [if_neg]
    rintro ⟨h2, -⟩
    have : per 0 = false := h2
    rw [hp0] at this
    exact Bool.noConfusion this
  have ho : outward (velLayout N per lx 1) ((velLayout N per lx 1).m - 1) = 1 := by
    unfold outward
    have : ¬ (velLayout N per lx 1).periodic = true := by
      show ¬ per 1 = true
      rw [hp1]; decide
    have a1 := hm 1
    rw [if_neg this, if_pos rfl, if_neg (by omega), sub_zero]
  rw [he, Finset.prod_singleton]
  show -(1 / Real.sqrt _) * (outward (velLayout N per lx 1) ((velLayout N per lx 1).m - 1) *
    (trapezoid (velLayout N per lx 0) ((velLayout N per lx 0).m - 2) * h 0)) ≠ 0
  rw [ht, ho, one_mul, one_mul]
  exact mul_ne_zero (neg_ne_zero.2 (one_div_pos.2 (Real.sqrt_pos.2 hc)).ne') (hh 0).ne'

/-- The hypotheses of C115_unique are met: 3 × 2 processes, a wall and a periodic direction. -/
example : Fine (fun _ => 6 : Fin 2 → ℤ) ∧ (∀ i, (![[2, 3, 1], [2, 3]] : Fin 2 → List ℤ) i ≠ []) ∧
    (∀ i, (presLayout (fun _ => 6) (fun i => decide (i = 1)) ![[2, 3, 1], [2, 3]] i).WF) ∧
    ∃ a : Fin 2, (fun i => decide (i = 1)) a = false := by
  refine ⟨⟨fun _ => by norm_num, fun _ _ _ => by norm_num⟩, ?_, ?_, 0, by decide⟩
  · intro i; fin_cases i <;> decide
  · intro i; fin_cases i <;> exact ⟨by decide, by decide⟩

/-- Those of C115_stride too: one process. -/
example : (∀ i, (presLayout (fun _ => 6) (fun i : Fin 2 => decide (i = 0)) ![[5], [6]] i).WF) ∧
    ∃ rs, AllProcs (presLayout (fun _ => 6) (fun i : Fin 2 => decide (i = 0)) ![[5], [6]]) rs ∧ rs.length = 1 := by
  refine ⟨fun i => by fin_cases i <;> exact ⟨by decide, by decide⟩, [fun _ => 0], ⟨by simp, fun r => ?_⟩, rfl⟩
  rw [List.mem_singleton, mem_procs]
  constructor
  · rintro rfl i
    fin_cases i <;> decide
  · intro hr
    funext i
    have := hr i
    fin_cases i
    · have h0 : r 0 < 1 := this
      exact Nat.lt_one_iff.1 h0
    · have h0 : r 1 < 1 := this
      exact Nat.lt_one_iff.1 h0

end Cafes.Props
