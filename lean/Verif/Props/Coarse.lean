/-
C93 (sharpness): the grids on which the pressure is determined up to a constant are exactly those with
at least two coarse cells in every direction but one. On a grid of a single coarse cell in two
directions, closed by walls where the velocity is imposed, the pressure that alternates in these two
directions (the hourglass) has no gradient at the free nodes.
-/
import Verif.Props.Unique

namespace Cafes.Props
open Cafes Cafes.Spec

/-- `1` at the lower node of a cell, `-1` at the other. -/
noncomputable def sgn (x : ℤ) : ℝ := if x = 0 then 1 else -1

/-- The alternating pressure in the directions `i` and `j`. -/
noncomputable def hourglass {d : ℕ} (i j : Fin d) : NodeVec d 1 ℝ := fun q _ => sgn (q i) * sgn (q j)

/-- The factor of the hourglass in the direction `m`. -/
noncomputable def hfac {d : ℕ} (i j m : Fin d) (x : ℤ) : ℝ := if m = i ∨ m = j then sgn x else 1

theorem op1_smul (F : Fin 2 → Fin 3 → ℝ) (n : ℤ) (a : ℝ) (q : ℤ → ℝ) (g : ℤ) :
    op1 F n (fun x => a * q x) g = a * op1 F n q g := by
  unfold op1
  rw [Finset.mul_sum]
  refine Finset.sum_congr rfl fun e _ => ?_
  rw [Finset.mul_sum]
  refine Finset.sum_congr rfl fun k _ => ?_
  split_ifs
  · rw [Finset.mul_sum]
    exact Finset.sum_congr rfl fun b _ => by ring
  · ring

theorem op1_muls (F : Fin 2 → Fin 3 → ℝ) (n : ℤ) (a : ℝ) (q : ℤ → ℝ) (g : ℤ) :
    op1 F n (fun x => q x * a) g = op1 F n q g * a := by
  rw [mul_comm, ← op1_smul]
  exact op1_congr _ _ _ _ _ fun x _ _ => mul_comm _ _

/-- On one cell the mass operator sends the alternating function to zero at the inner node. -/
theorem op1_sgn (h : ℝ) : op1 (fun a k => JP false a k h) 1 sgn 1 = 0 := by
  have := op1_odd (fun a k => JP false a k h) 1 sgn 0 le_rfl one_pos
  norm_num at this
  rw [this]
  simp [sgn, JP, pT]

theorem op1_prod2 (F G : Fin 2 → Fin 3 → ℝ) (n m : ℤ) (a b : ℤ → ℝ) (x y : ℤ) :
    op1 F n (fun s => op1 G m (fun t => a s * b t) y) x = op1 F n a x * op1 G m b y := by
  rw [← op1_muls]
  exact op1_congr _ _ _ _ _ fun s _ _ => op1_smul _ _ _ _ _

theorem op1_prod3 (F G H : Fin 2 → Fin 3 → ℝ) (n m l : ℤ) (a b c : ℤ → ℝ) (x y z : ℤ) :
    op1 F n (fun s => op1 G m (fun t => op1 H l (fun r => a s * (b t * c r)) z) y) x =
      op1 F n a x * (op1 G m b y * op1 H l c z) := by
  rw [← op1_prod2 G H, ← op1_muls]
  refine op1_congr _ _ _ _ _ fun s _ _ => ?_
  rw [← op1_smul]
  exact op1_congr _ _ _ _ _ fun t _ _ => op1_smul _ _ _ _ _

/-- One of the two directions of the hourglass is not the direction of the derivative. -/
theorem op1_hfac {d : ℕ} (i j : Fin d) (hij : i ≠ j) (N : Fin d → ℤ) (hi : N i = 2) (hj : N j = 2)
    (h : Pos d ℝ) (g : Pos d ℤ) (hg : Inner N g) (c : Fin d) :
    ∃ m, op1 (fun a k => JP (decide (c = m)) a k (h m)) (N m - 1) (hfac i j m) (g m) = 0 := by
  have key : ∀ m, N m = 2 → (m = i ∨ m = j) → c ≠ m →
      op1 (fun a k => JP (decide (c = m)) a k (h m)) (N m - 1) (hfac i j m) (g m) = 0 := by
    intro m hm hij hc
    have h1 := hg m
    have h2 : g m = 1 := by omega
    have h3 : hfac i j m = sgn := by funext x; simp [hfac, hij]
    rw [h2, h3, hm, decide_eq_false hc]
    exact op1_sgn _
  by_cases hc : c = i
  · exact ⟨j, key j hj (Or.inr rfl) (hc ▸ hij)⟩
  · exact ⟨i, key i hi (Or.inl rfl) hc⟩

theorem wrap_closed {d : ℕ} (N : Fin d → ℤ) (lx : Fin d → List ℤ) (q : Pos d ℤ) :
    wrap (presLayout N (fun _ => false) lx) q = q := by
  funext i; simp [wrap, presLayout, presDir, meshPres]

theorem hourglass2 (i j : Fin 2) (hij : i ≠ j) (q : Pos 2 ℤ) :
    hourglass i j q 0 = hfac i j 0 (q 0) * hfac i j 1 (q 1) := by
  fin_cases i <;> fin_cases j <;> simp [hourglass, hfac] at hij ⊢
  ring

theorem hourglass3 (i j : Fin 3) (hij : i ≠ j) (q : Pos 3 ℤ) :
    hourglass i j q 0 = hfac i j 0 (q 0) * (hfac i j 1 (q 1) * hfac i j 2 (q 2)) := by
  fin_cases i <;> fin_cases j <;> simp [hourglass, hfac] at hij ⊢ <;> ring

/-- The hourglass has no gradient at the inner nodes (2D). -/
theorem hour_grad2 (i j : Fin 2) (hij : i ≠ j) (N : Fin 2 → ℤ) (hi : N i = 2) (hj : N j = 2)
    (lx : Fin 2 → List ℤ) (hne : ∀ i, lx i ≠ []) (hW : ∀ i, (presLayout N (fun _ => false) lx i).WF)
    (h : Pos 2 ℝ) (hh : ∀ c, 0 < h c) (w : NodeVec 2 2 ℝ) (g : Pos 2 ℤ) (hg : Inner N g) (c : Fin 2) :
    (bAndBT2 N (fun _ => false) lx h w (hourglass i j)).1 g c = 0 := by
  unfold bAndBT2 offDiagMatrix
  rw [vel_out N _ lx hne hW _ _ isQ1_2 _ is4Q1_2,
    block_id_zero N _ lx hne hW _ _ isQ1_2 _ is4Q1_2, zero_add]
  have := gradient2 N (fun _ => false) lx h hh (hourglass i j) g hg c
  simp only [wrap_closed, hourglass2 i j hij] at this
  replace this := this.trans (op1_prod2 _ _ _ _ (hfac i j 0) (hfac i j 1) _ _)
  refine neg_eq_zero.1 (Eq.trans ?_ (this.trans ?_))
  · rw [← Finset.sum_neg_distrib]
    refine Finset.sum_congr rfl fun e _ => ?_
    rw [← Finset.sum_neg_distrib]
    refine Finset.sum_congr rfl fun k _ => ?_
    simp only [wrap_closed, hourglass2 i j hij]
    split_ifs
    · rw [Finset.sum_neg_distrib, neg_neg]
    · simp
  · obtain ⟨m, hm⟩ := op1_hfac i j hij N hi hj h g hg c
    fin_cases m
    · exact mul_eq_zero_of_left hm _
    · exact mul_eq_zero_of_right _ hm

/-- The hourglass has no gradient at the inner nodes (3D). -/
theorem hour_grad3 (i j : Fin 3) (hij : i ≠ j) (N : Fin 3 → ℤ) (hi : N i = 2) (hj : N j = 2)
    (lx : Fin 3 → List ℤ) (hne : ∀ i, lx i ≠ []) (hW : ∀ i, (presLayout N (fun _ => false) lx i).WF)
    (h : Pos 3 ℝ) (hh : ∀ c, 0 < h c) (w : NodeVec 3 3 ℝ) (g : Pos 3 ℤ) (hg : Inner N g) (c : Fin 3) :
    (bAndBT3 N (fun _ => false) lx h w (hourglass i j)).1 g c = 0 := by
  unfold bAndBT3 offDiagMatrix
  rw [vel_out N _ lx hne hW _ _ isQ1_3 _ is4Q1_3,
    block_id_zero N _ lx hne hW _ _ isQ1_3 _ is4Q1_3, zero_add]
  have := gradient3 N (fun _ => false) lx h hh (hourglass i j) g hg c
  simp only [wrap_closed, hourglass3 i j hij] at this
  replace this := this.trans (op1_prod3 _ _ _ _ _ _ (hfac i j 0) (hfac i j 1) (hfac i j 2) _ _ _)
  refine neg_eq_zero.1 (Eq.trans ?_ (this.trans ?_))
  · rw [← Finset.sum_neg_distrib]
    refine Finset.sum_congr rfl fun e _ => ?_
    rw [← Finset.sum_neg_distrib]
    refine Finset.sum_congr rfl fun k _ => ?_
    simp only [wrap_closed, hourglass3 i j hij]
    split_ifs
    · rw [Finset.sum_neg_distrib, neg_neg]
    · simp
  · obtain ⟨m, hm⟩ := op1_hfac i j hij N hi hj h g hg c
    fin_cases m
    · exact mul_eq_zero_of_left hm _
    · exact mul_eq_zero_of_right _ (mul_eq_zero_of_left hm _)
    · exact mul_eq_zero_of_right _ (mul_eq_zero_of_right _ hm)

/-- In a closed box whose walls impose every component, the nodes that are not inner are constrained. -/
theorem closed_node {d : ℕ} {C : Type*} (N : Fin d → ℤ) (lx : Fin d → List ℤ)
    (bc : ℕ → Fin d → Option C) (hbc : ∀ i c, (bc (2 * (i : Fin d).1) c).isSome ∧
      (bc (2 * i.1 + 1) c).isSome) (g : Pos d ℤ)
    (hg : g ∈ gridNodes (velLayout N (fun _ => false) lx)) (c : Fin d) :
    Inner N g ∨ Constrained (velLayout N (fun _ => false) lx) bc g c := by
  by_contra hn
  push Not at hn
  apply hn.1
  intro i
  have h1 := (mem_gridNodes _ g).1 hg i
  have h2 := hn.2
  unfold Constrained OnFace at h2
  push Not at h2
  simp only [velLayout, velDir, meshVel] at h1
  have a : g i ≠ 0 := fun h0 => by
    have := h2 (2 * i.1) ⟨i, rfl, Or.inl ⟨rfl, h0⟩⟩
    exact this (hbc i c).1
  have b : g i ≠ (velLayout N (fun _ => false) lx i).m - 1 := fun h0 => by
    have := h2 (2 * i.1 + 1) ⟨i, rfl, Or.inr ⟨rfl, h0⟩⟩
    exact this (hbc i c).2
  simp only [velLayout, velDir, meshVel] at b
  simp at h1 b
  omega

/-- The Stokes operator with boundary conditions sends a pressure without gradient at the inner nodes to
zero in a closed box. -/
theorem closed_image {d NP NV : ℕ} (N : Fin d → ℤ) (lx : Fin d → List ℤ)
    (hne : ∀ i, lx i ≠ []) (hW : ∀ i, (presLayout N (fun _ => false) lx i).WF)
    (elemP : Pos d ℤ → Fin NP → Pos d ℤ) (elemV : Pos d ℤ → Fin NV → Pos d ℤ)
    (hel : IsQ1 elemP) (off : Fin NV → Fin d → Fin 3)
    (hoff : ∀ e k i, elemV e k i = 2 * e i + ((off k i : ℕ) : ℤ))
    (apply : (Fin d → ℕ) → NodeVec d d ℝ → NodeVec d d ℝ → NodeVec d d ℝ)
    (happ : ∀ g c, blockMatrix (velLayout N (fun _ => false) lx) apply 0 g c = 0)
    (B : Fin NP → Fin NV → Fin d → ℝ) (rs : List (Fin d → ℕ))
    (hrs : AllProcs (velLayout N (fun _ => false) lx) rs) (bc : BC d ℝ)
    (hbc : ∀ i c, (bc (2 * (i : Fin d).1) c).isSome ∧ (bc (2 * i.1 + 1) c).isSome)
    (r : NodeVec d 1 ℝ) (hr : ∀ g, Inner N g → ∀ c,
      (offDiagMatrix (velLayout N (fun _ => false) lx) (presLayout N (fun _ => false) lx)
        elemP elemV B 0 r).1 g c = 0) :
    (∀ g ∈ gridNodes (velLayout N (fun _ => false) lx), ∀ c,
      (stokesMatrixBC (velLayout N (fun _ => false) lx) (presLayout N (fun _ => false) lx) rs bc
        apply elemP elemV B 0 r).1 g c = 0) ∧
    ∀ q c, (stokesMatrixBC (velLayout N (fun _ => false) lx) (presLayout N (fun _ => false) lx) rs bc
        apply elemP elemV B 0 r).2 q c = 0 := by
  classical
  have hs := stokes_split N _ lx hne hW elemP elemV hel off hoff apply B 0 r
  constructor
  · intro g hg c
    unfold stokesMatrixBC
    show setDirichletOnVec _ _ _ _ _ g c = 0
    rw [C25_vec _ (velLayout_wf N _ lx hne hW) rs hrs]
    split_ifs with hc
    · rfl
    · have hi := (closed_node N lx bc hbc g hg c).resolve_right fun h => hc ⟨hg, h⟩
      rw [hs.1, happ, hr g hi, add_zero]
  · intro q c
    unfold stokesMatrixBC
    show (stokesMatrix _ _ _ _ _ _ _ _).2 q c = 0
    rw [pres_out N _ lx hne hW elemP elemV hel off hoff]
    refine Finset.sum_eq_zero fun e _ => Finset.sum_eq_zero fun k _ => ?_
    split_ifs
    · exact Finset.sum_eq_zero fun _ _ => Finset.sum_eq_zero fun _ _ => zero_mul _
    · rfl

/-- The hourglass is not constant on the grid. -/
theorem hour_nonconst {d : ℕ} (i j : Fin d) (hij : i ≠ j) (N : Fin d → ℤ) (hN : ∀ i, 2 ≤ N i)
    (lx : Fin d → List ℤ) :
    ¬ ∃ k, ∀ q ∈ gridNodes (presLayout N (fun _ => false) lx),
      hourglass i j q 0 = (0 : NodeVec d 1 ℝ) q 0 + k := by
  rintro ⟨k, hk⟩
  have h1 := hk 0 ((mem_gridNodes _ _).2 fun m => by
    have := hN m
    simp only [presLayout, presDir, meshPres, Pi.zero_apply]
    simp; omega)
  have h2 := hk (fun m => if m = i then 1 else 0) ((mem_gridNodes _ _).2 fun m => by
    have := hN m
    simp only [presLayout, presDir, meshPres, Bool.false_eq_true, if_false]
    split_ifs <;> constructor <;> omega)
  simp [hourglass, sgn, hij.symm] at h1 h2
  linarith

theorem not_fine {d : ℕ} (N : Fin d → ℤ) (hN : ∀ i, 2 ≤ N i) (hF : ¬ Fine N) :
    ∃ i j, i ≠ j ∧ N i = 2 ∧ N j = 2 := by
  unfold Fine at hF
  push Not at hF
  obtain ⟨i, j, hij, a, b⟩ := hF hN
  have := hN i; have := hN j
  exact ⟨i, j, hij, by omega, by omega⟩

/-- Walls that impose every component hold the velocity. -/
theorem closed_held {d : ℕ} (hd : 0 < d) (N : Fin d → ℤ) (hN : ∀ i, 2 ≤ N i) (lx : Fin d → List ℤ)
    (bc : BC d ℝ) (hbc : ∀ i c, (bc (2 * (i : Fin d).1) c).isSome ∧ (bc (2 * i.1 + 1) c).isSome) :
    WallHeld (velLayout N (fun _ => false) lx) bc ∧
      ComponentsHeld (velLayout N (fun _ => false) lx) bc := by
  have hg : (0 : Pos d ℤ) ∈ gridNodes (velLayout N (fun _ => false) lx) :=
    (mem_gridNodes _ _).2 fun m => by
      have := hN m
      simp only [velLayout, velDir, meshVel, Pi.zero_apply]
      simp; omega
  have hf : OnFace (velLayout N (fun _ => false) lx) 0 0 := ⟨⟨0, hd⟩, rfl, Or.inl ⟨rfl, rfl⟩⟩
  exact ⟨⟨0, hg, 0, hf, fun c => (hbc ⟨0, hd⟩ c).1⟩, fun c => ⟨0, hg, 0, hf, (hbc ⟨0, hd⟩ c).1⟩⟩

/-- C93 (2D, sharpness): in a closed box whose walls impose every component, the Stokes operator with
boundary conditions determines the pressure up to a constant exactly when there are at least two coarse
cells in every direction but one: for the strain tensor and for the Laplacian. -/
theorem C93_fine2 (N : Fin 2 → ℤ) (hN : ∀ i, 2 ≤ N i) (lx : Fin 2 → List ℤ)
    (hne : ∀ i, lx i ≠ []) (hW : ∀ i, (presLayout N (fun _ => false) lx i).WF)
    (h : Pos 2 ℝ) (hh : ∀ c, 0 < h c) (rs : List (Fin 2 → ℕ))
    (hrs : AllProcs (velLayout N (fun _ => false) lx) rs) (bc : BC 2 ℝ)
    (hbc : ∀ i c, (bc (2 * (i : Fin 2).1) c).isSome ∧ (bc (2 * i.1 + 1) c).isSome) :
    (Fine N ↔ ∀ (u u' : NodeVec 2 2 ℝ) (p p' : NodeVec 2 1 ℝ),
      (∀ g ∈ gridNodes (velLayout N (fun _ => false) lx), ∀ c,
        (stokesMatrixBC (velLayout N (fun _ => false) lx) (presLayout N (fun _ => false) lx) rs bc
          (tensorBlockMult (velLayout N (fun _ => false) lx) getElement2 (matElemStrain2 h))
          getElement2 getElement4Q1_2 (matElemPressure2 h) u p).1 g c =
        (stokesMatrixBC (velLayout N (fun _ => false) lx) (presLayout N (fun _ => false) lx) rs bc
          (tensorBlockMult (velLayout N (fun _ => false) lx) getElement2 (matElemStrain2 h))
          getElement2 getElement4Q1_2 (matElemPressure2 h) u' p').1 g c) →
      (∀ q ∈ gridNodes (presLayout N (fun _ => false) lx),
        (stokesMatrixBC (velLayout N (fun _ => false) lx) (presLayout N (fun _ => false) lx) rs bc
          (tensorBlockMult (velLayout N (fun _ => false) lx) getElement2 (matElemStrain2 h))
          getElement2 getElement4Q1_2 (matElemPressure2 h) u p).2 q 0 =
        (stokesMatrixBC (velLayout N (fun _ => false) lx) (presLayout N (fun _ => false) lx) rs bc
          (tensorBlockMult (velLayout N (fun _ => false) lx) getElement2 (matElemStrain2 h))
          getElement2 getElement4Q1_2 (matElemPressure2 h) u' p').2 q 0) →
      ∃ k, ∀ q ∈ gridNodes (presLayout N (fun _ => false) lx), p q 0 = p' q 0 + k) ∧
    (Fine N ↔ ∀ (u u' : NodeVec 2 2 ℝ) (p p' : NodeVec 2 1 ℝ),
      (∀ g ∈ gridNodes (velLayout N (fun _ => false) lx), ∀ c,
        (stokesMatrixBC (velLayout N (fun _ => false) lx) (presLayout N (fun _ => false) lx) rs bc
          (diagBlockMult (velLayout N (fun _ => false) lx) getElement2 (matElemLaplacian2 h))
          getElement2 getElement4Q1_2 (matElemPressure2 h) u p).1 g c =
        (stokesMatrixBC (velLayout N (fun _ => false) lx) (presLayout N (fun _ => false) lx) rs bc
          (diagBlockMult (velLayout N (fun _ => false) lx) getElement2 (matElemLaplacian2 h))
          getElement2 getElement4Q1_2 (matElemPressure2 h) u' p').1 g c) →
      (∀ q ∈ gridNodes (presLayout N (fun _ => false) lx),
        (stokesMatrixBC (velLayout N (fun _ => false) lx) (presLayout N (fun _ => false) lx) rs bc
          (diagBlockMult (velLayout N (fun _ => false) lx) getElement2 (matElemLaplacian2 h))
          getElement2 getElement4Q1_2 (matElemPressure2 h) u p).2 q 0 =
        (stokesMatrixBC (velLayout N (fun _ => false) lx) (presLayout N (fun _ => false) lx) rs bc
          (diagBlockMult (velLayout N (fun _ => false) lx) getElement2 (matElemLaplacian2 h))
          getElement2 getElement4Q1_2 (matElemPressure2 h) u' p').2 q 0) →
      ∃ k, ∀ q ∈ gridNodes (presLayout N (fun _ => false) lx), p q 0 = p' q 0 + k) := by
  have hv := velLayout_wf N _ lx hne hW
  have hheld := closed_held (by norm_num) N hN lx bc hbc
  refine ⟨⟨fun hF u u' p p' => (C93_pressure2 N _ lx hne hW hF h hh rs hrs bc u u' p p').1 hheld.1,
    fun hall => ?_⟩, ⟨fun hF u u' p p' =>
      (C93_pressure2 N _ lx hne hW hF h hh rs hrs bc u u' p p').2 hheld.2, fun hall => ?_⟩⟩
  · by_contra hF
    obtain ⟨i, j, hij, hi, hj⟩ := not_fine N hN hF
    have hz := fun p hp => closed_image N lx hne hW _ _ isQ1_2 _ is4Q1_2
      (tensorBlockMult (velLayout N (fun _ => false) lx) getElement2 (matElemStrain2 h))
      (tensorBlock_null _ hv _ isQ1_2 _ 0 fun _ _ _ => rfl) (matElemPressure2 h) rs hrs bc hbc p hp
    have h1 := hz (hourglass i j) (hour_grad2 i j hij N hi hj lx hne hW h hh 0)
    have h0 := hz 0 fun g hg c => by
      unfold offDiagMatrix
      rw [vel_out N _ lx hne hW _ _ isQ1_2 _ is4Q1_2,
        block_id_zero N _ lx hne hW _ _ isQ1_2 _ is4Q1_2, zero_add]
      refine Finset.sum_eq_zero fun e _ => Finset.sum_eq_zero fun k _ => ?_
      split_ifs
      · exact Finset.sum_eq_zero fun _ _ => by simp
      · rfl
    exact hour_nonconst i j hij N hN lx (hall 0 0 (hourglass i j) 0
      (fun g hg c => (h1.1 g hg c).trans (h0.1 g hg c).symm)
      (fun q _ => (h1.2 q 0).trans (h0.2 q 0).symm))
  · by_contra hF
    obtain ⟨i, j, hij, hi, hj⟩ := not_fine N hN hF
    have hz := fun p hp => closed_image N lx hne hW _ _ isQ1_2 _ is4Q1_2
      (diagBlockMult (velLayout N (fun _ => false) lx) getElement2 (matElemLaplacian2 h))
      (diagBlock_null _ hv _ isQ1_2 _ 0 fun _ _ _ => rfl) (matElemPressure2 h) rs hrs bc hbc p hp
    have h1 := hz (hourglass i j) (hour_grad2 i j hij N hi hj lx hne hW h hh 0)
    have h0 := hz 0 fun g hg c => by
      unfold offDiagMatrix
      rw [vel_out N _ lx hne hW _ _ isQ1_2 _ is4Q1_2,
        block_id_zero N _ lx hne hW _ _ isQ1_2 _ is4Q1_2, zero_add]
      refine Finset.sum_eq_zero fun e _ => Finset.sum_eq_zero fun k _ => ?_
      split_ifs
      · exact Finset.sum_eq_zero fun _ _ => by simp
      · rfl
    exact hour_nonconst i j hij N hN lx (hall 0 0 (hourglass i j) 0
      (fun g hg c => (h1.1 g hg c).trans (h0.1 g hg c).symm)
      (fun q _ => (h1.2 q 0).trans (h0.2 q 0).symm))

/-- C93 (3D, sharpness): in a closed box whose walls impose every component, the Stokes operator with
boundary conditions determines the pressure up to a constant exactly when there are at least two coarse
cells in every direction but one: for the strain tensor and for the Laplacian. -/
theorem C93_fine3 (N : Fin 3 → ℤ) (hN : ∀ i, 2 ≤ N i) (lx : Fin 3 → List ℤ)
    (hne : ∀ i, lx i ≠ []) (hW : ∀ i, (presLayout N (fun _ => false) lx i).WF)
    (h : Pos 3 ℝ) (hh : ∀ c, 0 < h c) (rs : List (Fin 3 → ℕ))
    (hrs : AllProcs (velLayout N (fun _ => false) lx) rs) (bc : BC 3 ℝ)
    (hbc : ∀ i c, (bc (2 * (i : Fin 3).1) c).isSome ∧ (bc (2 * i.1 + 1) c).isSome) :
    (Fine N ↔ ∀ (u u' : NodeVec 3 3 ℝ) (p p' : NodeVec 3 1 ℝ),
      (∀ g ∈ gridNodes (velLayout N (fun _ => false) lx), ∀ c,
        (stokesMatrixBC (velLayout N (fun _ => false) lx) (presLayout N (fun _ => false) lx) rs bc
          (tensorBlockMult (velLayout N (fun _ => false) lx) getElement3 (matElemStrain3 h))
          getElement3 getElement4Q1_3 (matElemPressure3 h) u p).1 g c =
        (stokesMatrixBC (velLayout N (fun _ => false) lx) (presLayout N (fun _ => false) lx) rs bc
          (tensorBlockMult (velLayout N (fun _ => false) lx) getElement3 (matElemStrain3 h))
          getElement3 getElement4Q1_3 (matElemPressure3 h) u' p').1 g c) →
      (∀ q ∈ gridNodes (presLayout N (fun _ => false) lx),
        (stokesMatrixBC (velLayout N (fun _ => false) lx) (presLayout N (fun _ => false) lx) rs bc
          (tensorBlockMult (velLayout N (fun _ => false) lx) getElement3 (matElemStrain3 h))
          getElement3 getElement4Q1_3 (matElemPressure3 h) u p).2 q 0 =
        (stokesMatrixBC (velLayout N (fun _ => false) lx) (presLayout N (fun _ => false) lx) rs bc
          (tensorBlockMult (velLayout N (fun _ => false) lx) getElement3 (matElemStrain3 h))
          getElement3 getElement4Q1_3 (matElemPressure3 h) u' p').2 q 0) →
      ∃ k, ∀ q ∈ gridNodes (presLayout N (fun _ => false) lx), p q 0 = p' q 0 + k) ∧
    (Fine N ↔ ∀ (u u' : NodeVec 3 3 ℝ) (p p' : NodeVec 3 1 ℝ),
      (∀ g ∈ gridNodes (velLayout N (fun _ => false) lx), ∀ c,
        (stokesMatrixBC (velLayout N (fun _ => false) lx) (presLayout N (fun _ => false) lx) rs bc
          (diagBlockMult (velLayout N (fun _ => false) lx) getElement3 (matElemLaplacian3 h))
          getElement3 getElement4Q1_3 (matElemPressure3 h) u p).1 g c =
        (stokesMatrixBC (velLayout N (fun _ => false) lx) (presLayout N (fun _ => false) lx) rs bc
          (diagBlockMult (velLayout N (fun _ => false) lx) getElement3 (matElemLaplacian3 h))
          getElement3 getElement4Q1_3 (matElemPressure3 h) u' p').1 g c) →
      (∀ q ∈ gridNodes (presLayout N (fun _ => false) lx),
        (stokesMatrixBC (velLayout N (fun _ => false) lx) (presLayout N (fun _ => false) lx) rs bc
          (diagBlockMult (velLayout N (fun _ => false) lx) getElement3 (matElemLaplacian3 h))
          getElement3 getElement4Q1_3 (matElemPressure3 h) u p).2 q 0 =
        (stokesMatrixBC (velLayout N (fun _ => false) lx) (presLayout N (fun _ => false) lx) rs bc
          (diagBlockMult (velLayout N (fun _ => false) lx) getElement3 (matElemLaplacian3 h))
          getElement3 getElement4Q1_3 (matElemPressure3 h) u' p').2 q 0) →
      ∃ k, ∀ q ∈ gridNodes (presLayout N (fun _ => false) lx), p q 0 = p' q 0 + k) := by
  have hv := velLayout_wf N _ lx hne hW
  have hheld := closed_held (by norm_num) N hN lx bc hbc
  refine ⟨⟨fun hF u u' p p' => (C93_pressure3 N _ lx hne hW hF h hh rs hrs bc u u' p p').1 hheld.1,
    fun hall => ?_⟩, ⟨fun hF u u' p p' =>
      (C93_pressure3 N _ lx hne hW hF h hh rs hrs bc u u' p p').2 hheld.2, fun hall => ?_⟩⟩
  · by_contra hF
    obtain ⟨i, j, hij, hi, hj⟩ := not_fine N hN hF
    have hz := fun p hp => closed_image N lx hne hW _ _ isQ1_3 _ is4Q1_3
      (tensorBlockMult (velLayout N (fun _ => false) lx) getElement3 (matElemStrain3 h))
      (tensorBlock_null _ hv _ isQ1_3 _ 0 fun _ _ _ => rfl) (matElemPressure3 h) rs hrs bc hbc p hp
    have h1 := hz (hourglass i j) (hour_grad3 i j hij N hi hj lx hne hW h hh 0)
    have h0 := hz 0 fun g hg c => by
      unfold offDiagMatrix
      rw [vel_out N _ lx hne hW _ _ isQ1_3 _ is4Q1_3,
        block_id_zero N _ lx hne hW _ _ isQ1_3 _ is4Q1_3, zero_add]
      refine Finset.sum_eq_zero fun e _ => Finset.sum_eq_zero fun k _ => ?_
      split_ifs
      · exact Finset.sum_eq_zero fun _ _ => by simp
      · rfl
    exact hour_nonconst i j hij N hN lx (hall 0 0 (hourglass i j) 0
      (fun g hg c => (h1.1 g hg c).trans (h0.1 g hg c).symm)
      (fun q _ => (h1.2 q 0).trans (h0.2 q 0).symm))
  · by_contra hF
    obtain ⟨i, j, hij, hi, hj⟩ := not_fine N hN hF
    have hz := fun p hp => closed_image N lx hne hW _ _ isQ1_3 _ is4Q1_3
      (diagBlockMult (velLayout N (fun _ => false) lx) getElement3 (matElemLaplacian3 h))
      (diagBlock_null _ hv _ isQ1_3 _ 0 fun _ _ _ => rfl) (matElemPressure3 h) rs hrs bc hbc p hp
    have h1 := hz (hourglass i j) (hour_grad3 i j hij N hi hj lx hne hW h hh 0)
    have h0 := hz 0 fun g hg c => by
      unfold offDiagMatrix
      rw [vel_out N _ lx hne hW _ _ isQ1_3 _ is4Q1_3,
        block_id_zero N _ lx hne hW _ _ isQ1_3 _ is4Q1_3, zero_add]
      refine Finset.sum_eq_zero fun e _ => Finset.sum_eq_zero fun k _ => ?_
      split_ifs
      · exact Finset.sum_eq_zero fun _ _ => by simp
      · rfl
    exact hour_nonconst i j hij N hN lx (hall 0 0 (hourglass i j) 0
      (fun g hg c => (h1.1 g hg c).trans (h0.1 g hg c).symm)
      (fun q _ => (h1.2 q 0).trans (h0.2 q 0).symm))

/-- A closed box of one coarse cell on one process: the pressure is not determined there. -/
example : (∀ i : Fin 2, (2:ℤ) ≤ (fun _ => 2 : Fin 2 → ℤ) i) ∧ ¬ Fine (fun _ : Fin 2 => (2:ℤ)) ∧
    (∀ i, (presLayout (fun _ : Fin 2 => 2) (fun _ => false) (fun _ => [2]) i).WF) := by
  refine ⟨fun _ => le_rfl, fun h => ?_, fun i => ?_⟩
  · have := h.2 0 1 (by decide)
    norm_num at this
  · fin_cases i <;> exact ⟨by decide, by decide⟩

end Cafes.Props
