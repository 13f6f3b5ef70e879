/-
Property theorems for the velocity/pressure coupling: C18, C19, C20 and the coupled part of C21.
-/
import Verif.Props.Operator
import Verif.Lemmas.FEP

namespace Cafes.Props
open Cafes Cafes.Spec
variable {d n : ℕ}

theorem procs_layout (N : Fin d → ℤ) (per : Fin d → Bool) (lx : Fin d → List ℤ) :
    procs (velLayout N per lx) = procs (presLayout N per lx) := by
  ext r; simp [mem_procs, velLayout, presLayout, velDir, presDir, setLxu_length]

theorem mem_procs_pres (N : Fin d → ℤ) (per : Fin d → Bool) (lx : Fin d → List ℤ) (r : Fin d → ℕ) :
    r ∈ procs (presLayout N per lx) ↔ ∀ i, r i < (lx i).length := by
  simp [mem_procs, presLayout, presDir]

theorem pres_nElem (N : Fin d → ℤ) (per : Fin d → Bool) (lx : Fin d → List ℤ) (i : Fin d) :
    (presLayout N per lx i).nElem = N i - 1 := by
  simp only [presLayout, presDir, Dir.nElem, meshPres]; split_ifs <;> rfl

/-- The nodes of a pressure cell are velocity nodes of the grid. -/
theorem wrap_4q1_mem (N : Fin d → ℤ) (per : Fin d → Bool) (lx : Fin d → List ℤ) (e p : Pos d ℤ)
    (he : e ∈ gridElems (presLayout N per lx)) (hp : ∀ i, 2 * e i ≤ p i ∧ p i ≤ 2 * e i + 2) :
    wrap (velLayout N per lx) p ∈ gridNodes (velLayout N per lx) := by
  rw [mem_gridNodes]
  rw [mem_gridElems] at he
  intro i
  have h1 := he i
  rw [pres_nElem] at h1
  have h2 := hp i
  simp only [wrap, velLayout, velDir, meshVel]
  by_cases hb : per i = true
  · simp only [hb, if_true]
    exact ⟨Int.emod_nonneg _ (by omega), Int.emod_lt_of_pos _ (by omega)⟩
  · simp only [hb, Bool.false_eq_true, if_false]; omega

/-- `elem e k` is `2 e` plus an offset in `{0,1,2}`. -/
def Is4Q1 {NV : ℕ} (elem : Pos d ℤ → Fin NV → Pos d ℤ) (off : Fin NV → Fin d → Fin 3) : Prop :=
  ∀ e k i, elem e k i = 2 * e i + ((off k i : ℕ) : ℤ)

theorem is4Q1_2 : Is4Q1 getElement4Q1_2 trit2 := by
  intro e k i; rw [getElement4Q1_2_eq]; fin_cases i <;> rfl

theorem is4Q1_3 : Is4Q1 getElement4Q1_3 trit3 := by
  intro e k i; rw [getElement4Q1_3_eq]; fin_cases i <;> rfl

section coupled
variable {K : Type*} [CommRing K] {NP NV : ℕ} (N : Fin d → ℤ) (per : Fin d → Bool)
  (lx : Fin d → List ℤ) (hne : ∀ i, lx i ≠ []) (hW : ∀ i, (presLayout N per lx i).WF)
  (elemP : Pos d ℤ → Fin NP → Pos d ℤ) (elemV : Pos d ℤ → Fin NV → Pos d ℤ) (hel : IsQ1 elemP)
  (off : Fin NV → Fin d → Fin 3) (hoff : Is4Q1 elemV off)
  (apply : (Fin d → ℕ) → NodeVec d n K → NodeVec d n K → NodeVec d n K)
  (B : Fin NP → Fin NV → Fin n → K)
include hne hW hel hoff

theorem win4 : ∀ r ∈ procs (presLayout N per lx),
    ∀ e ∈ (getDMBounds (presLayout N per lx) r true).halfOpen, ∀ k,
      elemV e k ∈ (ghostWindow (velLayout N per lx) r).halfOpen := by
  intro r hr e he k
  apply C04_4q1_window N per lx hne hW r ((mem_procs_pres N per lx r).1 hr) e he
  intro i
  rw [hoff e k i]
  have := (off k i).2
  omega

theorem vel_out (x1 : NodeVec d n K) (x2 : NodeVec d 1 K) (g : Pos d ℤ) (c : Fin n) :
    (stokesMatrix (velLayout N per lx) (presLayout N per lx) apply elemP elemV B x1 x2).1 g c =
    blockMatrix (velLayout N per lx) apply x1 g c + ∑ e ∈ gridElems (presLayout N per lx), ∑ k,
      if wrap (velLayout N per lx) (elemV e k) = g then
        ∑ ip, -(x2 (wrap (presLayout N per lx) (elemP e ip)) 0 * B ip k c) else 0 :=
  stokes_vel_global _ _ hW (procs_layout N per lx) elemP elemV hel
    (win4 N per lx hne hW elemP elemV hel off hoff) apply B x1 x2 g c

theorem pres_out (x1 : NodeVec d n K) (x2 : NodeVec d 1 K) (g : Pos d ℤ) (c : Fin 1) :
    (stokesMatrix (velLayout N per lx) (presLayout N per lx) apply elemP elemV B x1 x2).2 g c =
    ∑ e ∈ gridElems (presLayout N per lx), ∑ ip,
      if wrap (presLayout N per lx) (elemP e ip) = g then
        ∑ k, ∑ c, x1 (wrap (velLayout N per lx) (elemV e k)) c * B ip k c else 0 :=
  stokes_pres_global _ _ hW (procs_layout N per lx) elemP elemV hel
    (win4 N per lx hne hW elemP elemV hel off hoff) apply B x1 x2 g c

theorem block_id_zero (x : NodeVec d n K) (g : Pos d ℤ) (c : Fin n) :
    blockMatrix (velLayout N per lx) (fun _ _ y => y) x g c = 0 := by
  simp [blockMatrix, localToGlobalAdd]

theorem mem4 : ∀ e ∈ gridElems (presLayout N per lx), ∀ k,
    wrap (velLayout N per lx) (elemV e k) ∈ gridNodes (velLayout N per lx) := by
  intro e he k
  apply wrap_4q1_mem N per lx e _ he
  intro i
  rw [hoff e k i]
  have := (off k i).2
  omega

theorem dot_vel (x1 z : NodeVec d n K) (x2 : NodeVec d 1 K) :
    dot (velLayout N per lx) z
      (offDiagMatrix (velLayout N per lx) (presLayout N per lx) elemP elemV B x1 x2).1 =
    ∑ e ∈ gridElems (presLayout N per lx), ∑ k, ∑ c,
      z (wrap (velLayout N per lx) (elemV e k)) c *
        ∑ ip, -(x2 (wrap (presLayout N per lx) (elemP e ip)) 0 * B ip k c) :=
  dot_scatter _ _ elemV (mem4 N per lx hne hW elemP elemV hel off hoff)
    (fun e k c => ∑ ip, -(x2 (wrap (presLayout N per lx) (elemP e ip)) 0 * B ip k c)) z _
    (fun g _ c => by
      unfold offDiagMatrix
      rw [vel_out N per lx hne hW elemP elemV hel off hoff,
        block_id_zero N per lx hne hW elemP elemV hel off hoff, zero_add])

theorem dot_pres (x1 : NodeVec d n K) (x2 q : NodeVec d 1 K) :
    dot (presLayout N per lx) q
      (offDiagMatrix (velLayout N per lx) (presLayout N per lx) elemP elemV B x1 x2).2 =
    ∑ e ∈ gridElems (presLayout N per lx), ∑ ip, ∑ c' : Fin 1,
      q (wrap (presLayout N per lx) (elemP e ip)) c' *
        ∑ k, ∑ c, x1 (wrap (velLayout N per lx) (elemV e k)) c * B ip k c :=
  dot_scatter _ _ elemP (wrap_q1_mem _ elemP hel)
    (fun e ip _ => ∑ k, ∑ c, x1 (wrap (velLayout N per lx) (elemV e k)) c * B ip k c) q _
    (fun g _ c => pres_out N per lx hne hW elemP elemV hel off hoff _ B x1 x2 g c)

/-- Adjointness for any element matrix. -/
theorem adjoint (u u' : NodeVec d n K) (p p' : NodeVec d 1 K) :
    dot (velLayout N per lx) u
      (offDiagMatrix (velLayout N per lx) (presLayout N per lx) elemP elemV B u' p).1 =
    - dot (presLayout N per lx) p
      (offDiagMatrix (velLayout N per lx) (presLayout N per lx) elemP elemV B u p').2 := by
  rw [dot_vel N per lx hne hW elemP elemV hel off hoff,
    dot_pres N per lx hne hW elemP elemV hel off hoff, ← Finset.sum_neg_distrib]
  refine Finset.sum_congr rfl fun e _ => ?_
  simp only [Finset.mul_sum, Finset.univ_unique, Finset.sum_singleton, Fin.default_eq_zero,
    ← Finset.sum_neg_distrib]
  rw [Finset.sum_congr rfl fun k _ => Finset.sum_comm]
  rw [Finset.sum_comm]
  refine Finset.sum_congr rfl fun ip _ => Finset.sum_congr rfl fun k _ =>
    Finset.sum_congr rfl fun c _ => ?_
  ring

/-- Splitting the coupled operator. -/
theorem stokes_split (x1 : NodeVec d n K) (x2 : NodeVec d 1 K) :
    (∀ g c, (stokesMatrix (velLayout N per lx) (presLayout N per lx) apply elemP elemV B x1 x2).1 g c
      = blockMatrix (velLayout N per lx) apply x1 g c +
        (offDiagMatrix (velLayout N per lx) (presLayout N per lx) elemP elemV B x1 x2).1 g c) ∧
    (∀ g c, (stokesMatrix (velLayout N per lx) (presLayout N per lx) apply elemP elemV B x1 x2).2 g c
      = (offDiagMatrix (velLayout N per lx) (presLayout N per lx) elemP elemV B x1 x2).2 g c) := by
  refine ⟨fun g c => ?_, fun g c => ?_⟩
  · unfold offDiagMatrix
    rw [vel_out N per lx hne hW elemP elemV hel off hoff,
      vel_out N per lx hne hW elemP elemV hel off hoff (fun _ _ y => y),
      block_id_zero N per lx hne hW elemP elemV hel off hoff, zero_add]
  · unfold offDiagMatrix
    rw [pres_out N per lx hne hW elemP elemV hel off hoff,
      pres_out N per lx hne hW elemP elemV hel off hoff (fun _ _ y => y)]

theorem energy (x1 : NodeVec d n K) (x2 : NodeVec d 1 K) :
    dot (velLayout N per lx) x1
      (stokesMatrix (velLayout N per lx) (presLayout N per lx) apply elemP elemV B x1 x2).1 +
    dot (presLayout N per lx) x2
      (stokesMatrix (velLayout N per lx) (presLayout N per lx) apply elemP elemV B x1 x2).2 =
    dot (velLayout N per lx) x1 (blockMatrix (velLayout N per lx) apply x1) := by
  have hs := stokes_split N per lx hne hW elemP elemV hel off hoff apply B x1 x2
  have h1 : dot (velLayout N per lx) x1
      (stokesMatrix (velLayout N per lx) (presLayout N per lx) apply elemP elemV B x1 x2).1 =
      dot (velLayout N per lx) x1 (blockMatrix (velLayout N per lx) apply x1) +
      dot (velLayout N per lx) x1
        (offDiagMatrix (velLayout N per lx) (presLayout N per lx) elemP elemV B x1 x2).1 := by
    unfold dot
    rw [← Finset.sum_add_distrib]
    refine Finset.sum_congr rfl fun g _ => ?_
    rw [← Finset.sum_add_distrib]
    refine Finset.sum_congr rfl fun c _ => ?_
    rw [hs.1 g c, mul_add]
  have h2 : dot (presLayout N per lx) x2
      (stokesMatrix (velLayout N per lx) (presLayout N per lx) apply elemP elemV B x1 x2).2 =
      dot (presLayout N per lx) x2
        (offDiagMatrix (velLayout N per lx) (presLayout N per lx) elemP elemV B x1 x2).2 := by
    unfold dot
    exact Finset.sum_congr rfl fun g _ => Finset.sum_congr rfl fun c _ => by rw [hs.2 g c]
  rw [h1, h2, adjoint N per lx hne hW elemP elemV hel off hoff B x1 x1 x2 x2]
  ring

end coupled

/-! ### C18 -/

/-- C18 (2D): the pressure gradient (velocity output of `B_and_BT_mult`) is minus the adjoint of the
divergence (its pressure output), for every mesh of `createMesh` and every process grid. -/
theorem C18_adjoint2 (N : Fin 2 → ℤ) (per : Fin 2 → Bool) (lx : Fin 2 → List ℤ)
    (hne : ∀ i, lx i ≠ []) (hW : ∀ i, (presLayout N per lx i).WF) (h : Pos 2 ℝ)
    (u u' : NodeVec 2 2 ℝ) (p p' : NodeVec 2 1 ℝ) :
    dot (velLayout N per lx) u (bAndBT2 N per lx h u' p).1
      = - dot (presLayout N per lx) p (bAndBT2 N per lx h u p').2 :=
  adjoint N per lx hne hW _ _ isQ1_2 _ is4Q1_2 _ u u' p p'

/-- C18 (3D). -/
theorem C18_adjoint3 (N : Fin 3 → ℤ) (per : Fin 3 → Bool) (lx : Fin 3 → List ℤ)
    (hne : ∀ i, lx i ≠ []) (hW : ∀ i, (presLayout N per lx i).WF) (h : Pos 3 ℝ)
    (u u' : NodeVec 3 3 ℝ) (p p' : NodeVec 3 1 ℝ) :
    dot (velLayout N per lx) u (bAndBT3 N per lx h u' p).1
      = - dot (presLayout N per lx) p (bAndBT3 N per lx h u p').2 :=
  adjoint N per lx hne hW _ _ isQ1_3 _ is4Q1_3 _ u u' p p'

/-- C18 (2D, energy): the pressure does no work in the Stokes operator. -/
theorem C18_energy2 (N : Fin 2 → ℤ) (per : Fin 2 → Bool) (lx : Fin 2 → List ℤ)
    (hne : ∀ i, lx i ≠ []) (hW : ∀ i, (presLayout N per lx i).WF) (h : Pos 2 ℝ)
    (u : NodeVec 2 2 ℝ) (p : NodeVec 2 1 ℝ) :
    (dot (velLayout N per lx) u (stokesStrain2 N per lx h u p).1 +
      dot (presLayout N per lx) p (stokesStrain2 N per lx h u p).2
      = dot (velLayout N per lx) u (strain2 (velLayout N per lx) h u)) ∧
    (dot (velLayout N per lx) u (stokesLap2 N per lx h u p).1 +
      dot (presLayout N per lx) p (stokesLap2 N per lx h u p).2
      = dot (velLayout N per lx) u (laplacian2 (velLayout N per lx) h u)) :=
  ⟨energy N per lx hne hW _ _ isQ1_2 _ is4Q1_2 _ _ u p,
   energy N per lx hne hW _ _ isQ1_2 _ is4Q1_2 _ _ u p⟩

/-- C18 (3D, energy). -/
theorem C18_energy3 (N : Fin 3 → ℤ) (per : Fin 3 → Bool) (lx : Fin 3 → List ℤ)
    (hne : ∀ i, lx i ≠ []) (hW : ∀ i, (presLayout N per lx i).WF) (h : Pos 3 ℝ)
    (u : NodeVec 3 3 ℝ) (p : NodeVec 3 1 ℝ) :
    (dot (velLayout N per lx) u (stokesStrain3 N per lx h u p).1 +
      dot (presLayout N per lx) p (stokesStrain3 N per lx h u p).2
      = dot (velLayout N per lx) u (strain3 (velLayout N per lx) h u)) ∧
    (dot (velLayout N per lx) u (stokesLap3 N per lx h u p).1 +
      dot (presLayout N per lx) p (stokesLap3 N per lx h u p).2
      = dot (velLayout N per lx) u (laplacian3 (velLayout N per lx) h u)) :=
  ⟨energy N per lx hne hW _ _ isQ1_3 _ is4Q1_3 _ _ u p,
   energy N per lx hne hW _ _ isQ1_3 _ is4Q1_3 _ _ u p⟩

example : (∀ i, (![[2, 3, 1], [2, 3]] : Fin 2 → List ℤ) i ≠ []) ∧
    ∀ i, (presLayout (fun _ => 6) (fun i => decide (i = 1)) ![[2, 3, 1], [2, 3]] i).WF := by
  constructor <;> intro i <;> fin_cases i <;> first | decide | exact ⟨by decide, by decide⟩

/-! ### C19, C20 -/

theorem tele {K : Type*} [CommRing K] (F : ℤ → K) (M : ℕ) :
    ∑ e ∈ Finset.Ico (0 : ℤ) M, (F (e + 1) - F e) = F M - F 0 := by
  induction M with
  | zero => simp
  | succ M ih =>
    have : Finset.Ico (0 : ℤ) ((M + 1 : ℕ) : ℤ) = insert (M : ℤ) (Finset.Ico (0 : ℤ) M) := by
      ext x; simp only [Finset.mem_Ico, Finset.mem_insert]; push_cast; omega
    rw [this, Finset.sum_insert (by simp), ih]
    push_cast; ring

/-- Derivative weights of the three velocity nodes of a pressure cell in one direction. -/
def dW : Fin 3 → ℚ := ![-1, 0, 1]
/-- Mass weights of the three velocity nodes of a pressure cell in one direction. -/
def mW : Fin 3 → ℚ := ![1/2, 1, 1/2]

theorem sum_prod_form {K : Type*} [CommRing K] (s : Fin d → Finset ℤ) (f : Fin d → ℤ → Fin 3 → K) :
    ∑ e ∈ Fintype.piFinset s, ∑ t : Fin d → Fin 3, ∏ i, f i (e i) (t i)
      = ∏ i, ∑ e ∈ s i, ∑ t, f i e t := by
  rw [Finset.prod_univ_sum]
  refine Finset.sum_congr rfl fun e _ => ?_
  rw [Finset.prod_univ_sum]
  simp

/-- One directional factor: the contributions of neighbouring cells cancel. -/
theorem factor_zero (per : Bool) (N g : ℤ) (hN : 1 ≤ N)
    (hb : per = true ∨ (g ≠ 0 ∧ g ≠ 2 * N - 2)) :
    ∑ e ∈ Finset.Ico (0 : ℤ) (N - 1), ∑ t : Fin 3,
      (if (if per then (2 * e + ((t : ℕ) : ℤ)) % meshVel N per else 2 * e + ((t : ℕ) : ℤ)) = g
        then (dW t : ℝ) else 0) = 0 := by
  set W : ℤ → ℤ := fun x => if per then x % meshVel N per else x with hW
  have h1 : ∀ e : ℤ, ∑ t : Fin 3, (if W (2 * e + ((t : ℕ) : ℤ)) = g then (dW t : ℝ) else 0) =
      (if W (2 * (e + 1)) = g then 1 else 0) - (if W (2 * e) = g then 1 else 0) := by
    intro e
    rw [Fin.sum_univ_three]
    have e2 : 2 * (e + 1) = 2 * e + 2 := by ring
    rw [e2]
    simp only [dW, Fin.val_zero, Fin.val_one, Fin.val_two, Nat.cast_zero, Nat.cast_one,
      Nat.cast_ofNat, add_zero, Matrix.cons_val_zero, Matrix.cons_val_one, Matrix.cons_val]
    split_ifs <;> norm_num
  have h2 := Finset.sum_congr (rfl : Finset.Ico (0:ℤ) (N - 1) = _) fun e _ => h1 e
  refine h2.trans ?_
  obtain ⟨M, hM⟩ := Int.eq_ofNat_of_zero_le (show 0 ≤ N - 1 by omega)
  rw [hM, tele (fun e => if W (2 * e) = g then (1 : ℝ) else 0)]
  rcases hb with hb | hb
  · have : W (2 * (M : ℤ)) = W (2 * 0) := by
      have e1 : 2 * (M : ℤ) = meshVel N per := by simp only [meshVel, hb, if_true]; omega
      simp only [hW, hb, if_true] at e1 ⊢
      rw [e1]; simp
    simp [this]
  · by_cases hp : per = true
    · have : W (2 * (M : ℤ)) = W (2 * 0) := by
        have e1 : 2 * (M : ℤ) = meshVel N per := by simp only [meshVel, hp, if_true]; omega
        simp only [hW, hp, if_true] at e1 ⊢
        rw [e1]; simp
      simp [this]
    · have e1 : W (2 * (M : ℤ)) ≠ g := by simp only [hW, hp]; simp; omega
      have e2 : W (2 * 0) ≠ g := by simp only [hW, hp]; simp; omega
      simp only [mul_zero] at e2
      simp [e1, e2]

section const
variable {NP NV : ℕ} (N : Fin d → ℤ) (per : Fin d → Bool)
  (lx : Fin d → List ℤ) (hne : ∀ i, lx i ≠ []) (hW : ∀ i, (presLayout N per lx i).WF)
  (elemP : Pos d ℤ → Fin NP → Pos d ℤ) (elemV : Pos d ℤ → Fin NV → Pos d ℤ) (hel : IsQ1 elemP)
  (off : Fin NV → Fin d → Fin 3) (hoff : Is4Q1 elemV off)
  (B : Fin NP → Fin NV → Fin n → ℝ)
include hne hW hel hoff

theorem N_pos (i : Fin d) : 1 ≤ N i := by
  have h1 := (hW i).sum_eq
  have h2 := (hW i).pos
  simp only [presLayout, presDir, meshPres] at h1 h2
  have h3 : 0 < (lx i).sum := by
    cases hl : lx i with
    | nil => exact absurd hl (hne i)
    | cons a l =>
      rw [hl] at h2
      have := h2 a (by simp)
      have : 0 ≤ l.sum := List.sum_nonneg fun x hx => (h2 x (by simp [hx])).le
      simp; omega
  split_ifs at h1 <;> omega

theorem const_pressure (hbij : Function.Bijective off) (a : Fin n) (j : Fin d) (s : ℝ)
    (w : Fin d → Fin 3 → ℚ) (hw : w j = dW)
    (hB : ∀ k, ∑ ip, B ip k a = s * ∏ i, (w i (off k i) : ℝ))
    (u : NodeVec d n ℝ) (p0 : ℝ) (g : Pos d ℤ)
    (hb : per j = true ∨ (g j ≠ 0 ∧ g j ≠ (velLayout N per lx j).m - 1)) :
    (offDiagMatrix (velLayout N per lx) (presLayout N per lx) elemP elemV B u
      (fun _ _ => p0)).1 g a = 0 := by
  unfold offDiagMatrix
  rw [vel_out N per lx hne hW elemP elemV hel off hoff,
    block_id_zero N per lx hne hW elemP elemV hel off hoff, zero_add]
  have h1 : ∀ e : Pos d ℤ, (∑ k, if wrap (velLayout N per lx) (elemV e k) = g then
        ∑ ip, -(p0 * B ip k a) else 0) = (-p0 * s) * ∑ t : Fin d → Fin 3, ∏ i,
        (if (if per i then (2 * e i + ((t i : ℕ) : ℤ)) % meshVel (N i) (per i)
          else 2 * e i + ((t i : ℕ) : ℤ)) = g i then (w i (t i) : ℝ) else 0) := by
    intro e
    rw [Finset.mul_sum, ← hbij.sum_comp (fun t : Fin d → Fin 3 => (-p0 * s) * ∏ i,
        (if (if per i then (2 * e i + ((t i : ℕ) : ℤ)) % meshVel (N i) (per i)
          else 2 * e i + ((t i : ℕ) : ℤ)) = g i then (w i (t i) : ℝ) else 0))]
    refine Finset.sum_congr rfl fun k _ => ?_
    rw [Finset.prod_ite_zero]
    have hiff : wrap (velLayout N per lx) (elemV e k) = g ↔ ∀ i ∈ Finset.univ,
        (if per i then (2 * e i + ((off k i : ℕ) : ℤ)) % meshVel (N i) (per i)
          else 2 * e i + ((off k i : ℕ) : ℤ)) = g i := by
      rw [funext_iff]
      simp only [wrap, velLayout, velDir, hoff e k, Finset.mem_univ, true_imp_iff]
    simp only [hiff]
    split_ifs
    · rw [Finset.sum_neg_distrib, ← Finset.mul_sum, hB]; ring
    · ring
  rw [Finset.sum_congr rfl fun e _ => h1 e, ← Finset.mul_sum]
  unfold gridElems
  rw [sum_prod_form (fun i => Finset.Ico 0 (presLayout N per lx i).nElem) (fun i x t =>
      (if (if per i then (2 * x + ((t : ℕ) : ℤ)) % meshVel (N i) (per i)
          else 2 * x + ((t : ℕ) : ℤ)) = g i then (w i t : ℝ) else 0)),
    Finset.prod_eq_zero (Finset.mem_univ j), mul_zero]
  rw [hw, pres_nElem]
  refine factor_zero (per j) (N j) (g j) (N_pos N per lx hne hW elemP elemV hel off hoff j) ?_
  rcases hb with hb | hb
  · exact Or.inl hb
  · by_cases hp : per j = true
    · exact Or.inl hp
    · refine Or.inr ⟨hb.1, ?_⟩
      have := hb.2
      simp only [velLayout, velDir, meshVel, hp] at this
      simp at this
      omega

end const

theorem col2 : (∀ k, -∑ i, matElem2d_pdxu i k = dW (trit2 k 0) * mW (trit2 k 1)) ∧
    (∀ k, -∑ i, matElem2d_pdyu i k = mW (trit2 k 0) * dW (trit2 k 1)) := by
  constructor <;> decide +kernel

theorem col3 : (∀ k, -∑ i, matElem3d_pdxu i k = dW (trit3 k 0) * mW (trit3 k 1) * mW (trit3 k 2)) ∧
    (∀ k, -∑ i, matElem3d_pdyu i k = mW (trit3 k 0) * dW (trit3 k 1) * mW (trit3 k 2)) ∧
    (∀ k, -∑ i, matElem3d_pdzu i k = mW (trit3 k 0) * mW (trit3 k 1) * dW (trit3 k 2)) := by
  refine ⟨?_, ?_, ?_⟩ <;> decide +kernel

theorem trit2_bij : Function.Bijective trit2 := by
  rw [Fintype.bijective_iff_injective_and_card]
  exact ⟨by decide +kernel, by simp⟩

theorem trit3_bij : Function.Bijective trit3 := by
  rw [Fintype.bijective_iff_injective_and_card]
  exact ⟨by decide +kernel, by simp⟩

/-- C19 (2D): a constant pressure exerts no force in direction `a` on the velocity nodes that are not
on a wall orthogonal to `a` (whatever the periodicities and the process grid). -/
theorem C19_constant_pressure2 (N : Fin 2 → ℤ) (per : Fin 2 → Bool) (lx : Fin 2 → List ℤ)
    (hne : ∀ i, lx i ≠ []) (hW : ∀ i, (presLayout N per lx i).WF) (h : Pos 2 ℝ)
    (u : NodeVec 2 2 ℝ) (p0 : ℝ) (g : Pos 2 ℤ) (a : Fin 2)
    (hb : per a = true ∨ (g a ≠ 0 ∧ g a ≠ (velLayout N per lx a).m - 1)) :
    (bAndBT2 N per lx h u (fun _ _ => p0)).1 g a = 0 := by
  fin_cases a
  · refine const_pressure N per lx hne hW _ _ isQ1_2 _ is4Q1_2 _ trit2_bij 0 0 (h 1) ![dW, mW] rfl
      (fun k => ?_) u p0 g hb
    have := congrArg (fun q : ℚ => (q : ℝ)) (col2.1 k)
    push_cast at this
    rw [Fin.prod_univ_two]
    show ∑ ip, -h 1 * (matElem2d_pdxu ip k : ℝ) = h 1 * ((dW (trit2 k 0) : ℝ) * (mW (trit2 k 1) : ℝ))
    rw [← this, ← Finset.mul_sum]; ring
  · refine const_pressure N per lx hne hW _ _ isQ1_2 _ is4Q1_2 _ trit2_bij 1 1 (h 0) ![mW, dW] rfl
      (fun k => ?_) u p0 g hb
    have := congrArg (fun q : ℚ => (q : ℝ)) (col2.2 k)
    push_cast at this
    rw [Fin.prod_univ_two]
    show ∑ ip, -h 0 * (matElem2d_pdyu ip k : ℝ) = h 0 * ((mW (trit2 k 0) : ℝ) * (dW (trit2 k 1) : ℝ))
    rw [← this, ← Finset.mul_sum]; ring

/-- C19 (3D). -/
theorem C19_constant_pressure3 (N : Fin 3 → ℤ) (per : Fin 3 → Bool) (lx : Fin 3 → List ℤ)
    (hne : ∀ i, lx i ≠ []) (hW : ∀ i, (presLayout N per lx i).WF) (h : Pos 3 ℝ)
    (u : NodeVec 3 3 ℝ) (p0 : ℝ) (g : Pos 3 ℤ) (a : Fin 3)
    (hb : per a = true ∨ (g a ≠ 0 ∧ g a ≠ (velLayout N per lx a).m - 1)) :
    (bAndBT3 N per lx h u (fun _ _ => p0)).1 g a = 0 := by
  fin_cases a
  · refine const_pressure N per lx hne hW _ _ isQ1_3 _ is4Q1_3 _ trit3_bij 0 0 (h 1 * h 2)
      ![dW, mW, mW] rfl (fun k => ?_) u p0 g hb
    have := congrArg (fun q : ℚ => (q : ℝ)) (col3.1 k)
    push_cast at this
    rw [Fin.prod_univ_three]
    show ∑ ip, -h 1 * h 2 * (matElem3d_pdxu ip k : ℝ)
      = h 1 * h 2 * ((dW (trit3 k 0) : ℝ) * (mW (trit3 k 1) : ℝ) * (mW (trit3 k 2) : ℝ))
    rw [← this, ← Finset.mul_sum]; ring
  · refine const_pressure N per lx hne hW _ _ isQ1_3 _ is4Q1_3 _ trit3_bij 1 1 (h 0 * h 2)
      ![mW, dW, mW] rfl (fun k => ?_) u p0 g hb
    have := congrArg (fun q : ℚ => (q : ℝ)) (col3.2.1 k)
    push_cast at this
    rw [Fin.prod_univ_three]
    show ∑ ip, -h 0 * h 2 * (matElem3d_pdyu ip k : ℝ)
      = h 0 * h 2 * ((mW (trit3 k 0) : ℝ) * (dW (trit3 k 1) : ℝ) * (mW (trit3 k 2) : ℝ))
    rw [← this, ← Finset.mul_sum]; ring
  · refine const_pressure N per lx hne hW _ _ isQ1_3 _ is4Q1_3 _ trit3_bij 2 2 (h 0 * h 1)
      ![mW, mW, dW] rfl (fun k => ?_) u p0 g hb
    have := congrArg (fun q : ℚ => (q : ℝ)) (col3.2.2 k)
    push_cast at this
    rw [Fin.prod_univ_three]
    show ∑ ip, -h 0 * h 1 * (matElem3d_pdzu ip k : ℝ)
      = h 0 * h 1 * ((mW (trit3 k 0) : ℝ) * (mW (trit3 k 1) : ℝ) * (dW (trit3 k 2) : ℝ))
    rw [← this, ← Finset.mul_sum]; ring

theorem row2 : (∀ i, ∑ k, matElem2d_pdxu i k = 0) ∧ (∀ i, ∑ k, matElem2d_pdyu i k = 0) := by
  constructor <;> decide +kernel

theorem row3 : (∀ i, ∑ k, matElem3d_pdxu i k = 0) ∧ (∀ i, ∑ k, matElem3d_pdyu i k = 0) ∧
    (∀ i, ∑ k, matElem3d_pdzu i k = 0) := by
  refine ⟨?_, ?_, ?_⟩ <;> decide +kernel

theorem sum_row_zero {NV : ℕ} (c s : ℝ) (f : Fin NV → ℚ) (hf : ∑ k, f k = 0) :
    ∑ k, s * (c * (f k : ℝ)) = 0 := by
  have := congrArg (fun q : ℚ => (q : ℝ)) hf
  push_cast at this
  rw [← Finset.mul_sum, ← Finset.mul_sum, this]; simp

/-- C20 (2D, constants): the discrete divergence of a constant velocity is zero at every pressure
node. -/
theorem C20_constant_velocity2 (N : Fin 2 → ℤ) (per : Fin 2 → Bool) (lx : Fin 2 → List ℤ)
    (hne : ∀ i, lx i ≠ []) (hW : ∀ i, (presLayout N per lx i).WF) (h : Pos 2 ℝ)
    (u : Fin 2 → ℝ) (p : NodeVec 2 1 ℝ) (g : Pos 2 ℤ) :
    (bAndBT2 N per lx h (fun _ => u) p).2 g 0 = 0 := by
  unfold bAndBT2 offDiagMatrix
  rw [pres_out N per lx hne hW _ _ isQ1_2 _ is4Q1_2]
  refine Finset.sum_eq_zero fun e _ => Finset.sum_eq_zero fun ip _ => ?_
  split_ifs
  · rw [Finset.sum_comm, Fin.sum_univ_two]
    have h0 := sum_row_zero (-h 1) (u 0) _ (row2.1 ip)
    have h1 := sum_row_zero (-h 0) (u 1) _ (row2.2 ip)
    simp only [matElemPressure2]
    rw [h0, h1, add_zero]
  · rfl

/-- C20 (3D, constants). -/
theorem C20_constant_velocity3 (N : Fin 3 → ℤ) (per : Fin 3 → Bool) (lx : Fin 3 → List ℤ)
    (hne : ∀ i, lx i ≠ []) (hW : ∀ i, (presLayout N per lx i).WF) (h : Pos 3 ℝ)
    (u : Fin 3 → ℝ) (p : NodeVec 3 1 ℝ) (g : Pos 3 ℤ) :
    (bAndBT3 N per lx h (fun _ => u) p).2 g 0 = 0 := by
  unfold bAndBT3 offDiagMatrix
  rw [pres_out N per lx hne hW _ _ isQ1_3 _ is4Q1_3]
  refine Finset.sum_eq_zero fun e _ => Finset.sum_eq_zero fun ip _ => ?_
  split_ifs
  · rw [Finset.sum_comm, Fin.sum_univ_three]
    have h0 := sum_row_zero (-h 1 * h 2) (u 0) _ (row3.1 ip)
    have h1 := sum_row_zero (-h 0 * h 2) (u 1) _ (row3.2.1 ip)
    have h2 := sum_row_zero (-h 0 * h 1) (u 2) _ (row3.2.2 ip)
    simp only [matElemPressure3]
    rw [h0, h1, h2]; simp
  · rfl

/-- C20 (2D, conservation): the total of the discrete divergence depends only on the normal
components of the velocity on the walls. -/
theorem C20_conservative2 (N : Fin 2 → ℤ) (per : Fin 2 → Bool) (lx : Fin 2 → List ℤ)
    (hne : ∀ i, lx i ≠ []) (hW : ∀ i, (presLayout N per lx i).WF) (h : Pos 2 ℝ)
    (u u' : NodeVec 2 2 ℝ) (p p' : NodeVec 2 1 ℝ)
    (hu : ∀ g ∈ gridNodes (velLayout N per lx), ∀ a, per a = false →
      (g a = 0 ∨ g a = (velLayout N per lx a).m - 1) → u g a = u' g a) :
    ∑ g ∈ gridNodes (presLayout N per lx), (bAndBT2 N per lx h u p).2 g 0
      = ∑ g ∈ gridNodes (presLayout N per lx), (bAndBT2 N per lx h u' p').2 g 0 := by
  have key : ∀ (v : NodeVec 2 2 ℝ) q, ∑ g ∈ gridNodes (presLayout N per lx),
      (bAndBT2 N per lx h v q).2 g 0
      = - dot (velLayout N per lx) v (bAndBT2 N per lx h 0 (fun _ _ => 1)).1 := by
    intro v q
    rw [C18_adjoint2 N per lx hne hW h v 0 (fun _ _ => 1) q]
    simp [dot]
  rw [key, key]
  congr 1
  refine Finset.sum_congr rfl fun g hg => Finset.sum_congr rfl fun a _ => ?_
  by_cases hb : per a = true ∨ (g a ≠ 0 ∧ g a ≠ (velLayout N per lx a).m - 1)
  · rw [C19_constant_pressure2 N per lx hne hW h 0 1 g a hb]; simp
  · push Not at hb
    rw [hu g hg a (by simpa using hb.1) (by by_cases h0 : g a = 0; exacts [Or.inl h0, Or.inr (hb.2 h0)])]

/-- C20 (3D, conservation). -/
theorem C20_conservative3 (N : Fin 3 → ℤ) (per : Fin 3 → Bool) (lx : Fin 3 → List ℤ)
    (hne : ∀ i, lx i ≠ []) (hW : ∀ i, (presLayout N per lx i).WF) (h : Pos 3 ℝ)
    (u u' : NodeVec 3 3 ℝ) (p p' : NodeVec 3 1 ℝ)
    (hu : ∀ g ∈ gridNodes (velLayout N per lx), ∀ a, per a = false →
      (g a = 0 ∨ g a = (velLayout N per lx a).m - 1) → u g a = u' g a) :
    ∑ g ∈ gridNodes (presLayout N per lx), (bAndBT3 N per lx h u p).2 g 0
      = ∑ g ∈ gridNodes (presLayout N per lx), (bAndBT3 N per lx h u' p').2 g 0 := by
  have key : ∀ (v : NodeVec 3 3 ℝ) q, ∑ g ∈ gridNodes (presLayout N per lx),
      (bAndBT3 N per lx h v q).2 g 0
      = - dot (velLayout N per lx) v (bAndBT3 N per lx h 0 (fun _ _ => 1)).1 := by
    intro v q
    rw [C18_adjoint3 N per lx hne hW h v 0 (fun _ _ => 1) q]
    simp [dot]
  rw [key, key]
  congr 1
  refine Finset.sum_congr rfl fun g hg => Finset.sum_congr rfl fun a _ => ?_
  by_cases hb : per a = true ∨ (g a ≠ 0 ∧ g a ≠ (velLayout N per lx a).m - 1)
  · rw [C19_constant_pressure3 N per lx hne hW h 0 1 g a hb]; simp
  · push Not at hb
    rw [hu g hg a (by simpa using hb.1) (by by_cases h0 : g a = 0; exacts [Or.inl h0, Or.inr (hb.2 h0)])]

/-! ### C21: the Stokes operator does not depend on the decomposition -/

theorem sameGrid_pres (N : Fin d → ℤ) (per : Fin d → Bool) (lx lx' : Fin d → List ℤ) :
    SameGrid (presLayout N per lx) (presLayout N per lx') := fun _ => ⟨rfl, rfl⟩
theorem sameGrid_vel (N : Fin d → ℤ) (per : Fin d → Bool) (lx lx' : Fin d → List ℤ) :
    SameGrid (velLayout N per lx) (velLayout N per lx') := fun _ => ⟨rfl, rfl⟩

theorem velLayout_wf (N : Fin d → ℤ) (per : Fin d → Bool) (lx : Fin d → List ℤ)
    (hne : ∀ i, lx i ≠ []) (hW : ∀ i, (presLayout N per lx i).WF) :
    ∀ i, (velLayout N per lx i).WF := fun i => velDir_wf (hne i) (hW i)

/-- C21 (Stokes, 2D): for two ownership splits `lx`, `lx'` of the same pressure grid, the Stokes
operator (with either diffusion operator) computes the same velocity and pressure vectors. -/
theorem C21_stokes2 (N : Fin 2 → ℤ) (per : Fin 2 → Bool) (lx lx' : Fin 2 → List ℤ)
    (hne : ∀ i, lx i ≠ []) (hW : ∀ i, (presLayout N per lx i).WF)
    (hne' : ∀ i, lx' i ≠ []) (hW' : ∀ i, (presLayout N per lx' i).WF) (h : Pos 2 ℝ)
    (u : NodeVec 2 2 ℝ) (p : NodeVec 2 1 ℝ) :
    stokesStrain2 N per lx h u p = stokesStrain2 N per lx' h u p ∧
    stokesLap2 N per lx h u p = stokesLap2 N per lx' h u p ∧
    bAndBT2 N per lx h u p = bAndBT2 N per lx' h u p := by
  have hv := velLayout_wf N per lx hne hW
  have hv' := velLayout_wf N per lx' hne' hW'
  have sv := sameGrid_vel N per lx lx'
  have sp := sameGrid_pres N per lx lx'
  refine ⟨Prod.ext ?_ ?_, Prod.ext ?_ ?_, Prod.ext ?_ ?_⟩ <;> funext g c
  · unfold stokesStrain2
    rw [vel_out N per lx hne hW _ _ isQ1_2 _ is4Q1_2, vel_out N per lx' hne' hW' _ _ isQ1_2 _ is4Q1_2,
      tensorBlock_global _ hv _ isQ1_2, tensorBlock_global _ hv' _ isQ1_2,
      sameGrid_elems sv, sameGrid_elems sp, sameGrid_wrap sv, sameGrid_wrap sp]
  · unfold stokesStrain2
    rw [pres_out N per lx hne hW _ _ isQ1_2 _ is4Q1_2,
      pres_out N per lx' hne' hW' _ _ isQ1_2 _ is4Q1_2,
      sameGrid_elems sp, sameGrid_wrap sv, sameGrid_wrap sp]
  · unfold stokesLap2
    rw [vel_out N per lx hne hW _ _ isQ1_2 _ is4Q1_2, vel_out N per lx' hne' hW' _ _ isQ1_2 _ is4Q1_2,
      diagBlock_global _ hv _ isQ1_2, diagBlock_global _ hv' _ isQ1_2,
      sameGrid_elems sv, sameGrid_elems sp, sameGrid_wrap sv, sameGrid_wrap sp]
  · unfold stokesLap2
    rw [pres_out N per lx hne hW _ _ isQ1_2 _ is4Q1_2,
      pres_out N per lx' hne' hW' _ _ isQ1_2 _ is4Q1_2,
      sameGrid_elems sp, sameGrid_wrap sv, sameGrid_wrap sp]
  · unfold bAndBT2 offDiagMatrix
    rw [vel_out N per lx hne hW _ _ isQ1_2 _ is4Q1_2, vel_out N per lx' hne' hW' _ _ isQ1_2 _ is4Q1_2,
      block_id_zero N per lx hne hW _ _ isQ1_2 _ is4Q1_2,
      block_id_zero N per lx' hne' hW' _ _ isQ1_2 _ is4Q1_2,
      sameGrid_elems sp, sameGrid_wrap sv, sameGrid_wrap sp]
  · unfold bAndBT2 offDiagMatrix
    rw [pres_out N per lx hne hW _ _ isQ1_2 _ is4Q1_2,
      pres_out N per lx' hne' hW' _ _ isQ1_2 _ is4Q1_2,
      sameGrid_elems sp, sameGrid_wrap sv, sameGrid_wrap sp]

/-- C21 (Stokes, 3D). -/
theorem C21_stokes3 (N : Fin 3 → ℤ) (per : Fin 3 → Bool) (lx lx' : Fin 3 → List ℤ)
    (hne : ∀ i, lx i ≠ []) (hW : ∀ i, (presLayout N per lx i).WF)
    (hne' : ∀ i, lx' i ≠ []) (hW' : ∀ i, (presLayout N per lx' i).WF) (h : Pos 3 ℝ)
    (u : NodeVec 3 3 ℝ) (p : NodeVec 3 1 ℝ) :
    stokesStrain3 N per lx h u p = stokesStrain3 N per lx' h u p ∧
    stokesLap3 N per lx h u p = stokesLap3 N per lx' h u p ∧
    bAndBT3 N per lx h u p = bAndBT3 N per lx' h u p := by
  have hv := velLayout_wf N per lx hne hW
  have hv' := velLayout_wf N per lx' hne' hW'
  have sv := sameGrid_vel N per lx lx'
  have sp := sameGrid_pres N per lx lx'
  refine ⟨Prod.ext ?_ ?_, Prod.ext ?_ ?_, Prod.ext ?_ ?_⟩ <;> funext g c
  · unfold stokesStrain3
    rw [vel_out N per lx hne hW _ _ isQ1_3 _ is4Q1_3, vel_out N per lx' hne' hW' _ _ isQ1_3 _ is4Q1_3,
      tensorBlock_global _ hv _ isQ1_3, tensorBlock_global _ hv' _ isQ1_3,
      sameGrid_elems sv, sameGrid_elems sp, sameGrid_wrap sv, sameGrid_wrap sp]
  · unfold stokesStrain3
    rw [pres_out N per lx hne hW _ _ isQ1_3 _ is4Q1_3,
      pres_out N per lx' hne' hW' _ _ isQ1_3 _ is4Q1_3,
      sameGrid_elems sp, sameGrid_wrap sv, sameGrid_wrap sp]
  · unfold stokesLap3
    rw [vel_out N per lx hne hW _ _ isQ1_3 _ is4Q1_3, vel_out N per lx' hne' hW' _ _ isQ1_3 _ is4Q1_3,
      diagBlock_global _ hv _ isQ1_3, diagBlock_global _ hv' _ isQ1_3,
      sameGrid_elems sv, sameGrid_elems sp, sameGrid_wrap sv, sameGrid_wrap sp]
  · unfold stokesLap3
    rw [pres_out N per lx hne hW _ _ isQ1_3 _ is4Q1_3,
      pres_out N per lx' hne' hW' _ _ isQ1_3 _ is4Q1_3,
      sameGrid_elems sp, sameGrid_wrap sv, sameGrid_wrap sp]
  · unfold bAndBT3 offDiagMatrix
    rw [vel_out N per lx hne hW _ _ isQ1_3 _ is4Q1_3, vel_out N per lx' hne' hW' _ _ isQ1_3 _ is4Q1_3,
      block_id_zero N per lx hne hW _ _ isQ1_3 _ is4Q1_3,
      block_id_zero N per lx' hne' hW' _ _ isQ1_3 _ is4Q1_3,
      sameGrid_elems sp, sameGrid_wrap sv, sameGrid_wrap sp]
  · unfold bAndBT3 offDiagMatrix
    rw [pres_out N per lx hne hW _ _ isQ1_3 _ is4Q1_3,
      pres_out N per lx' hne' hW' _ _ isQ1_3 _ is4Q1_3,
      sameGrid_elems sp, sameGrid_wrap sv, sameGrid_wrap sp]

end Cafes.Props
