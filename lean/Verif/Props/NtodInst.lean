import Verif.Model.NtodPieces
import Verif.Props.NtodDriver
import Verif.Props.SemPost
import Verif.Props.PairLoop
import Verif.Props.Frame
import Verif.Props.Cutoff
import Verif.Props.AddSing
import Mathlib.LinearAlgebra.Basis.VectorSpace

/-!
C107: the singular fields, the rigid motion and the forces depend linearly on the velocities of the particles in 2D, so
the concrete pieces meet the laws of C101; in 3D the singular flow is not additive.
-/

namespace Cafes.Props
open Cafes Cafes.Driver Cafes.Particle Cafes.Geometry Cafes.AddSing Cafes.Sing

variable {d N : ℕ} {A : Type*}

/-! ### The fields of one pair -/

section
variable (X : Fin 2 → ℝ) (H M a U l eps : ℝ)

theorem p_smul : p_sing_withT_normalMvt2D X H M a U l eps = U * p_sing_withT_normalMvt2D X H M a 1 l eps := by
  unfold p_sing_withT_normalMvt2D; extract_lets; ring
theorem uz_smul : uz_sing_normalMvt2D X H M a U l eps = U * uz_sing_normalMvt2D X H M a 1 l eps := by
  unfold uz_sing_normalMvt2D; extract_lets; ring
theorem ux_smul : ux_sing_normalMvt2D X H M a U l eps = U * ux_sing_normalMvt2D X H M a 1 l eps := by
  unfold ux_sing_normalMvt2D; extract_lets; ring
theorem dxux_smul : dxux_sing_normalMvt2D X H M a U l eps = U * dxux_sing_normalMvt2D X H M a 1 l eps := by
  unfold dxux_sing_normalMvt2D; extract_lets; ring
theorem dzux_smul : dzux_sing_normalMvt2D X H M a U l eps = U * dzux_sing_normalMvt2D X H M a 1 l eps := by
  unfold dzux_sing_normalMvt2D; extract_lets; ring
theorem dxuz_smul : dxuz_sing_normalMvt2D X H M a U l eps = U * dxuz_sing_normalMvt2D X H M a 1 l eps := by
  unfold dxuz_sing_normalMvt2D; extract_lets; ring
theorem dzuz_smul : dzuz_sing_normalMvt2D X H M a U l eps = U * dzuz_sing_normalMvt2D X H M a 1 l eps := by
  unfold dzuz_sing_normalMvt2D; extract_lets; ring
end

/-- Three contacts with the same geometry, the approach velocity of the first one combining those of the two others. -/
structure SingComb (a b : ℝ) (R S T : Singularity 2) : Prop where
  s : S = { R with UN := S.UN, UT := S.UT }
  t : T = { R with UN := T.UN, UT := T.UT }
  un : R.UN = a * S.UN + b * T.UN

section
variable {a b : ℝ} {R S T : Singularity 2} (hc : SingComb a b R S T)
include hc

theorem comb_uRef (q : Pos 2 ℝ) : uRef2 R q = a • uRef2 S q + b • uRef2 T q := by
  rw [hc.s, hc.t]
  funext c
  fin_cases c
  · show ux_sing_normalMvt2D q _ _ _ _ _ _ = a * ux_sing_normalMvt2D q _ _ _ _ _ _ + b * ux_sing_normalMvt2D q _ _ _ _ _ _
    rw [ux_smul _ _ _ _ R.UN, ux_smul _ _ _ _ S.UN, ux_smul _ _ _ _ T.UN, hc.un]
    ring
  · show uz_sing_normalMvt2D q _ _ _ _ _ _ = a * uz_sing_normalMvt2D q _ _ _ _ _ _ + b * uz_sing_normalMvt2D q _ _ _ _ _ _
    rw [uz_smul _ _ _ _ R.UN, uz_smul _ _ _ _ S.UN, uz_smul _ _ _ _ T.UN, hc.un]
    ring

theorem comb_gradRef (q : Pos 2 ℝ) : gradRef2 R q = a • gradRef2 S q + b • gradRef2 T q := by
  rw [hc.s, hc.t]
  funext i j
  fin_cases i <;> fin_cases j
  · show dxux_sing_normalMvt2D q _ _ _ _ _ _ = a * dxux_sing_normalMvt2D q _ _ _ _ _ _ + b * dxux_sing_normalMvt2D q _ _ _ _ _ _
    rw [dxux_smul _ _ _ _ R.UN, dxux_smul _ _ _ _ S.UN, dxux_smul _ _ _ _ T.UN, hc.un]
    ring
  · show dzux_sing_normalMvt2D q _ _ _ _ _ _ = a * dzux_sing_normalMvt2D q _ _ _ _ _ _ + b * dzux_sing_normalMvt2D q _ _ _ _ _ _
    rw [dzux_smul _ _ _ _ R.UN, dzux_smul _ _ _ _ S.UN, dzux_smul _ _ _ _ T.UN, hc.un]
    ring
  · show dxuz_sing_normalMvt2D q _ _ _ _ _ _ = a * dxuz_sing_normalMvt2D q _ _ _ _ _ _ + b * dxuz_sing_normalMvt2D q _ _ _ _ _ _
    rw [dxuz_smul _ _ _ _ R.UN, dxuz_smul _ _ _ _ S.UN, dxuz_smul _ _ _ _ T.UN, hc.un]
    ring
  · show dzuz_sing_normalMvt2D q _ _ _ _ _ _ = a * dzuz_sing_normalMvt2D q _ _ _ _ _ _ + b * dzuz_sing_normalMvt2D q _ _ _ _ _ _
    rw [dzuz_smul _ _ _ _ R.UN, dzuz_smul _ _ _ _ S.UN, dzuz_smul _ _ _ _ T.UN, hc.un]
    ring

theorem comb_pos (x : Pos 2 ℝ) : posInRef S x = posInRef R x ∧ posInRef T x = posInRef R x := by
  rw [hc.s, hc.t]
  exact ⟨rfl, rfl⟩

theorem comb_base : S.base = R.base ∧ T.base = R.base := by
  rw [hc.s, hc.t]
  exact ⟨rfl, rfl⟩

theorem comb_U (x : Pos 2 ℝ) : getU2 R x = a • getU2 S x + b • getU2 T x := by
  unfold getU2
  rw [(comb_pos hc x).1, (comb_pos hc x).2, (comb_base hc).1, (comb_base hc).2, comb_uRef hc]
  funext i
  simp only [toMesh_eq, Pi.add_apply, Pi.smul_apply, smul_eq_mul, Finset.mul_sum]
  rw [← Finset.sum_add_distrib]
  exact Finset.sum_congr rfl fun k _ => by ring

theorem comb_G (x : Pos 2 ℝ) : getGradU2 R x = a • getGradU2 S x + b • getGradU2 T x := by
  unfold getGradU2
  rw [(comb_pos hc x).1, (comb_pos hc x).2, (comb_base hc).1, (comb_base hc).2, comb_gradRef hc]
  funext i j
  simp only [Pi.add_apply, Pi.smul_apply, smul_eq_mul, gradToMesh]
  refine foldl_rel (fun s t u : ℝ => s = a * t + b * u) _ _ _ _ ?_ _ _ _ (by ring)
  rintro _ t u m - rfl
  refine foldl_rel (fun s t u : ℝ => s = a * t + b * u) _ _ _ _ ?_ _ _ _ rfl
  rintro _ t u m - rfl
  ring

theorem comb_P (x : Pos 2 ℝ) : getP2 R x = a * getP2 S x + b * getP2 T x := by
  unfold getP2
  rw [(comb_pos hc x).1, (comb_pos hc x).2, hc.s, hc.t]
  dsimp only
  rw [p_smul _ _ _ _ R.UN, p_smul _ _ _ _ S.UN, p_smul _ _ _ _ T.UN, hc.un]
  ring

theorem comb_box (h : Pos 2 ℝ) : getBox2 S h = getBox2 R h ∧ getBox2 T h = getBox2 R h := by
  rw [hc.s, hc.t]
  exact ⟨rfl, rfl⟩

theorem comb_cutoff : S.cutoff = R.cutoff ∧ T.cutoff = R.cutoff := by
  rw [hc.s, hc.t]
  exact ⟨rfl, rfl⟩

theorem comb_force (n : ℕ) : singForce2 R n = a • singForce2 S n + b • singForce2 T n := by
  have e1 : S.H1 = R.H1 := by rw [hc.s]
  have e2 : T.H1 = R.H1 := by rw [hc.t]
  unfold singForce2
  rw [(comb_cutoff hc).1, (comb_cutoff hc).2, e1, e2]
  refine foldl_rel (fun s t u : Pos 2 ℝ => s = a • t + b • u) _ _ _ _ ?_ _ _ _ (by simp)
  rintro _ t u m - rfl
  refine foldl_rel (fun s t u : Pos 2 ℝ => s = a • t + b • u) _ _ _ _ ?_ _ _ _ rfl
  rintro _ t u i - rfl
  refine foldl_rel (fun s t u : Pos 2 ℝ => s = a • t + b • u) _ _ _ _ ?_ _ _ _ rfl
  rintro _ t u j - rfl
  have hs : ∀ q, stress2 (gradRef2 R q) (getP2 R q) i j =
      a * stress2 (gradRef2 S q) (getP2 S q) i j + b * stress2 (gradRef2 T q) (getP2 T q) i j := by
    intro q
    rw [comb_gradRef hc, comb_P hc]
    fin_cases i <;> fin_cases j <;> simp [stress2] <;> ring
  funext c
  by_cases hci : c = i
  · subst hci
    simp only [Function.update_self, Pi.add_apply, Pi.smul_apply, smul_eq_mul]
    rw [hs]
    ring
  · simp only [Function.update_of_ne hci, Pi.add_apply, Pi.smul_apply]

end

theorem innerProd_comb (a b : ℝ) (x y z : Pos d ℝ) :
    innerProd (fun i => a * x i + b * y i) z = a * innerProd x z + b * innerProd y z := by
  unfold innerProd
  refine foldl_rel (fun s t u : ℝ => s = a * t + b * u) _ _ _ _ ?_ _ _ _ (by ring)
  rintro _ t u m - rfl
  ring

/-- The contact of two particles in 2D, in terms of that of the same particles at rest. -/
theorem mkSing2_vel (c1 c2 v1 v2 : Pos 2 ℝ) (r1 r2 h alpha : ℝ) :
    mkSing2 ⟨c1, v1, r1⟩ ⟨c2, v2, r2⟩ h alpha = (mkSing2 ⟨c1, 0, r1⟩ ⟨c2, 0, r2⟩ h alpha).map fun S =>
      { S with
        UN := innerProd (fun i => v2 i - v1 i) (S.base 0)
        UT := innerProd (fun i => v2 i - v1 i) (S.base 1) } := by
  unfold mkSing2 mkSing
  have e : distance (⟨c1, v1, r1⟩ : Ball 2) ⟨c2, v2, r2⟩ = distance (⟨c1, 0, r1⟩ : Ball 2) ⟨c2, 0, r2⟩ := rfl
  simp only [e]
  split_ifs
  · rfl
  · rfl

theorem singComb_of (c1 c2 v1 v2 w1 w2 : Pos 2 ℝ) (r1 r2 h alpha a b : ℝ) (R S T : Singularity 2)
    (hR : mkSing2 ⟨c1, a • v1 + b • w1, r1⟩ ⟨c2, a • v2 + b • w2, r2⟩ h alpha = some R)
    (hS : mkSing2 ⟨c1, v1, r1⟩ ⟨c2, v2, r2⟩ h alpha = some S)
    (hT : mkSing2 ⟨c1, w1, r1⟩ ⟨c2, w2, r2⟩ h alpha = some T) : SingComb a b R S T := by
  rw [mkSing2_vel] at hR hS hT
  obtain ⟨Q, hQ⟩ : ∃ Q, mkSing2 ⟨c1, 0, r1⟩ ⟨c2, 0, r2⟩ h alpha = some Q := by
    cases hq : mkSing2 ⟨c1, 0, r1⟩ ⟨c2, 0, r2⟩ h alpha with
    | none => rw [hq] at hR; simp at hR
    | some Q => exact ⟨Q, rfl⟩
  rw [hQ, Option.map_some, Option.some.injEq] at hR hS hT
  subst hR hS hT
  refine ⟨rfl, rfl, ?_⟩
  rw [← innerProd_comb]
  show innerProd _ _ = innerProd _ _
  congr 1
  funext i
  simp only [Pi.add_apply, Pi.smul_apply, smul_eq_mul]
  ring

/-- C107 (2D, one pair): the singular velocity, its gradient, the singular pressure and the singular force of two particles depend
linearly on their velocities; whether there is a singularity, the cut-off distance and the box do not depend on them. -/
theorem C107_fields2 (c1 c2 v1 v2 w1 w2 : Pos 2 ℝ) (r1 r2 h alpha a b : ℝ) :
    (mkSing2 ⟨c1, v1, r1⟩ ⟨c2, v2, r2⟩ h alpha = none ↔ mkSing2 ⟨c1, w1, r1⟩ ⟨c2, w2, r2⟩ h alpha = none) ∧
    ∀ R S T : Singularity 2,
      mkSing2 ⟨c1, a • v1 + b • w1, r1⟩ ⟨c2, a • v2 + b • w2, r2⟩ h alpha = some R →
      mkSing2 ⟨c1, v1, r1⟩ ⟨c2, v2, r2⟩ h alpha = some S → mkSing2 ⟨c1, w1, r1⟩ ⟨c2, w2, r2⟩ h alpha = some T →
      (∀ x, getU2 R x = a • getU2 S x + b • getU2 T x) ∧
      (∀ x, getGradU2 R x = a • getGradU2 S x + b • getGradU2 T x) ∧
      (∀ x, getP2 R x = a * getP2 S x + b * getP2 T x) ∧
      (∀ n, singForce2 R n = a • singForce2 S n + b • singForce2 T n) ∧
      S.cutoff = T.cutoff ∧ (∀ x, posInRef S x = posInRef T x) ∧ (∀ k, getBox2 S k = getBox2 T k) := by
  constructor
  · rw [mkSing2_vel c1 c2 v1, mkSing2_vel c1 c2 w1]
    simp
  · intro R S T hR hS hT
    have hc := singComb_of _ _ _ _ _ _ _ _ _ _ _ _ R S T hR hS hT
    exact ⟨comb_U hc, comb_G hc, comb_P hc, comb_force hc, (comb_cutoff hc).1.trans (comb_cutoff hc).2.symm,
      fun x => (comb_pos hc x).1.trans (comb_pos hc x).2.symm, fun k => (comb_box hc k).1.trans (comb_box hc k).2.symm⟩

/-- The hypotheses of `C107_fields2` are met: two discs of radius 1 at distance 23/10, with three sets of velocities. -/
example : ∃ R S T, mkSing2 ⟨![0, 0], (2 : ℝ) • ![1, 2] + (3 : ℝ) • ![0, 1], 1⟩ ⟨![23 / 10, 0], (2 : ℝ) • ![0, 0] + (3 : ℝ) • ![1, 0], 1⟩
      (1 / 2) 4 = some R ∧
    mkSing2 ⟨![0, 0], ![1, 2], 1⟩ ⟨![23 / 10, 0], ![0, 0], 1⟩ (1 / 2) 4 = some S ∧
    mkSing2 ⟨![0, 0], ![0, 1], 1⟩ ⟨![23 / 10, 0], ![1, 0], 1⟩ (1 / 2) 4 = some T := by
  obtain ⟨S, hS⟩ : ∃ S, mkSing2 exBall1 exBall2 (1 / 2) 4 = some S := by
    refine ⟨_, if_pos ?_⟩
    rw [exBall_distance]
    norm_num [exBall1, exBall2]
  have h1 := (C107_fields2 ![0, 0] ![23 / 10, 0] ![1, 2] ![0, 0] ((2 : ℝ) • ![1, 2] + (3 : ℝ) • ![0, 1])
    ((2 : ℝ) • ![0, 0] + (3 : ℝ) • ![1, 0]) 1 1 (1 / 2) 4 0 0).1
  have h2 := (C107_fields2 ![0, 0] ![23 / 10, 0] ![1, 2] ![0, 0] ![0, 1] ![1, 0] 1 1 (1 / 2) 4 0 0).1
  have hS' : mkSing2 ⟨![0, 0], ![1, 2], 1⟩ ⟨![23 / 10, 0], ![0, 0], 1⟩ (1 / 2) 4 = some S := hS
  obtain ⟨R, hR⟩ := Option.ne_none_iff_exists'.1 (fun h => by rw [h1.2 h] at hS'; cases hS')
  obtain ⟨T, hT⟩ := Option.ne_none_iff_exists'.1 (fun h => by rw [h2.2 h] at hS'; cases hS')
  exact ⟨R, S, T, hR, hS', hT⟩

/-! ### The sources of all the pairs -/

/-- Three pairs seen by the loops over the fluid points: the same zone, the gradient and the pressure of the first one
combining those of the two others. -/
structure PairComb (a b : ℝ) (q1 q2 q3 : Pair d) : Prop where
  box2 : q2.box = q1.box
  box3 : q3.box = q1.box
  wet2 : q2.wet = q1.wet
  wet3 : q3.wet = q1.wet
  U : ∀ x, q1.U x = a • q2.U x + b • q3.U x
  G : ∀ x, q1.G x = a • q2.G x + b • q3.G x
  P : ∀ x, q1.P x = a * q2.P x + b * q3.P x

/-- Three optional pairs, present together. -/
def OptComb (a b : ℝ) : Option (Pair d) → Option (Pair d) → Option (Pair d) → Prop
  | none, none, none => True
  | some q1, some q2, some q3 => PairComb a b q1 q2 q3
  | _, _, _ => False

theorem stKernel_comb (bfg : Pos d ℝ → Fin N → Pos d ℝ) (elem : Pos d ℤ → Fin N → Pos d ℤ) (co a b : ℝ)
    {q1 q2 q3 : Pair d} (hq : PairComb a b q1 q2 q3) (pos : Pos d ℤ) (loc pts : Pos d ℝ) (t u : NodeVec d d ℝ) :
    stKernel bfg elem co q1 pos loc pts (a • t + b • u) =
      a • stKernel bfg elem co q2 pos loc pts t + b • stKernel bfg elem co q3 pos loc pts u := by
  funext p c
  simp only [stKernel_apply, Pi.add_apply, Pi.smul_apply, smul_eq_mul, mul_add, Finset.mul_sum]
  rw [add_add_add_comm, ← Finset.sum_add_distrib]
  congr 1
  refine Finset.sum_congr rfl fun k _ => ?_
  split_ifs
  · rw [hq.G, hq.P]
    simp only [Pi.add_apply, Pi.smul_apply, smul_eq_mul, add_mul, Finset.sum_add_distrib, mul_assoc, ← Finset.mul_sum]
    ring
  · simp

theorem subLoop_comb (m : ℕ) (h : Pos d ℝ) (wet : Pos d ℝ → Bool) (b : Box d ℤ) (α β : ℝ)
    (k1 k2 k3 : Pos d ℤ → Pos d ℝ → Pos d ℝ → NodeVec d d ℝ → NodeVec d d ℝ)
    (hk : ∀ p l x t u, k1 p l x (α • t + β • u) = α • k2 p l x t + β • k3 p l x u) (t u : NodeVec d d ℝ) :
    subLoop m h wet b k1 (α • t + β • u) = α • subLoop m h wet b k2 t + β • subLoop m h wet b k3 u := by
  unfold subLoop
  refine iterate_comb _ _ _ _ α β (fun p t u => ?_) t u
  refine iterate_comb _ _ _ _ α β (fun ps t u => ?_) t u
  dsimp only
  split_ifs
  · exact hk _ _ _ t u
  · rfl

theorem pairsLoop_comb {ι : Type*} (l : List ι) (p1 p2 p3 : ι → Option (Pair d)) (a b : ℝ)
    (hp : ∀ i ∈ l, OptComb a b (p1 i) (p2 i) (p3 i)) (m : ℕ) (h : Pos d ℝ) (box : Box d ℤ)
    (bfg : Pos d ℝ → Fin N → Pos d ℝ) (elem : Pos d ℤ → Fin N → Pos d ℤ) (co : ℝ) :
    pairsLoop m h box (stKernel bfg elem co) (l.filterMap p1) 0 =
      a • pairsLoop m h box (stKernel bfg elem co) (l.filterMap p2) 0 +
      b • pairsLoop m h box (stKernel bfg elem co) (l.filterMap p3) 0 := by
  unfold pairsLoop
  rw [List.foldl_filterMap, List.foldl_filterMap, List.foldl_filterMap]
  refine foldl_rel (fun s t u : NodeVec d d ℝ => s = a • t + b • u) l _ _ _ ?_ _ _ _ (by simp)
  rintro _ t u i hi rfl
  have hq := hp i hi
  revert hq
  cases p1 i <;> cases p2 i <;> cases p3 i <;> intro hq <;> try exact hq.elim
  · rfl
  · rename_i q1 q2 q3
    have hq : PairComb a b q1 q2 q3 := hq
    dsimp only
    rw [hq.box2, hq.box3, hq.wet2, hq.wet3]
    split_ifs
    · exact subLoop_comb m h _ _ a b _ _ _ (fun p l x t u => stKernel_comb bfg elem co a b hq p l x t u) t u
    · rfl

/-! ### All the particles -/

theorem setVelocities_length (parts : List (Part d A)) (v : ℕ → Pos d ℝ × A) :
    (setVelocities parts v).length = parts.length := by simp [setVelocities]

theorem setVelocities_get (parts : List (Part d A)) (v : ℕ → Pos d ℝ × A) (i : ℕ) :
    (setVelocities parts v)[i]? = (parts[i]?).map fun p => { p with velocity := (v i).1, omega := (v i).2 } := by
  unfold setVelocities
  rw [List.getElem?_map, List.getElem?_zipIdx]
  cases parts[i]? <;> simp

section
variable [AddCommGroup A] [Module ℝ A]

/-- The contacts of the particles `i` and `j` for three sets of velocities. -/
theorem singAt2_comb (parts : List (Part 2 A)) (rad : ℕ → ℝ) (h0 a b : ℝ) (v w : ℕ → Pos 2 ℝ × A) (i j : ℕ) :
    (singAt2 (setVelocities parts (a • v + b • w)) rad h0 i j = none ∧ singAt2 (setVelocities parts v) rad h0 i j = none ∧
      singAt2 (setVelocities parts w) rad h0 i j = none) ∨
    ∃ R S T, singAt2 (setVelocities parts (a • v + b • w)) rad h0 i j = some R ∧
      singAt2 (setVelocities parts v) rad h0 i j = some S ∧ singAt2 (setVelocities parts w) rad h0 i j = some T ∧
      SingComb a b R S T := by
  unfold singAt2
  simp only [setVelocities_get]
  cases hi : parts[i]? with
  | none => left; simp
  | some p =>
    cases hj : parts[j]? with
    | none => left; simp
    | some q =>
      simp only [Option.map_some]
      have ev : ∀ i, ((a • v + b • w) i).1 = a • (v i).1 + b • (w i).1 := fun i => rfl
      rw [ev, ev]
      have n1 := (C107_fields2 p.center q.center (a • (v i).1 + b • (w i).1) (a • (v j).1 + b • (w j).1) (v i).1 (v j).1
        (rad i) (rad j) h0 4 0 0).1
      have n2 := (C107_fields2 p.center q.center (a • (v i).1 + b • (w i).1) (a • (v j).1 + b • (w j).1) (w i).1 (w j).1
        (rad i) (rad j) h0 4 0 0).1
      cases hR : mkSing2 ⟨p.center, a • (v i).1 + b • (w i).1, rad i⟩ ⟨q.center, a • (v j).1 + b • (w j).1, rad j⟩ h0 4 with
      | none => left; exact ⟨rfl, n1.1 hR, n2.1 hR⟩
      | some R =>
        right
        cases hS : mkSing2 ⟨p.center, (v i).1, rad i⟩ ⟨q.center, (v j).1, rad j⟩ h0 4 with
        | none => rw [n1.2 hS] at hR; cases hR
        | some S =>
          cases hT : mkSing2 ⟨p.center, (w i).1, rad i⟩ ⟨q.center, (w j).1, rad j⟩ h0 4 with
          | none => rw [n2.2 hT] at hR; cases hR
          | some T => exact ⟨R, S, T, rfl, rfl, rfl, singComb_of _ _ _ _ _ _ _ _ _ _ _ _ R S T hR hS hT⟩

theorem pairAt2_comb (parts : List (Part 2 A)) (rad : ℕ → ℝ) (h : Pos 2 ℝ) (a b : ℝ) (v w : ℕ → Pos 2 ℝ × A) (i j : ℕ) :
    OptComb a b (pairAt2 (setVelocities parts (a • v + b • w)) rad h i j) (pairAt2 (setVelocities parts v) rad h i j)
      (pairAt2 (setVelocities parts w) rad h i j) := by
  unfold pairAt2
  simp only [setVelocities_get]
  cases hi : parts[i]? with
  | none => trivial
  | some p =>
    cases hj : parts[j]? with
    | none => trivial
    | some q =>
      simp only [Option.map_some]
      rcases singAt2_comb parts rad (h 0) a b v w i j with ⟨h1, h2, h3⟩ | ⟨R, S, T, h1, h2, h3, hc⟩
      · rw [h1, h2, h3]
        trivial
      · rw [h1, h2, h3]
        refine ⟨(comb_box hc h).1, (comb_box hc h).2, ?_, ?_, comb_U hc, comb_G hc, comb_P hc⟩
        · funext x
          simp only [pair2]
          rw [(comb_pos hc x).1, (comb_cutoff hc).1]
        · funext x
          simp only [pair2]
          rw [(comb_pos hc x).2, (comb_cutoff hc).2]

/-- C107 (2D, the source): the term `add_singularity_in_fluid` adds to the right-hand side is linear in the velocities of the
particles, for every number of particles and every decomposition. -/
theorem C107_source2 (L : Fin 2 → Dir) (bfg : Pos 2 ℝ → Fin N → Pos 2 ℝ) (elem : Pos 2 ℤ → Fin N → Pos 2 ℤ) (scale : ℕ)
    (h : Pos 2 ℝ) (parts : List (Part 2 A)) (rad : ℕ → ℝ) :
    IsLinearMap ℝ fun v : ℕ → Pos 2 ℝ × A =>
      addInFluid L bfg elem scale h (singPairs2 (setVelocities parts v) rad h) 0 := by
  refine isLinear_of _ fun a b v w => ?_
  unfold addInFluid
  refine localToGlobalAdd_comb L a b _ _ _ _ _ _ (fun r => ?_) (by simp)
  unfold singPairs2
  rw [setVelocities_length, setVelocities_length, setVelocities_length]
  exact pairsLoop_comb _ _ _ _ a b (fun ij _ => pairAt2_comb parts rad h a b v w ij.1 ij.2) scale h _ bfg elem _

/-- C107 (2D, the forces). -/
theorem C107_force2 (parts : List (Part 2 A)) (rad : ℕ → ℝ) (h0 : ℝ) :
    IsLinearMap ℝ fun v : ℕ → Pos 2 ℝ × A => singularForces2 (setVelocities parts v) rad h0 := by
  refine isLinear_of _ fun a b v w => ?_
  funext i
  refine Prod.ext ?_ (by simp [singularForces2])
  simp only [singularForces2, singForces, setVelocities_length, Pi.add_apply, Pi.smul_apply, Prod.fst_add, Prod.smul_fst]
  cases pairLoop parts.length with
  | none => simp
  | some l =>
    simp only [Option.map_some, Option.getD_some]
    refine congrFun (β := fun _ => Pos 2 ℝ) (f := List.foldl _ _ l)
      (g := (a • (List.foldl _ _ l : ℕ → Pos 2 ℝ) + b • (List.foldl _ _ l : ℕ → Pos 2 ℝ))) ?_ i
    refine foldl_rel (fun s t u : ℕ → Pos 2 ℝ => s = a • t + b • u) l _ _ _ ?_ _ _ _ (by funext i; simp)
    · rintro _ t u ⟨k, m⟩ - rfl
      dsimp only
      rcases singAt2_comb parts rad h0 a b v w k m with ⟨h1, h2, h3⟩ | ⟨R, S, T, h1, h2, h3, hc⟩
      · rw [h1, h2, h3]
        rfl
      · rw [h1, h2, h3]
        simp only [Option.map_some]
        rw [comb_force hc]
        have up : ∀ (f g : ℕ → Pos 2 ℝ) (n : ℕ) (x y : Pos 2 ℝ), Function.update (a • f + b • g) n
            (vecSubVec ((a • f + b • g) n) (a • x + b • y)) = a • Function.update f n (vecSubVec (f n) x) +
              b • Function.update g n (vecSubVec (g n) y) := by
          intro f g n x y
          funext i c
          by_cases hin : i = n
          · subst hin
            simp only [Function.update_self, Pi.add_apply, Pi.smul_apply, smul_eq_mul, vecSubVec, compLoop_apply]
            ring
          · simp only [Function.update_of_ne hin, Pi.add_apply, Pi.smul_apply]
        rw [up, up]

/-! ### The pieces of the driver -/

theorem foldl_setVel {σ : Type*} (parts : List (Part d A)) (v : ℕ → Pos d ℝ × A) (g : σ → Part d A → σ)
    (hg : ∀ s (p : Part d A) x y, g s { p with velocity := x, omega := y } = g s p) (s : σ) :
    (setVelocities parts v).foldl g s = parts.foldl g s := by
  unfold setVelocities
  rw [List.foldl_map]
  simp only [hg]
  have : ∀ (l : List (Part d A)) (n : ℕ) (s : σ), (l.zipIdx n).foldl (fun s x => g s x.1) s = l.foldl g s := by
    intro l
    induction l with
    | nil => intro n s; rfl
    | cons p l ih => intro n s; rw [List.zipIdx_cons, List.foldl_cons, List.foldl_cons, ih]
  exact this parts 0 s

theorem map_setVel {β : Type*} (parts : List (Part d A)) (v : ℕ → Pos d ℝ × A) (g : Part d A × ℕ → β)
    (hg : ∀ (p : Part d A) x y i, g ({ p with velocity := x, omega := y }, i) = g (p, i)) :
    (setVelocities parts v).zipIdx.map g = parts.zipIdx.map g := by
  apply List.ext_getElem?
  intro i
  rw [List.getElem?_map, List.getElem?_map, List.getElem?_zipIdx, List.getElem?_zipIdx, setVelocities_get]
  cases parts[i]? with
  | none => rfl
  | some p => simp [hg]

theorem zipIdx_setVel (parts : List (Part d A)) (v : ℕ → Pos d ℝ × A) :
    (setVelocities parts v).zipIdx =
      parts.zipIdx.map fun p => ({ p.1 with velocity := (v p.2).1, omega := (v p.2).2 }, p.2) := by
  apply List.ext_getElem?
  intro i
  rw [List.getElem?_map, List.getElem?_zipIdx, List.getElem?_zipIdx, setVelocities_get]
  cases parts[i]? with
  | none => rfl
  | some p => simp

theorem moving_get (D : Setup 2 N A) (rad : ℕ → ℝ) (v : ℕ → Pos 2 ℝ × A) (i : ℕ) :
    (D.moving rad v).parts[i]? = (D.parts[i]?).map fun p => { p with velocity := (v i).1, omega := (v i).2 } :=
  setVelocities_get D.parts v i

theorem moving_data (D : Setup 2 N A) (rad : ℕ → ℝ) (v : ℕ → Pos 2 ℝ × A) (i : ℕ) (r : Fin 2 → ℕ) :
    (D.moving rad v).data i r = D.data i r := by
  unfold Setup.data
  rw [moving_get]
  cases D.parts[i]? with
  | none => rfl
  | some p => rfl

theorem moving_control (D : Setup 2 N A) (v : ℕ → Pos 2 ℝ × A) (x : (Fin 2 → ℕ) → ℕ → ℝ) (f : Bool) :
    controlField D.fluid D.L D.rs D.h x f (setVelocities D.parts v) = controlField D.fluid D.L D.rs D.h x f D.parts := by
  unfold controlField Particle.setRhsImpl
  congr 1
  funext u r
  congr 1
  exact foldl_setVel D.parts v _ (fun _ _ _ _ => rfl) _

/-- C107 (the pieces): the pieces of NtoD for the velocities `v` are those of DtoN for particles that have these velocities. -/
theorem C107_at (D : Setup 2 N A) (rad : ℕ → ℝ) (v : ℕ → Pos 2 ℝ × A) (solve) :
    (D.ntodPieces2 rad solve).at v = (D.moving rad v).pieces solve := by
  have h1 : (D.moving rad v).interp = D.interp := by
    funext u r i k
    unfold Setup.interp
    rw [moving_data]
    rfl
  have h2 : (D.moving rad v).sl = D.sl := by
    funext g
    unfold Setup.sl
    show slToRhs D.L D.bf D.elem _ = slToRhs D.L D.bf D.elem _
    congr 1
    funext r
    simp only [moving_data]
    exact map_setVel D.parts v _ (fun _ _ _ _ => rfl)
  have h3 : (D.moving rad v).y = D.y := by
    funext u r
    unfold Setup.y computeY
    exact congrArg Prod.snd (foldl_setVel D.parts v _ (fun _ _ _ _ => rfl) _)
  have h4 : (D.moving rad v).layer = D.layer := by
    funext g r i k
    unfold Setup.layer
    simp only [moving_data]
    rw [moving_get]
    cases D.parts[i]? with
    | none => rfl
    | some p => rfl
  have h5 : (D.moving rad v).yMean = D.yMean := by
    funext u r
    unfold Setup.yMean computeYMean
    simp only [moving_data]
    have hz : (D.moving rad v).parts.zipIdx =
      D.parts.zipIdx.map fun p => ({ p.1 with velocity := (v p.2).1, omega := (v p.2).2 }, p.2) := zipIdx_setVel D.parts v
    rw [hz, List.map_map, List.foldl_map, List.foldl_map]
    rfl
  have h6 : ∀ x f, controlField D.fluid D.L D.rs D.h x f (D.moving rad v).parts = controlField D.fluid D.L D.rs D.h x f D.parts :=
    fun x f => moving_control D v x f
  have h7 : ∀ x f, (D.moving rad v).mass (controlField (D.moving rad v).fluid (D.moving rad v).L (D.moving rad v).rs
      (D.moving rad v).h x f (D.moving rad v).parts) = D.mass (controlField D.fluid D.L D.rs D.h x f D.parts) :=
    fun x f => congrArg D.mass (h6 x f)
  unfold NtodPieces.at Setup.ntodPieces2 Setup.pieces
  dsimp only
  rw [h1, h2, h3, h4, h5]
  simp only [h7]
  rfl

/-- The relation between the states of three loops over the control. -/
theorem forceLoop_comb (S : Spin d A) (hS : SpinLaws S) (h : Pos d ℝ) (a b : ℝ) (x y : ℕ → ℝ) (center : Pos d ℝ)
    (nodes : List (Pos d ℤ)) (n : ℕ) (t u : Pos d ℝ × A) :
    let s1 := forceLoop S h (fun n => a * x n + b * y n) center nodes (n, a • t + b • u)
    let s2 := forceLoop S h x center nodes (n, t)
    let s3 := forceLoop S h y center nodes (n, u)
    s1.1 = s2.1 ∧ s1.1 = s3.1 ∧ s1.2 = a • s2.2 + b • s3.2 := by
  unfold forceLoop
  refine foldl_rel (fun s t u : ℕ × Pos d ℝ × A => s.1 = t.1 ∧ s.1 = u.1 ∧ s.2 = a • t.2 + b • u.2) nodes _ _ _ ?_ _ _ _
    ⟨rfl, rfl, rfl⟩
  rintro ⟨s1, s2⟩ ⟨t1, t2, t3⟩ ⟨u1, u2, u3⟩ ind - ⟨h1, h2, h3⟩
  dsimp only at h1 h2 h3 ⊢
  subst h1 h2 h3
  have := foldl_rel (fun s t u : ℕ × Pos d ℝ × Pos d ℝ => s.1 = t.1 ∧ s.1 = u.1 ∧ s.2 = a • t.2 + b • u.2) (List.finRange d)
    (fun t c => (t.1 + 1, Function.update t.2.1 c (t.2.1 c + (a * x t.1 + b * y t.1)), Function.update t.2.2 c (a * x t.1 + b * y t.1)))
    (fun t c => (t.1 + 1, Function.update t.2.1 c (t.2.1 c + x t.1), Function.update t.2.2 c (x t.1)))
    (fun t c => (t.1 + 1, Function.update t.2.1 c (t.2.1 c + y t.1), Function.update t.2.2 c (y t.1)))
    (by
      rintro ⟨s1, s2⟩ ⟨t1, t2, t3⟩ ⟨u1, u2, u3⟩ c - ⟨h1, h2, h3⟩
      dsimp only at h1 h2 h3 ⊢
      subst h1 h2 h3
      refine ⟨rfl, rfl, Prod.ext ?_ ?_⟩
      · funext e
        by_cases he : e = c
        · subst he
          simp only [Function.update_self, Prod.fst_add, Prod.smul_fst, Pi.add_apply, Pi.smul_apply, smul_eq_mul]
          ring
        · simp only [Function.update_of_ne he, Prod.fst_add, Prod.smul_fst, Pi.add_apply, Pi.smul_apply, smul_eq_mul]
      · funext e
        by_cases he : e = c
        · subst he
          simp only [Function.update_self, Prod.snd_add, Prod.smul_snd, Pi.add_apply, Pi.smul_apply, smul_eq_mul]
        · simp only [Function.update_of_ne he, Prod.snd_add, Prod.smul_snd, Pi.add_apply, Pi.smul_apply, smul_eq_mul])
    (s1, a • t2 + b • u2, fun _ => 0) (s1, t2, fun _ => 0) (s1, u2, fun _ => 0)
    ⟨rfl, rfl, Prod.ext rfl (by funext e; simp)⟩
  obtain ⟨g1, g2, g3⟩ := this
  have g5 := congrArg Prod.fst g3
  refine ⟨g1, g2, Prod.ext g5 ?_⟩
  have g4 := congrArg Prod.snd g3
  simp only [Prod.snd_add, Prod.smul_snd] at g4 ⊢
  refine (congrArg (fun z => _ + S.cross _ z) g4).trans ?_
  rw [hS.add_right, hS.smul_right, hS.smul_right, smul_add, smul_add]
  abel

theorem force_linear (D : Setup d N A) (hS : SpinLaws D.S) : IsLinearMap ℝ D.newForces := by
  refine isLinear_of _ fun a b x y => ?_
  have key : ∀ (parts : List (Part d A × ℕ)) (box : Box d ℤ) (x y : ℕ → ℝ) (i : ℕ),
      (localForces D.S D.fluid box D.h (fun n => a * x n + b * y n) parts).2.getD i 0 =
        a • (localForces D.S D.fluid box D.h x parts).2.getD i 0 +
        b • (localForces D.S D.fluid box D.h y parts).2.getD i 0 := by
    intro parts box x y i
    have := foldl_rel (fun s t u : ℕ × List (Pos d ℝ × A) => s.1 = t.1 ∧ s.1 = u.1 ∧ s.2.length = t.2.length ∧
        s.2.length = u.2.length ∧ ∀ i, s.2.getD i 0 = a • t.2.getD i 0 + b • u.2.getD i 0) parts
      (fun s q => ((forceLoop D.S D.h (fun n => a * x n + b * y n) q.1.center (partNodes D.fluid Box.overlap box D.h q.1)
          (s.1, fun _ => 0, 0)).1, s.2 ++ [(vecMulScal (forceLoop D.S D.h (fun n => a * x n + b * y n) q.1.center
            (partNodes D.fluid Box.overlap box D.h q.1) (s.1, fun _ => 0, 0)).2.1 (q.1.volume / (q.2 : ℝ)),
          (q.1.volume / (q.2 : ℝ)) • (forceLoop D.S D.h (fun n => a * x n + b * y n) q.1.center
            (partNodes D.fluid Box.overlap box D.h q.1) (s.1, fun _ => 0, 0)).2.2)]))
      (fun s q => ((forceLoop D.S D.h x q.1.center (partNodes D.fluid Box.overlap box D.h q.1)
          (s.1, fun _ => 0, 0)).1, s.2 ++ [(vecMulScal (forceLoop D.S D.h x q.1.center
            (partNodes D.fluid Box.overlap box D.h q.1) (s.1, fun _ => 0, 0)).2.1 (q.1.volume / (q.2 : ℝ)),
          (q.1.volume / (q.2 : ℝ)) • (forceLoop D.S D.h x q.1.center
            (partNodes D.fluid Box.overlap box D.h q.1) (s.1, fun _ => 0, 0)).2.2)]))
      (fun s q => ((forceLoop D.S D.h y q.1.center (partNodes D.fluid Box.overlap box D.h q.1)
          (s.1, fun _ => 0, 0)).1, s.2 ++ [(vecMulScal (forceLoop D.S D.h y q.1.center
            (partNodes D.fluid Box.overlap box D.h q.1) (s.1, fun _ => 0, 0)).2.1 (q.1.volume / (q.2 : ℝ)),
          (q.1.volume / (q.2 : ℝ)) • (forceLoop D.S D.h y q.1.center
            (partNodes D.fluid Box.overlap box D.h q.1) (s.1, fun _ => 0, 0)).2.2)]))
      ?_ (0, []) (0, []) (0, []) ⟨rfl, rfl, rfl, rfl, fun i => by simp⟩
    · exact this.2.2.2.2 i
    · rintro ⟨s1, s2⟩ ⟨t1, t2⟩ ⟨u1, u2⟩ q - ⟨h1, h2, h3, h4, h5⟩
      dsimp only at h1 h2 h3 h4 h5 ⊢
      subst h1 h2
      have hc := forceLoop_comb D.S hS D.h a b x y q.1.center (partNodes D.fluid Box.overlap box D.h q.1) s1
        (fun _ => 0, 0) (fun _ => 0, 0)
      have hz : a • ((fun _ => 0, 0) : Pos d ℝ × A) + b • ((fun _ => 0, 0) : Pos d ℝ × A) = (fun _ => 0, 0) := by
        refine Prod.ext ?_ (by simp)
        funext e
        simp
      rw [hz] at hc
      obtain ⟨g1, g2, g3⟩ := hc
      refine ⟨g1, g2, by simp [h3], by simp [h4], fun i => ?_⟩
      rcases Nat.lt_trichotomy i s2.length with hi | hi | hi
      · rw [List.getD_append _ _ _ _ hi, List.getD_append _ _ _ _ (h3 ▸ hi), List.getD_append _ _ _ _ (h4 ▸ hi)]
        exact h5 i
      · rw [List.getD_append_right _ _ _ _ (le_of_eq hi.symm), List.getD_append_right _ _ _ _ (le_of_eq (h3 ▸ hi.symm)),
          List.getD_append_right _ _ _ _ (le_of_eq (h4 ▸ hi.symm)), ← h3, ← h4, hi, Nat.sub_self]
        simp only [List.getD_cons_zero, vecMulScal_eq, g3]
        refine Prod.ext ?_ ?_
        · simp only [Prod.fst_add, Prod.smul_fst, smul_add]
          rw [smul_comm a, smul_comm b]
        · simp only [Prod.snd_add, Prod.smul_snd, smul_add]
          rw [smul_comm a, smul_comm b]
      · have e1 : ∀ (l : List (Pos d ℝ × A)) z, l.length < i → (l ++ [z]).getD i 0 = 0 := by
          intro l z hl
          rw [List.getD_eq_default]
          simp
          omega
        rw [e1 _ _ hi, e1 _ _ (h3 ▸ hi), e1 _ _ (h4 ▸ hi)]
        simp
  funext i
  have hx : ∀ r, (a • x + b • y) r = fun n => a * x r n + b * y r n := fun r => rfl
  have hf : ∀ (l : List (Pos d ℝ × A)) i, (l.map Prod.fst).getD i 0 = (l.getD i 0).1 := by
    intro l i
    simp only [List.getD_eq_getElem?_getD, List.getElem?_map]
    cases l[i]? <;> rfl
  have hs : ∀ (l : List (Pos d ℝ × A)) i, (l.map Prod.snd).getD i 0 = (l.getD i 0).2 := by
    intro l i
    simp only [List.getD_eq_getElem?_getD, List.getElem?_map]
    cases l[i]? <;> rfl
  unfold Setup.newForces
  simp only [hx, allReduce, hf, hs, key, Pi.add_apply, Pi.smul_apply]
  refine Prod.ext ?_ ?_
  · simp only [Prod.fst_add, Prod.smul_fst, Finset.sum_add_distrib, Finset.smul_sum]
  · simp only [Prod.snd_add, Prod.smul_snd, Finset.sum_add_distrib, Finset.smul_sum]

theorem rigid_linear (D : Setup 2 N A) (hA : ActLaws D.S) (rad : ℕ → ℝ) (solve) :
    IsLinearMap ℝ (D.ntodPieces2 rad solve).rigid := by
  refine isLinear_of _ fun a b v w => ?_
  funext r i k c
  show (D.moving rad (a • v + b • w)).rigidOn 0 r i k c = a * (D.moving rad v).rigidOn 0 r i k c +
    b * (D.moving rad w).rigidOn 0 r i k c
  unfold Setup.rigidOn
  rw [moving_get, moving_get, moving_get, moving_data, moving_data, moving_data]
  cases D.parts[i]? with
  | none => simp
  | some p =>
    cases (D.data i r).radial[k]? with
    | none => simp
    | some x =>
      simp only [Option.map_some, rigidMotion, velSubVec, vecSubVec, compLoop_apply]
      show _ - (D.S.act (a • (v i).2 + b • (w i).2) x c - (a * (v i).1 c + b * (w i).1 c)) =
        a * (_ - (D.S.act (v i).2 x c - (v i).1 c)) + b * (_ - (D.S.act (w i).2 x c - (w i).1 c))
      rw [hA.add_left, hA.smul_left, hA.smul_left]
      simp only [Pi.add_apply, Pi.smul_apply, smul_eq_mul, Pi.zero_apply]
      ring

/-- C107 (the laws hold): in 2D, for every mesh, decomposition, boundary conditions, set of particles and linear fluid solver,
the pieces the driver puts together meet the laws assumed in C101. -/
theorem C107_lawful2 (D : Setup 2 N A) (hL : ∀ i, (D.L i).WF) (hrs : AllProcs D.L D.rs) (hS : SpinLaws D.S)
    (hA : ActLaws D.S) (rad : ℕ → ℝ) (solve : NodeVec 2 2 ℝ × NodeVec 2 1 ℝ → NodeVec 2 2 ℝ × NodeVec 2 1 ℝ)
    (hsolve : IsLinearMap ℝ solve) :
    NtodLawful (D.ntodPieces2 rad solve) (setDirichletOnRHS D.L D.rs D.bc D.h 0, 0) where
  base := pieces_lawful D hL hrs hS hA solve hsolve
  rigid := rigid_linear D hA rad solve
  sing := prod_linear (C107_source2 D.L D.bfg D.elem D.singScale D.h D.parts rad)
  force := force_linear D hS
  singForce := C107_force2 D.parts rad (D.h 0)

/-- C107 (NtoD in 2D): for every mesh, decomposition, boundary conditions and set of particles initially at rest, with a linear
fluid solver, exact Krylov solvers and solvable systems, the velocities found by the NtoD driver are those for which the forces
and torques of the fluid, singular parts included, vanish. -/
theorem C107_ntod2 (D : Setup 2 N A) (hL : ∀ i, (D.L i).WF) (hrs : AllProcs D.L D.rs) (hS : SpinLaws D.S)
    (hA : ActLaws D.S) (rad : ℕ → ℝ) (solve : NodeVec 2 2 ℝ × NodeVec 2 1 ℝ → NodeVec 2 2 ℝ × NodeVec 2 1 ℝ)
    (hsolve : IsLinearMap ℝ solve) (K : Krylov _) (hK : LinearSolver K) (KU : KrylovU _ _) (hKU : ExactU KU)
    (hs : DtonSolvable (D.ntodPieces2 rad solve)) (addSing) (useSing : Bool) (s : NSt _ _ _ _) (hv : s.vel = 0)
    (hex : ∃ v, totalForce (D.ntodPieces2 rad solve) K v = 0) :
    totalForce (D.ntodPieces2 rad solve) K (ntodSolve (D.ntodPieces2 rad solve) K KU addSing useSing
      (ntodSetupRHS (D.ntodPieces2 rad solve) K addSing useSing s)).vel = 0 :=
  C101_rest (C107_lawful2 D hL hrs hS hA rad solve hsolve) K hK KU hKU hs addSing useSing s hv hex

end

/-- The hypotheses of `C107_lawful2` are met: the setup of Props/DtonInst (one particle in a channel, on two processes). -/
example : NtodLawful (exD.ntodPieces2 (fun _ => 1 / 4) exSolve) (setDirichletOnRHS exD.L exD.rs exD.bc exD.h 0, 0) :=
  C107_lawful2 exD exD_wf exD_procs spinLaws2 actLaws2 _ exSolve exSolve_linear

/-- A linear map has a linear solver: some linear map gives a preimage of whatever has one. -/
theorem linear_solver {C W : Type*} [AddCommGroup C] [Module ℝ C] [AddCommGroup W] [Module ℝ W] (A : C → W)
    (hA : IsLinearMap ℝ A) : ∃ g : W → C, IsLinearMap ℝ g ∧ ∀ b, (∃ x, A x = b) → A (g b) = b := by
  set f : C →ₗ[ℝ] W := hA.mk' A with hf
  obtain ⟨g, hg⟩ := f.rangeRestrict.exists_rightInverse_of_surjective (LinearMap.range_rangeRestrict f)
  obtain ⟨G, hG⟩ := LinearMap.exists_extend g
  refine ⟨G, G.isLinear, ?_⟩
  rintro b ⟨x, rfl⟩
  have h1 := LinearMap.congr_fun hG ⟨A x, ⟨x, rfl⟩⟩
  have h2 := congrArg Subtype.val (LinearMap.congr_fun hg ⟨A x, ⟨x, rfl⟩⟩)
  have h3 : A (g ⟨A x, ⟨x, rfl⟩⟩) = A x := h2
  rwa [← h1] at h3

open Classical in
/-- An exact solver that is linear in the right-hand side. -/
noncomputable def linKrylov {C W : Type*} [AddCommGroup C] [Module ℝ C] [AddCommGroup W] [Module ℝ W] (A : C → W) (b : W) :
    C × List C :=
  (if h : IsLinearMap ℝ A then (linear_solver A h).choose b else 0, [])

theorem linKrylov_exact {C W : Type*} [AddCommGroup C] [Module ℝ C] [AddCommGroup W] [Module ℝ W] (A : C → W) (b : W)
    (hA : IsLinearMap ℝ A) (hb : ∃ x, A x = b) : A (linKrylov A b).1 = b := by
  rw [linKrylov, dif_pos hA]
  exact (linear_solver A hA).choose_spec.2 b hb

theorem linKrylov_linear {C : Type*} [AddCommGroup C] [Module ℝ C] : LinearSolver (linKrylov : Krylov C) := by
  refine ⟨fun A b hA hb => linKrylov_exact A b hA hb, fun A hA => ⟨_, (linear_solver A hA).choose_spec.1, fun b _ => ?_⟩⟩
  rw [linKrylov, dif_pos hA]

theorem exD_null (f) : exSolve ((exD.pieces exSolve).setNull f) = 0 := by
  have h := exD_corner
  show (setNullDirichletOnRHS exD.L exD.rs exD.bc f.1 0 0) • exFlow = 0
  rw [(C27_null exD.L exD_wf exD.rs exD_procs exD.bc f.1 0 0), if_pos ⟨h.2, h.1⟩, zero_smul]

/-- The other hypotheses of `C107_ntod2` are met for the same problem. Its inner solver carries the boundary values inside and no
force, so the DtoN systems are trivial; see `toyN` in Props/NtodDriver for systems which are not. -/
example : let N := exD.ntodPieces2 (fun _ => 1 / 4) exSolve
    DtonSolvable N ∧ LinearSolver (linKrylov : Krylov ((Fin 2 → ℕ) → ℕ → ℝ)) ∧
    ExactU (linKrylov : KrylovU (ℕ → Pos 2 ℝ × ℝ) (ℕ → Pos 2 ℝ × ℝ)) ∧ ∃ v, totalForce N linKrylov v = 0 := by
  intro N
  have hN := C107_lawful2 exD exD_wf exD_procs spinLaws2 actLaws2 (fun _ => 1 / 4) exSolve exSolve_linear
  have hz : ∀ fl v x, (dtonMatrix (N.at v) fl x).2 = 0 := by
    intro fl v x
    show (exD.pieces exSolve).y (exSolve ((exD.pieces exSolve).setNull _)) = 0
    rw [exD_null]
    exact hN.base.y.map_zero
  have hz' : ∀ x, dtonOp N x = 0 := by
    intro x
    show (exD.pieces exSolve).y (exSolve ((exD.pieces exSolve).setNull _)) = 0
    rw [exD_null]
    exact hN.base.y.map_zero
  refine ⟨fun fl v => ⟨0, by rw [hz', hz]⟩, linKrylov_linear, fun A b hA hb => linKrylov_exact A b hA hb, 0, ?_⟩
  obtain ⟨g, hg, he⟩ := linKrylov_linear (C := (Fin 2 → ℕ) → ℕ → ℝ) |>.2 (dtonOp N) (C55_linear hN.base)
  unfold totalForce controlOf
  rw [hz, neg_zero, he 0 ⟨0, hz' 0⟩, hg.map_zero, hN.force.map_zero, hN.singForce.map_zero, add_zero]

end Cafes.Props
