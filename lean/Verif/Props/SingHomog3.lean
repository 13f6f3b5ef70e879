/-
C107 in space: the singular flow of two spheres is not additive in their velocities (C107_additive3_refuted), but it is
positively homogeneous: when all the velocities are multiplied by a positive number, so are the singular velocity, its
gradient, the singular pressure, the singular forces and the source added to the fluid.
-/
import Verif.Props.NtodInst
import Verif.Props.Closing

namespace Cafes.Props
open Cafes Cafes.Geometry Cafes.AddSing Cafes.Sing

section
variable (X : Fin 3 → ℝ) (H M a U l eps : ℝ)

theorem p3_smul : p_sing_withT_normalMvt3D X H M a U l eps = U * p_sing_withT_normalMvt3D X H M a 1 l eps := by
  unfold p_sing_withT_normalMvt3D; extract_lets; ring
theorem ur_smul : ur_sing_normalMvt3D X H M a U l eps = U * ur_sing_normalMvt3D X H M a 1 l eps := by
  unfold ur_sing_normalMvt3D; extract_lets mu t2 r z t1; rename_i t1'
  have h : t1 = U * t1' := by show U * r = U * (1 * r); ring
  rw [h]; ring
theorem uz3_smul : uz_sing_normalMvt3D X H M a U l eps = U * uz_sing_normalMvt3D X H M a 1 l eps := by
  unfold uz_sing_normalMvt3D; extract_lets; ring
theorem drur_smul : drur_sing_normalMvt3D X H M a U l eps = U * drur_sing_normalMvt3D X H M a 1 l eps := by
  unfold drur_sing_normalMvt3D; extract_lets; ring
theorem dzur_smul : dzur_sing_normalMvt3D X H M a U l eps = U * dzur_sing_normalMvt3D X H M a 1 l eps := by
  unfold dzur_sing_normalMvt3D; extract_lets; ring
theorem druz_smul : druz_sing_normalMvt3D X H M a U l eps = U * druz_sing_normalMvt3D X H M a 1 l eps := by
  unfold druz_sing_normalMvt3D; extract_lets mu z t4 r t1; rename_i t1'
  have h : t1 = U * t1' := by show r * U = U * (r * 1); ring
  rw [h]; ring
theorem dzuz3_smul : dzuz_sing_normalMvt3D X H M a U l eps = U * dzuz_sing_normalMvt3D X H M a 1 l eps := by
  unfold dzuz_sing_normalMvt3D; extract_lets; ring

theorem ux3_smul : ux_sing_normalMvt3D X H M a U l eps = U * ux_sing_normalMvt3D X H M a 1 l eps := by
  unfold ux_sing_normalMvt3D; rw [ur_smul]; extract_lets; split_ifs <;> ring
theorem uy3_smul : uy_sing_normalMvt3D X H M a U l eps = U * uy_sing_normalMvt3D X H M a 1 l eps := by
  unfold uy_sing_normalMvt3D; rw [ur_smul]; extract_lets; split_ifs <;> ring
theorem dxux3_smul : dxux_sing_normalMvt3D X H M a U l eps = U * dxux_sing_normalMvt3D X H M a 1 l eps := by
  unfold dxux_sing_normalMvt3D; rw [ur_smul, drur_smul]; extract_lets; split_ifs <;> ring
theorem dyux3_smul : dyux_sing_normalMvt3D X H M a U l eps = U * dyux_sing_normalMvt3D X H M a 1 l eps := by
  unfold dyux_sing_normalMvt3D; rw [ur_smul, drur_smul]; extract_lets; split_ifs <;> ring
theorem dzux3_smul : dzux_sing_normalMvt3D X H M a U l eps = U * dzux_sing_normalMvt3D X H M a 1 l eps := by
  unfold dzux_sing_normalMvt3D; rw [dzur_smul]; extract_lets; split_ifs <;> ring
theorem dxuy3_smul : dxuy_sing_normalMvt3D X H M a U l eps = U * dxuy_sing_normalMvt3D X H M a 1 l eps := by
  unfold dxuy_sing_normalMvt3D; rw [ur_smul, drur_smul]; extract_lets; split_ifs <;> ring
theorem dyuy3_smul : dyuy_sing_normalMvt3D X H M a U l eps = U * dyuy_sing_normalMvt3D X H M a 1 l eps := by
  unfold dyuy_sing_normalMvt3D; rw [ur_smul, drur_smul]; extract_lets; split_ifs <;> ring
theorem dzuy3_smul : dzuy_sing_normalMvt3D X H M a U l eps = U * dzuy_sing_normalMvt3D X H M a 1 l eps := by
  unfold dzuy_sing_normalMvt3D; rw [dzur_smul]; extract_lets; split_ifs <;> ring
theorem dxuz3_smul : dxuz_sing_normalMvt3D X H M a U l eps = U * dxuz_sing_normalMvt3D X H M a 1 l eps := by
  unfold dxuz_sing_normalMvt3D; rw [druz_smul]; extract_lets; split_ifs <;> ring
theorem dyuz3_smul : dyuz_sing_normalMvt3D X H M a U l eps = U * dyuz_sing_normalMvt3D X H M a 1 l eps := by
  unfold dyuz_sing_normalMvt3D; rw [druz_smul]; extract_lets; split_ifs <;> ring
end

/-- A field given by a factor. -/
theorem scale_of {f : ℝ → ℝ} (h : ∀ U, f U = U * f 1) (a U : ℝ) : f (a * U) = a * f U := by
  rw [h (a * U), h U, mul_assoc]

/-- Two contacts with the same geometry, the approach velocity of the first one being a multiple. -/
structure SingScale (a : ℝ) (R S : Singularity 3) : Prop where
  s : R = { S with UN := a * S.UN, UT := R.UT }

section
variable {a : ℝ} {R S : Singularity 3} (hc : SingScale a R S)
include hc

theorem scale_uRef (q : Pos 3 ℝ) : uRef3 R q = a • uRef3 S q := by
  rw [hc.s]
  funext c
  fin_cases c
  · exact scale_of (fun U => ux3_smul q _ _ _ U _ _) a S.UN
  · exact scale_of (fun U => uy3_smul q _ _ _ U _ _) a S.UN
  · exact scale_of (fun U => uz3_smul q _ _ _ U _ _) a S.UN

theorem scale_gradRef (q : Pos 3 ℝ) : gradRef3 R q = a • gradRef3 S q := by
  rw [hc.s]
  funext i j
  fin_cases i <;> fin_cases j
  · exact scale_of (fun U => dxux3_smul q _ _ _ U _ _) a S.UN
  · exact scale_of (fun U => dyux3_smul q _ _ _ U _ _) a S.UN
  · exact scale_of (fun U => dzux3_smul q _ _ _ U _ _) a S.UN
  · exact scale_of (fun U => dxuy3_smul q _ _ _ U _ _) a S.UN
  · exact scale_of (fun U => dyuy3_smul q _ _ _ U _ _) a S.UN
  · exact scale_of (fun U => dzuy3_smul q _ _ _ U _ _) a S.UN
  · exact scale_of (fun U => dxuz3_smul q _ _ _ U _ _) a S.UN
  · exact scale_of (fun U => dyuz3_smul q _ _ _ U _ _) a S.UN
  · exact scale_of (fun U => dzuz3_smul q _ _ _ U _ _) a S.UN

theorem scale_pRef (q : Pos 3 ℝ) : pRef3 R q = a * pRef3 S q := by
  rw [hc.s]
  exact scale_of (fun U => p3_smul q _ _ _ U _ _) a S.UN

theorem scale_pos (x : Pos 3 ℝ) : posInRef R x = posInRef S x := by
  rw [hc.s]; rfl

theorem scale_base : R.base = S.base := by
  rw [hc.s]

theorem scale_U (x : Pos 3 ℝ) : getU3 R x = a • getU3 S x := by
  unfold getU3
  rw [scale_pos hc, scale_base hc, scale_uRef hc]
  funext i
  simp only [toMesh_eq, Pi.smul_apply, smul_eq_mul, Finset.mul_sum]
  exact Finset.sum_congr rfl fun k _ => by ring

theorem scale_G (x : Pos 3 ℝ) : getGradU3 R x = a • getGradU3 S x := by
  unfold getGradU3
  rw [scale_pos hc, scale_base hc, scale_gradRef hc]
  funext i j
  simp only [Pi.smul_apply, smul_eq_mul, gradToMesh, List.finRange_succ, List.finRange_zero, List.foldl_cons,
    List.foldl_nil, List.map_cons, List.map_nil]
  ring

theorem scale_P (x : Pos 3 ℝ) : getP3 R x = a * getP3 S x := by
  have := scale_pRef hc (posInRef S x)
  unfold getP3
  rw [scale_pos hc]
  exact this

theorem scale_box (h : Pos 3 ℝ) : getBox3 R h = getBox3 S h := by
  rw [hc.s]; rfl

end

theorem stress3_smul (a : ℝ) (G : Fin 3 → Fin 3 → ℝ) (p : ℝ) (i j : Fin 3) :
    stress3 (a • G) (a * p) i j = a * stress3 G p i j := by
  fin_cases i <;> fin_cases j <;> simp [stress3] <;> ring

theorem update_step_smul (a : ℝ) (f : Pos 3 ℝ) (i : Fin 3) (x y : ℝ) (h : x = a * y) :
    Function.update (a • f) i ((a • f) i + x) = a • Function.update f i (f i + y) := by
  subst h
  funext c
  by_cases hci : c = i
  · subst hci
    simp only [Function.update_self, Pi.smul_apply, smul_eq_mul]
    ring
  · simp only [Function.update_of_ne hci, Pi.smul_apply]

theorem force3Step_smul (a : ℝ) (base : Fin 3 → Pos 3 ℝ) (co : ℝ) (sigma tau : Fin 3 → Fin 3 → ℝ)
    (hs : ∀ i j, tau i j = a * sigma i j) (normal : Pos 3 ℝ) (s : Pos 3 ℝ × Pos 3 ℝ) :
    force3Step base co tau normal (a • s) = a • force3Step base co sigma normal s := by
  have e1 : (List.finRange 3).foldl (fun ref d1 => (List.finRange 3).foldl (fun (ref : Pos 3 ℝ) d2 =>
        Function.update ref d1 (ref d1 + co * tau d1 d2 * normal d2)) ref) (a • s.2) =
      a • (List.finRange 3).foldl (fun ref d1 => (List.finRange 3).foldl (fun (ref : Pos 3 ℝ) d2 =>
        Function.update ref d1 (ref d1 + co * sigma d1 d2 * normal d2)) ref) s.2 := by
    refine foldl_rel (fun s t _ : Pos 3 ℝ => s = a • t) _ _ _ (fun u _ => u) ?_ _ _ 0 rfl
    rintro _ t u i - rfl
    refine foldl_rel (fun s t _ : Pos 3 ℝ => s = a • t) _ _ _ (fun u _ => u) ?_ _ _ 0 rfl
    rintro _ t u j - rfl
    exact update_step_smul a t i _ _ (by rw [hs]; ring)
  unfold force3Step
  refine Prod.ext ?_ e1
  show List.foldl _ (a • s.1) _ = a • List.foldl _ s.1 _
  refine foldl_rel (fun s t _ : Pos 3 ℝ => s = a • t) _ _ _ (fun u _ => u) ?_ _ _ 0 rfl
  rintro _ t u i - rfl
  refine foldl_rel (fun s t _ : Pos 3 ℝ => s = a • t) _ _ _ (fun u _ => u) ?_ _ _ 0 rfl
  rintro _ t u j - rfl
  refine update_step_smul a t i _ _ ?_
  have := congrFun e1 j
  simp only [Pi.smul_apply, smul_eq_mul] at this
  exact (congrArg (fun x => base j i * x) this).trans (by ring)

theorem singForce3_smul (a : ℝ) (base : Fin 3 → Pos 3 ℝ) (G G' : Pos 3 ℝ → Fin 3 → Fin 3 → ℝ) (p p' : Pos 3 ℝ → ℝ)
    (hG : ∀ q, G' q = a • G q) (hp : ∀ q, p' q = a * p q) (cutoff H contact : ℝ) (second : Bool) (N : ℕ) :
    singForce3 base G' p' cutoff H contact second N = a • singForce3 base G p cutoff H contact second N := by
  unfold singForce3
  extract_lets theta A
  refine congrArg Prod.fst (a₂ := a • List.foldl _ ((0, 0) : Pos 3 ℝ × Pos 3 ℝ) (List.range' 1 N)) ?_
  refine foldl_rel (fun s t _ : Pos 3 ℝ × Pos 3 ℝ => s = a • t) _ _ _ (fun u _ => u) ?_ _ _ 0 (by simp)
  rintro _ t u i - rfl
  refine foldl_rel (fun s t _ : Pos 3 ℝ × Pos 3 ℝ => s = a • t) _ _ _ (fun u _ => u) ?_ _ _ 0 rfl
  rintro _ t u j - rfl
  refine force3Step_smul a base _ _ _ (fun i j => ?_) _ t
  rw [hG, hp]
  exact stress3_smul a _ _ i j

/-! ### The frame -/

theorem innerProd_smul_left (a : ℝ) (x y : Pos 3 ℝ) : innerProd (fun i => a * x i) y = a * innerProd x y := by
  simp [innerProd_eq, Geometry.dot, Fin.sum_univ_three]; ring

theorem innerProd_smul_smul (a : ℝ) (x : Pos 3 ℝ) :
    innerProd (fun i => a * x i) (fun i => a * x i) = a * a * innerProd x x := by
  simp [innerProd_eq, Geometry.dot, Fin.sum_univ_three]; ring

/-- The tangent, once normalised, does not change with the size of the relative velocity. -/
theorem tangent_smul {a : ℝ} (ha : 0 < a) (n v : Pos 3 ℝ) :
    vecDivScal (rawTangent n fun i => a * v i)
      (√(innerProd (rawTangent n fun i => a * v i) (rawTangent n fun i => a * v i))) =
    vecDivScal (rawTangent n v) (√(innerProd (rawTangent n v) (rawTangent n v))) := by
  have hcond : (innerProd (fun i => a * v i) n * innerProd (fun i => a * v i) n =
      innerProd (fun i => a * v i) fun i => a * v i) ↔ innerProd v n * innerProd v n = innerProd v v := by
    rw [innerProd_smul_left, innerProd_smul_smul]
    have : a * innerProd v n * (a * innerProd v n) = a * a * (innerProd v n * innerProd v n) := by ring
    rw [this]
    exact mul_right_inj' (by positivity)
  by_cases h : innerProd v n * innerProd v n = innerProd v v
  · have e : rawTangent n (fun i => a * v i) = rawTangent n v := by
      unfold rawTangent
      rw [if_pos h, if_pos (hcond.2 h)]
    rw [e]
  · have e : rawTangent n (fun i => a * v i) = fun i => a * rawTangent n v i := by
      unfold rawTangent
      rw [if_neg h, if_neg fun h' => h (hcond.1 h')]
      funext i
      ring
    rw [e, innerProd_smul_smul]
    have hs : √(a * a * innerProd (rawTangent n v) (rawTangent n v)) =
        a * √(innerProd (rawTangent n v) (rawTangent n v)) := by
      rw [Real.sqrt_mul (by positivity), Real.sqrt_mul_self ha.le]
    rw [hs]
    funext i
    simp only [vecDivScal, compLoop_apply]
    rw [mul_div_mul_left _ _ ha.ne']

theorem singScale_of {a : ℝ} (ha : 0 < a) (c1 c2 v1 v2 : Pos 3 ℝ) (r1 r2 h alpha : ℝ) (R S : Singularity 3)
    (hR : mkSing3 ⟨c1, a • v1, r1⟩ ⟨c2, a • v2, r2⟩ h alpha = some R)
    (hS : mkSing3 ⟨c1, v1, r1⟩ ⟨c2, v2, r2⟩ h alpha = some S) : SingScale a R S := by
  unfold mkSing3 mkSing at hR hS
  have e : distance (⟨c1, a • v1, r1⟩ : Ball 3) ⟨c2, a • v2, r2⟩ = distance (⟨c1, v1, r1⟩ : Ball 3) ⟨c2, v2, r2⟩ := rfl
  have en : positionDiff (⟨c2, a • v2, r2⟩ : Ball 3) ⟨c1, a • v1, r1⟩ = positionDiff (⟨c2, v2, r2⟩ : Ball 3) ⟨c1, v1, r1⟩ := rfl
  have ev : velocityDiff (⟨c1, a • v1, r1⟩ : Ball 3) ⟨c2, a • v2, r2⟩ =
      fun i => a * velocityDiff (⟨c1, v1, r1⟩ : Ball 3) ⟨c2, v2, r2⟩ i := by
    funext i
    simp only [velocityDiff, Pi.smul_apply, smul_eq_mul]
    ring
  have hb : (constructBase3 (⟨c1, a • v1, r1⟩ : Ball 3) ⟨c2, a • v2, r2⟩).base =
      (constructBase3 (⟨c1, v1, r1⟩ : Ball 3) ⟨c2, v2, r2⟩).base := by
    unfold constructBase3
    rw [e, en, ev]
    dsimp only
    rw [tangent_smul ha]
  have hu : (constructBase3 (⟨c1, a • v1, r1⟩ : Ball 3) ⟨c2, a • v2, r2⟩).UN =
      a * (constructBase3 (⟨c1, v1, r1⟩ : Ball 3) ⟨c2, v2, r2⟩).UN := by
    unfold constructBase3
    rw [e, en, ev]
    exact innerProd_smul_left ..
  simp only [e] at hR hS
  split_ifs at hR hS
  simp only [Option.some.injEq] at hR hS
  subst hR hS
  refine ⟨?_⟩
  rw [hb, hu]

theorem mkSing3_none (c1 c2 v1 v2 w1 w2 : Pos 3 ℝ) (r1 r2 h alpha : ℝ) :
    mkSing3 ⟨c1, v1, r1⟩ ⟨c2, v2, r2⟩ h alpha = none ↔ mkSing3 ⟨c1, w1, r1⟩ ⟨c2, w2, r2⟩ h alpha = none := by
  unfold mkSing3 mkSing
  have e : distance (⟨c1, v1, r1⟩ : Ball 3) ⟨c2, v2, r2⟩ = distance (⟨c1, w1, r1⟩ : Ball 3) ⟨c2, w2, r2⟩ := rfl
  simp only [e]
  split_ifs <;> simp

/-- C107 (space, one pair): multiplying the velocities of two spheres by a positive number multiplies their singular velocity,
its gradient, the singular pressure and the two singular forces by this number, and changes neither the existence of the
singularity nor the cut-off distance nor the box. -/
theorem C107_homogeneous3 (c1 c2 v1 v2 : Pos 3 ℝ) (r1 r2 h alpha a : ℝ) (ha : 0 < a) :
    (mkSing3 ⟨c1, a • v1, r1⟩ ⟨c2, a • v2, r2⟩ h alpha = none ↔ mkSing3 ⟨c1, v1, r1⟩ ⟨c2, v2, r2⟩ h alpha = none) ∧
    ∀ R S : Singularity 3, mkSing3 ⟨c1, a • v1, r1⟩ ⟨c2, a • v2, r2⟩ h alpha = some R →
      mkSing3 ⟨c1, v1, r1⟩ ⟨c2, v2, r2⟩ h alpha = some S →
      (∀ x, getU3 R x = a • getU3 S x) ∧ (∀ x, getGradU3 R x = a • getGradU3 S x) ∧ (∀ x, getP3 R x = a * getP3 S x) ∧
      (∀ H second n, singForce3 R.base (gradRef3 R) (pRef3 R) R.cutoff H R.contact second n =
        a • singForce3 S.base (gradRef3 S) (pRef3 S) S.cutoff H S.contact second n) ∧
      R.cutoff = S.cutoff ∧ ∀ k, getBox3 R k = getBox3 S k := by
  refine ⟨mkSing3_none .., fun R S hR hS => ?_⟩
  have hc := singScale_of ha c1 c2 v1 v2 r1 r2 h alpha R S hR hS
  have e1 : R.cutoff = S.cutoff := by rw [hc.s]
  have e2 : R.contact = S.contact := by rw [hc.s]
  refine ⟨scale_U hc, scale_G hc, scale_P hc, fun H second n => ?_, e1, scale_box hc⟩
  rw [e1, e2, scale_base hc]
  exact singForce3_smul a _ _ _ _ _ (scale_gradRef hc) (scale_pRef hc) _ _ _ _ _

/-- Two spheres and the points they contain. -/
structure Couple where
  c1 : Pos 3 ℝ
  v1 : Pos 3 ℝ
  r1 : ℝ
  in1 : Pos 3 ℝ → Bool
  c2 : Pos 3 ℝ
  v2 : Pos 3 ℝ
  r2 : ℝ
  in2 : Pos 3 ℝ → Bool

/-- The singular pair of two spheres whose velocities are multiplied by `a`, when there is a singularity. -/
noncomputable def Couple.pair (a : ℝ) (h : Pos 3 ℝ) (q : Couple) : Option (Pair 3) :=
  (mkSing3 ⟨q.c1, a • q.v1, q.r1⟩ ⟨q.c2, a • q.v2, q.r2⟩ (h 0) 4).map fun S => pair3 S q.in1 q.in2 h

theorem couple_comb (a : ℝ) (ha : 0 < a) (h : Pos 3 ℝ) (q : Couple) :
    OptComb a 0 (q.pair a h) (q.pair 1 h) (q.pair 1 h) := by
  have h1 := C107_homogeneous3 q.c1 q.c2 q.v1 q.v2 q.r1 q.r2 (h 0) 4 a ha
  unfold Couple.pair
  rw [one_smul, one_smul]
  cases hS : mkSing3 ⟨q.c1, q.v1, q.r1⟩ ⟨q.c2, q.v2, q.r2⟩ (h 0) 4 with
  | none => rw [h1.1.2 hS]; trivial
  | some S =>
    cases hR : mkSing3 ⟨q.c1, a • q.v1, q.r1⟩ ⟨q.c2, a • q.v2, q.r2⟩ (h 0) 4 with
    | none => rw [h1.1.1 hR] at hS; cases hS
    | some R =>
      obtain ⟨hU, hG, hP, -, -, hB⟩ := h1.2 R S hR hS
      refine ⟨(hB h).symm, (hB h).symm, rfl, rfl, fun x => ?_, fun x => ?_, fun x => ?_⟩
      · rw [zero_smul, add_zero]; exact hU x
      · rw [zero_smul, add_zero]; exact hG x
      · rw [zero_mul, add_zero]; exact hP x

/-- C107 (space, the source): multiplying all the velocities by a positive number multiplies the singular source added to the
fluid by this number, for every list of couples, every mesh and every decomposition. -/
theorem C107_source3 {N : ℕ} (L : Fin 3 → Dir) (bfg : Pos 3 ℝ → Fin N → Pos 3 ℝ) (elem : Pos 3 ℤ → Fin N → Pos 3 ℤ)
    (scale : ℕ) (h : Pos 3 ℝ) (l : List Couple) (a : ℝ) (ha : 0 < a) :
    addInFluid L bfg elem scale h (l.filterMap (Couple.pair a h)) 0 =
      a • addInFluid L bfg elem scale h (l.filterMap (Couple.pair 1 h)) 0 := by
  have := localToGlobalAdd_comb L a 0
    (fun r => pairsLoop scale h (getDMBounds L r true) (stKernel bfg elem (coef 3 scale)) (l.filterMap (Couple.pair a h)) 0)
    (fun r => pairsLoop scale h (getDMBounds L r true) (stKernel bfg elem (coef 3 scale)) (l.filterMap (Couple.pair 1 h)) 0)
    (fun r => pairsLoop scale h (getDMBounds L r true) (stKernel bfg elem (coef 3 scale)) (l.filterMap (Couple.pair 1 h)) 0)
    0 0 0 (fun r => pairsLoop_comb l _ _ _ a 0 (fun q _ => couple_comb a ha h q) scale h _ bfg elem _) (by simp)
  rw [zero_smul, add_zero] at this
  exact this

/-- The hypotheses of `C107_homogeneous3` are met: two spheres of radius 1 at distance 23/10. -/
example : ∃ R S, mkSing3 ⟨![0, 0, 0], (3 : ℝ) • ![1, 2, 0], 1⟩ ⟨![23 / 10, 0, 0], (3 : ℝ) • ![0, 0, 1], 1⟩ (1 / 2) 4 = some R ∧
    mkSing3 ⟨![0, 0, 0], ![1, 2, 0], 1⟩ ⟨![23 / 10, 0, 0], ![0, 0, 1], 1⟩ (1 / 2) 4 = some S := by
  have hd : ∀ v w, distance (⟨![0, 0, 0], v, 1⟩ : Ball 3) ⟨![23 / 10, 0, 0], w, 1⟩ - 1 - 1 < 1 := fun v w => by
    have : distance (⟨![0, 0, 0], v, 1⟩ : Ball 3) ⟨![23 / 10, 0, 0], w, 1⟩ ≤ 23 / 10 := by
      rw [distance_eq]
      refine Real.sqrt_le_iff.2 ⟨by norm_num, ?_⟩
      norm_num [distSq, Fin.sum_univ_three, vec3_two]
    linarith
  exact ⟨_, _, if_pos (hd _ _), if_pos (hd _ _)⟩

end Cafes.Props
