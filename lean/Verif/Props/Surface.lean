/-
Property theorems for the surface fields: C49, C50, C51.
-/
import Verif.Props.Forces
import Verif.Lemmas.OperatorForm

namespace Cafes.Particle
open Cafes Cafes.Geometry Cafes.Props
variable {d : ℕ} {A : Type*}

/-! ### C49: the single layer -/

/-- `cross_product(omega, r)` is bilinear. -/
structure ActLaws [AddCommGroup A] [Module ℝ A] (S : Spin d A) : Prop where
  add_left : ∀ a b x, S.act (a + b) x = S.act a x + S.act b x
  smul_left : ∀ (c : ℝ) a x, S.act (c • a) x = c • S.act a x
  add_right : ∀ a x y, S.act a (x + y) = S.act a x + S.act a y
  smul_right : ∀ (c : ℝ) a x, S.act a (c • x) = c • S.act a x

theorem actLaws2 : ActLaws spin2 where
  add_left a b x := by funext i; fin_cases i <;> simp [spin2, crossZ] <;> ring
  smul_left c a x := by funext i; fin_cases i <;> simp [spin2, crossZ] <;> ring
  add_right a x y := by funext i; fin_cases i <;> simp [spin2, crossZ] <;> ring
  smul_right c a x := by funext i; fin_cases i <;> simp [spin2, crossZ] <;> ring

theorem actLaws3 : ActLaws spin3 where
  add_left := spinLaws3.add_left
  smul_left c a x := by
    have a0 : spin3.act (c • a) x 0 = (c • spin3.act a x) 0 := by simp [spin3, cross3]; ring
    have a1 : spin3.act (c • a) x 1 = (c • spin3.act a x) 1 := by simp [spin3, cross3]; ring
    have a2 : spin3.act (c • a) x 2 = (c • spin3.act a x) 2 := by simp [spin3, cross3]; ring
    funext i; fin_cases i
    exacts [a0, a1, a2]
  add_right := spinLaws3.add_right
  smul_right := spinLaws3.smul_right

section
variable [AddCommGroup A] [Module ℝ A] {S : Spin d A}

theorem cross_zero (hS : SpinLaws S) (x : Pos d ℝ) : S.cross x 0 = 0 := by
  have := hS.smul_right 0 x 0
  simpa using this

theorem act_zero (hA : ActLaws S) (a : A) : S.act a 0 = 0 := by
  have := hA.smul_right 0 a 0
  simpa using this

theorem zero_act (hA : ActLaws S) (x : Pos d ℝ) : S.act 0 x = 0 := by
  have := hA.smul_left 0 0 x
  simpa using this

theorem cross_zero_left (hS : SpinLaws S) (x : Pos d ℝ) : S.cross 0 x = 0 := by
  have := hS.add_left 0 0 x
  simpa using this

theorem cross_neg (hS : SpinLaws S) (x y : Pos d ℝ) : S.cross x (-y) = -S.cross x y := by
  have := hS.smul_right (-1) x y
  simpa using this

theorem sum_act {α : Type*} (hA : ActLaws S) (a : A) (f : α → Pos d ℝ) (l : List α) :
    (l.map fun x => S.act a (f x)).sum = S.act a (l.map f).sum := by
  induction l with
  | nil => simp [act_zero hA]
  | cons x l ih => simp only [List.map_cons, List.sum_cons, ih, hA.add_right]

theorem sum_cross_left {α : Type*} (hS : SpinLaws S) (y : Pos d ℝ) (f : α → Pos d ℝ) (l : List α) :
    (l.map fun x => S.cross (f x) y).sum = S.cross (l.map f).sum y := by
  induction l with
  | nil => simp [cross_zero_left hS]
  | cons x l ih => simp only [List.map_cons, List.sum_cons, ih, hS.add_left]

theorem sum_map_add' {α M : Type*} [AddCommMonoid M] (f g : α → M) (l : List α) :
    (l.map fun x => f x + g x).sum = (l.map f).sum + (l.map g).sum := by
  induction l with
  | nil => simp
  | cons x l ih => simp only [List.map_cons, List.sum_cons, ih]; abel

theorem sum_map_neg' {α M : Type*} [AddCommGroup M] (f : α → M) (l : List α) :
    (l.map fun x => -f x).sum = -(l.map f).sum := by
  induction l with
  | nil => simp
  | cons x l ih => simp only [List.map_cons, List.sum_cons, ih]; abel

theorem foldl_sum {α M : Type*} [AddCommMonoid M] (f : α → M) (l : List α) (m : M) :
    l.foldl (fun m x => m + f x) m = m + (l.map f).sum := by
  induction l generalizing m with
  | nil => simp
  | cons x l ih => rw [List.foldl_cons, ih, List.map_cons, List.sum_cons, add_assoc]

theorem sum_flatten {α M : Type*} [AddCommMonoid M] (f : α → M) (ll : List (List α)) :
    (ll.map fun l => (l.map f).sum).sum = (ll.flatten.map f).sum := by
  induction ll with
  | nil => simp
  | cons l ll ih => simp [ih]

/-- `simple_layer` in vector form: `all` is the list of the pairs `(g, r)` of all the processes. -/
theorem simpleLayer_eq (cdR : ℝ) (nb : ℕ) (data : List (List (Pos d ℝ × Pos d ℝ))) :
    simpleLayer S cdR nb data =
      ((nb : ℝ)⁻¹ • (data.flatten.map Prod.fst).sum,
       (cdR / nb) • (data.flatten.map fun x => S.cross x.2 x.1).sum,
       data.map fun l => l.map fun x => x.1 - ((nb : ℝ)⁻¹ • (data.flatten.map Prod.fst).sum +
         S.act ((cdR / nb) • (data.flatten.map fun x => S.cross x.2 x.1).sum) x.2)) := by
  have h1 : (data.map fun l => l.foldl (fun m x => vecAddVec m x.1) (fun _ => (0 : ℝ))).sum =
      (data.flatten.map Prod.fst).sum := by
    rw [← sum_flatten]
    congr 1
    apply List.map_congr_left
    intro l _
    have : (fun (m : Pos d ℝ) (x : Pos d ℝ × Pos d ℝ) => vecAddVec m x.1) = fun m x => m + x.1 := by
      funext m x
      simp only [vecAddVec, compLoop_eq]; rfl
    rw [this, foldl_sum]
    exact zero_add _
  have h2 : (data.map fun l => l.foldl (fun m (x : Pos d ℝ × Pos d ℝ) => m + S.cross x.2 x.1) 0).sum =
      (data.flatten.map fun x => S.cross x.2 x.1).sum := by
    rw [← sum_flatten]
    congr 1
    apply List.map_congr_left
    intro l _
    rw [foldl_sum]
    exact zero_add _
  have h3 : ∀ m : Pos d ℝ, vecDivScal m (nb : ℝ) = (nb : ℝ)⁻¹ • m := by
    intro m
    funext i
    simp only [vecDivScal, compLoop_apply, Pi.smul_apply, smul_eq_mul]
    rw [div_eq_inv_mul]
  have h4 : ∀ a b : Pos d ℝ, vecSubVec a b = a - b := by
    intro a b; funext i; simp [vecSubVec, compLoop_apply]
  have h5 : ∀ a b : Pos d ℝ, vecAddVec a b = a + b := by
    intro a b; funext i; simp [vecAddVec, compLoop_apply]
  unfold simpleLayer
  simp only [h5] at h1
  simp only [h2, h3, h4, h5, h1]

/-- The points of a particle are balanced: their barycentre is the centre, and the inertia of the points is
`nb / cdR` times the identity (`cdR` is the coefficient `Cd_R()` of the particle). -/
structure Balanced (S : Spin d A) (cdR : ℝ) (rs : List (Pos d ℝ)) : Prop where
  bary : rs.sum = 0
  inertia : ∀ w : A, (cdR / rs.length) • (rs.map fun r => S.cross r (S.act w r)).sum = w

variable {cdR : ℝ} {data : List (List (Pos d ℝ × Pos d ℝ))}

theorem nat_smul_inv {n : ℕ} (hn : 0 < n) (x : Pos d ℝ) : n • ((n : ℝ)⁻¹ • x) = x := by
  have : (n : ℝ) ≠ 0 := by exact_mod_cast hn.ne'
  rw [← Nat.cast_smul_eq_nsmul ℝ, smul_smul, mul_inv_cancel₀ this, one_smul]

/-- C49 (zero mean and zero moment): on balanced surface points, for any surface field and any distribution
of the points over the processes, the field returned by `simple_layer` has zero sum and zero moment. -/
theorem C49_equilibrated (hS : SpinLaws S) (hA : ActLaws S) (hne : data.flatten ≠ [])
    (hb : Balanced S cdR (data.flatten.map Prod.snd)) :
    let out := (simpleLayer S cdR data.flatten.length data).2.2.flatten
    out.sum = 0 ∧ (List.zipWith S.cross (data.flatten.map Prod.snd) out).sum = 0 := by
  intro out
  set all := data.flatten with hall
  have hn : 0 < all.length := List.length_pos_iff.2 hne
  set m := (all.length : ℝ)⁻¹ • (all.map Prod.fst).sum with hm
  set w := (cdR / all.length) • (all.map fun x => S.cross x.2 x.1).sum with hw
  have hout : out = all.map fun x => x.1 - (m + S.act w x.2) := by
    show (simpleLayer S cdR all.length data).2.2.flatten = _
    rw [simpleLayer_eq]
    simp only [← hall]
    rw [← List.map_flatten]
  have e1 : ∀ x : Pos d ℝ × Pos d ℝ, x.1 - (m + S.act w x.2) = x.1 + (-m + -S.act w x.2) := fun x => by abel
  have hc : ∀ (a : Pos d ℝ) (l : List (Pos d ℝ × Pos d ℝ)), (l.map fun _ => a).sum = l.length • a := by
    intro a l; rw [List.map_const', List.sum_replicate]
  constructor
  · rw [hout]
    simp only [e1]
    rw [sum_map_add', sum_map_add', hc, sum_map_neg', sum_act hA w Prod.snd all, hb.bary, act_zero hA,
      smul_neg, hm, nat_smul_inv hn]
    abel
  · rw [hout, List.zipWith_map_left, List.zipWith_map_right, List.zipWith_self]
    have e2 : ∀ x : Pos d ℝ × Pos d ℝ, S.cross x.2 (x.1 - (m + S.act w x.2)) =
        S.cross x.2 x.1 + (-S.cross x.2 m + -S.cross x.2 (S.act w x.2)) := by
      intro x
      rw [e1, hS.add_right, hS.add_right, cross_neg hS, cross_neg hS]
    simp only [e2]
    rw [sum_map_add', sum_map_add', sum_map_neg', sum_map_neg', sum_cross_left hS m Prod.snd all, hb.bary,
      cross_zero_left hS, neg_zero, zero_add]
    by_cases hcd : cdR = 0
    · have hz : ∀ v : A, v = 0 := by
        intro v
        have := hb.inertia v
        rw [hcd, zero_div, zero_smul] at this
        exact this.symm
      exact hz _
    · have hk : cdR / (all.length : ℝ) ≠ 0 := div_ne_zero hcd (by exact_mod_cast hn.ne')
      have hi := hb.inertia w
      rw [List.length_map, List.map_map] at hi
      have hi' : (cdR / all.length) • (all.map fun x => S.cross x.2 (S.act w x.2)).sum = w := hi
      have : (all.map fun x => S.cross x.2 (S.act w x.2)).sum = (all.map fun x => S.cross x.2 x.1).sum := by
        have h2 := hi'.trans hw
        exact smul_right_injective A hk h2
      rw [this, add_neg_cancel]

/-- C49 (rigid fields): on balanced surface points a rigid velocity `V + w x r` is annihilated; in
particular the constants are. -/
theorem C49_rigid (hS : SpinLaws S) (hA : ActLaws S) (hne : data.flatten ≠ [])
    (hb : Balanced S cdR (data.flatten.map Prod.snd)) (V : Pos d ℝ) (w : A)
    (hg : ∀ x ∈ data.flatten, x.1 = V + S.act w x.2) :
    (simpleLayer S cdR data.flatten.length data).1 = V ∧
    (simpleLayer S cdR data.flatten.length data).2.1 = w ∧
    ∀ g ∈ (simpleLayer S cdR data.flatten.length data).2.2.flatten, g = 0 := by
  rw [simpleLayer_eq]
  set all := data.flatten with hall
  have hn : 0 < all.length := List.length_pos_iff.2 hne
  have hn' : (all.length : ℝ) ≠ 0 := by exact_mod_cast hn.ne'
  have hc : (all.map fun _ => V).sum = all.length • V := by
    rw [List.map_const', List.sum_replicate]
  have h1 : (all.length : ℝ)⁻¹ • (all.map Prod.fst).sum = V := by
    rw [List.map_congr_left (g := fun x => V + S.act w x.2) hg, sum_map_add', hc,
      sum_act hA w Prod.snd, hb.bary, act_zero hA, add_zero, ← Nat.cast_smul_eq_nsmul ℝ, smul_smul,
      inv_mul_cancel₀ hn', one_smul]
  have h2 : (cdR / all.length) • (all.map fun x => S.cross x.2 x.1).sum = w := by
    have : (all.map fun x => S.cross x.2 x.1) =
        all.map fun x => S.cross x.2 V + S.cross x.2 (S.act w x.2) := by
      apply List.map_congr_left
      intro x hx
      rw [hg x hx, hS.add_right]
    rw [this, sum_map_add', sum_cross_left hS V Prod.snd all, hb.bary, cross_zero_left hS, zero_add]
    have hi := hb.inertia w
    rw [List.length_map, List.map_map] at hi
    exact hi
  simp only [h1, h2]
  refine ⟨trivial, trivial, fun g hgm => ?_⟩
  rw [← List.map_flatten, List.mem_map] at hgm
  obtain ⟨x, hx, rfl⟩ := hgm
  rw [hg x hx, sub_self]

/-- C49 (projection): a second application changes nothing. -/
theorem C49_idempotent (hS : SpinLaws S) (hA : ActLaws S) (hne : data.flatten ≠ [])
    (hb : Balanced S cdR (data.flatten.map Prod.snd)) :
    let out := (simpleLayer S cdR data.flatten.length data).2.2
    let again := List.zipWith (fun gs l => List.zipWith (fun g x => (g, x.2)) gs l) out data
    (simpleLayer S cdR data.flatten.length again).2.2 = out := by
  intro out again
  have hE := C49_equilibrated hS hA hne hb
  have hout : out = data.map fun l => l.map fun x => x.1 -
      ((data.flatten.length : ℝ)⁻¹ • (data.flatten.map Prod.fst).sum +
        S.act ((cdR / data.flatten.length) • (data.flatten.map fun x => S.cross x.2 x.1).sum) x.2) := by
    show (simpleLayer S cdR data.flatten.length data).2.2 = _
    rw [simpleLayer_eq]
  set f : Pos d ℝ × Pos d ℝ → Pos d ℝ := fun x => x.1 -
      ((data.flatten.length : ℝ)⁻¹ • (data.flatten.map Prod.fst).sum +
        S.act ((cdR / data.flatten.length) • (data.flatten.map fun x => S.cross x.2 x.1).sum) x.2) with hf
  have hag : again = data.map fun l => l.map fun x => (f x, x.2) := by
    show List.zipWith (fun gs l => List.zipWith (fun g x => (g, x.2)) gs l) out data = _
    rw [hout, List.zipWith_map_left, List.zipWith_self]
    apply List.map_congr_left
    intro l _
    rw [List.zipWith_map_left, List.zipWith_self]
  have hflat : again.flatten = data.flatten.map fun x => (f x, x.2) := by rw [hag, ← List.map_flatten]
  have e1 : (again.flatten.map Prod.fst).sum = 0 := by
    have := hE.1
    rw [show (simpleLayer S cdR data.flatten.length data).2.2 = out from rfl, hout, ← List.map_flatten] at this
    rw [hflat, List.map_map]
    exact this
  have e2 : (again.flatten.map fun x => S.cross x.2 x.1).sum = 0 := by
    have := hE.2
    rw [show (simpleLayer S cdR data.flatten.length data).2.2 = out from rfl, hout, ← List.map_flatten,
      List.zipWith_map_left, List.zipWith_map_right, List.zipWith_self] at this
    rw [hflat, List.map_map]
    exact this
  rw [simpleLayer_eq, e1, e2]
  simp only [smul_zero, zero_act hA, add_zero, sub_zero]
  rw [hag, List.map_map, hout]
  apply List.map_congr_left
  intro l _
  show List.map (fun x => x.1) (l.map fun x => (f x, x.2)) = _
  rw [List.map_map]
  rfl

end

/-- In the plane, points at distance `R` of the centre with barycentre the centre are balanced for
`Cd_R = 1/R^2` (the coefficient of `circle`, cafes/particle/geometry/circle.hpp:66-69). -/
theorem balanced_circle (R : ℝ) (hR : 0 < R) (rs : List (Pos 2 ℝ)) (hne : rs ≠ []) (hsum : rs.sum = 0)
    (hn : ∀ r ∈ rs, r 0 ^ 2 + r 1 ^ 2 = R ^ 2) : Balanced spin2 (1 / (R * R)) rs := by
  refine ⟨hsum, fun w => ?_⟩
  have h1 : (rs.map fun r => spin2.cross r (spin2.act w r)) = rs.map fun _ => R ^ 2 * w := by
    apply List.map_congr_left
    intro r hr
    simp only [spin2, cross2, crossZ, Matrix.cons_val_zero, Matrix.cons_val_one]
    rw [← hn r hr]
    ring
  rw [h1, List.map_const', List.sum_replicate]
  have : (rs.length : ℝ) ≠ 0 := by
    have := List.length_pos_iff.2 hne
    exact_mod_cast this.ne'
  simp only [nsmul_eq_mul, smul_eq_mul]
  field_simp

/-- In space, points at distance `R` of the centre, with barycentre the centre and isotropic second moments,
are balanced for `Cd_R = 1.5/R^2` (the coefficient of `sphere`, sphere.hpp). -/
theorem balanced_sphere (R : ℝ) (hR : 0 < R) (rs : List (Pos 3 ℝ)) (hne : rs ≠ []) (hsum : rs.sum = 0)
    (hiso : ∀ i j, (rs.map fun r => r i * r j).sum = if i = j then rs.length * R ^ 2 / 3 else 0) :
    Balanced spin3 (1.5 / (R * R)) rs := by
  refine ⟨hsum, fun w => ?_⟩
  have hl : (rs.length : ℝ) ≠ 0 := by
    have := List.length_pos_iff.2 hne
    exact_mod_cast this.ne'
  have hs : ∀ i : Fin 3, (rs.map fun r => spin3.cross r (spin3.act w r)).sum i =
      (rs.map fun r => spin3.cross r (spin3.act w r) i).sum := by
    intro i
    induction rs with
    | nil => rfl
    | cons a l ih =>
      clear hne hsum hiso hl
      simp only [List.map_cons, List.sum_cons, Pi.add_apply]
      congr 1
      clear ih
      induction l with
      | nil => rfl
      | cons a l ih => simp only [List.map_cons, List.sum_cons, Pi.add_apply, ih]
  have hlin : ∀ (a b c e : ℝ) (f1 f2 f3 f4 : Pos 3 ℝ → ℝ), (rs.map fun r => a * f1 r + b * f2 r + c * f3 r + e * f4 r).sum =
      a * (rs.map f1).sum + b * (rs.map f2).sum + c * (rs.map f3).sum + e * (rs.map f4).sum := by
    intro a b c e f1 f2 f3 f4
    clear hne hsum hiso hl hs
    induction rs with
    | nil => simp
    | cons x l ih => simp only [List.map_cons, List.sum_cons, ih]; ring
  have a0 : (rs.map fun r => spin3.cross r (spin3.act w r) 0).sum = 2 / 3 * rs.length * R ^ 2 * w 0 := by
    have e : ∀ r : Pos 3 ℝ, spin3.cross r (spin3.act w r) 0 =
        w 0 * (r 1 * r 1) + w 0 * (r 2 * r 2) + (-w 1) * (r 0 * r 1) + (-w 2) * (r 0 * r 2) := by
      intro r; simp [spin3, cross3]; ring
    simp only [e, hlin, hiso]
    simp; ring
  have a1 : (rs.map fun r => spin3.cross r (spin3.act w r) 1).sum = 2 / 3 * rs.length * R ^ 2 * w 1 := by
    have e : ∀ r : Pos 3 ℝ, spin3.cross r (spin3.act w r) 1 =
        w 1 * (r 0 * r 0) + w 1 * (r 2 * r 2) + (-w 0) * (r 0 * r 1) + (-w 2) * (r 1 * r 2) := by
      intro r; simp [spin3, cross3]; ring
    simp only [e, hlin, hiso]
    simp; ring
  have a2 : (rs.map fun r => spin3.cross r (spin3.act w r) 2).sum = 2 / 3 * rs.length * R ^ 2 * w 2 := by
    have e : ∀ r : Pos 3 ℝ, spin3.cross r (spin3.act w r) 2 =
        w 2 * (r 0 * r 0) + w 2 * (r 1 * r 1) + (-w 0) * (r 0 * r 2) + (-w 1) * (r 1 * r 2) := by
      intro r; simp [spin3, cross3]; ring
    simp only [e, hlin, hiso]
    simp; ring
  have fin : ∀ i : Fin 3, (rs.map fun r => spin3.cross r (spin3.act w r) i).sum = 2 / 3 * rs.length * R ^ 2 * w i := by
    intro i; fin_cases i
    exacts [a0, a1, a2]
  funext i
  rw [Pi.smul_apply, hs, fin i, smul_eq_mul]
  field_simp
  norm_num

theorem Balanced.perm [AddCommGroup A] [Module ℝ A] {S : Spin d A} {cdR : ℝ} {l l' : List (Pos d ℝ)}
    (h : Balanced S cdR l) (hp : l.Perm l') : Balanced S cdR l' :=
  ⟨by rw [← hp.sum_eq]; exact h.bary, fun w => by
    rw [← hp.length_eq, ← (hp.map fun r => S.cross r (S.act w r)).sum_eq]; exact h.inertia w⟩

/-- A list split over keys, each element having exactly one key. -/
theorem perm_split {α κ : Type*} [DecidableEq α] [DecidableEq κ] (rs : List κ) (hnd : rs.Nodup) (c : κ → α → Bool) (l : List α)
    (hu : ∀ x ∈ l, ∃ r ∈ rs, c r x = true ∧ ∀ s ∈ rs, c s x = true → s = r) :
    (rs.flatMap fun r => l.filter (c r)).Perm l := by
  rw [List.perm_iff_count]
  intro x
  rw [List.count_flatMap]
  by_cases hx : x ∈ l
  · obtain ⟨r, hr, hcr, hu'⟩ := hu x hx
    have : (rs.map fun s => List.count x (l.filter (c s))) = rs.map fun s => if s = r then List.count x l else 0 := by
      apply List.map_congr_left
      intro s hs
      split_ifs with h
      · rw [h, List.count_filter hcr]
      · rw [List.count_eq_zero]
        intro hm
        exact h (hu' s hs (List.mem_filter.1 hm).2)
    have e2 : (rs.map (List.count x ∘ fun r => l.filter (c r))) = rs.map fun s => List.count x (l.filter (c s)) := rfl
    rw [e2, this]
    clear this e2 hu hu'
    induction rs with
    | nil => simp at hr
    | cons a rs ih =>
      rw [List.nodup_cons] at hnd
      rw [List.map_cons, List.sum_cons]
      by_cases ha : a = r
      · subst ha
        have hz : (rs.map fun s => if s = a then List.count x l else 0) = rs.map fun _ => 0 := by
          apply List.map_congr_left
          intro s hs
          rw [if_neg]
          rintro rfl
          exact hnd.1 hs
        rw [if_pos rfl, hz]
        simp
      · rw [if_neg ha, zero_add]
        refine ih hnd.2 ?_
        rcases List.mem_cons.1 hr with h | h
        · exact absurd h.symm ha
        · exact h
  · rw [List.count_eq_zero.2 hx]
    apply List.sum_eq_zero
    intro n hn
    rw [List.mem_map] at hn
    obtain ⟨r, -, rfl⟩ := hn
    exact List.count_eq_zero.2 fun hm => hx (List.mem_filter.1 hm).1

/-- The sampled points of a circle, relative to the centre, are balanced. -/
theorem circle_balanced (c : Pos 2 ℝ) (R : ℝ) (hR : 0 < R) (q : Quat ℝ) (hq : PlaneQuat q) (k tol : ℝ)
    (hk : 0 < k) (ht : 0 < tol) (etas : List ℝ) (h : Etas (circle c R q).n_ k tol 0 etas) :
    Balanced spin2 (1 / (R * R)) (((circle c R q).surface2 etas).map fun x => posSub x c) := by
  have hRR : (![R, R] : Pos 2 ℝ) = fun _ => R := by funext i; fin_cases i <;> rfl
  have hC : circle c R q = mkShape2 c ![R, R] 2 q := by rw [hRR]; rfl
  have hs : ∀ i, 0 < (![R, R] : Pos 2 ℝ) i := by intro i; fin_cases i <;> simpa using hR
  have h' : Etas (2 / 2) k tol 0 etas := h
  obtain ⟨h1, h2, h3, h4⟩ := C40_surface c ![R, R] hs 2 (by norm_num) q hq k tol hk ht etas h'
  rw [← hC] at h2 h3 h4
  set l := (circle c R q).surface2 etas with hl
  have hsub : ∀ x : Pos 2 ℝ, posSub x c = x - c := by
    intro x; funext i; simp [posSub, compLoop_apply]
  have hne : l ≠ [] := by
    intro e
    rw [e] at h2
    simp at h2
    omega
  -- the local coordinates are a linear image of the relative position
  have hloc : ∀ x : Pos 2 ℝ, (circle c R q).local2 x 0 ^ 2 + (circle c R q).local2 x 1 ^ 2 =
      (x - c) 0 ^ 2 + (x - c) 1 ^ 2 ∧ ∀ y : Pos 2 ℝ, (circle c R q).local2 y = -(circle c R q).local2 x →
        y - c = -(x - c) := by
    intro x
    have hc : (circle c R q).center = c := rfl
    have hqq : (circle c R q).q = q := rfl
    rcases hq with hq | ⟨a, hq⟩
    · have hr : isRotate (circle c R q).q = false := by rw [hqq, hq]; exact isRotate_quat0
      unfold Shape.local2
      rw [hr]
      simp only [Bool.false_eq_true, if_false, hc, hsub]
      exact ⟨trivial, fun y hy => hy⟩
    · have hr : isRotate (circle c R q).q = true := by rw [hqq, hq]; exact (C36_plane a 0).2.2.2.2
      have hrot : ∀ y, (circle c R q).local2 y = planeRot (-a) (y - c) := by
        intro y
        unfold Shape.local2
        rw [hr, if_pos rfl, hqq, hc, hsub, hq, (C36_plane a (y - c)).2.1]
      have hsq := Real.sin_sq_add_cos_sq a
      constructor
      · rw [hrot]
        simp only [planeRot, Matrix.cons_val_zero, Matrix.cons_val_one, Real.cos_neg, Real.sin_neg]
        linear_combination ((x - c) 0 ^ 2 + (x - c) 1 ^ 2) * hsq
      · intro y hy
        rw [hrot, hrot] at hy
        have e0 := congrFun hy 0
        have e1 := congrFun hy 1
        simp only [planeRot, Matrix.cons_val_zero, Matrix.cons_val_one, Real.cos_neg, Real.sin_neg,
          Pi.neg_apply] at e0 e1
        have f0 : (y - c) 0 = (-(x - c)) 0 := by
          simp only [Pi.neg_apply]
          linear_combination Real.cos a * e0 - Real.sin a * e1 - ((y - c) 0 + (x - c) 0) * hsq
        have f1 : (y - c) 1 = (-(x - c)) 1 := by
          simp only [Pi.neg_apply]
          linear_combination Real.sin a * e0 + Real.cos a * e1 - ((y - c) 1 + (x - c) 1) * hsq
        funext i
        fin_cases i
        exacts [f0, f1]
  apply balanced_circle R hR
  · simpa using hne
  · -- central symmetry
    have hneg : ∀ x ∈ l, 2 • c - x ∈ l := by
      intro x hx
      obtain ⟨⟨y, hy, hy'⟩, -⟩ := C40_symmetric c ![R, R] 2 (by norm_num) q hq k tol hk ht etas h' x hx
      obtain ⟨-, ⟨z, hz, hz'⟩⟩ := C40_symmetric c ![R, R] 2 (by norm_num) q hq k tol hk ht etas h' y hy
      rw [← hC] at hy' hz' hz
      have : (circle c R q).local2 z = -(circle c R q).local2 x := by
        rw [hz', hy']
        funext i; fin_cases i <;> simp
      have e := (hloc x).2 z this
      have : z = 2 • c - x := by
        have : z = c + (z - c) := by abel
        rw [this, e, two_smul]
        abel
      rw [← this]
      exact hz
    have hsum : (l.map fun x => posSub x c).sum = ∑ x ∈ l.toFinset, (x - c) := by
      rw [List.sum_toFinset _ h3]
      simp only [hsub]
    rw [hsum]
    have hflip : ∑ x ∈ l.toFinset, (x - c) = ∑ x ∈ l.toFinset, -(x - c) := by
      refine Finset.sum_bij' (fun x _ => 2 • c - x) (fun x _ => 2 • c - x) ?_ ?_ ?_ ?_ ?_
      · intro x hx; rw [List.mem_toFinset] at hx ⊢; exact hneg x hx
      · intro x hx; rw [List.mem_toFinset] at hx ⊢; exact hneg x hx
      · intro x _; abel
      · intro x _; abel
      · intro x _; rw [two_smul]; abel
    rw [Finset.sum_neg_distrib] at hflip
    have h2 : (2 : ℝ) • ∑ x ∈ l.toFinset, (x - c) = 0 := by
      rw [two_smul]
      nth_rewrite 1 [hflip]
      exact neg_add_cancel _
    exact (smul_eq_zero.1 h2).resolve_left (by norm_num)
  · intro r hr
    rw [List.mem_map] at hr
    obtain ⟨x, hx, rfl⟩ := hr
    rw [hsub, ← (hloc x).1]
    have := h4 x hx
    rw [implicit2_eq] at this
    have e2 : (2 : ℝ) / (circle c R q).n_ = ((2 : ℕ) : ℝ) := by
      show (2 : ℝ) / (2 / 2) = _
      norm_num
    have s0 : (circle c R q).s 0 = R := rfl
    have s1 : (circle c R q).s 1 = R := rfl
    rw [e2, Real.rpow_natCast, Real.rpow_natCast, s0, s1, sq_abs, sq_abs, div_pow, div_pow] at this
    field_simp at this
    linarith

open Classical in
/-- The radial vectors of all the processes are those of the surface points, when the cells of the points are
in the mesh and in the bounding box of the particle. -/
theorem radial_perm (fluid : (Pos d ℝ → Bool) → Box d ℤ → Pos d ℝ → List (Pos d ℤ))
    (L : Fin d → Dir) (hL : GoodMesh L) (h : Pos d ℝ) (hh : ∀ i, 0 < h i) (scale : ℕ) (p : Part d A)
    (rs : List (Fin d → ℕ)) (hrs : ∀ r, r ∈ rs ↔ r ∈ procs L) (hnd : rs.Nodup)
    (hx0 : ∀ x ∈ p.surface, ∀ i, 0 ≤ x i) (hm : ∀ x ∈ p.surface, cell h x ∈ gridElems L)
    (hb : ∀ x ∈ p.surface, cell h x ∈ p.bbox.halfOpen) (old : (Fin d → ℕ) → PartData d)
    (hold : ∀ r, old r = PartData.empty) :
    (rs.flatMap fun r => (setMaterials fluid L h scale p old r).radial).Perm
      (p.surface.map fun x => posSub x p.center) ∧
    ∀ r, (setMaterials fluid L h scale p old r).nb = p.surface.length := by
  have hpar : ∀ r, (setMaterials fluid L h scale p old r).radial =
      (p.surface.filter fun x => ((getDMBounds L r true).boxInside p.bbox).pointInside (surfIndex h x)).map
        fun x => posSub x p.center := by
    intro r
    show (partMaterials fluid (getDMBounds L r true) h scale p (old r)).1.radial = _
    rw [hold, (partMaterials_surf fluid _ h scale p).2.1, radialPoints_eq]
    apply List.map_congr_left
    intro x _
    funext i
    simp only [posSub, compLoop_apply]
  have hc : ∀ x ∈ p.surface, surfIndex h x = cell h x := fun x hx =>
    funext fun i => surfIndex_of_nonneg h x hh i (hx0 x hx i)
  constructor
  · simp only [hpar]
    rw [← List.map_flatMap]
    apply List.Perm.map
    apply perm_split rs hnd
    intro x hx
    obtain ⟨r, ⟨hr, hqr⟩, hu⟩ := (elems_partition L hL).1 _ ((mem_gridElems L _).1 (hm x hx))
    refine ⟨r, (hrs r).2 hr, ?_, ?_⟩
    · rw [Box.pointInside_iff, hc x hx]
      exact (mem_boxInside _ _ _).2 ⟨hqr, hb x hx⟩
    · intro s hs hxs
      rw [Box.pointInside_iff, hc x hx] at hxs
      exact hu s ⟨(hrs s).1 hs, ((mem_boxInside _ _ _).1 hxs).1⟩
  · intro r
    show ∑ s ∈ procs L, (partMaterials fluid (getDMBounds L s true) h scale p (old s)).1.nb = _
    simp only [hold]
    rw [sum_surf fluid L hL, List.filter_eq_self.2]
    intro x hx
    rw [decide_eq_true_eq, hc x hx]
    exact ⟨(mem_gridElems L _).1 (hm x hx), hb x hx⟩

/-- `p` is the circle of centre `c` and radius `R` with the surface points sampled by `surface(k, tol)`. -/
structure IsCircle (c : Pos 2 ℝ) (R : ℝ) (q : Quat ℝ) (k tol : ℝ) (h : Pos 2 ℝ) (p : Part 2 A) : Prop where
  shape : OfShape2 (circle c R q) h p
  center : p.center = c
  cdR : p.cdR = 1 / (R * R)
  surface : ∃ etas, Etas (circle c R q).n_ k tol 0 etas ∧ p.surface = (circle c R q).surface2 etas

/-- C49 (circles, end to end): for a circle lying in the mesh with its sampled points, any surface field
`data` aligned with the radial vectors computed by `set_materials` on any set of processes, and its
`nb_surf_points`: the result of `simple_layer` has zero sum and zero moment; rigid velocities are
annihilated (and recovered as mean and mean rotation). -/
theorem C49_circle (c : Pos 2 ℝ) (R : ℝ) (hR : 0 < R) (q : Quat ℝ) (hq : PlaneQuat q) (k tol : ℝ)
    (hk : 0 < k) (ht : 0 < tol) (L : Fin 2 → Dir) (hL : GoodMesh L) (h : Pos 2 ℝ) (hh : ∀ i, 0 < h i)
    (scale : ℕ) (p : Part 2 ℝ) (hp : IsCircle c R q k tol h p)
    (rs : List (Fin 2 → ℕ)) (hrs : ∀ r, r ∈ rs ↔ r ∈ procs L) (hnd : rs.Nodup)
    (hx0 : ∀ x ∈ p.surface, ∀ i, 0 ≤ x i) (hm : ∀ x ∈ p.surface, cell h x ∈ gridElems L)
    (data : List (List (Pos 2 ℝ × Pos 2 ℝ)))
    (hdata : data.map (List.map Prod.snd) =
      rs.map fun r => (setMaterials fluidPoints2 L h scale p (fun _ => PartData.empty) r).radial)
    (r0 : Fin 2 → ℕ) :
    let nb := (setMaterials fluidPoints2 L h scale p (fun _ => PartData.empty) r0).nb
    let out := simpleLayer spin2 p.cdR nb data
    (out.2.2.flatten.sum = 0 ∧
      (List.zipWith cross2 (data.flatten.map Prod.snd) out.2.2.flatten).sum = 0) ∧
    ∀ (V : Pos 2 ℝ) (w : ℝ), (∀ x ∈ data.flatten, x.1 = fun i => V i + crossZ w x.2 i) →
      out.1 = V ∧ out.2.1 = w ∧ ∀ g ∈ out.2.2.flatten, g = 0 := by
  intro nb out
  obtain ⟨etas, he, hsurf⟩ := hp.surface
  have hRR : (![R, R] : Pos 2 ℝ) = fun _ => R := by funext i; fin_cases i <;> rfl
  have hC : circle c R q = mkShape2 c ![R, R] 2 q := by rw [hRR]; rfl
  have hs : ∀ i, 0 < (![R, R] : Pos 2 ℝ) i := by intro i; fin_cases i <;> simpa using hR
  obtain ⟨s1, s2, s3, s4⟩ := C40_surface c ![R, R] hs 2 (by norm_num) q hq k tol hk ht etas he
  have hb : ∀ x ∈ p.surface, cell h x ∈ p.bbox.halfOpen := by
    intro x hx
    rw [hp.shape.bbox]
    apply intBox_cell _ h hh
    rw [hC]
    refine (C38_plane c ![R, R] hs 2 (by norm_num) q hq x).2 ?_
    rw [hsurf, hC] at hx
    exact (s4 x hx).le
  obtain ⟨hperm, hnb⟩ := radial_perm fluidPoints2 L hL h hh scale p rs hrs hnd hx0 hm hb
    (fun _ => PartData.empty) (fun _ => rfl)
  have hsnd : data.flatten.map Prod.snd = rs.flatMap fun r =>
      (setMaterials fluidPoints2 L h scale p (fun _ => PartData.empty) r).radial := by
    rw [List.map_flatten, hdata]
    rfl
  have hlen : nb = data.flatten.length := by
    show (setMaterials fluidPoints2 L h scale p (fun _ => PartData.empty) r0).nb = _
    rw [hnb, ← List.length_map (f := Prod.snd) (as := data.flatten), hsnd, hperm.length_eq, List.length_map]
  have hbal : Balanced spin2 p.cdR (data.flatten.map Prod.snd) := by
    rw [hsnd]
    have := circle_balanced c R hR q hq k tol hk ht etas he
    rw [hp.cdR]
    refine this.perm ?_
    rw [← hsurf, ← hp.center]
    exact hperm.symm
  have hne : data.flatten ≠ [] := by
    intro e
    rw [e] at hlen
    have h2 : nb = p.surface.length := hnb r0
    rw [hlen, hsurf, hC] at h2
    simp only [List.length_nil] at h2
    omega
  show ((simpleLayer spin2 p.cdR nb data).2.2.flatten.sum = 0 ∧ _) ∧ _
  have hout : out = simpleLayer spin2 p.cdR data.flatten.length data := by
    show simpleLayer spin2 p.cdR nb data = _
    rw [hlen]
  rw [hout, hlen]
  exact ⟨C49_equilibrated spinLaws2 actLaws2 hne hbal, fun V w hg => C49_rigid spinLaws2 actLaws2 hne hbal V w hg⟩

/-- The four points of a circle of radius 2, distributed over two processes, are balanced. -/
example : Balanced spin2 (1 / (2 * 2)) [![2, 0], ![0, 2], ![-2, 0], ![0, -2]] := by
  apply balanced_circle 2 (by norm_num) _ (by simp)
  · funext i; fin_cases i <;> simp
  · intro r hr
    simp only [List.mem_cons, List.not_mem_nil, or_false] at hr
    rcases hr with rfl | rfl | rfl | rfl <;> norm_num

/-- The vertices of an octahedron are balanced in space. -/
example : Balanced spin3 (1.5 / (1 * 1)) [![1, 0, 0], ![-1, 0, 0], ![0, 1, 0], ![0, -1, 0], ![0, 0, 1], ![0, 0, -1]] := by
  apply balanced_sphere 1 (by norm_num) _ (by simp)
  · funext i; fin_cases i <;> simp
  · intro i j
    fin_cases i <;> fin_cases j <;> norm_num

/-! ### C50: rigid motion -/

/-- C50, what the code computes: the value `g` at a surface point becomes `g + V - w x r`, `V` and `w` being
the velocity and the angular velocity of the particle and `r` the position relative to its centre. -/
theorem C50_value (S : Spin d A) (p : Part d A) (g r : Pos d ℝ) :
    rigidMotion S p g r = (fun i => g i + p.velocity i - S.act p.omega r i) ∧
    (p.velocity = 0 → rigidMotion S p g r = fun i => g i - (p.velocity i + S.act p.omega r i)) := by
  have h1 : rigidMotion S p g r = fun i => g i + p.velocity i - S.act p.omega r i := by
    funext i
    simp only [rigidMotion, vecSubVec, velSubVec, compLoop_apply]
    ring
  refine ⟨h1, fun hv => ?_⟩
  rw [h1, hv]
  funext i
  simp

/-- C50 is false of the code: the value at a surface point becomes `g + V - w x r` instead of
`g - (V + w x r)`; the two differ as soon as the velocity is not zero. (The rotation is subtracted, as it
should be, but the velocity is added.) -/
theorem C50_refuted (S : Spin d A) (p : Part d A) (g r : Pos d ℝ) :
    rigidMotion S p g r = (fun i => g i + p.velocity i - S.act p.omega r i) ∧
    (p.velocity ≠ 0 → rigidMotion S p g r ≠ fun i => g i - (p.velocity i + S.act p.omega r i)) := by
  have h1 : rigidMotion S p g r = fun i => g i + p.velocity i - S.act p.omega r i := by
    funext i
    simp only [rigidMotion, vecSubVec, velSubVec, compLoop_apply]
    ring
  refine ⟨h1, fun hv h => hv ?_⟩
  rw [h1] at h
  funext i
  have := congrFun h i
  have h2 : p.velocity i = 0 := by linarith
  exact h2

end Cafes.Particle
