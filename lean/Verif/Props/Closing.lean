import Verif.Props.Cutoff
import Verif.Props.Frame

/-!
C75: the singular velocity carries the relative normal velocity of the two particles across the gap
(singularity.hpp:199-249, 322-361), seen in the frame of the mesh.
-/

namespace Cafes.Props
open Cafes Cafes.Geometry Cafes.Sing

variable {d : ℕ}

/-- The unit vector from the centre of the first particle to the centre of the second one. -/
noncomputable def Spec.axisOf (p1 p2 : Ball d) : Pos d ℝ :=
  fun i => (p2.center i - p1.center i) / √(distSq p1.center p2.center)

/-- The point, at the vector `τ` (normal to `n`) from the line of centres, of the paraboloid osculating the
ball of centre `c` and radius `r` at `c + r n`. -/
noncomputable def Spec.capPoint (c n : Pos d ℝ) (r : ℝ) (τ : Pos d ℝ) : Pos d ℝ :=
  fun i => c i + (r - dot τ τ / (2 * r)) * n i + τ i

/-- Speed at which the second particle moves away from the first one. -/
noncomputable def Spec.opening (p1 p2 : Ball d) : ℝ :=
  dot (fun i => p2.velocity i - p1.velocity i) (Spec.axisOf p1 p2)

theorem distance_eq (p1 p2 : Ball d) : distance p1 p2 = √(distSq p1.center p2.center) := by
  rw [distance, innerProd_eq]
  congr 1
  exact Finset.sum_congr rfl fun i _ => by simp only [positionDiff]; ring

theorem axisOf_eq (p1 p2 : Ball d) :
    vecDivScal (positionDiff p2 p1) (distance p1 p2) = Spec.axisOf p1 p2 := by
  funext i
  rw [axis_eq, distance_eq, Spec.axisOf]

/-- A vector has the norm of its coordinates in an orthonormal base. -/
theorem Orthonormal.norm {b : Fin d → Pos d ℝ} (h : Orthonormal b) (t : Pos d ℝ) :
    ∑ k, dot t (b k) ^ 2 = dot t t := by
  have e : ∀ k, dot t (b k) ^ 2 = ∑ i, ∑ j, t i * t j * (b k i * b k j) := by
    intro k
    rw [sq, dot, Finset.sum_mul_sum]
    exact Finset.sum_congr rfl fun i _ => Finset.sum_congr rfl fun j _ => by ring
  simp only [e]
  rw [Finset.sum_comm, dot]
  refine Finset.sum_congr rfl fun i _ => ?_
  rw [Finset.sum_comm]
  simp only [← Finset.mul_sum, h.cols, mul_ite, mul_one, mul_zero]
  simp

/-- Position in the contact frame of a point at height `z` above the pole of the first particle. -/
theorem pos_in_ref (axis : Fin d) (frame : Ball d → Ball d → Frame d) (p1 p2 : Ball d)
    (h alpha : ℝ) (S : Singularity d) (hS : mkSing axis frame p1 p2 h alpha = some S)
    (hax : (frame p1 p2).base axis = Spec.axisOf p1 p2) (ho : Orthonormal S.base)
    (t : Pos d ℝ) (ht : dot t (Spec.axisOf p1 p2) = 0) (z : ℝ) (k : Fin d) :
    posInRef S (fun i => p1.center i + (p1.r + z) * Spec.axisOf p1 p2 i + t i) k =
      if k = axis then z else dot t (S.base k) := by
  rw [mkSing] at hS
  split_ifs at hS with hlt
  obtain rfl := Option.some.inj hS
  simp only at ho ⊢
  rw [posInRef, innerProd_eq, dot]
  simp only [hax]
  have e : ∀ i, (p1.center i + (p1.r + z) * Spec.axisOf p1 p2 i + t i -
      (p1.center i + p1.r * Spec.axisOf p1 p2 i)) * (frame p1 p2).base k i =
      z * (Spec.axisOf p1 p2 i * (frame p1 p2).base k i) + t i * (frame p1 p2).base k i :=
    fun i => by ring
  simp only [e, Finset.sum_add_distrib, ← Finset.mul_sum]
  have h1 := ho axis k
  rw [hax, dot] at h1
  rw [h1]
  by_cases hk : k = axis
  · subst hk
    rw [if_pos rfl, if_pos rfl, hax]
    rw [dot] at ht
    rw [ht]; ring
  · rw [if_neg (fun e => hk e.symm), if_neg hk, mul_zero, zero_add, dot]

theorem cap_first (p1 p2 : Ball d) (t : Pos d ℝ) :
    Spec.capPoint p1.center (Spec.axisOf p1 p2) p1.r t =
      fun i => p1.center i + (p1.r + -(dot t t / (2 * p1.r))) * Spec.axisOf p1 p2 i + t i := by
  funext i
  rw [Spec.capPoint]
  ring

theorem cap_second (p1 p2 : Ball d) (hc : p1.center ≠ p2.center) (t : Pos d ℝ) :
    Spec.capPoint p2.center (fun i => -Spec.axisOf p1 p2 i) p2.r t =
      fun i => p1.center i + (p1.r + (distance p1 p2 - p1.r - p2.r + dot t t / (2 * p2.r))) *
        Spec.axisOf p1 p2 i + t i := by
  funext i
  have h0 := (distance_pos p1 p2 hc).1
  have e : p2.center i = p1.center i + distance p1 p2 * Spec.axisOf p1 p2 i := by
    rw [Spec.axisOf, ← distance_eq]
    field_simp
    ring
  rw [Spec.capPoint, e]
  ring

/-- The members of the singularity used below. -/
theorem sing_fields (axis : Fin d) (frame : Ball d → Ball d → Frame d) (p1 p2 : Ball d)
    (h alpha : ℝ) (S : Singularity d) (hS : mkSing axis frame p1 p2 h alpha = some S) :
    S.base = (frame p1 p2).base ∧ S.H1 = 1 / p1.r ∧ S.H2 = 1 / p2.r ∧
    S.contact = distance p1 p2 - p1.r - p2.r ∧ S.UN = (frame p1 p2).UN ∧
    S.param = 1 / 2 * S.cutoff * S.cutoff ∧
    S.cutoff = cutoffDist p1.r p2.r (distance p1 p2 - p1.r - p2.r) alpha h := by
  rw [mkSing] at hS
  split_ifs at hS with hlt
  obtain rfl := Option.some.inj hS
  exact ⟨rfl, rfl, rfl, rfl, rfl, rfl, rfl⟩

theorem chi_sq {r s p : ℝ} (h : r ^ 2 = s) :
    chiTrunc r p p = chiTrunc √s p p ∧ dchiTrunc r p p = dchiTrunc √s p p ∧
    d2chiTrunc r p p = d2chiTrunc √s p p := by
  have hs : √s * √s = r * r := by
    rw [Real.mul_self_sqrt (by rw [← h]; exact sq_nonneg r), ← h, sq]
  simp only [chiTrunc, dchiTrunc, d2chiTrunc, sub_self, not_chained, if_false, hs, and_self]

theorem cut_pos (axis : Fin d) (frame : Ball d → Ball d → Frame d) (p1 p2 : Ball d)
    (h alpha : ℝ) (hh : 0 < h) (S : Singularity d) (hS : mkSing axis frame p1 p2 h alpha = some S) :
    0 < S.cutoff := by
  rw [(sing_fields axis frame p1 p2 h alpha S hS).2.2.2.2.2.2, cutoffDist]
  have : 0 < √2 * h := by positivity
  split_ifs <;> linarith

theorem cap_poles (p1 p2 : Ball d) :
    Spec.capPoint p1.center (Spec.axisOf p1 p2) p1.r (fun _ => 0) =
      (fun i => p1.center i + p1.r * Spec.axisOf p1 p2 i) ∧
    Spec.capPoint p2.center (fun i => -Spec.axisOf p1 p2 i) p2.r (fun _ => 0) =
      (fun i => p2.center i - p2.r * Spec.axisOf p1 p2 i) := by
  have hz : dot (fun _ : Fin d => (0 : ℝ)) (fun _ => 0) = 0 := by simp [dot]
  constructor <;> funext i <;> rw [Spec.capPoint, hz] <;> ring

theorem closing_chi_axis {c : ℝ} (hc : 0 < c) : chiTrunc √0 (c ^ 2 / 2) (c ^ 2 / 2) = 1 ∧
    dchiTrunc √0 (c ^ 2 / 2) (c ^ 2 / 2) = 0 ∧ d2chiTrunc √0 (c ^ 2 / 2) (c ^ 2 / 2) = 0 := by
  have hp : 0 < c ^ 2 / 2 := by positivity
  have e : (0 - c ^ 2 / 2) / (c ^ 2 / 2) = -1 := by field_simp; ring
  have hlt : 0 < 2 * (c ^ 2 / 2) := by positivity
  refine ⟨?_, ?_, ?_⟩
  · rw [chi_rad hp le_rfl, if_pos hlt, e, C56_shape.2.1]; norm_num
  · rw [dchi_rad le_rfl, if_pos hlt, e]; norm_num [dalphaTrunc]
  · rw [d2chi_rad le_rfl, if_pos hlt, e]; norm_num [d2alphaTrunc]

theorem chi_out {c s : ℝ} (hc : 0 < c) (hs : c ^ 2 ≤ s) :
    chiTrunc √s (c ^ 2 / 2) (c ^ 2 / 2) = 0 ∧
    dchiTrunc √s (c ^ 2 / 2) (c ^ 2 / 2) = 0 ∧ d2chiTrunc √s (c ^ 2 / 2) (c ^ 2 / 2) = 0 := by
  have hp : 0 < c ^ 2 / 2 := by positivity
  have h0 : 0 ≤ s := le_trans (by positivity) hs
  have hlt : ¬ s < 2 * (c ^ 2 / 2) := by linarith
  exact ⟨by rw [chi_rad hp h0, if_neg hlt], by rw [dchi_rad h0, if_neg hlt],
    by rw [d2chi_rad h0, if_neg hlt]⟩

/-- C75: in the plane, on the osculating parabola of the first particle the fluid moves with minus half the
opening velocity of the gap along the line of centres, weighted by the cut-off; on that of the second one
with plus half of it, plus a term with the derivatives of the cut-off. -/
theorem C75_walls2D (p1 p2 : Ball 2) (hr1 : 0 < p1.r) (hr2 : 0 < p2.r)
    (hgap : p1.r + p2.r < √(distSq p1.center p2.center)) (h alpha : ℝ) (S : Singularity 2)
    (hS : mkSing2 p1 p2 h alpha = some S) (t : Pos 2 ℝ) (ht : dot t (Spec.axisOf p1 p2) = 0) (i : Fin 2) :
    let q := S.cutoff ^ 2 / 2
    let s := dot t t
    getU2 S (Spec.capPoint p1.center (Spec.axisOf p1 p2) p1.r t) i =
      -(Spec.opening p1 p2 / 2 * chiTrunc √s q q) * Spec.axisOf p1 p2 i ∧
    getU2 S (Spec.capPoint p2.center (fun i => -Spec.axisOf p1 p2 i) p2.r t) i =
      Spec.opening p1 p2 * (1 / 2 * chiTrunc √s q q + s * dchiTrunc √s q q -
        (√(distSq p1.center p2.center) - p1.r - p2.r + s / (2 * p1.r) + s / (2 * p2.r)) /
          (1 / p1.r + 1 / p2.r) * (dchiTrunc √s q q + 2 * s * d2chiTrunc √s q q)) *
        Spec.axisOf p1 p2 i := by
  intro q s
  have hc : p1.center ≠ p2.center := by
    intro e
    rw [e] at hgap
    have : √(distSq p2.center p2.center) = 0 := by simp [distSq]
    linarith
  have ho := (C58_frame2D p1 p2 hc h alpha S hS).1
  have hax : (constructBase2 p1 p2).base 0 = Spec.axisOf p1 p2 := by rw [← axisOf_eq]; rfl
  obtain ⟨hb, hH1, hH2, hcon, hUN, hpar, -⟩ := sing_fields 0 constructBase2 p1 p2 h alpha S hS
  have hpar' : S.param = q := by rw [hpar]; ring
  have hUN' : S.UN = Spec.opening p1 p2 := by
    rw [hUN, Spec.opening, ← axisOf_eq, ← innerProd_eq]; rfl
  have hb0 : S.base 0 = Spec.axisOf p1 p2 := by rw [hb, hax]
  have hn := Orthonormal.norm ho t
  rw [Fin.sum_univ_two, hb0, ht] at hn
  have hr : dot t (S.base 1) ^ 2 = s := by linarith
  obtain ⟨c0, c1, c2⟩ := chi_sq (p := q) hr
  have hcpos : 0 < distance p1 p2 - p1.r - p2.r := by rw [distance_eq]; linarith
  have ha : ∀ z, posInRef S (fun i => p1.center i + (p1.r + z) * Spec.axisOf p1 p2 i + t i) =
      ![z, dot t (S.base 1)] := by
    intro z
    funext k
    have := pos_in_ref 0 constructBase2 p1 p2 h alpha S hS hax ho t ht z k
    fin_cases k
    · exact this.trans (if_pos rfl)
    · exact this.trans (if_neg (by decide))
  constructor
  · rw [cap_first, getU2, toMesh_eq, Fin.sum_univ_two, ha, hb0, uRef2]
    simp only [Matrix.cons_val_zero, Matrix.cons_val_one]
    have ez : -(dot t t / (2 * p1.r)) = -(1 / p1.r * dot t (S.base 1) ^ 2 / 2) := by
      rw [hr]; ring
    rw [ez, hH1, hH2, hcon, hUN', hpar']
    obtain ⟨f1, f2, -⟩ := C62_normal2D_first (1 / p1.r) (1 / p2.r) (distance p1 p2 - p1.r - p2.r)
      (Spec.opening p1 p2) q q (dot t (S.base 1)) (by positivity) (by positivity) hcpos
    rw [f1, f2, c0]
    ring
  · rw [cap_second p1 p2 hc, getU2, toMesh_eq, Fin.sum_univ_two, ha, hb0, uRef2]
    simp only [Matrix.cons_val_zero, Matrix.cons_val_one]
    have ez : distance p1 p2 - p1.r - p2.r + dot t t / (2 * p2.r) =
        distance p1 p2 - p1.r - p2.r + 1 / p2.r * dot t (S.base 1) ^ 2 / 2 := by
      rw [hr]; ring
    rw [ez, hH1, hH2, hcon, hUN', hpar']
    obtain ⟨-, -, f2⟩ := C62_normal2D_first (1 / p1.r) (1 / p2.r) (distance p1 p2 - p1.r - p2.r)
      (Spec.opening p1 p2) q q (dot t (S.base 1)) (by positivity) (by positivity) hcpos
    rw [C62_normal2D_second (1 / p1.r) (1 / p2.r) (distance p1 p2 - p1.r - p2.r)
      (Spec.opening p1 p2) q q (dot t (S.base 1)) (by positivity) (by positivity) hcpos, f2, c0, c1, c2,
      hr, ← distance_eq]
    have : distance p1 p2 - p1.r - p2.r + (1 / p1.r + 1 / p2.r) * s / 2 =
        distance p1 p2 - p1.r - p2.r + s / (2 * p1.r) + s / (2 * p2.r) := by
      field_simp; ring
    rw [this]
    ring

/-- C75: in the plane, at the two poles that face each other the velocity jump is the relative normal
velocity of the particles, and at facing points from the cut-off radius on the singular field is at
rest. -/
theorem C75_jump2D (p1 p2 : Ball 2) (hr1 : 0 < p1.r) (hr2 : 0 < p2.r)
    (hgap : p1.r + p2.r < √(distSq p1.center p2.center)) (h alpha : ℝ) (hh : 0 < h) (S : Singularity 2)
    (hS : mkSing2 p1 p2 h alpha = some S) (i : Fin 2) :
    getU2 S (fun i => p2.center i - p2.r * Spec.axisOf p1 p2 i) i -
      getU2 S (fun i => p1.center i + p1.r * Spec.axisOf p1 p2 i) i =
      Spec.opening p1 p2 * Spec.axisOf p1 p2 i ∧
    ∀ t : Pos 2 ℝ, dot t (Spec.axisOf p1 p2) = 0 → S.cutoff ^ 2 ≤ dot t t →
      getU2 S (Spec.capPoint p1.center (Spec.axisOf p1 p2) p1.r t) i = 0 ∧
      getU2 S (Spec.capPoint p2.center (fun i => -Spec.axisOf p1 p2 i) p2.r t) i = 0 := by
  have hq := cut_pos 0 constructBase2 p1 p2 h alpha hh S hS
  constructor
  · obtain ⟨h1, h2⟩ := C75_walls2D p1 p2 hr1 hr2 hgap h alpha S hS (fun _ => 0) (by simp [dot]) i
    obtain ⟨e1, e2⟩ := cap_poles p1 p2
    rw [e1] at h1
    rw [e2] at h2
    rw [h1, h2]
    have hz : dot (fun _ : Fin 2 => (0 : ℝ)) (fun _ => 0) = 0 := by simp [dot]
    obtain ⟨c0, c1, c2⟩ := closing_chi_axis hq
    rw [hz, c0, c1, c2]
    ring
  · intro t ht hcut
    obtain ⟨h1, h2⟩ := C75_walls2D p1 p2 hr1 hr2 hgap h alpha S hS t ht i
    obtain ⟨c0, c1, c2⟩ := chi_out hq hcut
    rw [h1, h2, c0, c1, c2]
    constructor <;> ring

/-- C75: in space, with an orthonormal contact frame, the two paraboloids move with the *closing* velocity
instead of the opening one: the fluid goes out of the gap where the particles move apart. -/
theorem C75_walls3D (p1 p2 : Ball 3) (hr1 : 0 < p1.r) (hr2 : 0 < p2.r)
    (hgap : p1.r + p2.r < √(distSq p1.center p2.center)) (h alpha : ℝ) (S : Singularity 3)
    (hS : mkSing3 p1 p2 h alpha = some S)
    (hgood : GoodContact (Spec.axisOf p1 p2) (fun i => p1.velocity i - p2.velocity i))
    (t : Pos 3 ℝ) (ht : dot t (Spec.axisOf p1 p2) = 0) (i : Fin 3) :
    let q := S.cutoff ^ 2 / 2
    let s := dot t t
    getU3 S (Spec.capPoint p1.center (Spec.axisOf p1 p2) p1.r t) i =
      Spec.opening p1 p2 / 2 * chiTrunc √s q q * Spec.axisOf p1 p2 i ∧
    getU3 S (Spec.capPoint p2.center (fun i => -Spec.axisOf p1 p2 i) p2.r t) i =
      -(Spec.opening p1 p2 * (1 / 2 * chiTrunc √s q q + s / 2 * dchiTrunc √s q q -
        (√(distSq p1.center p2.center) - p1.r - p2.r + s / (2 * p1.r) + s / (2 * p2.r)) /
          (1 / p1.r + 1 / p2.r) * (dchiTrunc √s q q + s * d2chiTrunc √s q q))) *
        Spec.axisOf p1 p2 i := by
  intro q s
  have hc : p1.center ≠ p2.center := by
    intro e
    rw [e] at hgap
    have : √(distSq p2.center p2.center) = 0 := by simp [distSq]
    linarith
  have ho := (C58_frame3D_exact p1 p2 hc h alpha S hS).2 hgood
  have hax : (constructBase3 p1 p2).base 2 = Spec.axisOf p1 p2 := by rw [← axisOf_eq]; rfl
  obtain ⟨hb, hH1, hH2, hcon, hUN, hpar, -⟩ := sing_fields 2 constructBase3 p1 p2 h alpha S hS
  have hpar' : S.param = q := by rw [hpar]; ring
  have hUN' : S.UN = -Spec.opening p1 p2 := by
    rw [hUN, Spec.opening, ← axisOf_eq]
    refine Eq.trans (innerProd_eq _ _) ?_
    rw [dot, dot, ← Finset.sum_neg_distrib]
    exact Finset.sum_congr rfl fun j _ => by simp only [velocityDiff]; ring
  have hb2 : S.base 2 = Spec.axisOf p1 p2 := by rw [hb, hax]
  have hn := Orthonormal.norm ho t
  rw [Fin.sum_univ_three, hb2, ht] at hn
  have hr : dot t (S.base 0) * dot t (S.base 0) + dot t (S.base 1) * dot t (S.base 1) = s := by
    nlinarith
  have hcpos : 0 < distance p1 p2 - p1.r - p2.r := by rw [distance_eq]; linarith
  have ha : ∀ z, posInRef S (fun i => p1.center i + (p1.r + z) * Spec.axisOf p1 p2 i + t i) =
      ![dot t (S.base 0), dot t (S.base 1), z] := by
    intro z
    funext k
    have := pos_in_ref 2 constructBase3 p1 p2 h alpha S hS hax ho t ht z k
    fin_cases k
    · exact this.trans (if_neg (by decide))
    · exact this.trans (if_neg (by decide))
    · exact this.trans (if_pos rfl)
  have ez1 : -(dot t t / (2 * p1.r)) = -(1 / p1.r *
      (dot t (S.base 0) * dot t (S.base 0) + dot t (S.base 1) * dot t (S.base 1)) / 2) := by
    rw [hr]; ring
  have ez2 : distance p1 p2 - p1.r - p2.r + dot t t / (2 * p2.r) =
      distance p1 p2 - p1.r - p2.r + 1 / p2.r *
        (dot t (S.base 0) * dot t (S.base 0) + dot t (S.base 1) * dot t (S.base 1)) / 2 := by
    rw [hr]; ring
  obtain ⟨f1, f2⟩ := C62_normal3D_first (1 / p1.r) (1 / p2.r) (distance p1 p2 - p1.r - p2.r)
    (-Spec.opening p1 p2) q q (dot t (S.base 0)) (dot t (S.base 1)) (by positivity) (by positivity) hcpos
  have f3 := C62_normal3D_second (1 / p1.r) (1 / p2.r) (distance p1 p2 - p1.r - p2.r)
    (-Spec.opening p1 p2) q q (dot t (S.base 0)) (dot t (S.base 1)) (by positivity) (by positivity) hcpos
  constructor
  · rw [cap_first, getU3, toMesh_eq, Fin.sum_univ_three, ha, hb2, uRef3]
    simp only [Matrix.cons_val]
    obtain ⟨g1, g2⟩ := f2 _ (Or.inl rfl)
    rw [ez1, hH1, hH2, hcon, hUN', hpar', f1, g1, g2, hr]
    ring
  · rw [cap_second p1 p2 hc, getU3, toMesh_eq, Fin.sum_univ_three, ha, hb2, uRef3]
    simp only [Matrix.cons_val]
    obtain ⟨g1, g2⟩ := f2 _ (Or.inr rfl)
    rw [ez2, hH1, hH2, hcon, hUN', hpar', f3, g1, g2, hr, ← distance_eq]
    have : distance p1 p2 - p1.r - p2.r + (1 / p1.r + 1 / p2.r) * s / 2 =
        distance p1 p2 - p1.r - p2.r + s / (2 * p1.r) + s / (2 * p2.r) := by
      field_simp; ring
    rw [this]
    ring

/-- C75: in space the velocity jump at the facing poles is the *opposite* of the relative normal velocity. -/
theorem C75_jump3D (p1 p2 : Ball 3) (hr1 : 0 < p1.r) (hr2 : 0 < p2.r)
    (hgap : p1.r + p2.r < √(distSq p1.center p2.center)) (h alpha : ℝ) (hh : 0 < h) (S : Singularity 3)
    (hS : mkSing3 p1 p2 h alpha = some S)
    (hgood : GoodContact (Spec.axisOf p1 p2) (fun i => p1.velocity i - p2.velocity i)) (i : Fin 3) :
    getU3 S (fun i => p2.center i - p2.r * Spec.axisOf p1 p2 i) i -
      getU3 S (fun i => p1.center i + p1.r * Spec.axisOf p1 p2 i) i =
      -(Spec.opening p1 p2 * Spec.axisOf p1 p2 i) ∧
    ∀ t : Pos 3 ℝ, dot t (Spec.axisOf p1 p2) = 0 → S.cutoff ^ 2 ≤ dot t t →
      getU3 S (Spec.capPoint p1.center (Spec.axisOf p1 p2) p1.r t) i = 0 ∧
      getU3 S (Spec.capPoint p2.center (fun i => -Spec.axisOf p1 p2 i) p2.r t) i = 0 := by
  have hq := cut_pos 2 constructBase3 p1 p2 h alpha hh S hS
  constructor
  · obtain ⟨h1, h2⟩ := C75_walls3D p1 p2 hr1 hr2 hgap h alpha S hS hgood (fun _ => 0) (by simp [dot]) i
    obtain ⟨e1, e2⟩ := cap_poles p1 p2
    rw [e1] at h1
    rw [e2] at h2
    rw [h1, h2]
    have hz : dot (fun _ : Fin 3 => (0 : ℝ)) (fun _ => 0) = 0 := by simp [dot]
    obtain ⟨c0, c1, c2⟩ := closing_chi_axis hq
    rw [hz, c0, c1, c2]
    ring
  · intro t ht hcut
    obtain ⟨h1, h2⟩ := C75_walls3D p1 p2 hr1 hr2 hgap h alpha S hS hgood t ht i
    obtain ⟨c0, c1, c2⟩ := chi_out hq hcut
    rw [h1, h2, c0, c1, c2]
    constructor <;> ring

/-- The axis of the example spheres is the given direction. -/
theorem exSphere_axis (n v : Pos 3 ℝ) (hn : dot n n = 1) :
    Spec.axisOf (exSphere n v).1 (exSphere n v).2 = n := by
  funext i
  rw [Spec.axisOf, exSphere_distSq n v hn]
  simp only [exSphere]
  ring

/-- Two unit spheres on the first axis, the first one moving towards the second one: the hypotheses of
`C75_jump3D` are met, and the particles approach with speed 1. -/
theorem ex_closing : ∃ S, mkSing3 (exSphere ![1, 0, 0] ![1, 0, 0]).1 (exSphere ![1, 0, 0] ![1, 0, 0]).2
      (1 / 100) 4 = some S ∧
    (exSphere ![1, 0, 0] ![1, 0, 0]).1.r + (exSphere ![1, 0, 0] ![1, 0, 0]).2.r <
      √(distSq (exSphere ![1, 0, 0] ![1, 0, 0]).1.center (exSphere ![1, 0, 0] ![1, 0, 0]).2.center) ∧
    GoodContact (Spec.axisOf (exSphere ![1, 0, 0] ![1, 0, 0]).1 (exSphere ![1, 0, 0] ![1, 0, 0]).2)
      (fun i => (exSphere ![1, 0, 0] ![1, 0, 0]).1.velocity i -
        (exSphere ![1, 0, 0] ![1, 0, 0]).2.velocity i) ∧
    Spec.opening (exSphere ![1, 0, 0] ![1, 0, 0]).1 (exSphere ![1, 0, 0] ![1, 0, 0]).2 = -1 := by
  have hn : dot (![1, 0, 0] : Pos 3 ℝ) ![1, 0, 0] = 1 := by norm_num [dot, Fin.sum_univ_three, vec3_two]
  obtain ⟨S, hS⟩ := exSphere_sing ![1, 0, 0] ![1, 0, 0] hn
  have hv : (fun i => (exSphere ![1, 0, 0] ![1, 0, 0]).1.velocity i -
      (exSphere ![1, 0, 0] ![1, 0, 0]).2.velocity i) = (![1, 0, 0] : Pos 3 ℝ) := by
    funext i; simp only [exSphere, sub_zero]
  refine ⟨S, hS, ?_, ?_, ?_⟩
  · rw [exSphere_distSq _ _ hn]; norm_num [exSphere]
  · rw [exSphere_axis _ _ hn, hv, GoodContact, if_pos (by rw [hn]; norm_num)]
    left; rfl
  · rw [Spec.opening, exSphere_axis _ _ hn]
    norm_num [dot, Fin.sum_univ_three, vec3_two, exSphere]

/-- C75 fails in space: two spheres moving towards each other get a singular flow whose walls move apart. -/
theorem C75_jump3D_refuted : ¬ ∀ (p1 p2 : Ball 3) (h alpha : ℝ) (S : Singularity 3), 0 < h → 0 < p1.r →
    0 < p2.r → p1.r + p2.r < √(distSq p1.center p2.center) → mkSing3 p1 p2 h alpha = some S →
    Orthonormal S.base → ∀ i,
    getU3 S (fun i => p2.center i - p2.r * Spec.axisOf p1 p2 i) i -
      getU3 S (fun i => p1.center i + p1.r * Spec.axisOf p1 p2 i) i =
      Spec.opening p1 p2 * Spec.axisOf p1 p2 i := by
  intro H
  obtain ⟨S, hS, hgap, hgood, hop⟩ := ex_closing
  have hn : dot (![1, 0, 0] : Pos 3 ℝ) ![1, 0, 0] = 1 := by norm_num [dot, Fin.sum_univ_three, vec3_two]
  have hr1 : 0 < (exSphere ![1, 0, 0] ![1, 0, 0]).1.r := by norm_num [exSphere]
  have hr2 : 0 < (exSphere ![1, 0, 0] ![1, 0, 0]).2.r := by norm_num [exSphere]
  have hc : (exSphere ![1, 0, 0] ![1, 0, 0]).1.center ≠ (exSphere ![1, 0, 0] ![1, 0, 0]).2.center := by
    intro h
    have := congrFun h 0
    norm_num [exSphere] at this
  have ho := (C58_frame3D_exact _ _ hc _ _ S hS).2 hgood
  have h1 := H _ _ _ _ S (by norm_num) hr1 hr2 hgap hS ho 0
  have h2 := (C75_jump3D _ _ hr1 hr2 hgap _ _ (by norm_num) S hS hgood 0).1
  rw [h1, hop, exSphere_axis _ _ hn] at h2
  norm_num at h2

/-- The hypotheses of `C75_walls2D` and `C75_jump2D` are met by two unit disks. -/
example : 0 < exBall1.r ∧ 0 < exBall2.r ∧ exBall1.r + exBall2.r < √(distSq exBall1.center exBall2.center) ∧
    (∃ S, mkSing2 exBall1 exBall2 (1 / 100) 4 = some S) ∧
    dot (![0, 1 / 10] : Pos 2 ℝ) (Spec.axisOf exBall1 exBall2) = 0 ∧ Spec.opening exBall1 exBall2 = -1 := by
  have hd : √(distSq exBall1.center exBall2.center) = 23 / 10 := by rw [← distance_eq, exBall_distance]
  refine ⟨by norm_num [exBall1], by norm_num [exBall2], ?_, ⟨_, if_pos ?_⟩, ?_, ?_⟩
  · rw [hd]; norm_num [exBall1, exBall2]
  · rw [exBall_distance]; norm_num [exBall1, exBall2]
  · simp [dot, Fin.sum_univ_two, Spec.axisOf, exBall1, exBall2]
  · rw [Spec.opening, dot]
    simp only [Spec.axisOf, hd]
    norm_num [Fin.sum_univ_two, exBall1, exBall2]

/-- C75: a velocity common to the two particles changes nothing to the singularity, hence to its fields, in
the plane. -/
theorem C75_galilean2D (V : Pos 2 ℝ) (p1 p2 : Ball 2) (h alpha : ℝ) :
    mkSing2 ⟨p1.center, fun i => p1.velocity i + V i, p1.r⟩
      ⟨p2.center, fun i => p2.velocity i + V i, p2.r⟩ h alpha = mkSing2 p1 p2 h alpha := by
  have e : velocityDiff (d := 2) ⟨p2.center, fun i => p2.velocity i + V i, p2.r⟩
      ⟨p1.center, fun i => p1.velocity i + V i, p1.r⟩ = velocityDiff p2 p1 := by
    funext i; simp only [velocityDiff]; ring
  simp only [mkSing2, mkSing, constructBase2, e]
  rfl

/-- C75: the same in space. -/
theorem C75_galilean3D (V : Pos 3 ℝ) (p1 p2 : Ball 3) (h alpha : ℝ) :
    mkSing3 ⟨p1.center, fun i => p1.velocity i + V i, p1.r⟩
      ⟨p2.center, fun i => p2.velocity i + V i, p2.r⟩ h alpha = mkSing3 p1 p2 h alpha := by
  have e : velocityDiff (d := 3) ⟨p1.center, fun i => p1.velocity i + V i, p1.r⟩
      ⟨p2.center, fun i => p2.velocity i + V i, p2.r⟩ = velocityDiff p1 p2 := by
    funext i; simp only [velocityDiff]; ring
  simp only [mkSing3, mkSing, constructBase3, e]
  rfl

end Cafes.Props
