/-
Property theorems: C111, SEM looks for the flow of least misfit to rigid motions among those driven by forces without resultant nor
torque on the particles.
-/
import Verif.Props.Misfit

namespace Cafes.Props
open Cafes Cafes.Spec Cafes.Driver Cafes.Particle Cafes.Geometry
variable {d N : ℕ} {A : Type*} [AddCommGroup A] [Module ℝ A]

/-! ### Specification -/

/-- The radius of a point of the surface of the particle `p`, given by its cell and its position in the cell. -/
noncomputable def radiusOf (D : Setup d N A) (p : Part d A) (pt : Pos d ℤ × Pos d ℝ) : Pos d ℝ :=
  fun j => entryPoint D.h pt j - p.center j

/-- The misfit of a flow `u` with the rigid motions `V + omega x r` of the particles given by `m`: the sum over the particles of
`area / number of points` times the sum over the surface points of the square of the difference of the velocities. -/
noncomputable def rigidMisfit (D : Setup d N A) (m : Fin D.parts.length → Pos d ℝ × A) (u : NodeVec d d ℝ) : ℝ :=
  ∑ r ∈ procs D.L, ∑ i : Fin D.parts.length, D.parts[i].area / (heldCount D D.parts[i] : ℝ) *
    ∑ k : Fin (heldPoints D D.parts[i] r).length, ∑ c,
      (interpPoint D.bf D.elem (globalToLocal D.L u) (heldPoints D D.parts[i] r)[k] c -
        ((m i).1 c + D.S.act (m i).2 (radiusOf D D.parts[i] (heldPoints D D.parts[i] r)[k]) c)) ^ 2

/-- The nodes of the mesh inside the particle `p`. -/
noncomputable def insideNodes (D : Setup d N A) (p : Part d A) : Finset (Pos d ℤ) :=
  (gridElems D.L).filter fun k => p.contains (node D.h k) = true

/-- Nodal forces that act at the free dofs of the nodes inside the particles, with no resultant and no torque on any of them. -/
structure Internal (D : Setup d N A) (δ : NodeVec d d ℝ) : Prop where
  inside : ∀ g c, δ g c ≠ 0 → (∃ p ∈ D.parts, g ∈ insideNodes D p) ∧ ¬ Constrained D.L D.bc g c
  force : ∀ p ∈ D.parts, ∑ g ∈ insideNodes D p, δ g = 0
  torque : ∀ p ∈ D.parts, ∑ g ∈ insideNodes D p, D.S.cross (fun j => node D.h g j - p.center j) (δ g) = 0

/-- The velocity `w` is a rigid motion at the nodes inside each particle. -/
def RigidInside (D : Setup d N A) (w : NodeVec d d ℝ) : Prop :=
  ∀ p ∈ D.parts, ∃ (V : Pos d ℝ) (a : A), ∀ g ∈ insideNodes D p, ∀ c,
    w g c = V c + D.S.act a (fun j => node D.h g j - p.center j) c

/-- The work of a force `y` applied at `x` in the rotation `a` is a pairing of `a` and of the torque. -/
def Duality (S : Spin d A) : Prop := ∃ B : A →ₗ[ℝ] A →ₗ[ℝ] ℝ, (∀ a x y, ∑ c, S.act a x c * y c = B a (S.cross x y)) ∧
  ∀ t, (∀ a, B a t = 0) → t = 0

theorem duality2 : Duality spin2 :=
  ⟨LinearMap.mul ℝ ℝ, fun a x y => by
    rw [Fin.sum_univ_two]
    simp [spin2, crossZ, cross2]
    ring, fun t ht => by simpa using ht 1⟩

theorem duality3 : Duality spin3 := by
  refine ⟨LinearMap.mk₂ ℝ (fun a b => ∑ c, a c * b c) ?_ ?_ ?_ ?_, fun a x y => ?_, fun t ht => ?_⟩
  · intro a b x; simp only [Pi.add_apply, add_mul, Finset.sum_add_distrib]
  · intro t a x; simp only [Pi.smul_apply, smul_eq_mul, mul_assoc, Finset.mul_sum]
  · intro a b x; simp only [Pi.add_apply, mul_add, Finset.sum_add_distrib]
  · intro t a x; simp only [Pi.smul_apply, smul_eq_mul, Finset.mul_sum]; exact Finset.sum_congr rfl fun _ _ => by ring
  · rw [LinearMap.mk₂_apply, Fin.sum_univ_three, Fin.sum_univ_three]
    simp [spin3, cross3]
    ring
  · have h := ht t
    rw [LinearMap.mk₂_apply] at h
    funext c
    exact mul_self_eq_zero.1 ((Finset.sum_eq_zero_iff_of_nonneg fun c _ => mul_self_nonneg (t c)).1 h c (Finset.mem_univ c))

/-! ### The simple layer is orthogonal to the rigid motions -/

/-- The rigid motion of the particle `i` nearest to the flow: the mean velocity and the mean rotation of `simple_layer`. -/
noncomputable def nearest (D : Setup d N A) (u : NodeVec d d ℝ) (i : Fin D.parts.length) : Pos d ℝ × A :=
  ((heldCount D D.parts[i] : ℝ)⁻¹ • ∑ r ∈ procs D.L, ∑ k : Fin (heldPoints D D.parts[i] r).length,
      interpPoint D.bf D.elem (globalToLocal D.L u) (heldPoints D D.parts[i] r)[k],
    (D.parts[i].cdR / (heldCount D D.parts[i] : ℝ)) • ∑ r ∈ procs D.L, ∑ k : Fin (heldPoints D D.parts[i] r).length,
      D.S.cross (radiusOf D D.parts[i] (heldPoints D D.parts[i] r)[k])
        (interpPoint D.bf D.elem (globalToLocal D.L u) (heldPoints D D.parts[i] r)[k]))

omit [AddCommGroup A] [Module ℝ A] in
theorem heldRadii_eq (D : Setup d N A) (p : Part d A) (r : Fin d → ℕ) :
    heldRadii D p r = (heldPoints D p r).map (radiusOf D p) := by
  obtain ⟨q, -, h1, h2⟩ := C44_aligned p.surface ((getDMBounds D.L r true).boxInside p.bbox) D.h p.center
  unfold heldRadii heldPoints
  rw [h2, ← h1, List.map_map]
  rfl

theorem layer_at (D : Setup d N A) (hrs : AllProcs D.L D.rs) (u : NodeVec d d ℝ) (r : Fin d → ℕ) (hr : r ∈ procs D.L)
    (i : Fin D.parts.length) (k : Fin (heldPoints D D.parts[i] r).length) :
    D.layer (D.interp u) r i k = interpPoint D.bf D.elem (globalToLocal D.L u) (heldPoints D D.parts[i] r)[k] -
      ((nearest D u i).1 + D.S.act (nearest D u i).2 (radiusOf D D.parts[i] (heldPoints D D.parts[i] r)[k])) := by
  have hi : ∀ r' (j : ℕ) (hj : j < (heldPoints D D.parts[i] r').length),
      D.interp u r' i j = interpPoint D.bf D.elem (globalToLocal D.L u) (heldPoints D D.parts[i] r')[j] := by
    intro r' j hj
    unfold Setup.interp
    rw [(data_surf D i i.2 r').1, List.getElem?_eq_getElem (l := heldPoints D D.parts[(i : ℕ)] r') hj]
    rfl
  have hlen : ∀ r', (heldRadii D D.parts[i] r').length = (heldPoints D D.parts[i] r').length := fun r' => by
    rw [heldRadii_eq, List.length_map]
  have hget : ∀ r' (j : ℕ) (h1 : j < (heldRadii D D.parts[i] r').length) (h2 : j < (heldPoints D D.parts[i] r').length),
      (heldRadii D D.parts[i] r')[j] = radiusOf D D.parts[i] (heldPoints D D.parts[i] r')[j] := by
    intro r' j h1 h2
    simp only [heldRadii_eq, List.getElem_map]
  have hk : (k : ℕ) < (heldRadii D D.parts[i] r).length := by rw [hlen]; exact k.2
  have h := C87_layer D hrs (D.interp u) r hr i ⟨k, hk⟩
  simp only at h
  rw [hi r k k.2] at h
  refine h.trans ?_
  have e1 : ∀ r', ∑ j : Fin (heldRadii D D.parts[i] r').length, D.interp u r' i j =
      ∑ j : Fin (heldPoints D D.parts[i] r').length,
        interpPoint D.bf D.elem (globalToLocal D.L u) (heldPoints D D.parts[i] r')[j] := fun r' =>
    Fintype.sum_equiv (finCongr (hlen r')) _ _ fun j => hi r' j (hlen r' ▸ j.2)
  have e2 : ∀ r', ∑ j : Fin (heldRadii D D.parts[i] r').length, D.S.cross (heldRadii D D.parts[i] r')[j] (D.interp u r' i j) =
      ∑ j : Fin (heldPoints D D.parts[i] r').length, D.S.cross (radiusOf D D.parts[i] (heldPoints D D.parts[i] r')[j])
        (interpPoint D.bf D.elem (globalToLocal D.L u) (heldPoints D D.parts[i] r')[j]) := fun r' =>
    Fintype.sum_equiv (finCongr (hlen r')) _ _ fun j => by
      have hj : (j : ℕ) < (heldPoints D D.parts[i] r').length := hlen r' ▸ j.2
      have := hi r' j hj
      rw [this]
      exact congrArg₂ _ (hget r' j j.2 hj) rfl
  rw [Finset.sum_congr rfl fun r' _ => e1 r', Finset.sum_congr rfl fun r' _ => e2 r', sub_sub]
  have := hget r k hk k.2
  show _ - (_ + D.S.act _ (heldRadii D D.parts[i] r)[(k : ℕ)]) = _
  rw [this]
  rfl


/-- A field minus its mean rigid motion does no work in rigid motions, on balanced points. -/
theorem rest_orthogonal {J : Type*} [Fintype J] [Nonempty J] {S : Spin d A} (hS : SpinLaws S) (hA : ActLaws S) (hB : Duality S)
    (cdR : ℝ) (U X : J → Pos d ℝ) (hX : ∑ j, X j = 0)
    (hI : ∀ w : A, (cdR / (Fintype.card J : ℝ)) • ∑ j, S.cross (X j) (S.act w (X j)) = w) (V : Pos d ℝ) (a : A) :
    ∑ j, ∑ c, (U j - ((Fintype.card J : ℝ)⁻¹ • ∑ j, U j +
      S.act ((cdR / (Fintype.card J : ℝ)) • ∑ j, S.cross (X j) (U j)) (X j))) c * (V c + S.act a (X j) c) = 0 := by
  obtain ⟨B, hB, -⟩ := hB
  have hn : (Fintype.card J : ℝ) ≠ 0 := by exact_mod_cast Fintype.card_ne_zero
  set n : ℝ := (Fintype.card J : ℝ)
  set m := n⁻¹ • ∑ j, U j with hm
  set w := (cdR / n) • ∑ j, S.cross (X j) (U j) with hw
  have hact : ∀ (b : A) (f : J → Pos d ℝ), ∑ j, S.act b (f j) = S.act b (∑ j, f j) := fun b f =>
    (map_sum (AddMonoidHom.mk' (S.act b) (hA.add_right b)) f _).symm
  have hcl : ∀ (y : Pos d ℝ) (f : J → Pos d ℝ), ∑ j, S.cross (f j) y = S.cross (∑ j, f j) y := fun y f =>
    (map_sum (AddMonoidHom.mk' (fun x => S.cross x y) (fun x x' => hS.add_left x x' y)) f _).symm
  have h1 : ∑ j, (U j - (m + S.act w (X j))) = 0 := by
    rw [Finset.sum_sub_distrib, Finset.sum_add_distrib, hact, hX, act_zero hA, add_zero, Finset.sum_const, hm,
      ← Nat.cast_smul_eq_nsmul ℝ, smul_smul]
    show _ - (n * n⁻¹) • _ = 0
    rw [mul_inv_cancel₀ hn, one_smul, sub_self]
  have h2 : ∑ j, S.cross (X j) (U j - (m + S.act w (X j))) = 0 := by
    have e : ∀ j, S.cross (X j) (U j - (m + S.act w (X j))) =
        S.cross (X j) (U j) - (S.cross (X j) m + S.cross (X j) (S.act w (X j))) := by
      intro j
      rw [sub_eq_add_neg, hS.add_right, cross_neg hS, hS.add_right, sub_eq_add_neg]
    simp only [e, Finset.sum_sub_distrib, Finset.sum_add_distrib, hcl, hX, cross_zero_left hS, zero_add]
    by_cases hc : cdR / n = 0
    · have hz : ∀ v : A, v = 0 := fun v => by
        have := hI v
        rw [hc, zero_smul] at this
        exact this.symm
      exact hz _
    · have := (hI w).trans hw
      rw [smul_right_injective A hc this, sub_self]
  have e1 : ∀ j, ∑ c, (U j - (m + S.act w (X j))) c * (V c + S.act a (X j) c) =
      ∑ c, V c * (U j - (m + S.act w (X j))) c + B a (S.cross (X j) (U j - (m + S.act w (X j)))) := by
    intro j
    rw [← hB, ← Finset.sum_add_distrib]
    exact Finset.sum_congr rfl fun c _ => by ring
  rw [Finset.sum_congr rfl fun j _ => e1 j, Finset.sum_add_distrib, ← map_sum, h2, map_zero, add_zero, Finset.sum_comm]
  refine Finset.sum_eq_zero fun c _ => ?_
  rw [← Finset.mul_sum, ← Finset.sum_apply, h1]
  exact mul_zero _

/-- The points of the surface of a particle on all the processes. -/
abbrev SurfPoint (D : Setup d N A) (p : Part d A) : Type := (r : {r // r ∈ procs D.L}) × Fin (heldPoints D p r.1).length

omit [AddCommGroup A] [Module ℝ A] in
theorem sum_points {M : Type*} [AddCommMonoid M] (D : Setup d N A) (p : Part d A)
    (f : (r : Fin d → ℕ) → Fin (heldPoints D p r).length → M) :
    ∑ r ∈ procs D.L, ∑ k, f r k = ∑ j : SurfPoint D p, f j.1.1 j.2 := by
  rw [Fintype.sum_sigma, ← Finset.sum_coe_sort]

section orthogonal
variable (D : Setup d N A) (hrs : AllProcs D.L D.rs) (hS : SpinLaws D.S) (hA : ActLaws D.S) (hB : Duality D.S)
  (hb : ∀ p ∈ D.parts, (∃ r ∈ procs D.L, heldPoints D p r ≠ []) ∧
    Balanced D.S p.cdR (D.rs.map (heldRadii D p)).flatten)
include hrs

omit [AddCommGroup A] [Module ℝ A] in
theorem radii_sum (M : Type*) [AddCommMonoid M] (φ : Pos d ℝ → M) (p : Part d A) :
    ((D.rs.map (heldRadii D p)).flatten.map φ).sum =
      ∑ r ∈ procs D.L, ∑ k : Fin (heldPoints D p r).length, φ (radiusOf D p (heldPoints D p r)[k]) := by
  have hset : D.rs.toFinset = procs D.L := by
    ext s; rw [List.mem_toFinset]; exact hrs.2 s
  rw [sum_flatten_map, ← List.sum_toFinset _ hrs.1, hset]
  refine Finset.sum_congr rfl fun r _ => ?_
  rw [heldRadii_eq, List.map_map, ← List.sum_ofFn]
  congr 1
  apply List.ext_getElem
  · simp
  · intro n h1 h2; simp

include hS hA hB hb in
theorem layer_orthogonal (u : NodeVec d d ℝ) (i : Fin D.parts.length) (V : Pos d ℝ) (a : A) :
    ∑ r ∈ procs D.L, ∑ k : Fin (heldPoints D D.parts[i] r).length, ∑ c, D.layer (D.interp u) r i k c *
      (V c + D.S.act a (radiusOf D D.parts[i] (heldPoints D D.parts[i] r)[k]) c) = 0 := by
  have hp : D.parts[i] ∈ D.parts := List.getElem_mem _
  obtain ⟨⟨r0, hr0, hne⟩, hbal⟩ := hb _ hp
  let J := SurfPoint D D.parts[i]
  have hcard : Fintype.card J = heldCount D D.parts[i] := by
    have := sum_points D D.parts[i] fun _ _ => (1 : ℕ)
    simp only [Finset.sum_const, Finset.card_univ, Fintype.card_fin, smul_eq_mul, mul_one] at this
    exact this.symm
  have : Nonempty J := ⟨⟨⟨r0, hr0⟩, ⟨0, List.length_pos_iff.2 hne⟩⟩⟩
  have hlen : ((D.rs.map (heldRadii D D.parts[i])).flatten).length = heldCount D D.parts[i] := by
    have := radii_sum D hrs ℕ (fun _ => 1) D.parts[i]
    simp only [Finset.sum_const, Finset.card_univ, Fintype.card_fin, smul_eq_mul, mul_one, List.map_const',
      List.sum_replicate] at this
    exact this
  have hX := hbal.bary
  have hX' := radii_sum D hrs (Pos d ℝ) id D.parts[i]
  rw [List.map_id, hX, sum_points D D.parts[i] fun r k => id (radiusOf D D.parts[i] (heldPoints D D.parts[i] r)[k])] at hX'
  have key := rest_orthogonal hS hA hB D.parts[i].cdR
    (fun j : J => interpPoint D.bf D.elem (globalToLocal D.L u) (heldPoints D D.parts[i] j.1.1)[j.2])
    (fun j : J => radiusOf D D.parts[i] (heldPoints D D.parts[i] j.1.1)[j.2]) hX'.symm
    (fun w => by
      have h1 := hbal.inertia w
      rw [radii_sum D hrs, hlen, sum_points D D.parts[i] fun r k => D.S.cross (radiusOf D D.parts[i] (heldPoints D D.parts[i] r)[k])
            (D.S.act w (radiusOf D D.parts[i] (heldPoints D D.parts[i] r)[k]))] at h1
      rw [hcard]
      exact h1) V a
  rw [← sum_points D D.parts[i] fun r k => interpPoint D.bf D.elem (globalToLocal D.L u) (heldPoints D D.parts[i] r)[k],
    ← sum_points D D.parts[i] fun r k => D.S.cross (radiusOf D D.parts[i] (heldPoints D D.parts[i] r)[k])
      (interpPoint D.bf D.elem (globalToLocal D.L u) (heldPoints D D.parts[i] r)[k]), hcard] at key
  rw [sum_points D D.parts[i] fun r k => ∑ c, D.layer (D.interp u) r i k c *
      (V c + D.S.act a (radiusOf D D.parts[i] (heldPoints D D.parts[i] r)[k]) c)]
  refine Eq.trans (Finset.sum_congr rfl fun j _ => Finset.sum_congr rfl fun c _ => ?_) key
  rw [layer_at D hrs u j.1.1 j.1.2 i j.2]
  rfl

include hS hA hB hb in
/-- The misfit of another flow with other rigid motions. -/
theorem rigid_pyth (hL : ∀ i, (D.L i).WF) (hh : ∀ i, 0 < D.h i) (hel : IsQ1 D.elem) (u v : NodeVec d d ℝ)
    (m : Fin D.parts.length → Pos d ℝ × A) :
    rigidMisfit D m (u + v) = rigidMisfit D (nearest D u) u + 2 * Cafes.dot D.L (D.sl (D.layer (D.interp u))) v +
      rigidMisfit D (fun i => m i - nearest D u i) v := by
  have hneg : ∀ (a b : A) x, D.S.act (a - b) x = D.S.act a x - D.S.act b x := by
    intro a b x
    have h1 := hA.add_left (a - b) b x
    rw [sub_add_cancel] at h1
    rw [h1, add_sub_cancel_right]
  have hz : ∑ r ∈ procs D.L, ∑ i : Fin D.parts.length, D.parts[i].area / (heldCount D D.parts[i] : ℝ) *
      ∑ k : Fin (heldPoints D D.parts[i] r).length, ∑ c, D.layer (D.interp u) r i k c *
        ((m i - nearest D u i).1 c + D.S.act (m i - nearest D u i).2 (radiusOf D D.parts[i] (heldPoints D D.parts[i] r)[k]) c) =
      0 := by
    rw [Finset.sum_comm]
    refine Finset.sum_eq_zero fun i _ => ?_
    rw [← Finset.mul_sum, layer_orthogonal D hrs hS hA hB hb u i, mul_zero]
  have hs := C87_spread D hL hh hel (D.layer (D.interp u)) v
  have e : rigidMisfit D m (u + v) = rigidMisfit D (nearest D u) u + 2 * (Cafes.dot D.L (D.sl (D.layer (D.interp u))) v - 0) +
      rigidMisfit D (fun i => m i - nearest D u i) v := by
    rw [← hz, hs]
    unfold rigidMisfit
    simp only [Finset.mul_sum, ← Finset.sum_add_distrib, ← Finset.sum_sub_distrib]
    refine Finset.sum_congr rfl fun r hr => Finset.sum_congr rfl fun i _ => Finset.sum_congr rfl fun k _ =>
      Finset.sum_congr rfl fun c _ => ?_
    have h1 := interpPoint_smul D u v 1 (heldPoints D D.parts[i] r)[k] c
    rw [one_smul, one_mul] at h1
    have h2 := congrFun (layer_at D hrs u r hr i k) c
    simp only [Pi.sub_apply, Pi.add_apply] at h2
    rw [h1, h2, Prod.snd_sub, hneg, Prod.fst_sub]
    simp only [Pi.sub_apply]
    ring
  rw [e, sub_zero]

end orthogonal

theorem rigidMisfit_nonneg (D : Setup d N A) (ha : ∀ P ∈ D.parts, 0 ≤ P.area) (m) (v : NodeVec d d ℝ) : 0 ≤ rigidMisfit D m v :=
  Finset.sum_nonneg fun _ _ => Finset.sum_nonneg fun i _ => mul_nonneg
    (div_nonneg (ha _ (List.getElem_mem _)) (Nat.cast_nonneg _))
    (Finset.sum_nonneg fun _ _ => Finset.sum_nonneg fun _ _ => sq_nonneg _)

/-! ### Internal forces do no work in rigid motions -/

theorem inside_disjoint (D : Setup d N A) (hd : Disjoint D.parts) (i j : Fin D.parts.length) (hij : i ≠ j) (g : Pos d ℤ)
    (hi : g ∈ insideNodes D D.parts[i]) (hj : g ∈ insideNodes D D.parts[j]) : False := by
  have h1 := (Finset.mem_filter.1 hi).2
  have h2 := (Finset.mem_filter.1 hj).2
  have hp := List.pairwise_iff_getElem.1 hd
  rcases lt_or_gt_of_ne hij with h | h
  · have := hp i j i.2 j.2 h _ h1
    exact absurd (h2.symm.trans this) (by simp)
  · have := hp j i j.2 i.2 h _ h2
    exact absurd (h1.symm.trans this) (by simp)

theorem internal_work (D : Setup d N A) (hB : Duality D.S) (hd : Disjoint D.parts) (δ w : NodeVec d d ℝ) (hδ : Internal D δ)
    (hw : RigidInside D w) : Cafes.dot D.L δ w = 0 := by
  classical
  obtain ⟨B, hB, -⟩ := hB
  have hsub : Finset.univ.biUnion (fun i : Fin D.parts.length => insideNodes D D.parts[i]) ⊆ gridNodes D.L := by
    intro g hg
    obtain ⟨i, -, hi⟩ := Finset.mem_biUnion.1 hg
    have := (mem_gridElems D.L g).1 (Finset.mem_filter.1 hi).1
    exact (mem_gridNodes D.L g).2 fun j => ⟨(this j).1, lt_of_lt_of_le (this j).2 (nElem_le _)⟩
  unfold Cafes.dot
  rw [← Finset.sum_subset hsub, Finset.sum_biUnion]
  · refine Finset.sum_eq_zero fun i _ => ?_
    obtain ⟨V, a, h⟩ := hw D.parts[i] (List.getElem_mem _)
    have e : ∀ g ∈ insideNodes D D.parts[i], ∑ c, δ g c * w g c =
        ∑ c, V c * δ g c + B a (D.S.cross (fun j => node D.h g j - D.parts[i].center j) (δ g)) := by
      intro g hg
      rw [← hB, ← Finset.sum_add_distrib]
      refine Finset.sum_congr rfl fun c _ => ?_
      rw [h g hg c]
      ring
    rw [Finset.sum_congr rfl e, Finset.sum_add_distrib, ← map_sum, hδ.torque D.parts[i] (List.getElem_mem _), map_zero, add_zero,
      Finset.sum_comm]
    refine Finset.sum_eq_zero fun c _ => ?_
    rw [← Finset.mul_sum, ← Finset.sum_apply, hδ.force D.parts[i] (List.getElem_mem _)]
    exact mul_zero _
  · intro i _ j _ hij
    exact Finset.disjoint_left.2 fun g hi hj => inside_disjoint D hd i j hij g hi hj
  · intro g _ hg
    refine Finset.sum_eq_zero fun c _ => ?_
    by_contra hne
    obtain ⟨⟨p, hp, hgp⟩, -⟩ := hδ.inside g c (left_ne_zero_of_mul hne)
    obtain ⟨i, hi, rfl⟩ := List.getElem_of_mem hp
    exact hg (Finset.mem_biUnion.2 ⟨⟨i, hi⟩, Finset.mem_univ _, hgp⟩)

/-! ### The flow of least misfit -/

/-- The flow `u, p` has the nodal forces and boundary values `f`, and its misfit with the rigid motions `m` of the particles is not
larger than that of any flow obtained by adding internal forces, with any rigid motions. -/
def LeastRigidMisfit (D : Setup d N A) (Lp : Fin d → Dir)
    (F : NodeVec d d ℝ → NodeVec d 1 ℝ → NodeVec d d ℝ × NodeVec d 1 ℝ) (f u : NodeVec d d ℝ) (p : NodeVec d 1 ℝ)
    (m : Fin D.parts.length → Pos d ℝ × A) : Prop :=
  Solves D.L Lp F f 0 u p ∧ ∀ δ u' p' m', Internal D δ → Solves D.L Lp F (f + δ) 0 u' p' →
    rigidMisfit D m u ≤ rigidMisfit D m' u'

section optimal
variable (D : Setup d N A) (hL : ∀ i, (D.L i).WF) (hrs : AllProcs D.L D.rs) (hh : ∀ i, 0 < D.h i) (hel : IsQ1 D.elem)
  (hS : SpinLaws D.S) (hA : ActLaws D.S) (hB : Duality D.S) (hd : Disjoint D.parts)
  (hb : ∀ p ∈ D.parts, (∃ r ∈ procs D.L, heldPoints D p r ≠ []) ∧
    Balanced D.S p.cdR (D.rs.map (heldRadii D p)).flatten)
  (Lp : Fin d → Dir) (F : NodeVec d d ℝ → NodeVec d 1 ℝ → NodeVec d d ℝ × NodeVec d 1 ℝ)
  (hF : StokesLike D.L Lp D.bc F)
include hL hrs hF

/-- The work of a right-hand side of the second problem in a flow driven by `δ`, by reciprocity. -/
theorem work_slope (s v w δ : NodeVec d d ℝ) (p q : NodeVec d 1 ℝ)
    (hδ : ∀ g ∈ gridNodes D.L, ∀ c, Constrained D.L D.bc g c → δ g c = 0)
    (hv : Solves D.L Lp F δ 0 v p)
    (hw : Solves D.L Lp F (setNullDirichletOnRHS D.L D.rs D.bc s) 0 w q) :
    Cafes.dot D.L s v = Cafes.dot D.L δ w := by
  have hn : ∀ g ∈ gridNodes D.L, ∀ c, Constrained D.L D.bc g c →
      setNullDirichletOnRHS D.L D.rs D.bc s g c = 0 := fun g hg c hc => by
    rw [C27_null D.L hL D.rs hrs, if_pos ⟨hg, hc⟩]
  rw [← hF.recip _ _ w v q p hw hv hn hδ]
  unfold Cafes.dot
  refine Finset.sum_congr rfl fun g hg => Finset.sum_congr rfl fun c _ => ?_
  rw [C27_null D.L hL D.rs hrs]
  split_ifs with hc
  · rw [hF.held _ _ _ _ hv g hg c hc.2, hδ g hg c hc.2, mul_zero, mul_zero]
  · rfl

include hh hel hS hA hB hd hb in
/-- C111 (sufficient): if the flow of the second problem of SEM is rigid at the nodes inside each particle, no flow with the same data
but for internal forces is nearer to rigid motions of the particles on their surfaces. -/
theorem rigid_least (f δ u u' w : NodeVec d d ℝ) (p p' q : NodeVec d 1 ℝ)
    (hu : Solves D.L Lp F f 0 u p) (hδ : Internal D δ) (hu' : Solves D.L Lp F (f + δ) 0 u' p')
    (hw : Solves D.L Lp F (setNullDirichletOnRHS D.L D.rs D.bc (D.sl (D.layer (D.interp u)))) 0 w q)
    (h0 : RigidInside D w) (m) : rigidMisfit D m u' = rigidMisfit D (nearest D u) u +
      rigidMisfit D (fun i => m i - nearest D u i) (u' - u) := by
  have hv : Solves D.L Lp F δ 0 (u' - u) (p' - p) := by
    have e := hF.lin 1 (-1) u' p' u p
    simp only [one_smul, neg_smul, ← sub_eq_add_neg] at e
    refine ⟨fun g hg c => ?_, fun y hy => ?_⟩
    · rw [e]
      show (F u' p').1 g c - (F u p).1 g c = δ g c
      rw [hu'.1 g hg c, hu.1 g hg c]
      show f g c + δ g c - f g c = _
      ring
    · rw [e]
      show (F u' p').2 y 0 - (F u p).2 y 0 = 0
      rw [hu'.2 y hy, hu.2 y hy, sub_self]
  have h1 := work_slope D hL hrs Lp F hF _ (u' - u) w δ _ q (fun g _ c hc => by
    by_contra hne
    exact (hδ.inside g c hne).2 hc) hv hw
  have h2 := rigid_pyth D hrs hS hA hB hb hL hh hel u (u' - u) m
  rw [add_sub_cancel, h1, internal_work D hB hd δ w hδ h0, mul_zero, add_zero] at h2
  exact h2

include hh hel hS hA hB hd hb in
/-- C111 (optimality): a particle problem whose particles hold no constrained node; among the flows with the same data but for
internal forces, a flow is the nearest to rigid motions of the particles on their surfaces if and only if the flow of the second problem
of SEM is a rigid motion at the nodes inside each particle. -/
theorem C111_optimal (ha : ∀ P ∈ D.parts, 0 ≤ P.area)
    (hfree : ∀ P ∈ D.parts, ∀ g ∈ insideNodes D P, ∀ c, ¬ Constrained D.L D.bc g c)
    (hsolv : ∀ f, ∃ v p, Solves D.L Lp F (setNullDirichletOnRHS D.L D.rs D.bc f) 0 v p)
    (f u w : NodeVec d d ℝ) (p q : NodeVec d 1 ℝ) (hu : Solves D.L Lp F f 0 u p)
    (hw : Solves D.L Lp F (setNullDirichletOnRHS D.L D.rs D.bc (D.sl (D.layer (D.interp u)))) 0 w q) :
    RigidInside D w ↔ ∃ m, LeastRigidMisfit D Lp F f u p m := by
  classical
  constructor
  · refine fun h0 => ⟨nearest D u, hu, fun δ u' p' m' hδ hu' => ?_⟩
    rw [rigid_least D hL hrs hh hel hS hA hB hd hb Lp F hF f δ u u' w p p' q hu hδ hu' hw h0 m']
    have := rigidMisfit_nonneg D ha (fun i => m' i - nearest D u i) (u' - u)
    linarith
  · rintro ⟨m, -, hmin⟩
    have hz : rigidMisfit D (nearest D u) u ≤ rigidMisfit D m u := by
      have h1 := rigid_pyth D hrs hS hA hB hb hL hh hel u 0 m
      have h2 : Cafes.dot D.L (D.sl (D.layer (D.interp u))) 0 = 0 :=
        Finset.sum_eq_zero fun g _ => Finset.sum_eq_zero fun c _ => mul_zero _
      rw [add_zero, h2, mul_zero, add_zero] at h1
      have := rigidMisfit_nonneg D ha (fun i => m i - nearest D u i) 0
      linarith
    have hwork : ∀ δ, Internal D δ → Cafes.dot D.L δ w = 0 := by
      intro δ hδ
      have hen : setNullDirichletOnRHS D.L D.rs D.bc δ = δ := by
        funext g c
        rw [C27_null D.L hL D.rs hrs]
        split_ifs with h1
        · by_contra hne
          exact (hδ.inside g c (Ne.symm hne)).2 h1.2
        · rfl
      obtain ⟨v, pv, hv⟩ := hsolv δ
      rw [hen] at hv
      have hs := work_slope D hL hrs Lp F hF _ v w δ _ q (fun g _ c hc => by
        by_contra hne
        exact (hδ.inside g c hne).2 hc) hv hw
      have hall : ∀ t : ℝ, 0 ≤ 2 * t * Cafes.dot D.L δ w + t ^ 2 * rigidMisfit D (fun _ => 0) v := by
        intro t
        have hsol : Solves D.L Lp F (f + t • δ) 0 (u + t • v) (p + t • pv) := by
          have e1 := hF.lin 1 t u p v pv
          simp only [one_smul] at e1
          refine ⟨fun g' hg' c' => ?_, fun y hy => ?_⟩
          · rw [e1]
            show (F u p).1 g' c' + t * (F v pv).1 g' c' = f g' c' + t * δ g' c'
            rw [hu.1 g' hg' c', hv.1 g' hg' c']
          · rw [e1]
            show (F u p).2 y 0 + t * (F v pv).2 y 0 = 0
            rw [hu.2 y hy, hv.2 y hy]
            simp
        have hint : Internal D (t • δ) := by
          refine ⟨fun g c hne => hδ.inside g c (right_ne_zero_of_mul hne), fun p hp => ?_, fun p hp => ?_⟩
          · show ∑ g ∈ insideNodes D p, t • δ g = 0
            rw [← Finset.smul_sum, hδ.force p hp, smul_zero]
          · show ∑ g ∈ insideNodes D p, D.S.cross _ (t • δ g) = 0
            simp only [hS.smul_right]
            rw [← Finset.smul_sum, hδ.torque p hp, smul_zero]
        have h1 := hmin (t • δ) (u + t • v) (p + t • pv) (nearest D u) hint hsol
        have h2 := rigid_pyth D hrs hS hA hB hb hL hh hel u (t • v) (nearest D u)
        have h3 : Cafes.dot D.L (D.sl (D.layer (D.interp u))) (t • v) = t * Cafes.dot D.L δ w := by
          rw [← hs]
          unfold Cafes.dot
          simp only [Finset.mul_sum, Pi.smul_apply, smul_eq_mul]
          exact Finset.sum_congr rfl fun _ _ => Finset.sum_congr rfl fun _ _ => by ring
        have h4 : rigidMisfit D (fun i => nearest D u i - nearest D u i) (t • v) = t ^ 2 * rigidMisfit D (fun _ => 0) v := by
          unfold rigidMisfit
          simp only [Finset.mul_sum]
          refine Finset.sum_congr rfl fun r hr => Finset.sum_congr rfl fun i _ => Finset.sum_congr rfl fun k _ =>
            Finset.sum_congr rfl fun c _ => ?_
          have h1 := interpPoint_smul D 0 v t (heldPoints D D.parts[i] r)[k] c
          have e2 : interpPoint D.bf D.elem (globalToLocal D.L 0) (heldPoints D D.parts[i] r)[k] c = 0 := by
            rw [interpPoint_apply]
            exact Finset.sum_eq_zero fun _ _ => by simp [globalToLocal]
          rw [zero_add, e2, zero_add] at h1
          rw [h1, sub_self]
          simp only [Prod.fst_zero, Prod.snd_zero, Pi.zero_apply, zero_act hA, add_zero, sub_zero]
          ring
        rw [h3, h4] at h2
        linarith
      have hn := rigidMisfit_nonneg D ha (fun _ => 0) v
      set b := Cafes.dot D.L δ w
      set s := rigidMisfit D (fun _ => 0) v
      by_contra hb0
      have h1 := hall (-b / (s + 1))
      have hs1 : 0 < s + 1 := by linarith
      have h2 : 2 * (-b / (s + 1)) * b + (-b / (s + 1)) ^ 2 * s = -(b ^ 2 * (s + 2)) / (s + 1) ^ 2 := by
        field_simp
        ring
      rw [h2] at h1
      have h3 : 0 < b ^ 2 * (s + 2) / (s + 1) ^ 2 := by positivity
      rw [neg_div] at h1
      linarith
    intro P hP
    obtain ⟨i, hi, rfl⟩ := List.getElem_of_mem hP
    set P := D.parts[i] with hPd
    obtain ⟨B, hB1, hB2⟩ := hB
    obtain ⟨⟨V, a⟩, hx⟩ := least_squares (V := Pos d ℝ × A) (ι := {g // g ∈ insideNodes D P} × Fin d)
      (fun x k => x.1 k.2 + D.S.act x.2 (fun j => node D.h k.1.1 j - P.center j) k.2)
      (isLinear_of _ fun b b' x x' => by
        funext k
        show (b • x.1 + b' • x'.1) k.2 + D.S.act (b • x.2 + b' • x'.2) _ k.2 = b * _ + b' * _
        rw [hA.add_left, hA.smul_left, hA.smul_left]
        simp only [Pi.add_apply, Pi.smul_apply, smul_eq_mul]
        ring) (fun k => - w k.1.1 k.2)
    set R : Pos d ℤ → Fin d → ℝ := fun g c => - w g c + (V c + D.S.act a (fun j => node D.h g j - P.center j) c) with hR
    have hcoe : ∀ φ : Pos d ℤ → Fin d → ℝ, ∑ k : {g // g ∈ insideNodes D P} × Fin d, φ k.1.1 k.2 =
        ∑ g ∈ insideNodes D P, ∑ c, φ g c := by
      intro φ
      rw [Fintype.sum_prod_type]
      exact Finset.sum_coe_sort (insideNodes D P) fun g => ∑ c, φ g c
    have horth : ∀ (V' : Pos d ℝ) (a' : A), ∑ g ∈ insideNodes D P, ∑ c, R g c *
        (V' c + D.S.act a' (fun j => node D.h g j - P.center j) c) = 0 := by
      intro V' a'
      set b := ∑ g ∈ insideNodes D P, ∑ c, R g c * (V' c + D.S.act a' (fun j => node D.h g j - P.center j) c) with hbd
      set s := ∑ g ∈ insideNodes D P, ∑ c, (V' c + D.S.act a' (fun j => node D.h g j - P.center j) c) ^ 2 with hsd
      have hn : 0 ≤ s := Finset.sum_nonneg fun _ _ => Finset.sum_nonneg fun _ _ => sq_nonneg _
      have hall : ∀ t : ℝ, 0 ≤ 2 * t * b + t ^ 2 * s := by
        intro t
        have h1 := hx (V + t • V', a + t • a')
        rw [hcoe fun g c => (- w g c + (V c + D.S.act a (fun j => node D.h g j - P.center j) c)) ^ 2,
          hcoe fun g c => (- w g c + ((V + t • V') c + D.S.act (a + t • a') (fun j => node D.h g j - P.center j) c)) ^ 2] at h1
        have h2 : ∑ g ∈ insideNodes D P, ∑ c, (- w g c + ((V + t • V') c +
            D.S.act (a + t • a') (fun j => node D.h g j - P.center j) c)) ^ 2 =
            ∑ g ∈ insideNodes D P, ∑ c, (- w g c + (V c + D.S.act a (fun j => node D.h g j - P.center j) c)) ^ 2 +
              (2 * t * b + t ^ 2 * s) := by
          rw [hbd, hsd]
          simp only [Finset.mul_sum, ← Finset.sum_add_distrib]
          refine Finset.sum_congr rfl fun g _ => Finset.sum_congr rfl fun c _ => ?_
          rw [hA.add_left, hA.smul_left]
          simp only [hR, Pi.add_apply, Pi.smul_apply, smul_eq_mul]
          ring
        rw [h2] at h1
        linarith
      by_contra hb0
      have h1 := hall (-b / (s + 1))
      have hs1 : 0 < s + 1 := by linarith
      have h2 : 2 * (-b / (s + 1)) * b + (-b / (s + 1)) ^ 2 * s = -(b ^ 2 * (s + 2)) / (s + 1) ^ 2 := by
        field_simp
        ring
      rw [h2] at h1
      have h3 : 0 < b ^ 2 * (s + 2) / (s + 1) ^ 2 := by positivity
      rw [neg_div] at h1
      linarith
    set δ : NodeVec d d ℝ := fun g c => if g ∈ insideNodes D P then R g c else 0 with hδd
    have hint : Internal D δ := by
      refine ⟨fun g c hne => ?_, fun P' hP' => ?_, fun P' hP' => ?_⟩
      · by_cases hg : g ∈ insideNodes D P
        · exact ⟨⟨P, hP, hg⟩, hfree P hP g hg c⟩
        · exact absurd (if_neg hg) hne
      · obtain ⟨j, hj, rfl⟩ := List.getElem_of_mem hP'
        by_cases hij : j = i
        · subst hij
          funext c
          have h1 := horth (Pi.single c 1) 0
          rw [Finset.sum_apply]
          refine Eq.trans (Finset.sum_congr rfl fun g hg => ?_) h1
          show (if g ∈ insideNodes D P then R g c else 0) = _
          rw [if_pos hg, zero_act hA, Finset.sum_eq_single c]
          · simp
          · intro c' _ hc'; simp [hc']
          · simp
        · refine Finset.sum_eq_zero fun g hg => ?_
          funext c
          refine if_neg fun hg' => ?_
          exact inside_disjoint D hd ⟨j, hj⟩ ⟨i, hi⟩ (by simpa using hij) g hg hg'
      · obtain ⟨j, hj, rfl⟩ := List.getElem_of_mem hP'
        by_cases hij : j = i
        · subst hij
          refine hB2 _ fun a' => ?_
          have h1 := horth 0 a'
          rw [map_sum]
          refine Eq.trans (Finset.sum_congr rfl fun g hg => ?_) h1
          rw [← hB1]
          refine Finset.sum_congr rfl fun c _ => ?_
          show _ * (if g ∈ insideNodes D P then R g c else 0) = _
          rw [if_pos hg, Pi.zero_apply, zero_add, mul_comm]
        · refine Finset.sum_eq_zero fun g hg => ?_
          have : δ g = 0 := by
            funext c
            refine if_neg fun hg' => ?_
            exact inside_disjoint D hd ⟨j, hj⟩ ⟨i, hi⟩ (by simpa using hij) g hg hg'
          rw [this, cross_zero hS]
    have h1 := hwork δ hint
    have hsub : insideNodes D P ⊆ gridNodes D.L := by
      intro g hg
      have := (mem_gridElems D.L g).1 (Finset.mem_filter.1 hg).1
      exact (mem_gridNodes D.L g).2 fun j => ⟨(this j).1, lt_of_lt_of_le (this j).2 (nElem_le _)⟩
    have h2 : Cafes.dot D.L δ w = ∑ g ∈ insideNodes D P, ∑ c, R g c * w g c := by
      unfold Cafes.dot
      rw [← Finset.sum_subset hsub]
      · refine Finset.sum_congr rfl fun g hg => Finset.sum_congr rfl fun c _ => ?_
        show (if g ∈ insideNodes D P then R g c else 0) * _ = _
        rw [if_pos hg]
      · intro g _ hg
        refine Finset.sum_eq_zero fun c _ => ?_
        show (if g ∈ insideNodes D P then R g c else 0) * _ = _
        rw [if_neg hg, zero_mul]
    have h3 : ∑ g ∈ insideNodes D P, ∑ c, R g c ^ 2 = 0 := by
      have h4 := horth V a
      have : ∑ g ∈ insideNodes D P, ∑ c, R g c ^ 2 = ∑ g ∈ insideNodes D P, ∑ c, R g c *
          (V c + D.S.act a (fun j => node D.h g j - P.center j) c) - ∑ g ∈ insideNodes D P, ∑ c, R g c * w g c := by
        simp only [← Finset.sum_sub_distrib]
        refine Finset.sum_congr rfl fun g _ => Finset.sum_congr rfl fun c _ => ?_
        simp only [hR]
        ring
      rw [this, h4, ← h2, h1, sub_zero]
    refine ⟨V, a, fun g hg c => ?_⟩
    have h5 := (Finset.sum_eq_zero_iff_of_nonneg fun g _ => Finset.sum_nonneg fun c _ => sq_nonneg _).1 h3 g hg
    have h6 := pow_eq_zero_iff (two_ne_zero) |>.1 ((Finset.sum_eq_zero_iff_of_nonneg fun c _ => sq_nonneg _).1 h5 c (Finset.mem_univ c))
    simp only [hR] at h6
    linarith

end optimal

/-! ### The driver -/

/-- When the samples of the surface lie in the mesh and are balanced, so are the points held by the processes. -/
theorem held_balanced (D : Setup d N A) (hG : GoodMesh D.L) (hh : ∀ i, 0 < D.h i) (hrs : AllProcs D.L D.rs)
    (hs : ∀ p ∈ D.parts, SurfaceIn D.L D.h p ∧ p.surface ≠ [] ∧
      Balanced D.S p.cdR (p.surface.map fun x => posSub x p.center)) :
    ∀ p ∈ D.parts, (∃ r ∈ procs D.L, heldPoints D p r ≠ []) ∧ Balanced D.S p.cdR (D.rs.map (heldRadii D p)).flatten := by
  intro p hp
  obtain ⟨h1, h2, h3⟩ := hs p hp
  obtain ⟨i, hi, rfl⟩ := List.getElem_of_mem hp
  obtain ⟨hperm, -⟩ := radial_perm D.fluid D.L hG D.h hh D.scale D.parts[i] D.rs hrs.2 hrs.1 h1.nonneg h1.mesh h1.bbox
    (fun _ => PartData.empty) (fun _ => rfl)
  have hd : ∀ r, (setMaterials D.fluid D.L D.h D.scale D.parts[i] (fun _ => PartData.empty) r).radial =
      heldRadii D D.parts[i] r := by
    intro r
    have := (data_surf D i hi r).2.1
    unfold Setup.data at this
    rw [List.getElem?_eq_getElem hi] at this
    exact this
  simp only [hd] at hperm
  have e : (D.rs.map (heldRadii D D.parts[i])).flatten = D.rs.flatMap fun r => heldRadii D D.parts[i] r := by
    rw [List.flatMap_def]
  refine ⟨?_, ?_⟩
  · by_contra hne
    push Not at hne
    have h4 : (D.rs.flatMap fun r => heldRadii D D.parts[i] r) = [] := by
      rw [List.flatMap_eq_nil_iff]
      intro r hr
      rw [heldRadii_eq, hne r ((hrs.2 r).1 hr)]
      rfl
    rw [h4] at hperm
    have := hperm.symm.eq_nil
    exact h2 (List.map_eq_nil_iff.1 this)
  · rw [e]
    exact h3.perm hperm.symm

/-- The velocity of the nearest rigid motion is the one `get_new_velocities` reports. -/
theorem nearest_mean (D : Setup d N A) (hrs : AllProcs D.L D.rs) (u : NodeVec d d ℝ) (i : Fin D.parts.length) (r : Fin d → ℕ) :
    (nearest D u i).1 = D.surfaceMean u r i := by
  have hd : ∀ s, (D.data i s).radial = heldRadii D D.parts[i] s := fun s => (data_surf D i i.2 s).2.1
  have hn : (D.data i r).nb = heldCount D D.parts[i] := (data_surf D i i.2 r).2.2
  have hset : D.rs.toFinset = procs D.L := by
    ext s; rw [List.mem_toFinset]; exact hrs.2 s
  unfold Setup.surfaceMean
  rw [List.getElem?_eq_getElem i.2]
  simp only [simpleLayer_eq, hd, hn, sum_flatten_map, List.map_map, sum_zipIdx_map]
  rw [← List.sum_toFinset _ hrs.1, hset]
  show _ • _ = _ • _
  refine congrArg₂ _ rfl (Finset.sum_congr rfl fun s _ => ?_)
  have hlen : (heldRadii D D.parts[i] s).length = (heldPoints D D.parts[i] s).length := by rw [heldRadii_eq, List.length_map]
  refine (Fintype.sum_equiv (finCongr hlen) _ _ fun j => ?_).symm
  have hj : (j : ℕ) < (heldPoints D D.parts[i] s).length := hlen ▸ j.2
  show D.interp u s i j = _
  unfold Setup.interp
  rw [(data_surf D i i.2 s).1, List.getElem?_eq_getElem (l := heldPoints D D.parts[(i : ℕ)] s) hj]
  rfl

/-- No residual: the velocity is rigid inside the particles. -/
theorem rigid_of_yMean (D : Setup d N A) (hA : ActLaws D.S) (hf : IsFluid D.fluid) (hG : GoodMesh D.L)
    (henc : ∀ p ∈ D.parts, ∀ k, p.contains (node D.h k) = true → k ∈ p.bbox.halfOpen) (w : NodeVec d d ℝ) (hw : D.yMean w = 0) :
    RigidInside D w := by
  intro P hP
  obtain ⟨i, hi, rfl⟩ := List.getElem_of_mem hP
  have hq : (D.parts[i], i) ∈ D.parts.zipIdx := by
    rw [List.mem_iff_getElem]
    exact ⟨i, by simpa using hi, by simp⟩
  have hnum : ∀ r r', (D.data i r).num = (D.data i r').num := by
    intro r r'
    unfold Setup.data
    rw [List.getElem?_eq_getElem hi]
    rfl
  set m := projection D.S D.L D.bf D.elem w D.parts[i] D.h D.scale (D.data i fun _ => 0).num with hm
  refine ⟨m.1, D.parts[i].ciR • m.2, fun g hg c => ?_⟩
  obtain ⟨hg1, hg2⟩ := Finset.mem_filter.1 hg
  obtain ⟨r, ⟨hr, hqr⟩, -⟩ := (elems_partition D.L hG).1 g ((mem_gridElems D.L g).1 hg1)
  have hk : g ∈ solidNodes D r D.parts[i] := (mem_partNodes hf D.L hG D.h _ r hr g).2 ⟨hqr, henc _ hP g hg2, hg2⟩
  obtain ⟨-, h2, -⟩ := C47_compute_y_mean D.S D.fluid (getDMBounds D.L r true) D.h w (D.parts.zipIdx.map fun p =>
    (p.1, projection D.S D.L D.bf D.elem w p.1 D.h D.scale (D.data p.2 r).num)) 0
  obtain ⟨n, hn, e⟩ := List.getElem_of_mem (mem_layout
    (fun q : Part d A × Pos d ℝ × A => partNodes D.fluid Box.boxInside (getDMBounds D.L r true) D.h q.1)
    (D.parts.zipIdx.map fun p => (p.1, projection D.S D.L D.bf D.elem w p.1 D.h D.scale (D.data p.2 r).num))
    (D.parts[i], m) g c (List.mem_map.2 ⟨_, hq, by rw [hm, hnum r]⟩) hk)
  have h3 := h2 n hn
  rw [e] at h3
  have h4 : (0 : ℝ) = _ := (congrFun (congrFun hw r) n).symm.trans h3
  rw [hA.smul_left]
  exact sub_eq_zero.1 h4.symm

section driver
variable (D : Setup d N A) (hG : GoodMesh D.L) (hrs : AllProcs D.L D.rs) (hh : ∀ i, 0 < D.h i) (hel : IsQ1 D.elem)
  (hf : IsFluid D.fluid) (hS : SpinLaws D.S) (hA : ActLaws D.S) (hB : Duality D.S) (hd : Disjoint D.parts)
  (henc : ∀ p ∈ D.parts, ∀ k, p.contains (node D.h k) = true → k ∈ p.bbox.halfOpen)
  (hs : ∀ p ∈ D.parts, SurfaceIn D.L D.h p ∧ p.surface ≠ [] ∧
    Balanced D.S p.cdR (p.surface.map fun x => posSub x p.center))
  (Lp : Fin d → Dir) (F : NodeVec d d ℝ → NodeVec d 1 ℝ → NodeVec d d ℝ × NodeVec d 1 ℝ)
  (hF : StokesLike D.L Lp D.bc F)
include hG hrs hh hel hf hS hA hB hd henc hs hF

/-- C111 (SEM): a fresh SEM object, any particles with balanced samples, boundary values and source, an exact outer solver, a fluid
solver right on the solvable problems, a control equation with a solution: the flow of the control found by `setup_RHS` and `solve` has the boundary
values; with the rigid motions whose velocities are those of `get_new_velocities` it has the least misfit on the surfaces of the particles, among the
flows with other internal forces and all the rigid motions. -/
theorem C111_sem (ha : ∀ P ∈ D.parts, 0 ≤ P.area)
    (solve : NodeVec d d ℝ × NodeVec d 1 ℝ → NodeVec d d ℝ × NodeVec d 1 ℝ) (hsolve : FluidSolver D.L Lp F solve)
    (hbc : ∀ f, ∃ u p, Solves D.L Lp F (setDirichletOnRHS D.L D.rs D.bc D.h f) 0 u p)
    (hnull : ∀ f, ∃ u p, Solves D.L Lp F (setNullDirichletOnRHS D.L D.rs D.bc f) 0 u p)
    (K : Krylov ((Fin d → ℕ) → ℕ → ℝ)) (hK : Exact K) (f0 s0 : NodeVec d d ℝ × NodeVec d 1 ℝ)
    (hex : ∃ x, semResidual (D.pieces solve) (semFluid (D.pieces solve) x) = 0) :
    let t := semSolve (D.pieces solve) K (semSetupRHS (D.pieces solve) (initSt f0 s0))
    let f := setDirichletOnRHS D.L D.rs D.bc D.h (setRhsProblem D.fluid D.L D.rs D.h D.mass t.sol true
      D.parts (stokesSetupRHS D.L D.rs D.src D.bc D.h (diagBlockMult D.L D.elem D.M) 0))
    let u := solve (f, 0)
    (∃ m, (∀ (i : Fin D.parts.length) r, (m i).1 = D.surfaceMean u.1 r i) ∧ LeastRigidMisfit D Lp F f u.1 u.2 m) ∧
    ∀ g ∈ gridNodes D.L, ∀ c φ, LastCond D.L D.bc g c φ → u.1 g c = φ fun i => (g i : ℝ) * D.h i := by
  intro t f u
  have hL : ∀ i, (D.L i).WF := fun i => (hG i).1
  have hP := pieces_lawful D hL hrs hS hA solve hsolve.linear
  have h := C83_control hP K hK f0 s0 hex
  have hu : semFluid (D.pieces solve) t.sol = u := by
    unfold semFluid
    have e1 := pieces_setupRHS D solve 0
    simp only [setupRHSFluid, zero_add] at e1
    have e2 := pieces_ctl D solve t.sol true ((D.pieces solve).setBC (D.pieces solve).source)
    rw [if_pos rfl] at e2
    rw [e2, e1]
    rfl
  have hsol : Solves D.L Lp F f 0 u.1 u.2 := hsolve.exact f 0 (hbc _)
  refine ⟨⟨nearest D u.1, fun i r => nearest_mean D hrs u.1 i r, hsol, fun δ u' p' m' hδ hu' => ?_⟩, fun g hg c φ hφ => ?_⟩
  · set w := solve (setNullDirichletOnRHS D.L D.rs D.bc (D.sl (D.layer (D.interp u.1))), 0) with hw
    have hws := hsolve.exact _ 0 (hnull (D.sl (D.layer (D.interp u.1))))
    have hy : D.yMean w.1 = 0 := by
      rw [← h]
      show _ = (D.pieces solve).yMean _
      simp only [hw, ← hu]
      rfl
    rw [rigid_least D hL hrs hh hel hS hA hB hd (held_balanced D hG hh hrs hs) Lp F hF f δ u.1 u' w.1 u.2 p' w.2 hsol hδ hu' hws
      (rigid_of_yMean D hA hf hG henc w.1 hy) m']
    have := rigidMisfit_nonneg D ha (fun i => m' i - nearest D u.1 i) (u' - u.1)
    linarith
  · have hc := (C26_rhs D.L hL D.rs hrs D.bc D.h 0 g c).2.2.2 ⟨φ, hφ⟩
    rw [hF.held _ _ _ _ hsol g hg c hc]
    exact (C26_rhs D.L hL D.rs hrs D.bc D.h _ g c).1 hg φ hφ

end driver

/-- C111 (2D): both Stokes operators, closed boxes (without net flux imposed) and open ones, all meshes, processes, disjoint particles with
balanced samples, boundary values and sources. -/
theorem C111_least2 (D : Setup 2 4 ℝ) (M : Fin 2 → ℤ) (per : Fin 2 → Bool)
    (lx : Fin 2 → List ℤ) (hDL : D.L = velLayout M per lx) (hel : D.elem = getElement2) (hfl : D.fluid = fluidPoints2)
    (hsp : D.S = spin2) (hne : ∀ i, lx i ≠ []) (hW : ∀ i, (presLayout M per lx i).WF) (hM : Fine M) (hG : GoodMesh D.L)
    (hh : ∀ c, 0 < D.h c) (hrs : AllProcs D.L D.rs) (hx : FluxFree D.L per D.bc D.h)
    (ha : ∀ P ∈ D.parts, 0 ≤ P.area) (hd : Disjoint D.parts)
    (henc : ∀ p ∈ D.parts, ∀ k, p.contains (node D.h k) = true → k ∈ p.bbox.halfOpen)
    (hs : ∀ p ∈ D.parts, SurfaceIn D.L D.h p ∧ p.surface ≠ [] ∧
      Balanced spin2 p.cdR (p.surface.map fun x => posSub x p.center))
    (F : NodeVec 2 2 ℝ → NodeVec 2 1 ℝ → NodeVec 2 2 ℝ × NodeVec 2 1 ℝ)
    (hF : F = stokesStrain2 M per lx D.rs D.bc D.h ∧ WallHeld D.L D.bc ∨
      F = stokesLap2 M per lx D.rs D.bc D.h ∧ ComponentsHeld D.L D.bc) :
    (∃ solve, FluidSolver D.L (presLayout M per lx) F solve) ∧
    ∀ solve, FluidSolver D.L (presLayout M per lx) F solve → ∀ K, Exact K → ∀ f0 s0,
      (∃ x, semResidual (D.pieces solve) (semFluid (D.pieces solve) x) = 0) →
      let t := semSolve (D.pieces solve) K (semSetupRHS (D.pieces solve) (initSt f0 s0))
      let f := setDirichletOnRHS D.L D.rs D.bc D.h (setRhsProblem D.fluid D.L D.rs D.h D.mass t.sol true
        D.parts (stokesSetupRHS D.L D.rs D.src D.bc D.h (diagBlockMult D.L D.elem D.M) 0))
      let u := solve (f, 0)
      (∃ m, (∀ (i : Fin D.parts.length) r, (m i).1 = D.surfaceMean u.1 r i) ∧
        LeastRigidMisfit D (presLayout M per lx) F f u.1 u.2 m) ∧
      ∀ g ∈ gridNodes D.L, ∀ c φ, LastCond D.L D.bc g c φ → u.1 g c = φ fun i => (g i : ℝ) * D.h i := by
  obtain ⟨h1, h2, h3⟩ := problems2 M per lx hne hW hM D.h hh D.rs (hDL ▸ hrs) D.bc (hDL ▸ hx) F (hDL ▸ hF)
  rw [← hDL] at h1 h2 h3
  refine ⟨C108_solver _ _ _ _ h1, fun solve hso K hK f0 s0 hex => ?_⟩
  exact C111_sem D hG hrs hh (by rw [hel]; exact isQ1_2) (by rw [hfl]; exact isFluid2) (by rw [hsp]; exact spinLaws2)
    (by rw [hsp]; exact actLaws2) (by rw [hsp]; exact duality2) hd henc (by rw [hsp]; exact hs) _ F h1 ha solve hso h2 h3 K hK f0 s0 hex

/-- C111 (3D): both Stokes operators, closed boxes (without net flux imposed) and open ones, all meshes, processes, disjoint particles with
balanced samples, boundary values and sources. -/
theorem C111_least3 (D : Setup 3 8 (Pos 3 ℝ)) (M : Fin 3 → ℤ) (per : Fin 3 → Bool)
    (lx : Fin 3 → List ℤ) (hDL : D.L = velLayout M per lx) (hel : D.elem = getElement3) (hfl : D.fluid = fluidPoints3)
    (hsp : D.S = spin3) (hne : ∀ i, lx i ≠ []) (hW : ∀ i, (presLayout M per lx i).WF) (hM : Fine M) (hG : GoodMesh D.L)
    (hh : ∀ c, 0 < D.h c) (hrs : AllProcs D.L D.rs) (hx : FluxFree D.L per D.bc D.h)
    (ha : ∀ P ∈ D.parts, 0 ≤ P.area) (hd : Disjoint D.parts)
    (henc : ∀ p ∈ D.parts, ∀ k, p.contains (node D.h k) = true → k ∈ p.bbox.halfOpen)
    (hs : ∀ p ∈ D.parts, SurfaceIn D.L D.h p ∧ p.surface ≠ [] ∧
      Balanced spin3 p.cdR (p.surface.map fun x => posSub x p.center))
    (F : NodeVec 3 3 ℝ → NodeVec 3 1 ℝ → NodeVec 3 3 ℝ × NodeVec 3 1 ℝ)
    (hF : F = stokesStrain3 M per lx D.rs D.bc D.h ∧ WallHeld D.L D.bc ∨
      F = stokesLap3 M per lx D.rs D.bc D.h ∧ ComponentsHeld D.L D.bc) :
    (∃ solve, FluidSolver D.L (presLayout M per lx) F solve) ∧
    ∀ solve, FluidSolver D.L (presLayout M per lx) F solve → ∀ K, Exact K → ∀ f0 s0,
      (∃ x, semResidual (D.pieces solve) (semFluid (D.pieces solve) x) = 0) →
      let t := semSolve (D.pieces solve) K (semSetupRHS (D.pieces solve) (initSt f0 s0))
      let f := setDirichletOnRHS D.L D.rs D.bc D.h (setRhsProblem D.fluid D.L D.rs D.h D.mass t.sol true
        D.parts (stokesSetupRHS D.L D.rs D.src D.bc D.h (diagBlockMult D.L D.elem D.M) 0))
      let u := solve (f, 0)
      (∃ m, (∀ (i : Fin D.parts.length) r, (m i).1 = D.surfaceMean u.1 r i) ∧
        LeastRigidMisfit D (presLayout M per lx) F f u.1 u.2 m) ∧
      ∀ g ∈ gridNodes D.L, ∀ c φ, LastCond D.L D.bc g c φ → u.1 g c = φ fun i => (g i : ℝ) * D.h i := by
  obtain ⟨h1, h2, h3⟩ := problems3 M per lx hne hW hM D.h hh D.rs (hDL ▸ hrs) D.bc (hDL ▸ hx) F (hDL ▸ hF)
  rw [← hDL] at h1 h2 h3
  refine ⟨C108_solver _ _ _ _ h1, fun solve hso K hK f0 s0 hex => ?_⟩
  exact C111_sem D hG hrs hh (by rw [hel]; exact isQ1_3) (by rw [hfl]; exact isFluid3) (by rw [hsp]; exact spinLaws3)
    (by rw [hsp]; exact actLaws3) (by rw [hsp]; exact duality3) hd henc (by rw [hsp]; exact hs) _ F h1 ha solve hso h2 h3 K hK f0 s0 hex

/-- Disks sampled by `surface` meet the hypotheses on the samples. -/
theorem C111_disk (c : Pos 2 ℝ) (R : ℝ) (hR : 0 < R) (q : Quat ℝ) (hq : PlaneQuat q) (k tol : ℝ) (hk : 0 < k) (ht : 0 < tol)
    (L : Fin 2 → Dir) (h : Pos 2 ℝ) (hh : ∀ i, 0 < h i) (p : Part 2 ℝ) (hp : IsCircle c R q k tol h p)
    (hx0 : ∀ x ∈ p.surface, ∀ i, 0 ≤ x i) (hm : ∀ x ∈ p.surface, cell h x ∈ gridElems L) :
    SurfaceIn L h p ∧ p.surface ≠ [] ∧ Balanced spin2 p.cdR (p.surface.map fun x => posSub x p.center) := by
  obtain ⟨etas, he, hsurf⟩ := hp.surface
  have hRR : (![R, R] : Pos 2 ℝ) = fun _ => R := by funext i; fin_cases i <;> rfl
  have hC : circle c R q = mkShape2 c ![R, R] 2 q := by rw [hRR]; rfl
  have hs : ∀ i, 0 < (![R, R] : Pos 2 ℝ) i := by intro i; fin_cases i <;> simpa using hR
  obtain ⟨s1, s2, s3, s4⟩ := C40_surface c ![R, R] hs 2 (by norm_num) q hq k tol hk ht etas he
  refine ⟨⟨hx0, hm, ?_⟩, ?_, ?_⟩
  · intro x hx
    rw [hp.shape.bbox]
    apply intBox_cell _ h hh
    rw [hC]
    refine (C38_plane c ![R, R] hs 2 (by norm_num) q hq x).2 ?_
    rw [hsurf, hC] at hx
    exact (s4 x hx).le
  · intro e
    rw [e] at hsurf
    rw [hC] at hsurf
    have := congrArg List.length hsurf
    simp only [List.length_nil] at this
    omega
  · rw [hp.cdR, hp.center, hsurf]
    exact circle_balanced c R hR q hq k tol hk ht etas he

/-- C111 (rigid flows): a flow that follows rigid motions of the particles on their surfaces leaves no residual: the second problem of SEM is
not driven at all. -/
theorem C111_rigid (D : Setup d N A) (hrs : AllProcs D.L D.rs) (hel : IsQ1 D.elem) (hS : SpinLaws D.S) (hA : ActLaws D.S)
    (hB : Duality D.S) (hL : ∀ i, (D.L i).WF) (hh : ∀ i, 0 < D.h i)
    (hb : ∀ p ∈ D.parts, (∃ r ∈ procs D.L, heldPoints D p r ≠ []) ∧
      Balanced D.S p.cdR (D.rs.map (heldRadii D p)).flatten)
    (ha : ∀ P ∈ D.parts, 0 < P.area) (u : NodeVec d d ℝ) (m) (hm : rigidMisfit D m u = 0) :
    D.sl (D.layer (D.interp u)) = 0 ∧
    ∀ solve, IsLinearMap ℝ solve → ∀ p, semResidual (D.pieces solve) (u, p) = 0 := by
  have h1 := rigid_pyth D hrs hS hA hB hb hL hh hel u 0 m
  have h2 : Cafes.dot D.L (D.sl (D.layer (D.interp u))) 0 = 0 :=
    Finset.sum_eq_zero fun g _ => Finset.sum_eq_zero fun c _ => mul_zero _
  rw [add_zero, h2, mul_zero, add_zero, hm] at h1
  have hpos : ∀ P ∈ D.parts, 0 ≤ P.area := fun P hP => (ha P hP).le
  have h3 := rigidMisfit_nonneg D hpos (fun i => m i - nearest D u i) 0
  have h4 := rigidMisfit_nonneg D hpos (nearest D u) u
  have h5 : rigidMisfit D (nearest D u) u = 0 := by linarith
  have hn : ∀ i : Fin D.parts.length, 0 < (heldCount D D.parts[i] : ℝ) := by
    intro i
    obtain ⟨⟨r, hr, hne⟩, -⟩ := hb D.parts[i] (List.getElem_mem _)
    have : 0 < heldCount D D.parts[i] := by
      unfold heldCount
      exact lt_of_lt_of_le (List.length_pos_iff.2 hne)
        (Finset.single_le_sum (f := fun s => (heldPoints D D.parts[i] s).length) (fun _ _ => Nat.zero_le _) hr)
    exact_mod_cast this
  have hlay : ∀ r (i : Fin D.parts.length) (k : Fin (heldPoints D D.parts[i] r).length), D.layer (D.interp u) r i k = 0 := by
    intro r i k
    by_cases hr : r ∈ procs D.L
    · rw [layer_at D hrs u r hr i k]
      funext c
      unfold rigidMisfit at h5
      have e1 := (Finset.sum_eq_zero_iff_of_nonneg fun r _ => Finset.sum_nonneg fun i _ => mul_nonneg
        (div_nonneg (hpos _ (List.getElem_mem _)) (Nat.cast_nonneg _))
        (Finset.sum_nonneg fun _ _ => Finset.sum_nonneg fun _ _ => sq_nonneg _)).1 h5 r hr
      have e2 := (Finset.sum_eq_zero_iff_of_nonneg fun i _ => mul_nonneg
        (div_nonneg (hpos _ (List.getElem_mem _)) (Nat.cast_nonneg _))
        (Finset.sum_nonneg fun _ _ => Finset.sum_nonneg fun _ _ => sq_nonneg _)).1 e1 i (Finset.mem_univ i)
      have e3 := (mul_eq_zero.1 e2).resolve_left (div_pos (ha _ (List.getElem_mem _)) (hn i)).ne'
      have e4 := (Finset.sum_eq_zero_iff_of_nonneg fun _ _ => Finset.sum_nonneg fun _ _ => sq_nonneg _).1 e3 k (Finset.mem_univ k)
      have e5 := (Finset.sum_eq_zero_iff_of_nonneg fun _ _ => sq_nonneg _).1 e4 c (Finset.mem_univ c)
      exact pow_eq_zero_iff two_ne_zero |>.1 e5
    · have hidx : D.rs.length ≤ D.rs.idxOf r := by
        rw [List.idxOf_eq_length]
        exact fun h => hr ((hrs.2 r).1 h)
      unfold Setup.layer
      rw [List.getElem?_eq_getElem i.2]
      simp only [simpleLayer_eq]
      have key : ∀ l : List (List (Pos d ℝ)), l.length = D.rs.length → (l.getD (D.rs.idxOf r) []).getD k 0 = 0 := by
        intro l hl
        have h0 : l.getD (D.rs.idxOf r) [] = [] := List.getD_eq_default _ _ (by rw [hl]; exact hidx)
        rw [h0]
        rfl
      exact key _ (by simp only [List.length_map])
  have hsl : D.sl (D.layer (D.interp u)) = 0 := by
    refine Eq.trans ?_ (sl_linear D).map_zero
    unfold Setup.sl
    refine congrArg _ (funext fun r => List.map_congr_left fun q hq => ?_)
    have hq2 := List.mem_zipIdx hq
    have hi : q.2 < D.parts.length := by omega
    refine congrArg _ (congrArg _ (List.map_congr_left fun x hx => ?_))
    have hx2 := List.mem_zipIdx hx
    have hlt : x.2 < (heldPoints D D.parts[q.2] r).length := by
      rw [← (data_surf D q.2 hi r).1]
      omega
    exact congrArg₂ _ (hlay r ⟨q.2, hi⟩ ⟨x.2, hlt⟩) rfl
  refine ⟨hsl, fun solve hs p => ?_⟩
  have hP := pieces_lawful D hL hrs hS hA solve hs
  unfold semResidual
  have e : (D.pieces solve).sl ((D.pieces solve).layer ((D.pieces solve).interp (u, p))) = 0 := Prod.ext hsl rfl
  rw [e, hP.setNull.map_zero, hP.solve.map_zero, hP.yMean.map_zero]

/-! ### The example: a disk without weight in the uniform flow -/

/-- The data of `C87_example` with a disk on which no force acts. -/
noncomputable def exS : Setup 2 4 ℝ := { exD with parts := [{ exPart with velocity := ![-1, 0], force := ![0, 0] }] }

theorem exS_parts (P : Part 2 ℝ) (hP : P ∈ exS.parts) : P = { exPart with velocity := ![-1, 0], force := ![0, 0] } := by
  simpa only [exS, List.mem_singleton] using hP

theorem exS_enc : ∀ p ∈ exS.parts, ∀ k, p.contains (node exS.h k) = true → k ∈ p.bbox.halfOpen := by
  intro p hp
  rw [exS_parts p hp]
  exact exPart_encloses.1

theorem exS_samples : ∀ p ∈ exS.parts, SurfaceIn exS.L exS.h p ∧ p.surface ≠ [] ∧
    Balanced spin2 p.cdR (p.surface.map fun x => posSub x p.center) := by
  intro p hp
  have h1 := exD_surfaceIn { exPart with velocity := ![-1, 0] } (List.mem_singleton_self _)
  rw [exS_parts p hp]
  refine ⟨?_, by simp [exPart], ?_⟩
  · exact ⟨h1.nonneg, h1.mesh, h1.bbox⟩
  · have e : (exPart.surface.map fun x => posSub x exPart.center) = [![1, 0], ![-1, 0]] := by
      simp only [exPart, List.map_cons, List.map_nil]
      congr 1
      · funext i; fin_cases i <;> simp [posSub, compLoop_apply] <;> norm_num
      · congr 1
        funext i; fin_cases i <;> simp [posSub, compLoop_apply] <;> norm_num
    have := balanced_circle 1 one_pos [![1, 0], ![-1, 0]] (by simp) (by funext i; fin_cases i <;> simp)
      (by
        intro r hr
        simp only [List.mem_cons, List.not_mem_nil, or_false] at hr
        rcases hr with rfl | rfl <;> norm_num)
    show Balanced spin2 1 (exPart.surface.map fun x => posSub x exPart.center)
    rw [e]
    simpa using this

theorem exS_ext : controlField exS.fluid exS.L exS.rs exS.h 0 true exS.parts = 0 := by
  have h1 : controlField exS.fluid exS.L exS.rs exS.h 0 true exS.parts =
      controlField exS.fluid exS.L exS.rs exS.h 0 false exS.parts := by
    unfold controlField Particle.setRhsImpl
    have e : ∀ p ∈ exS.parts, ∀ i, p.force i = 0 := by
      intro p hp i
      rw [exS_parts p hp]
      fin_cases i <;> rfl
    simp only [exS, List.foldl_cons, List.foldl_nil, Pi.zero_apply, if_true, Bool.false_eq_true, if_false, zero_add]
    have e2 : ∀ i : Fin 2, exPart.rho * (![0, 0] : Pos 2 ℝ) i = 0 := by intro i; fin_cases i <;> simp
    simp only [e2]
  rw [h1]
  exact (controlField_linear exS.fluid exS.L exS.rs exS.h exS.parts).map_zero

/-- The uniform flow moves with the disk. -/
theorem exS_misfit : rigidMisfit exS (fun _ => (![1, 0], 0)) exFlow.1 = 0 := by
  refine Finset.sum_eq_zero fun r _ => Finset.sum_eq_zero fun i _ => ?_
  refine mul_eq_zero_of_right _ (Finset.sum_eq_zero fun k _ => Finset.sum_eq_zero fun c _ => ?_)
  have h1 := C73_interp2 exS.L (by intro i; fin_cases i <;> rfl) exS.h exD_h ![1, 0] 0 exFlow.1 (by intro q c; simp [exFlow])
    (heldPoints exS exS.parts[i] r)[k].1 (fun j => (heldPoints exS exS.parts[i] r)[k].2 j + node exS.h (heldPoints exS exS.parts[i] r)[k].1 j) c
  simp only [add_sub_cancel_right] at h1
  have h2 : interpPoint exS.bf exS.elem (globalToLocal exS.L exFlow.1) (heldPoints exS exS.parts[i] r)[k] c = ![1, 0] c := by
    refine h1.trans ?_
    simp
  have h3 : ∀ x, exS.S.act 0 x = 0 := fun x => zero_act actLaws2 x
  rw [h2, h3]
  simp

/-- Flows that agree on the mesh have the same misfit. -/
theorem rigidMisfit_congr (D : Setup d N A) (hL : ∀ i, (D.L i).WF) (hh : ∀ i, 0 < D.h i) (hel : IsQ1 D.elem) (u u' : NodeVec d d ℝ)
    (huu : ∀ g ∈ gridNodes D.L, ∀ c, u' g c = u g c) (m) : rigidMisfit D m u' = rigidMisfit D m u := by
  unfold rigidMisfit
  refine Finset.sum_congr rfl fun r hr => Finset.sum_congr rfl fun i _ => congrArg₂ _ rfl
    (Finset.sum_congr rfl fun k _ => Finset.sum_congr rfl fun c _ => ?_)
  have hpt : (heldPoints D D.parts[i] r)[k] ∈ (setMaterials D.fluid D.L D.h D.scale D.parts[i] (fun _ => PartData.empty) r).surf := by
    have h1 := (data_surf D i i.2 r).1
    unfold Setup.data at h1
    rw [List.getElem?_eq_getElem i.2] at h1
    have : (heldPoints D D.parts[i] r)[k] ∈ heldPoints D D.parts[(i : ℕ)] r := List.getElem_mem _
    rw [← h1] at this
    exact this
  have hbox := C51_points D.fluid D.L D.h hh D.scale _ r _ hpt
  have hg : (heldPoints D D.parts[i] r)[k].1 ∈ gridElems D.L := by
    rw [mem_elemBox D.L hL r hr] at hbox
    rw [mem_gridElems]
    exact fun j => ⟨le_trans (Dir.xs_nonneg (hL j) _) (hbox j).1.1, (hbox j).2⟩
  have e : interpPoint D.bf D.elem (globalToLocal D.L u') (heldPoints D D.parts[i] r)[k] c =
      interpPoint D.bf D.elem (globalToLocal D.L u) (heldPoints D D.parts[i] r)[k] c := by
    rw [interpPoint_apply, interpPoint_apply]
    refine Finset.sum_congr rfl fun j _ => ?_
    refine congrArg₂ _ (huu _ (wrap_mem D.L _ _ hg fun a => ?_) c) rfl
    have h0 := ((mem_gridElems D.L _).1 hg a).1
    rcases hel (heldPoints D D.parts[i] r)[k].1 j a with h | h <;> rw [h]
    · exact ⟨h0, fun _ => by omega⟩
    · exact ⟨by omega, fun _ => le_refl _⟩
  rw [e]

/-- The hypotheses of `C111_least2` are met by the disk in the uniform flow, the control equation included, whatever the fluid solver. -/
theorem C111_example (solve)
    (hs : FluidSolver exS.L (presLayout ![3, 3] ![false, false] ![[2, 1], [3]])
      (stokesStrain2 ![3, 3] ![false, false] ![[2, 1], [3]] exS.rs exS.bc exS.h) solve) :
    semResidual (exS.pieces solve) (semFluid (exS.pieces solve) 0) = 0 := by
  have hP := pieces_lawful exS exD_wf exD_procs spinLaws2 actLaws2 solve hs.linear
  set f := setDirichletOnRHS exS.L exS.rs exS.bc exS.h (setDirichletOnRHS exS.L exS.rs exS.bc exS.h 0) with hf
  have hsrc : (exS.pieces solve).source = 0 := by
    have : hasCondition exS.src = false := rfl
    simp only [Setup.pieces, this]
    rfl
  have hext : (exS.pieces solve).ext = 0 := by
    refine Prod.ext ?_ rfl
    show exS.mass (controlField exS.fluid exS.L exS.rs exS.h 0 true exS.parts) = 0
    rw [exS_ext, (mass_linear exS).map_zero]
  have hu : semFluid (exS.pieces solve) 0 = solve (f, 0) := by
    unfold semFluid
    rw [hP.ctl.map_zero, hext, add_zero, add_zero, hsrc]
    rfl
  have hex : Solves exS.L (presLayout ![3, 3] ![false, false] ![[2, 1], [3]])
      (stokesStrain2 ![3, 3] ![false, false] ![[2, 1], [3]] exS.rs exS.bc exS.h) f 0 exFlow.1 0 := by
    have h2 := uniform_stokes ![3, 3] ![false, false] ![[2, 1], [3]] exD_mesh.1 exD_mesh.2.1 exD.h exD_h exD.rs exD_procs exD.bc
      ![1, 0]
    refine ⟨fun g hg c => ?_, fun q hq => congrFun (congrFun (congrArg Prod.snd h2) q) 0⟩
    refine (congrFun (congrFun (congrArg Prod.fst h2) g) c).trans ?_
    show setDirichletOnVec exD.L exD.rs exD.bc _ _ g c = setDirichletOnRHS exD.L exD.rs exD.bc exD.h
      (setDirichletOnRHS exD.L exD.rs exD.bc exD.h 0) g c
    rw [C25_vec _ exD_wf _ exD_procs]
    split_ifs with hg
    · rw [exD_bc _ _ _ hg.1 hg.2]
    · rw [(C26_rhs exD.L exD_wf exD.rs exD_procs exD.bc exD.h _ g c).2.1 hg,
        (C26_rhs exD.L exD_wf exD.rs exD_procs exD.bc exD.h _ g c).2.1 hg]
  have hsol := hs.exact f 0 ⟨_, _, hex⟩
  have hz : rigidMisfit exS (fun _ => (![1, 0], 0)) (solve (f, 0)).1 = 0 := by
    refine Eq.trans (rigidMisfit_congr exS exD_wf exD_h isQ1_2 exFlow.1 _ (fun g hg c => ?_) _) exS_misfit
    exact (C93_velocity2 ![3, 3] ![false, false] ![[2, 1], [3]] exD_mesh.1 exD_mesh.2.1 exD_mesh.2.2.1 exD.h exD_h exD.rs
      exD_procs exD.bc _ exFlow.1 _ 0).1 exD_held (fun g hg c => (hsol.1 g hg c).trans (hex.1 g hg c).symm)
      (fun q hq => (hsol.2 q hq).trans (hex.2 q hq).symm) g hg c
  rw [hu]
  exact (C111_rigid exS exD_procs isQ1_2 spinLaws2 actLaws2 duality2 exD_wf exD_h
    (held_balanced exS exD_good exD_h exD_procs exS_samples) (fun P hP => by rw [exS_parts P hP]; norm_num [exPart]) _ _ hz).2 solve
    hs.linear _

/-- The other hypotheses. -/
example : exS.L = velLayout ![3, 3] ![false, false] ![[2, 1], [3]] ∧ exS.elem = getElement2 ∧ exS.fluid = fluidPoints2 ∧
    exS.S = spin2 ∧ GoodMesh exS.L ∧ AllProcs exS.L exS.rs ∧ FluxFree exS.L ![false, false] exS.bc exS.h ∧
    Disjoint exS.parts ∧ WallHeld exS.L exS.bc ∧ ∃ g, g ∈ insideNodes exS exS.parts[0] :=
  ⟨rfl, rfl, rfl, rfl, exD_good, exD_procs, exD_fluxFree, List.pairwise_singleton _ _, exD_held, ![2, 2], by
    unfold insideNodes
    rw [Finset.mem_filter]
    refine ⟨by rw [mem_gridElems]; intro i; fin_cases i <;> decide, ?_⟩
    exact (exPart_contains _).2 (by norm_num [node, exS, exD])⟩

end Cafes.Props
