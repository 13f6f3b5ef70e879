import Verif.Model.Pieces
import Verif.Props.Dton
import Verif.Props.Dirichlet
import Verif.Props.StokesRhs
import Verif.Props.Spread
import Verif.Props.Projection
import Verif.Props.Control

/-!
The concrete pieces of Verif/Model/Pieces.lean meet the laws assumed by the theorems on the drivers (C55, C83).
-/

namespace Cafes.Props
open Cafes Cafes.Driver Cafes.Particle Cafes.Geometry Cafes.AddSing

variable {d N : ℕ} {A : Type*}

theorem isLinear_of {V W : Type*} [AddCommGroup V] [Module ℝ V] [AddCommGroup W] [Module ℝ W] (f : V → W)
    (h : ∀ (a b : ℝ) (x y : V), f (a • x + b • y) = a • f x + b • f y) : IsLinearMap ℝ f where
  map_add x y := by simpa using h 1 1 x y
  map_smul a x := by simpa using h a 0 x x

/-- Three folds over the same list keep a relation between their states. -/
theorem foldl_rel {α σ τ υ : Type*} (R : σ → τ → υ → Prop) (l : List α) (f : σ → α → σ) (g : τ → α → τ)
    (k : υ → α → υ) (hR : ∀ s t u, ∀ x ∈ l, R s t u → R (f s x) (g t x) (k u x)) (s : σ) (t : τ) (u : υ)
    (h : R s t u) : R (l.foldl f s) (l.foldl g t) (l.foldl k u) := by
  induction l generalizing s t u with
  | nil => exact h
  | cons x l ih =>
    exact ih (fun s t u y hy => hR s t u y (List.mem_cons_of_mem _ hy)) _ _ _ (hR _ _ _ _ List.mem_cons_self h)

/-- The control field depends linearly on the values written: control and forces. -/
theorem controlField_comb (fluid : (Pos d ℝ → Bool) → Box d ℤ → Pos d ℝ → List (Pos d ℤ))
    (L : Fin d → Dir) (rs : List (Fin d → ℕ)) (h : Pos d ℝ) (parts : List (Part d A)) (a b : ℝ)
    (x1 x2 x3 : (Fin d → ℕ) → ℕ → ℝ) (f1 f2 f3 : Bool)
    (hv : ∀ r n (p : Part d A) i, (if f1 then x1 r n + p.rho * p.force i else x1 r n) =
      a * (if f2 then x2 r n + p.rho * p.force i else x2 r n) +
      b * (if f3 then x3 r n + p.rho * p.force i else x3 r n)) :
    controlField fluid L rs h x1 f1 parts = a • controlField fluid L rs h x2 f2 parts +
      b • controlField fluid L rs h x3 f3 parts := by
  unfold controlField
  refine foldl_rel (fun s t u : NodeVec d d ℝ => s = a • t + b • u) rs _ _ _ ?_ _ _ _ (by simp)
  rintro _ t u r - rfl
  unfold Particle.setRhsImpl
  have := foldl_rel (fun s t u : ℕ × NodeVec d d ℝ => s.1 = t.1 ∧ s.1 = u.1 ∧ s.2 = a • t.2 + b • u.2) parts
    (fun s p => (partNodes fluid Box.overlap (getDMBounds L r true) h p).foldl (fun s ind =>
      (List.finRange d).foldl (fun s i =>
        (s.1 + 1, setAt s.2 ind i (if f1 then x1 r s.1 + p.rho * p.force i else x1 r s.1))) s) s)
    (fun s p => (partNodes fluid Box.overlap (getDMBounds L r true) h p).foldl (fun s ind =>
      (List.finRange d).foldl (fun s i =>
        (s.1 + 1, setAt s.2 ind i (if f2 then x2 r s.1 + p.rho * p.force i else x2 r s.1))) s) s)
    (fun s p => (partNodes fluid Box.overlap (getDMBounds L r true) h p).foldl (fun s ind =>
      (List.finRange d).foldl (fun s i =>
        (s.1 + 1, setAt s.2 ind i (if f3 then x3 r s.1 + p.rho * p.force i else x3 r s.1))) s) s)
    ?_ (0, a • t + b • u) (0, t) (0, u) ⟨rfl, rfl, rfl⟩
  · exact this.2.2
  · intro s t u p _ hs
    refine foldl_rel (fun s t u : ℕ × NodeVec d d ℝ => s.1 = t.1 ∧ s.1 = u.1 ∧ s.2 = a • t.2 + b • u.2) _ _ _ _
      ?_ _ _ _ hs
    intro s t u ind _ hs
    refine foldl_rel (fun s t u : ℕ × NodeVec d d ℝ => s.1 = t.1 ∧ s.1 = u.1 ∧ s.2 = a • t.2 + b • u.2) _ _ _ _
      ?_ _ _ _ hs
    rintro ⟨s1, s2⟩ ⟨t1, t2⟩ ⟨u1, u2⟩ i - ⟨h1, h2, h3⟩
    dsimp only at h1 h2 h3 ⊢
    subst h1 h2 h3
    refine ⟨rfl, rfl, ?_⟩
    funext q e
    simp only [setAt, hv, Pi.add_apply, Pi.smul_apply, smul_eq_mul]
    split_ifs <;> rfl

theorem controlField_linear (fluid : (Pos d ℝ → Bool) → Box d ℤ → Pos d ℝ → List (Pos d ℤ))
    (L : Fin d → Dir) (rs : List (Fin d → ℕ)) (h : Pos d ℝ) (parts : List (Part d A)) :
    IsLinearMap ℝ fun x => controlField fluid L rs h x false parts :=
  isLinear_of _ fun a b x y => controlField_comb fluid L rs h parts a b _ _ _ _ _ _ fun r n p i => by simp

theorem localToGlobalAdd_comb {n : ℕ} (L : Fin d → Dir) (a b : ℝ) (y1 y2 y3 : (Fin d → ℕ) → NodeVec d n ℝ)
    (z1 z2 z3 : NodeVec d n ℝ) (hy : ∀ r, y1 r = a • y2 r + b • y3 r) (hz : z1 = a • z2 + b • z3) :
    localToGlobalAdd L y1 z1 = a • localToGlobalAdd L y2 z2 + b • localToGlobalAdd L y3 z3 := by
  funext g c
  simp only [localToGlobalAdd, hy, hz, Pi.add_apply, Pi.smul_apply, smul_eq_mul, mul_add, Finset.mul_sum]
  rw [add_add_add_comm, ← Finset.sum_add_distrib]
  congr 1
  refine Finset.sum_congr rfl fun r _ => ?_
  rw [← Finset.sum_add_distrib]
  refine Finset.sum_congr rfl fun p _ => ?_
  split_ifs <;> simp

theorem iterate_comb {n : ℕ} (b : Box d ℤ) (k1 k2 k3 : Pos d ℤ → NodeVec d n ℝ → NodeVec d n ℝ) (α β : ℝ)
    (hk : ∀ p t u, k1 p (α • t + β • u) = α • k2 p t + β • k3 p u) (t u : NodeVec d n ℝ) :
    iterate b k1 (α • t + β • u) = α • iterate b k2 t + β • iterate b k3 u := by
  rw [iterate_eq_foldl, iterate_eq_foldl, iterate_eq_foldl]
  refine foldl_rel (fun s t u : NodeVec d n ℝ => s = α • t + β • u) _ _ _ _ ?_ _ _ _ rfl
  rintro _ t u p - rfl
  exact hk p t u

theorem globalToLocal_comb {n : ℕ} (L : Fin d → Dir) (a b : ℝ) (x y : NodeVec d n ℝ) :
    globalToLocal L (a • x + b • y) = a • globalToLocal L x + b • globalToLocal L y := rfl

theorem diagBlockMult_comb {n : ℕ} (L : Fin d → Dir) (elem : Pos d ℤ → Fin N → Pos d ℤ) (M : Fin N → Fin N → ℝ)
    (r : Fin d → ℕ) (a b : ℝ) (x x' y y' : NodeVec d n ℝ) :
    diagBlockMult L elem M r (a • x + b • x') (a • y + b • y') =
      a • diagBlockMult L elem M r x y + b • diagBlockMult L elem M r x' y' := by
  unfold diagBlockMult
  refine iterate_comb _ _ _ _ a b (fun p t u => ?_) y y'
  funext q e
  simp only [kernelDiagBlock_apply, Pi.add_apply, Pi.smul_apply, smul_eq_mul, mul_add, Finset.mul_sum]
  rw [add_add_add_comm, ← Finset.sum_add_distrib]
  congr 1
  refine Finset.sum_congr rfl fun k _ => ?_
  split_ifs
  · rw [Finset.mul_sum, Finset.mul_sum, ← Finset.sum_add_distrib]
    exact Finset.sum_congr rfl fun j _ => by ring
  · simp

theorem mass_linear (D : Setup d N A) : IsLinearMap ℝ D.mass :=
  isLinear_of _ fun a b x y => by
    unfold Setup.mass blockMatrix
    refine localToGlobalAdd_comb D.L a b _ _ _ _ _ _ (fun r => ?_) (by simp)
    rw [globalToLocal_comb]
    have := diagBlockMult_comb D.L D.elem D.M r a b (globalToLocal D.L x) (globalToLocal D.L y) 0 0
    simpa using this

theorem interpPoint_comb (bf : Pos d ℝ → Fin N → ℝ) (elem : Pos d ℤ → Fin N → Pos d ℤ) (a b : ℝ)
    (x y : NodeVec d d ℝ) (pt : Pos d ℤ × Pos d ℝ) :
    interpPoint bf elem (a • x + b • y) pt = a • interpPoint bf elem x pt + b • interpPoint bf elem y pt := by
  funext c
  simp only [interpPoint_apply, Pi.add_apply, Pi.smul_apply, smul_eq_mul, Finset.mul_sum,
    ← Finset.sum_add_distrib]
  exact Finset.sum_congr rfl fun j _ => by ring

theorem interp_linear (D : Setup d N A) : IsLinearMap ℝ D.interp :=
  isLinear_of _ fun a b x y => by
    funext r i k
    simp only [Setup.interp, Pi.add_apply, Pi.smul_apply, globalToLocal_comb]
    cases (D.data i r).surf[k]? with
    | none => simp
    | some pt => exact interpPoint_comb _ _ _ _ _ _ _

theorem sl_linear (D : Setup d N A) : IsLinearMap ℝ D.sl :=
  isLinear_of _ fun a b g g' => by
    unfold Setup.sl slToRhs
    refine localToGlobalAdd_comb D.L a b _ _ _ _ _ _ (fun r => ?_) (by simp)
    funext q e
    simp only [spreadLocal_apply, Pi.add_apply, Pi.smul_apply, smul_eq_mul, List.map_map]
    rw [← List.sum_map_mul_left, ← List.sum_map_mul_left, ← List.sum_map_add]
    congr 1
    refine List.map_congr_left fun p _ => ?_
    simp only [Function.comp, List.map_map]
    rw [← List.sum_map_mul_left, ← List.sum_map_mul_left, ← List.sum_map_add]
    congr 1
    refine List.map_congr_left fun s _ => ?_
    simp only [Function.comp, Finset.mul_sum, ← Finset.sum_add_distrib]
    refine Finset.sum_congr rfl fun j _ => ?_
    split_ifs
    · simp only [Pi.add_apply, Pi.smul_apply, smul_eq_mul]; ring
    · simp

theorem y_linear (D : Setup d N A) : IsLinearMap ℝ D.y :=
  isLinear_of _ fun a b x y => by
    funext r n
    unfold Setup.y computeY
    have := foldl_rel (fun s t u : ℕ × (ℕ → ℝ) => s.1 = t.1 ∧ s.1 = u.1 ∧ s.2 = a • t.2 + b • u.2) D.parts
      (fun s p => (partNodes D.fluid Box.boxInside (getDMBounds D.L r true) D.h p).foldl (fun s ind =>
        (List.finRange d).foldl (fun s c => (s.1 + 1, Function.update s.2 s.1 ((a • x + b • y) ind c))) s) s)
      (fun s p => (partNodes D.fluid Box.boxInside (getDMBounds D.L r true) D.h p).foldl (fun s ind =>
        (List.finRange d).foldl (fun s c => (s.1 + 1, Function.update s.2 s.1 (x ind c))) s) s)
      (fun s p => (partNodes D.fluid Box.boxInside (getDMBounds D.L r true) D.h p).foldl (fun s ind =>
        (List.finRange d).foldl (fun s c => (s.1 + 1, Function.update s.2 s.1 (y ind c))) s) s)
      ?_ (0, 0) (0, 0) (0, 0) ⟨rfl, rfl, by simp⟩
    · exact congrFun this.2.2 n
    · intro s t u p _ hs
      refine foldl_rel (fun s t u : ℕ × (ℕ → ℝ) => s.1 = t.1 ∧ s.1 = u.1 ∧ s.2 = a • t.2 + b • u.2) _ _ _ _
        ?_ _ _ _ hs
      intro s t u ind _ hs
      refine foldl_rel (fun s t u : ℕ × (ℕ → ℝ) => s.1 = t.1 ∧ s.1 = u.1 ∧ s.2 = a • t.2 + b • u.2) _ _ _ _
        ?_ _ _ _ hs
      rintro ⟨s1, s2⟩ ⟨t1, t2⟩ ⟨u1, u2⟩ i - ⟨h1, h2, h3⟩
      dsimp only at h1 h2 h3 ⊢
      subst h1 h2 h3
      refine ⟨rfl, rfl, ?_⟩
      funext m
      by_cases hm : m = s1 <;> simp [Function.update, hm]

section
variable [AddCommGroup A] [Module ℝ A]

/-- The sums of `simple_layer` are linear in the field. -/
theorem layer_sums (S : Spin d A) (hS : SpinLaws S) (a b : ℝ) (l : List ((Pos d ℝ × Pos d ℝ × Pos d ℝ) × Pos d ℝ))
    (hl : ∀ x ∈ l, x.1.1 = a • x.1.2.1 + b • x.1.2.2) :
    (l.map fun x => x.1.1).sum = a • (l.map fun x => x.1.2.1).sum + b • (l.map fun x => x.1.2.2).sum ∧
    (l.map fun x => S.cross x.2 x.1.1).sum =
      a • (l.map fun x => S.cross x.2 x.1.2.1).sum + b • (l.map fun x => S.cross x.2 x.1.2.2).sum := by
  induction l with
  | nil => simp
  | cons x l ih =>
    obtain ⟨h1, h2⟩ := ih fun y hy => hl y (List.mem_cons_of_mem _ hy)
    simp only [List.map_cons, List.sum_cons, h1, h2, hl x List.mem_cons_self, hS.add_right, hS.smul_right]
    constructor <;> module

theorem layer_linear (D : Setup d N A) (hS : SpinLaws D.S) (hA : ActLaws D.S) : IsLinearMap ℝ D.layer :=
  isLinear_of _ fun a b g g' => by
    funext r i k
    simp only [Setup.layer, Pi.add_apply, Pi.smul_apply]
    cases D.parts[i]? with
    | none => simp
    | some p =>
      dsimp only
      simp only [simpleLayer_eq]
      have key := layer_sums D.S hS a b ((D.rs.map fun r' => (D.data i r').radial.zipIdx.map fun x =>
        (((a • g + b • g') r' i x.2, g r' i x.2, g' r' i x.2), x.1)).flatten) (by
          intro x hx
          simp only [List.mem_flatten, List.mem_map] at hx
          obtain ⟨_, ⟨r', _, rfl⟩, hx⟩ := hx
          obtain ⟨y, _, rfl⟩ := List.mem_map.1 hx
          rfl)
      simp only [List.map_flatten, List.map_map, Function.comp_def, Pi.add_apply, Pi.smul_apply] at key ⊢
      obtain ⟨k1, k2⟩ := key
      rw [k1, k2]
      simp only [List.getD_eq_getElem?_getD, List.getElem?_map]
      cases D.rs[D.rs.idxOf r]? with
      | none => simp
      | some r' =>
        simp only [Option.map_some, Option.getD_some, List.getElem?_map]
        cases (D.data i r').radial.zipIdx[k]? with
        | none => simp
        | some x =>
          simp only [Option.map_some, Option.getD_some]
          simp only [smul_add, hA.add_left, hA.smul_left]
          module

theorem vecAddVec_eq (x y : Pos d ℝ) : vecAddVec x y = x + y := by
  funext i; simp only [vecAddVec, compLoop_apply]; rfl

theorem vecDivScal_eq (x : Pos d ℝ) (c : ℝ) : vecDivScal x c = c⁻¹ • x := by
  funext i; simp only [vecDivScal, compLoop_apply, Pi.smul_apply, smul_eq_mul, div_eq_inv_mul]

theorem vecMulScal_eq (x : Pos d ℝ) (c : ℝ) : vecMulScal x c = c • x := by
  funext i; simp only [vecMulScal, compLoop_apply, Pi.smul_apply, smul_eq_mul, mul_comm]

theorem iterate_rel {σ τ υ : Type*} (R : σ → τ → υ → Prop) (b : Box d ℤ) (f : Pos d ℤ → σ → σ)
    (g : Pos d ℤ → τ → τ) (k : Pos d ℤ → υ → υ) (hR : ∀ s t u x, R s t u → R (f x s) (g x t) (k x u))
    (s : σ) (t : τ) (u : υ) (h : R s t u) : R (iterate b f s) (iterate b g t) (iterate b k u) := by
  rw [iterate_eq_foldl, iterate_eq_foldl, iterate_eq_foldl]
  exact foldl_rel R _ _ _ _ (fun s t u x _ => hR s t u x) _ _ _ h

theorem projectLoop_comb (S : Spin d A) (hS : SpinLaws S) (bf : Pos d ℝ → Fin N → ℝ)
    (elem : Pos d ℤ → Fin N → Pos d ℤ) (a b : ℝ) (x y : NodeVec d d ℝ) (contains : Pos d ℝ → Bool)
    (center h : Pos d ℝ) (scale : ℕ) (bx : Box d ℤ) (s t : Pos d ℝ × A) :
    projectLoop S bf elem (a • x + b • y) contains center h scale bx (a • s + b • t) =
      a • projectLoop S bf elem x contains center h scale bx s +
        b • projectLoop S bf elem y contains center h scale bx t := by
  unfold projectLoop
  refine iterate_rel (fun s t u : Pos d ℝ × A => s = a • t + b • u) _ _ _ _ ?_ _ _ _ rfl
  intro s t u pos hs
  refine iterate_rel (fun s t u : Pos d ℝ × A => s = a • t + b • u) _ _ _ _ ?_ _ _ _ hs
  rintro _ t u ps rfl
  dsimp only
  split_ifs
  · simp only [vecAddVec_eq, interpPoint_comb, hS.add_right, hS.smul_right]
    ext1
    · simp only [Prod.fst_add, Prod.smul_fst]; module
    · simp only [Prod.snd_add, Prod.smul_snd]; module
  · rfl

theorem projection_comb (S : Spin d A) (hS : SpinLaws S) (L : Fin d → Dir) (bf : Pos d ℝ → Fin N → ℝ)
    (elem : Pos d ℤ → Fin N → Pos d ℤ) (a b : ℝ) (x y : NodeVec d d ℝ) (p : Part d A) (h : Pos d ℝ)
    (scale num : ℕ) :
    projection S L bf elem (a • x + b • y) p h scale num =
      a • projection S L bf elem x p h scale num + b • projection S L bf elem y p h scale num := by
  have key : ∀ r, (if (getDMBounds L r true).intersect p.bbox then
      projectLoop S bf elem (globalToLocal L (a • x + b • y)) p.contains p.center h scale
        ((getDMBounds L r true).boxInside p.bbox) ((fun _ => 0, 0) : Pos d ℝ × A) else (fun _ => 0, 0)) =
      a • (if (getDMBounds L r true).intersect p.bbox then
        projectLoop S bf elem (globalToLocal L x) p.contains p.center h scale
          ((getDMBounds L r true).boxInside p.bbox) ((fun _ => 0, 0) : Pos d ℝ × A) else (fun _ => 0, 0)) +
      b • (if (getDMBounds L r true).intersect p.bbox then
        projectLoop S bf elem (globalToLocal L y) p.contains p.center h scale
          ((getDMBounds L r true).boxInside p.bbox) ((fun _ => 0, 0) : Pos d ℝ × A) else (fun _ => 0, 0)) := by
    intro r
    have h0 : (((fun _ => 0, 0) : Pos d ℝ × A)) = a • ((fun _ => 0, 0) : Pos d ℝ × A) + b • (fun _ => 0, 0) := by
      ext1
      · funext i; simp
      · simp
    split_ifs
    · rw [globalToLocal_comb]
      conv_lhs => rw [h0]
      exact projectLoop_comb S hS bf elem a b _ _ _ _ _ _ _ _ _
    · exact h0
  unfold projection
  simp only [key, vecDivScal_eq]
  ext1
  · simp only [Prod.fst_add, Prod.smul_fst, Finset.smul_sum]
    rw [← Finset.sum_add_distrib]
    refine Finset.sum_congr rfl fun r _ => ?_
    module
  · simp only [Prod.snd_add, Prod.smul_snd, Finset.smul_sum]
    rw [← Finset.sum_add_distrib]
    refine Finset.sum_congr rfl fun r _ => ?_
    module

theorem yMean_linear (D : Setup d N A) (hS : SpinLaws D.S) (hA : ActLaws D.S) : IsLinearMap ℝ D.yMean :=
  isLinear_of _ fun a b x y => by
    have hlp : ∀ (l : List (Part d A × ℕ)) (f g k : ℕ × (ℕ → ℝ) → Part d A × ℕ → ℕ × (ℕ → ℝ)),
        (∀ s t u, ∀ x ∈ l, (s.1 = t.1 ∧ s.1 = u.1 ∧ s.2 = a • t.2 + b • u.2) → ((f s x).1 = (g t x).1 ∧
          (f s x).1 = (k u x).1 ∧ (f s x).2 = a • (g t x).2 + b • (k u x).2)) →
        (l.foldl f (0, 0)).2 = a • (l.foldl g (0, 0)).2 + b • (l.foldl k (0, 0)).2 := fun l f g k h =>
      (foldl_rel (fun s t u : ℕ × (ℕ → ℝ) => s.1 = t.1 ∧ s.1 = u.1 ∧ s.2 = a • t.2 + b • u.2) l f g k h
        (0, 0) (0, 0) (0, 0) ⟨rfl, rfl, by simp⟩).2.2
    funext r
    simp only [Setup.yMean, computeYMean, Pi.add_apply, Pi.smul_apply, List.foldl_map]
    refine hlp _ _ _ _ ?_
    · intro s t u p _ hs
      refine foldl_rel (fun s t u : ℕ × (ℕ → ℝ) => s.1 = t.1 ∧ s.1 = u.1 ∧ s.2 = a • t.2 + b • u.2) _ _ _ _
        ?_ _ _ _ hs
      intro s t u ind _ hs
      refine foldl_rel (fun s t u : ℕ × (ℕ → ℝ) => s.1 = t.1 ∧ s.1 = u.1 ∧ s.2 = a • t.2 + b • u.2) _ _ _ _
        ?_ _ _ _ hs
      rintro ⟨s1, s2⟩ ⟨t1, t2⟩ ⟨u1, u2⟩ i - ⟨h1, h2, h3⟩
      dsimp only at h1 h2 h3 ⊢
      subst h1 h2 h3
      refine ⟨rfl, rfl, ?_⟩
      rw [projection_comb D.S hS]
      simp only [vecAddVec_eq, vecMulScal_eq, Prod.fst_add, Prod.smul_fst, Prod.snd_add, Prod.smul_snd,
        hA.add_left, hA.smul_left]
      funext m
      by_cases hm : m = s1
      · simp [Function.update, hm]; ring
      · simp [Function.update, hm]

theorem prod_linear {V W X : Type*} [AddCommGroup V] [Module ℝ V] [AddCommGroup W] [Module ℝ W] [AddCommGroup X]
    [Module ℝ X] {f : V → W} (hf : IsLinearMap ℝ f) : IsLinearMap ℝ fun v => (f v, (0 : X)) :=
  ⟨fun x y => by rw [hf.map_add]; simp, fun a x => by rw [hf.map_smul]; simp⟩

theorem fst_linear {V W X : Type*} [AddCommGroup V] [Module ℝ V] [AddCommGroup W] [Module ℝ W] [AddCommGroup X]
    [Module ℝ X] {f : V → W} (hf : IsLinearMap ℝ f) : IsLinearMap ℝ fun v : V × X => f v.1 :=
  ⟨fun x y => by rw [Prod.fst_add, hf.map_add], fun a x => by rw [Prod.smul_fst, hf.map_smul]⟩

theorem comp_linear {V W X : Type*} [AddCommGroup V] [Module ℝ V] [AddCommGroup W] [Module ℝ W] [AddCommGroup X]
    [Module ℝ X] {f : V → W} {g : W → X} (hg : IsLinearMap ℝ g) (hf : IsLinearMap ℝ f) :
    IsLinearMap ℝ fun v => g (f v) :=
  ⟨fun x y => by rw [hf.map_add, hg.map_add], fun a x => by rw [hf.map_smul, hg.map_smul]⟩

/-- `SetDirichletOnRHS` writes the same values on any vector: it is `SetNullDirichletOnRHS` plus them. -/
theorem setBC_eq (L : Fin d → Dir) (hL : ∀ i, (L i).WF) (rs : List (Fin d → ℕ)) (hrs : AllProcs L rs)
    (bc : BC d ℝ) (h : Pos d ℝ) (y : NodeVec d d ℝ) :
    setDirichletOnRHS L rs bc h y = setNullDirichletOnRHS L rs bc y + setDirichletOnRHS L rs bc h 0 := by
  funext g c
  rw [Pi.add_apply, Pi.add_apply, C27_null L hL rs hrs]
  obtain ⟨a1, a2, a3⟩ := C26_rhs L hL rs hrs bc h y g c
  obtain ⟨b1, b2, -⟩ := C26_rhs L hL rs hrs bc h 0 g c
  by_cases hg : g ∈ gridNodes L ∧ Constrained L bc g c
  · obtain ⟨φ, hφ⟩ := a3.1 hg.2
    rw [if_pos hg, a1 hg.1 φ hφ, b1 hg.1 φ hφ, zero_add]
  · rw [if_neg hg, a2 hg, b2 hg]; simp

/-- The laws assumed in C55 and C83 hold for the pieces of the code: what is left to assume is that the inner
solver is linear. -/
theorem pieces_lawful (D : Setup d N A) (hL : ∀ i, (D.L i).WF) (hrs : AllProcs D.L D.rs) (hS : SpinLaws D.S)
    (hA : ActLaws D.S) (solve : NodeVec d d ℝ × NodeVec d 1 ℝ → NodeVec d d ℝ × NodeVec d 1 ℝ)
    (hsolve : IsLinearMap ℝ solve) :
    Lawful (D.pieces solve) (setDirichletOnRHS D.L D.rs D.bc D.h 0, 0) where
  solve := hsolve
  setNull := isLinear_of _ fun a b x y => by
    ext1
    · funext g c
      simp only [Setup.pieces, Prod.fst_add, Prod.smul_fst, Pi.add_apply, Pi.smul_apply]
      rw [C27_null D.L hL D.rs hrs, C27_null D.L hL D.rs hrs, C27_null D.L hL D.rs hrs]
      split_ifs <;> simp
    · rfl
  ctl := prod_linear (comp_linear (mass_linear D) (controlField_linear D.fluid D.L D.rs D.h D.parts))
  interp := fst_linear (interp_linear D)
  sl := prod_linear (sl_linear D)
  y := fst_linear (y_linear D)
  layer := layer_linear D hS hA
  yMean := fst_linear (yMean_linear D hS hA)
  setBC v := by
    ext1
    · exact setBC_eq D.L hL D.rs hrs D.bc D.h v.1
    · exact (add_zero v.2).symm
  null_idem v := by
    ext1
    · funext g c
      simp only [Setup.pieces]
      rw [C27_null D.L hL D.rs hrs, C27_null D.L hL D.rs hrs]
      split_ifs <;> rfl
    · rfl
  null_bcv := by
    ext1
    · funext g c
      simp only [Setup.pieces]
      rw [C27_null D.L hL D.rs hrs]
      split_ifs with hg
      · rfl
      · exact (C26_rhs D.L hL D.rs hrs D.bc D.h 0 g c).2.1 hg
    · rfl

/-! The pieces are the functions of the code. -/

theorem localToGlobalAdd_base {n : ℕ} (L : Fin d → Dir) (y : (Fin d → ℕ) → NodeVec d n ℝ) (z : NodeVec d n ℝ) :
    localToGlobalAdd L y z = z + localToGlobalAdd L y 0 := by
  funext g c
  simp [localToGlobalAdd]

/-- `setup_RHS` of the fluid problem. -/
theorem pieces_setupRHS (D : Setup d N A) (solve) (v : NodeVec d d ℝ × NodeVec d 1 ℝ) :
    setupRHSFluid (D.pieces solve) v =
      (stokesSetupRHS D.L D.rs D.src D.bc D.h (diagBlockMult D.L D.elem D.M) v.1, v.2) := by
  simp only [setupRHSFluid, Setup.pieces, stokesSetupRHS, Prod.fst_add, Prod.snd_add, add_zero]
  congr 2
  split_ifs
  · exact (localToGlobalAdd_base _ _ _).symm
  · exact add_zero _

/-- `set_rhs_problem`. -/
theorem pieces_ctl (D : Setup d N A) (solve) (x : (Fin d → ℕ) → ℕ → ℝ) (af : Bool)
    (v : NodeVec d d ℝ × NodeVec d 1 ℝ) :
    v + ((D.pieces solve).ctl x + if af then (D.pieces solve).ext else 0) =
      (setRhsProblem D.fluid D.L D.rs D.h D.mass x af D.parts v.1, v.2) := by
  have e : controlField D.fluid D.L D.rs D.h x af D.parts =
      controlField D.fluid D.L D.rs D.h x false D.parts +
        if af then controlField D.fluid D.L D.rs D.h 0 true D.parts else 0 := by
    cases af
    · simp
    · have := controlField_comb D.fluid D.L D.rs D.h D.parts 1 1 x x 0 true false true fun r n p i => by simp
      simpa using this
  ext1
  · show v.1 + _ = _
    funext q c
    unfold setRhsProblem
    rw [e]
    cases af
    · simp [Setup.pieces]
    · simp [Setup.pieces, (mass_linear D).map_add]
  · cases af <;> simp [Setup.pieces]

/-- `add_singularity_in_fluid`. -/
theorem pieces_sing (D : Setup d N A) (solve) (v : NodeVec d d ℝ × NodeVec d 1 ℝ) :
    v + (D.pieces solve).sing = (addInFluid D.L D.bfg D.elem D.singScale D.h D.pairs v.1, v.2) := by
  ext1
  · exact (localToGlobalAdd_base _ _ _).symm
  · exact add_zero _

/-- `interp_rigid_motion_`. -/
theorem pieces_rigid (D : Setup d N A) (solve) (g : SurfField d) :
    g + (D.pieces solve).rigid = D.rigidOn g := by
  funext r i k c
  simp only [Setup.pieces, Setup.rigidOn, Pi.add_apply]
  cases D.parts[i]? with
  | none => simp
  | some p =>
    cases (D.data i r).radial[k]? with
    | none => simp
    | some x => simp [rigidMotion, vecSubVec, compLoop_apply]; ring

/-! ### C87: what DtoN and SEM leave to the user -/

theorem dton_final_rhs {F C G : Type*} [AddCommGroup F] [AddCommGroup C] [AddCommGroup G] (P : Fluid F C G)
    (K : Krylov C) (addSing : F → F) (s : St F C) :
    (dtonSolve P K addSing true false s).fRhs =
      initProblem P ⟨true, true, false⟩ false (dtonSolve P K addSing true false s).sol 0 := rfl

/-- The field on the surfaces that drives the second problem of DtoN: the velocity of the fluid interpolated at
the surface point, plus the velocity of the particle, minus its rotation (see C50). -/
noncomputable def surfaceGap (D : Setup d N A) (u : NodeVec d d ℝ) : SurfField d := fun r i k =>
  match D.parts[i]?, (D.data i r).surf[k]?, (D.data i r).radial[k]? with
  | some p, some pt, some x => fun c => interpPoint D.bf D.elem (globalToLocal D.L u) pt c + p.velocity c -
      D.S.act p.omega x c
  | _, _, _ => 0

theorem data_aligned (D : Setup d N A) (i : ℕ) (r : Fin d → ℕ) :
    (D.data i r).surf.length = (D.data i r).radial.length := by
  unfold Setup.data
  cases D.parts[i]? with
  | none => rfl
  | some p =>
    show (partMaterials _ _ _ _ p PartData.empty).1.surf.length =
      (partMaterials _ _ _ _ p PartData.empty).1.radial.length
    unfold partMaterials
    split_ifs
    · exact C44_length _ _ _ _
    · rfl

theorem rigidOn_eq (D : Setup d N A) (u : NodeVec d d ℝ) : D.rigidOn (D.interp u) = surfaceGap D u := by
  funext r i k
  unfold Setup.rigidOn Setup.interp surfaceGap
  have hl := data_aligned D i r
  by_cases hk : k < (D.data i r).surf.length
  · rw [List.getElem?_eq_getElem (l := (D.data i r).surf) hk,
      List.getElem?_eq_getElem (l := (D.data i r).radial) (hl ▸ hk)]
    cases hp : D.parts[i]? with
    | none =>
      exfalso
      have : (D.data i r).surf = [] := by unfold Setup.data; rw [hp]; rfl
      rw [this] at hk
      exact absurd hk (by simp)
    | some p => exact (C50_value D.S p _ _).1
  · rw [List.getElem?_eq_none (l := (D.data i r).surf) (by omega),
      List.getElem?_eq_none (l := (D.data i r).radial) (by omega)]
    cases D.parts[i]? <;> rfl

theorem mem_layout {P : Type*} (nodes : P → List (Pos d ℤ)) (parts : List P) (p : P) (k : Pos d ℤ) (c : Fin d)
    (hp : p ∈ parts) (hk : k ∈ nodes p) : (p, k, c) ∈ Particle.layout nodes parts := by
  simp only [Particle.layout, List.mem_flatMap, List.mem_map]
  exact ⟨p, hp, k, hk, c, List.mem_finRange c, rfl⟩

/-- The nodes of the particle `p` handled by the process `r`. -/
noncomputable def solidNodes (D : Setup d N A) (r : Fin d → ℕ) (p : Part d A) : List (Pos d ℤ) :=
  partNodes D.fluid Box.boxInside (getDMBounds D.L r true) D.h p

theorem y_zero (D : Setup d N A) (w : NodeVec d d ℝ) (hw : D.y w = 0) (r : Fin d → ℕ) (p : Part d A)
    (hp : p ∈ D.parts) (k : Pos d ℤ) (hk : k ∈ solidNodes D r p) (c : Fin d) : w k c = 0 := by
  obtain ⟨i, hi, e⟩ := List.getElem_of_mem (mem_layout
    (partNodes D.fluid Box.boxInside (getDMBounds D.L r true) D.h) D.parts p k c hp hk)
  have := (computeY_eq D.fluid (getDMBounds D.L r true) D.h w D.parts 0).2.2 i hi
  rw [e] at this
  rw [← this]
  exact congrFun (congrFun hw r) i

/-- C87 (DtoN): a fresh DtoN object with the default flags and no singularity, any mesh decomposition, any particles, boundary
values and source: after `setup_RHS` and `solve`, with exact solvers and a solvable problem, the velocity and pressure left in
the fluid problem have the boundary values, are a discrete Stokes flow with the source and the control as
volume forces, and the second problem, driven on the surfaces of the particles by `surfaceGap` (which vanishes when the
flow follows there the motion `- V + omega x r`), is at rest at all the nodes inside the particles. -/
theorem C87_dton {NP : ℕ} (D : Setup d N A) (hL : ∀ i, (D.L i).WF) (hrs : AllProcs D.L D.rs) (hel : IsQ1 D.elem)
    (hS : SpinLaws D.S) (hA : ActLaws D.S)
    (solve : NodeVec d d ℝ × NodeVec d 1 ℝ → NodeVec d d ℝ × NodeVec d 1 ℝ) (hsolve : IsLinearMap ℝ solve)
    (K : Krylov ((Fin d → ℕ) → ℕ → ℝ)) (hK : Exact K)
    (addSing : NodeVec d d ℝ × NodeVec d 1 ℝ → NodeVec d d ℝ × NodeVec d 1 ℝ)
    (s : St (NodeVec d d ℝ × NodeVec d 1 ℝ) ((Fin d → ℕ) → ℕ → ℝ)) (hs : s.sol = 0)
    (hex : ∃ x, dtonResidual (D.pieces solve) (dtonFluid (D.pieces solve) false x) = 0)
    (Lp : Fin d → Dir) (apply : (Fin d → ℕ) → NodeVec d d ℝ → NodeVec d d ℝ → NodeVec d d ℝ)
    (elemP : Pos d ℤ → Fin NP → Pos d ℤ) (elemV : Pos d ℤ → Fin N → Pos d ℤ) (B : Fin NP → Fin N → Fin d → ℝ) :
    let t := dtonSolve (D.pieces solve) K addSing true false (dtonSetupRHS (D.pieces solve) true false s)
    let u := t.fSol.1
    let p := t.fSol.2
    let w := (solve (setNullDirichletOnRHS D.L D.rs D.bc (D.sl (surfaceGap D u)), 0)).1
    stokesMatrixBC D.L Lp D.rs D.bc apply elemP elemV B u p = t.fRhs →
    (∀ g ∈ gridNodes D.L, ∀ c φ, LastCond D.L D.bc g c φ → u g c = φ fun i => (g i : ℝ) * D.h i) ∧
    (∀ g c, ¬ (g ∈ gridNodes D.L ∧ Constrained D.L D.bc g c) →
      (stokesMatrix D.L Lp apply elemP elemV B u p).1 g c =
        D.mass (sourceVec D.src D.h + controlField D.fluid D.L D.rs D.h t.sol false D.parts) g c) ∧
    (stokesMatrix D.L Lp apply elemP elemV B u p).2 = 0 ∧
    (∀ r, ∀ P ∈ D.parts, ∀ k ∈ solidNodes D r P, ∀ c, w k c = 0) := by
  intro t u p w hfin
  have hP := pieces_lawful D hL hrs hS hA solve hsolve
  obtain ⟨h1, h2⟩ := C55_solve hP K hK addSing s hs hex
  have hr : t.fRhs = initProblem (D.pieces solve) ⟨true, true, false⟩ false t.sol 0 := rfl
  have hsrc : (D.pieces solve).source.1 = D.mass (sourceVec D.src D.h) := by
    show (if hasCondition D.src then setRhs D.L D.rs D.src D.h (diagBlockMult D.L D.elem D.M) 0 else 0) = _
    funext g c
    have e := C29_rhs D.L hL D.rs hrs D.elem hel D.M D.src D.h 0 g c
    rw [show (0 : NodeVec d d ℝ) g c = 0 from rfl, zero_add] at e
    by_cases hc : hasCondition D.src = true
    · rw [if_pos hc, e]; rfl
    · rw [if_neg hc]
      exact ((C29_no_source D.L hL D.rs hrs D.elem hel D.M D.src D.h 0).2 (by simpa using hc) g c).symm.trans e
  have hr1 : t.fRhs.1 = setDirichletOnRHS D.L D.rs D.bc D.h (setDirichletOnRHS D.L D.rs D.bc D.h
      (D.mass (sourceVec D.src D.h)) + D.mass (controlField D.fluid D.L D.rs D.h t.sol false D.parts)) := by
    rw [hr]
    have : initProblem (D.pieces solve) ⟨true, true, false⟩ false t.sol 0 =
      (D.pieces solve).setBC ((D.pieces solve).setBC (D.pieces solve).source + (D.pieces solve).ctl t.sol) := by
      simp [initProblem, setupRHSFluid]
    rw [this, ← hsrc]
    rfl
  have hr2 : t.fRhs.2 = 0 := by
    rw [hr]
    simp [initProblem, setupRHSFluid, Setup.pieces]
  have hf1 : setDirichletOnVec D.L D.rs D.bc u (stokesMatrix D.L Lp apply elemP elemV B u p).1 = t.fRhs.1 := by
    rw [← hfin]; rfl
  have hf2 : (stokesMatrix D.L Lp apply elemP elemV B u p).2 = t.fRhs.2 := by rw [← hfin]; rfl
  refine ⟨fun g hg c φ hφ => ?_, fun g c hg => ?_, hf2.trans hr2, ?_⟩
  · have h := congrFun (congrFun hf1 g) c
    have hc := (C26_rhs D.L hL D.rs hrs D.bc D.h 0 g c).2.2.2 ⟨φ, hφ⟩
    rw [C25_vec D.L hL D.rs hrs, if_pos ⟨hg, hc⟩, hr1, (C26_rhs D.L hL D.rs hrs D.bc D.h _ g c).1 hg φ hφ] at h
    exact h
  · have h := congrFun (congrFun hf1 g) c
    rw [C25_vec D.L hL D.rs hrs, if_neg hg, hr1, (C26_rhs D.L hL D.rs hrs D.bc D.h _ g c).2.1 hg, Pi.add_apply,
      Pi.add_apply, (C26_rhs D.L hL D.rs hrs D.bc D.h _ g c).2.1 hg] at h
    rw [h, (mass_linear D).map_add]; rfl
  · have hy : D.y w = 0 := by
      have : dtonResidual (D.pieces solve) t.fSol = D.y w := by
        unfold dtonResidual
        rw [pieces_rigid]
        simp only [w, ← rigidOn_eq]
        rfl
      rw [← this]; exact h2
    exact fun r P hP' k hk c => y_zero D w hy r P hP' k hk c

/-- C87 (SEM): a fresh SEM object, any mesh decomposition, particles, boundary values and source: after
`setup_RHS` and `solve`, with exact solvers and a solvable problem, for the control found the velocity of the
second problem is, at the nodes inside each particle, the rigid motion given by its mean and mean rotation. -/
theorem C87_sem (D : Setup d N A) (hL : ∀ i, (D.L i).WF) (hrs : AllProcs D.L D.rs)
    (hS : SpinLaws D.S) (hA : ActLaws D.S)
    (solve : NodeVec d d ℝ × NodeVec d 1 ℝ → NodeVec d d ℝ × NodeVec d 1 ℝ) (hsolve : IsLinearMap ℝ solve)
    (K : Krylov ((Fin d → ℕ) → ℕ → ℝ)) (hK : Exact K) (f0 s0 : NodeVec d d ℝ × NodeVec d 1 ℝ)
    (hex : ∃ x, semResidual (D.pieces solve) (semFluid (D.pieces solve) x) = 0) :
    let t := semSolve (D.pieces solve) K (semSetupRHS (D.pieces solve) (initSt f0 s0))
    let u := (solve (setDirichletOnRHS D.L D.rs D.bc D.h (setRhsProblem D.fluid D.L D.rs D.h D.mass t.sol true
      D.parts (stokesSetupRHS D.L D.rs D.src D.bc D.h (diagBlockMult D.L D.elem D.M) 0)), 0)).1
    let w := (solve (setNullDirichletOnRHS D.L D.rs D.bc (D.sl (D.layer (D.interp u))), 0)).1
    ∀ r, ∀ q ∈ D.parts.zipIdx, ∀ k ∈ solidNodes D r q.1, ∀ c,
      let m := projection D.S D.L D.bf D.elem w q.1 D.h D.scale (D.data q.2 r).num
      w k c = m.1 c + q.1.ciR * D.S.act m.2 (fun j => (k j : ℝ) * D.h j - q.1.center j) c := by
  intro t u w r q hq k hk c m
  have hP := pieces_lawful D hL hrs hS hA solve hsolve
  have h := C83_control hP K hK f0 s0 hex
  have hu : (semFluid (D.pieces solve) t.sol).1 = u := by
    unfold semFluid
    have e1 := pieces_setupRHS D solve 0
    simp only [setupRHSFluid, zero_add] at e1
    have e2 := pieces_ctl D solve t.sol true ((D.pieces solve).setBC (D.pieces solve).source)
    rw [if_pos rfl] at e2
    rw [e2, e1]
    rfl
  have hw : D.yMean w = 0 := by
    rw [← h]
    show _ = (D.pieces solve).yMean _
    simp only [w, ← hu]
    rfl
  obtain ⟨-, h2, -⟩ := C47_compute_y_mean D.S D.fluid (getDMBounds D.L r true) D.h w (D.parts.zipIdx.map fun p =>
    (p.1, projection D.S D.L D.bf D.elem w p.1 D.h D.scale (D.data p.2 r).num)) 0
  obtain ⟨i, hi, e⟩ := List.getElem_of_mem (mem_layout
    (fun q : Part d A × Pos d ℝ × A => partNodes D.fluid Box.boxInside (getDMBounds D.L r true) D.h q.1)
    (D.parts.zipIdx.map fun p => (p.1, projection D.S D.L D.bf D.elem w p.1 D.h D.scale (D.data p.2 r).num))
    (q.1, m) k c (List.mem_map.2 ⟨q, hq, rfl⟩) hk)
  have h3 := h2 i hi
  rw [e] at h3
  have h4 : (0 : ℝ) = _ := (congrFun (congrFun hw r) i).symm.trans h3
  exact sub_eq_zero.1 h4.symm

end

/-! A concrete problem: the flow of velocity (1, 0) in a box whose walls move with it, around a disk which
is carried by the flow (its velocity in the code is (-1, 0), see C50). -/

/-- Two processes, the velocity mesh has 5 x 5 nodes. -/
noncomputable def exD : Setup 2 4 ℝ where
  L := velLayout ![3, 3] ![false, false] ![[2, 1], [3]]
  rs := (procs (velLayout ![3, 3] ![false, false] ![[2, 1], [3]])).toList
  h := ![1, 1]
  bc := fun _ c => some fun _ => ![1, 0] c
  src := fun _ => none
  bf := fun x => p1Integration2 x ![1, 1]
  bfg := fun x => p1IntegrationGrad2 x ![1, 1]
  elem := getElement2
  M := matElemMass2 ![1, 1]
  fluid := fluidPoints2
  S := spin2
  parts := [{ exPart with velocity := ![-1, 0] }]
  scale := 4
  pairs := []
  singScale := 4

/-- The uniform flow. -/
def exFlow : NodeVec 2 2 ℝ × NodeVec 2 1 ℝ := (fun _ => ![1, 0], 0)

/-- A linear inner solver, right on the problem at hand. -/
def exSolve (b : NodeVec 2 2 ℝ × NodeVec 2 1 ℝ) : NodeVec 2 2 ℝ × NodeVec 2 1 ℝ := b.1 0 0 • exFlow

open Classical in
/-- An exact outer solver that starts from zero. -/
noncomputable def exKrylov : Krylov ((Fin 2 → ℕ) → ℕ → ℝ) := fun A b =>
  (if A 0 = b then 0 else if h : ∃ x, A x = b then h.choose else 0, [0])

theorem exKrylov_exact : Exact exKrylov := by
  intro A b _ hb
  simp only [exKrylov]
  split_ifs with h0
  · exact h0
  · exact hb.choose_spec

theorem exSolve_linear : IsLinearMap ℝ exSolve :=
  ⟨fun x y => by simp [exSolve, add_smul], fun a x => by simp [exSolve, mul_smul]⟩

theorem exD_wf : ∀ i, (exD.L i).WF := by
  refine velLayout_wf _ _ _ (by intro i; fin_cases i <;> simp) ?_
  intro i; fin_cases i <;> exact ⟨by decide, by decide⟩

theorem exD_procs : AllProcs exD.L exD.rs := ⟨Finset.nodup_toList _, by simp [exD]⟩

/-- On any vector, the Dirichlet step gives the values of the uniform flow at the boundary. -/
theorem exD_bc (y : NodeVec 2 2 ℝ) (g : Pos 2 ℤ) (c : Fin 2) (hg : g ∈ gridNodes exD.L)
    (hc : Constrained exD.L exD.bc g c) : setDirichletOnRHS exD.L exD.rs exD.bc exD.h y g c = ![1, 0] c := by
  obtain ⟨a1, a2, a3⟩ := C26_rhs exD.L exD_wf exD.rs exD_procs exD.bc exD.h y g c
  obtain ⟨φ, hφ⟩ := a3.1 hc
  rw [a1 hg φ hφ]
  obtain ⟨f, -, h2, -⟩ := hφ
  simp only [exD, Option.some.injEq] at h2
  rw [← h2]

theorem exD_surface : exD.rigidOn (exD.interp exFlow.1) = 0 := by
  rw [rigidOn_eq]
  funext r i k
  unfold surfaceGap
  by_cases hi : i = 0
  · subst hi
    simp only [show exD.parts[0]? = some { exPart with velocity := ![-1, 0] } from rfl]
    by_cases hk : k < (exD.data 0 r).surf.length
    · rw [List.getElem?_eq_getElem hk, List.getElem?_eq_getElem (data_aligned exD 0 r ▸ hk)]
      funext c
      have h1 : interpPoint exD.bf exD.elem (globalToLocal exD.L exFlow.1) ((exD.data 0 r).surf[k]) c = ![1, 0] c := by
        rw [interpPoint_apply]
        simp only [globalToLocal, exFlow]
        rw [← Finset.mul_sum]
        have := (C06_weights2 ![1, 1] (by intro c; fin_cases c <;> norm_num)).1 ((exD.data 0 r).surf[k]).2
        simp only [exD] at this ⊢
        rw [this, mul_one]
      simp only [h1]
      fin_cases c <;> simp [exD, spin2, crossZ, exPart]
    · rw [List.getElem?_eq_none (by omega)]
      rfl
  · have hp : exD.parts[i]? = none := by
      rw [List.getElem?_eq_none]
      simp [exD]; omega
    rw [hp]
    rfl

theorem exD_corner : Constrained exD.L exD.bc 0 0 ∧ (0 : Pos 2 ℤ) ∈ gridNodes exD.L := by
  refine ⟨⟨0, ⟨0, rfl, Or.inl ⟨rfl, rfl⟩⟩, rfl⟩, ?_⟩
  rw [mem_gridNodes]
  intro i; fin_cases i <;> decide

theorem exD_pieces_zero : (exD.pieces exSolve).source = 0 ∧ (exD.pieces exSolve).ctl 0 = 0 := by
  refine ⟨?_, ?_⟩
  · have : hasCondition exD.src = false := rfl
    simp only [Setup.pieces, this]
    rfl
  · exact (pieces_lawful exD exD_wf exD_procs spinLaws2 actLaws2 exSolve exSolve_linear).ctl.map_zero

/-- The right-hand side of the last problem. -/
theorem exD_fluid : dtonFluid (exD.pieces exSolve) false 0 = exFlow := by
  unfold dtonFluid
  rw [exD_pieces_zero.1, exD_pieces_zero.2, if_neg (by simp), add_zero, add_zero]
  show (setDirichletOnRHS exD.L exD.rs exD.bc exD.h _ 0 0) • exFlow = exFlow
  rw [exD_bc _ _ _ exD_corner.2 exD_corner.1]
  simp

theorem exD_residual : dtonResidual (exD.pieces exSolve) (dtonFluid (exD.pieces exSolve) false 0) = 0 := by
  have hP := pieces_lawful exD exD_wf exD_procs spinLaws2 actLaws2 exSolve exSolve_linear
  unfold dtonResidual
  rw [pieces_rigid, exD_fluid]
  show (exD.pieces exSolve).y ((exD.pieces exSolve).solve ((exD.pieces exSolve).setNull
    ((exD.pieces exSolve).sl (exD.rigidOn (exD.interp exFlow.1))))) = 0
  rw [exD_surface, hP.sl.map_zero, hP.setNull.map_zero, hP.solve.map_zero, hP.y.map_zero]

/-- A uniform flow without pressure leaves no force on the nodes that carry no boundary value. -/
theorem uniform_stokes (M : Fin 2 → ℤ) (per : Fin 2 → Bool) (lx : Fin 2 → List ℤ)
    (hne : ∀ i, lx i ≠ []) (hW : ∀ i, (presLayout M per lx i).WF) (h : Pos 2 ℝ) (hh : ∀ c, 0 < h c)
    (rs : List (Fin 2 → ℕ)) (hrs : AllProcs (velLayout M per lx) rs) (bc : BC 2 ℝ) (v : Fin 2 → ℝ) :
    stokesMatrixBC (velLayout M per lx) (presLayout M per lx) rs bc
      (tensorBlockMult (velLayout M per lx) getElement2 (matElemStrain2 h)) getElement2 getElement4Q1_2
      (matElemPressure2 h) (fun _ => v) 0 = (setDirichletOnVec (velLayout M per lx) rs bc (fun _ => v) 0, 0) := by
  have hv := velLayout_wf M per lx hne hW
  unfold stokesMatrixBC
  ext1
  · funext g c
    show setDirichletOnVec _ _ _ _ _ g c = setDirichletOnVec _ _ _ _ _ g c
    rw [C25_vec _ hv rs hrs, C25_vec _ hv rs hrs]
    split_ifs with hg
    · rfl
    · rw [vel_out M per lx hne hW getElement2 getElement4Q1_2 isQ1_2 _ is4Q1_2]
      have e1 := (C16_kernel2 (n := 2) (velLayout M per lx) hv h hh).2.1 v g c
      unfold strain2 at e1
      rw [e1, zero_add]
      refine Finset.sum_eq_zero fun e _ => Finset.sum_eq_zero fun k _ => ?_
      split_ifs
      · simp
      · rfl
  · funext g c
    have hc : c = 0 := Subsingleton.elim _ _
    subst hc
    show (stokesMatrix _ _ _ _ _ _ _ _).2 g 0 = _
    rw [(stokes_split M per lx hne hW _ _ isQ1_2 _ is4Q1_2 _ _ _ _).2 g 0]
    exact C20_constant_velocity2 M per lx hne hW h v 0 g

/-- All the hypotheses of `C87_dton` hold for this problem, and the fluid solution is the uniform flow. -/
theorem C87_example :
    (∀ i, (exD.L i).WF) ∧ AllProcs exD.L exD.rs ∧ IsLinearMap ℝ exSolve ∧ Exact exKrylov ∧
    (∃ x, dtonResidual (exD.pieces exSolve) (dtonFluid (exD.pieces exSolve) false x) = 0) ∧
    let t := dtonSolve (exD.pieces exSolve) exKrylov id true false
      (dtonSetupRHS (exD.pieces exSolve) true false (initSt 0 0))
    t.fSol = exFlow ∧
    stokesMatrixBC exD.L (presLayout ![3, 3] ![false, false] ![[2, 1], [3]]) exD.rs exD.bc
      (tensorBlockMult exD.L getElement2 (matElemStrain2 ![1, 1])) getElement2 getElement4Q1_2
      (matElemPressure2 ![1, 1]) t.fSol.1 t.fSol.2 = t.fRhs := by
  refine ⟨exD_wf, exD_procs, exSolve_linear, exKrylov_exact, ⟨0, exD_residual⟩, ?_⟩
  intro t
  have hP := pieces_lawful exD exD_wf exD_procs spinLaws2 actLaws2 exSolve exSolve_linear
  obtain ⟨h1, h2⟩ := dton_run hP exKrylov id false (initSt 0 0)
  have hsol : t.sol = 0 := by
    refine Eq.trans h1 ?_
    have e : -(dtonMatrix (exD.pieces exSolve) ⟨true, true, false⟩
        (initSt (C := (Fin 2 → ℕ) → ℕ → ℝ) (0 : NodeVec 2 2 ℝ × NodeVec 2 1 ℝ) 0).sol).2 = 0 := by
      rw [← residual_fluid hP]
      rw [show (initSt (C := (Fin 2 → ℕ) → ℕ → ℝ) (0 : NodeVec 2 2 ℝ × NodeVec 2 1 ℝ) 0).sol = 0 from rfl,
        exD_residual, neg_zero]
    rw [e]
    simp only [exKrylov]
    rw [if_pos]
    exact (C55_linear hP).map_zero
  have hfS : t.fSol = exFlow := by
    have : t.fSol = dtonFluid (exD.pieces exSolve) false t.sol := h2
    rw [this, hsol, exD_fluid]
  refine ⟨hfS, ?_⟩
  have hr : t.fRhs = ((exD.pieces exSolve).setBC ((exD.pieces exSolve).setBC 0)) := by
    have := dton_final_rhs (exD.pieces exSolve) exKrylov id (dtonSetupRHS (exD.pieces exSolve) true false (initSt 0 0))
    refine this.trans ?_
    rw [show (dtonSolve (exD.pieces exSolve) exKrylov id true false
      (dtonSetupRHS (exD.pieces exSolve) true false (initSt 0 0))).sol = 0 from hsol]
    simp [initProblem, setupRHSFluid, exD_pieces_zero.1, exD_pieces_zero.2]
  rw [hfS, hr]
  refine (uniform_stokes ![3, 3] ![false, false] ![[2, 1], [3]] (by intro i; fin_cases i <;> simp) ?_ ![1, 1]
    (by intro c; fin_cases c <;> norm_num) exD.rs exD_procs exD.bc ![1, 0]).trans ?_
  · intro i; fin_cases i <;> exact ⟨by decide, by decide⟩
  · ext1
    · funext g c
      show setDirichletOnVec exD.L exD.rs exD.bc _ _ g c = setDirichletOnRHS exD.L exD.rs exD.bc exD.h
        (setDirichletOnRHS exD.L exD.rs exD.bc exD.h 0) g c
      rw [C25_vec _ exD_wf _ exD_procs]
      split_ifs with hg
      · rw [exD_bc _ _ _ hg.1 hg.2]
      · rw [(C26_rhs exD.L exD_wf exD.rs exD_procs exD.bc exD.h _ g c).2.1 hg,
          (C26_rhs exD.L exD_wf exD.rs exD_procs exD.bc exD.h _ g c).2.1 hg]
    · rfl

end Cafes.Props
