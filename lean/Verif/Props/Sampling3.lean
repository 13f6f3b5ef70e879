/-
Property theorems for C95: the sampling of the surface of a particle in 3D (`surface` with two steps).
-/
import Verif.Props.Sampling
import Verif.Model.Sampling3

namespace Cafes.Geometry
open Cafes

/-! ### The rings -/

theorem thetaStep_scale {phi eps k tol eta : ℝ} (hp : 0 < phi) :
    thetaStep phi phi eta eps k tol = thetaStep 1 1 eta eps (k / phi) tol := by
  unfold thetaStep
  have e : ∀ A B C D : ℝ, phi * phi * A * B + phi * phi * C * D =
      phi ^ 2 * (1 * 1 * A * B + 1 * 1 * C * D) := by intros; ring
  rw [e, Real.sqrt_mul (by positivity), Real.sqrt_sq hp.le, div_one]
  split_ifs
  · rw [mul_comm phi, ← div_div, div_right_comm]
    congr 1
    ring
  · rfl
  · rfl

/-- A ring of positive radius is sampled as a super-ellipse, with the step divided by the radius. -/
theorem ringEtas_iff {eps k phi tol : ℝ} (hp : 0 < phi) (eta : ℝ) (l : List ℝ) :
    RingEtas eps k phi tol eta l ↔ Etas eps (k / phi) tol eta l := by
  constructor
  · intro h
    induction h with
    | stop eta h => exact Etas.stop _ h
    | step eta l h _ ih =>
      rw [if_neg hp.ne', thetaStep_scale hp] at ih
      exact Etas.step _ _ h ih
  · intro h
    induction h with
    | stop eta h => exact RingEtas.stop _ h
    | step eta l h _ ih =>
      refine RingEtas.step _ _ h ?_
      rw [if_neg hp.ne', thetaStep_scale hp]
      exact ih

/-- The ring of radius zero: one angle is recorded. -/
theorem ringEtas_zero {eps k tol : ℝ} (l : List ℝ) : RingEtas eps k 0 tol 0 l ↔ l = [0] := by
  constructor
  · intro h
    cases h with
    | stop _ h => exact absurd (by positivity) h
    | step _ l h rest =>
      rw [if_pos rfl] at rest
      cases rest with
      | stop _ _ => rfl
      | step _ _ h _ => exact absurd h (lt_irrefl _)
  · rintro rfl
    refine RingEtas.step _ _ (by positivity) ?_
    rw [if_pos rfl]
    exact RingEtas.stop _ (lt_irrefl _)

/-- Existence, uniqueness and shape of the angles of a ring. -/
theorem ringEtas_exists {eps k phi tol : ℝ} (he : 0 < eps) (hk : 0 < k) (ht : 0 < tol) (hp : 0 ≤ phi) :
    ∃! l, RingEtas eps k phi tol 0 l := by
  rcases hp.eq_or_lt with rfl | hp
  · exact ⟨[0], (ringEtas_zero _).2 rfl, fun l hl => (ringEtas_zero _).1 hl⟩
  · simp only [ringEtas_iff hp]
    exact C40_loop he (div_pos hk hp) ht

theorem ringEtas_shape {eps k phi tol : ℝ} {etas : List ℝ} (he : 0 < eps) (hk : 0 < k) (ht : 0 < tol)
    (hp : 0 ≤ phi) (h : RingEtas eps k phi tol 0 etas) : ∃ l, etas = 0 :: l ∧ l.Pairwise (· < ·) ∧
      (∀ t ∈ l, 0 < t ∧ t < Real.pi / 4) ∧ ∀ t ∈ etas, 0 ≤ t ∧ t < Real.pi / 4 := by
  rcases hp.eq_or_lt with rfl | hp
  · rw [ringEtas_zero] at h
    subst h
    refine ⟨[], rfl, List.Pairwise.nil, by simp, ?_⟩
    intro t ht
    rw [List.mem_singleton] at ht
    subst ht
    exact ⟨le_rfl, by positivity⟩
  · exact etas_zero he (div_pos hk hp) ht ((ringEtas_iff hp _ _).1 h)

/-- The sampled points: the first quadrant without its first point, then the second, third and fourth. -/
theorem uniformSampling3_eq (r : Pos 3 ℝ) (eps z phi : ℝ) (etas : List ℝ) (hne : etas ≠ []) :
    uniformSampling3 r eps z phi etas =
      (quadrant3 r eps z phi etas).tail ++
      ((quadrant3 r eps z phi etas).dropLast.reverse.map fun p => ![-p 0, p 1, p 2]) ++
      ((quadrant3 r eps z phi etas).tail.map fun p => ![-p 0, -p 1, p 2]) ++
      ((quadrant3 r eps z phi etas).dropLast.reverse.map fun p => ![p 0, -p 1, p 2]) := by
  unfold uniformSampling3
  set Q := quadrant3 r eps z phi etas with hQ
  have hQne : Q ≠ [] := by
    intro h
    have : Q.length = 0 := by rw [h]; rfl
    rw [hQ] at this
    simp [quadrant3] at this
    exact hne this
  have hlt : ∀ i ∈ (List.range Q.length).drop 1, i < Q.length ∧ Q.length - i - 1 < Q.length := by
    intro i hi
    have := List.mem_range.1 (List.mem_of_mem_drop hi)
    omega
  have e1 := foldl_push (fun l i => ![-(l.getD (Q.length - i - 1) (fun _ => 0) 0),
    l.getD (Q.length - i - 1) (fun _ => 0) 1, l.getD (Q.length - i - 1) (fun _ => 0) 2])
    (fun i => ![-(Q.getD (Q.length - i - 1) (fun _ => 0) 0), Q.getD (Q.length - i - 1) (fun _ => 0) 1,
      Q.getD (Q.length - i - 1) (fun _ => 0) 2])
    Q ((List.range Q.length).drop 1) [] (fun i hi e => by
      simp only [List.getD_append _ _ _ _ (hlt i hi).2])
  have e2 := fun rest => foldl_push (fun l i => ![-(l.getD i (fun _ => 0) 0),
    -(l.getD i (fun _ => 0) 1), l.getD i (fun _ => 0) 2])
    (fun i => ![-(Q.getD i (fun _ => 0) 0), -(Q.getD i (fun _ => 0) 1), Q.getD i (fun _ => 0) 2])
    Q ((List.range Q.length).drop 1) rest (fun i hi e => by
      simp only [List.getD_append _ _ _ _ (hlt i hi).1])
  have e3 := fun rest => foldl_push (fun l i => ![l.getD (Q.length - i - 1) (fun _ => 0) 0,
    -(l.getD (Q.length - i - 1) (fun _ => 0) 1), l.getD (Q.length - i - 1) (fun _ => 0) 2])
    (fun i => ![Q.getD (Q.length - i - 1) (fun _ => 0) 0, -(Q.getD (Q.length - i - 1) (fun _ => 0) 1),
      Q.getD (Q.length - i - 1) (fun _ => 0) 2])
    Q ((List.range Q.length).drop 1) rest (fun i hi e => by
      simp only [List.getD_append _ _ _ _ (hlt i hi).2])
  simp only [List.append_nil] at e1
  dsimp only
  rw [e1, e2, List.append_assoc, e3]
  rw [map_rev_idx Q (fun _ => 0) (fun p => ![-p 0, p 1, p 2]),
    map_idx Q (fun _ => 0) (fun p => ![-p 0, -p 1, p 2]),
    map_rev_idx Q (fun _ => 0) (fun p => ![p 0, -p 1, p 2])]
  obtain ⟨a, l, hal⟩ := List.exists_cons_of_ne_nil hQne
  rw [hal]
  simp

/-- A point of the ring of radius factor `phi` at the height `z`. -/
noncomputable def ringPoint (r : Pos 3 ℝ) (eps z phi t : ℝ) : Pos 3 ℝ :=
  ![r 0 * cFun t eps * phi, r 1 * sFun t eps * phi, z]

theorem quadrant3_eq (r : Pos 3 ℝ) (eps z phi : ℝ) (etas : List ℝ)
    (hb : ∀ t ∈ etas, 0 ≤ t ∧ t < Real.pi / 4) :
    quadrant3 r eps z phi etas = (quadrantAngles etas).map (ringPoint r eps z phi) := by
  have hcs : ∀ t ∈ etas, 0 ≤ Real.cos t ∧ 0 ≤ Real.sin t := by
    intro t ht
    have := hb t ht
    have hpi := Real.pi_pos
    exact ⟨Real.cos_nonneg_of_neg_pi_div_two_le_of_le (by linarith) (by linarith),
      Real.sin_nonneg_of_nonneg_of_le_pi (by linarith) (by linarith)⟩
  unfold quadrant3 quadrantAngles
  rw [List.map_append, List.map_map]
  congr 1
  · apply List.map_congr_left
    intro t ht
    rw [ringPoint, cFun_of_nonneg (hcs t ht).1, sFun_of_nonneg (hcs t ht).2]
  · apply List.map_congr_left
    intro t ht
    have ht := List.mem_reverse.1 ht
    rw [Function.comp_apply, ringPoint, cFun_of_nonneg (by rw [Real.cos_pi_div_two_sub]; exact (hcs t ht).2),
      sFun_of_nonneg (by rw [Real.sin_pi_div_two_sub]; exact (hcs t ht).1),
      Real.cos_pi_div_two_sub, Real.sin_pi_div_two_sub]

theorem uniformSampling3_angles (r : Pos 3 ℝ) (eps z phi : ℝ) (he : 0 < eps) (etas : List ℝ)
    (hne : etas ≠ []) (hb : ∀ t ∈ etas, 0 ≤ t ∧ t < Real.pi / 4) :
    uniformSampling3 r eps z phi etas = (allAngles etas).map (ringPoint r eps z phi) := by
  rw [uniformSampling3_eq r eps z phi etas hne, quadrant3_eq r eps z phi etas hb]
  unfold allAngles
  simp only [List.map_append, List.map_map, ← List.map_tail, ← List.map_dropLast, ← List.map_reverse]
  congr 1
  · congr 1
    · congr 1
      apply List.map_congr_left
      intro t _
      simp only [Function.comp_apply, ringPoint, Matrix.cons_val]
      rw [cFun_neg he (Real.cos_pi_sub t), sFun_congr (Real.sin_pi_sub t)]
      simp
    · apply List.map_congr_left
      intro t _
      simp only [Function.comp_apply, ringPoint, Matrix.cons_val]
      rw [cFun_neg (t' := Real.pi + t) (t := t) he (by rw [add_comm, Real.cos_add_pi]),
        sFun_neg (t' := Real.pi + t) (t := t) he (by rw [add_comm, Real.sin_add_pi])]
      simp
  · apply List.map_congr_left
    intro t _
    simp only [Function.comp_apply, ringPoint, Matrix.cons_val]
    rw [cFun_congr (Real.cos_two_pi_sub t), sFun_neg he (Real.sin_two_pi_sub t)]
    simp

theorem length_uniformSampling3 (r : Pos 3 ℝ) (eps z phi : ℝ) (etas : List ℝ) (hne : etas ≠ []) :
    (uniformSampling3 r eps z phi etas).length + 4 = 8 * etas.length := by
  rw [uniformSampling3_eq r eps z phi etas hne]
  have := List.length_pos_iff.2 hne
  simp [quadrant3]
  omega

/-- The points of a ring are balanced around its axis. -/
theorem ring_sum (r : Pos 3 ℝ) (eps z phi : ℝ) (etas : List ℝ) (hne : etas ≠ []) :
    ((uniformSampling3 r eps z phi etas).map fun p => p 0).sum = 0 ∧
    ((uniformSampling3 r eps z phi etas).map fun p => p 1).sum = 0 := by
  have hneg : ∀ l : List ℝ, (l.map fun x => -x).sum = -l.sum := by
    intro l; induction l with
    | nil => simp
    | cons a l ih => simp only [List.map_cons, List.sum_cons, ih]; ring
  have h0 : ∀ (l : List (Pos 3 ℝ)) (i : Fin 3), (l.map fun p => -p i).sum = -(l.map fun p => p i).sum := by
    intro l i
    rw [← hneg, List.map_map]; rfl
  rw [uniformSampling3_eq r eps z phi etas hne]
  constructor <;>
    simp only [List.map_append, List.map_map, List.sum_append, Function.comp_def, Matrix.cons_val_zero,
      Matrix.cons_val_one, List.map_reverse, List.sum_reverse, h0] <;> ring

/-! ### The vector -/

theorem append_data {α : Type*} (grow : ℕ → ℕ → ℕ → ℕ) (v : CVec α) (l : List α) :
    (v.append grow l).1.data = v.data ++ l := by
  unfold CVec.append; dsimp only; split_ifs <;> rfl

theorem append_noalloc {α : Type*} (grow : ℕ → ℕ → ℕ → ℕ) (v : CVec α) (l : List α)
    (h : v.data.length + l.length ≤ v.cap) : v.append grow l = (⟨v.data ++ l, v.cap⟩, false) := by
  unfold CVec.append; dsimp only; rw [if_pos h]

/-- Capacity invariant: after any sequence of insertions that leaves at least two elements, the capacity
is at most twice the number of elements, less two. -/
theorem append_cap {α : Type*} {grow : ℕ → ℕ → ℕ → ℕ} (hg : Growth grow) (v : CVec α) (l : List α)
    (hw : v.data.length ≤ v.cap) (hv : v.cap ≤ 2 * v.data.length - 2)
    (hl : 2 ≤ v.data.length + l.length) :
    (v.append grow l).1.cap ≤ 2 * (v.append grow l).1.data.length - 2 := by
  rw [append_data, List.length_append]
  unfold CVec.append; dsimp only
  split_ifs with h
  · dsimp only; omega
  · dsimp only
    have := (hg v.data.length v.cap (v.data.length + l.length) hw (by omega)).2
    omega

/-- The mirroring loop: when it is defined it appends the images of the elements. -/
theorem mirrorFrom_data {α : Type*} (grow : ℕ → ℕ → ℕ → ℕ) (f : α → α) (l : List α) :
    ∀ (m i : ℕ) (e : List α) (v : CVec α) (ok : Bool) (w : CVec α), v.data = l ++ e →
    i + m = l.length → mirrorFrom grow f m i v ok = some w → w.data = l ++ e ++ (l.drop i).map f := by
  intro m
  induction m with
  | zero =>
    intro i e v ok w hv hi h
    rw [mirrorFrom, Option.some.injEq] at h
    rw [← h, hv, List.drop_of_length_le (by omega)]; simp
  | succ m ih =>
    intro i e v ok w hv hi h
    rw [mirrorFrom] at h
    have hi' : i < l.length := by omega
    cases ok with
    | false => simp at h
    | true =>
      rw [if_pos rfl, hv, List.getElem?_append_left hi', List.getElem?_eq_getElem hi'] at h
      have := ih (i + 1) (e ++ [f l[i]]) _ _ w (by rw [append_data, hv, List.append_assoc]) (by omega) h
      rw [this, List.drop_eq_getElem_cons hi', List.map_cons]
      simp only [List.append_assoc, List.cons_append, List.nil_append]

/-- The mirroring loop is defined when the vector has room for all the images. -/
theorem mirrorFrom_room {α : Type*} (grow : ℕ → ℕ → ℕ → ℕ) (f : α → α) :
    ∀ (m i : ℕ) (v : CVec α), i + m ≤ v.data.length → v.data.length + m ≤ v.cap →
    (mirrorFrom grow f m i v true).isSome := by
  intro m
  induction m with
  | zero => intro i v _ _; rfl
  | succ m ih =>
    intro i v hi hc
    rw [mirrorFrom, if_pos rfl, List.getElem?_eq_getElem (by omega : i < v.data.length)]
    dsimp only
    rw [append_noalloc grow v _ (by simp; omega)]
    exact ih (i + 1) _ (by simp; omega) (by simp; omega)

/-- The mirroring loop reads through invalidated iterators when the vector has not even room for all the
images but one. -/
theorem mirrorFrom_noroom {α : Type*} (grow : ℕ → ℕ → ℕ → ℕ) (f : α → α) :
    ∀ (m i : ℕ) (v : CVec α), i + (m + 1) ≤ v.data.length → v.data.length ≤ v.cap →
    v.cap < v.data.length + m → mirrorFrom grow f (m + 1) i v true = none := by
  intro m
  induction m with
  | zero => intro i v hi hw hc; omega
  | succ m ih =>
    intro i v hi hw hc
    rw [mirrorFrom, if_pos rfl, List.getElem?_eq_getElem (by omega : i < v.data.length)]
    dsimp only
    by_cases h : v.data.length + 1 ≤ v.cap
    · rw [append_noalloc grow v _ (by simpa using h)]
      exact ih (i + 1) _ (by simp; omega) (by simpa using h) (by simp; omega)
    · unfold CVec.append
      dsimp only
      rw [List.length_singleton, if_neg h]
      dsimp only
      rw [mirrorFrom]; rfl

/-! ### The loop over the rings -/

theorem ringEtas_unique {eps k phi tol eta : ℝ} {l l' : List ℝ} (h : RingEtas eps k phi tol eta l)
    (h' : RingEtas eps k phi tol eta l') : l = l' := by
  induction h generalizing l' with
  | stop eta h0 =>
    cases h' with
    | stop _ _ => rfl
    | step _ _ h1 _ => exact absurd h1 h0
  | step eta l h0 _ ih =>
    cases h' with
    | stop _ h1 => exact absurd h0 h1
    | step _ l2 h1 h2 => rw [ih h2]

theorem rings_unique {grow : ℕ → ℕ → ℕ → ℕ} {S : Shape 3} {k : Fin 2 → ℝ} {tol o1 o2 : ℝ}
    {v w w' : CVec (Pos 3 ℝ)} (h : Rings grow S k tol o1 o2 v w) (h' : Rings grow S k tol o1 o2 v w') :
    w = w' := by
  induction h generalizing w' with
  | stop o1 o2 v h0 =>
    cases h' with
    | stop _ _ _ _ => rfl
    | step _ _ _ _ _ _ h1 _ _ _ => exact absurd h1 h0
  | step o1 o2 v w e1 e2 h0 r1 r2 _ ih =>
    cases h' with
    | stop _ _ _ h1 => exact absurd h0 h1
    | step _ _ _ _ e1' e2' _ r1' r2' rest =>
      rw [← ringEtas_unique r1 r1', ← ringEtas_unique r2 r2'] at rest
      exact ih rest

theorem cos_sin_nonneg {o : ℝ} (h0 : 0 ≤ o) (h1 : o < Real.pi / 4) :
    0 < Real.cos o ∧ 0 ≤ Real.sin o := by
  have hpi := Real.pi_pos
  exact ⟨Real.cos_pos_of_mem_Ioo ⟨by linarith, by linarith⟩,
    Real.sin_nonneg_of_nonneg_of_le_pi (by linarith) (by linarith)⟩

theorem rings_exists {grow : ℕ → ℕ → ℕ → ℕ} {S : Shape 3} {k : Fin 2 → ℝ} {tol : ℝ} (hn : 0 < S.n_)
    (he : 0 < S.e_) (hk : ∀ i, 0 < k i) (ht : 0 < tol) {o : ℝ} {l : List ℝ}
    (h : Etas S.e_ (k 1) tol o l) (h0 : 0 ≤ o) (v : CVec (Pos 3 ℝ)) :
    ∃ w, Rings grow S k tol o o v w := by
  induction h generalizing v with
  | stop o h1 => exact ⟨v, Rings.stop _ _ _ h1⟩
  | step o l h1 _ ih =>
    obtain ⟨hc, hs⟩ := cos_sin_nonneg h0 h1
    obtain ⟨e1, r1, -⟩ := ringEtas_exists (k := k 0) hn (hk 0) ht (Real.rpow_nonneg hc.le S.e_)
    obtain ⟨e2, r2, -⟩ := ringEtas_exists (k := k 0) hn (hk 0) ht (Real.rpow_nonneg hs S.e_)
    have := thetaStep_pos he (hk 1) ht h0 h1
    obtain ⟨w, hw⟩ := ih (by linarith) _
    exact ⟨w, Rings.step _ _ _ _ e1 e2 h1 r1 r2 hw⟩

/-- The points added by one iteration, from the angle and from the angles of the two rings. -/
noncomputable def twoRings (S : Shape 3) (x : ℝ × List ℝ × List ℝ) : List (Pos 3 ℝ) :=
  uniformSampling3 S.s S.n_ (S.s 2 * Real.sin x.1 ^ S.e_) (Real.cos x.1 ^ S.e_) x.2.1 ++
  uniformSampling3 S.s S.n_ (S.s 2 * Real.cos x.1 ^ S.e_) (Real.sin x.1 ^ S.e_) x.2.2

/-- The angles recorded in the rings of one iteration. -/
def RingsAt (S : Shape 3) (k : Fin 2 → ℝ) (tol : ℝ) (x : ℝ × List ℝ × List ℝ) : Prop :=
  RingEtas S.n_ (k 0) (Real.cos x.1 ^ S.e_) tol 0 x.2.1 ∧
  RingEtas S.n_ (k 0) (Real.sin x.1 ^ S.e_) tol 0 x.2.2

theorem rings_data {grow : ℕ → ℕ → ℕ → ℕ} {S : Shape 3} {k : Fin 2 → ℝ} {tol o1 o2 : ℝ}
    {v w : CVec (Pos 3 ℝ)} (h : Rings grow S k tol o1 o2 v w) (ho : o1 = o2) :
    ∃ L : List (ℝ × List ℝ × List ℝ), Etas S.e_ (k 1) tol o1 (L.map fun x => x.1) ∧
      (∀ x ∈ L, RingsAt S k tol x) ∧ w.data = v.data ++ L.flatMap (twoRings S) := by
  induction h with
  | stop o1 o2 v h0 => exact ⟨[], Etas.stop _ h0, by simp, by simp⟩
  | step o1 o2 v w e1 e2 h0 r1 r2 _ ih =>
    subst ho
    obtain ⟨L, h1, h2, h3⟩ := ih rfl
    refine ⟨(o1, e1, e2) :: L, Etas.step _ _ h0 h1, ?_, ?_⟩
    · intro x hx
      rcases List.mem_cons.1 hx with rfl | hx
      · exact ⟨r1, r2⟩
      · exact h2 x hx
    · rw [h3, append_data, append_data]
      simp [twoRings]

theorem rings_cap {grow : ℕ → ℕ → ℕ → ℕ} (hg : Growth grow) {S : Shape 3} {k : Fin 2 → ℝ} {tol o1 o2 : ℝ}
    {v w : CVec (Pos 3 ℝ)} (h : Rings grow S k tol o1 o2 v w) (hv : v.data.length ≤ v.cap)
    (hc : v.cap ≤ 2 * v.data.length - 2) : w.data.length ≤ w.cap ∧ w.cap ≤ 2 * w.data.length - 2 := by
  have hpi := Real.pi_pos
  have ring_ne : ∀ {phi : ℝ} {e : List ℝ}, RingEtas S.n_ (k 0) phi tol 0 e → e ≠ [] := by
    intro phi e he
    cases he with
    | stop _ h => exact absurd (by positivity) h
    | step _ l _ _ => simp
  have room : ∀ (v : CVec (Pos 3 ℝ)) (l : List (Pos 3 ℝ)), v.data.length ≤ v.cap →
      (v.append grow l).1.data.length ≤ (v.append grow l).1.cap := by
    intro v l hv
    rw [append_data, List.length_append]
    unfold CVec.append; dsimp only
    split_ifs with h
    · exact h
    · exact (hg _ _ _ hv (by omega)).1
  induction h with
  | stop o1 o2 v h0 => exact ⟨hv, hc⟩
  | step o1 o2 v w e1 e2 h0 r1 r2 _ ih =>
    have l1 := length_uniformSampling3 S.s S.n_ (S.s 2 * Real.sin o1 ^ S.e_) (Real.cos o1 ^ S.e_) e1
      (ring_ne r1)
    have p1 := List.length_pos_iff.2 (ring_ne r1)
    refine ih (room _ _ (room _ _ hv)) (append_cap hg _ _ (room _ _ hv)
      (append_cap hg _ _ hv hc (by omega)) ?_)
    rw [append_data, List.length_append]
    omega

/-! ### C95 -/

/-- The list that `surface(k, tol)` computes when the vector happens to have room for the mirror images, that
is with some allocation policy for which the behaviour is defined. -/
def Intended (S : Shape 3) (k : Fin 2 → ℝ) (tol : ℝ) (pts : List (Pos 3 ℝ)) : Prop :=
  ∃ grow, Surface3 grow S k tol (some pts)

theorem intended_eq {S : Shape 3} {k : Fin 2 → ℝ} {tol : ℝ} {pts : List (Pos 3 ℝ)}
    (h : Intended S k tol pts) : ∃ L : List (ℝ × List ℝ × List ℝ),
      Etas S.e_ (k 1) tol 0 (L.map fun x => x.1) ∧ (∀ x ∈ L, RingsAt S k tol x) ∧
      pts = (L.flatMap (twoRings S) ++ (L.flatMap (twoRings S)).map fun p => ![p 0, p 1, -p 2]).map
        fun p => ![p 0 + S.center 0, p 1 + S.center 1, p 2 + S.center 2] := by
  obtain ⟨grow, v, hv, h⟩ := h
  obtain ⟨L, h1, h2, h3⟩ := rings_data hv rfl
  refine ⟨L, h1, h2, ?_⟩
  rw [CVec.empty, List.nil_append] at h3
  have h := h.symm
  rw [Option.map_eq_some_iff] at h
  obtain ⟨w, hw, rfl⟩ := h
  have := mirrorFrom_data grow (fun p : Pos 3 ℝ => ![p 0, p 1, -p 2]) v.data v.data.length 0 [] v true w
    (by simp) (by simp) hw
  rw [this, h3]
  simp

/-- C95 (termination): for positive steps and tolerance the sampling of any super-ellipsoid terminates and its
outcome is unique, whatever the allocation policy. -/
theorem C95_terminates (c s : Pos 3 ℝ) (n e : ℝ) (hn : 0 < n) (he : 0 < e) (q : Quat ℝ) (k : Fin 2 → ℝ)
    (hk : ∀ i, 0 < k i) (tol : ℝ) (ht : 0 < tol) (grow : ℕ → ℕ → ℕ → ℕ) :
    ∃! res, Surface3 grow (mkShape3 c s n e q) k tol res := by
  obtain ⟨l, hl⟩ := etas_exists (eps := (mkShape3 c s n e q).e_) (by show 0 < 2 / e; positivity) (hk 1) ht 0
    le_rfl
  obtain ⟨w, hw⟩ := rings_exists (grow := grow) (S := mkShape3 c s n e q) (by show 0 < 2 / n; positivity)
    (by show 0 < 2 / e; positivity) hk ht hl le_rfl CVec.empty
  refine ⟨_, ⟨w, hw, rfl⟩, ?_⟩
  rintro res ⟨w', hw', rfl⟩
  rw [rings_unique hw hw']

/-- C95 is false of the code: with the allocation policies of the standard libraries in use, `surface(k, tol)`
reads through invalidated iterators, for every shape, steps and tolerance. -/
theorem C95_undefined (c s : Pos 3 ℝ) (n e : ℝ) (q : Quat ℝ) (k : Fin 2 → ℝ) (tol : ℝ)
    (grow : ℕ → ℕ → ℕ → ℕ) (hg : Growth grow) (res : Option (List (Pos 3 ℝ)))
    (h : Surface3 grow (mkShape3 c s n e q) k tol res) : res = none := by
  obtain ⟨v, hv, rfl⟩ := h
  obtain ⟨hr, hc⟩ := rings_cap hg hv (by simp [CVec.empty]) (by simp [CVec.empty])
  have hlen : 2 ≤ v.data.length := by
    cases hv with
    | stop _ _ _ h => exact absurd (by positivity) h
    | step _ _ _ _ e1 e2 h0 r1 r2 rest =>
      obtain ⟨L, -, -, h3⟩ := rings_data rest (by rfl)
      have hne : e1 ≠ [] := by
        cases r1 with
        | stop _ h => exact absurd (by positivity) h
        | step _ l _ _ => simp
      have := length_uniformSampling3 (mkShape3 c s n e q).s (mkShape3 c s n e q).n_
        ((mkShape3 c s n e q).s 2 * Real.sin 0 ^ (mkShape3 c s n e q).e_)
        (Real.cos 0 ^ (mkShape3 c s n e q).e_) e1 hne
      have := List.length_pos_iff.2 hne
      rw [h3, append_data, append_data]
      simp only [List.length_append]
      omega
  obtain ⟨m, hm⟩ : ∃ m, v.data.length = m + 1 := ⟨v.data.length - 1, by omega⟩
  have := mirrorFrom_noroom grow (fun p : Pos 3 ℝ => ![p 0, p 1, -p 2]) m 0 v (by omega) hr (by omega)
  rw [hm, this]
  rfl

/-- The policies of libstdc++, libc++ and MSVC. -/
theorem growth_libstdcxx : Growth fun size _ need => size + max size (need - size) :=
  fun _ _ _ _ _ => ⟨by dsimp only; omega, by dsimp only; omega⟩
theorem growth_libcxx : Growth fun _ cap need => max (2 * cap) need :=
  fun _ _ _ _ _ => ⟨le_max_right _ _, le_rfl⟩
theorem growth_msvc : Growth fun _ cap need => max (cap + cap / 2) need :=
  fun _ _ _ _ _ => ⟨le_max_right _ _, by dsimp only; omega⟩

theorem rings_grow {grow : ℕ → ℕ → ℕ → ℕ} {S : Shape 3} {k : Fin 2 → ℝ} {tol o1 o2 : ℝ}
    {v w : CVec (Pos 3 ℝ)} (h : Rings grow S k tol o1 o2 v w) (grow' : ℕ → ℕ → ℕ → ℕ) :
    ∀ v' : CVec (Pos 3 ℝ), v'.data = v.data →
    ∃ w', Rings grow' S k tol o1 o2 v' w' ∧ w'.data = w.data := by
  induction h with
  | stop o1 o2 v h0 => exact fun v' hv' => ⟨v', Rings.stop _ _ _ h0, hv'⟩
  | step o1 o2 v w e1 e2 h0 r1 r2 _ ih =>
    intro v' hv'
    obtain ⟨w', h1, h2⟩ := ih ((v'.append grow' (uniformSampling3 S.s S.n_ (S.s 2 * Real.sin o1 ^ S.e_)
      (Real.cos o1 ^ S.e_) e1)).1.append grow' (uniformSampling3 S.s S.n_ (S.s 2 * Real.cos o2 ^ S.e_)
      (Real.sin o2 ^ S.e_) e2)).1 (by rw [append_data, append_data, append_data, append_data, hv'])
    exact ⟨w', Rings.step _ _ _ _ e1 e2 h0 r1 r2 h1, h2⟩

/-- A policy that allocates at least `N` elements at once. -/
theorem rings_room {N : ℕ} {S : Shape 3} {k : Fin 2 → ℝ} {tol o1 o2 : ℝ} {v w : CVec (Pos 3 ℝ)}
    (h : Rings (fun _ _ need => max need N) S k tol o1 o2 v w)
    (hv : v.data.length ≤ v.cap ∧ (v.cap = 0 ∨ N ≤ v.cap)) :
    w.data.length ≤ w.cap ∧ (w.cap = 0 ∨ N ≤ w.cap) := by
  have key : ∀ (v : CVec (Pos 3 ℝ)) (l : List (Pos 3 ℝ)), (v.data.length ≤ v.cap ∧ (v.cap = 0 ∨ N ≤ v.cap)) →
      ((v.append (fun _ _ need => max need N) l).1.data.length ≤
        (v.append (fun _ _ need => max need N) l).1.cap ∧
      ((v.append (fun _ _ need => max need N) l).1.cap = 0 ∨
        N ≤ (v.append (fun _ _ need => max need N) l).1.cap)) := by
    intro v l hv
    rw [append_data, List.length_append]
    unfold CVec.append; dsimp only
    split_ifs with h
    · exact ⟨h, hv.2⟩
    · exact ⟨le_max_left _ _, Or.inr (le_max_right _ _)⟩
  induction h with
  | stop o1 o2 v h0 => exact hv
  | step o1 o2 v w e1 e2 h0 r1 r2 _ ih => exact ih (key _ _ (key _ _ hv))

/-- C95 (the intended list): there is one and only one list of points that the code returns under the
allocation policies for which its behaviour is defined. -/
theorem C95_intended (c s : Pos 3 ℝ) (n e : ℝ) (hn : 0 < n) (he : 0 < e) (q : Quat ℝ) (k : Fin 2 → ℝ)
    (hk : ∀ i, 0 < k i) (tol : ℝ) (ht : 0 < tol) :
    ∃! pts, Intended (mkShape3 c s n e q) k tol pts := by
  set S := mkShape3 c s n e q with hS
  obtain ⟨-, ⟨v, hv, -⟩, -⟩ := C95_terminates c s n e hn he q k hk tol ht fun _ _ need => need
  obtain ⟨w, hw, hd⟩ := rings_grow hv (fun _ _ need => max need (2 * v.data.length)) CVec.empty rfl
  have hroom := rings_room hw ⟨by simp [CVec.empty], Or.inl rfl⟩
  have hsome := mirrorFrom_room (fun _ _ need => max need (2 * v.data.length))
    (fun p : Pos 3 ℝ => ![p 0, p 1, -p 2]) w.data.length 0 w (by omega) (by rw [hd] at hroom ⊢; omega)
  obtain ⟨u, hu⟩ := Option.isSome_iff_exists.1 hsome
  refine ⟨u.data.map fun p => ![p 0 + S.center 0, p 1 + S.center 1, p 2 + S.center 2],
    ⟨_, w, hw, ?_⟩, ?_⟩
  · rw [hu]; rfl
  · rintro pts ⟨grow, v', hv', hpts⟩
    obtain ⟨v'', h1, h2⟩ := rings_grow hw grow CVec.empty rfl
    have := rings_unique hv' h1
    subst this
    have hpts := hpts.symm
    rw [Option.map_eq_some_iff] at hpts
    obtain ⟨u', hu', rfl⟩ := hpts
    have e1 := mirrorFrom_data _ (fun p : Pos 3 ℝ => ![p 0, p 1, -p 2]) w.data w.data.length 0 [] w true u
      (by simp) (by simp) hu
    have e2 := mirrorFrom_data _ (fun p : Pos 3 ℝ => ![p 0, p 1, -p 2]) v'.data v'.data.length 0 [] v' true u'
      (by simp) (by simp) hu'
    rw [e1, e2, h2]

/-! Where the points are -/

/-- What is recorded, for positive data. -/
theorem intended_angles {S : Shape 3} (hn : 0 < S.n_) (he : 0 < S.e_) {k : Fin 2 → ℝ} (hk : ∀ i, 0 < k i)
    {tol : ℝ} (ht : 0 < tol) {L : List (ℝ × List ℝ × List ℝ)}
    (h1 : Etas S.e_ (k 1) tol 0 (L.map fun x => x.1)) (h2 : ∀ x ∈ L, RingsAt S k tol x) :
    (∃ e1 e2 L', L = (0, e1, e2) :: L') ∧ ∀ x ∈ L, (0 ≤ x.1 ∧ x.1 < Real.pi / 4) ∧
      (x.2.1 ≠ [] ∧ ∀ t ∈ x.2.1, 0 ≤ t ∧ t < Real.pi / 4) ∧
      (x.2.2 ≠ [] ∧ ∀ t ∈ x.2.2, 0 ≤ t ∧ t < Real.pi / 4) := by
  obtain ⟨l, hl, -, -, hb⟩ := etas_zero he (hk 1) ht h1
  constructor
  · cases L with
    | nil => simp at hl
    | cons x L =>
      obtain ⟨o, e1, e2⟩ := x
      simp only [List.map_cons, List.cons.injEq] at hl
      obtain ⟨rfl, -⟩ := hl
      exact ⟨e1, e2, L, rfl⟩
  · intro x hx
    have ho := hb x.1 (List.mem_map.2 ⟨x, hx, rfl⟩)
    obtain ⟨hc, hs⟩ := cos_sin_nonneg ho.1 ho.2
    obtain ⟨l1, e1, -, -, b1⟩ := ringEtas_shape hn (hk 0) ht (Real.rpow_nonneg hc.le _) (h2 x hx).1
    obtain ⟨l2, e2, -, -, b2⟩ := ringEtas_shape hn (hk 0) ht (Real.rpow_nonneg hs _) (h2 x hx).2
    exact ⟨ho, ⟨by rw [e1]; simp, b1⟩, ⟨by rw [e2]; simp, b2⟩⟩

/-- C95 (position of the points): every point of the intended list is a point of the parametric surface, and of
the implicit surface, of the super-ellipsoid with the same centre and semi axes whose two exponents are
exchanged. -/
theorem C95_exchanged (c s : Pos 3 ℝ) (hs : ∀ i, 0 < s i) (n e : ℝ) (hn : 0 < n) (he : 0 < e) (q : Quat ℝ)
    (k : Fin 2 → ℝ) (hk : ∀ i, 0 < k i) (tol : ℝ) (ht : 0 < tol) (pts : List (Pos 3 ℝ))
    (h : Intended (mkShape3 c s n e q) k tol pts) (p : Pos 3 ℝ) (hp : p ∈ pts) :
    (∃ u v, p = (mkShape3 c s e n q).at3 u v) ∧ (mkShape3 c s e n q).implicit3 p = 1 := by
  have hn' : 0 < 2 / n := by positivity
  have he' : 0 < 2 / e := by positivity
  have main : ∃ u v, p = (mkShape3 c s e n q).at3 u v := by
    obtain ⟨L, h1, h2, rfl⟩ := intended_eq h
    obtain ⟨-, hang⟩ := intended_angles (S := mkShape3 c s n e q) hn' he' hk ht h1 h2
    have hA : ∀ a ∈ L.flatMap (twoRings (mkShape3 c s n e q)), ∃ u v,
        a = ![s 0 * cFun v (2 / e) * cFun u (2 / n), s 1 * cFun v (2 / e) * sFun u (2 / n),
          s 2 * sFun v (2 / e)] := by
      intro a ha
      obtain ⟨x, hx, ha⟩ := List.mem_flatMap.1 ha
      obtain ⟨ho, ⟨n1, b1⟩, n2, b2⟩ := hang x hx
      obtain ⟨hc, hsn⟩ := cos_sin_nonneg ho.1 ho.2
      rcases List.mem_append.1 ha with ha | ha
      · rw [uniformSampling3_angles _ (mkShape3 c s n e q).n_ _ _ hn' _ n1 b1, List.mem_map] at ha
        obtain ⟨t, -, rfl⟩ := ha
        refine ⟨t, x.1, ?_⟩
        rw [cFun_of_nonneg hc.le, sFun_of_nonneg hsn]
        show ![s 0 * cFun t (2 / n) * Real.cos x.1 ^ (2 / e), s 1 * sFun t (2 / n) * Real.cos x.1 ^ (2 / e),
          s 2 * Real.sin x.1 ^ (2 / e)] = _
        rw [mul_right_comm, mul_right_comm (s 1)]
      · rw [uniformSampling3_angles _ (mkShape3 c s n e q).n_ _ _ hn' _ n2 b2, List.mem_map] at ha
        obtain ⟨t, -, rfl⟩ := ha
        refine ⟨t, Real.pi / 2 - x.1, ?_⟩
        rw [cFun_of_nonneg (by rw [Real.cos_pi_div_two_sub]; exact hsn),
          sFun_of_nonneg (t := Real.pi / 2 - x.1) (by rw [Real.sin_pi_div_two_sub]; exact hc.le),
          Real.cos_pi_div_two_sub, Real.sin_pi_div_two_sub]
        show ![s 0 * cFun t (2 / n) * Real.sin x.1 ^ (2 / e), s 1 * sFun t (2 / n) * Real.sin x.1 ^ (2 / e),
          s 2 * Real.cos x.1 ^ (2 / e)] = _
        rw [mul_right_comm, mul_right_comm (s 1)]
    obtain ⟨a, ha, rfl⟩ := List.mem_map.1 hp
    rcases List.mem_append.1 ha with ha | ha
    · obtain ⟨u, v, rfl⟩ := hA a ha
      exact ⟨u, v, rfl⟩
    · obtain ⟨b, hb, rfl⟩ := List.mem_map.1 ha
      obtain ⟨u, v, rfl⟩ := hA b hb
      refine ⟨u, -v, ?_⟩
      show _ = ![s 0 * cFun (-v) (2 / e) * cFun u (2 / n) + c 0, s 1 * cFun (-v) (2 / e) * sFun u (2 / n) + c 1,
        s 2 * sFun (-v) (2 / e) + c 2]
      rw [cFun_congr (Real.cos_neg v), sFun_neg he' (Real.sin_neg v), mul_neg]
      rfl
  obtain ⟨u, v, rfl⟩ := main
  refine ⟨⟨u, v, rfl⟩, ?_⟩
  exact (C40_parametric ![0, 0] ![1, 1] (fun i => by fin_cases i <;> simp) e he [u] c s hs n hn quat0 q
    [v]).2.1 _ (by simp [Shape.surfaceSamples3])

/-- C95 (equal exponents, in particular spheres and ellipsoids): every point of the intended list is on the
surface of the particle. -/
theorem C95_equal (c s : Pos 3 ℝ) (hs : ∀ i, 0 < s i) (n : ℝ) (hn : 0 < n) (q : Quat ℝ) (k : Fin 2 → ℝ)
    (hk : ∀ i, 0 < k i) (tol : ℝ) (ht : 0 < tol) (pts : List (Pos 3 ℝ))
    (h : Intended (mkShape3 c s n n q) k tol pts) (p : Pos 3 ℝ) (hp : p ∈ pts) :
    (mkShape3 c s n n q).implicit3 p = 1 :=
  (C95_exchanged c s hs n n hn hn q k hk tol ht pts h p hp).2

theorem pow_sum_ne_one {C D a : ℝ} (hC : 0 < C) (hD : 0 < D) (h : C + D = 1) (ha : a ≠ 1) :
    C ^ a + D ^ a ≠ 1 := by
  rcases lt_or_gt_of_ne ha with h1 | h1
  · have h2 := Real.rpow_lt_rpow_of_exponent_gt hC (by linarith) h1
    have h3 := Real.rpow_lt_rpow_of_exponent_gt hD (by linarith) h1
    rw [Real.rpow_one] at h2 h3
    linarith
  · have h2 := Real.rpow_lt_rpow_of_exponent_gt hC (by linarith) h1
    have h3 := Real.rpow_lt_rpow_of_exponent_gt hD (by linarith) h1
    rw [Real.rpow_one] at h2 h3
    linarith

/-- C95 is false of the code when the two exponents differ: as soon as the first step is fine enough for the
equator to have a point outside the axes, the intended list contains a point that is not on the surface of the
particle. -/
theorem C95_off (c s : Pos 3 ℝ) (hs : ∀ i, 0 < s i) (n e : ℝ) (hn : 0 < n) (he : 0 < e) (hne : n ≠ e)
    (q : Quat ℝ) (k : Fin 2 → ℝ) (hk : ∀ i, 0 < k i) (hfine : k 0 ^ (n / 2) < Real.pi / 4) (tol : ℝ)
    (ht : 0 < tol) (pts : List (Pos 3 ℝ)) (h : Intended (mkShape3 c s n e q) k tol pts) :
    ∃ p ∈ pts, (mkShape3 c s n e q).implicit3 p ≠ 1 := by
  have hn' : 0 < 2 / n := by positivity
  have he' : 0 < 2 / e := by positivity
  obtain ⟨L, h1, h2, rfl⟩ := intended_eq h
  obtain ⟨⟨e1, e2, L', rfl⟩, hang⟩ := intended_angles (S := mkShape3 c s n e q) hn' he' hk ht h1 h2
  obtain ⟨-, ⟨n1, b1⟩, -⟩ := hang _ List.mem_cons_self
  have hr := (h2 _ List.mem_cons_self).1
  dsimp only at hr n1 b1
  rw [Real.cos_zero, Real.one_rpow, ringEtas_iff one_pos, div_one] at hr
  set t := k 0 ^ (n / 2) with htdef
  have ht0 : 0 < t := Real.rpow_pos_of_pos (hk 0) _
  have hstep : thetaStep 1 1 0 (mkShape3 c s n e q).n_ (k 0) tol = t := by
    unfold thetaStep
    rw [if_neg (not_le.2 ht), if_neg (lt_irrefl _), div_one, abs_of_pos (hk 0)]
    show k 0 ^ (1 / (2 / n)) = _
    rw [one_div_div]
  have htm : t ∈ e1.tail := by
    clear h
    cases hr with
    | stop _ h => exact absurd (by positivity) h
    | step _ l _ rest =>
      rw [zero_add, hstep] at rest
      cases rest with
      | stop _ h => exact absurd hfine h
      | step _ l' _ _ => simp
  have htall : t ∈ allAngles e1 := by
    unfold allAngles
    rw [List.mem_append, List.mem_append, List.mem_append]
    refine Or.inl (Or.inl (Or.inl ?_))
    unfold quadrantAngles
    rw [List.tail_append_of_ne_nil n1]
    exact List.mem_append_left _ htm
  have hpi := Real.pi_pos
  have hcos : 0 < Real.cos t := Real.cos_pos_of_mem_Ioo ⟨by linarith, by linarith⟩
  have hsin : 0 < Real.sin t := Real.sin_pos_of_pos_of_lt_pi ht0 (by linarith)
  refine ⟨_, List.mem_map.2 ⟨ringPoint s (2 / n) (s 2 * Real.sin 0 ^ (2 / e)) (Real.cos 0 ^ (2 / e)) t,
    List.mem_append_left _ (List.mem_flatMap.2 ⟨_, List.mem_cons_self, List.mem_append_left _ ?_⟩), rfl⟩, ?_⟩
  · rw [uniformSampling3_angles _ (mkShape3 c s n e q).n_ _ _ hn' _ n1 b1]
    exact List.mem_map.2 ⟨t, htall, rfl⟩
  · simp only [Shape.implicit3, ringPoint, mkShape3, Matrix.cons_val, add_sub_cancel_right, Real.cos_zero,
      Real.sin_zero, Real.one_rpow, Real.zero_rpow he'.ne', mul_zero, mul_one, zero_div, abs_zero]
    rw [mul_div_cancel_left₀ _ (hs 0).ne', mul_div_cancel_left₀ _ (hs 1).ne', abs_cFun, abs_sFun,
      abs_of_pos hcos, abs_of_pos hsin, Real.zero_rpow (by positivity), add_zero, ← Real.rpow_mul hcos.le,
      ← Real.rpow_mul hsin.le]
    have e3 : 2 / n * (2 / (2 / e)) = 2 * (e / n) := by field_simp
    have hsq : ∀ x : ℝ, 0 < x → x ^ (2 * (e / n)) = (x ^ 2) ^ (e / n) := by
      intro x hx
      rw [Real.rpow_mul hx.le]
      norm_num
    rw [e3, hsq _ hcos, hsq _ hsin]
    have hb := pow_sum_ne_one (C := Real.cos t ^ 2) (D := Real.sin t ^ 2) (a := e / n) (by positivity)
      (by positivity) (Real.cos_sq_add_sin_sq t) (by rw [ne_eq, div_eq_one_iff_eq hn.ne']; exact fun h => hne h.symm)
    intro hcon
    apply hb
    have hpos : 0 < (Real.cos t ^ 2) ^ (e / n) + (Real.sin t ^ 2) ^ (e / n) := by positivity
    by_contra hx
    rcases lt_or_gt_of_ne hx with hx | hx
    · have := Real.rpow_lt_one hpos.le hx (by positivity : 0 < 2 / e / (2 / n))
      linarith
    · have := Real.one_lt_rpow hx (by positivity : 0 < 2 / e / (2 / n))
      linarith

/-! Symmetry, balance and repetitions -/

/-- C95 (balance): the positions relative to the centre add up to zero, and the list is symmetric with respect
to the plane of the equator. -/
theorem C95_balanced (c s : Pos 3 ℝ) (n e : ℝ) (hn : 0 < n) (he : 0 < e) (q : Quat ℝ)
    (k : Fin 2 → ℝ) (hk : ∀ i, 0 < k i) (tol : ℝ) (ht : 0 < tol) (pts : List (Pos 3 ℝ))
    (h : Intended (mkShape3 c s n e q) k tol pts) :
    (∀ i : Fin 3, (pts.map fun p => p i - c i).sum = 0) ∧
    ∀ p ∈ pts, (![p 0, p 1, 2 * c 2 - p 2] : Pos 3 ℝ) ∈ pts := by
  obtain ⟨L, h1, h2, rfl⟩ := intended_eq h
  have hn' : 0 < 2 / n := by positivity
  have he' : 0 < 2 / e := by positivity
  obtain ⟨-, hang⟩ := intended_angles (S := mkShape3 c s n e q) hn' he' hk ht h1 h2
  set A := L.flatMap (twoRings (mkShape3 c s n e q)) with hA
  have hcen : (mkShape3 c s n e q).center = c := rfl
  rw [hcen]
  have hz : (A.map fun p => p 0).sum = 0 ∧ (A.map fun p => p 1).sum = 0 := by
    rw [hA]
    clear_value A
    clear h1 h2 hA h
    induction L with
    | nil => simp
    | cons x L ih =>
      obtain ⟨i0, i1⟩ := ih fun y hy => hang y (List.mem_cons_of_mem _ hy)
      obtain ⟨-, ⟨n1, -⟩, n2, -⟩ := hang x List.mem_cons_self
      have r1 := ring_sum (mkShape3 c s n e q).s (mkShape3 c s n e q).n_
        ((mkShape3 c s n e q).s 2 * Real.sin x.1 ^ (mkShape3 c s n e q).e_)
        (Real.cos x.1 ^ (mkShape3 c s n e q).e_) x.2.1 n1
      have r2 := ring_sum (mkShape3 c s n e q).s (mkShape3 c s n e q).n_
        ((mkShape3 c s n e q).s 2 * Real.cos x.1 ^ (mkShape3 c s n e q).e_)
        (Real.sin x.1 ^ (mkShape3 c s n e q).e_) x.2.2 n2
      simp only [List.flatMap_cons, twoRings, List.map_append, List.sum_append]
      rw [r1.1, r1.2, r2.1, r2.2]
      refine ⟨?_, ?_⟩
      · refine Eq.trans ?_ i0
        simp only [zero_add]
      · refine Eq.trans ?_ i1
        simp only [zero_add]
  have hneg : ∀ l : List (Pos 3 ℝ), (l.map fun p => -p 2).sum = -(l.map fun p => p 2).sum := by
    intro l
    induction l with
    | nil => simp
    | cons a l ih => simp only [List.map_cons, List.sum_cons, ih]; ring
  constructor
  · intro i
    rw [List.map_map, List.map_append, List.map_map, List.sum_append]
    fin_cases i
    · show (A.map fun p => p 0 + c 0 - c 0).sum + (A.map fun p => p 0 + c 0 - c 0).sum = 0
      simp only [add_sub_cancel_right]
      rw [hz.1, add_zero]
    · show (A.map fun p => p 1 + c 1 - c 1).sum + (A.map fun p => p 1 + c 1 - c 1).sum = 0
      simp only [add_sub_cancel_right]
      rw [hz.2, add_zero]
    · show (A.map fun p => p 2 + c 2 - c 2).sum + (A.map fun p => -p 2 + c 2 - c 2).sum = 0
      simp only [add_sub_cancel_right]
      rw [hneg, add_neg_cancel]
  · intro p hp
    obtain ⟨a, ha, rfl⟩ := List.mem_map.1 hp
    rcases List.mem_append.1 ha with ha | ha
    · refine List.mem_map.2 ⟨![a 0, a 1, -a 2], List.mem_append_right _ (List.mem_map.2 ⟨a, ha, rfl⟩), ?_⟩
      funext i; fin_cases i
      · rfl
      · rfl
      · show -a 2 + c 2 = 2 * c 2 - (a 2 + c 2); ring
    · obtain ⟨b, hb, rfl⟩ := List.mem_map.1 ha
      refine List.mem_map.2 ⟨b, List.mem_append_left _ hb, ?_⟩
      funext i; fin_cases i
      · rfl
      · rfl
      · show b 2 + c 2 = 2 * c 2 - (-b 2 + c 2); ring

/-- C95 is false of the code (repetitions): the intended list contains each pole at least four times and every
point of the equator at least twice. -/
theorem C95_repeated (c s : Pos 3 ℝ) (n e : ℝ) (hn : 0 < n) (he : 0 < e) (q : Quat ℝ)
    (k : Fin 2 → ℝ) (hk : ∀ i, 0 < k i) (tol : ℝ) (ht : 0 < tol) (pts : List (Pos 3 ℝ))
    (h : Intended (mkShape3 c s n e q) k tol pts) :
    List.Sublist (List.replicate 4 ![c 0, c 1, c 2 + s 2]) pts ∧
    List.Sublist (List.replicate 4 ![c 0, c 1, c 2 - s 2]) pts ∧
    ∀ p ∈ pts, p 2 = c 2 → List.Sublist [p, p] pts := by
  have hn' : 0 < 2 / n := by positivity
  have he' : 0 < 2 / e := by positivity
  obtain ⟨L, h1, h2, rfl⟩ := intended_eq h
  obtain ⟨⟨e1, e2, L', hL⟩, hang⟩ := intended_angles (S := mkShape3 c s n e q) hn' he' hk ht h1 h2
  have hcen : (mkShape3 c s n e q).center = c := rfl
  rw [hcen]
  have hpole : List.Sublist (List.replicate 4 (![0, 0, s 2] : Pos 3 ℝ))
      (L.flatMap (twoRings (mkShape3 c s n e q))) := by
    subst hL
    have hr := (h2 _ List.mem_cons_self).2
    dsimp only at hr
    have he0 : (mkShape3 c s n e q).e_ = 2 / e := rfl
    rw [he0, Real.sin_zero, Real.zero_rpow he'.ne', ringEtas_zero] at hr
    subst hr
    rw [List.flatMap_cons]
    refine List.Sublist.trans ?_ (List.sublist_append_left _ _)
    unfold twoRings
    refine List.Sublist.trans ?_ (List.sublist_append_right _ _)
    have : uniformSampling3 (mkShape3 c s n e q).s (mkShape3 c s n e q).n_
        ((mkShape3 c s n e q).s 2 * Real.cos 0 ^ (mkShape3 c s n e q).e_)
        (Real.sin 0 ^ (mkShape3 c s n e q).e_) [0] = List.replicate 4 ![0, 0, s 2] := by
      rw [uniformSampling3_eq _ _ _ _ _ (by simp), he0, Real.sin_zero, Real.zero_rpow he'.ne', Real.cos_zero,
        Real.one_rpow, mul_one]
      show _ = List.replicate 4 ![0, 0, (mkShape3 c s n e q).s 2]
      simp [quadrant3, List.replicate]
    rw [this]
  refine ⟨?_, ?_, ?_⟩
  · rw [List.map_append]
    refine List.Sublist.trans ?_ (List.sublist_append_left _ _)
    have := hpole.map fun p : Pos 3 ℝ => (![p 0 + c 0, p 1 + c 1, p 2 + c 2] : Pos 3 ℝ)
    rw [List.map_replicate] at this
    simpa [add_comm] using this
  · rw [List.map_append]
    refine List.Sublist.trans ?_ (List.sublist_append_right _ _)
    have := (hpole.map fun p : Pos 3 ℝ => (![p 0, p 1, -p 2] : Pos 3 ℝ)).map
      fun p : Pos 3 ℝ => (![p 0 + c 0, p 1 + c 1, p 2 + c 2] : Pos 3 ℝ)
    rw [List.map_replicate, List.map_replicate] at this
    have e : (![c 0, c 1, c 2 - s 2] : Pos 3 ℝ) = ![0 + c 0, 0 + c 1, -s 2 + c 2] := by
      rw [zero_add, zero_add, neg_add_eq_sub]
    rw [e]
    exact this
  · intro p hp hpz
    set A := L.flatMap (twoRings (mkShape3 c s n e q)) with hA
    have key : ∃ a ∈ A, a 2 = 0 ∧ p = ![a 0 + c 0, a 1 + c 1, a 2 + c 2] := by
      obtain ⟨a, ha, rfl⟩ := List.mem_map.1 hp
      have hz : a 2 = 0 := by
        have : a 2 + c 2 = c 2 := hpz
        linarith
      rcases List.mem_append.1 ha with ha | ha
      · exact ⟨a, ha, hz, rfl⟩
      · obtain ⟨b, hb, rfl⟩ := List.mem_map.1 ha
        have hz' : -b 2 = 0 := hz
        have hz'' : b 2 = 0 := by linarith
        refine ⟨b, hb, hz'', ?_⟩
        show (![b 0 + c 0, b 1 + c 1, -b 2 + c 2] : Pos 3 ℝ) = _
        rw [hz'', neg_zero]
    obtain ⟨a, ha, hz, rfl⟩ := key
    rw [List.map_append]
    show List.Sublist ([(![a 0 + c 0, a 1 + c 1, a 2 + c 2] : Pos 3 ℝ)] ++
      [(![a 0 + c 0, a 1 + c 1, a 2 + c 2] : Pos 3 ℝ)]) _
    refine List.Sublist.append ?_ ?_
    · exact List.singleton_sublist.2 (List.mem_map.2 ⟨a, ha, rfl⟩)
    · refine List.singleton_sublist.2 (List.mem_map.2 ⟨![a 0, a 1, -a 2], List.mem_map.2 ⟨a, ha, rfl⟩, ?_⟩)
      show (![a 0 + c 0, a 1 + c 1, -a 2 + c 2] : Pos 3 ℝ) = _
      rw [hz, neg_zero]

/-! Number of points -/

theorem etas_circle {k tol : ℝ} (hk : 0 < k) (ht : 0 < tol) {etas : List ℝ} (h : Etas 1 k tol 0 etas) :
    etas = (List.range ⌈Real.pi / 4 / k⌉₊).map (fun i : ℕ => (i : ℝ) * k) := by
  have e1 : (circle 0 1 quat0).n_ = 1 := by show (2 : ℝ) / 2 = 1; norm_num
  exact (C40_circle 0 1 quat0 k tol hk ht one_pos (Or.inl rfl) etas (by rw [e1]; exact h)).1

/-- C95 (spheres, number of points): the latitudes are the multiples of `k[1]` below `π/4` and their complements,
and the ring of radius factor `phi` has `8 ⌈π phi/(4 k[0])⌉ - 4` points (four at a pole). -/
theorem C95_sphere (c : Pos 3 ℝ) (r : ℝ) (q : Quat ℝ) (k : Fin 2 → ℝ) (hk : ∀ i, 0 < k i) (tol : ℝ)
    (ht : 0 < tol) (pts : List (Pos 3 ℝ)) (h : Intended (sphere c r q) k tol pts) :
    pts.length = 2 * ((List.range ⌈Real.pi / 4 / k 1⌉₊).map fun j : ℕ =>
      (8 * ⌈Real.pi / 4 * Real.cos (j * k 1) / k 0⌉₊ - 4) +
      (if j = 0 then 4 else 8 * ⌈Real.pi / 4 * Real.sin (j * k 1) / k 0⌉₊ - 4)).sum := by
  have hpi := Real.pi_pos
  have hn1 : (sphere c r q).n_ = 1 := by show (2 : ℝ) / 2 = 1; norm_num
  have he1 : (sphere c r q).e_ = 1 := by show (2 : ℝ) / 2 = 1; norm_num
  obtain ⟨L, h1, h2, rfl⟩ := intended_eq h
  rw [he1] at h1
  have hom := etas_circle (hk 1) ht h1
  have hlen : ∀ phi etas, 0 < phi → RingEtas 1 (k 0) phi tol 0 etas →
      etas ≠ [] ∧ etas.length = ⌈Real.pi / 4 * phi / k 0⌉₊ := by
    intro phi etas hp hr
    rw [ringEtas_iff hp] at hr
    have := etas_circle (div_pos (hk 0) hp) ht hr
    have hl : etas.length = ⌈Real.pi / 4 * phi / k 0⌉₊ := by
      rw [this, List.length_map, List.length_range, div_div_eq_mul_div]
    refine ⟨?_, hl⟩
    intro hnil
    have h0 : 0 < Real.pi / 4 * phi / k 0 := div_pos (by positivity) (hk 0)
    have := Nat.ceil_pos.2 h0
    rw [← hl, hnil] at this
    exact lt_irrefl _ this
  have hone : ∀ x ∈ L, (twoRings (sphere c r q) x).length =
      (8 * ⌈Real.pi / 4 * Real.cos x.1 / k 0⌉₊ - 4) +
      (if x.1 = 0 then 4 else 8 * ⌈Real.pi / 4 * Real.sin x.1 / k 0⌉₊ - 4) := by
    intro x hx
    have hb := (etas_zero one_pos (hk 1) ht h1).choose_spec.2.2.2 x.1 (List.mem_map.2 ⟨x, hx, rfl⟩)
    obtain ⟨hc, hs⟩ := cos_sin_nonneg hb.1 hb.2
    obtain ⟨r1, r2⟩ := h2 x hx
    rw [hn1, he1, Real.rpow_one] at r1 r2
    obtain ⟨n1, l1⟩ := hlen _ _ hc r1
    have a1 := length_uniformSampling3 (sphere c r q).s (sphere c r q).n_
      ((sphere c r q).s 2 * Real.sin x.1 ^ (sphere c r q).e_) (Real.cos x.1 ^ (sphere c r q).e_) x.2.1 n1
    unfold twoRings
    rw [List.length_append, ← l1]
    by_cases h0 : x.1 = 0
    · rw [if_pos h0]
      rw [h0, Real.sin_zero, ringEtas_zero] at r2
      have a2 := length_uniformSampling3 (sphere c r q).s (sphere c r q).n_
        ((sphere c r q).s 2 * Real.cos x.1 ^ (sphere c r q).e_) (Real.sin x.1 ^ (sphere c r q).e_) x.2.2
        (by rw [r2]; simp)
      have : x.2.2.length = 1 := by rw [r2]; rfl
      omega
    · rw [if_neg h0]
      have hs' : 0 < Real.sin x.1 :=
        Real.sin_pos_of_pos_of_lt_pi (lt_of_le_of_ne hb.1 (Ne.symm h0)) (by linarith)
      obtain ⟨n2, l2⟩ := hlen _ _ hs' r2
      have a2 := length_uniformSampling3 (sphere c r q).s (sphere c r q).n_
        ((sphere c r q).s 2 * Real.cos x.1 ^ (sphere c r q).e_) (Real.sin x.1 ^ (sphere c r q).e_) x.2.2 n2
      rw [← l2]
      omega
  rw [List.length_map, List.length_append, List.length_map, ← two_mul]
  congr 1
  rw [List.length_flatMap]
  have e1 : L.map (fun x => (twoRings (sphere c r q) x).length) = (L.map fun x => x.1).map fun o =>
      (8 * ⌈Real.pi / 4 * Real.cos o / k 0⌉₊ - 4) +
      (if o = 0 then 4 else 8 * ⌈Real.pi / 4 * Real.sin o / k 0⌉₊ - 4) := by
    rw [List.map_map]
    exact List.map_congr_left hone
  rw [e1, hom, List.map_map]
  congr 1
  apply List.map_congr_left
  intro j _
  have hj : ((j : ℝ) * k 1 = 0) ↔ j = 0 := by
    rw [mul_eq_zero, Nat.cast_eq_zero]
    exact or_iff_left (hk 1).ne'
  simp only [Function.comp_apply, hj]

/-! Examples -/

example : ∃ pts, Intended (sphere 0 1 quat0) (fun _ => 1 / 10) (1 / 100) pts ∧ pts ≠ [] ∧
    (![0, 0, 1] : Pos 3 ℝ) ∈ pts := by
  obtain ⟨pts, h, -⟩ := C95_intended 0 (fun _ => 1) 2 2 (by norm_num) (by norm_num) quat0 (fun _ => 1 / 10)
    (fun _ => by norm_num) (1 / 100) (by norm_num)
  have := (C95_repeated 0 (fun _ => 1) 2 2 (by norm_num) (by norm_num) quat0 (fun _ => 1 / 10)
    (fun _ => by norm_num) (1 / 100) (by norm_num) pts h).1.subset (List.mem_replicate.2 ⟨by norm_num, rfl⟩)
  have e : (![(0 : Pos 3 ℝ) 0, (0 : Pos 3 ℝ) 1, (0 : Pos 3 ℝ) 2 + 1] : Pos 3 ℝ) = ![0, 0, 1] := by simp
  rw [e] at this
  exact ⟨pts, h, List.ne_nil_of_mem this, this⟩

/-- Data of `C95_off`: exponents 2 and 4, step 1/10. -/
example : ((1 / 10 : ℝ)) ^ ((2 : ℝ) / 2) < Real.pi / 4 := by
  rw [div_self (by norm_num : (2 : ℝ) ≠ 0), Real.rpow_one]
  have := Real.two_le_pi
  linarith

end Cafes.Geometry
