/-
Property theorems for the post-processing: C69 (interpolation on a refined mesh), C70 (XDMF description).
-/
import Verif.Model.Post
import Verif.Props.WeakForm

namespace Cafes.Props
open Cafes Cafes.Spec

/-! ### C69 -/

/-- Number of points of the refined mesh in one direction: `r` fine cells per cell. -/
def finePoints (D : Dir) (r : ℕ) : ℤ := if D.periodic then r * D.m else r * (D.m - 1) + 1

/-- Writes of values fixed in advance: the last content at `g` is the fixed value if one of the writes hits `g`. -/
theorem foldl_set {S κ V : Type*} [DecidableEq κ] (key : S → κ) (val : S → V) (l : List S) (y0 : κ → V) (g : κ) (v : V)
    (hv : ∀ s ∈ l, key s = g → val s = v) :
    (l.foldl (fun y s => fun q => if q = key s then val s else y q) y0) g =
      if ∃ s ∈ l, key s = g then v else y0 g := by
  induction l using List.reverseRecOn with
  | nil => simp
  | append_singleton l a ih =>
    rw [List.foldl_append, List.foldl_cons, List.foldl_nil]
    have ih := ih fun s hs => hv s (List.mem_append_left _ hs)
    by_cases hg : g = key a
    · rw [if_pos hg, if_pos ⟨a, by simp, hg.symm⟩]
      exact hv a (by simp) hg.symm
    · rw [if_neg hg, ih]
      refine if_congr ?_ rfl rfl
      constructor
      · rintro ⟨s, hs, h⟩; exact ⟨s, by simp [hs], h⟩
      · rintro ⟨s, hs, h⟩
        rcases List.mem_append.1 hs with hs | hs
        · exact ⟨s, hs, h⟩
        · simp only [List.mem_singleton] at hs
          subst hs
          exact absurd h.symm hg

/-- The writes of the interpolation: (cell, j, i). -/
def interpWrites (L : Fin 2 → Dir) (refine : Fin 2 → ℕ) : List (Pos 2 ℤ × ℕ × ℕ) :=
  (getDMBounds L (fun _ => 0) true).visited.flatMap fun pos =>
    (List.range (refine 0 + 1)).flatMap fun j => (List.range (refine 1 + 1)).map fun i => (pos, j, i)

/-- Fine node of a write. -/
def writeNode (refine : Fin 2 → ℕ) (s : Pos 2 ℤ × ℕ × ℕ) : Pos 2 ℤ :=
  ![(s.2.2 : ℤ) + s.1 0 * refine 0, (s.2.1 : ℤ) + s.1 1 * refine 1]

theorem linearInterpolation_eq {n : ℕ} (L : Fin 2 → Dir) (h : Pos 2 ℝ) (hh : ∀ c, 0 < h c) (refine : Fin 2 → ℕ)
    (u y0 : NodeVec 2 n ℝ) :
    linearInterpolation L h refine u y0 = (interpWrites L refine).foldl (fun y s => fun q => if q = writeNode refine s then
      (fun c => field2 L h u s.1 c ((s.2.2 : ℝ) * h 0 / (refine 0 : ℝ)) ((s.2.1 : ℝ) * h 1 / (refine 1 : ℝ)))
      else y q) y0 := by
  unfold linearInterpolation interpWrites
  rw [iterate_eq_foldl, List.foldl_flatMap]
  congr 1
  funext y pos
  unfold interpKernel
  rw [List.foldl_flatMap]
  congr 1
  funext y j
  rw [List.foldl_map]
  congr 1
  funext y i
  funext q
  by_cases hq : q = writeNode refine (pos, j, i)
  · refine Eq.trans ?_ (if_pos hq).symm
    funext c
    refine Eq.trans (if_pos hq) ?_
    have hf : (List.finRange 4) = [0, 1, 2, 3] := rfl
    have hb := (C06_weights2 h hh).2.2.2
    rw [hf]
    simp only [List.foldl_cons, List.foldl_nil, hb, field2, Fin.sum_univ_four, Matrix.cons_val, globalToLocal, zero_add]
    have e0 : (pos 0 : ℝ) * h 0 + (i : ℝ) * h 0 / (refine 0 : ℝ) - h 0 * (pos 0 : ℝ) = (i : ℝ) * h 0 / (refine 0 : ℝ) := by
      ring
    have e1 : (pos 1 : ℝ) * h 1 + (j : ℝ) * h 1 / (refine 1 : ℝ) - h 1 * (pos 1 : ℝ) = (j : ℝ) * h 1 / (refine 1 : ℝ) := by
      ring
    rw [e0, e1]
  · refine Eq.trans ?_ (if_neg hq).symm
    funext c
    exact if_neg hq

/-- On one process, the cells of the interpolation are those of the mesh. -/
theorem mem_interpWrites (L : Fin 2 → Dir) (hL : ∀ i, (L i).l = [(L i).m]) (refine : Fin 2 → ℕ)
    (s : Pos 2 ℤ × ℕ × ℕ) :
    s ∈ interpWrites L refine ↔ (∀ i, 0 ≤ s.1 i ∧ s.1 i < (L i).nElem) ∧ s.2.1 ≤ refine 0 ∧ s.2.2 ≤ refine 1 := by
  obtain ⟨e, j, i⟩ := s
  unfold interpWrites
  simp only [List.mem_flatMap, List.mem_map, List.mem_range, Box.mem_visited, Prod.mk.injEq]
  have hb : ∀ p : Pos 2 ℤ, (∀ i, (getDMBounds L (fun _ => 0) true).bl i ≤ p i ∧ p i < (getDMBounds L (fun _ => 0) true).ur i) ↔
      ∀ i, 0 ≤ p i ∧ p i < (L i).nElem := by
    intro p
    refine forall_congr' fun i => ?_
    simp only [getDMBounds, Dir.nElem, Dir.xs, Dir.xm, hL i]
    by_cases hp : (L i).periodic = true <;> simp [hp]
  constructor
  · rintro ⟨p, hp, j', hj, i', hi, h1, h2, h3⟩
    subst h1 h2 h3
    exact ⟨(hb p).1 hp, by omega, by omega⟩
  · rintro ⟨h1, h2, h3⟩
    exact ⟨e, (hb e).2 h1, j, by omega, i, by omega, rfl, rfl, rfl⟩

theorem field_shift0 {n : ℕ} (L : Fin 2 → Dir) (h : Pos 2 ℝ) (hh : ∀ c, 0 < h c) (u : NodeVec 2 n ℝ) (a b : ℤ) (c : Fin n)
    (y : ℝ) : field2 L h u ![a, b] c (h 0) y = field2 L h u ![a + 1, b] c 0 y := by
  have h0 := (hh 0).ne'
  simp [field2, Fin.sum_univ_four, phi2, hat, bit2, getElement2, h0, add_assoc]

theorem field_shift1 {n : ℕ} (L : Fin 2 → Dir) (h : Pos 2 ℝ) (hh : ∀ c, 0 < h c) (u : NodeVec 2 n ℝ) (a b : ℤ) (c : Fin n)
    (x : ℝ) : field2 L h u ![a, b] c x (h 1) = field2 L h u ![a, b + 1] c x 0 := by
  have h0 := (hh 1).ne'
  simp [field2, Fin.sum_univ_four, phi2, hat, bit2, getElement2, h0, add_assoc]

/-- The two cells that contain a fine node: the same one or neighbours. -/
theorem fine_cases (r : ℕ) (hr : 0 < r) (e e' : ℤ) (i i' : ℕ) (hi : i ≤ r) (hi' : i' ≤ r)
    (h : (i : ℤ) + e * r = i' + e' * r) :
    (e' = e ∧ i' = i) ∨ (e' = e + 1 ∧ i = r ∧ i' = 0) ∨ (e = e' + 1 ∧ i = 0 ∧ i' = r) := by
  have hr' : (0:ℤ) < r := by exact_mod_cast hr
  have h1 : (e' - e) * r = (i : ℤ) - i' := by linarith
  have u1 : (e' - e) * r ≤ 1 * r := by rw [h1]; omega
  have u2 : -1 * (r : ℤ) ≤ (e' - e) * r := by rw [h1]; omega
  have k1 : e' - e ≤ 1 := le_of_mul_le_mul_right u1 hr'
  have k2 : -1 ≤ e' - e := le_of_mul_le_mul_right u2 hr'
  have : e' - e = 0 ∨ e' - e = 1 ∨ e' - e = -1 := by omega
  rcases this with k | k | k <;> rw [k] at h1
  · left; omega
  · right; left; omega
  · right; right; omega

theorem field_fine0 {n : ℕ} (L : Fin 2 → Dir) (h : Pos 2 ℝ) (hh : ∀ c, 0 < h c) (u : NodeVec 2 n ℝ) (c : Fin n) (r : ℕ)
    (hr : 0 < r) (a a' b : ℤ) (i i' : ℕ) (hi : i ≤ r) (hi' : i' ≤ r) (he : (i : ℤ) + a * r = i' + a' * r) (y : ℝ) :
    field2 L h u ![a, b] c ((i : ℝ) * h 0 / (r : ℝ)) y = field2 L h u ![a', b] c ((i' : ℝ) * h 0 / (r : ℝ)) y := by
  have hr' : (r : ℝ) ≠ 0 := by exact_mod_cast hr.ne'
  have hc : (r : ℝ) * h 0 / (r : ℝ) = h 0 := by field_simp
  rcases fine_cases r hr a a' i i' hi hi' he with ⟨k1, k2⟩ | ⟨k1, k2, k3⟩ | ⟨k1, k2, k3⟩
  · rw [k1, k2]
  · rw [k1, k2, k3, hc, field_shift0 L h hh]; simp
  · rw [k1, k2, k3, hc, field_shift0 L h hh]; simp

theorem field_fine1 {n : ℕ} (L : Fin 2 → Dir) (h : Pos 2 ℝ) (hh : ∀ c, 0 < h c) (u : NodeVec 2 n ℝ) (c : Fin n) (r : ℕ)
    (hr : 0 < r) (a b b' : ℤ) (i i' : ℕ) (hi : i ≤ r) (hi' : i' ≤ r) (he : (i : ℤ) + b * r = i' + b' * r) (x : ℝ) :
    field2 L h u ![a, b] c x ((i : ℝ) * h 1 / (r : ℝ)) = field2 L h u ![a, b'] c x ((i' : ℝ) * h 1 / (r : ℝ)) := by
  have hr' : (r : ℝ) ≠ 0 := by exact_mod_cast hr.ne'
  have hc : (r : ℝ) * h 1 / (r : ℝ) = h 1 := by field_simp
  rcases fine_cases r hr b b' i i' hi hi' he with ⟨k1, k2⟩ | ⟨k1, k2, k3⟩ | ⟨k1, k2, k3⟩
  · rw [k1, k2]
  · rw [k1, k2, k3, hc, field_shift1 L h hh]; simp
  · rw [k1, k2, k3, hc, field_shift1 L h hh]; simp

/-- C69 (velocity): with the same factor `r` in both directions, whatever the local array held before, every node `g` of
the fine mesh holds after the call the value of the finite element field at that node, computed in any cell `e` of the
mesh that contains it. -/
theorem C69_velocity {n : ℕ} (L : Fin 2 → Dir) (hL : ∀ i, (L i).l = [(L i).m]) (h : Pos 2 ℝ) (hh : ∀ c, 0 < h c)
    (r : ℕ) (hr : 0 < r) (u y0 : NodeVec 2 n ℝ) (g e : Pos 2 ℤ)
    (he : ∀ i, 0 ≤ e i ∧ e i < (L i).nElem) (hg : ∀ i, r * e i ≤ g i ∧ g i ≤ r * (e i + 1)) (c : Fin n) :
    linearInterpolation L h (fun _ => r) u y0 g c =
      field2 L h u e c (((g 0 - r * e 0 : ℤ) : ℝ) * h 0 / r) (((g 1 - r * e 1 : ℤ) : ℝ) * h 1 / r) := by
  have eta : ∀ q : Pos 2 ℤ, q = ![q 0, q 1] := by
    intro q; funext i; fin_cases i <;> rfl
  rw [linearInterpolation_eq L h hh, foldl_set (writeNode fun _ => r) _ _ _ g
    (fun c => field2 L h u e c (((g 0 - r * e 0 : ℤ) : ℝ) * h 0 / r) (((g 1 - r * e 1 : ℤ) : ℝ) * h 1 / r))]
  · obtain ⟨i, hi⟩ := Int.eq_ofNat_of_zero_le (sub_nonneg.2 (hg 0).1)
    obtain ⟨j, hj⟩ := Int.eq_ofNat_of_zero_le (sub_nonneg.2 (hg 1).1)
    have b0 := (hg 0).2
    have b1 := (hg 1).2
    rw [if_pos]
    refine ⟨(e, j, i), (mem_interpWrites L hL _ _).2 ⟨he, ?_, ?_⟩, ?_⟩
    · have : (j : ℤ) ≤ r := by rw [mul_add] at b1; linarith
      exact_mod_cast this
    · have : (i : ℤ) ≤ r := by rw [mul_add] at b0; linarith
      exact_mod_cast this
    · rw [eta g]
      simp only [writeNode]
      congr 1
      · linarith [mul_comm (r : ℤ) (e 0)]
      · congr 1
        linarith [mul_comm (r : ℤ) (e 1)]
  · rintro ⟨e', j', i'⟩ hs hk
    rw [mem_interpWrites L hL] at hs
    obtain ⟨-, hj', hi'⟩ := hs
    obtain ⟨i, hi⟩ := Int.eq_ofNat_of_zero_le (sub_nonneg.2 (hg 0).1)
    obtain ⟨j, hj⟩ := Int.eq_ofNat_of_zero_le (sub_nonneg.2 (hg 1).1)
    have b0 := (hg 0).2
    have b1 := (hg 1).2
    have g0 : (i' : ℤ) + e' 0 * r = g 0 := by rw [← hk]; rfl
    have g1 : (j' : ℤ) + e' 1 * r = g 1 := by rw [← hk]; rfl
    have hir : i ≤ r := by
      have : (i : ℤ) ≤ r := by rw [mul_add] at b0; linarith
      exact_mod_cast this
    have hjr : j ≤ r := by
      have : (j : ℤ) ≤ r := by rw [mul_add] at b1; linarith
      exact_mod_cast this
    funext c
    rw [hi, hj, eta e, eta e']
    simp only [Int.cast_natCast]
    rw [field_fine0 L h hh u c r hr (e' 0) (e 0) (e' 1) i' i hi' hir (by linarith [mul_comm (r : ℤ) (e 0)]),
      field_fine1 L h hh u c r hr (e 0) (e' 1) (e 1) j' j hj' hjr (by linarith [mul_comm (r : ℤ) (e 1)])]

/-- Every node of the fine mesh is in a cell of the mesh: C69_velocity determines the whole result. -/
theorem C69_cells_cover (L : Fin 2 → Dir) (r : ℕ) (hr : 0 < r) (hm : ∀ i, 2 ≤ (L i).m) (g : Pos 2 ℤ)
    (hg : ∀ i, 0 ≤ g i ∧ g i < finePoints (L i) r) :
    ∃ e : Pos 2 ℤ, (∀ i, 0 ≤ e i ∧ e i < (L i).nElem) ∧ ∀ i, r * e i ≤ g i ∧ g i ≤ r * (e i + 1) := by
  have hr' : (0:ℤ) < r := by exact_mod_cast hr
  have key : ∀ i, ∃ k : ℤ, (0 ≤ k ∧ k < (L i).nElem) ∧ r * k ≤ g i ∧ g i ≤ r * (k + 1) := by
    intro i
    obtain ⟨h1, h2⟩ := hg i
    have m2 := hm i
    have hn : 0 < (L i).nElem := by unfold Dir.nElem; split_ifs <;> omega
    have hle : g i ≤ r * (L i).nElem := by
      unfold finePoints at h2; unfold Dir.nElem
      split_ifs at h2 ⊢ <;> omega
    by_cases hlt : g i / r < (L i).nElem
    · refine ⟨g i / r, ⟨Int.ediv_nonneg h1 hr'.le, hlt⟩, ?_, ?_⟩
      · exact Int.mul_ediv_self_le hr'.ne'
      · have := Int.lt_mul_ediv_self_add (x := g i) hr'
        rw [mul_add, mul_one]; omega
    · push Not at hlt
      have hge : (r : ℤ) * (L i).nElem ≤ g i := by
        have := (Int.le_ediv_iff_mul_le hr').1 hlt
        linarith [mul_comm (r : ℤ) (L i).nElem]
      refine ⟨(L i).nElem - 1, ⟨by omega, by omega⟩, ?_, ?_⟩
      · rw [mul_sub, mul_one]; omega
      · rw [sub_add_cancel]; exact hle
  choose e he using key
  exact ⟨e, fun i => (he i).1, fun i => (he i).2⟩

/-- C69 (bilinear fields): on a non periodic mesh, the interpolation of the nodal values of a bilinear function is
that function at the fine nodes. -/
theorem C69_bilinear (L : Fin 2 → Dir) (hL : ∀ i, (L i).l = [(L i).m]) (hper : ∀ i, (L i).periodic = false)
    (hm : ∀ i, 2 ≤ (L i).m) (h : Pos 2 ℝ) (hh : ∀ c, 0 < h c) (r : ℕ) (hr : 0 < r) (a b c d : ℝ) (y0 : NodeVec 2 1 ℝ)
    (g : Pos 2 ℤ) (hg : ∀ i, 0 ≤ g i ∧ g i < finePoints (L i) r) :
    linearInterpolation L h (fun _ => r)
      (fun p _ => a + b * ((p 0 : ℝ) * h 0) + c * ((p 1 : ℝ) * h 1) + d * ((p 0 : ℝ) * h 0) * ((p 1 : ℝ) * h 1)) y0 g 0 =
      a + b * ((g 0 : ℝ) * h 0 / r) + c * ((g 1 : ℝ) * h 1 / r) + d * ((g 0 : ℝ) * h 0 / r) * ((g 1 : ℝ) * h 1 / r) := by
  obtain ⟨e, he, hge⟩ := C69_cells_cover L r hr hm g hg
  rw [C69_velocity L hL h hh r hr _ y0 g e he hge]
  have w : ∀ p, wrap L p = p := fun p => by funext i; simp [wrap, hper i]
  have h0 := (hh 0).ne'
  have h1 := (hh 1).ne'
  have hr' : (r : ℝ) ≠ 0 := by exact_mod_cast hr.ne'
  simp only [field2, w, Fin.sum_univ_four, phi2, getElement2, Matrix.cons_val]
  have q : bit2 0 = ![0, 0] ∧ bit2 1 = ![1, 0] ∧ bit2 2 = ![0, 1] ∧ bit2 3 = ![1, 1] := by decide
  simp only [q.1, q.2.1, q.2.2.1, q.2.2.2, hat, Matrix.cons_val, if_true, one_ne_zero, if_false]
  push_cast
  field_simp
  ring

/-- C69 (unequal factors, first one larger): when `refine[1] < refine[0]`, the last column of the fine mesh is never
written: it keeps what the array held before. -/
theorem C69_unequal_unwritten {n : ℕ} (L : Fin 2 → Dir) (hL : ∀ i, (L i).l = [(L i).m]) (hper : (L 0).periodic = false)
    (h : Pos 2 ℝ) (hh : ∀ c, 0 < h c) (refine : Fin 2 → ℕ) (hlt : refine 1 < refine 0) (u y0 : NodeVec 2 n ℝ)
    (g : Pos 2 ℤ) (hg : g 0 = finePoints (L 0) (refine 0) - 1) :
    linearInterpolation L h refine u y0 g = y0 g := by
  rw [linearInterpolation_eq L h hh]
  have none : ∀ s ∈ interpWrites L refine, writeNode refine s ≠ g := by
    rintro ⟨e, j, i⟩ hs hk
    rw [mem_interpWrites L hL] at hs
    obtain ⟨he, -, hi⟩ := hs
    have g0 : (i : ℤ) + e 0 * refine 0 = g 0 := by rw [← hk]; rfl
    have e0 := (he 0).2
    simp only [Dir.nElem, hper, Bool.false_eq_true, if_false] at e0
    simp only [finePoints, hper, Bool.false_eq_true, if_false] at hg
    have hi' : (i : ℤ) < refine 0 := by exact_mod_cast lt_of_le_of_lt hi hlt
    have : (refine 0 : ℤ) * (e 0 + 1) ≤ refine 0 * ((L 0).m - 1) :=
      mul_le_mul_of_nonneg_left (by omega) (by positivity)
    rw [mul_add] at this
    linarith [mul_comm (refine 0 : ℤ) (e 0)]
  rw [foldl_set _ _ _ _ g (y0 g) fun s hs hk => absurd hk (none s hs), if_neg]
  rintro ⟨s, hs, hk⟩
  exact none s hs hk

/-- C69 (unequal factors, second one larger): when `refine[0] < refine[1]`, the call writes, in the lines of the array,
beyond the last column of the fine mesh, a value extrapolated out of the last cell. -/
theorem C69_unequal_overrun {n : ℕ} (L : Fin 2 → Dir) (hL : ∀ i, (L i).l = [(L i).m]) (hper : (L 0).periodic = false)
    (hm : ∀ i, 2 ≤ (L i).m) (h : Pos 2 ℝ) (hh : ∀ c, 0 < h c) (refine : Fin 2 → ℕ) (hpos : 0 < refine 0)
    (hlt : refine 0 < refine 1) (u y0 : NodeVec 2 n ℝ) :
    ∃ g : Pos 2 ℤ, finePoints (L 0) (refine 0) ≤ g 0 ∧ g 1 = 0 ∧
      linearInterpolation L h refine u y0 g =
        fun c => field2 L h u ![(L 0).m - 2, 0] c ((refine 1 : ℝ) * h 0 / refine 0) 0 := by
  have m0 := hm 0
  have m1 := hm 1
  refine ⟨![(refine 1 : ℤ) + ((L 0).m - 2) * refine 0, 0], ?_, rfl, ?_⟩
  · simp only [finePoints, hper, Bool.false_eq_true, if_false, Matrix.cons_val]
    have : (refine 0 : ℤ) < refine 1 := by exact_mod_cast hlt
    linarith [mul_comm (refine 0 : ℤ) ((L 0).m - 1), sub_mul (L 0).m 2 (refine 0 : ℤ), sub_mul (L 0).m 1 (refine 0 : ℤ)]
  · rw [linearInterpolation_eq L h hh, foldl_set _ _ _ _ _
      (fun c => field2 L h u ![(L 0).m - 2, 0] c ((refine 1 : ℝ) * h 0 / refine 0) 0), if_pos]
    · refine ⟨(![(L 0).m - 2, 0], 0, refine 1), (mem_interpWrites L hL _ _).2 ⟨?_, Nat.zero_le _, le_rfl⟩, ?_⟩
      · intro i
        fin_cases i
        · simp only [Dir.nElem, hper, Bool.false_eq_true, if_false, Fin.zero_eta, Matrix.cons_val]; omega
        · simp only [Dir.nElem, Fin.mk_one, Matrix.cons_val]; split_ifs <;> omega
      · simp [writeNode]
    · rintro ⟨e, j, i⟩ hs hk
      rw [mem_interpWrites L hL] at hs
      obtain ⟨he, -, hi⟩ := hs
      have g0 : (i : ℤ) + e 0 * refine 0 = (refine 1 : ℤ) + ((L 0).m - 2) * refine 0 := congrFun hk 0
      have g1 : (j : ℤ) + e 1 * refine 1 = 0 := congrFun hk 1
      have e0 := (he 0).2
      simp only [Dir.nElem, hper, Bool.false_eq_true, if_false] at e0
      have r0 : (0 : ℤ) < refine 0 := by exact_mod_cast hpos
      have r1 : (0 : ℤ) < refine 1 := by exact_mod_cast lt_trans hpos hlt
      have hi' : (i : ℤ) ≤ refine 1 := by exact_mod_cast hi
      have ke : e 0 = (L 0).m - 2 := by
        by_contra hne
        have : (e 0 + 1) * (refine 0 : ℤ) ≤ ((L 0).m - 2) * refine 0 :=
          mul_le_mul_of_nonneg_right (by omega) r0.le
        rw [add_mul] at this
        linarith
      have ki : i = refine 1 := by
        rw [ke] at g0
        have : (i : ℤ) = refine 1 := by linarith
        exact_mod_cast this
      have k1 : e 1 = 0 := by
        have : 0 ≤ e 1 := (he 1).1
        by_contra hne
        have : 1 * (refine 1 : ℤ) ≤ e 1 * refine 1 := mul_le_mul_of_nonneg_right (by omega) r1.le
        have : (0 : ℤ) ≤ j := by positivity
        linarith
      have kj : j = 0 := by
        rw [k1] at g1
        have : (j : ℤ) = 0 := by linarith
        exact_mod_cast this
      have ee : e = ![(L 0).m - 2, 0] := by funext i; fin_cases i; exacts [ke, k1]
      simp only [ee, ki, kj]
      simp

/-- C69 (pressure): the kernel writes two values per fine node, the local array of the fine pressure has one; on every
non periodic mesh the call writes the slot just after the end of the array. -/
theorem C69_pressure_overrun (L : Fin 2 → Dir) (hL : ∀ i, (L i).l = [(L i).m]) (hper : ∀ i, (L i).periodic = false)
    (hm : ∀ i, 2 ≤ (L i).m) (r : ℕ) :
    finePoints (L 0) r * finePoints (L 1) r ∈ pressureSlots L (fun _ => r) 0 0 (finePoints (L 0) r) := by
  unfold pressureSlots
  simp only [List.mem_flatMap, List.mem_map, Box.mem_visited]
  refine ⟨fun i => (L i).m - 2, ?_, r, List.mem_range.2 (Nat.lt_succ_self r), r, List.mem_range.2 (Nat.lt_succ_self r), 1,
    List.mem_range.2 (by omega), ?_⟩
  · intro i
    have := hm i
    simp only [getDMBounds, Dir.xs, Dir.xm, hL i, hper i]
    simp
    omega
  · simp only [localIndex2, finePoints, hper, Bool.false_eq_true, if_false]
    push_cast
    ring

/-- C69 (memory): with equal factors, on a non periodic mesh, the nodes written by the velocity interpolation are nodes
of the fine mesh. -/
theorem C69_writes_inside (L : Fin 2 → Dir) (hL : ∀ i, (L i).l = [(L i).m]) (hper : ∀ i, (L i).periodic = false)
    (r : ℕ) (s : Pos 2 ℤ × ℕ × ℕ) (hs : s ∈ interpWrites L fun _ => r) (i : Fin 2) :
    0 ≤ writeNode (fun _ => r) s i ∧ writeNode (fun _ => r) s i < finePoints (L i) r := by
  obtain ⟨e, j, k⟩ := s
  rw [mem_interpWrites L hL] at hs
  obtain ⟨he, hj, hk⟩ := hs
  have b : ∀ (t : Fin 2) (a : ℕ), a ≤ r → 0 ≤ (a : ℤ) + e t * r ∧ (a : ℤ) + e t * r < finePoints (L t) r := by
    intro t a ha
    have h1 := (he t).1
    have h2 := (he t).2
    simp only [Dir.nElem, hper t, Bool.false_eq_true, if_false] at h2
    simp only [finePoints, hper t, Bool.false_eq_true, if_false]
    have ha' : (a : ℤ) ≤ r := by exact_mod_cast ha
    have r0 : (0 : ℤ) ≤ r := by positivity
    have a0 : (0 : ℤ) ≤ a := by positivity
    have m1 : (e t + 1) * (r : ℤ) ≤ ((L t).m - 1) * r := mul_le_mul_of_nonneg_right (by omega) r0
    have m2 : 0 ≤ e t * (r : ℤ) := mul_nonneg h1 r0
    constructor
    · omega
    · linarith [mul_comm (r : ℤ) ((L t).m - 1), add_mul (e t) 1 (r : ℤ)]
  fin_cases i
  · exact b 0 k hk
  · exact b 1 j hj

/-- A mesh which meets the hypotheses of C69: 4 by 3 points on one process. -/
example : (∀ i, ((![⟨4, false, [4]⟩, ⟨3, false, [3]⟩] : Fin 2 → Dir) i).l = [((![⟨4, false, [4]⟩, ⟨3, false, [3]⟩] : Fin 2 → Dir) i).m]) ∧
    (∀ i, 2 ≤ ((![⟨4, false, [4]⟩, ⟨3, false, [3]⟩] : Fin 2 → Dir) i).m) := by
  constructor <;> intro i <;> fin_cases i <;> simp

/-! ### C70 -/

/-- Sizes of the data set in which PETSc stores a vector of a plane mesh of `mx` by `my` points: slowest direction
first (contract of `VecView` on an HDF5 viewer), without the components. -/
def storedShape (mx my : ℤ) : List ℤ := [my, mx]

/-- C70 (velocity): the sizes of topology and data agree and are the numbers of points of the velocity mesh, in the
order x, y; they are the stored ones exactly for meshes with as many points in both directions; the steps are right. -/
theorem C70_velocity (mx my : ℤ) (h : Pos 2 ℝ) :
    (xdmfVelocity mx my h).data = (xdmfVelocity mx my h).topology ++ [2] ∧
    (xdmfVelocity mx my h).topology = [mx, my] ∧ (xdmfVelocity mx my h).step = [h 0, h 1] ∧
    ((xdmfVelocity mx my h).topology = storedShape mx my ↔ mx = my) := by
  refine ⟨rfl, rfl, rfl, ?_⟩
  simp only [xdmfVelocity, storedShape, List.cons.injEq, and_true]
  exact ⟨fun a => a.1, fun a => ⟨a, a.symm⟩⟩

/-- C70 (pressure): on the meshes of `createMesh` with `N` pressure points per period in each direction, the step is the
pressure step; the topology has the size of the pressure mesh in the non periodic directions only, the data item in
the periodic directions only; the two never agree. -/
theorem C70_pressure (N : Fin 2 → ℤ) (per : Fin 2 → Bool) (h : Pos 2 ℝ) :
    let G := xdmfPressure (meshVel (N 0) (per 0)) (meshVel (N 1) (per 1)) h
    G.step = [2 * h 0, 2 * h 1] ∧
    (G.topology = [meshPres (N 0) (per 0), meshPres (N 1) (per 1)] ↔ ∀ i, per i = false) ∧
    (G.data = [meshPres (N 0) (per 0), meshPres (N 1) (per 1)] ↔ ∀ i, per i = true) ∧
    G.topology ≠ G.data := by
  intro G
  refine ⟨rfl, ?_, ?_, ?_⟩
  · simp only [G, xdmfPressure, meshVel, meshPres, List.cons.injEq, and_true, Fin.forall_fin_two]
    by_cases h0 : per 0 = true <;> by_cases h1 : per 1 = true <;> simp only [h0, h1] <;> simp <;> omega
  · simp only [G, xdmfPressure, meshVel, meshPres, List.cons.injEq, and_true, Fin.forall_fin_two]
    by_cases h0 : per 0 = true <;> by_cases h1 : per 1 = true <;> simp only [h0, h1] <;> simp <;> omega
  · simp only [G, xdmfPressure, ne_eq, List.cons.injEq, and_true, not_and]
    omega

end Cafes.Props
