/-
Property theorems for the interpolation on a refined mesh with several processes: C97.
-/
import Verif.Model.PostProcs
import Verif.Props.Post
import Verif.Props.AddSing

namespace Cafes.Props
open Cafes Cafes.Spec

/-! ### C97 -/

/-- The writes of one process: (cell, j, i). -/
def procWrites (L : Fin 2 → Dir) (p : Fin 2 → ℕ) (refine : Fin 2 → ℕ) : List (Pos 2 ℤ × ℕ × ℕ) :=
  (getDMBounds L p true).visited.flatMap fun pos =>
    (List.range (refine 0 + 1)).flatMap fun j => (List.range (refine 1 + 1)).map fun i => (pos, j, i)

theorem interpLocal_eq {n : ℕ} (L : Fin 2 → Dir) (p : Fin 2 → ℕ) (h : Pos 2 ℝ) (hh : ∀ c, 0 < h c) (refine : Fin 2 → ℕ)
    (u y0 : NodeVec 2 n ℝ) :
    interpLocal L p h refine u y0 = (procWrites L p refine).foldl (fun y s => fun q => if q = writeNode refine s then
      (fun c => field2 L h u s.1 c ((s.2.2 : ℝ) * h 0 / (refine 0 : ℝ)) ((s.2.1 : ℝ) * h 1 / (refine 1 : ℝ)))
      else y q) y0 := by
  unfold interpLocal procWrites
  rw [iterate_eq_foldl, List.foldl_flatMap]
  congr 1
  funext y pos
  unfold interpKernel
  rw [List.foldl_flatMap]
  congr 1
  funext y j
  rw [List.foldl_map]
  congr 1
  funext y i
  funext q
  by_cases hq : q = writeNode refine (pos, j, i)
  · refine Eq.trans ?_ (if_pos hq).symm
    funext c
    refine Eq.trans (if_pos hq) ?_
    have hf : (List.finRange 4) = [0, 1, 2, 3] := rfl
    have hb := (C06_weights2 h hh).2.2.2
    rw [hf]
    simp only [List.foldl_cons, List.foldl_nil, hb, field2, Fin.sum_univ_four, Matrix.cons_val, globalToLocal, zero_add]
    have e0 : (pos 0 : ℝ) * h 0 + (i : ℝ) * h 0 / (refine 0 : ℝ) - h 0 * (pos 0 : ℝ) = (i : ℝ) * h 0 / (refine 0 : ℝ) := by
      ring
    have e1 : (pos 1 : ℝ) * h 1 + (j : ℝ) * h 1 / (refine 1 : ℝ) - h 1 * (pos 1 : ℝ) = (j : ℝ) * h 1 / (refine 1 : ℝ) := by
      ring
    rw [e0, e1]
  · refine Eq.trans ?_ (if_neg hq).symm
    funext c
    exact if_neg hq

theorem mem_procWrites (L : Fin 2 → Dir) (hL : ∀ i, (L i).WF) (p : Fin 2 → ℕ) (hp : p ∈ procs L) (refine : Fin 2 → ℕ)
    (s : Pos 2 ℤ × ℕ × ℕ) :
    s ∈ procWrites L p refine ↔ (∀ i, ((L i).xs (p i) ≤ s.1 i ∧ s.1 i < (L i).xs (p i) + (L i).xm (p i)) ∧
      s.1 i < (L i).nElem) ∧ s.2.1 ≤ refine 0 ∧ s.2.2 ≤ refine 1 := by
  obtain ⟨e, j, i⟩ := s
  unfold procWrites
  simp only [List.mem_flatMap, List.mem_map, List.mem_range, Box.mem_visited, Prod.mk.injEq]
  have hb := fun q => mem_elemBox L hL p hp q
  constructor
  · rintro ⟨q, hq, j', hj, i', hi, h1, h2, h3⟩
    subst h1 h2 h3
    exact ⟨(hb q).1 hq, by omega, by omega⟩
  · rintro ⟨h1, h2, h3⟩
    exact ⟨e, (hb e).2 h1, j, by omega, i, by omega, rfl, rfl, rfl⟩

/-- After the insertion, a node of the fine mesh holds the local value of its owner. -/
theorem insert_owner {n : ℕ} (F : Fin 2 → Dir) (hF : ∀ i, (F i).WF) (yl : (Fin 2 → ℕ) → NodeVec 2 n ℝ) (p : Fin 2 → ℕ)
    (hp : p ∈ procs F) (g : Pos 2 ℤ) (hg : ∀ i, (F i).xs (p i) ≤ g i ∧ g i < (F i).xs (p i) + (F i).xm (p i)) :
    AddSing.localToGlobalInsert F yl g = yl p g := by
  funext c
  unfold AddSing.localToGlobalInsert
  have hin : g ∈ (globalNodes F).halfOpen := fun i =>
    ⟨le_trans (Dir.xs_nonneg (hF i) _) (hg i).1, lt_of_lt_of_le (hg i).2 (Dir.xe_le (hF i) ((mem_procs F p).1 hp i))⟩
  obtain ⟨w, -, hw⟩ := owner_unique F hF g hin
  rw [Finset.sum_eq_single p]
  · rw [if_pos]
    rw [Box.pointInside_iff, mem_ownBox]; exact hg
  · intro s hs hne
    refine if_neg fun hc => hne ?_
    rw [Box.pointInside_iff, mem_ownBox] at hc
    rw [hw s ⟨hs, hc⟩, hw p ⟨hp, hg⟩]
  · intro h; exact absurd hp h

/-- The fine node `g` is in the cell `e`. -/
def InCell (r : ℕ) (g e : Pos 2 ℤ) : Prop := ∀ i, r * e i ≤ g i ∧ g i ≤ r * (e i + 1)

/-- The cell `e` is treated by the process `p`: its first corner is owned by `p`. -/
def CellOf (L : Fin 2 → Dir) (p : Fin 2 → ℕ) (e : Pos 2 ℤ) : Prop :=
  ∀ i, ((L i).xs (p i) ≤ e i ∧ e i < (L i).xs (p i) + (L i).xm (p i)) ∧ e i < (L i).nElem

/-- The finite element field does not depend on the cell in which it is computed. -/
theorem field_cells {n : ℕ} (L : Fin 2 → Dir) (h : Pos 2 ℝ) (hh : ∀ c, 0 < h c) (u : NodeVec 2 n ℝ) (c : Fin n) (r : ℕ)
    (hr : 0 < r) (g e e' : Pos 2 ℤ) (he : InCell r g e) (he' : InCell r g e') :
    field2 L h u e c (((g 0 - r * e 0 : ℤ) : ℝ) * h 0 / r) (((g 1 - r * e 1 : ℤ) : ℝ) * h 1 / r) =
      field2 L h u e' c (((g 0 - r * e' 0 : ℤ) : ℝ) * h 0 / r) (((g 1 - r * e' 1 : ℤ) : ℝ) * h 1 / r) := by
  have eta : ∀ q : Pos 2 ℤ, q = ![q 0, q 1] := by
    intro q; funext i; fin_cases i <;> rfl
  have nat : ∀ (q : Pos 2 ℤ), InCell r g q → ∀ t, ∃ k : ℕ, g t - r * q t = k ∧ k ≤ r := by
    intro q hq t
    obtain ⟨k, hk⟩ := Int.eq_ofNat_of_zero_le (sub_nonneg.2 (hq t).1)
    refine ⟨k, hk, ?_⟩
    have := (hq t).2
    have : (k : ℤ) ≤ r := by rw [mul_add] at this; linarith
    exact_mod_cast this
  obtain ⟨i, hi, hir⟩ := nat e he 0
  obtain ⟨j, hj, hjr⟩ := nat e he 1
  obtain ⟨i', hi', hir'⟩ := nat e' he' 0
  obtain ⟨j', hj', hjr'⟩ := nat e' he' 1
  rw [hi, hj, hi', hj', eta e, eta e']
  simp only [Int.cast_natCast]
  rw [field_fine0 L h hh u c r hr (e 0) (e' 0) (e 1) i i' hir hir'
      (by linarith [mul_comm (r : ℤ) (e 0), mul_comm (r : ℤ) (e' 0)]),
    field_fine1 L h hh u c r hr (e' 0) (e 1) (e' 1) j j' hjr hjr'
      (by linarith [mul_comm (r : ℤ) (e 1), mul_comm (r : ℤ) (e' 1)])]

/-- A process writes the fine node `g` exactly when one of its cells contains it. -/
theorem written_iff (L : Fin 2 → Dir) (hL : ∀ i, (L i).WF) (p : Fin 2 → ℕ) (hp : p ∈ procs L) (r : ℕ) (g : Pos 2 ℤ) :
    (∃ s ∈ procWrites L p fun _ => r, writeNode (fun _ => r) s = g) ↔ ∃ e, CellOf L p e ∧ InCell r g e := by
  constructor
  · rintro ⟨⟨e, j, i⟩, hs, hk⟩
    rw [mem_procWrites L hL p hp] at hs
    obtain ⟨h1, hj, hi⟩ := hs
    refine ⟨e, h1, fun t => ?_⟩
    have g0 : (i : ℤ) + e 0 * r = g 0 := by rw [← hk]; rfl
    have g1 : (j : ℤ) + e 1 * r = g 1 := by rw [← hk]; rfl
    have hi' : (i : ℤ) ≤ r := by exact_mod_cast hi
    have hj' : (j : ℤ) ≤ r := by exact_mod_cast hj
    have i0 : (0 : ℤ) ≤ i := by positivity
    have j0 : (0 : ℤ) ≤ j := by positivity
    fin_cases t
    · show (r : ℤ) * e 0 ≤ g 0 ∧ g 0 ≤ r * (e 0 + 1)
      rw [mul_add, mul_comm (r : ℤ) (e 0)]; constructor <;> linarith
    · show (r : ℤ) * e 1 ≤ g 1 ∧ g 1 ≤ r * (e 1 + 1)
      rw [mul_add, mul_comm (r : ℤ) (e 1)]; constructor <;> linarith
  · rintro ⟨e, h1, hg⟩
    obtain ⟨i, hi⟩ := Int.eq_ofNat_of_zero_le (sub_nonneg.2 (hg 0).1)
    obtain ⟨j, hj⟩ := Int.eq_ofNat_of_zero_le (sub_nonneg.2 (hg 1).1)
    have b0 := (hg 0).2
    have b1 := (hg 1).2
    refine ⟨(e, j, i), (mem_procWrites L hL p hp _ _).2 ⟨h1, ?_, ?_⟩, ?_⟩
    · have : (j : ℤ) ≤ r := by rw [mul_add] at b1; linarith
      exact_mod_cast this
    · have : (i : ℤ) ≤ r := by rw [mul_add] at b0; linarith
      exact_mod_cast this
    · have eta : g = ![g 0, g 1] := by funext i; fin_cases i <;> rfl
      rw [eta]
      simp only [writeNode]
      congr 1
      · linarith [mul_comm (r : ℤ) (e 0)]
      · congr 1
        linarith [mul_comm (r : ℤ) (e 1)]

/-- C97 (value): a node `g` of the fine mesh, owned there by a process `p` one of whose cells contains `g`, holds after
the call the value of the finite element field at that node (computed in any cell `e` that contains it), whatever the
decompositions of the two meshes and the previous contents of the arrays. -/
theorem C97_value {n : ℕ} (L F : Fin 2 → Dir) (hL : ∀ i, (L i).WF) (hF : ∀ i, (F i).WF) (h : Pos 2 ℝ) (hh : ∀ c, 0 < h c)
    (r : ℕ) (hr : 0 < r) (u : NodeVec 2 n ℝ) (y0 : (Fin 2 → ℕ) → NodeVec 2 n ℝ) (p : Fin 2 → ℕ) (hpL : p ∈ procs L)
    (hpF : p ∈ procs F) (g : Pos 2 ℤ) (hg : ∀ i, (F i).xs (p i) ≤ g i ∧ g i < (F i).xs (p i) + (F i).xm (p i))
    (hw : ∃ e, CellOf L p e ∧ InCell r g e) (e : Pos 2 ℤ) (he : InCell r g e) (c : Fin n) :
    linearInterpolationProcs L F h (fun _ => r) u y0 g c =
      field2 L h u e c (((g 0 - r * e 0 : ℤ) : ℝ) * h 0 / r) (((g 1 - r * e 1 : ℤ) : ℝ) * h 1 / r) := by
  unfold linearInterpolationProcs
  rw [insert_owner F hF _ p hpF g hg, interpLocal_eq L p h hh, foldl_set (writeNode fun _ => r) _ _ _ g
    (fun c => field2 L h u e c (((g 0 - r * e 0 : ℤ) : ℝ) * h 0 / r) (((g 1 - r * e 1 : ℤ) : ℝ) * h 1 / r)),
    if_pos ((written_iff L hL p hpL r g).2 hw)]
  rintro ⟨e', j', i'⟩ hs hk
  rw [mem_procWrites L hL p hpL] at hs
  obtain ⟨-, hj', hi'⟩ := hs
  have g0 : g 0 - r * e' 0 = (i' : ℤ) := by
    have : (i' : ℤ) + e' 0 * r = g 0 := by rw [← hk]; rfl
    linarith [mul_comm (r : ℤ) (e' 0)]
  have g1 : g 1 - r * e' 1 = (j' : ℤ) := by
    have : (j' : ℤ) + e' 1 * r = g 1 := by rw [← hk]; rfl
    linarith [mul_comm (r : ℤ) (e' 1)]
  have hin : InCell r g e' := by
    have a1 : (i' : ℤ) ≤ r := by exact_mod_cast hi'
    have a2 : (j' : ℤ) ≤ r := by exact_mod_cast hj'
    intro t
    rw [mul_add]
    fin_cases t
    · show (r : ℤ) * e' 0 ≤ g 0 ∧ g 0 ≤ r * e' 0 + r * 1
      omega
    · show (r : ℤ) * e' 1 ≤ g 1 ∧ g 1 ≤ r * e' 1 + r * 1
      omega
  funext c
  refine Eq.trans ?_ (field_cells L h hh u c r hr g e' e hin he)
  rw [g0, g1]
  simp

/-- C97 (previous content): a node of the fine mesh which is in no cell of its owner keeps the value that the local
array of the owner held before the call. -/
theorem C97_keeps {n : ℕ} (L F : Fin 2 → Dir) (hL : ∀ i, (L i).WF) (hF : ∀ i, (F i).WF) (h : Pos 2 ℝ) (hh : ∀ c, 0 < h c)
    (r : ℕ) (u : NodeVec 2 n ℝ) (y0 : (Fin 2 → ℕ) → NodeVec 2 n ℝ) (p : Fin 2 → ℕ) (hpL : p ∈ procs L)
    (hpF : p ∈ procs F) (g : Pos 2 ℤ) (hg : ∀ i, (F i).xs (p i) ≤ g i ∧ g i < (F i).xs (p i) + (F i).xm (p i))
    (hw : ¬ ∃ e, CellOf L p e ∧ InCell r g e) :
    linearInterpolationProcs L F h (fun _ => r) u y0 g = y0 p g := by
  have none := fun hc => hw ((written_iff L hL p hpL r g).1 hc)
  unfold linearInterpolationProcs
  rw [insert_owner F hF _ p hpF g hg, interpLocal_eq L p h hh, foldl_set _ _ _ _ g (y0 p g)
    fun s hs hk => absurd ⟨s, hs, hk⟩ none, if_neg none]

/-- The blocks of the fine mesh `F` start, in every direction, at the first fine node of the block of the same process
in the mesh `L`, or at the next one. -/
structure Aligned (L F : Fin 2 → Dir) (r : ℕ) : Prop where
  procs : ∀ i, (F i).l.length = (L i).l.length
  points : ∀ i, (F i).m = finePoints (L i) r
  start : ∀ i, ∀ k < (L i).l.length, r * (L i).xs k ≤ (F i).xs k ∧ (F i).xs k ≤ r * (L i).xs k + 1

/-- A fine node of an aligned block is in a cell of the block. -/
theorem aligned_cell (D G : Dir) (hD : D.WF) (hG : G.WF) (r : ℕ) (hr : 0 < r) (hlen : G.l.length = D.l.length)
    (hpts : G.m = finePoints D r) (hst : ∀ k < D.l.length, r * D.xs k ≤ G.xs k ∧ G.xs k ≤ r * D.xs k + 1)
    (hlast : D.periodic = false → 2 ≤ D.xm (D.l.length - 1)) (k : ℕ) (hk : k < D.l.length) (x : ℤ) (h0 : G.xs k ≤ x)
    (h1 : x < G.xs k + G.xm k) :
    ∃ e, ((D.xs k ≤ e ∧ e < D.xs k + D.xm k) ∧ e < D.nElem) ∧ r * e ≤ x ∧ x ≤ r * (e + 1) := by
  have hr' : (0:ℤ) < r := by exact_mod_cast hr
  have hxm := Dir.xm_pos hD hk
  -- the end of the cells of the block
  obtain ⟨E, hE1, hE2, hE3, hE4⟩ : ∃ E, D.xs k < E ∧ E ≤ D.xs k + D.xm k ∧ E ≤ D.nElem ∧ x ≤ r * E := by
    have hle := Dir.xe_le hD hk
    rw [← Dir.xs_succ G k (hlen ▸ hk)] at h1
    by_cases hlst : k + 1 < D.l.length
    · have := (hst (k + 1) hlst).2
      rw [Dir.xs_succ D k hk] at this
      have hlt : D.xs k + D.xm k < D.m := by
        have a := Dir.xe_le hD hlst
        have b := Dir.xm_pos hD hlst
        rw [Dir.xs_succ D k hk] at a
        omega
      refine ⟨D.xs k + D.xm k, by omega, le_rfl, ?_, by omega⟩
      unfold Dir.nElem; split_ifs <;> omega
    · have hkl : k + 1 = D.l.length := by omega
      have hend : D.xs k + D.xm k = D.m := by rw [← Dir.xs_succ D k hk, hkl, Dir.xs_length D hD]
      have hgend : G.xs (k + 1) = G.m := by rw [hkl, ← hlen, Dir.xs_length G hG]
      rw [hgend, hpts] at h1
      refine ⟨D.nElem, ?_, ?_, le_rfl, ?_⟩
      · unfold Dir.nElem
        cases hp : D.periodic
        · have := hlast hp
          rw [← hkl, Nat.add_sub_cancel] at this
          simp; omega
        · simp; omega
      · unfold Dir.nElem; split_ifs <;> omega
      · unfold finePoints at h1; unfold Dir.nElem
        split_ifs at h1 ⊢ <;> omega
  have hx0 : r * D.xs k ≤ x := le_trans (hst k hk).1 h0
  by_cases hlt : x / r < E
  · refine ⟨x / r, ⟨⟨?_, by omega⟩, by omega⟩, Int.mul_ediv_self_le hr'.ne', ?_⟩
    · rw [Int.le_ediv_iff_mul_le hr', mul_comm]; exact hx0
    · have := Int.lt_mul_ediv_self_add (x := x) hr'
      rw [mul_add, mul_one]; omega
  · push Not at hlt
    have hge : (r : ℤ) * E ≤ x := by
      have := (Int.le_ediv_iff_mul_le hr').1 hlt
      linarith [mul_comm (r : ℤ) E]
    refine ⟨E - 1, ⟨⟨by omega, by omega⟩, by omega⟩, ?_, ?_⟩
    · rw [mul_sub, mul_one]; omega
    · rw [sub_add_cancel]; exact hE4

/-- C97 (aligned meshes): when the blocks of the two meshes are aligned and every process has elements, every node of
the fine mesh holds the value of the finite element field, on any number of processes. -/
theorem C97_aligned {n : ℕ} (L F : Fin 2 → Dir) (hL : ∀ i, (L i).WF) (hF : ∀ i, (F i).WF)
    (h : Pos 2 ℝ) (hh : ∀ c, 0 < h c) (r : ℕ) (hr : 0 < r) (ha : Aligned L F r)
    (hlast : ∀ i, (L i).periodic = false → 2 ≤ (L i).xm ((L i).l.length - 1)) (u : NodeVec 2 n ℝ)
    (y0 : (Fin 2 → ℕ) → NodeVec 2 n ℝ) (g e : Pos 2 ℤ) (hg : ∀ i, 0 ≤ g i ∧ g i < finePoints (L i) r)
    (he : InCell r g e) (c : Fin n) :
    linearInterpolationProcs L F h (fun _ => r) u y0 g c =
      field2 L h u e c (((g 0 - r * e 0 : ℤ) : ℝ) * h 0 / r) (((g 1 - r * e 1 : ℤ) : ℝ) * h 1 / r) := by
  obtain ⟨p, ⟨hp, hown⟩, -⟩ := owner_unique F hF g fun i => ⟨(hg i).1, by
    have := (hg i).2
    rw [← ha.points i] at this
    exact this⟩
  have hpL : p ∈ procs L := (mem_procs L p).2 fun i => ha.procs i ▸ (mem_procs F p).1 hp i
  have hpL' := (mem_procs L p).1 hpL
  have key := fun i => aligned_cell (L i) (F i) (hL i) (hF i) r hr (ha.procs i) (ha.points i) (ha.start i) (hlast i)
    (p i) (hpL' i) (g i) (hown i).1 (hown i).2
  choose e' he' using key
  exact C97_value L F hL hF h hh r hr u y0 p hpL hp g hown ⟨e', fun i => (he' i).1, fun i => (he' i).2⟩ e he c

/-- C97 (the split of the code's own meshes): the velocity mesh of `createMesh` with `2k` pressure points split evenly
between two processes in the first direction, and its refinement by `r >= 2` split evenly too (the choice of PETSc, which
balances the fine points): the `r - 1` fine columns after the column `r (2k - 1)` keep the previous content of the array
of the second process. -/
theorem C97_even_split {n : ℕ} (k : ℤ) (hk : 1 ≤ k) (L F : Fin 2 → Dir) (hL1 : (L 1).WF) (hF1 : (F 1).WF)
    (hL0 : L 0 = velDir (2 * k) false [k, k]) (r : ℕ) (hr : 2 ≤ r)
    (hF0 : F 0 = ⟨finePoints (L 0) r, false, [r * (2 * k - 1) + 1, r * (2 * k - 1)]⟩)
    (h : Pos 2 ℝ) (hh : ∀ c, 0 < h c) (u : NodeVec 2 n ℝ) (y0 : (Fin 2 → ℕ) → NodeVec 2 n ℝ) (q : ℕ)
    (hqL : q < (L 1).l.length) (hqF : q < (F 1).l.length) (g : Pos 2 ℤ)
    (h1 : (F 1).xs q ≤ g 1 ∧ g 1 < (F 1).xs q + (F 1).xm q)
    (h0 : r * (2 * k - 1) < g 0 ∧ g 0 < r * (2 * k)) :
    linearInterpolationProcs L F h (fun _ => r) u y0 g = y0 ![1, q] g := by
  have hr' : (2:ℤ) ≤ r := by exact_mod_cast hr
  have wL0 : (L 0).WF := by
    rw [hL0]
    refine velDir_wf (lx := [k, k]) (by simp) ⟨?_, ?_⟩
    · simp [presDir, meshPres]; ring
    · simp [presDir]; omega
  have mL0 : (L 0).m = 4 * k - 1 := by rw [hL0]; simp [velDir, meshVel]; ring
  have pL0 : (L 0).periodic = false := by rw [hL0]; rfl
  have lL0 : (L 0).l = [2 * k, 2 * k - 1] := by rw [hL0]; simp [velDir, setLxu]
  have big : (0 : ℤ) < r * (2 * k - 1) := by apply mul_pos <;> omega
  have wF0 : (F 0).WF := by
    rw [hF0]
    constructor
    · simp only [finePoints, pL0, mL0, List.sum_cons, List.sum_nil, Bool.false_eq_true, if_false]; ring
    · simp; omega
  have xs1 : (L 0).xs 1 = 2 * k := by simp [Dir.xs, lL0]
  have fxs1 : (F 0).xs 1 = r * (2 * k - 1) + 1 := by simp [Dir.xs, hF0]
  have fxm1 : (F 0).xm 1 = r * (2 * k - 1) := by simp [Dir.xm, hF0]
  have wL : ∀ i, (L i).WF := by intro i; fin_cases i; exacts [wL0, hL1]
  have wF : ∀ i, (F i).WF := by intro i; fin_cases i; exacts [wF0, hF1]
  refine C97_keeps L F wL wF h hh r u y0 ![1, q] ?_ ?_ g ?_ ?_
  · rw [mem_procs]; intro i; fin_cases i
    · show 1 < (L 0).l.length
      rw [lL0]; simp
    · exact hqL
  · rw [mem_procs]; intro i; fin_cases i
    · show 1 < (F 0).l.length
      rw [hF0]; simp
    · exact hqF
  · intro i
    fin_cases i
    · show (F 0).xs 1 ≤ g 0 ∧ g 0 < (F 0).xs 1 + (F 0).xm 1
      rw [fxs1, fxm1]
      have : (r : ℤ) * (2 * k) = r * (2 * k - 1) + r := by ring
      have : (r : ℤ) * 1 ≤ r * (2 * k - 1) := mul_le_mul_of_nonneg_left (by omega) (by omega)
      omega
    · exact h1
  · rintro ⟨e, h2, h3⟩
    have a := (h2 0).1.1
    have b := (h3 0).1
    have : (L 0).xs ((![1, q] : Fin 2 → ℕ) 0) = 2 * k := xs1
    rw [this] at a
    have : (r : ℤ) * (2 * k) ≤ r * e 0 := mul_le_mul_of_nonneg_left a (by omega)
    omega

/-- C97 (memory): on the same meshes the first process writes the fine column `2 k r`, which is out of its local array
of the fine mesh, ghost nodes included. -/
theorem C97_even_overrun (k : ℤ) (hk : 1 ≤ k) (L F : Fin 2 → Dir) (hL1 : (L 1).WF)
    (hL0 : L 0 = velDir (2 * k) false [k, k]) (r : ℕ) (hr : 2 ≤ r)
    (hF0 : F 0 = ⟨finePoints (L 0) r, false, [r * (2 * k - 1) + 1, r * (2 * k - 1)]⟩) (q : ℕ)
    (hqL : q < (L 1).l.length) (hq : ∃ y, ((L 1).xs q ≤ y ∧ y < (L 1).xs q + (L 1).xm q) ∧ y < (L 1).nElem) :
    ∃ s ∈ procWrites L ![0, q] fun _ => r, writeNode (fun _ => r) s 0 = r * (2 * k) ∧
      (F 0).gxe 0 ≤ writeNode (fun _ => r) s 0 := by
  have hr' : (2:ℤ) ≤ r := by exact_mod_cast hr
  have wL0 : (L 0).WF := by
    rw [hL0]
    refine velDir_wf (lx := [k, k]) (by simp) ⟨?_, ?_⟩
    · simp [presDir, meshPres]; ring
    · simp [presDir]; omega
  have mL0 : (L 0).m = 4 * k - 1 := by rw [hL0]; simp [velDir, meshVel]; ring
  have pL0 : (L 0).periodic = false := by rw [hL0]; rfl
  have lL0 : (L 0).l = [2 * k, 2 * k - 1] := by rw [hL0]; simp [velDir, setLxu]
  have wL : ∀ i, (L i).WF := by intro i; fin_cases i; exacts [wL0, hL1]
  obtain ⟨y, hy⟩ := hq
  have hp : (![0, q] : Fin 2 → ℕ) ∈ procs L := by
    rw [mem_procs]; intro i; fin_cases i
    · show 0 < (L 0).l.length
      rw [lL0]; simp
    · exact hqL
  have hn : writeNode (fun _ => r) (![2 * k - 1, y], 0, r) 0 = (r : ℤ) * (2 * k) := by
    simp [writeNode]; ring
  refine ⟨(![2 * k - 1, y], 0, r), (mem_procWrites L wL _ hp _ _).2 ⟨?_, Nat.zero_le _, le_rfl⟩, hn, ?_⟩
  · intro i
    fin_cases i
    · show ((L 0).xs 0 ≤ 2 * k - 1 ∧ 2 * k - 1 < (L 0).xs 0 + (L 0).xm 0) ∧ 2 * k - 1 < (L 0).nElem
      have x0 : (L 0).xs 0 = 0 := by simp [Dir.xs]
      have x1 : (L 0).xm 0 = 2 * k := by simp [Dir.xm, lL0]
      rw [x0, x1, Dir.nElem, pL0, mL0]
      simp; omega
    · exact hy
  · rw [hn]
    have : (F 0).gxe 0 ≤ r * (2 * k - 1) + 2 := by
      unfold Dir.gxe
      rw [hF0]
      simp only [Bool.false_eq_true, if_false]
      refine le_trans (min_le_left _ _) ?_
      simp [Dir.xs, Dir.xm]
      try omega
    have : (r : ℤ) * (2 * k) = r * (2 * k - 1) + r := by ring
    omega

/-- Aligned meshes: the velocity mesh of 7 points on two processes of 4 and 3 points in the first direction, refined by
2 with 8 and 5 fine points; 3 points on one process in the second direction. -/
def exPostL : Fin 2 → Dir := ![⟨7, false, [4, 3]⟩, ⟨3, false, [3]⟩]
/-- The refined mesh. -/
def exPostF : Fin 2 → Dir := ![⟨13, false, [8, 5]⟩, ⟨5, false, [5]⟩]

example : (∀ i, (exPostL i).WF) ∧ (∀ i, (exPostF i).WF) ∧ Aligned exPostL exPostF 2 ∧
    ∀ i, (exPostL i).periodic = false → 2 ≤ (exPostL i).xm ((exPostL i).l.length - 1) := by
  refine ⟨?_, ?_, ⟨?_, ?_, ?_⟩, ?_⟩
  · intro i; fin_cases i <;> constructor <;> simp [exPostL]
  · intro i; fin_cases i <;> constructor <;> simp [exPostF]
  · intro i; fin_cases i <;> rfl
  · intro i; fin_cases i <;> simp [exPostL, exPostF, finePoints]
  · intro i
    fin_cases i
    · intro k hk
      have : k < 2 := hk
      interval_cases k <;> simp [exPostL, exPostF, Dir.xs]
    · intro k hk
      have : k < 1 := hk
      interval_cases k
      simp [exPostL, exPostF, Dir.xs]
  · intro i _; fin_cases i <;> simp [exPostL, Dir.xm]

/-- The even split with `k = 2`, `r = 2`: 4 pressure points, 7 velocity points as 4 + 3, 13 fine points as 7 + 6; the
fine column 7 is not written. -/
example : exPostL 0 = velDir (2 * 2) false [2, 2] ∧ finePoints (exPostL 0) 2 = 13 ∧
    ((2 : ℕ) : ℤ) * (2 * 2 - 1) < 7 ∧ (7 : ℤ) < ((2 : ℕ) : ℤ) * (2 * 2) := by
  refine ⟨?_, ?_, by norm_num, by norm_num⟩
  · simp [exPostL, velDir, meshVel, setLxu]
  · simp [exPostL, finePoints]

end Cafes.Props
