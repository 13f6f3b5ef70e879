import Verif.Model.Mesh
import Verif.Lemmas.Box
import Verif.Lemmas.Prelude
import Mathlib.Algebra.BigOperators.Ring.Finset
import Mathlib.Data.Fintype.BigOperators
import Mathlib.Data.Fintype.Pi

namespace Cafes

theorem List.sum_take_mono_int (l : List ℤ) (hl : ∀ x ∈ l, 0 < x) (a b : ℕ) (hab : a ≤ b) :
    (l.take a).sum ≤ (l.take b).sum := by
  induction l generalizing a b with
  | nil => simp
  | cons x l ih =>
    have hx := hl x (by simp)
    have hl' : ∀ y ∈ l, 0 < y := fun y hy => hl y (by simp [hy])
    cases a with
    | zero =>
      cases b with
      | zero => simp
      | succ b =>
        have := ih hl' 0 b (by omega)
        simp at this ⊢
        omega
    | succ a =>
      cases b with
      | zero => omega
      | succ b =>
        have := ih hl' a b (by omega)
        simp
        omega

theorem Dir.xs_succ (D : Dir) (r : ℕ) (hr : r < D.l.length) : D.xs (r + 1) = D.xs r + D.xm r := by
  unfold Dir.xs Dir.xm
  rw [List.sum_take_succ _ _ hr]
  simp [List.getD, hr]

theorem Dir.xm_pos {D : Dir} (h : D.WF) {r : ℕ} (hr : r < D.l.length) : 0 < D.xm r := by
  unfold Dir.xm
  have : D.l.getD r 0 = D.l[r] := by simp [List.getD, hr]
  rw [this]
  exact h.pos _ (List.getElem_mem hr)

theorem Dir.xs_mono {D : Dir} (h : D.WF) {a b : ℕ} (hab : a ≤ b) : D.xs a ≤ D.xs b :=
  List.sum_take_mono_int D.l h.pos a b hab

theorem Dir.xs_nonneg {D : Dir} (h : D.WF) (r : ℕ) : 0 ≤ D.xs r := by
  have := Dir.xs_mono h (Nat.zero_le r)
  simpa [Dir.xs] using this

theorem Dir.xs_length (D : Dir) (h : D.WF) : D.xs D.l.length = D.m := by
  unfold Dir.xs; rw [List.take_length, h.sum_eq]

theorem Dir.xe_le {D : Dir} (h : D.WF) {r : ℕ} (hr : r < D.l.length) : D.xs r + D.xm r ≤ D.m := by
  rw [← D.xs_succ r hr, ← D.xs_length h]
  exact Dir.xs_mono h hr

/-- Each point belongs to one and only one block. -/
theorem Dir.block_unique {D : Dir} (h : D.WF) (x : ℤ) (h0 : 0 ≤ x) (h1 : x < D.m) :
    ∃ r, (r < D.l.length ∧ D.xs r ≤ x ∧ x < D.xs r + D.xm r) ∧
      ∀ s, s < D.l.length → D.xs s ≤ x → x < D.xs s + D.xm s → s = r := by
  have hex : ∃ r, x < D.xs (r + 1) := by
    refine ⟨D.l.length, lt_of_lt_of_le h1 ?_⟩
    rw [← D.xs_length h]
    exact Dir.xs_mono h (Nat.le_succ _)
  classical
  set r := Nat.find hex with hrdef
  have hr : x < D.xs (r + 1) := Nat.find_spec hex
  have hrl : r < D.l.length := by
    by_contra hc
    push Not at hc
    have hlen : 0 < D.l.length := by
      by_contra hz
      have hz' : D.l = [] := List.length_eq_zero_iff.1 (by omega)
      have := h.sum_eq
      rw [hz'] at this
      simp at this
      omega
    have : x < D.xs (D.l.length - 1 + 1) := by
      rw [Nat.sub_add_cancel hlen, D.xs_length h]; exact h1
    exact absurd this (Nat.find_min hex (by omega))
  have hlow : D.xs r ≤ x := by
    rcases Nat.eq_zero_or_pos r with h0' | hp
    · rw [h0']; simpa [Dir.xs] using h0
    · have := Nat.find_min hex (m := r - 1) (by omega)
      rw [Nat.sub_add_cancel hp] at this
      exact not_lt.1 this
  refine ⟨r, ⟨hrl, hlow, ?_⟩, ?_⟩
  · rw [← D.xs_succ r hrl]; exact hr
  · intro s hs hs1 hs2
    rw [← D.xs_succ s hs] at hs2
    rcases lt_trichotomy s r with hlt | heq | hgt
    · have := Dir.xs_mono h (show s + 1 ≤ r by omega)
      omega
    · exact heq
    · have := Dir.xs_mono h (show r + 1 ≤ s by omega)
      omega

/-- One direction of `get_DM_bounds` with removal of the final points: upper bound. -/
theorem getDMBounds_ur_le {d : ℕ} (L : Fin d → Dir) (r : Fin d → ℕ) (b : Bool) (i : Fin d) :
    (getDMBounds L r b).ur i ≤ (L i).xs (r i) + (L i).xm (r i) := by
  simp only [getDMBounds]
  split_ifs <;> omega

theorem setLxu_sum (period : Bool) (lx : List ℤ) (hne : lx ≠ []) :
    (setLxu period lx).sum = 2 * lx.sum - (if period then 0 else 1) := by
  have hmap : (lx.map (2 * ·)).sum = 2 * lx.sum := by rw [List.sum_map_mul_left]; simp
  unfold setLxu
  cases period with
  | true => simp [hmap]
  | false =>
    simp only [Bool.false_eq_true, if_false]
    obtain ⟨l, a, rfl⟩ : ∃ l a, lx = l ++ [a] := 
      ⟨lx.dropLast, lx.getLast hne, (List.dropLast_append_getLast hne).symm⟩
    have : ((l ++ [a]).map (2 * ·)).modify ((l ++ [a]).length - 1) (· - 1)
        = l.map (2 * ·) ++ [2 * a - 1] := by
      rw [List.map_append]
      have hl : (l ++ [a]).length - 1 = (l.map (2 * ·)).length := by simp
      rw [hl]
      simp [List.modify_eq_take_cons_drop]
    rw [this]
    simp at hmap
    simp
    linarith

theorem setLxu_take (period : Bool) (lx : List ℤ) (r : ℕ) (hr : r < lx.length) :
    ((setLxu period lx).take r).sum = 2 * (lx.take r).sum := by
  have hmap : ((lx.map (2 * ·)).take r).sum = 2 * (lx.take r).sum := by
    rw [← List.map_take, List.sum_map_mul_left]; simp
  unfold setLxu
  cases period with
  | true => simpa using hmap
  | false =>
    simp only [Bool.false_eq_true, if_false]
    rw [List.take_modify, List.modify_eq_self (by simp; omega)]
    exact hmap

theorem setLxu_length (period : Bool) (lx : List ℤ) : (setLxu period lx).length = lx.length := by
  unfold setLxu; cases period <;> simp

theorem setLxu_getElem (period : Bool) (lx : List ℤ) (r : ℕ) (hr : r < lx.length) :
    (setLxu period lx).getD r 0 =
      2 * lx.getD r 0 - (if !period && decide (r = lx.length - 1) then 1 else 0) := by
  unfold setLxu
  have h2 : lx[r]?.getD 0 = lx[r] := by simp [hr]
  cases period with
  | true => simp [List.getD, hr]
  | false =>
    by_cases h : r = lx.length - 1
    · subst h; simp [List.getD, hr]
    · have h' : lx.length - 1 ≠ r := fun e => h e.symm
      simp [List.getD, hr, h, h']

theorem setLxu_pos (period : Bool) (lx : List ℤ) (h : ∀ x ∈ lx, 0 < x) :
    ∀ x ∈ setLxu period lx, 0 < x := by
  intro x hx
  rw [List.mem_iff_getElem] at hx
  obtain ⟨r, hr, rfl⟩ := hx
  rw [setLxu_length] at hr
  have := setLxu_getElem period lx r hr
  have h1 : (setLxu period lx).getD r 0 = (setLxu period lx)[r]'(by rwa [setLxu_length]) := by
    simp [List.getD, setLxu_length, hr]
  have h2 : lx.getD r 0 = lx[r] := by simp [List.getD, hr]
  rw [h1, h2] at this
  rw [this]
  have := h lx[r] (List.getElem_mem hr)
  split_ifs <;> omega

theorem velDir_wf {n : ℤ} {period : Bool} {lx : List ℤ} (hne : lx ≠ [])
    (h : (presDir n period lx).WF) : (velDir n period lx).WF := by
  refine ⟨?_, setLxu_pos _ _ h.pos⟩
  have h1 : lx.sum = meshPres n period := h.sum_eq
  show (setLxu period lx).sum = meshVel n period
  rw [setLxu_sum _ _ hne, h1]
  cases period <;> simp [meshPres, meshVel] <;> ring

end Cafes
