/-
C119: what is on the disk during and after `save_VTK`, for all the interleavings of the processes.
-/
import Verif.Lemmas.VtkSave
import Verif.Props.Vtk

namespace Cafes.Props
open Cafes Cafes.Vtk

set_option linter.unusedSectionVars false
variable {n : ℕ} [NeZero n] {K : Type} [Field K]

/-! ### The programs -/

theorem quiet_gathers2 (f : Name n) (L : Fin 2 → Dir) (r : Fin 2 → ℕ) : Quiet (K := K) f (gathers2 L r) := by
  intro a ha
  simp only [gathers2, List.mem_cons, List.not_mem_nil, or_false] at ha
  rcases ha with rfl | rfl | rfl | rfl | rfl | rfl <;> exact ⟨by simp, by simp⟩

theorem quiet_gathers3 (f : Name n) (L : Fin 3 → Dir) (r : Fin 3 → ℕ) : Quiet (K := K) f (gathers3 L r) := by
  intro a ha
  simp only [gathers3, List.mem_cons, List.not_mem_nil, or_false] at ha
  rcases ha with rfl | rfl | rfl | rfl | rfl | rfl <;> exact ⟨by simp, by simp⟩

theorem quiet_write {f g : Name n} (h : g ≠ f) (d : List (Fin n → ℤ) → Doc K) : Quiet f (writeFile g d) := by
  intro a ha
  simp only [writeFile, List.mem_cons, List.not_mem_nil, or_false] at ha
  rcases ha with rfl | rfl <;> exact ⟨by simp [h], by simp [h]⟩

theorem quiet_nil (f : Name n) : Quiet (K := K) f [] := fun a ha => absurd ha (by simp)

theorem quiet_ite {f g : Name n} (h : g ≠ f) (c : Prop) [Decidable c] (d : List (Fin n → ℤ) → Doc K) :
    Quiet f (if c then writeFile g d else []) := by
  split
  · exact quiet_write h d
  · exact quiet_nil f

theorem vals_write (g : Name n) (d : List (Fin n → ℤ) → Doc K) : vals (writeFile g d) = [] := rfl

theorem vals_ite (g : Name n) (c : Prop) [Decidable c] (d : List (Fin n → ℤ) → Doc K) :
    vals (if c then writeFile g d else []) = [] := by
  split <;> rfl

theorem vals_save2 (Lv Lp : Fin 2 → Dir) (h : Pos 2 K) (u : NodeVec 2 2 K) (p : NodeVec 2 1 K) (coord : ℕ → Fin 2 → ℕ)
    (r : Fin n) : vals (save2 Lv Lp h u p coord r) =
      [(Lp 0).gxs (coord r 0), (Lp 0).gxm (coord r 0), (Lp 1).gxs (coord r 1), (Lp 1).gxm (coord r 1), 0, 1,
       (Lv 0).gxs (coord r 0), (Lv 0).gxm (coord r 0), (Lv 1).gxs (coord r 1), (Lv 1).gxm (coord r 1), 0, 1] := by
  unfold save2
  rw [vals_append, vals_append, vals_append, vals_append, vals_append, vals_ite, vals_ite]
  rfl

theorem vals_save3 (Lv Lp : Fin 3 → Dir) (h : Pos 3 K) (u : NodeVec 3 3 K) (p : NodeVec 3 1 K) (coord : ℕ → Fin 3 → ℕ)
    (r : Fin n) : vals (save3 Lv Lp h u p coord r) =
      [(Lp 0).gxs (coord r 0), (Lp 0).gxm (coord r 0), (Lp 1).gxs (coord r 1), (Lp 1).gxm (coord r 1),
       (Lp 2).gxs (coord r 2), (Lp 2).gxm (coord r 2),
       (Lv 0).gxs (coord r 0), (Lv 0).gxm (coord r 0), (Lv 1).gxs (coord r 1), (Lv 1).gxm (coord r 1),
       (Lv 2).gxs (coord r 2), (Lv 2).gxm (coord r 2)] := by
  unfold save3
  rw [vals_append, vals_append, vals_append, vals_append, vals_append, vals_ite, vals_ite]
  rfl

theorem tidy2 (Lv Lp : Fin 2 → Dir) (h : Pos 2 K) (u : NodeVec 2 2 K) (p : NodeVec 2 1 K) (coord : ℕ → Fin 2 → ℕ) :
    Tidy (n := n) (save2 Lv Lp h u p coord) := by
  refine ⟨fun r f hm => ?_, fun r f d hm => ?_, fun r hr f d hm g g' => ?_, fun r => ?_⟩
  · by_cases h0 : r = 0
    · subst h0; simp [save2, gathers2, writeFile] at hm; rcases hm with rfl | rfl | rfl | rfl <;> rfl
    · simp [save2, gathers2, writeFile, h0] at hm; rcases hm with rfl | rfl <;> rfl
  · by_cases h0 : r = 0
    · subst h0; simp [save2, gathers2, writeFile] at hm
      rcases hm with ⟨rfl, -⟩ | ⟨rfl, -⟩ | ⟨rfl, -⟩ | ⟨rfl, -⟩ <;> rfl
    · simp [save2, gathers2, writeFile, h0] at hm; rcases hm with ⟨rfl, -⟩ | ⟨rfl, -⟩ <;> rfl
  · simp [save2, gathers2, writeFile, hr] at hm
    rcases hm with ⟨-, rfl⟩ | ⟨-, rfl⟩ <;> rfl
  · rw [vals_save2, vals_save2]; rfl

theorem tidy3 (Lv Lp : Fin 3 → Dir) (h : Pos 3 K) (u : NodeVec 3 3 K) (p : NodeVec 3 1 K) (coord : ℕ → Fin 3 → ℕ) :
    Tidy (n := n) (save3 Lv Lp h u p coord) := by
  refine ⟨fun r f hm => ?_, fun r f d hm => ?_, fun r hr f d hm g g' => ?_, fun r => ?_⟩
  · by_cases h0 : r = 0
    · subst h0; simp [save3, gathers3, writeFile] at hm; rcases hm with rfl | rfl | rfl | rfl <;> rfl
    · simp [save3, gathers3, writeFile, h0] at hm; rcases hm with rfl | rfl <;> rfl
  · by_cases h0 : r = 0
    · subst h0; simp [save3, gathers3, writeFile] at hm
      rcases hm with ⟨rfl, -⟩ | ⟨rfl, -⟩ | ⟨rfl, -⟩ | ⟨rfl, -⟩ <;> rfl
    · simp [save3, gathers3, writeFile, h0] at hm; rcases hm with ⟨rfl, -⟩ | ⟨rfl, -⟩ <;> rfl
  · simp [save3, gathers3, writeFile, hr] at hm
    rcases hm with ⟨-, rfl⟩ | ⟨-, rfl⟩ <;> rfl
  · rw [vals_save3, vals_save3]; rfl

theorem map_finRange {α : Type*} (F : ℕ → α) : ((List.finRange n).map fun i => F i.val) = (List.range n).map F := by
  rw [← List.map_coe_finRange_eq_range, List.map_map]; rfl

theorem arrays_getD (prog : Fin n → List (Act n K)) (k j : ℕ) (hj : j < k) :
    (arrays prog k).getD j 0 = fun r => (vals (prog r)).getD j 0 := by
  simp [arrays, List.getD_eq_getElem?_getD, hj]

theorem collection2_pressure (Lv Lp : Fin 2 → Dir) (h : Pos 2 K) (u : NodeVec 2 2 K) (p : NodeVec 2 1 K)
    (coord : ℕ → Fin 2 → ℕ) (k : ℕ) (hk : 6 ≤ k) :
    let g := arrays (n := n) (save2 Lv Lp h u p coord) k
    collection2 Lp (g.getD 0 0) (g.getD 1 0) (g.getD 2 0) (g.getD 3 0) = pvts2 Lp n coord := by
  intro g
  simp only [g, arrays_getD _ k _ (show 0 < k by omega), arrays_getD _ k _ (show 1 < k by omega),
    arrays_getD _ k _ (show 2 < k by omega), arrays_getD _ k _ (show 3 < k by omega), vals_save2]
  unfold collection2 pvts2
  refine congrArg _ ?_
  exact map_finRange fun i => ((⟨![(Lp 0).gxs (coord i 0), (Lp 1).gxs (coord i 1), 0],
    ![(Lp 0).gxs (coord i 0) + (Lp 0).gxm (coord i 0) - 1, (Lp 1).gxs (coord i 1) + (Lp 1).gxm (coord i 1) - 1, 0]⟩ : Extent), i)

theorem collection2_velocity (Lv Lp : Fin 2 → Dir) (h : Pos 2 K) (u : NodeVec 2 2 K) (p : NodeVec 2 1 K)
    (coord : ℕ → Fin 2 → ℕ) (k : ℕ) (hk : 12 ≤ k) :
    let g := arrays (n := n) (save2 Lv Lp h u p coord) k
    collection2 Lv (g.getD 6 0) (g.getD 7 0) (g.getD 8 0) (g.getD 9 0) = pvts2 Lv n coord := by
  intro g
  simp only [g, arrays_getD _ k _ (show 6 < k by omega), arrays_getD _ k _ (show 7 < k by omega),
    arrays_getD _ k _ (show 8 < k by omega), arrays_getD _ k _ (show 9 < k by omega), vals_save2]
  unfold collection2 pvts2
  refine congrArg _ ?_
  exact map_finRange fun i => ((⟨![(Lv 0).gxs (coord i 0), (Lv 1).gxs (coord i 1), 0],
    ![(Lv 0).gxs (coord i 0) + (Lv 0).gxm (coord i 0) - 1, (Lv 1).gxs (coord i 1) + (Lv 1).gxm (coord i 1) - 1, 0]⟩ : Extent), i)

theorem collection3_pressure (Lv Lp : Fin 3 → Dir) (h : Pos 3 K) (u : NodeVec 3 3 K) (p : NodeVec 3 1 K)
    (coord : ℕ → Fin 3 → ℕ) (k : ℕ) (hk : 6 ≤ k) :
    let g := arrays (n := n) (save3 Lv Lp h u p coord) k
    collection3 Lp (g.getD 0 0) (g.getD 1 0) (g.getD 2 0) (g.getD 3 0) (g.getD 4 0) (g.getD 5 0) = pvts3 Lp n coord := by
  intro g
  simp only [g, arrays_getD _ k _ (show 0 < k by omega), arrays_getD _ k _ (show 1 < k by omega),
    arrays_getD _ k _ (show 2 < k by omega), arrays_getD _ k _ (show 3 < k by omega),
    arrays_getD _ k _ (show 4 < k by omega), arrays_getD _ k _ (show 5 < k by omega), vals_save3]
  unfold collection3 pvts3
  refine congrArg _ ?_
  exact map_finRange fun i => ((⟨![(Lp 0).gxs (coord i 0), (Lp 1).gxs (coord i 1), (Lp 2).gxs (coord i 2)],
    ![(Lp 0).gxs (coord i 0) + (Lp 0).gxm (coord i 0) - 1, (Lp 1).gxs (coord i 1) + (Lp 1).gxm (coord i 1) - 1,
      (Lp 2).gxs (coord i 2) + (Lp 2).gxm (coord i 2) - 1]⟩ : Extent), i)

theorem collection3_velocity (Lv Lp : Fin 3 → Dir) (h : Pos 3 K) (u : NodeVec 3 3 K) (p : NodeVec 3 1 K)
    (coord : ℕ → Fin 3 → ℕ) (k : ℕ) (hk : 12 ≤ k) :
    let g := arrays (n := n) (save3 Lv Lp h u p coord) k
    collection3 Lv (g.getD 6 0) (g.getD 7 0) (g.getD 8 0) (g.getD 9 0) (g.getD 10 0) (g.getD 11 0) = pvts3 Lv n coord := by
  intro g
  simp only [g, arrays_getD _ k _ (show 6 < k by omega), arrays_getD _ k _ (show 7 < k by omega),
    arrays_getD _ k _ (show 8 < k by omega), arrays_getD _ k _ (show 9 < k by omega),
    arrays_getD _ k _ (show 10 < k by omega), arrays_getD _ k _ (show 11 < k by omega), vals_save3]
  unfold collection3 pvts3
  refine congrArg _ ?_
  exact map_finRange fun i => ((⟨![(Lv 0).gxs (coord i 0), (Lv 1).gxs (coord i 1), (Lv 2).gxs (coord i 2)],
    ![(Lv 0).gxs (coord i 0) + (Lv 0).gxm (coord i 0) - 1, (Lv 1).gxs (coord i 1) + (Lv 1).gxm (coord i 1) - 1,
      (Lv 2).gxs (coord i 2) + (Lv 2).gxm (coord i 2) - 1]⟩ : Extent), i)

/-! ### The files of the processes -/

section two
variable (Lv Lp : Fin 2 → Dir) (h : Pos 2 K) (u : NodeVec 2 2 K) (p : NodeVec 2 1 K) (coord : ℕ → Fin 2 → ℕ)

/-- The first part of the program, up to the files of the process. -/
def head2 (r : Fin n) : List (Act n K) := gathers2 Lp (coord r) ++
  writeFile (.pressure r) (fun _ => .scalars (pressureFile2 Lp h p (coord r))) ++
  writeFile (.velocity r) (fun _ => .vectors (velocityFile2 Lv h u (coord r)))

variable {Lv Lp h u p coord} {disk : Disk n K} {s : Save n K} {dn : Fin n → List (Act n K)}

theorem files2 (hi : Inv (save2 Lv Lp h u p coord) disk s dn) (r : Fin n) (hd : head2 Lv Lp h u p coord r <+: dn r) :
    s.disk (.pressure r) = some (.complete (.scalars (pressureFile2 Lp h p (coord r)))) ∧
    s.disk (.velocity r) = some (.complete (.vectors (velocityFile2 Lv h u (coord r)))) := by
  constructor
  · refine hi.closed (.pressure r) (gathers2 Lp (coord r) ++ [.openFile (.pressure r)])
      (writeFile (.velocity r) (fun _ => .vectors (velocityFile2 Lv h u (coord r))) ++
        (if r = 0 then writeFile .pressureAll fun g =>
          .collection (collection2 Lp (g.getD 0 0) (g.getD 1 0) (g.getD 2 0) (g.getD 3 0)) else []) ++
        gathers2 Lv (coord r) ++ (if r = 0 then writeFile .velocityAll fun g =>
          .collection (collection2 Lv (g.getD 6 0) (g.getD 7 0) (g.getD 8 0) (g.getD 9 0)) else []))
      (fun _ => .scalars (pressureFile2 Lp h p (coord r))) ?_ ?_ ?_
    · simp [owner, save2, writeFile]
    · exact quiet_append.2 ⟨quiet_append.2 ⟨quiet_append.2 ⟨quiet_write (by simp) _, quiet_ite (by simp) _ _⟩,
        quiet_gathers2 _ _ _⟩, quiet_ite (by simp) _ _⟩
    · refine List.IsPrefix.trans ?_ hd
      exact ⟨writeFile (.velocity r) (fun _ => .vectors (velocityFile2 Lv h u (coord r))), by simp [head2, writeFile]⟩
  · refine hi.closed (.velocity r) (gathers2 Lp (coord r) ++
        writeFile (.pressure r) (fun _ => .scalars (pressureFile2 Lp h p (coord r))) ++ [.openFile (.velocity r)])
      ((if r = 0 then writeFile .pressureAll fun g =>
          .collection (collection2 Lp (g.getD 0 0) (g.getD 1 0) (g.getD 2 0) (g.getD 3 0)) else []) ++
        gathers2 Lv (coord r) ++ (if r = 0 then writeFile .velocityAll fun g =>
          .collection (collection2 Lv (g.getD 6 0) (g.getD 7 0) (g.getD 8 0) (g.getD 9 0)) else []))
      (fun _ => .vectors (velocityFile2 Lv h u (coord r))) ?_ ?_ ?_
    · simp [owner, save2, writeFile]
    · exact quiet_append.2 ⟨quiet_append.2 ⟨quiet_ite (by simp) _ _, quiet_gathers2 _ _ _⟩, quiet_ite (by simp) _ _⟩
    · refine List.IsPrefix.trans ?_ hd
      exact ⟨[], by simp [head2, writeFile]⟩

/-- The collection of the pressure. -/
theorem all2_pressure (hi : Inv (save2 Lv Lp h u p coord) disk s dn) (hd : disk .pressureAll = none) (x : Doc K)
    (hx : s.disk .pressureAll = some (.complete x)) :
    x = .collection (pvts2 Lp n coord) := by
  have := hi.wrote .pressureAll (head2 Lv Lp h u p coord 0) (gathers2 Lv (coord (0 : Fin n)) ++
    writeFile .velocityAll fun g => .collection (collection2 Lv (g.getD 6 0) (g.getD 7 0) (g.getD 8 0) (g.getD 9 0)))
    (fun g => .collection (collection2 Lp (g.getD 0 0) (g.getD 1 0) (g.getD 2 0) (g.getD 3 0)))
    (by simp [owner, save2, head2]) (quiet_append.2 ⟨quiet_append.2 ⟨quiet_gathers2 _ _ _, quiet_write (by simp) _⟩,
      quiet_write (by simp) _⟩) (quiet_append.2 ⟨quiet_gathers2 _ _ _, quiet_write (by simp) _⟩) hd x hx
  rw [this.2]
  exact congrArg Doc.collection (collection2_pressure Lv Lp h u p coord _ (by
    show 6 ≤ (vals (head2 Lv Lp h u p coord 0)).length
    exact le_refl 6))

/-- The collection of the velocity, and what has been done when it is there. -/
theorem all2_velocity (hi : Inv (save2 Lv Lp h u p coord) disk s dn) (hd : disk .velocityAll = none) (x : Doc K)
    (hx : s.disk .velocityAll = some (.complete x)) :
    x = .collection (pvts2 Lv n coord) ∧ (∀ r, head2 Lv Lp h u p coord r <+: dn r) ∧
      s.disk .pressureAll = some (.complete (.collection (pvts2 Lp n coord))) := by
  have hp2 := hi.wrote .velocityAll (head2 Lv Lp h u p coord 0 ++ (writeFile .pressureAll fun g =>
      .collection (collection2 Lp (g.getD 0 0) (g.getD 1 0) (g.getD 2 0) (g.getD 3 0))) ++ gathers2 Lv (coord (0 : Fin n))) []
    (fun g => .collection (collection2 Lv (g.getD 6 0) (g.getD 7 0) (g.getD 8 0) (g.getD 9 0)))
    (by simp [owner, save2, head2]) (quiet_append.2 ⟨quiet_append.2 ⟨quiet_append.2 ⟨quiet_append.2 ⟨quiet_gathers2 _ _ _,
      quiet_write (by simp) _⟩, quiet_write (by simp) _⟩, quiet_write (by simp) _⟩, quiet_gathers2 _ _ _⟩) (quiet_nil _) hd x hx
  have h0 : head2 Lv Lp h u p coord 0 ++ (writeFile .pressureAll fun g =>
      .collection (collection2 Lp (g.getD 0 0) (g.getD 1 0) (g.getD 2 0) (g.getD 3 0))) ++ gathers2 Lv (coord (0 : Fin n))
      <+: dn 0 := hp2.1
  refine ⟨?_, fun r => ?_, ?_⟩
  · rw [hp2.2]
    exact congrArg Doc.collection (collection2_velocity Lv Lp h u p coord _ (by
      show 12 ≤ (vals (head2 Lv Lp h u p coord 0 ++ (writeFile .pressureAll fun g =>
        .collection (collection2 Lp (g.getD 0 0) (g.getD 1 0) (g.getD 2 0) (g.getD 3 0))) ++
        gathers2 Lv (coord (0 : Fin n)))).length
      exact le_refl 12))
  · refine hi.passed r (head2 Lv Lp h u p coord r) ((if r = 0 then writeFile .pressureAll fun g =>
          .collection (collection2 Lp (g.getD 0 0) (g.getD 1 0) (g.getD 2 0) (g.getD 3 0)) else []) ++
        gathers2 Lv (coord r) ++ (if r = 0 then writeFile .velocityAll fun g =>
          .collection (collection2 Lv (g.getD 6 0) (g.getD 7 0) (g.getD 8 0) (g.getD 9 0)) else []))
      (by simp [save2, head2]) ?_
    obtain ⟨c, hc⟩ := h0
    rw [← hc, vals_append, List.length_append]
    show 6 < 12 + _
    omega
  · have := hi.closed .pressureAll (head2 Lv Lp h u p coord 0 ++ [.openFile .pressureAll])
      (gathers2 Lv (coord (0 : Fin n)) ++ writeFile .velocityAll fun g =>
        .collection (collection2 Lv (g.getD 6 0) (g.getD 7 0) (g.getD 8 0) (g.getD 9 0)))
      (fun g => .collection (collection2 Lp (g.getD 0 0) (g.getD 1 0) (g.getD 2 0) (g.getD 3 0)))
      (by simp [owner, save2, head2, writeFile]) (quiet_append.2 ⟨quiet_gathers2 _ _ _, quiet_write (by simp) _⟩) ?_
    · rw [this]
      exact congrArg (fun c => some (File.complete (Doc.collection c))) (collection2_pressure Lv Lp h u p coord _ (by
        show 6 ≤ (vals (head2 Lv Lp h u p coord 0 ++ [.openFile .pressureAll])).length
        exact le_refl 6))
    · refine List.IsPrefix.trans ?_ h0
      exact ⟨gathers2 Lv (coord (0 : Fin n)), by simp [writeFile]⟩

/-- The collections, when they have been closed. -/
theorem closed2 (hi : Inv (save2 Lv Lp h u p coord) disk s dn) (h0 : dn 0 = save2 Lv Lp h u p coord 0) :
    s.disk .pressureAll = some (.complete (.collection (pvts2 Lp n coord))) ∧
    s.disk .velocityAll = some (.complete (.collection (pvts2 Lv n coord))) := by
  constructor
  · have := hi.closed .pressureAll (head2 Lv Lp h u p coord 0 ++ [.openFile .pressureAll])
      (gathers2 Lv (coord (0 : Fin n)) ++ writeFile .velocityAll fun g =>
        .collection (collection2 Lv (g.getD 6 0) (g.getD 7 0) (g.getD 8 0) (g.getD 9 0)))
      (fun g => .collection (collection2 Lp (g.getD 0 0) (g.getD 1 0) (g.getD 2 0) (g.getD 3 0)))
      (by simp [owner, save2, head2, writeFile]) (quiet_append.2 ⟨quiet_gathers2 _ _ _, quiet_write (by simp) _⟩)
      ⟨gathers2 Lv (coord (0 : Fin n)) ++ writeFile .velocityAll fun g =>
        .collection (collection2 Lv (g.getD 6 0) (g.getD 7 0) (g.getD 8 0) (g.getD 9 0)), by
          show _ = dn 0; rw [h0]; simp [save2, head2, writeFile]⟩
    rw [this]
    exact congrArg (fun c => some (File.complete (Doc.collection c))) (collection2_pressure Lv Lp h u p coord _ (by
      show 6 ≤ (vals (head2 Lv Lp h u p coord 0 ++ [.openFile .pressureAll])).length
      exact le_refl 6))
  · have := hi.closed .velocityAll (head2 Lv Lp h u p coord 0 ++ (writeFile .pressureAll fun g =>
      .collection (collection2 Lp (g.getD 0 0) (g.getD 1 0) (g.getD 2 0) (g.getD 3 0))) ++ gathers2 Lv (coord (0 : Fin n)) ++
        [.openFile .velocityAll]) []
      (fun g => .collection (collection2 Lv (g.getD 6 0) (g.getD 7 0) (g.getD 8 0) (g.getD 9 0)))
      (by simp [owner, save2, head2, writeFile]) (quiet_nil _)
      ⟨[], by show _ = dn 0; rw [h0]; simp [save2, head2, writeFile]⟩
    rw [this]
    exact congrArg (fun c => some (File.complete (Doc.collection c))) (collection2_velocity Lv Lp h u p coord _ (by
      show 12 ≤ (vals (head2 Lv Lp h u p coord 0 ++ (writeFile .pressureAll fun g =>
        .collection (collection2 Lp (g.getD 0 0) (g.getD 1 0) (g.getD 2 0) (g.getD 3 0))) ++ gathers2 Lv (coord (0 : Fin n)) ++
        [.openFile .velocityAll])).length
      exact le_refl 12))

end two

section three
variable (Lv Lp : Fin 3 → Dir) (h : Pos 3 K) (u : NodeVec 3 3 K) (p : NodeVec 3 1 K) (coord : ℕ → Fin 3 → ℕ)

/-- The first part of the program: the files of the process. -/
def head3 (r : Fin n) : List (Act n K) :=
  writeFile (.pressure r) (fun _ => .scalars (pressureFile3 Lp h p (coord r))) ++
  writeFile (.velocity r) (fun _ => .vectors (velocityFile3 Lv h u (coord r)))

/-- The rest. -/
def tail3 (r : Fin n) : List (Act n K) :=
  gathers3 Lp (coord r) ++ (if r = 0 then writeFile .pressureAll
    (fun g => .collection (collection3 Lp (g.getD 0 0) (g.getD 1 0) (g.getD 2 0) (g.getD 3 0) (g.getD 4 0) (g.getD 5 0))) else []) ++ gathers3 Lv (coord r) ++
  (if r = 0 then writeFile .velocityAll
    (fun g => .collection (collection3 Lv (g.getD 6 0) (g.getD 7 0) (g.getD 8 0) (g.getD 9 0) (g.getD 10 0) (g.getD 11 0))) else [])

theorem save3_eq (r : Fin n) : save3 Lv Lp h u p coord r = head3 Lv Lp h u p coord r ++ tail3 Lv Lp coord r := by
  simp [save3, head3, tail3]

theorem tail3_zero : tail3 (n := n) (K := K) Lv Lp coord 0 = gathers3 Lp (coord (0 : Fin n)) ++ (writeFile .pressureAll
    (fun g => .collection (collection3 Lp (g.getD 0 0) (g.getD 1 0) (g.getD 2 0) (g.getD 3 0) (g.getD 4 0) (g.getD 5 0))) ++ (gathers3 Lv (coord (0 : Fin n)) ++ writeFile .velocityAll
    (fun g => .collection (collection3 Lv (g.getD 6 0) (g.getD 7 0) (g.getD 8 0) (g.getD 9 0) (g.getD 10 0) (g.getD 11 0))))) := by
  simp [tail3]

variable {Lv Lp h u p coord} {disk : Disk n K} {s : Save n K} {dn : Fin n → List (Act n K)}

theorem quiet_tail3 (r : Fin n) (f : Name n) (h1 : Name.pressureAll ≠ f) (h2 : Name.velocityAll ≠ f) :
    Quiet (K := K) f (tail3 Lv Lp coord r) :=
  quiet_append.2 ⟨quiet_append.2 ⟨quiet_append.2 ⟨quiet_gathers3 _ _ _, quiet_ite h1 _ _⟩, quiet_gathers3 _ _ _⟩,
    quiet_ite h2 _ _⟩

theorem files3 (hi : Inv (save3 Lv Lp h u p coord) disk s dn) (r : Fin n) (hd : head3 Lv Lp h u p coord r <+: dn r) :
    s.disk (.pressure r) = some (.complete (.scalars (pressureFile3 Lp h p (coord r)))) ∧
    s.disk (.velocity r) = some (.complete (.vectors (velocityFile3 Lv h u (coord r)))) := by
  constructor
  · refine hi.closed (.pressure r) [.openFile (.pressure r)]
      (writeFile (.velocity r) (fun _ => .vectors (velocityFile3 Lv h u (coord r))) ++ tail3 Lv Lp coord r)
      (fun _ => .scalars (pressureFile3 Lp h p (coord r)))
      (by show save3 Lv Lp h u p coord r = _; rw [save3_eq]; simp [head3, writeFile])
      (quiet_append.2 ⟨quiet_write (by simp) _, quiet_tail3 r _ (by simp) (by simp)⟩) ?_
    refine List.IsPrefix.trans ?_ hd
    exact ⟨writeFile (.velocity r) (fun _ => .vectors (velocityFile3 Lv h u (coord r))), rfl⟩
  · refine hi.closed (.velocity r) (writeFile (.pressure r) (fun _ => .scalars (pressureFile3 Lp h p (coord r))) ++
        [.openFile (.velocity r)]) (tail3 Lv Lp coord r)
      (fun _ => .vectors (velocityFile3 Lv h u (coord r)))
      (by show save3 Lv Lp h u p coord r = _; rw [save3_eq]; simp [head3, writeFile])
      (quiet_tail3 r _ (by simp) (by simp)) ?_
    exact List.IsPrefix.trans ⟨[], rfl⟩ hd

theorem quiet_head3 (r : Fin n) (f : Name n) (h1 : Name.pressure r ≠ f) (h2 : Name.velocity r ≠ f) :
    Quiet f (head3 Lv Lp h u p coord r) := quiet_append.2 ⟨quiet_write h1 _, quiet_write h2 _⟩

/-- The program of the process 0 around its two collections. -/
theorem save3_pressureAll : save3 (n := n) Lv Lp h u p coord 0 =
    (head3 Lv Lp h u p coord 0 ++ gathers3 Lp (coord (0 : Fin n))) ++ (writeFile .pressureAll
    (fun g => .collection (collection3 Lp (g.getD 0 0) (g.getD 1 0) (g.getD 2 0) (g.getD 3 0) (g.getD 4 0) (g.getD 5 0))) ++ (gathers3 Lv (coord (0 : Fin n)) ++ writeFile .velocityAll
    (fun g => .collection (collection3 Lv (g.getD 6 0) (g.getD 7 0) (g.getD 8 0) (g.getD 9 0) (g.getD 10 0) (g.getD 11 0))))) := by
  rw [save3_eq, tail3_zero, List.append_assoc]

theorem save3_velocityAll : save3 (n := n) Lv Lp h u p coord 0 =
    (head3 Lv Lp h u p coord 0 ++ gathers3 Lp (coord (0 : Fin n)) ++ (writeFile .pressureAll
    (fun g => .collection (collection3 Lp (g.getD 0 0) (g.getD 1 0) (g.getD 2 0) (g.getD 3 0) (g.getD 4 0) (g.getD 5 0))) ++ gathers3 Lv (coord (0 : Fin n)))) ++ (writeFile .velocityAll
    (fun g => .collection (collection3 Lv (g.getD 6 0) (g.getD 7 0) (g.getD 8 0) (g.getD 9 0) (g.getD 10 0) (g.getD 11 0))) ++ []) := by
  rw [save3_pressureAll]; simp

/-- The collection of the pressure, and what has been done when it is there. -/
theorem all3_pressure (hi : Inv (save3 Lv Lp h u p coord) disk s dn) (hd : disk .pressureAll = none) (x : Doc K)
    (hx : s.disk .pressureAll = some (.complete x)) :
    x = .collection (pvts3 Lp n coord) ∧ ∀ r, head3 Lv Lp h u p coord r <+: dn r := by
  have := hi.wrote .pressureAll _ _ _ save3_pressureAll
    (quiet_append.2 ⟨quiet_head3 _ _ (by simp) (by simp), quiet_gathers3 _ _ _⟩)
    (quiet_append.2 ⟨quiet_gathers3 _ _ _, quiet_write (by simp) _⟩) hd x hx
  refine ⟨?_, fun r => ?_⟩
  · rw [this.2]
    exact congrArg Doc.collection (collection3_pressure Lv Lp h u p coord _ (le_refl 6))
  · refine hi.passed r _ _ (save3_eq Lv Lp h u p coord r) ?_
    obtain ⟨c, hc⟩ := this.1
    have hc' : dn 0 = _ := hc.symm
    rw [hc', vals_append, List.length_append]
    show 0 < 6 + _
    omega

/-- The collection of the velocity, and what has been done when it is there. -/
theorem all3_velocity (hi : Inv (save3 Lv Lp h u p coord) disk s dn) (hd : disk .velocityAll = none) (x : Doc K)
    (hx : s.disk .velocityAll = some (.complete x)) :
    x = .collection (pvts3 Lv n coord) ∧ (∀ r, head3 Lv Lp h u p coord r <+: dn r) ∧
      s.disk .pressureAll = some (.complete (.collection (pvts3 Lp n coord))) := by
  have := hi.wrote .velocityAll _ _ _ save3_velocityAll
    (quiet_append.2 ⟨quiet_append.2 ⟨quiet_head3 _ _ (by simp) (by simp), quiet_gathers3 _ _ _⟩,
      quiet_append.2 ⟨quiet_write (by simp) _, quiet_gathers3 _ _ _⟩⟩) (quiet_nil _) hd x hx
  refine ⟨?_, fun r => ?_, ?_⟩
  · rw [this.2]
    exact congrArg Doc.collection (collection3_velocity Lv Lp h u p coord _ (le_refl 12))
  · refine hi.passed r _ _ (save3_eq Lv Lp h u p coord r) ?_
    obtain ⟨c, hc⟩ := this.1
    have hc' : dn 0 = _ := hc.symm
    rw [hc', vals_append, List.length_append]
    show 0 < 12 + _
    omega
  · have hq := hi.closed .pressureAll (head3 Lv Lp h u p coord 0 ++ gathers3 Lp (coord (0 : Fin n)) ++ [.openFile .pressureAll])
      (gathers3 Lv (coord (0 : Fin n)) ++ writeFile .velocityAll
        (fun g => .collection (collection3 Lv (g.getD 6 0) (g.getD 7 0) (g.getD 8 0) (g.getD 9 0) (g.getD 10 0) (g.getD 11 0))))
      (fun g => .collection (collection3 Lp (g.getD 0 0) (g.getD 1 0) (g.getD 2 0) (g.getD 3 0) (g.getD 4 0) (g.getD 5 0)))
      save3_pressureAll (quiet_append.2 ⟨quiet_gathers3 _ _ _, quiet_write (by simp) _⟩)
      (List.IsPrefix.trans ⟨gathers3 Lv (coord (0 : Fin n)), rfl⟩ this.1)
    rw [hq]
    exact congrArg (fun c => some (File.complete (Doc.collection c)))
      (collection3_pressure Lv Lp h u p coord _ (le_refl 6))

/-- The collections, when they have been closed. -/
theorem closed3 (hi : Inv (save3 Lv Lp h u p coord) disk s dn) (h0 : dn 0 = save3 Lv Lp h u p coord 0) :
    s.disk .pressureAll = some (.complete (.collection (pvts3 Lp n coord))) ∧
    s.disk .velocityAll = some (.complete (.collection (pvts3 Lv n coord))) := by
  constructor
  · have hq := hi.closed .pressureAll (head3 Lv Lp h u p coord 0 ++ gathers3 Lp (coord (0 : Fin n)) ++ [.openFile .pressureAll])
      (gathers3 Lv (coord (0 : Fin n)) ++ writeFile .velocityAll
        (fun g => .collection (collection3 Lv (g.getD 6 0) (g.getD 7 0) (g.getD 8 0) (g.getD 9 0) (g.getD 10 0) (g.getD 11 0))))
      (fun g => .collection (collection3 Lp (g.getD 0 0) (g.getD 1 0) (g.getD 2 0) (g.getD 3 0) (g.getD 4 0) (g.getD 5 0)))
      save3_pressureAll (quiet_append.2 ⟨quiet_gathers3 _ _ _, quiet_write (by simp) _⟩)
      ⟨gathers3 Lv (coord (0 : Fin n)) ++ writeFile .velocityAll
        (fun g => .collection (collection3 Lv (g.getD 6 0) (g.getD 7 0) (g.getD 8 0) (g.getD 9 0) (g.getD 10 0) (g.getD 11 0))), by
        show _ = dn 0; rw [h0, save3_pressureAll]; simp [writeFile]⟩
    rw [hq]
    exact congrArg (fun c => some (File.complete (Doc.collection c)))
      (collection3_pressure Lv Lp h u p coord _ (le_refl 6))
  · have hq := hi.closed .velocityAll (head3 Lv Lp h u p coord 0 ++ gathers3 Lp (coord (0 : Fin n)) ++ (writeFile .pressureAll
        (fun g => .collection (collection3 Lp (g.getD 0 0) (g.getD 1 0) (g.getD 2 0) (g.getD 3 0) (g.getD 4 0) (g.getD 5 0))) ++ gathers3 Lv (coord (0 : Fin n))) ++
        [.openFile .velocityAll]) []
      (fun g => .collection (collection3 Lv (g.getD 6 0) (g.getD 7 0) (g.getD 8 0) (g.getD 9 0) (g.getD 10 0) (g.getD 11 0)))
      save3_velocityAll (quiet_nil _)
      ⟨[], by show _ = dn 0; rw [h0, save3_velocityAll]; simp [writeFile]⟩
    rw [hq]
    exact congrArg (fun c => some (File.complete (Doc.collection c)))
      (collection3_velocity Lv Lp h u p coord _ (le_refl 12))

end three

/-! ### The theorems -/

theorem finished_done {prog : Fin n → List (Act n K)} {disk : Disk n K} {s : Save n K} {dn : Fin n → List (Act n K)}
    (hi : Inv prog disk s dn) (hf : s.Finished) (r : Fin n) : dn r = prog r := by
  rw [hi.split r, hf r, List.append_nil]

/-- C119 (2D): whatever the interleaving of the processes and whatever the implementation of `MPI_Gather`, a call of
`save_VTK` ends, after a number of steps that is known in advance; then every process has written its two files, and the
two collections are the ones of C89. -/
theorem C119_end2 (Lv Lp : Fin 2 → Dir) (h : Pos 2 K) (u : NodeVec 2 2 K) (p : NodeVec 2 1 K) (coord : ℕ → Fin 2 → ℕ)
    (disk : Disk n K) (ret : Save n K → Fin n → Prop) (hret : Allowed ret) (m : ℕ) (s : Save n K)
    (hs : SaveRun ret m (Save.start (save2 Lv Lp h u p coord) disk) s) :
    m ≤ ∑ r : Fin n, (save2 Lv Lp h u p coord r).length ∧ (s.Finished ∨ ∃ t, SaveStep ret s t) ∧
    (s.Finished → (∀ r, s.disk (.pressure r) = some (.complete (.scalars (pressureFile2 Lp h p (coord r)))) ∧
        s.disk (.velocity r) = some (.complete (.vectors (velocityFile2 Lv h u (coord r))))) ∧
      s.disk .pressureAll = some (.complete (.collection (pvts2 Lp n coord))) ∧
      s.disk .velocityAll = some (.complete (.collection (pvts2 Lv n coord)))) := by
  obtain ⟨⟨dn, hi⟩, hm⟩ := inv_run (tidy2 Lv Lp h u p coord) hs
  refine ⟨by omega, inv_go (tidy2 Lv Lp h u p coord) hret hi, fun hf => ⟨fun r => files2 hi r ?_, ?_⟩⟩
  · rw [finished_done hi hf r]
    unfold save2 head2
    simp
  · exact closed2 hi (finished_done hi hf 0)

/-- C119 (3D): the same. -/
theorem C119_end3 (Lv Lp : Fin 3 → Dir) (h : Pos 3 K) (u : NodeVec 3 3 K) (p : NodeVec 3 1 K) (coord : ℕ → Fin 3 → ℕ)
    (disk : Disk n K) (ret : Save n K → Fin n → Prop) (hret : Allowed ret) (m : ℕ) (s : Save n K)
    (hs : SaveRun ret m (Save.start (save3 Lv Lp h u p coord) disk) s) :
    m ≤ ∑ r : Fin n, (save3 Lv Lp h u p coord r).length ∧ (s.Finished ∨ ∃ t, SaveStep ret s t) ∧
    (s.Finished → (∀ r, s.disk (.pressure r) = some (.complete (.scalars (pressureFile3 Lp h p (coord r)))) ∧
        s.disk (.velocity r) = some (.complete (.vectors (velocityFile3 Lv h u (coord r))))) ∧
      s.disk .pressureAll = some (.complete (.collection (pvts3 Lp n coord))) ∧
      s.disk .velocityAll = some (.complete (.collection (pvts3 Lv n coord)))) := by
  obtain ⟨⟨dn, hi⟩, hm⟩ := inv_run (tidy3 Lv Lp h u p coord) hs
  refine ⟨by omega, inv_go (tidy3 Lv Lp h u p coord) hret hi, fun hf => ⟨fun r => files3 hi r ?_, ?_⟩⟩
  · rw [finished_done hi hf r, save3_eq]
    exact ⟨_, rfl⟩
  · exact closed3 hi (finished_done hi hf 0)

/-- C119 (a run killed at any moment, 3D): when the collection of a new name is complete on the disk, it is the one of C89
and all the files that it names are complete, with the solution of all the processes. A reader always finds the pieces. -/
theorem C119_crash3 (Lv Lp : Fin 3 → Dir) (h : Pos 3 K) (u : NodeVec 3 3 K) (p : NodeVec 3 1 K) (coord : ℕ → Fin 3 → ℕ)
    (disk : Disk n K) (hp : disk .pressureAll = none) (hv : disk .velocityAll = none)
    (ret : Save n K → Fin n → Prop) (m : ℕ) (s : Save n K)
    (hs : SaveRun ret m (Save.start (save3 Lv Lp h u p coord) disk) s) :
    (∀ x, s.disk .pressureAll = some (.complete x) → x = .collection (pvts3 Lp n coord) ∧
      ∀ r, s.disk (.pressure r) = some (.complete (.scalars (pressureFile3 Lp h p (coord r))))) ∧
    (∀ x, s.disk .velocityAll = some (.complete x) → x = .collection (pvts3 Lv n coord) ∧
      ∀ r, s.disk (.velocity r) = some (.complete (.vectors (velocityFile3 Lv h u (coord r))))) ∧
    s.disk.Readable .pressureAll .pressure ∧ s.disk.Readable .velocityAll .velocity := by
  obtain ⟨⟨dn, hi⟩, -⟩ := inv_run (tidy3 Lv Lp h u p coord) hs
  have k1 : ∀ x, s.disk .pressureAll = some (.complete x) → x = .collection (pvts3 Lp n coord) ∧
      ∀ r, s.disk (.pressure r) = some (.complete (.scalars (pressureFile3 Lp h p (coord r)))) := fun x hx => by
    have := all3_pressure hi hp x hx
    exact ⟨this.1, fun r => (files3 hi r (this.2 r)).1⟩
  have k2 : ∀ x, s.disk .velocityAll = some (.complete x) → x = .collection (pvts3 Lv n coord) ∧
      ∀ r, s.disk (.velocity r) = some (.complete (.vectors (velocityFile3 Lv h u (coord r)))) := fun x hx => by
    have := all3_velocity hi hv x hx
    exact ⟨this.1, fun r => (files3 hi r (this.2.1 r)).2⟩
  refine ⟨k1, k2, fun c hc q hq => ?_, fun c hc q hq => ?_⟩
  · obtain ⟨e, hr⟩ := k1 _ hc
    obtain rfl : c = pvts3 Lp n coord := by injection e
    obtain ⟨i, hi', rfl⟩ := List.mem_map.1 hq
    exact ⟨⟨i, List.mem_range.1 hi'⟩, rfl, _, hr _, rfl⟩
  · obtain ⟨e, hr⟩ := k2 _ hc
    obtain rfl : c = pvts3 Lv n coord := by injection e
    obtain ⟨i, hi', rfl⟩ := List.mem_map.1 hq
    exact ⟨⟨i, List.mem_range.1 hi'⟩, rfl, _, hr _, rfl⟩

/-- C119 (a run killed at any moment, 2D): when the collection of the velocity of a new name is complete, all the files of
the call are complete, pressure and velocity. The collection of the pressure, when it is complete, is the one of C89. -/
theorem C119_crash2 (Lv Lp : Fin 2 → Dir) (h : Pos 2 K) (u : NodeVec 2 2 K) (p : NodeVec 2 1 K) (coord : ℕ → Fin 2 → ℕ)
    (disk : Disk n K) (hp : disk .pressureAll = none) (hv : disk .velocityAll = none)
    (ret : Save n K → Fin n → Prop) (m : ℕ) (s : Save n K)
    (hs : SaveRun ret m (Save.start (save2 Lv Lp h u p coord) disk) s) :
    (∀ x, s.disk .pressureAll = some (.complete x) → x = .collection (pvts2 Lp n coord)) ∧
    (∀ x, s.disk .velocityAll = some (.complete x) → x = .collection (pvts2 Lv n coord) ∧
      (∀ r, s.disk (.velocity r) = some (.complete (.vectors (velocityFile2 Lv h u (coord r)))) ∧
        s.disk (.pressure r) = some (.complete (.scalars (pressureFile2 Lp h p (coord r))))) ∧
      s.disk .pressureAll = some (.complete (.collection (pvts2 Lp n coord)))) ∧
    s.disk.Readable .velocityAll .velocity := by
  obtain ⟨⟨dn, hi⟩, -⟩ := inv_run (tidy2 Lv Lp h u p coord) hs
  refine ⟨fun x hx => all2_pressure hi hp x hx, fun x hx => ?_, fun c hc q hq => ?_⟩
  · have := all2_velocity hi hv x hx
    exact ⟨this.1, fun r => ⟨(files2 hi r (this.2.1 r)).2, (files2 hi r (this.2.1 r)).1⟩, this.2.2⟩
  · have := all2_velocity hi hv _ hc
    obtain rfl : c = pvts2 Lv n coord := by injection this.1
    obtain ⟨i, hi', rfl⟩ := List.mem_map.1 hq
    exact ⟨⟨i, List.mem_range.1 hi'⟩, rfl, _, (files2 hi _ (this.2.1 _)).2, rfl⟩

/-! ### The hole of the 2D version -/

theorem SaveRun.trans {ret : Save n K → Fin n → Prop} {a b : ℕ} {s t u : Save n K} (h1 : SaveRun ret a s t)
    (h2 : SaveRun ret b t u) : SaveRun ret (a + b) s u := by
  induction h2 with
  | zero => exact h1
  | succ m _ t u _ hs ih => exact .succ _ _ _ _ (ih h1) hs

/-- The processes of `T` give their value while the process 0 waits. -/
theorem send_all {ret : Save n K → Fin n → Prop} (hret : Allowed ret) (s : Save n K) (v : Fin n → ℤ)
    (l : Fin n → List (Act n K)) (hs : ∀ r, s.todo r = .gather (v r) :: l r) (hl : ∀ r, (s.sent r).length = s.got.length)
    (T : Finset (Fin n)) (hT : (0 : Fin n) ∉ T) :
    ∃ m t, SaveRun ret m s t ∧ (∀ r, t.todo r = if r ∈ T then l r else s.todo r) ∧
      (∀ r, (t.sent r).length = s.got.length + if r ∈ T then 1 else 0) ∧ t.got = s.got ∧ t.disk = s.disk := by
  induction T using Finset.induction_on with
  | empty => exact ⟨0, s, .zero s, by simp, by simpa using hl, rfl, rfl⟩
  | insert r T hr ih =>
    have h0 : (0 : Fin n) ∉ T := fun h => hT (Finset.mem_insert_of_mem h)
    have hr0 : r ≠ 0 := fun h => hT (h ▸ Finset.mem_insert_self ..)
    obtain ⟨m, t, h1, h2, h3, h4, h5⟩ := ih h0
    have hz : t.todo 0 = .gather (v 0) :: l 0 := by rw [h2, if_neg h0, hs]
    have hrt : t.todo r = .gather (v r) :: l r := by rw [h2, if_neg hr, hs]
    refine ⟨_, _, .succ _ _ _ _ h1 (.send t r (v r) (l r) hr0 hrt (hret t r ⟨_, _, hz⟩ (by rw [h3, if_neg hr, h4]; rfl))),
      fun q => ?_, fun q => ?_, h4, h5⟩
    · show Function.update t.todo r (l r) q = _
      by_cases hq : q = r
      · subst hq; rw [Function.update_self, if_pos (Finset.mem_insert_self ..)]
      · rw [Function.update_of_ne hq, h2]; simp [Finset.mem_insert, hq]
    · show (Function.update t.sent r (t.sent r ++ [v r]) q).length = _
      by_cases hq : q = r
      · subst hq
        rw [Function.update_self, if_pos (Finset.mem_insert_self ..), List.length_append, h3, if_neg hr]; rfl
      · rw [Function.update_of_ne hq, h3]; simp [Finset.mem_insert, hq]

/-- One call of `MPI_Gather` by all the processes. -/
theorem gather_all {ret : Save n K → Fin n → Prop} (hret : Allowed ret) (s : Save n K) (v : Fin n → ℤ)
    (l : Fin n → List (Act n K)) (hs : ∀ r, s.todo r = .gather (v r) :: l r) (hl : ∀ r, (s.sent r).length = s.got.length) :
    ∃ m t, SaveRun ret m s t ∧ t.todo = l ∧ (∀ r, (t.sent r).length = t.got.length) ∧ t.disk = s.disk := by
  obtain ⟨m, t, h1, h2, h3, h4, h5⟩ := send_all hret s v l hs hl (Finset.univ.erase 0) (by simp)
  refine ⟨_, _, .succ _ _ _ _ h1 (.recv t (v 0) (l 0) (by rw [h2]; simp [hs]) fun r hr => ?_), ?_, fun r => ?_, h5⟩
  · rw [h3, h4]; simp [hr]
  · funext q
    show Function.update t.todo 0 (l 0) q = _
    by_cases hq : q = 0
    · subst hq; rw [Function.update_self]
    · rw [Function.update_of_ne hq, h2]; simp [hq]
  · show (Function.update t.sent 0 (t.sent 0 ++ [v 0]) r).length = (t.got ++ [_]).length
    rw [List.length_append, h4]
    by_cases hq : r = 0
    · subst hq; rw [Function.update_self, List.length_append, h3]; simp
    · rw [Function.update_of_ne hq, h3]; simp [hq]

/-- Several calls of `MPI_Gather` by all the processes. -/
theorem gather_list {ret : Save n K → Fin n → Prop} (hret : Allowed ret) (l : Fin n → List (Act n K)) (k : ℕ) :
    ∀ (v : Fin n → List ℤ) (s : Save n K), (∀ r, (v r).length = k) → (∀ r, s.todo r = (v r).map .gather ++ l r) →
    (∀ r, (s.sent r).length = s.got.length) → ∃ m t, SaveRun ret m s t ∧ t.todo = l ∧ t.disk = s.disk := by
  induction k with
  | zero =>
    intro v s hk hs _
    refine ⟨0, s, .zero s, funext fun r => ?_, rfl⟩
    rw [hs r, List.length_eq_zero_iff.1 (hk r)]; rfl
  | succ k ih =>
    intro v s hk hs hl
    have hv : ∀ r, v r = (v r).headD 0 :: (v r).tail := fun r => by
      match h : v r with
      | [] => have := hk r; rw [h] at this; simp at this
      | a :: w => rfl
    obtain ⟨m, t, h1, h2, h3, h4⟩ := gather_all hret s (fun r => (v r).headD 0)
      (fun r => (v r).tail.map .gather ++ l r) (fun r => by rw [hs r, hv r]; rfl) hl
    obtain ⟨m', t', k1, k2, k3⟩ := ih (fun r => (v r).tail) t (fun r => by rw [List.length_tail, hk r]; rfl)
      (fun r => by rw [h2]) h3
    exact ⟨_, t', SaveRun.trans h1 k1, k2, k3.trans h4⟩

/-- A process writes a file. -/
theorem run_write {ret : Save n K → Fin n → Prop} (s : Save n K) (r : Fin n) (f : Name n) (d : List (Fin n → ℤ) → Doc K)
    (l : List (Act n K)) (h : s.todo r = writeFile f d ++ l) :
    ∃ m t, SaveRun ret m s t ∧ t.todo = Function.update s.todo r l ∧
      t.disk = Function.update s.disk f (some (.complete (d s.got))) := by
  refine ⟨_, _, .succ _ _ _ _ (.succ _ _ _ _ (.zero s) (.openFile s r f _ h)) (.closeFile _ r f d l ?_), ?_, ?_⟩
  · exact Function.update_self ..
  · exact Function.update_idem ..
  · exact Function.update_idem ..

/-- C119 (the hole of the 2D version): with at least two processes, under every implementation of `MPI_Gather`, a run can be
killed at a moment when the collection of the pressure is complete and no other process has written anything: a reader does
not find the pieces. In 3D (`C119_crash3`) this cannot happen. -/
theorem C119_hole2 (Lv Lp : Fin 2 → Dir) (h : Pos 2 K) (u : NodeVec 2 2 K) (p : NodeVec 2 1 K) (coord : ℕ → Fin 2 → ℕ)
    (hn : 1 < n) (ret : Save n K → Fin n → Prop) (hret : Allowed ret) :
    ∃ m s, SaveRun ret m (Save.start (save2 Lv Lp h u p coord) fun _ => none) s ∧
      s.disk .pressureAll = some (.complete (.collection (pvts2 Lp n coord))) ∧
      (∀ r, r ≠ 0 → s.disk (.pressure r) = none) ∧ ¬ s.disk.Readable .pressureAll .pressure := by
  obtain ⟨m, t, h1, h2, h3⟩ := gather_list hret (fun r =>
      writeFile (.pressure r) (fun _ => .scalars (pressureFile2 Lp h p (coord r))) ++
      (writeFile (.velocity r) (fun _ => .vectors (velocityFile2 Lv h u (coord r))) ++
      ((if r = 0 then writeFile .pressureAll fun g =>
        .collection (collection2 Lp (g.getD 0 0) (g.getD 1 0) (g.getD 2 0) (g.getD 3 0)) else []) ++
      (gathers2 Lv (coord r) ++
      (if r = 0 then writeFile .velocityAll fun g =>
        .collection (collection2 Lv (g.getD 6 0) (g.getD 7 0) (g.getD 8 0) (g.getD 9 0)) else []))))) 6
    (fun r => [(Lp 0).gxs (coord r 0), (Lp 0).gxm (coord r 0), (Lp 1).gxs (coord r 1), (Lp 1).gxm (coord r 1), 0, 1])
    (Save.start (save2 Lv Lp h u p coord) fun _ => none) (fun r => rfl)
    (fun r => by
      show save2 Lv Lp h u p coord r = _
      simp [save2, gathers2]) (fun r => rfl)
  obtain ⟨m1, t1, a1, a2, a3⟩ := run_write (ret := ret) t 0 (.pressure 0)
    (fun _ => .scalars (pressureFile2 Lp h p (coord (0 : Fin n)))) _ (congrFun h2 0)
  obtain ⟨m2, t2, b1, b2, b3⟩ := run_write (ret := ret) t1 0 (.velocity 0)
    (fun _ => .vectors (velocityFile2 Lv h u (coord (0 : Fin n)))) _ ((congrFun a2 0).trans (Function.update_self ..))
  obtain ⟨m3, t3, c1, c2, c3⟩ := run_write (ret := ret) t2 0 .pressureAll (fun g =>
        .collection (collection2 Lp (g.getD 0 0) (g.getD 1 0) (g.getD 2 0) (g.getD 3 0)))
      (gathers2 Lv (coord (0 : Fin n)) ++ (if (0 : Fin n) = 0 then writeFile .velocityAll fun g =>
        .collection (collection2 Lv (g.getD 6 0) (g.getD 7 0) (g.getD 8 0) (g.getD 9 0)) else []))
    (((congrFun b2 0).trans (Function.update_self ..)).trans (by rw [if_pos rfl]))
  have hrun := SaveRun.trans (SaveRun.trans (SaveRun.trans h1 a1) b1) c1
  obtain ⟨⟨dn, hi⟩, -⟩ := inv_run (tidy2 Lv Lp h u p coord) hrun
  have hall : t3.disk .pressureAll = some (.complete (.collection (pvts2 Lp n coord))) := by
    have hx := (congrFun c3 .pressureAll).trans (Function.update_self ..)
    rw [hx, all2_pressure hi rfl _ hx]
  have hnone : ∀ r, r ≠ 0 → t3.disk (.pressure r) = none := fun r hr => by
    rw [c3, Function.update_of_ne (by simp), b3, Function.update_of_ne (by simp), a3,
      Function.update_of_ne (by simp [hr]), h3]
    rfl
  refine ⟨_, t3, hrun, hall, hnone, fun hc => ?_⟩
  obtain ⟨i, hi', d, hd, -⟩ := hc _ hall (_, 1) (List.mem_map.2 ⟨1, List.mem_range.2 hn, rfl⟩)
  have : i ≠ 0 := fun e => by rw [e] at hi'; simp at hi'
  rw [hnone i this] at hd
  simp at hd

/-- C119 (over older files): `disk .pressureAll = none` cannot be dropped from `C119_crash3`. When a call writes over the
files of an older complete call, there is a moment when the collection of the older one is there and a piece is cut. -/
theorem C119_over3 (Lv Lp : Fin 3 → Dir) (h : Pos 3 K) (u : NodeVec 3 3 K) (p : NodeVec 3 1 K) (coord : ℕ → Fin 3 → ℕ)
    (disk : Disk n K) (hd : disk .pressureAll = some (.complete (.collection (pvts3 Lp n coord))))
    (ret : Save n K → Fin n → Prop) :
    ∃ m s, SaveRun ret m (Save.start (save3 Lv Lp h u p coord) disk) s ∧
      s.disk .pressureAll = some (.complete (.collection (pvts3 Lp n coord))) ∧
      s.disk (.pressure 0) = some .opened ∧ ¬ s.disk.Readable .pressureAll .pressure := by
  have h0 : (Save.start (save3 Lv Lp h u p coord) disk).todo 0 = .openFile (.pressure 0) ::
      (save3 Lv Lp h u p coord (0 : Fin n)).tail := rfl
  have ha : Function.update disk (.pressure 0) (some .opened) .pressureAll =
      some (.complete (.collection (pvts3 Lp n coord))) := by rw [Function.update_of_ne (by simp), hd]
  have hb : Function.update disk (.pressure (0 : Fin n)) (some .opened) (.pressure 0) = some (.opened : File K) :=
    Function.update_self ..
  refine ⟨1, _, .succ _ _ _ _ (.zero _) (.openFile _ 0 (.pressure 0) _ h0), ha, hb, fun hc => ?_⟩
  obtain ⟨i, hi, d, hd', -⟩ := hc _ ha (_, 0) (List.mem_map.2 ⟨0, List.mem_range.2 (NeZero.pos n), rfl⟩)
  have e : i = 0 := Fin.ext hi
  rw [e] at hd'
  have := hb.symm.trans hd'
  simp at this

/-- The two extreme implementations are allowed: a process never waits, or it waits for the process 0. -/
theorem C119_allowed : Allowed (n := n) (K := K) (fun _ _ => True) ∧
    Allowed (n := n) (K := K) fun s r => (∃ v l, s.todo 0 = .gather v :: l) ∧ (s.sent r).length = s.got.length :=
  ⟨fun _ _ _ _ => trivial, fun _ _ h h' => ⟨h, h'⟩⟩

end Cafes.Props
