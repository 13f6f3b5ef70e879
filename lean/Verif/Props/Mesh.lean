/-
Property theorems for the mesh layout: C02, C03, C04, C05, C09.
-/
import Verif.Lemmas.MeshSum

namespace Cafes.Props
open Cafes

/-- A concrete layout used in the non-vacuity examples: 6 points on 3 processes, non periodic. -/
def exDir : Dir := ⟨6, false, [2, 3, 1]⟩
/-- A concrete periodic layout. -/
def exDirP : Dir := ⟨5, true, [2, 3]⟩

theorem exDir_wf : exDir.WF := ⟨by decide, by decide⟩
theorem exDirP_wf : exDirP.WF := ⟨by decide, by decide⟩

/-! ### C02: the element boxes of the processes partition the mesh -/

/-- C02: every element of the mesh is in the element box of exactly one process, and every point of
an element box is an element of the mesh. -/
theorem C02_elements_partition {d : ℕ} (L : Fin d → Dir) (hL : ∀ i, (L i).WF) :
    (∀ e ∈ (globalElems L).halfOpen, ∃! r, r ∈ procs L ∧ e ∈ (getDMBounds L r true).halfOpen) ∧
    (∀ r ∈ procs L, (getDMBounds L r true).halfOpen ⊆ (globalElems L).halfOpen) := by
  constructor
  · intro e he
    obtain ⟨r, ⟨hr, hb⟩, hu⟩ := owner_unique L hL e (globalElems_sub L e he)
    refine ⟨r, ⟨hr, (mem_elemBox L hL r hr e).2 fun i => ⟨hb i, (he i).2⟩⟩, ?_⟩
    rintro s ⟨hs, hs'⟩
    exact hu s ⟨hs, fun i => ((mem_elemBox L hL s hs e).1 hs' i).1⟩
  · intro r hr e he i
    have h := (mem_elemBox L hL r hr e).1 he i
    exact ⟨(Dir.xs_nonneg (hL i) _).trans h.1.1, h.2⟩

/-- C02 (nodes): without the removal of the final points, the boxes partition the nodes. -/
theorem C02_nodes_partition {d : ℕ} (L : Fin d → Dir) (hL : ∀ i, (L i).WF) :
    (∀ e ∈ (globalNodes L).halfOpen, ∃! r, r ∈ procs L ∧ e ∈ (getDMBounds L r false).halfOpen) ∧
    (∀ r ∈ procs L, (getDMBounds L r false).halfOpen ⊆ (globalNodes L).halfOpen) := by
  constructor
  · intro e he
    simp only [mem_ownBox]
    exact owner_unique L hL e he
  · intro r hr e he i
    rw [mem_ownBox] at he
    rw [mem_procs] at hr
    exact ⟨(Dir.xs_nonneg (hL i) _).trans (he i).1,
      lt_of_lt_of_le (he i).2 (Dir.xe_le (hL i) (hr i))⟩

/-- C02 (loops): looping over the element boxes of all the processes does the same additions as
looping over all the elements of the mesh, whatever is summed. -/
theorem C02_loop_sum {d : ℕ} {M : Type*} [AddCommMonoid M] (L : Fin d → Dir)
    (hL : ∀ i, (L i).WF) (f : Pos d ℤ → M) :
    ∑ r ∈ procs L, ((getDMBounds L r true).visited.map f).sum
      = ((globalElems L).visited.map f).sum :=
  sum_procs_visited _ _ _ (C02_elements_partition L hL).1 (C02_elements_partition L hL).2 f

example : ∀ i : Fin 2, ((![exDir, exDirP] : Fin 2 → Dir) i).WF := by
  intro i; fin_cases i
  · exact exDir_wf
  · exact exDirP_wf
example : (globalElems ![exDir, exDirP]).halfOpen ![4, 4] := by
  intro i; fin_cases i <;> simp [globalElems, Dir.nElem, exDir, exDirP]

/-! ### C03: nested velocity and pressure grids -/

/-- C03: for the ownership ranges `lx` chosen by PETSc for the pressure, the ranges passed for the
velocity are positive and sum to the velocity grid size, and each process starts its velocity block
at twice its pressure start. The velocity elements of a process are exactly the two halves of its
pressure elements. -/
theorem C03_nested (n : ℤ) (period : Bool) (lx : List ℤ) (hne : lx ≠ [])
    (h : (presDir n period lx).WF) :
    (velDir n period lx).WF ∧ (velDir n period lx).l.length = lx.length ∧
    (∀ r < lx.length, (velDir n period lx).xs r = 2 * (presDir n period lx).xs r) ∧
    (velDir n period lx).nElem = 2 * (presDir n period lx).nElem := by
  refine ⟨velDir_wf hne h, setLxu_length _ _, fun r hr => setLxu_take _ _ r hr, ?_⟩
  cases period <;> simp [velDir, presDir, Dir.nElem, meshVel, meshPres] <;> ring

/-- C03 (elements, any dimension): the velocity element `e` belongs to the process that owns the
pressure element `e / 2` it refines. -/
theorem C03_elements_nested {d : ℕ} (n : Fin d → ℤ) (period : Fin d → Bool) (lx : Fin d → List ℤ)
    (hne : ∀ i, lx i ≠ []) (h : ∀ i, (presDir (n i) (period i) (lx i)).WF)
    (r : Fin d → ℕ) (hr : ∀ i, r i < (lx i).length) (e : Pos d ℤ) :
    e ∈ (getDMBounds (fun i => velDir (n i) (period i) (lx i)) r true).halfOpen ↔
    (fun i => e i / 2) ∈
      (getDMBounds (fun i => presDir (n i) (period i) (lx i)) r true).halfOpen := by
  rw [mem_elemBox _ (fun i => velDir_wf (hne i) (h i)) _
      ((mem_procs _ _).2 fun i => by simpa [velDir, setLxu_length] using hr i),
    mem_elemBox _ h _ ((mem_procs _ _).2 fun i => by simpa [presDir] using hr i)]
  refine forall_congr' fun i => ?_
  have h1 := (C03_nested (n i) (period i) (lx i) (hne i) (h i)).2.2.1 (r i) (hr i)
  have h2 := (C03_nested (n i) (period i) (lx i) (hne i) (h i)).2.2.2
  have h3 := setLxu_getElem (period i) (lx i) (r i) (hr i)
  have h4 := Dir.xe_le (h i) (r := r i) (by simpa [presDir] using hr i)
  have h5 : (velDir (n i) (period i) (lx i)).xm (r i)
      = 2 * (presDir (n i) (period i) (lx i)).xm (r i)
        - (if !(period i) && decide (r i = (lx i).length - 1) then 1 else 0) := h3
  have h6 : (presDir (n i) (period i) (lx i)).nElem =
      if period i then (presDir (n i) (period i) (lx i)).m
      else (presDir (n i) (period i) (lx i)).m - 1 := rfl
  have h7 : r i = (lx i).length - 1 →
      (presDir (n i) (period i) (lx i)).xs (r i) + (presDir (n i) (period i) (lx i)).xm (r i)
        = (presDir (n i) (period i) (lx i)).m := by
    intro hl
    rw [← Dir.xs_succ _ _ (by simpa [presDir] using hr i), ← Dir.xs_length _ (h i), hl]
    congr 1
    have := hr i
    show (lx i).length - 1 + 1 = (lx i).length
    omega
  generalize (velDir (n i) (period i) (lx i)).xm (r i) = vm at *
  generalize (velDir (n i) (period i) (lx i)).xs (r i) = vs at *
  generalize (velDir (n i) (period i) (lx i)).nElem = ve at *
  generalize (presDir (n i) (period i) (lx i)).xm (r i) = pm at *
  generalize (presDir (n i) (period i) (lx i)).xs (r i) = ps at *
  generalize (presDir (n i) (period i) (lx i)).nElem = pe at *
  generalize (presDir (n i) (period i) (lx i)).m = M at *
  cases hb : period i
  · by_cases hl : r i = (lx i).length - 1
    · have := h7 hl
      simp [hl, hb] at h5 h6
      omega
    · simp [hl, hb] at h5 h6
      omega
  · simp [hb] at h5 h6
    omega

example : (presDir 6 false [2, 3, 1]).WF ∧ (presDir 6 true [2, 3]).WF :=
  ⟨⟨by decide, by decide⟩, ⟨by decide, by decide⟩⟩
example : setLxu false [2, 3, 1] = [4, 6, 1] ∧ meshVel 6 false = 11 := by decide

/-! ### C04: element kernels stay inside the ghosted patch -/

/-- One direction: an owned element `i` and its end `i + 1` are in the ghosted window. -/
theorem C04_q1_window {d : ℕ} (L : Fin d → Dir) (hL : ∀ i, (L i).WF) (r : Fin d → ℕ)
    (hr : r ∈ procs L) (e : Pos d ℤ) (he : e ∈ (getDMBounds L r true).halfOpen)
    (n : Pos d ℤ) (hn : ∀ i, n i = e i ∨ n i = e i + 1) : n ∈ (ghostWindow L r).halfOpen := by
  intro i
  have h1 := (mem_elemBox L hL r hr e).1 he i
  have h2 := Dir.xs_nonneg (hL i) (r i)
  have h3 := hn i
  rw [mem_procs] at hr
  have h4 := Dir.xe_le (hL i) (hr i)
  simp only [ghostWindow, Dir.gxs, Dir.gxe]
  unfold Dir.nElem at h1
  cases hp : (L i).periodic <;> simp only [hp, if_true, Bool.false_eq_true, if_false] at h1 ⊢ <;>
    omega

/-- C04 (Q1 kernels): the corners listed by `get_element` for an owned element of any layout are in
the ghosted window of the process (2D). -/
theorem C04_element2_in_window (L : Fin 2 → Dir) (hL : ∀ i, (L i).WF) (r : Fin 2 → ℕ)
    (hr : r ∈ procs L) (e : Pos 2 ℤ) (he : e ∈ (getDMBounds L r true).halfOpen) (k : Fin 4) :
    getElement2 e k ∈ (ghostWindow L r).halfOpen := by
  apply C04_q1_window L hL r hr e he
  exact getElement2_mem e k

/-- C04 (Q1 kernels), 3D. -/
theorem C04_element3_in_window (L : Fin 3 → Dir) (hL : ∀ i, (L i).WF) (r : Fin 3 → ℕ)
    (hr : r ∈ procs L) (e : Pos 3 ℤ) (he : e ∈ (getDMBounds L r true).halfOpen) (k : Fin 8) :
    getElement3 e k ∈ (ghostWindow L r).halfOpen := by
  apply C04_q1_window L hL r hr e he
  exact getElement3_mem e k

/-- Generic form of C04 for the 4Q1 nodes: for an owned pressure element `e`, every velocity node
between `2e` and `2e+2` is in the velocity window of the same process. -/
theorem C04_4q1_window {d : ℕ} (n : Fin d → ℤ) (period : Fin d → Bool) (lx : Fin d → List ℤ)
    (hne : ∀ i, lx i ≠ []) (h : ∀ i, (presDir (n i) (period i) (lx i)).WF)
    (r : Fin d → ℕ) (hr : ∀ i, r i < (lx i).length) (e : Pos d ℤ)
    (he : e ∈ (getDMBounds (fun i => presDir (n i) (period i) (lx i)) r true).halfOpen)
    (v : Pos d ℤ) (hv : ∀ i, 2 * e i ≤ v i ∧ v i ≤ 2 * e i + 2) :
    v ∈ (ghostWindow (fun i => velDir (n i) (period i) (lx i)) r).halfOpen := by
  intro i
  have h1 := (C03_nested (n i) (period i) (lx i) (hne i) (h i)).2.2.1 (r i) (hr i)
  have hm : (velDir (n i) (period i) (lx i)).m
      = 2 * (presDir (n i) (period i) (lx i)).m - (if period i then 0 else 1) := by
    cases period i <;> simp [velDir, presDir, meshVel, meshPres] <;> ring
  have h5 : (velDir (n i) (period i) (lx i)).xm (r i)
      = 2 * (presDir (n i) (period i) (lx i)).xm (r i)
        - (if !(period i) && decide (r i = (lx i).length - 1) then 1 else 0) :=
    setLxu_getElem (period i) (lx i) (r i) (hr i)
  have h7 : r i = (lx i).length - 1 →
      (presDir (n i) (period i) (lx i)).xs (r i) + (presDir (n i) (period i) (lx i)).xm (r i)
        = (presDir (n i) (period i) (lx i)).m := by
    intro hl
    rw [← Dir.xs_succ _ _ (by simpa [presDir] using hr i), ← Dir.xs_length _ (h i), hl]
    congr 1
    have := hr i
    show (lx i).length - 1 + 1 = (lx i).length
    omega
  have h8 := (mem_elemBox _ h _ ((mem_procs _ _).2 fun i => by simpa [presDir] using hr i) e).1 he i
  have h9 : (presDir (n i) (period i) (lx i)).nElem =
      if period i then (presDir (n i) (period i) (lx i)).m
      else (presDir (n i) (period i) (lx i)).m - 1 := rfl
  have h10 := Dir.xs_nonneg (h i) (r i)
  have h11 := hv i
  have hper : (velDir (n i) (period i) (lx i)).periodic = period i := rfl
  simp only [ghostWindow, Dir.gxs, Dir.gxe, hper]
  generalize (velDir (n i) (period i) (lx i)).xm (r i) = vm at *
  generalize (velDir (n i) (period i) (lx i)).xs (r i) = vs at *
  generalize (velDir (n i) (period i) (lx i)).m = vM at *
  generalize (presDir (n i) (period i) (lx i)).xm (r i) = pm at *
  generalize (presDir (n i) (period i) (lx i)).xs (r i) = ps at *
  generalize (presDir (n i) (period i) (lx i)).nElem = pe at *
  generalize (presDir (n i) (period i) (lx i)).m = M at *
  cases hb : period i
  · by_cases hl : r i = (lx i).length - 1
    · have := h7 hl
      simp [hl, hb] at h5 h9 hm ⊢
      omega
    · simp [hl, hb] at h5 h9 hm ⊢
      omega
  · simp [hb] at h5 h9 hm ⊢
    omega

/-- C04 (4Q1 kernels, 2D): the nine velocity nodes of an owned pressure element are in the velocity
window of the process, for every layout made by `createMesh`. -/
theorem C04_4q1_2d (n : Fin 2 → ℤ) (period : Fin 2 → Bool) (lx : Fin 2 → List ℤ)
    (hne : ∀ i, lx i ≠ []) (h : ∀ i, (presDir (n i) (period i) (lx i)).WF)
    (r : Fin 2 → ℕ) (hr : ∀ i, r i < (lx i).length) (e : Pos 2 ℤ)
    (he : e ∈ (getDMBounds (fun i => presDir (n i) (period i) (lx i)) r true).halfOpen)
    (k : Fin 9) :
    getElement4Q1_2 e k ∈ (ghostWindow (fun i => velDir (n i) (period i) (lx i)) r).halfOpen := by
  apply C04_4q1_window n period lx hne h r hr e he
  intro i
  rw [getElement4Q1_2_eq]
  fin_cases i <;> simp <;> omega

/-- C04 (4Q1 kernels, 3D). -/
theorem C04_4q1_3d (n : Fin 3 → ℤ) (period : Fin 3 → Bool) (lx : Fin 3 → List ℤ)
    (hne : ∀ i, lx i ≠ []) (h : ∀ i, (presDir (n i) (period i) (lx i)).WF)
    (r : Fin 3 → ℕ) (hr : ∀ i, r i < (lx i).length) (e : Pos 3 ℤ)
    (he : e ∈ (getDMBounds (fun i => presDir (n i) (period i) (lx i)) r true).halfOpen)
    (k : Fin 27) :
    getElement4Q1_3 e k ∈ (ghostWindow (fun i => velDir (n i) (period i) (lx i)) r).halfOpen := by
  apply C04_4q1_window n period lx hne h r hr e he
  intro i
  rw [getElement4Q1_3_eq]
  fin_cases i <;> simp <;> omega

/-- Rank of the pair (quotient, remainder) in a rectangular array. -/
theorem flat_lt {a b A B : ℤ} (ha : 0 ≤ a) (haA : a < A) (hb : 0 ≤ b) (hbB : b < B) :
    0 ≤ a * B + b ∧ a * B + b < A * B := by
  have h1 : 0 ≤ a * B := mul_nonneg ha (by omega)
  have h2 : (a + 1) * B ≤ A * B := mul_le_mul_of_nonneg_right (by omega) (by omega)
  constructor
  · omega
  · linarith [h2, add_mul a 1 B, one_mul B]

/-- A flattened pair determines the pair. -/
theorem flat_inj {a b a' b' B : ℤ} (hb : 0 ≤ b) (hbB : b < B) (hb' : 0 ≤ b') (hbB' : b' < B)
    (h : a * B + b = a' * B + b') : a = a' ∧ b = b' := by
  have h1 : (a * B + b) / B = a := by
    rw [add_comm, Int.add_mul_ediv_right _ _ (by omega), Int.ediv_eq_zero_of_lt hb hbB, zero_add]
  have h2 : (a' * B + b') / B = a' := by
    rw [add_comm, Int.add_mul_ediv_right _ _ (by omega), Int.ediv_eq_zero_of_lt hb' hbB', zero_add]
  have : a = a' := by rw [← h1, ← h2, h]
  subst this
  exact ⟨rfl, by omega⟩

/-- C04 (local ids, 2D): for a node of the window and a component, the local id is inside the local
array of `dof * gxm * gym` entries. -/
theorem C04_localIndex2_range (dof gxs gys gxm gym i j c : ℤ)
    (hi : gxs ≤ i ∧ i < gxs + gxm) (hj : gys ≤ j ∧ j < gys + gym) (hc : 0 ≤ c ∧ c < dof) :
    0 ≤ c + localIndex2 dof gxs gys gxm i j ∧
      c + localIndex2 dof gxs gys gxm i j < dof * (gxm * gym) := by
  have h1 := flat_lt (a := j - gys) (b := i - gxs) (A := gym) (B := gxm)
    (by omega) (by omega) (by omega) (by omega)
  have h2 := flat_lt (a := (j - gys) * gxm + (i - gxs)) (b := c) h1.1 h1.2 hc.1 hc.2
  unfold localIndex2
  have e : c + dof * ((j - gys) * gxm + i - gxs) = ((j - gys) * gxm + (i - gxs)) * dof + c := by
    ring
  have e' : dof * (gxm * gym) = gym * gxm * dof := by ring
  rw [e, e']
  exact h2

/-- C04 (local ids, 2D): different (node, component) pairs of the window have different ids. -/
theorem C04_localIndex2_inj (dof gxs gys gxm i j c i' j' c' : ℤ)
    (hi : gxs ≤ i ∧ i < gxs + gxm) (hi' : gxs ≤ i' ∧ i' < gxs + gxm)
    (hc : 0 ≤ c ∧ c < dof) (hc' : 0 ≤ c' ∧ c' < dof)
    (h : c + localIndex2 dof gxs gys gxm i j = c' + localIndex2 dof gxs gys gxm i' j') :
    i = i' ∧ j = j' ∧ c = c' := by
  unfold localIndex2 at h
  have h1 := flat_inj (a := (j - gys) * gxm + (i - gxs)) (a' := (j' - gys) * gxm + (i' - gxs))
    hc.1 hc.2 hc'.1 hc'.2 (by linarith)
  have h2 := flat_inj (a := j - gys) (b := i - gxs) (a' := j' - gys) (b' := i' - gxs) (B := gxm)
    (by omega) (by omega) (by omega) (by omega) h1.1
  omega

/-- C04 (local ids, 3D): range. -/
theorem C04_localIndex3_range (dof gxs gys gzs gxm gym gzm i j k c : ℤ)
    (hi : gxs ≤ i ∧ i < gxs + gxm) (hj : gys ≤ j ∧ j < gys + gym) (hk : gzs ≤ k ∧ k < gzs + gzm)
    (hc : 0 ≤ c ∧ c < dof) :
    0 ≤ c + localIndex3 dof gxs gys gzs gxm gym i j k ∧
      c + localIndex3 dof gxs gys gzs gxm gym i j k < dof * (gxm * gym * gzm) := by
  have h0 := flat_lt (a := k - gzs) (b := j - gys) (A := gzm) (B := gym)
    (by omega) (by omega) (by omega) (by omega)
  have h1 := flat_lt (b := i - gxs) (B := gxm) h0.1 h0.2 (by omega) (by omega)
  have h2 := flat_lt (b := c) h1.1 h1.2 hc.1 hc.2
  unfold localIndex3
  have e : c + dof * (((k - gzs) * gym + j - gys) * gxm + i - gxs)
      = (((k - gzs) * gym + (j - gys)) * gxm + (i - gxs)) * dof + c := by ring
  have e' : dof * (gxm * gym * gzm) = gzm * gym * gxm * dof := by ring
  rw [e, e']
  exact h2

/-- C04 (local ids, 3D): injectivity. -/
theorem C04_localIndex3_inj (dof gxs gys gzs gxm gym i j k c i' j' k' c' : ℤ)
    (hi : gxs ≤ i ∧ i < gxs + gxm) (hi' : gxs ≤ i' ∧ i' < gxs + gxm)
    (hj : gys ≤ j ∧ j < gys + gym) (hj' : gys ≤ j' ∧ j' < gys + gym)
    (hc : 0 ≤ c ∧ c < dof) (hc' : 0 ≤ c' ∧ c' < dof)
    (h : c + localIndex3 dof gxs gys gzs gxm gym i j k
      = c' + localIndex3 dof gxs gys gzs gxm gym i' j' k') :
    i = i' ∧ j = j' ∧ k = k' ∧ c = c' := by
  unfold localIndex3 at h
  have h1 := flat_inj (a := ((k - gzs) * gym + (j - gys)) * gxm + (i - gxs))
    (a' := ((k' - gzs) * gym + (j' - gys)) * gxm + (i' - gxs))
    hc.1 hc.2 hc'.1 hc'.2 (by linarith)
  have h2 := flat_inj (a := (k - gzs) * gym + (j - gys)) (b := i - gxs)
    (a' := (k' - gzs) * gym + (j' - gys)) (b' := i' - gxs) (B := gxm)
    (by omega) (by omega) (by omega) (by omega) h1.1
  have h3 := flat_inj (a := k - gzs) (b := j - gys) (a' := k' - gzs) (b' := j' - gys) (B := gym)
    (by omega) (by omega) (by omega) (by omega) h2.1
  omega

example : (![1, 1] : Fin 2 → ℕ) ∈ procs ![exDir, exDirP] ∧
    (![4, 4] : Pos 2 ℤ) ∈ (getDMBounds ![exDir, exDirP] ![1, 1] true).halfOpen := by
  constructor
  · rw [mem_procs]; intro i; fin_cases i <;> simp [exDir, exDirP]
  · intro i; fin_cases i <;> simp [getDMBounds, exDir, exDirP, Dir.xs, Dir.xm]
example : ∃ e : Pos 2 ℤ, e ∈ (getDMBounds (fun i : Fin 2 => presDir 6 (i = 1)
    ((![[2, 3, 1], [2, 3]] : Fin 2 → List ℤ) i)) ![1, 1] true).halfOpen :=
  ⟨![3, 4], by
    intro i; fin_cases i <;> simp [getDMBounds, presDir, meshPres, Dir.xs, Dir.xm]⟩

/-! ### C05: local sizes add up -/

/-- C05: the sum over the processes of the local size reported by `get_DM_sizes` on a composite DM
(each field having its own splits on the same process grid) is the total size it reports. -/
theorem C05_sizes {d : ℕ} (dms : List (ℤ × (Fin d → Dir))) (R : Finset (Fin d → ℕ))
    (hR : ∀ x ∈ dms, procs x.2 = R) (hL : ∀ x ∈ dms, ∀ i, (x.2 i).WF) (r0 : Fin d → ℕ) :
    ∑ r ∈ R, (getDMSizes dms r).1 = (getDMSizes dms r0).2 := by
  have key : ∀ (l : List (ℤ × (Fin d → Dir))) (r : Fin d → ℕ) (a : ℤ × ℤ),
      l.foldl (fun a x => (a.1 + dmLocalSize x.1 x.2 r, a.2 + dmTotalSize x.1 x.2)) a
        = (a.1 + (l.map fun x => dmLocalSize x.1 x.2 r).sum,
           a.2 + (l.map fun x => dmTotalSize x.1 x.2).sum) := by
    intro l r
    induction l with
    | nil => intro a; simp
    | cons x l ih => intro a; simp [ih, add_assoc]
  unfold getDMSizes
  simp only [key, zero_add]
  clear key
  induction dms with
  | nil => simp
  | cons x l ih =>
    simp only [List.map_cons, List.sum_cons, Finset.sum_add_distrib]
    rw [ih (fun y hy => hR y (by simp [hy])) (fun y hy => hL y (by simp [hy])),
      ← hR x (by simp), sum_dmLocalSize _ _ (hL x (by simp))]

example : procs ![velDir 6 false [2, 3, 1]] = procs ![presDir 6 false [2, 3, 1]] := by
  ext r; simp only [mem_procs]
  refine forall_congr' fun i => ?_
  fin_cases i; simp [velDir, presDir, setLxu_length]

/-! ### C09: element node lists -/

/-- C09 (2D): the corners of a cell are distinct and are exactly the four nodes around it; corner
`k` is at offset `(k % 2, k / 2)`. -/
theorem C09_element2 (e : Pos 2 ℤ) :
    (∀ k : Fin 4, getElement2 e k = ![e 0 + (k.1 % 2 : ℕ), e 1 + (k.1 / 2 : ℕ)]) ∧
    Function.Injective (getElement2 e) ∧
    ∀ n : Pos 2 ℤ, (∃ k, getElement2 e k = n) ↔ ∀ i, n i = e i ∨ n i = e i + 1 := by
  refine ⟨getElement2_eq e, ?_, ?_⟩
  · intro a b hab
    rw [getElement2_eq, getElement2_eq] at hab
    have h0 := congrFun hab 0
    have h1 := congrFun hab 1
    simp at h0 h1
    ext; omega
  · intro n
    constructor
    · rintro ⟨k, rfl⟩ i
      exact getElement2_mem e k i
    · intro h
      have h0 := h 0
      have h1 := h 1
      refine ⟨⟨(n 0 - e 0).toNat + 2 * (n 1 - e 1).toNat, by omega⟩, ?_⟩
      rw [getElement2_eq]
      funext i
      fin_cases i <;> simp <;> omega

/-- C09 (3D). -/
theorem C09_element3 (e : Pos 3 ℤ) :
    (∀ k : Fin 8, getElement3 e k
      = ![e 0 + (k.1 % 2 : ℕ), e 1 + (k.1 / 2 % 2 : ℕ), e 2 + (k.1 / 4 : ℕ)]) ∧
    Function.Injective (getElement3 e) ∧
    ∀ n : Pos 3 ℤ, (∃ k, getElement3 e k = n) ↔ ∀ i, n i = e i ∨ n i = e i + 1 := by
  refine ⟨getElement3_eq e, ?_, ?_⟩
  · intro a b hab
    rw [getElement3_eq, getElement3_eq] at hab
    have h0 := congrFun hab 0
    have h1 := congrFun hab 1
    have h2 := congrFun hab 2
    simp at h0 h1 h2
    ext; omega
  · intro n
    constructor
    · rintro ⟨k, rfl⟩ i
      exact getElement3_mem e k i
    · intro h
      have h0 := h 0
      have h1 := h 1
      have h2 := h 2
      refine ⟨⟨(n 0 - e 0).toNat + 2 * (n 1 - e 1).toNat + 4 * (n 2 - e 2).toNat, by omega⟩, ?_⟩
      rw [getElement3_eq]
      funext i
      fin_cases i <;> simp <;> omega

/-- C09 (4Q1, 2D): node `k` of the pressure cell `e` is at offset `(k % 3, k / 3)` from `2e`; in
particular the nine nodes are distinct and are exactly the nodes of the four velocity cells of `e`. -/
theorem C09_4q1_2 (e : Pos 2 ℤ) :
    (∀ k : Fin 9, getElement4Q1_2 e k = ![2 * e 0 + (k.1 % 3 : ℕ), 2 * e 1 + (k.1 / 3 : ℕ)]) ∧
    Function.Injective (getElement4Q1_2 e) ∧
    ∀ n : Pos 2 ℤ, (∃ k, getElement4Q1_2 e k = n) ↔ ∀ i, 2 * e i ≤ n i ∧ n i ≤ 2 * e i + 2 := by
  have hk : ∀ k : Fin 9,
      getElement4Q1_2 e k = ![2 * e 0 + (k.1 % 3 : ℕ), 2 * e 1 + (k.1 / 3 : ℕ)] := by
    exact getElement4Q1_2_eq e
  refine ⟨hk, ?_, ?_⟩
  · intro a b hab
    rw [hk, hk] at hab
    have h0 := congrFun hab 0
    have h1 := congrFun hab 1
    simp at h0 h1
    ext; omega
  · intro n
    constructor
    · rintro ⟨k, rfl⟩ i
      rw [hk]
      fin_cases i <;> simp <;> omega
    · intro h
      have h0 := h 0
      have h1 := h 1
      refine ⟨⟨(n 0 - 2 * e 0).toNat + 3 * (n 1 - 2 * e 1).toNat, by omega⟩, ?_⟩
      rw [hk]
      funext i
      fin_cases i <;> simp <;> omega

/-- C09 (4Q1, 3D). -/
theorem C09_4q1_3 (e : Pos 3 ℤ) :
    (∀ k : Fin 27, getElement4Q1_3 e k =
      ![2 * e 0 + (k.1 % 3 : ℕ), 2 * e 1 + (k.1 / 3 % 3 : ℕ), 2 * e 2 + (k.1 / 9 : ℕ)]) ∧
    Function.Injective (getElement4Q1_3 e) ∧
    ∀ n : Pos 3 ℤ, (∃ k, getElement4Q1_3 e k = n) ↔ ∀ i, 2 * e i ≤ n i ∧ n i ≤ 2 * e i + 2 := by
  have hk : ∀ k : Fin 27, getElement4Q1_3 e k =
      ![2 * e 0 + (k.1 % 3 : ℕ), 2 * e 1 + (k.1 / 3 % 3 : ℕ), 2 * e 2 + (k.1 / 9 : ℕ)] := by
    exact getElement4Q1_3_eq e
  refine ⟨hk, ?_, ?_⟩
  · intro a b hab
    rw [hk, hk] at hab
    have h0 := congrFun hab 0
    have h1 := congrFun hab 1
    have h2 := congrFun hab 2
    simp at h0 h1 h2
    ext; omega
  · intro n
    constructor
    · rintro ⟨k, rfl⟩ i
      rw [hk]
      fin_cases i <;> simp <;> omega
    · intro h
      have h0 := h 0
      have h1 := h 1
      have h2 := h 2
      refine ⟨⟨(n 0 - 2 * e 0).toNat + 3 * (n 1 - 2 * e 1).toNat
        + 9 * (n 2 - 2 * e 2).toNat, by omega⟩, ?_⟩
      rw [hk]
      funext i
      fin_cases i <;> simp <;> omega

end Cafes.Props
