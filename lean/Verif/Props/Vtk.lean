/-
Property theorems for the VTK output: C89 (fields), C90 (particles).
-/
import Verif.Spec.Vtk
import Verif.Props.Mesh
import Verif.Lemmas.OperatorForm

namespace Cafes.Vtk
open Cafes Cafes.Props

/-! ### Nested insertion loops -/

theorem pair_foldl_append {ι α β : Type*} (l : List ι) (F : ι → List α) (G : ι → List β) (s : List α × List β) :
    l.foldl (fun s i => (s.1 ++ F i, s.2 ++ G i)) s = (s.1 ++ l.flatMap F, s.2 ++ l.flatMap G) := by
  induction l generalizing s with
  | nil => simp
  | cons a l ih => simp [ih, List.append_assoc]

theorem forRange_getElem (lo hi v : ℤ) (h : lo ≤ v ∧ v < hi) : (forRange lo hi)[(v - lo).toNat]? = some v := by
  obtain ⟨h0, h1⟩ := h
  obtain ⟨n, hn⟩ : ∃ n, (v - lo).toNat = n := ⟨_, rfl⟩
  induction n generalizing lo with
  | zero =>
    have : v = lo := by omega
    subst this
    rw [hn, forRange, if_pos h1]; rfl
  | succ n ih =>
    rw [forRange, if_pos (by omega), hn, List.getElem?_cons_succ]
    have := ih (lo + 1) (by omega) (by omega)
    rwa [show (v - (lo + 1)).toNat = n by omega] at this

/-- A list made of consecutive blocks of the same length `m`. -/
theorem flatMap_length {ι α : Type*} (l : List ι) (F : ι → List α) (m : ℕ) (hF : ∀ i ∈ l, (F i).length = m) :
    (l.flatMap F).length = l.length * m := by
  induction l with
  | nil => simp
  | cons a l ih =>
    simp only [List.flatMap_cons, List.length_append, List.length_cons]
    rw [ih fun i hi => hF i (List.mem_cons_of_mem _ hi), hF a List.mem_cons_self]; ring

theorem flatMap_getElem {ι α : Type*} (l : List ι) (F : ι → List α) (m : ℕ) (hF : ∀ i ∈ l, (F i).length = m) (k q : ℕ)
    (hq : q < m) (i : ι) (hi : l[k]? = some i) : (l.flatMap F)[k * m + q]? = (F i)[q]? := by
  induction l generalizing k with
  | nil => simp at hi
  | cons a l ih =>
    simp only [List.flatMap_cons]
    have ha := hF a List.mem_cons_self
    cases k with
    | zero =>
      simp only [List.getElem?_cons_zero, Option.some.injEq] at hi
      subst hi
      rw [Nat.zero_mul, Nat.zero_add, List.getElem?_append_left (by omega)]
    | succ k =>
      simp only [List.getElem?_cons_succ] at hi
      rw [List.getElem?_append_right (by rw [ha, Nat.succ_mul]; omega), ha,
        show (k + 1) * m + q - m = k * m + q by rw [Nat.succ_mul]; omega]
      exact ih (fun i hi => hF i (List.mem_cons_of_mem _ hi)) k hi

variable {α K : Type*} [Field K]

/-- The values of the double loop, as a list. -/
def grid2 (a b c e : ℤ) (g : ℤ → ℤ → α) : List α := (forRange c e).flatMap fun j => (forRange a b).map fun i => g i j
/-- The values of the triple loop, as a list. -/
def grid3 (a b c e l m : ℤ) (g : ℤ → ℤ → ℤ → α) : List α :=
  (forRange l m).flatMap fun k => grid2 a b c e fun i j => g i j k

theorem grid2_length (a b c e : ℤ) (g : ℤ → ℤ → α) :
    (grid2 a b c e g).length = (e - c).toNat * (b - a).toNat := by
  rw [grid2, flatMap_length _ _ (b - a).toNat fun i _ => by rw [List.length_map, length_forRange], length_forRange]

theorem grid3_length (a b c e l m : ℤ) (g : ℤ → ℤ → ℤ → α) :
    (grid3 a b c e l m g).length = (m - l).toNat * ((e - c).toNat * (b - a).toNat) := by
  rw [grid3, flatMap_length _ _ _ fun i _ => grid2_length .., length_forRange]

theorem grid2_get (a b c e : ℤ) (g : ℤ → ℤ → α) (i j : ℤ) (hi : a ≤ i ∧ i < b) (hj : c ≤ j ∧ j < e) :
    (grid2 a b c e g)[((i - a) + (b - a) * (j - c)).toNat]? = some (g i j) := by
  have h1 : ((i - a) + (b - a) * (j - c)).toNat = (j - c).toNat * (b - a).toNat + (i - a).toNat := by
    rw [← Int.toNat_mul (by omega) (by omega), ← Int.toNat_add (mul_nonneg (by omega) (by omega)) (by omega)]
    congr 1; ring
  rw [h1, grid2, flatMap_getElem _ _ (b - a).toNat (fun i _ => by rw [List.length_map, length_forRange]) _ _ (by omega) j
    (forRange_getElem _ _ _ hj), List.getElem?_map, forRange_getElem _ _ _ hi]; rfl

theorem grid3_get (a b c e l m : ℤ) (g : ℤ → ℤ → ℤ → α) (i j k : ℤ) (hi : a ≤ i ∧ i < b) (hj : c ≤ j ∧ j < e)
    (hk : l ≤ k ∧ k < m) :
    (grid3 a b c e l m g)[((i - a) + (b - a) * ((j - c) + (e - c) * (k - l))).toNat]? = some (g i j k) := by
  have h0 : 0 ≤ (b - a) * (j - c) := mul_nonneg (by omega) (by omega)
  have h1 : ((i - a) + (b - a) * ((j - c) + (e - c) * (k - l))).toNat
      = (k - l).toNat * ((e - c).toNat * (b - a).toNat) + ((i - a) + (b - a) * (j - c)).toNat := by
    rw [← Int.toNat_mul (by omega) (by omega), ← Int.toNat_mul (by omega) (mul_nonneg (by omega) (by omega)),
      ← Int.toNat_add (mul_nonneg (by omega) (mul_nonneg (by omega) (by omega))) (by omega)]
    congr 1; ring
  have h2 : ((i - a) + (b - a) * (j - c)).toNat < (e - c).toNat * (b - a).toNat := by
    rw [← Int.toNat_mul (by omega) (by omega), Int.toNat_lt_toNat (mul_pos (by omega) (by omega))]
    have : (b - a) * (j - c) ≤ (b - a) * (e - c - 1) := mul_le_mul_of_nonneg_left (by omega) (by omega)
    nlinarith
  rw [h1, grid3, flatMap_getElem _ _ _ (fun i _ => grid2_length ..) _ _ h2 k (forRange_getElem _ _ _ hk)]
  exact grid2_get a b c e (fun i j => g i j k) i j hi hj

theorem insertLoop2_eq (L : Fin 2 → Dir) (r : Fin 2 → ℕ) (pt : ℤ → ℤ → Pos 3 K) (val : ℤ → ℤ → α) :
    insertLoop2 L r pt val =
      (grid2 ((L 0).gxs (r 0)) ((L 0).gxs (r 0) + (L 0).gxm (r 0)) ((L 1).gxs (r 1)) ((L 1).gxs (r 1) + (L 1).gxm (r 1)) pt,
       grid2 ((L 0).gxs (r 0)) ((L 0).gxs (r 0) + (L 0).gxm (r 0)) ((L 1).gxs (r 1)) ((L 1).gxs (r 1) + (L 1).gxm (r 1)) val) := by
  unfold insertLoop2 grid2
  simp only [pair_foldl_append, List.flatMap_singleton', List.nil_append, ← List.map_eq_flatMap]

theorem insertLoop3_eq (L : Fin 3 → Dir) (r : Fin 3 → ℕ) (pt : ℤ → ℤ → ℤ → Pos 3 K) (val : ℤ → ℤ → ℤ → α) :
    insertLoop3 L r pt val =
      (grid3 ((L 0).gxs (r 0)) ((L 0).gxs (r 0) + (L 0).gxm (r 0)) ((L 1).gxs (r 1)) ((L 1).gxs (r 1) + (L 1).gxm (r 1))
        ((L 2).gxs (r 2)) ((L 2).gxs (r 2) + (L 2).gxm (r 2)) pt,
       grid3 ((L 0).gxs (r 0)) ((L 0).gxs (r 0) + (L 0).gxm (r 0)) ((L 1).gxs (r 1)) ((L 1).gxs (r 1) + (L 1).gxm (r 1))
        ((L 2).gxs (r 2)) ((L 2).gxs (r 2) + (L 2).gxm (r 2)) val) := by
  unfold insertLoop3 grid3 grid2
  simp only [pair_foldl_append, List.nil_append, ← List.map_eq_flatMap]

theorem gxm_nonneg {D : Dir} (h : D.WF) {r : ℕ} (hr : r < D.l.length) : 0 ≤ D.gxm r := by
  have h1 := Dir.xm_pos h hr
  have h2 := Dir.xs_nonneg h r
  have h3 := Dir.xe_le h hr
  simp only [Dir.gxm, Dir.gxe, Dir.gxs]
  split <;> omega

/-! ### One file -/

theorem file2 (L : Fin 2 → Dir) (hL : ∀ i, (L i).WF) (r : Fin 2 → ℕ) (hr : r ∈ procs L) (pt : ℤ → ℤ → Pos 3 K)
    (val : ℤ → ℤ → α) (F : Vts α K)
    (hF : F = ⟨extent2 L r, (insertLoop2 L r pt val).1, (insertLoop2 L r pt val).2⟩) :
    F.Complete ∧ ∀ p, F.extent.Mem p → F.Says p (pt (p 0) (p 1)) (val (p 0) (p 1)) := by
  subst hF
  rw [mem_procs] at hr
  have g0 := gxm_nonneg (hL 0) (hr 0)
  have g1 := gxm_nonneg (hL 1) (hr 1)
  refine ⟨?_, fun p hp => ⟨hp, ?_⟩⟩
  · simp only [Vts.Complete, insertLoop2_eq, grid2_length, Extent.count, Extent.size, extent2, Matrix.cons_val]
    push_cast
    constructor <;>
    · rw [Int.toNat_of_nonneg (by omega), Int.toNat_of_nonneg (by omega)]; ring
  · have p0 := hp 0
    have p1 := hp 1
    have p2 := hp 2
    simp only [extent2, Matrix.cons_val] at p0 p1 p2
    have e : Extent.index (extent2 L r) p =
        ((p 0 - (L 0).gxs (r 0)) + ((L 0).gxs (r 0) + (L 0).gxm (r 0) - (L 0).gxs (r 0)) * (p 1 - (L 1).gxs (r 1))).toNat := by
      simp only [Extent.index, Extent.size, extent2, Matrix.cons_val]
      rw [show p 2 = 0 by omega]; congr 1; ring
    simp only [insertLoop2_eq, e]
    exact ⟨grid2_get _ _ _ _ pt _ _ ⟨p0.1, by omega⟩ ⟨p1.1, by omega⟩,
      grid2_get _ _ _ _ val _ _ ⟨p0.1, by omega⟩ ⟨p1.1, by omega⟩⟩

theorem file3 (L : Fin 3 → Dir) (hL : ∀ i, (L i).WF) (r : Fin 3 → ℕ) (hr : r ∈ procs L) (pt : ℤ → ℤ → ℤ → Pos 3 K)
    (val : ℤ → ℤ → ℤ → α) (F : Vts α K)
    (hF : F = ⟨extent3 L r, (insertLoop3 L r pt val).1, (insertLoop3 L r pt val).2⟩) :
    F.Complete ∧ ∀ p, F.extent.Mem p → F.Says p (pt (p 0) (p 1) (p 2)) (val (p 0) (p 1) (p 2)) := by
  subst hF
  rw [mem_procs] at hr
  have g0 := gxm_nonneg (hL 0) (hr 0)
  have g1 := gxm_nonneg (hL 1) (hr 1)
  have g2 := gxm_nonneg (hL 2) (hr 2)
  refine ⟨?_, fun p hp => ⟨hp, ?_⟩⟩
  · simp only [Vts.Complete, insertLoop3_eq, grid3_length, Extent.count, Extent.size, extent3, Matrix.cons_val]
    push_cast
    constructor <;>
    · rw [Int.toNat_of_nonneg (by omega), Int.toNat_of_nonneg (by omega), Int.toNat_of_nonneg (by omega)]; ring
  · have p0 := hp 0
    have p1 := hp 1
    have p2 := hp 2
    simp only [extent3, Matrix.cons_val] at p0 p1 p2
    have e : Extent.index (extent3 L r) p =
        ((p 0 - (L 0).gxs (r 0)) + ((L 0).gxs (r 0) + (L 0).gxm (r 0) - (L 0).gxs (r 0)) * ((p 1 - (L 1).gxs (r 1))
          + ((L 1).gxs (r 1) + (L 1).gxm (r 1) - (L 1).gxs (r 1)) * (p 2 - (L 2).gxs (r 2)))).toNat := by
      simp only [Extent.index, Extent.size, extent3, Matrix.cons_val]
      congr 1; ring
    simp only [insertLoop3_eq, e]
    exact ⟨grid3_get _ _ _ _ _ _ pt _ _ _ ⟨p0.1, by omega⟩ ⟨p1.1, by omega⟩ ⟨p2.1, by omega⟩,
      grid3_get _ _ _ _ _ _ val _ _ _ ⟨p0.1, by omega⟩ ⟨p1.1, by omega⟩ ⟨p2.1, by omega⟩⟩

/-! ### The collection of the files -/

theorem wrap_grid_id {d : ℕ} (L : Fin d → Dir) (p : Pos d ℤ) (hp : ∀ i, 0 ≤ p i ∧ p i < (L i).m) : wrap L p = p := by
  funext i
  simp only [wrap]
  split
  · exact Int.emod_eq_of_lt (hp i).1 (hp i).2
  · rfl

/-- The window of a process in a non periodic direction is inside the grid. -/
theorem window_inside {D : Dir} (hp : D.periodic = false) (r : ℕ) (x : ℤ)
    (hx : D.gxs r ≤ x ∧ x ≤ D.gxs r + D.gxm r - 1) : 0 ≤ x ∧ x < D.m := by
  simp only [Dir.gxm, Dir.gxe, Dir.gxs, hp, Bool.false_eq_true, if_false] at hx
  omega

/-- Every node of the grid is in the window of its owner. -/
theorem owner_window {D : Dir} (h : D.WF) (r : ℕ) (hr : r < D.l.length) (x : ℤ) (hx : D.xs r ≤ x ∧ x < D.xs r + D.xm r) :
    D.gxs r ≤ x ∧ x ≤ D.gxs r + D.gxm r - 1 := by
  have h2 := Dir.xs_nonneg h r
  have h3 := Dir.xe_le h hr
  simp only [Dir.gxm, Dir.gxe, Dir.gxs]
  split <;> omega

/-- C89 (one file, 2D): on every mesh, periodic or not, the velocity and pressure files of every process hold as many
points and values as their extent announces; a reader finds at each node of the extent the coordinates of the node
(twice the velocity step for the pressure) and the value of the solution at this node, or at the node it is identified
with by the periodicity; the missing third component is 0. -/
theorem C89_file2 (Lv Lp : Fin 2 → Dir) (hv : ∀ i, (Lv i).WF) (hp : ∀ i, (Lp i).WF) (h : Pos 2 K) (u : NodeVec 2 2 K)
    (p : NodeVec 2 1 K) (r : Fin 2 → ℕ) (hrv : r ∈ procs Lv) (hrp : r ∈ procs Lp) :
    ((velocityFile2 Lv h u r).Complete ∧ (pressureFile2 Lp h p r).Complete) ∧
    (∀ x, (velocityFile2 Lv h u r).extent.Mem x → (velocityFile2 Lv h u r).Says x ![x 0 * h 0, x 1 * h 1, 0]
      ![u (wrap Lv ![x 0, x 1]) 0, u (wrap Lv ![x 0, x 1]) 1, 0]) ∧
    (∀ x, (pressureFile2 Lp h p r).extent.Mem x → (pressureFile2 Lp h p r).Says x
      ![x 0 * (2 * h 0), x 1 * (2 * h 1), 0] (p (wrap Lp ![x 0, x 1]) 0)) := by
  have fv := file2 Lv hv r hrv _ _ (velocityFile2 Lv h u r) rfl
  have fp := file2 Lp hp r hrp _ _ (pressureFile2 Lp h p r) rfl
  refine ⟨⟨fv.1, fp.1⟩, fv.2, fun x hx => ?_⟩
  have := fp.2 x hx
  rwa [show (![2 * (x 0 : K) * h 0, 2 * (x 1 : K) * h 1, 0] : Pos 3 K) = ![x 0 * (2 * h 0), x 1 * (2 * h 1), 0] by
    congr 1; · ring
    congr 1; ring] at this

/-- C89 (one file, 3D). -/
theorem C89_file3 (Lv Lp : Fin 3 → Dir) (hv : ∀ i, (Lv i).WF) (hp : ∀ i, (Lp i).WF) (h : Pos 3 K) (u : NodeVec 3 3 K)
    (p : NodeVec 3 1 K) (r : Fin 3 → ℕ) (hrv : r ∈ procs Lv) (hrp : r ∈ procs Lp) :
    ((velocityFile3 Lv h u r).Complete ∧ (pressureFile3 Lp h p r).Complete) ∧
    (∀ x, (velocityFile3 Lv h u r).extent.Mem x → (velocityFile3 Lv h u r).Says x (fun a => x a * h a)
      (u (wrap Lv x))) ∧
    (∀ x, (pressureFile3 Lp h p r).extent.Mem x → (pressureFile3 Lp h p r).Says x
      (fun a => x a * (2 * h a)) (p (wrap Lp x) 0)) := by
  have fv := file3 Lv hv r hrv _ _ (velocityFile3 Lv h u r) rfl
  have fp := file3 Lp hp r hrp _ _ (pressureFile3 Lp h p r) rfl
  have e3 : ∀ x : Pos 3 ℤ, (![x 0, x 1, x 2] : Pos 3 ℤ) = x := fun x => by funext a; fin_cases a <;> rfl
  refine ⟨⟨fv.1, fp.1⟩, fun x hx => ?_, fun x hx => ?_⟩
  · have := fv.2 x hx
    rw [e3] at this
    convert this using 1
    · funext a; fin_cases a <;> rfl
    · funext a; fin_cases a <;> rfl
  · have := fp.2 x hx
    rw [e3] at this
    convert this using 1
    swap; · rfl
    funext a
    fin_cases a
    · show (x 0 : K) * (2 * h 0) = 2 * x 0 * h 0; ring
    · show (x 1 : K) * (2 * h 1) = 2 * x 1 * h 1; ring
    · show (x 2 : K) * (2 * h 2) = 2 * x 2 * h 2; ring

/-- C89 (collection, 2D): on a mesh without periodic direction, the pieces listed in the collection file carry the
extents of the files they name and stay inside the whole extent, every node of the whole extent is in some piece, and
every file whose extent contains a node gives for it the coordinates of the node and the value of the solution there: the
reassembled velocity and pressure are the computed ones, whatever the order of the pieces. -/
theorem C89_collection2 (Lv Lp : Fin 2 → Dir) (hv : ∀ i, (Lv i).WF) (hp : ∀ i, (Lp i).WF)
    (nv : ∀ i, (Lv i).periodic = false) (np : ∀ i, (Lp i).periodic = false) (h : Pos 2 K) (u : NodeVec 2 2 K)
    (p : NodeVec 2 1 K) (size : ℕ) (coord : ℕ → Fin 2 → ℕ) (cv : Ranking (procs Lv) size coord)
    (cp : Ranking (procs Lp) size coord) :
    ((∀ q ∈ (pvts2 Lv size coord).pieces, q.2 < size ∧ q.1 = (velocityFile2 Lv h u (coord q.2)).extent ∧
        ∀ x, q.1.Mem x → (pvts2 Lv size coord).whole.Mem x) ∧
      ∀ x, (pvts2 Lv size coord).whole.Mem x → (∃ q ∈ (pvts2 Lv size coord).pieces, q.1.Mem x) ∧
        ∀ q ∈ (pvts2 Lv size coord).pieces, q.1.Mem x → (velocityFile2 Lv h u (coord q.2)).Says x
          ![x 0 * h 0, x 1 * h 1, 0] ![u ![x 0, x 1] 0, u ![x 0, x 1] 1, 0]) ∧
    ((∀ q ∈ (pvts2 Lp size coord).pieces, q.2 < size ∧ q.1 = (pressureFile2 Lp h p (coord q.2)).extent ∧
        ∀ x, q.1.Mem x → (pvts2 Lp size coord).whole.Mem x) ∧
      ∀ x, (pvts2 Lp size coord).whole.Mem x → (∃ q ∈ (pvts2 Lp size coord).pieces, q.1.Mem x) ∧
        ∀ q ∈ (pvts2 Lp size coord).pieces, q.1.Mem x → (pressureFile2 Lp h p (coord q.2)).Says x
          ![x 0 * (2 * h 0), x 1 * (2 * h 1), 0] (p ![x 0, x 1] 0)) := by
  have key : ∀ (L : Fin 2 → Dir) (_ : ∀ i, (L i).WF) (_ : ∀ i, (L i).periodic = false)
      (_ : Ranking (procs L) size coord),
      (∀ q ∈ (pvts2 L size coord).pieces, q.2 < size ∧ q.1 = extent2 L (coord q.2) ∧
        ∀ x, q.1.Mem x → (pvts2 L size coord).whole.Mem x) ∧
      ∀ x, (pvts2 L size coord).whole.Mem x → (∃ q ∈ (pvts2 L size coord).pieces, q.1.Mem x) ∧
        wrap L ![x 0, x 1] = ![x 0, x 1] := by
    intro L hL nL cL
    refine ⟨fun q hq => ?_, fun x hx => ?_⟩
    · obtain ⟨i, hi, rfl⟩ := List.mem_map.1 hq
      refine ⟨List.mem_range.1 hi, rfl, fun x hx => ?_⟩
      have h0 := window_inside (nL 0) (coord i 0) (x 0) (hx 0)
      have h1 := window_inside (nL 1) (coord i 1) (x 1) (hx 1)
      intro a
      fin_cases a
      · exact ⟨h0.1, Int.le_sub_one_of_lt h0.2⟩
      · exact ⟨h1.1, Int.le_sub_one_of_lt h1.2⟩
      · exact hx 2
    · have x0 : 0 ≤ x 0 ∧ x 0 ≤ (L 0).m - 1 := hx 0
      have x1 : 0 ≤ x 1 ∧ x 1 ≤ (L 1).m - 1 := hx 1
      have hg : ∀ i, 0 ≤ (![x 0, x 1] : Pos 2 ℤ) i ∧ (![x 0, x 1] : Pos 2 ℤ) i < (L i).m := by
        intro i; fin_cases i
        · exact ⟨x0.1, Int.lt_of_le_sub_one x0.2⟩
        · exact ⟨x1.1, Int.lt_of_le_sub_one x1.2⟩
      refine ⟨?_, wrap_grid_id L _ hg⟩
      obtain ⟨r, ⟨hr, hb⟩, -⟩ := owner_unique L hL ![x 0, x 1] hg
      obtain ⟨i, hi, rfl⟩ := cL.surjOn hr
      refine ⟨_, List.mem_map.2 ⟨i, List.mem_range.2 hi, rfl⟩, ?_⟩
      rw [mem_procs] at hr
      intro a
      fin_cases a
      · exact owner_window (hL 0) _ (hr 0) (x 0) (hb 0)
      · exact owner_window (hL 1) _ (hr 1) (x 1) (hb 1)
      · exact hx 2
  have kv := key Lv hv nv cv
  have kp := key Lp hp np cp
  refine ⟨⟨fun q hq => kv.1 q hq, fun x hx => ⟨(kv.2 x hx).1, fun q hq hqx => ?_⟩⟩,
    ⟨fun q hq => kp.1 q hq, fun x hx => ⟨(kp.2 x hx).1, fun q hq hqx => ?_⟩⟩⟩
  · have hq' := kv.1 q hq
    have hm := cv.mapsTo hq'.1
    have hm' := cp.mapsTo hq'.1
    have := (C89_file2 Lv Lp hv hp h u p (coord q.2) hm hm').2.1 x (by have := hqx; rw [hq'.2.1] at this; exact this)
    rwa [(kv.2 x hx).2] at this
  · have hq' := kp.1 q hq
    have hm := cv.mapsTo hq'.1
    have hm' := cp.mapsTo hq'.1
    have := (C89_file2 Lv Lp hv hp h u p (coord q.2) hm hm').2.2 x (by have := hqx; rw [hq'.2.1] at this; exact this)
    rwa [(kp.2 x hx).2] at this

/-- C89 (collection, 3D). -/
theorem C89_collection3 (Lv Lp : Fin 3 → Dir) (hv : ∀ i, (Lv i).WF) (hp : ∀ i, (Lp i).WF)
    (nv : ∀ i, (Lv i).periodic = false) (np : ∀ i, (Lp i).periodic = false) (h : Pos 3 K) (u : NodeVec 3 3 K)
    (p : NodeVec 3 1 K) (size : ℕ) (coord : ℕ → Fin 3 → ℕ) (cv : Ranking (procs Lv) size coord)
    (cp : Ranking (procs Lp) size coord) :
    ((∀ q ∈ (pvts3 Lv size coord).pieces, q.2 < size ∧ q.1 = (velocityFile3 Lv h u (coord q.2)).extent ∧
        ∀ x, q.1.Mem x → (pvts3 Lv size coord).whole.Mem x) ∧
      ∀ x, (pvts3 Lv size coord).whole.Mem x → (∃ q ∈ (pvts3 Lv size coord).pieces, q.1.Mem x) ∧
        ∀ q ∈ (pvts3 Lv size coord).pieces, q.1.Mem x → (velocityFile3 Lv h u (coord q.2)).Says x
          (fun a => x a * h a) (u x)) ∧
    ((∀ q ∈ (pvts3 Lp size coord).pieces, q.2 < size ∧ q.1 = (pressureFile3 Lp h p (coord q.2)).extent ∧
        ∀ x, q.1.Mem x → (pvts3 Lp size coord).whole.Mem x) ∧
      ∀ x, (pvts3 Lp size coord).whole.Mem x → (∃ q ∈ (pvts3 Lp size coord).pieces, q.1.Mem x) ∧
        ∀ q ∈ (pvts3 Lp size coord).pieces, q.1.Mem x → (pressureFile3 Lp h p (coord q.2)).Says x
          (fun a => x a * (2 * h a)) (p x 0)) := by
  have key : ∀ (L : Fin 3 → Dir) (_ : ∀ i, (L i).WF) (_ : ∀ i, (L i).periodic = false)
      (_ : Ranking (procs L) size coord),
      (∀ q ∈ (pvts3 L size coord).pieces, q.2 < size ∧ q.1 = extent3 L (coord q.2) ∧
        ∀ x, q.1.Mem x → (pvts3 L size coord).whole.Mem x) ∧
      ∀ x, (pvts3 L size coord).whole.Mem x → (∃ q ∈ (pvts3 L size coord).pieces, q.1.Mem x) ∧
        wrap L x = x := by
    intro L hL nL cL
    refine ⟨fun q hq => ?_, fun x hx => ?_⟩
    · obtain ⟨i, hi, rfl⟩ := List.mem_map.1 hq
      refine ⟨List.mem_range.1 hi, rfl, fun x hx => ?_⟩
      have h0 := window_inside (nL 0) (coord i 0) (x 0) (hx 0)
      have h1 := window_inside (nL 1) (coord i 1) (x 1) (hx 1)
      have h2 := window_inside (nL 2) (coord i 2) (x 2) (hx 2)
      intro a
      fin_cases a
      · exact ⟨h0.1, Int.le_sub_one_of_lt h0.2⟩
      · exact ⟨h1.1, Int.le_sub_one_of_lt h1.2⟩
      · exact ⟨h2.1, Int.le_sub_one_of_lt h2.2⟩
    · have hg : ∀ i, 0 ≤ x i ∧ x i < (L i).m := by
        intro i; fin_cases i
        · exact ⟨(hx 0).1, Int.lt_of_le_sub_one (hx 0).2⟩
        · exact ⟨(hx 1).1, Int.lt_of_le_sub_one (hx 1).2⟩
        · exact ⟨(hx 2).1, Int.lt_of_le_sub_one (hx 2).2⟩
      refine ⟨?_, wrap_grid_id L _ hg⟩
      obtain ⟨r, ⟨hr, hb⟩, -⟩ := owner_unique L hL x hg
      obtain ⟨i, hi, rfl⟩ := cL.surjOn hr
      refine ⟨_, List.mem_map.2 ⟨i, List.mem_range.2 hi, rfl⟩, ?_⟩
      rw [mem_procs] at hr
      intro a
      fin_cases a
      · exact owner_window (hL 0) _ (hr 0) (x 0) (hb 0)
      · exact owner_window (hL 1) _ (hr 1) (x 1) (hb 1)
      · exact owner_window (hL 2) _ (hr 2) (x 2) (hb 2)
  have kv := key Lv hv nv cv
  have kp := key Lp hp np cp
  refine ⟨⟨fun q hq => kv.1 q hq, fun x hx => ⟨(kv.2 x hx).1, fun q hq hqx => ?_⟩⟩,
    ⟨fun q hq => kp.1 q hq, fun x hx => ⟨(kp.2 x hx).1, fun q hq hqx => ?_⟩⟩⟩
  · have hq' := kv.1 q hq
    have := (C89_file3 Lv Lp hv hp h u p (coord q.2) (cv.mapsTo hq'.1) (cp.mapsTo hq'.1)).2.1 x (by have := hqx; rw [hq'.2.1] at this; exact this)
    rwa [(kv.2 x hx).2] at this
  · have hq' := kp.1 q hq
    have := (C89_file3 Lv Lp hv hp h u p (coord q.2) (cv.mapsTo hq'.1) (cp.mapsTo hq'.1)).2.2 x (by have := hqx; rw [hq'.2.1] at this; exact this)
    rwa [(kp.2 x hx).2] at this

/-- C89 (periodic meshes, the code as it is): when the first direction is periodic, the collection always lists a piece
starting at `-1`, outside of the whole extent, and one ending at `m`, also outside: the property of `C89_collection2`
fails on every such mesh. -/
theorem C89_periodic_refuted (L : Fin 2 → Dir) (hL : ∀ i, (L i).WF) (h0 : (L 0).periodic = true) (size : ℕ)
    (coord : ℕ → Fin 2 → ℕ) (c : Ranking (procs L) size coord) (hne : (procs L).Nonempty) :
    (∃ q ∈ (pvts2 L size coord).pieces, q.1.lo 0 = -1 ∧ (pvts2 L size coord).whole.lo 0 = 0) ∧
    (∃ q ∈ (pvts2 L size coord).pieces, q.1.hi 0 = (L 0).m ∧ (pvts2 L size coord).whole.hi 0 = (L 0).m - 1) := by
  obtain ⟨r, hr⟩ := hne
  rw [mem_procs] at hr
  have hl : 0 < (L 0).l.length := lt_of_le_of_lt (Nat.zero_le _) (hr 0)
  have up : ∀ a < (L 0).l.length, ∃ i < size, coord i 0 = a := by
    intro a ha
    have hm : (![a, r 1] : Fin 2 → ℕ) ∈ procs L := by
      rw [mem_procs]; intro i; fin_cases i
      · exact ha
      · exact hr 1
    obtain ⟨i, hi, hia⟩ := c.surjOn hm
    exact ⟨i, hi, by rw [hia]; rfl⟩
  constructor
  · obtain ⟨i, hi, ha⟩ := up 0 hl
    refine ⟨_, List.mem_map.2 ⟨i, List.mem_range.2 hi, rfl⟩, ?_, rfl⟩
    show (L 0).gxs (coord i 0) = -1
    rw [ha]; simp [Dir.gxs, h0, Dir.xs]
  · obtain ⟨i, hi, ha⟩ := up ((L 0).l.length - 1) (by omega)
    refine ⟨_, List.mem_map.2 ⟨i, List.mem_range.2 hi, rfl⟩, ?_, rfl⟩
    show (L 0).gxs (coord i 0) + (L 0).gxm (coord i 0) - 1 = _
    rw [ha]
    have e := Dir.xs_succ (L 0) ((L 0).l.length - 1) (by omega)
    rw [show (L 0).l.length - 1 + 1 = (L 0).l.length by omega, Dir.xs_length _ (hL 0)] at e
    simp only [Dir.gxm, Dir.gxe, h0, if_true]
    omega

/-- The numbering of PETSc, first direction fastest, is a ranking of the processes of any 2D layout. -/
theorem petsc_ranking2 (L : Fin 2 → Dir) (hne : (L 0).l ≠ []) :
    Ranking (procs L) ((L 0).l.length * (L 1).l.length) (fun i => ![i % (L 0).l.length, i / (L 0).l.length]) := by
  have hpos : 0 < (L 0).l.length := List.length_pos_iff.2 hne
  refine ⟨fun i hi => ?_, fun i _ j _ hij => ?_, fun r hr => ?_⟩
  · have hi' : i < (L 0).l.length * (L 1).l.length := hi
    show _ ∈ procs L
    rw [mem_procs]
    intro a
    fin_cases a
    · exact Nat.mod_lt _ hpos
    · exact Nat.div_lt_of_lt_mul hi'
  · have h0 : i % (L 0).l.length = j % (L 0).l.length := congrFun hij 0
    have h1 : i / (L 0).l.length = j / (L 0).l.length := congrFun hij 1
    rw [← Nat.mod_add_div i (L 0).l.length, ← Nat.mod_add_div j (L 0).l.length, h0, h1]
  · have hr' : r ∈ procs L := hr
    rw [mem_procs] at hr'
    have r0 := hr' 0
    have r1 := hr' 1
    refine ⟨r 0 + (L 0).l.length * r 1, ?_, ?_⟩
    · show r 0 + (L 0).l.length * r 1 < (L 0).l.length * (L 1).l.length
      calc r 0 + (L 0).l.length * r 1 < (L 0).l.length * (r 1 + 1) := by rw [Nat.mul_succ]; omega
        _ ≤ _ := Nat.mul_le_mul_left _ r1
    · funext a
      fin_cases a
      · show (r 0 + (L 0).l.length * r 1) % (L 0).l.length = r 0
        rw [Nat.add_mul_mod_self_left, Nat.mod_eq_of_lt r0]
      · show (r 0 + (L 0).l.length * r 1) / (L 0).l.length = r 1
        rw [Nat.add_mul_div_left _ _ hpos, Nat.div_eq_of_lt r0, Nat.zero_add]

/-- The hypotheses of `C89_collection2` hold for 6 × 6 pressure nodes on 9 processes, ranked as PETSc does, and the
velocity mesh that `createMesh` builds over it. -/
example : (∀ i, (presLayout (fun _ : Fin 2 => 6) (fun _ => false) (fun _ => [2, 3, 1]) i).WF) ∧
    (∀ i, (velLayout (fun _ : Fin 2 => 6) (fun _ => false) (fun _ => [2, 3, 1]) i).WF) ∧
    Ranking (procs (presLayout (fun _ : Fin 2 => 6) (fun _ => false) (fun _ => [2, 3, 1]))) 9
      (fun i => ![i % 3, i / 3]) ∧
    Ranking (procs (velLayout (fun _ : Fin 2 => 6) (fun _ => false) (fun _ => [2, 3, 1]))) 9
      (fun i => ![i % 3, i / 3]) :=
  ⟨fun _ => (⟨by decide, by decide⟩ : (presDir 6 false [2, 3, 1]).WF),
    fun _ => (⟨by decide, by decide⟩ : (velDir 6 false [2, 3, 1]).WF),
    petsc_ranking2 (presLayout (fun _ : Fin 2 => 6) (fun _ => false) (fun _ => [2, 3, 1])) (by decide),
    petsc_ranking2 (velLayout (fun _ : Fin 2 => 6) (fun _ => false) (fun _ => [2, 3, 1])) (by decide)⟩

/-- The hypotheses of `C89_periodic_refuted` hold for 5 periodic nodes in the first direction. -/
example : (∀ i, ((![exDirP, exDir] : Fin 2 → Dir) i).WF) ∧ ((![exDirP, exDir] : Fin 2 → Dir) 0).periodic = true ∧
    Ranking (procs ![exDirP, exDir]) 6 (fun i => ![i % 2, i / 2]) ∧ (procs ![exDirP, exDir]).Nonempty :=
  ⟨fun i => by fin_cases i; exacts [exDirP_wf, exDir_wf], rfl, petsc_ranking2 ![exDirP, exDir] (by decide),
    ⟨![0, 0], (mem_procs _ _).2 fun i => by fin_cases i <;> decide⟩⟩

/-! ### C90: the particle file -/

open Cafes.Geometry

theorem set_take {α : Type*} (A : List α) (i : ℕ) (a : α) (h : i < A.length) :
    (A.set i a).take (i + 1) = A.take i ++ [a] := by
  apply List.ext_getElem?
  intro k
  rcases lt_trichotomy k i with hk | rfl | hk
  · rw [List.getElem?_take_of_lt (by omega), List.getElem?_set_ne (by omega), List.getElem?_append_left (by simp; omega),
      List.getElem?_take_of_lt hk]
  · rw [List.getElem?_take_of_lt (by omega), List.getElem?_set_self h, List.getElem?_append_right (by simp)]
    simp [Nat.min_eq_left h.le]
  · rw [List.getElem?_eq_none (by simp; omega), List.getElem?_eq_none (by simp; omega)]

theorem set_drop {α : Type*} (A : List α) (i m : ℕ) (a : α) (h : i < m) : (A.set i a).drop m = A.drop m := by
  rw [List.drop_set_of_lt h]

theorem particle_loop {σ τ : Type*} (fp : σ → Pos 3 ℝ) (fr : σ → ℝ) (ff : ℕ → List (Pos 3 ℝ)) (ft : ℕ → List τ)
    (l : List σ) (i : ℕ) (V : Vtp τ) (hp : i + l.length ≤ V.points.length) (hr : i + l.length ≤ V.radius.length) :
    l.foldl (fun (s : ℕ × Vtp τ) p => (s.1 + 1, (⟨setTuple s.2.points s.1 (fp p), setTuple s.2.radius s.1 (fr p),
        s.2.forces ++ ff s.1, s.2.torques ++ ft s.1⟩ : Vtp τ))) (i, V) =
      (i + l.length, ⟨V.points.take i ++ l.map fp ++ V.points.drop (i + l.length),
        V.radius.take i ++ l.map fr ++ V.radius.drop (i + l.length),
        V.forces ++ (List.range l.length).flatMap (fun k => ff (i + k)),
        V.torques ++ (List.range l.length).flatMap (fun k => ft (i + k))⟩) := by
  induction l generalizing i V with
  | nil => simp
  | cons a l ih =>
    simp only [List.length_cons] at hp hr
    rw [List.foldl_cons, ih (i + 1) _ (by simp only [setTuple, List.length_set]; omega)
      (by simp only [setTuple, List.length_set]; omega)]
    simp only [setTuple]
    rw [set_take _ _ _ (by omega), set_take _ _ _ (by omega), set_drop _ _ _ _ (by omega), set_drop _ _ _ _ (by omega)]
    have e : i + 1 + l.length = i + (l.length + 1) := by omega
    simp only [List.length_cons, e, List.map_cons, List.append_assoc, List.cons_append,
      List.nil_append, List.range_succ_eq_map, List.flatMap_cons, List.flatMap_map, Nat.add_zero,
      Nat.succ_eq_add_one, show ∀ k, i + 1 + k = i + (k + 1) from fun k => by omega]

/-- C90 (2D): the particle file has one point per particle: the centre of the particle in the plane `z = 0`, with its
first shape factor, its force and its torque, provided one force and one torque are given per particle. -/
theorem C90_particles2 (parts : List (Shape 2)) (forces : List (Pos 2 ℝ)) (torques : List ℝ)
    (hf : parts.length ≤ forces.length) (ht : parts.length ≤ torques.length) :
    (saveParticles2 parts forces torques).points.length = parts.length ∧
    ∀ (i : ℕ) (hi : i < parts.length),
      (saveParticles2 parts forces torques).points[i]? = some ![parts[i].center 0, parts[i].center 1, 0] ∧
      (saveParticles2 parts forces torques).radius[i]? = some (parts[i].s 0) ∧
      (saveParticles2 parts forces torques).forces[i]? = some ![forces[i] 0, forces[i] 1, 0] ∧
      (saveParticles2 parts forces torques).torques[i]? = some torques[i] := by
  have e := particle_loop (τ := ℝ) (fun p : Shape 2 => ![p.center 0, p.center 1, 0]) (fun p => p.s 0)
    (fun k => [![forces.getD k 0 0, forces.getD k 0 1, 0]]) (fun k => [torques.getD k 0]) parts 0
    ⟨List.replicate parts.length 0, List.replicate parts.length 0, [], []⟩ (by simp) (by simp)
  have e' : saveParticles2 parts forces torques = _ := congrArg Prod.snd e
  rw [e']
  refine ⟨by simp, fun i hi => ?_⟩
  have h1 : i < forces.length := by omega
  have h2 : i < torques.length := by omega
  simp [hi, ← List.map_eq_flatMap, h1, h2, List.getD_eq_getElem?_getD]

/-- C90 (3D): the same in space, with the three coordinates. -/
theorem C90_particles3 (parts : List (Shape 3)) (forces torques : List (Pos 3 ℝ))
    (hf : parts.length ≤ forces.length) (ht : parts.length ≤ torques.length) :
    (saveParticles3 parts forces torques).points.length = parts.length ∧
    ∀ (i : ℕ) (hi : i < parts.length),
      (saveParticles3 parts forces torques).points[i]? = some parts[i].center ∧
      (saveParticles3 parts forces torques).radius[i]? = some (parts[i].s 0) ∧
      (saveParticles3 parts forces torques).forces[i]? = some forces[i] ∧
      (saveParticles3 parts forces torques).torques[i]? = some torques[i] := by
  have e := particle_loop (τ := Pos 3 ℝ) (fun p : Shape 3 => ![p.center 0, p.center 1, p.center 2]) (fun p => p.s 0)
    (fun k => [![forces.getD k 0 0, forces.getD k 0 1, forces.getD k 0 2]])
    (fun k => [![torques.getD k 0 0, torques.getD k 0 1, torques.getD k 0 2]]) parts 0
    ⟨List.replicate parts.length 0, List.replicate parts.length 0, [], []⟩ (by simp) (by simp)
  have e' : saveParticles3 parts forces torques = _ := congrArg Prod.snd e
  have e3 : ∀ x : Pos 3 ℝ, (![x 0, x 1, x 2] : Pos 3 ℝ) = x := fun x => by funext a; fin_cases a <;> rfl
  rw [e']
  simp only [e3]
  refine ⟨by simp, fun i hi => ?_⟩
  have h1 : i < forces.length := by omega
  have h2 : i < torques.length := by omega
  simp [hi, ← List.map_eq_flatMap, h1, h2, List.getD_eq_getElem?_getD]

/-- C90 (without forces): the points written are the centres projected on the plane `z = 0`. In 2D this is the centre. -/
theorem C90_points {d : ℕ} [NeZero d] (parts : List (Shape d)) :
    (saveParticles parts).points.length = parts.length ∧ ∀ (i : ℕ) (hi : i < parts.length),
      (saveParticles parts).points[i]? = some ![parts[i].center 0, parts[i].center 1, 0] ∧
      (saveParticles parts).radius[i]? = some (parts[i].s 0) := by
  have e := particle_loop (τ := ℝ) (fun p : Shape d => ![p.center 0, p.center 1, 0]) (fun p => p.s 0)
    (fun _ => []) (fun _ => []) parts 0
    ⟨List.replicate parts.length 0, List.replicate parts.length 0, [], []⟩ (by simp) (by simp)
  simp only [List.append_nil] at e
  have e' : saveParticles parts = _ := congrArg Prod.snd e
  rw [e']
  refine ⟨by simp, fun i hi => ?_⟩
  simp [hi]

/-- C90 (3D without forces, the code as it is): the point written for a particle is its centre exactly when the third
coordinate of the centre is 0. -/
theorem C90_height_refuted (parts : List (Shape 3)) (i : ℕ) (hi : i < parts.length) :
    (saveParticles parts).points[i]? = some parts[i].center ↔ parts[i].center 2 = 0 := by
  rw [((C90_points parts).2 i hi).1]
  constructor
  · intro h
    exact (congrFun (Option.some.inj h) 2).symm
  · intro h
    congr 1
    funext a
    fin_cases a
    · rfl
    · rfl
    · exact h.symm

/-- Two disks with a force and a torque each; a sphere whose height is lost. -/
example : (saveParticles2 [circle ![1, 2] 3 quat0, circle ![4, 5] 6 quat0] [![7, 8], ![9, 10]]
      [11, 12]).forces[1]? = some ![9, 10, 0] ∧
    (saveParticles [mkShape3 ![1, 2, 3] ![4, 4, 4] 2 2 quat0]).points[0]? = some ![1, 2, 0] :=
  ⟨((C90_particles2 _ _ _ (by simp) (by simp)).2 1 (by simp)).2.2.1, ((C90_points _).2 0 (by simp)).1⟩

end Cafes.Vtk
