/-
Property theorems for the control vector: C47, C48.
-/
import Verif.Props.Particle

namespace Cafes.Particle
open Cafes Cafes.Geometry Cafes.Props
variable {d : ℕ} {A : Type*}

/-- Specification of the layout of the control vector of a process: for each particle, for each of its
nodes, for each component. -/
def layout {P : Type*} (nodes : P → List (Pos d ℤ)) (parts : List (P)) :
    List (P × Pos d ℤ × Fin d) :=
  parts.flatMap fun p => (nodes p).flatMap fun k => (List.finRange d).map fun c => (p, k, c)

theorem length_layout {P : Type*} (nodes : P → List (Pos d ℤ)) (parts : List (P)) :
    (layout nodes parts).length = d * (parts.map fun p => (nodes p).length).sum := by
  unfold layout
  induction parts with
  | nil => simp
  | cons p parts ih =>
    rw [List.flatMap_cons, List.length_append, ih, List.map_cons, List.sum_cons, mul_add]
    congr 1
    induction nodes p with
    | nil => simp
    | cons k l ih' => rw [List.flatMap_cons, List.length_append, ih']; simp; ring

theorem foldl_layout {σ P : Type*} (nodes : P → List (Pos d ℤ)) (parts : List (P))
    (step : σ → P → Pos d ℤ → Fin d → σ) (s : σ) :
    parts.foldl (fun s p => (nodes p).foldl (fun s k => (List.finRange d).foldl (fun s c => step s p k c) s) s) s
      = (layout nodes parts).foldl (fun s x => step s x.1 x.2.1 x.2.2) s := by
  unfold layout
  rw [List.foldl_flatMap]
  congr 1
  funext s p
  rw [List.foldl_flatMap]
  congr 1
  funext s k
  rw [List.foldl_map]

/-- Numbered writes: the state is `(num, u)`, each step writes `val num x` at the key of `x`. -/
theorem foldl_write {S κ : Type*} [DecidableEq κ] (key : S → κ) (val : ℕ → S → ℝ) (l : List S) (n0 : ℕ)
    (u : κ → ℝ) :
    let res := l.foldl (fun (s : ℕ × (κ → ℝ)) x => (s.1 + 1, Function.update s.2 (key x) (val s.1 x))) (n0, u)
    res.1 = n0 + l.length ∧ (∀ k, k ∉ l.map key → res.2 k = u k) ∧
    ((l.map key).Nodup → ∀ (i : ℕ) (hi : i < l.length), res.2 (key l[i]) = val (n0 + i) l[i]) := by
  induction l generalizing n0 u with
  | nil => simp
  | cons a l ih =>
    obtain ⟨h1, h2, h3⟩ := ih (n0 + 1) (Function.update u (key a) (val n0 a))
    simp only [List.foldl_cons]
    refine ⟨by rw [h1, List.length_cons]; omega, ?_, ?_⟩
    · intro k hk
      rw [List.map_cons, List.mem_cons, not_or] at hk
      rw [h2 k hk.2, Function.update_of_ne hk.1]
    · intro hn i hi
      rw [List.map_cons, List.nodup_cons] at hn
      cases i with
      | zero =>
        simp only [List.getElem_cons_zero]
        rw [h2 _ hn.1, Function.update_self]
        simp
      | succ i =>
        simp only [List.getElem_cons_succ]
        rw [h3 hn.2 i (by simpa using hi)]
        congr 1
        omega

/-- Consecutive writes: each step writes `val x` at `num`. -/
theorem foldl_record {S : Type*} (val : S → ℝ) (l : List S) (n0 : ℕ) (u : ℕ → ℝ) :
    let res := l.foldl (fun (s : ℕ × (ℕ → ℝ)) x => (s.1 + 1, Function.update s.2 s.1 (val x))) (n0, u)
    res.1 = n0 + l.length ∧ (∀ k, k < n0 ∨ n0 + l.length ≤ k → res.2 k = u k) ∧
    (∀ (i : ℕ) (hi : i < l.length), res.2 (n0 + i) = val l[i]) := by
  induction l generalizing n0 u with
  | nil => simp
  | cons a l ih =>
    obtain ⟨h1, h2, h3⟩ := ih (n0 + 1) (Function.update u n0 (val a))
    simp only [List.foldl_cons, List.length_cons]
    refine ⟨by rw [h1]; omega, ?_, ?_⟩
    · intro k hk
      rw [h2 k (by omega), Function.update_of_ne (by omega)]
    · intro i hi
      cases i with
      | zero => rw [h2 _ (by omega)]; simp
      | succ i =>
        simp only [List.getElem_cons_succ]
        rw [show n0 + (i + 1) = n0 + 1 + i by omega]
        exact h3 i (by omega)

theorem overlap_eq_boxInside : (Box.overlap : Box d ℤ → Box d ℤ → Box d ℤ) = Box.boxInside := by
  funext b1 b2
  exact (C31_box_inside_eq b1 b2).symm

theorem setRhsImpl_eq (fluid : (Pos d ℝ → Bool) → Box d ℤ → Pos d ℝ → List (Pos d ℤ))
    (box : Box d ℤ) (h : Pos d ℝ) (px : ℕ → ℝ) (af : Bool) (parts : List (Part d A)) (u : NodeVec d d ℝ) :
    let sl := layout (partNodes fluid Box.boxInside box h) parts
    let res := setRhsImpl fluid box h px af parts u
    res.1 = sl.length ∧ (∀ q c, (q, c) ∉ sl.map (fun x => x.2) → res.2 q c = u q c) ∧
    ((sl.map fun x => x.2).Nodup → ∀ (i : ℕ) (hi : i < sl.length),
      res.2 sl[i].2.1 sl[i].2.2 = px i + if af then sl[i].1.rho * sl[i].1.force sl[i].2.2 else 0) := by
  intro sl res
  have hres : res = ((sl.foldl (fun (s : ℕ × (Pos d ℤ × Fin d → ℝ)) x =>
      (s.1 + 1, Function.update s.2 x.2 (if af then px s.1 + x.1.rho * x.1.force x.2.2 else px s.1)))
      (0, fun y => u y.1 y.2)).1, fun q c => (sl.foldl (fun (s : ℕ × (Pos d ℤ × Fin d → ℝ)) x =>
      (s.1 + 1, Function.update s.2 x.2 (if af then px s.1 + x.1.rho * x.1.force x.2.2 else px s.1)))
      (0, fun y => u y.1 y.2)).2 (q, c)) := by
    show setRhsImpl fluid box h px af parts u = _
    unfold setRhsImpl
    rw [overlap_eq_boxInside, foldl_layout (partNodes fluid Box.boxInside box h) parts
      (fun (s : ℕ × NodeVec d d ℝ) p k c => (s.1 + 1, setAt s.2 k c
        (if af then px s.1 + p.rho * p.force c else px s.1)))]
    show sl.foldl _ _ = _
    have gen : ∀ (l : List (Part d A × Pos d ℤ × Fin d)) (n : ℕ) (u : NodeVec d d ℝ),
        l.foldl (fun (s : ℕ × NodeVec d d ℝ) x => (s.1 + 1, setAt s.2 x.2.1 x.2.2
          (if af then px s.1 + x.1.rho * x.1.force x.2.2 else px s.1))) (n, u) =
        ((l.foldl (fun (s : ℕ × (Pos d ℤ × Fin d → ℝ)) x =>
          (s.1 + 1, Function.update s.2 x.2 (if af then px s.1 + x.1.rho * x.1.force x.2.2 else px s.1)))
          (n, fun y => u y.1 y.2)).1, fun q c => (l.foldl (fun (s : ℕ × (Pos d ℤ × Fin d → ℝ)) x =>
          (s.1 + 1, Function.update s.2 x.2 (if af then px s.1 + x.1.rho * x.1.force x.2.2 else px s.1)))
          (n, fun y => u y.1 y.2)).2 (q, c)) := by
      intro l
      induction l with
      | nil => intro n u; rfl
      | cons a l ih =>
        intro n u
        rw [List.foldl_cons, ih, List.foldl_cons]
        have e : (fun y : Pos d ℤ × Fin d => setAt u a.2.1 a.2.2
            (if af then px n + a.1.rho * a.1.force a.2.2 else px n) y.1 y.2) =
            Function.update (fun y : Pos d ℤ × Fin d => u y.1 y.2) a.2
              (if af then px n + a.1.rho * a.1.force a.2.2 else px n) := by
          funext y
          unfold setAt
          by_cases hy : y = a.2
          · subst hy; simp
          · rw [Function.update_of_ne hy, if_neg]
            rintro ⟨h1, h2⟩
            exact hy (Prod.ext h1 h2)
        simp only [e]
    exact gen sl 0 u
  obtain ⟨h1, h2, h3⟩ := foldl_write (fun x : Part d A × Pos d ℤ × Fin d => x.2)
    (fun n x => if af then px n + x.1.rho * x.1.force x.2.2 else px n) sl 0 (fun y => u y.1 y.2)
  rw [hres]
  refine ⟨by rw [h1, zero_add], fun q c hq => h2 (q, c) hq, fun hn i hi => ?_⟩
  have := h3 hn i hi
  rw [zero_add] at this
  show (_ : ℝ) = _
  refine this.trans ?_
  split_ifs <;> simp

theorem computeY_eq (fluid : (Pos d ℝ → Bool) → Box d ℤ → Pos d ℝ → List (Pos d ℤ))
    (box : Box d ℤ) (h : Pos d ℝ) (sol : NodeVec d d ℝ) (parts : List (Part d A)) (py : ℕ → ℝ) :
    let sl := layout (partNodes fluid Box.boxInside box h) parts
    let res := computeY fluid box h sol parts py
    res.1 = sl.length ∧ (∀ k, sl.length ≤ k → res.2 k = py k) ∧
    (∀ (i : ℕ) (hi : i < sl.length), res.2 i = sol sl[i].2.1 sl[i].2.2) := by
  intro sl res
  have hres : res = sl.foldl (fun (s : ℕ × (ℕ → ℝ)) x => (s.1 + 1, Function.update s.2 s.1
      (sol x.2.1 x.2.2))) (0, py) := by
    show computeY fluid box h sol parts py = _
    unfold computeY
    rw [foldl_layout (partNodes fluid Box.boxInside box h) parts
      (fun (s : ℕ × (ℕ → ℝ)) p k c => (s.1 + 1, Function.update s.2 s.1 (sol k c)))]
  obtain ⟨h1, h2, h3⟩ := foldl_record (fun x : Part d A × Pos d ℤ × Fin d => sol x.2.1 x.2.2) sl 0 py
  rw [hres]
  refine ⟨by rw [h1, zero_add], fun k hk => h2 k (by omega), fun i hi => ?_⟩
  rw [← h3 i hi, zero_add]


/-! ### C47: layout of the control vector -/

theorem length_slots (fluid : (Pos d ℝ → Bool) → Box d ℤ → Pos d ℝ → List (Pos d ℤ))
    (box : Box d ℤ) (h : Pos d ℝ) (scale : ℕ) (parts : List (Part d A)) :
    (layout (partNodes fluid Box.boxInside box h) parts).length =
      d * materialsSize fluid box h scale parts := by
  rw [length_layout, materialsSize_eq]
  congr 2
  apply List.map_congr_left
  intro p _
  unfold partNodes partMaterials
  split_ifs <;> rfl

/-- C47 (`compute_y`): on a process, the entry `i` of the result is the value of the solution at the `i`-th
slot of the layout; exactly `Dimensions * size` entries are written, `size` being the value returned by
`set_materials`. -/
theorem C47_compute_y (fluid : (Pos d ℝ → Bool) → Box d ℤ → Pos d ℝ → List (Pos d ℤ))
    (box : Box d ℤ) (h : Pos d ℝ) (scale : ℕ) (sol : NodeVec d d ℝ) (parts : List (Part d A)) (py : ℕ → ℝ) :
    let sl := layout (partNodes fluid Box.boxInside box h) parts
    sl.length = d * materialsSize fluid box h scale parts ∧
    (computeY fluid box h sol parts py).1 = sl.length ∧
    (∀ (i : ℕ) (hi : i < sl.length), (computeY fluid box h sol parts py).2 i = sol sl[i].2.1 sl[i].2.2) ∧
    (∀ i, sl.length ≤ i → (computeY fluid box h sol parts py).2 i = py i) :=
  ⟨length_slots _ _ _ _ _, (computeY_eq fluid box h sol parts py).1,
    (computeY_eq fluid box h sol parts py).2.2, (computeY_eq fluid box h sol parts py).2.1⟩

/-- C47 (`compute_y` with mean): the same layout; the rigid velocity of the particle is subtracted. -/
theorem C47_compute_y_mean (S : Spin d A) (fluid : (Pos d ℝ → Bool) → Box d ℤ → Pos d ℝ → List (Pos d ℤ))
    (box : Box d ℤ) (h : Pos d ℝ) (sol : NodeVec d d ℝ) (parts : List (Part d A × Pos d ℝ × A)) (py : ℕ → ℝ) :
    let sl := layout (fun q : Part d A × Pos d ℝ × A => partNodes fluid Box.boxInside box h q.1) parts
    (computeYMean S fluid box h sol parts py).1 = sl.length ∧
    (∀ (i : ℕ) (hi : i < sl.length), (computeYMean S fluid box h sol parts py).2 i =
      sol sl[i].2.1 sl[i].2.2 - (sl[i].1.2.1 sl[i].2.2 + sl[i].1.1.ciR *
        S.act sl[i].1.2.2 (fun j => node h sl[i].2.1 j - sl[i].1.1.center j) sl[i].2.2)) ∧
    (∀ i, sl.length ≤ i → (computeYMean S fluid box h sol parts py).2 i = py i) := by
  intro sl
  have hres : computeYMean S fluid box h sol parts py =
      sl.foldl (fun (s : ℕ × (ℕ → ℝ)) x => (s.1 + 1, Function.update s.2 s.1
        (sol x.2.1 x.2.2 - (x.1.2.1 x.2.2 + x.1.1.ciR *
          S.act x.1.2.2 (fun j => node h x.2.1 j - x.1.1.center j) x.2.2)))) (0, py) := by
    unfold computeYMean
    simp only [vecAddVec, vecMulScal, compLoop_apply]
    rw [foldl_layout (fun q : Part d A × Pos d ℝ × A => partNodes fluid Box.boxInside box h q.1) parts
      (fun (s : ℕ × (ℕ → ℝ)) q k c => (s.1 + 1, Function.update s.2 s.1 (sol k c - (q.2.1 c +
        S.act q.2.2 (fun j => (k j : ℝ) * h j - q.1.center j) c * q.1.ciR))))]
    congr 1
    funext s x
    rw [mul_comm (S.act _ _ _) x.1.1.ciR]
    rfl
  obtain ⟨h1, h2, h3⟩ := foldl_record (fun x : (Part d A × Pos d ℝ × A) × Pos d ℤ × Fin d =>
    sol x.2.1 x.2.2 - (x.1.2.1 x.2.2 + x.1.1.ciR *
      S.act x.1.2.2 (fun j => node h x.2.1 j - x.1.1.center j) x.2.2)) sl 0 py
  rw [hres]
  refine ⟨by rw [h1, zero_add], fun i hi => ?_, fun k hk => h2 k (by omega)⟩
  rw [← h3 i hi, zero_add]

/-- C47 (`set_rhs_problem`): the control is read from the first entry to the last one, `Dimensions * size`
of them, in the order of the layout; when no node is in two particles the `i`-th one ends up at the `i`-th
slot. -/
theorem C47_set_rhs (fluid : (Pos d ℝ → Bool) → Box d ℤ → Pos d ℝ → List (Pos d ℤ))
    (box : Box d ℤ) (h : Pos d ℝ) (scale : ℕ) (px : ℕ → ℝ) (af : Bool) (parts : List (Part d A))
    (u : NodeVec d d ℝ) :
    let sl := layout (partNodes fluid Box.boxInside box h) parts
    sl.length = d * materialsSize fluid box h scale parts ∧
    (setRhsImpl fluid box h px af parts u).1 = sl.length ∧
    ((sl.map fun x => x.2).Nodup → ∀ (i : ℕ) (hi : i < sl.length),
      (setRhsImpl fluid box h px af parts u).2 sl[i].2.1 sl[i].2.2 =
        px i + if af then sl[i].1.rho * sl[i].1.force sl[i].2.2 else 0) :=
  ⟨length_slots _ _ _ _ _, (setRhsImpl_eq fluid box h px af parts u).1,
    (setRhsImpl_eq fluid box h px af parts u).2.2⟩

/-- C47 (never past the end): entries of the control from `Dimensions * size` on are not used. -/
theorem C47_reads_in_bounds (fluid : (Pos d ℝ → Bool) → Box d ℤ → Pos d ℝ → List (Pos d ℤ))
    (box : Box d ℤ) (h : Pos d ℝ) (scale : ℕ) (px px' : ℕ → ℝ) (af : Bool) (parts : List (Part d A))
    (u : NodeVec d d ℝ)
    (hpx : ∀ i < d * materialsSize fluid box h scale parts, px i = px' i) :
    setRhsImpl fluid box h px af parts u = setRhsImpl fluid box h px' af parts u := by
  have key : ∀ (l : List (Part d A × Pos d ℤ × Fin d)) (n : ℕ) (u : NodeVec d d ℝ)
      (_ : ∀ i < n + l.length, px i = px' i),
      l.foldl (fun (s : ℕ × NodeVec d d ℝ) x => (s.1 + 1, setAt s.2 x.2.1 x.2.2
        (if af then px s.1 + x.1.rho * x.1.force x.2.2 else px s.1))) (n, u) =
      l.foldl (fun (s : ℕ × NodeVec d d ℝ) x => (s.1 + 1, setAt s.2 x.2.1 x.2.2
        (if af then px' s.1 + x.1.rho * x.1.force x.2.2 else px' s.1))) (n, u) := by
    intro l
    induction l with
    | nil => intro n u _; rfl
    | cons a l ih =>
      intro n u hh
      rw [List.length_cons] at hh
      rw [List.foldl_cons, List.foldl_cons]
      simp only
      rw [hh n (by omega)]
      exact ih (n + 1) _ fun i hi => hh i (by omega)
  unfold setRhsImpl
  rw [overlap_eq_boxInside, foldl_layout (partNodes fluid Box.boxInside box h) parts
      (fun (s : ℕ × NodeVec d d ℝ) p k c => (s.1 + 1, setAt s.2 k c
        (if af then px s.1 + p.rho * p.force c else px s.1))),
    foldl_layout (partNodes fluid Box.boxInside box h) parts
      (fun (s : ℕ × NodeVec d d ℝ) p k c => (s.1 + 1, setAt s.2 k c
        (if af then px' s.1 + p.rho * p.force c else px' s.1)))]
  apply key
  intro i hi
  rw [zero_add, length_slots fluid box h scale parts] at hi
  exact hpx i hi

/-- C47 (the two traversals are inverse of each other): reading back the field written by
`set_rhs_problem_impl` with `compute_y` gives the control, when no node is in two particles. -/
theorem C47_round_trip (fluid : (Pos d ℝ → Bool) → Box d ℤ → Pos d ℝ → List (Pos d ℤ))
    (box : Box d ℤ) (h : Pos d ℝ) (scale : ℕ) (px py : ℕ → ℝ) (parts : List (Part d A))
    (u : NodeVec d d ℝ)
    (hdis : ((layout (partNodes fluid Box.boxInside box h) parts).map fun x => x.2).Nodup)
    (i : ℕ) (hi : i < d * materialsSize fluid box h scale parts) :
    (computeY fluid box h (setRhsImpl fluid box h px false parts u).2 parts py).2 i = px i := by
  rw [← length_slots] at hi
  rw [(computeY_eq fluid box h _ parts py).2.2 i hi, (setRhsImpl_eq fluid box h px false parts u).2.2 hdis i hi]
  simp

/-- Particles without a common node have a layout without repetition. -/
theorem layout_nodup {nodes : Part d A → List (Pos d ℤ)} {parts : List (Part d A)}
    (h1 : ∀ p ∈ parts, (nodes p).Nodup)
    (h2 : parts.Pairwise fun p p' => ∀ k, k ∈ nodes p → k ∉ nodes p') :
    ((layout nodes parts).map fun x => x.2).Nodup := by
  unfold layout
  rw [List.map_flatMap]
  rw [List.nodup_flatMap]
  constructor
  · intro p hp
    rw [List.map_flatMap, List.nodup_flatMap]
    constructor
    · intro k _
      rw [List.map_map]
      apply (List.nodup_finRange d).map
      intro c c' hcc
      simpa using hcc
    · apply (h1 p hp).imp
      intro k k' hkk x hx hx'
      simp only [List.map_map, List.mem_map, Function.comp] at hx hx'
      obtain ⟨c, -, rfl⟩ := hx
      obtain ⟨c', -, h⟩ := hx'
      exact hkk (congrArg Prod.fst h).symm
  · apply h2.imp
    intro p p' hpp x hx hx'
    simp only [List.map_flatMap, List.mem_flatMap, List.map_map, List.mem_map, Function.comp] at hx hx'
    obtain ⟨k, hk, c, -, rfl⟩ := hx
    obtain ⟨k', hk', c', -, h⟩ := hx'
    have : k' = k := congrArg Prod.fst h
    subst this
    exact hpp k' hk hk'

/-! ### C48: the control as a force density -/

/-- No point is in two different particles of the list. -/
def Disjoint (parts : List (Part d A)) : Prop :=
  parts.Pairwise fun p p' => ∀ x, p.contains x = true → p'.contains x = false

section
variable {fluid : (Pos d ℝ → Bool) → Box d ℤ → Pos d ℝ → List (Pos d ℤ)} (hf : IsFluid fluid)
  (L : Fin d → Dir) (hL : GoodMesh L) (h : Pos d ℝ) (parts : List (Part d A))
include hf hL

theorem slots_nodup (hd : Disjoint parts) (r : Fin d → ℕ) (hr : r ∈ procs L) :
    ((layout (partNodes fluid Box.boxInside (getDMBounds L r true) h) parts).map fun x => x.2).Nodup := by
  apply layout_nodup
  · intro p _
    exact partNodes_nodup hf L hL h p r hr
  · apply hd.imp
    intro p p' hpp k hk hk'
    have h1 := ((mem_partNodes hf L hL h p r hr k).1 hk).2.2
    have h2 := ((mem_partNodes hf L hL h p' r hr k).1 hk').2.2
    rw [hpp _ h1] at h2
    exact absurd h2 (by simp)

/-- A node written by process `r` belongs to the box of `r` and to a particle. -/
theorem slot_mem (r : Fin d → ℕ) (hr : r ∈ procs L) (x : Part d A × Pos d ℤ × Fin d)
    (hx : x ∈ layout (partNodes fluid Box.boxInside (getDMBounds L r true) h) parts) :
    x.1 ∈ parts ∧ x.2.1 ∈ (getDMBounds L r true).halfOpen ∧ x.1.contains (node h x.2.1) = true := by
  unfold layout at hx
  simp only [List.mem_flatMap, List.mem_map] at hx
  obtain ⟨p, hp, k, hk, c, -, rfl⟩ := hx
  have := (mem_partNodes hf L hL h p r hr k).1 hk
  exact ⟨hp, this.1, this.2.2⟩

theorem controlField_spec (hd : Disjoint parts) (pxs : (Fin d → ℕ) → ℕ → ℝ) (af : Bool)
    (rs : List (Fin d → ℕ)) (hrs : ∀ r ∈ rs, r ∈ procs L) (hnd : rs.Nodup) (u : NodeVec d d ℝ) :
    let F := rs.foldl (fun u r => (setRhsImpl fluid (getDMBounds L r true) h (pxs r) af parts u).2) u
    (∀ r ∈ rs, ∀ (i : ℕ) (hi : i < (layout (partNodes fluid Box.boxInside (getDMBounds L r true) h) parts).length),
      let x := (layout (partNodes fluid Box.boxInside (getDMBounds L r true) h) parts)[i]
      F x.2.1 x.2.2 = pxs r i + if af then x.1.rho * x.1.force x.2.2 else 0) ∧
    (∀ q c, (∀ r ∈ rs, (q, c) ∉ (layout (partNodes fluid Box.boxInside (getDMBounds L r true) h) parts).map
      fun x => x.2) → F q c = u q c) := by
  induction rs generalizing u with
  | nil => simp
  | cons r rs ih =>
    rw [List.nodup_cons] at hnd
    have hr := hrs r List.mem_cons_self
    obtain ⟨i1, i2⟩ := ih (fun s hs => hrs s (List.mem_cons_of_mem _ hs)) hnd.2
      (setRhsImpl fluid (getDMBounds L r true) h (pxs r) af parts u).2
    obtain ⟨-, s2, s3⟩ := setRhsImpl_eq fluid (getDMBounds L r true) h (pxs r) af parts u
    simp only [List.foldl_cons]
    constructor
    · intro s hs i hi
      rw [List.mem_cons] at hs
      rcases hs with rfl | hs
      · rw [i2, s3 (slots_nodup hf L hL h parts hd s hr) i hi]
        intro t ht hm
        rw [List.mem_map] at hm
        obtain ⟨y, hy, hxy⟩ := hm
        have hti := hrs t (List.mem_cons_of_mem _ ht)
        have m1 := (slot_mem hf L hL h parts t hti y hy).2.1
        have m2 := (slot_mem hf L hL h parts s hr _ (List.getElem_mem hi)).2.1
        have e : y.2.1 = (layout (partNodes fluid Box.boxInside (getDMBounds L s true) h) parts)[i].2.1 :=
          congrArg Prod.fst hxy
        rw [e] at m1
        obtain ⟨w, -, hw⟩ := (elems_partition L hL).1 _ ((elems_partition L hL).2 s hr m2)
        have := (hw t ⟨hti, m1⟩).trans (hw s ⟨hr, m2⟩).symm
        exact hnd.1 (this ▸ ht)
      · exact i1 s hs i hi
    · intro q c hq
      rw [i2 q c fun s hs => hq s (List.mem_cons_of_mem _ hs), s2 q c (hq r List.mem_cons_self)]

end

/-- C48: for particles without common points, the force vector holds at the `i`-th slot of each process the
`i`-th entry of its control (plus `rho * force` of the particle when the forces are applied), and vanishes at
every node that is in no particle; its product by the mass matrix is added to the right-hand side. -/
theorem C48_force_density {fluid : (Pos d ℝ → Bool) → Box d ℤ → Pos d ℝ → List (Pos d ℤ)}
    (hf : IsFluid fluid) (L : Fin d → Dir) (hL : GoodMesh L) (h : Pos d ℝ) (parts : List (Part d A))
    (hd : Disjoint parts) (pxs : (Fin d → ℕ) → ℕ → ℝ) (af : Bool)
    (rs : List (Fin d → ℕ)) (hrs : ∀ r, r ∈ rs ↔ r ∈ procs L) (hnd : rs.Nodup)
    (mass : NodeVec d d ℝ → NodeVec d d ℝ) (rhs : NodeVec d d ℝ) :
    ∃ F : NodeVec d d ℝ,
      (∀ r ∈ procs L, ∀ (i : ℕ)
        (hi : i < (layout (partNodes fluid Box.boxInside (getDMBounds L r true) h) parts).length),
        let x := (layout (partNodes fluid Box.boxInside (getDMBounds L r true) h) parts)[i]
        F x.2.1 x.2.2 = pxs r i + if af then x.1.rho * x.1.force x.2.2 else 0) ∧
      (∀ q c, (∀ p ∈ parts, p.contains (node h q) = false) → F q c = 0) ∧
      setRhsProblem fluid L rs h mass pxs af parts rhs = rhs + mass F := by
  obtain ⟨h1, h2⟩ := controlField_spec hf L hL h parts hd pxs af rs (fun r hr => (hrs r).1 hr) hnd 0
  refine ⟨controlField fluid L rs h pxs af parts, fun r hr i hi => h1 r ((hrs r).2 hr) i hi, ?_, rfl⟩
  intro q c hq
  refine h2 q c fun r hr hm => ?_
  rw [List.mem_map] at hm
  obtain ⟨y, hy, hxy⟩ := hm
  have := slot_mem hf L hL h parts r ((hrs r).1 hr) y hy
  have e : y.2.1 = q := congrArg Prod.fst hxy
  rw [e, hq y.1 this.1] at this
  exact absurd this.2.2 (by simp)

/-- C48 (every interior node is reached): a node of the mesh in a particle is a slot of some process. -/
theorem C48_reached {fluid : (Pos d ℝ → Bool) → Box d ℤ → Pos d ℝ → List (Pos d ℤ)}
    (hf : IsFluid fluid) (L : Fin d → Dir) (hL : GoodMesh L) (h : Pos d ℝ) (parts : List (Part d A))
    (p : Part d A) (hp : p ∈ parts) (henc : ∀ k, p.contains (node h k) = true → k ∈ p.bbox.halfOpen)
    (q : Pos d ℤ) (hq : q ∈ gridElems L) (hc : p.contains (node h q) = true) (c : Fin d) :
    ∃ r ∈ procs L, (p, q, c) ∈ layout (partNodes fluid Box.boxInside (getDMBounds L r true) h) parts := by
  obtain ⟨r, ⟨hr, hk⟩, -⟩ := (nodes_once hf L hL h p henc q).1 hq hc
  refine ⟨r, hr, ?_⟩
  unfold layout
  simp only [List.mem_flatMap, List.mem_map]
  exact ⟨p, hp, q, hk, c, List.mem_finRange c, rfl⟩

example : Disjoint [exPart] := by simp [Disjoint]

end Cafes.Particle
