/-
Property theorems: C105, triangulation of a set of points.
-/
import Verif.Model.Triangulation
import Mathlib.Tactic.Linarith
import Mathlib.Tactic.FinCases

namespace Cafes.Props
open Cafes Cafes.Tri

/-- The coordinates of the points one after the other. -/
noncomputable def flat {d : ℕ} (points : List (Pos d ℝ)) : List ℝ := points.flatMap List.ofFn

theorem steps_none (l : List ℤ) (ind n : ℕ) : (l.foldl (vertexStep ind) (none, n)).1 = none := by
  induction l generalizing n with
  | nil => rfl
  | cons x l ih => exact ih _

theorem write_triple (a b c : ℤ) (pre rest : List (List ℤ)) :
    writeTriangle (some (pre ++ [0, 0, 0] :: rest)) pre.length [a, b, c] =
      some (pre ++ [a, b, c] :: rest) := by
  simp [writeTriangle, vertexStep]

/-- A facet with more than three vertices. -/
theorem write_long (a b c e : ℤ) (l : List ℤ) (pre rest : List (List ℤ)) :
    writeTriangle (some (pre ++ [0, 0, 0] :: rest)) pre.length (a :: b :: c :: e :: l) = none := by
  simp only [writeTriangle, List.foldl_cons]
  have h1 : vertexStep pre.length (vertexStep pre.length (vertexStep pre.length (vertexStep pre.length
      (some (pre ++ [0, 0, 0] :: rest), 0) a) b) c) e = (none, 4) := by
    simp [vertexStep]
  rw [h1]
  exact steps_none l _ _

/-- Every facet is a triangle: what `Qt` guarantees. -/
def Simplicial (facets : List Facet) : Prop := ∀ f ∈ facets, f.ids.length = 3

theorem triangles_loop2 (facets : List Facet) (hs : Simplicial facets) (pre : List (List ℤ)) (n : ℕ) :
    facets.foldl (fun (s : Option (List (List ℤ)) × ℕ) f =>
      if f.triCoplanar then (writeTriangle s.1 s.2 f.ids, s.2 + 1) else s)
      (some (pre ++ List.replicate (facets.length + n) [0, 0, 0]), pre.length) =
    (some (pre ++ (facets.filter (·.triCoplanar)).map (·.ids) ++
      List.replicate ((facets.filter (!·.triCoplanar)).length + n) [0, 0, 0]),
      pre.length + (facets.filter (·.triCoplanar)).length) := by
  induction facets generalizing pre n with
  | nil => simp
  | cons f facets ih =>
    have hs' : Simplicial facets := fun g hg => hs g (List.mem_cons_of_mem _ hg)
    rw [List.foldl_cons]
    by_cases hf : f.triCoplanar = true
    · have h3 := hs f (by simp)
      obtain ⟨a, b, c, he⟩ := List.length_eq_three.1 h3
      have hr : List.replicate ((f :: facets).length + n) ([0, 0, 0] : List ℤ) =
          [0, 0, 0] :: List.replicate (facets.length + n) [0, 0, 0] := by
        rw [List.length_cons, show facets.length + 1 + n = (facets.length + n) + 1 by omega,
          List.replicate_succ]
      rw [if_pos hf, hr, he, write_triple]
      have := ih hs' (pre ++ [[a, b, c]]) n
      simp only [List.append_assoc, List.singleton_append, List.cons_append, List.nil_append,
        List.length_append, List.length_singleton] at this
      rw [this]
      simp [hf, he]
      omega
    · rw [if_neg hf]
      have hr : (f :: facets).length + n = facets.length + (n + 1) := by simp; omega
      rw [hr, ih hs' pre (n + 1)]
      simp [hf]
      omega

theorem triangles_loop3 (facets : List Facet) (hs : Simplicial facets) (pre : List (List ℤ)) :
    facets.foldl (fun (s : Option (List (List ℤ)) × ℕ) f => (writeTriangle s.1 s.2 f.ids, s.2 + 1))
      (some (pre ++ List.replicate facets.length [0, 0, 0]), pre.length) =
    (some (pre ++ facets.map (·.ids)), pre.length + facets.length) := by
  induction facets generalizing pre with
  | nil => simp
  | cons f facets ih =>
    have hs' : Simplicial facets := fun g hg => hs g (List.mem_cons_of_mem _ hg)
    have h3 := hs f (by simp)
    obtain ⟨a, b, c, he⟩ := List.length_eq_three.1 h3
    rw [List.foldl_cons, List.length_cons, List.replicate_succ, he, write_triple]
    have := ih hs' (pre ++ [[a, b, c]])
    simp only [List.append_assoc, List.singleton_append, List.cons_append, List.nil_append,
      List.length_append, List.length_singleton] at this
    rw [this]
    simp [he]
    omega

theorem store_at {A : Type*} (pre rest : List A) (x v : A) (i : ℕ) (hi : i = pre.length) :
    store (some (pre ++ x :: rest)) i v = some (pre ++ v :: rest) := by
  subst hi
  simp [store]

theorem flat_succ {d : ℕ} (points : List (Pos d ℝ)) (n : ℕ) (hn : n < points.length) :
    flat (points.take (n + 1)) = flat (points.take n) ++ List.ofFn points[n] := by
  rw [List.take_succ_eq_append_getElem hn]
  unfold flat
  rw [List.flatMap_append]
  simp

theorem coords2_eq (points : List (Pos 2 ℝ)) : coords2 points = some (flat points) := by
  have : ∀ n ≤ points.length, (List.range n).foldl (fun c i =>
      let p := points.getD i 0
      store (store c (2 * i) (p 0)) (2 * i + 1) (p 1))
      (some (List.replicate (points.length * 2) (0:ℝ))) =
      some (flat (points.take n) ++ List.replicate ((points.length - n) * 2) 0) := by
    intro n
    induction n with
    | zero => intro _; simp [flat]
    | succ n ih =>
      intro hn
      rw [List.range_succ, List.foldl_append, ih (by omega)]
      have hl : (flat (points.take n)).length = 2 * n := by
        simp [flat, List.length_flatMap]; omega
      have hr : (points.length - n) * 2 = ((points.length - (n + 1)) * 2) + 1 + 1 := by omega
      have hg : points.getD n 0 = points[n]'(by omega) := by
        rw [List.getD_eq_getElem?_getD, List.getElem?_eq_getElem (by omega)]; rfl
      simp only [List.foldl_cons, List.foldl_nil]
      rw [hr, List.replicate_succ, List.replicate_succ, store_at _ _ _ _ _ hl.symm, hg]
      have h2 := store_at (flat (points.take n) ++ [points[n] 0])
        (List.replicate ((points.length - (n + 1)) * 2) 0) 0 (points[n] 1) (2 * n + 1) (by simp [hl])
      simp only [List.append_assoc, List.singleton_append] at h2
      rw [h2, flat_succ points n (by omega)]
      simp [List.ofFn_succ]
  have h := this points.length le_rfl
  simp only [List.take_length, Nat.sub_self, Nat.zero_mul, List.replicate_zero, List.append_nil] at h
  exact h

theorem coords3_eq (points : List (Pos 3 ℝ)) : coords3 points = some (flat points) := by
  have : ∀ n ≤ points.length, (List.range n).foldl (fun c i =>
      let p := points.getD i 0
      store (store (store c (3 * i) (p 0)) (3 * i + 1) (p 1)) (3 * i + 2) (p 2))
      (some (List.replicate (points.length * 3) (0:ℝ))) =
      some (flat (points.take n) ++ List.replicate ((points.length - n) * 3) 0) := by
    intro n
    induction n with
    | zero => intro _; simp [flat]
    | succ n ih =>
      intro hn
      rw [List.range_succ, List.foldl_append, ih (by omega)]
      have hl : (flat (points.take n)).length = 3 * n := by
        simp [flat, List.length_flatMap]; omega
      have hr : (points.length - n) * 3 = ((points.length - (n + 1)) * 3) + 1 + 1 + 1 := by omega
      have hg : points.getD n 0 = points[n]'(by omega) := by
        rw [List.getD_eq_getElem?_getD, List.getElem?_eq_getElem (by omega)]; rfl
      simp only [List.foldl_cons, List.foldl_nil]
      rw [hr, List.replicate_succ, List.replicate_succ, List.replicate_succ, store_at _ _ _ _ _ hl.symm, hg]
      have h2 := store_at (flat (points.take n) ++ [points[n] 0])
        (0 :: List.replicate ((points.length - (n + 1)) * 3) 0) 0 (points[n] 1) (3 * n + 1) (by simp [hl])
      have h3 := store_at (flat (points.take n) ++ [points[n] 0, points[n] 1])
        (List.replicate ((points.length - (n + 1)) * 3) 0) 0 (points[n] 2) (3 * n + 2) (by simp [hl])
      simp only [List.append_assoc, List.singleton_append, List.cons_append, List.nil_append] at h2 h3
      rw [h2, h3, flat_succ points n (by omega)]
      simp [List.ofFn_succ]
  have h := this points.length le_rfl
  simp only [List.take_length, Nat.sub_self, Nat.zero_mul, List.replicate_zero, List.append_nil] at h
  exact h

/-- C105 (3D): Qhull receives the coordinates of the points one after the other, and for every set of points
and every answer made of triangles, the function returns the vertex ids of all the facets, in their order. -/
theorem C105_hull3 (qhull : List ℝ → List Facet) (points : List (Pos 3 ℝ))
    (hs : Simplicial (qhull (flat points))) :
    triangulation3 qhull points = some ((qhull (flat points)).map (·.ids)) := by
  unfold triangulation3
  rw [coords3_eq]
  have := triangles_loop3 _ hs []
  simp only [List.nil_append, List.length_nil] at this
  exact congrArg Prod.fst this

/-- C105 (2D, exact): the function returns the ids of the facets flagged `isTriCoplanar`, in their order,
followed by one triangle (0, 0, 0) per facet not flagged. -/
theorem C105_delaunay2 (qhull : List ℝ → List Facet) (points : List (Pos 2 ℝ))
    (hs : Simplicial (qhull (flat points))) :
    triangulation2 qhull points = some (((qhull (flat points)).filter (·.triCoplanar)).map (·.ids) ++
      List.replicate ((qhull (flat points)).filter (!·.triCoplanar)).length [0, 0, 0]) := by
  unfold triangulation2
  rw [coords2_eq]
  have := triangles_loop2 _ hs [] 0
  simp only [List.nil_append, List.length_nil, Nat.add_zero] at this
  exact congrArg Prod.fst this

/-- C105 fails in 2D: whenever Qhull returns a facet that it did not have to cut (a simplicial facet in general
position, not flagged), the function returns the degenerate triangle (0, 0, 0), and not that facet unless
another one has the same vertices. -/
theorem C105_delaunay2_refuted (qhull : List ℝ → List Facet) (points : List (Pos 2 ℝ))
    (hs : Simplicial (qhull (flat points))) (f : Facet) (hf : f ∈ qhull (flat points))
    (hn : f.triCoplanar = false) :
    ∃ t, triangulation2 qhull points = some t ∧ [0, 0, 0] ∈ t ∧
      (f.ids ≠ [0, 0, 0] → (∀ g ∈ qhull (flat points), g.triCoplanar = true → g.ids ≠ f.ids) → f.ids ∉ t) := by
  refine ⟨_, C105_delaunay2 qhull points hs, ?_, fun h0 hg hm => ?_⟩
  · rw [List.mem_append, List.mem_replicate]
    refine Or.inr ⟨?_, rfl⟩
    intro h0
    have := List.length_eq_zero_iff.1 h0
    have hm : f ∈ (qhull (flat points)).filter (!·.triCoplanar) := List.mem_filter.2 ⟨hf, by simp [hn]⟩
    rw [this] at hm
    simp at hm
  · rw [List.mem_append] at hm
    rcases hm with hm | hm
    · obtain ⟨g, hg1, hg2⟩ := List.mem_map.1 hm
      have := List.mem_filter.1 hg1
      exact hg g this.1 this.2 hg2
    · exact h0 (List.mem_replicate.1 hm).2

/-- C105 (both, error): a first facet with more than three vertices is written past the end of the array. -/
theorem C105_overrun3 (qhull : List ℝ → List Facet) (points : List (Pos 3 ℝ)) (a b c e : ℤ)
    (l : List ℤ) (t : Bool) (rest : List Facet)
    (h : qhull (flat points) = ⟨t, a :: b :: c :: e :: l⟩ :: rest) : triangulation3 qhull points = none := by
  unfold triangulation3
  rw [coords3_eq]
  simp only [Option.bind_some, h, triangles3, List.foldl_cons, List.length_cons, List.replicate_succ]
  have hw := write_long a b c e l [] (List.replicate rest.length [0, 0, 0])
  simp only [List.nil_append, List.length_nil] at hw
  rw [hw]
  have wn : ∀ (i : ℕ) (ids : List ℤ), writeTriangle none i ids = none := fun i ids => steps_none ids i 0
  have : ∀ (fs : List Facet) (n : ℕ), (fs.foldl (fun (s : Option (List (List ℤ)) × ℕ) f =>
      (writeTriangle s.1 s.2 f.ids, s.2 + 1)) (none, n)).1 = none := by
    intro fs
    induction fs with
    | nil => intro n; rfl
    | cons f fs ih => intro n; rw [List.foldl_cons, wn]; exact ih _
  exact this rest _

/-- A tetrahedron, and a square cut in two with a third facet that was not cut. -/
example : triangulation3 (fun _ => [⟨false, [0, 1, 2]⟩, ⟨false, [0, 1, 3]⟩, ⟨false, [0, 2, 3]⟩,
      ⟨false, [1, 2, 3]⟩]) [![0, 0, 0], ![1, 0, 0], ![0, 1, 0], ![0, 0, 1]] =
      some [[0, 1, 2], [0, 1, 3], [0, 2, 3], [1, 2, 3]] ∧
    triangulation2 (fun _ => [⟨true, [0, 1, 2]⟩, ⟨false, [1, 3, 4]⟩, ⟨true, [1, 2, 3]⟩])
      [![0, 0], ![1, 0], ![0, 1], ![1, 1], ![3, 1]] = some [[0, 1, 2], [1, 2, 3], [0, 0, 0]] := by
  constructor
  · rw [C105_hull3]
    · rfl
    · intro f hf
      simp only [List.mem_cons, List.not_mem_nil, or_false] at hf
      rcases hf with rfl | rfl | rfl | rfl <;> rfl
  · rw [C105_delaunay2]
    · rfl
    · intro f hf
      simp only [List.mem_cons, List.not_mem_nil, or_false] at hf
      rcases hf with rfl | rfl | rfl <;> rfl

end Cafes.Props
