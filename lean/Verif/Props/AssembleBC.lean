/-
Property theorems for Dirichlet conditions on assembled matrices: C28.
-/
import Verif.Props.Assemble

namespace Cafes.Props
open Cafes Cafes.Spec
variable {K : Type*}

open Classical in
/-- The matrix `A` with the rows of the dofs satisfying `P` replaced by identity rows. -/
noncomputable def identityRows [Zero K] [One K] (P : Dof → Prop) (A : GMat K) : GMat K :=
  fun p q => if P p then (if q = p then 1 else 0) else A p q

theorem identityRows_comp [Zero K] [One K] (P Q : Dof → Prop) (A : GMat K) :
    identityRows P (identityRows Q A) = identityRows (fun p => P p ∨ Q p) A := by
  funext p q
  unfold identityRows
  by_cases h1 : P p <;> by_cases h2 : Q p <;> simp [h1, h2]

theorem matZeroRowsLocal_eq [Zero K] [One K] (map : ℤ → Option Dof) (ids : List ℤ)
    (h : ∀ id ∈ ids, ∃ p, map id = some p) (A : GMat K) :
    matZeroRowsLocal map ids (some A) =
      some (identityRows (fun p => ∃ id ∈ ids, map id = some p) A) := by
  classical
  induction ids generalizing A with
  | nil =>
    unfold matZeroRowsLocal identityRows
    simp
  | cons a l ih =>
    obtain ⟨p0, hp0⟩ := h a (by simp)
    have hs : matZeroRowsLocal map (a :: l) (some A) =
        matZeroRowsLocal map l (some (identityRows (fun p => p = p0) A)) := by
      unfold matZeroRowsLocal identityRows
      simp only [List.foldl_cons, hp0]
      congr 2
      funext p' q'
      by_cases hh : p' = p0 <;> simp [hh]
    rw [hs, ih (fun id hid => h id (by simp [hid])), identityRows_comp]
    congr 2
    funext p
    simp only [List.mem_cons, eq_iff_iff]
    constructor
    · rintro (⟨id, hid, hm⟩ | rfl)
      · exact ⟨id, Or.inr hid, hm⟩
      · exact ⟨a, Or.inl rfl, hp0⟩
    · rintro ⟨id, rfl | hid, hm⟩
      · rw [hp0] at hm
        exact Or.inr (Option.some.inj hm).symm
      · exact Or.inl ⟨id, hid, hm⟩

/-- The local ids of the rows that `set_dirichlet_on_mat_impl` zeroes on process `r`. -/
def bcIds (Lv : Fin 2 → Dir) (size : ℕ) (r : Fin 2 → ℕ) : List ℤ :=
  let nx := if size = 1 then (Lv 0).m else (Lv 0).gxm (r 0)
  let ny := if size = 1 then (Lv 1).m else (Lv 1).gxm (r 1)
  let col := fun i => (forRange 0 ny).flatMap fun j => [2 * (i + j * nx), 2 * (i + j * nx) + 1]
  let row := fun j => (forRange 0 nx).flatMap fun i => [2 * (i + j * nx), 2 * (i + j * nx) + 1]
  let low := fun i : Fin 2 => !(Lv i).periodic && decide ((Lv i).xs (r i) = 0)
  let up := fun i : Fin 2 =>
    !(Lv i).periodic && decide ((Lv i).xs (r i) + (Lv i).xm (r i) = (Lv i).m)
  (((if low 0 then col 0 else []) ++
    (if up 0 then col (if size = 1 then (Lv 0).m - 1 else (Lv 0).gxm (r 0) - 1) else [])) ++
    (if low 1 then row 0 else [])) ++
    (if up 1 then row (if size = 1 then (Lv 1).m - 1 else (Lv 1).gxm (r 1) - 1) else [])

theorem setDirichletOnMatImpl_ids [Zero K] [One K] (Lv Lp : Fin 2 → Dir) (size : ℕ)
    (r : Fin 2 → ℕ) (A : Option (GMat K)) :
    setDirichletOnMatImpl Lv Lp size r A = matZeroRowsLocal (ltog Lv Lp r) (bcIds Lv size r) A := by
  unfold setDirichletOnMatImpl bcIds matZeroRowsLocal
  simp only [List.foldl_append]

theorem mem_ite_nil {b : Bool} {l : List ℤ} {x : ℤ} :
    x ∈ (if b = true then l else []) ↔ b = true ∧ x ∈ l := by
  cases b <;> simp

theorem mem_border {n : ℤ} {f : ℤ → ℤ} {id : ℤ} :
    id ∈ (forRange 0 n).flatMap (fun j => [2 * f j, 2 * f j + 1]) ↔
      ∃ j, (0 ≤ j ∧ j < n) ∧ ∃ c : Fin 2, id = c.1 + 2 * f j := by
  simp only [List.mem_flatMap, mem_forRange, List.mem_cons, List.not_mem_nil, or_false]
  constructor
  · rintro ⟨j, hj, rfl | rfl⟩
    · exact ⟨j, hj, 0, by simp⟩
    · exact ⟨j, hj, 1, by simp; ring⟩
  · rintro ⟨j, hj, c, rfl⟩
    refine ⟨j, hj, ?_⟩
    fin_cases c
    · left; simp
    · right; simp; ring

/-- Decoding of a border id, when the stride is the one of the local map. -/
theorem ltog_border (Lv Lp : Fin 2 → Dir) (r : Fin 2 → ℕ) (i j : ℤ) (c : Fin 2)
    (hi : 0 ≤ i ∧ i < (Lv 0).gxm (r 0)) (hj : 0 ≤ j ∧ j < (Lv 1).gxm (r 1)) :
    ltog Lv Lp r (c.1 + 2 * (i + j * (Lv 0).gxm (r 0))) =
      some (.inl (wrap Lv ![(Lv 0).gxs (r 0) + i, (Lv 1).gxs (r 1) + j], c)) := by
  have := ltog_vel Lv Lp r ![(Lv 0).gxs (r 0) + i, (Lv 1).gxs (r 1) + j] (by
    have h0 := gxm_eq (Lv 0) (r 0)
    have h1 := gxm_eq (Lv 1) (r 1)
    intro k
    simp only [ghostWindow]
    fin_cases k
    · simp; omega
    · simp; omega) c
  rw [← this]
  congr 1
  unfold localIndex2
  simp
  ring

theorem xs_nonneg' {D : Dir} (h : D.WF) (r : ℕ) : 0 ≤ D.xs r := by
  unfold Dir.xs
  exact List.sum_nonneg fun x hx => (h.pos x (List.mem_of_mem_take hx)).le

/-- Everything we need about one direction. -/
theorem dir_facts {D : Dir} (h : D.WF) {r : ℕ} (hr : r < D.l.length) :
    0 ≤ D.xs r ∧ 0 < D.xm r ∧ D.xs r + D.xm r ≤ D.m ∧ D.gxs r + D.gxm r = D.gxe r ∧
    (D.periodic = false → D.gxs r = max (D.xs r - 1) 0 ∧ D.gxe r = min (D.xs r + D.xm r + 1) D.m) ∧
    (D.periodic = true → D.gxs r = D.xs r - 1 ∧ D.gxe r = D.xs r + D.xm r + 1) := by
  refine ⟨xs_nonneg' h r, Dir.xm_pos h hr, Dir.xe_le h hr, gxm_eq D r, fun hp => ?_, fun hp => ?_⟩
  · simp [Dir.gxs, Dir.gxe, hp]
  · simp [Dir.gxs, Dir.gxe, hp]

theorem wrap_node {d : ℕ} (L : Fin d → Dir) (p : Pos d ℤ) (hm : ∀ i, 0 < (L i).m)
    (hp : ∀ i, (L i).periodic = false → 0 ≤ p i ∧ p i < (L i).m) : wrap L p ∈ gridNodes L := by
  rw [mem_gridNodes]
  intro i
  unfold wrap
  by_cases h : (L i).periodic = true
  · simp only [h, if_true]
    exact ⟨Int.emod_nonneg _ (hm i).ne', Int.emod_lt_of_pos _ (hm i)⟩
  · simp only [h]
    exact hp i (by simpa using h)

/-- With one process, every direction has one block. -/
theorem single_proc (L : Fin 2 → Dir) (hL : ∀ i, (L i).WF) (rs : List (Fin 2 → ℕ))
    (hrs : AllProcs L rs) (h1 : rs.length = 1) (r : Fin 2 → ℕ) (hr : r ∈ procs L) (i : Fin 2) :
    (L i).xs (r i) = 0 ∧ (L i).xm (r i) = (L i).m := by
  have huni : ∀ s ∈ procs L, s = r := by
    obtain ⟨a, rfl⟩ := List.length_eq_one_iff.1 h1
    intro s hs
    have e1 := (hrs.2 s).2 hs
    have e2 := (hrs.2 r).2 hr
    simp only [List.mem_singleton] at e1 e2
    rw [e1, e2]
  have hlen : (L i).l.length = 1 := by
    have h0 := (mem_procs L r).1 hr
    by_contra hne
    have hlt := h0 i
    have hz : (fun j => if j = i then 0 else r j) ∈ procs L := (mem_procs L _).2 fun j => by
      by_cases hj : j = i
      · subst hj; simp; omega
      · simp [hj]; exact h0 j
    have ho : (fun j => if j = i then 1 else r j) ∈ procs L := (mem_procs L _).2 fun j => by
      by_cases hj : j = i
      · subst hj; simp; omega
      · simp [hj]; exact h0 j
    have e1 := congrFun (huni _ hz) i
    have e2 := congrFun (huni _ ho) i
    simp at e1 e2
    omega
  have hri : r i = 0 := by have := (mem_procs L r).1 hr i; omega
  have hs := (hL i).sum_eq
  obtain ⟨x, hx⟩ := List.length_eq_one_iff.1 hlen
  rw [hri]
  simp only [Dir.xs, Dir.xm, hx] at hs ⊢
  simpa using hs

section borders
variable (Lv Lp : Fin 2 → Dir) (hL : ∀ i, (Lv i).WF) (size : ℕ) (r : Fin 2 → ℕ) (hr : r ∈ procs Lv)
  (h1 : size = 1 → ∀ i, (Lv i).xs (r i) = 0 ∧ (Lv i).xm (r i) = (Lv i).m)
  (hH : ¬ (size = 1 ∧ (Lv 0).periodic = true ∧ (Lv 1).periodic = false))

include hL hr h1 in
/-- The loop bounds used by the code stay inside the local map, and agree with it in a non periodic
direction. -/
theorem border_bounds (i : Fin 2) :
    (if size = 1 then (Lv i).m else (Lv i).gxm (r i)) ≤ (Lv i).gxm (r i) ∧
    ((Lv i).periodic = false →
      (if size = 1 then (Lv i).m else (Lv i).gxm (r i)) = (Lv i).gxm (r i)) := by
  obtain ⟨f1, f2, f3, f4, f5, f6⟩ := dir_facts (hL i) ((mem_procs Lv r).1 hr i)
  by_cases hs : size = 1
  · have := h1 hs i
    rw [if_pos hs]
    by_cases hp : (Lv i).periodic = true
    · have := f6 hp
      refine ⟨by omega, fun h => by simp [hp] at h⟩
    · have := f5 (by simpa using hp)
      refine ⟨by omega, fun _ => by omega⟩
  · rw [if_neg hs]; exact ⟨le_rfl, fun _ => rfl⟩

include hL hr h1 in
theorem border_last (i : Fin 2) (hp : (Lv i).periodic = false) :
    (if size = 1 then (Lv i).m - 1 else (Lv i).gxm (r i) - 1) = (Lv i).gxm (r i) - 1 := by
  have := (border_bounds Lv hL size r hr h1 i).2 hp
  by_cases hs : size = 1
  · rw [if_pos hs] at this ⊢; omega
  · rw [if_neg hs]

include hL hr in
theorem window_wrap_node (i j : ℤ)
    (hi : 0 ≤ i ∧ i < (Lv 0).gxm (r 0)) (hj : 0 ≤ j ∧ j < (Lv 1).gxm (r 1)) :
    wrap Lv ![(Lv 0).gxs (r 0) + i, (Lv 1).gxs (r 1) + j] ∈ gridNodes Lv := by
  refine wrap_node Lv _ (fun k => ?_) (fun k hp => ?_)
  · obtain ⟨f1, f2, f3, -⟩ := dir_facts (hL k) ((mem_procs Lv r).1 hr k)
    omega
  · obtain ⟨f1, f2, f3, f4, f5, -⟩ := dir_facts (hL k) ((mem_procs Lv r).1 hr k)
    have := f5 hp
    fin_cases k <;> simp at this f4 ⊢ <;> omega

include hL hr h1 hH in
theorem bcIds_sound (id : ℤ) (hid : id ∈ bcIds Lv size r) :
    ∃ g c f, ltog Lv Lp r id = some (.inl (g, c)) ∧ g ∈ gridNodes Lv ∧ OnFace Lv g f := by
  obtain ⟨a1, a2, a3, a4, a5, a6⟩ := dir_facts (hL 0) ((mem_procs Lv r).1 hr 0)
  obtain ⟨b1, b2, b3, b4, b5, b6⟩ := dir_facts (hL 1) ((mem_procs Lv r).1 hr 1)
  have hx := border_bounds Lv hL size r hr h1 0
  have hy := border_bounds Lv hL size r hr h1 1
  unfold bcIds at hid
  simp only [List.mem_append] at hid
  rcases hid with ((hid | hid) | hid) | hid
  · obtain ⟨hc, hid⟩ := mem_ite_nil.1 hid
    simp only [Bool.and_eq_true, Bool.not_eq_true', decide_eq_true_eq] at hc
    rw [mem_border] at hid
    obtain ⟨j, hj, c, rfl⟩ := hid
    have g0 := a5 hc.1
    rw [hx.2 hc.1]
    have hi : 0 ≤ (0:ℤ) ∧ (0:ℤ) < (Lv 0).gxm (r 0) := by omega
    have hj' : 0 ≤ j ∧ j < (Lv 1).gxm (r 1) := ⟨hj.1, lt_of_lt_of_le hj.2 hy.1⟩
    refine ⟨_, c, 0, ltog_border Lv Lp r 0 j c hi hj', window_wrap_node Lv hL r hr 0 j hi hj',
      ⟨0, hc.1, Or.inl ⟨rfl, ?_⟩⟩⟩
    simp only [wrap, hc.1]
    simp; omega
  · obtain ⟨hc, hid⟩ := mem_ite_nil.1 hid
    simp only [Bool.and_eq_true, Bool.not_eq_true', decide_eq_true_eq] at hc
    rw [mem_border] at hid
    obtain ⟨j, hj, c, rfl⟩ := hid
    have g0 := a5 hc.1
    rw [hx.2 hc.1, border_last Lv hL size r hr h1 0 hc.1]
    have hi : 0 ≤ (Lv 0).gxm (r 0) - 1 ∧ (Lv 0).gxm (r 0) - 1 < (Lv 0).gxm (r 0) := by omega
    have hj' : 0 ≤ j ∧ j < (Lv 1).gxm (r 1) := ⟨hj.1, lt_of_lt_of_le hj.2 hy.1⟩
    refine ⟨_, c, 1, ltog_border Lv Lp r _ j c hi hj', window_wrap_node Lv hL r hr _ j hi hj',
      ⟨0, hc.1, Or.inr ⟨rfl, ?_⟩⟩⟩
    simp only [wrap, hc.1]
    simp; omega
  · obtain ⟨hc, hid⟩ := mem_ite_nil.1 hid
    simp only [Bool.and_eq_true, Bool.not_eq_true', decide_eq_true_eq] at hc
    rw [mem_border] at hid
    obtain ⟨i, hi, c, rfl⟩ := hid
    have g0 := b5 hc.1
    have hnx : (if size = 1 then (Lv 0).m else (Lv 0).gxm (r 0)) = (Lv 0).gxm (r 0) := by
      by_cases hp : (Lv 0).periodic = true
      · rw [if_neg fun hs => hH ⟨hs, hp, hc.1⟩]
      · exact hx.2 (by simpa using hp)
    rw [hnx] at hi ⊢
    have hj : 0 ≤ (0:ℤ) ∧ (0:ℤ) < (Lv 1).gxm (r 1) := by omega
    refine ⟨_, c, 2, ltog_border Lv Lp r i 0 c hi hj, window_wrap_node Lv hL r hr i 0 hi hj,
      ⟨1, hc.1, Or.inl ⟨rfl, ?_⟩⟩⟩
    simp only [wrap, hc.1]
    simp; omega
  · obtain ⟨hc, hid⟩ := mem_ite_nil.1 hid
    simp only [Bool.and_eq_true, Bool.not_eq_true', decide_eq_true_eq] at hc
    rw [mem_border] at hid
    obtain ⟨i, hi, c, rfl⟩ := hid
    have g0 := b5 hc.1
    have hnx : (if size = 1 then (Lv 0).m else (Lv 0).gxm (r 0)) = (Lv 0).gxm (r 0) := by
      by_cases hp : (Lv 0).periodic = true
      · rw [if_neg fun hs => hH ⟨hs, hp, hc.1⟩]
      · exact hx.2 (by simpa using hp)
    rw [hnx] at hi ⊢
    rw [border_last Lv hL size r hr h1 1 hc.1]
    have hj : 0 ≤ (Lv 1).gxm (r 1) - 1 ∧ (Lv 1).gxm (r 1) - 1 < (Lv 1).gxm (r 1) := by omega
    refine ⟨_, c, 3, ltog_border Lv Lp r i _ c hi hj, window_wrap_node Lv hL r hr i _ hi hj,
      ⟨1, hc.1, Or.inr ⟨rfl, ?_⟩⟩⟩
    simp only [wrap, hc.1]
    simp; omega

include hL hr h1 in
/-- Every owned index of a direction is met by the border loops of that direction. -/
theorem border_covers (i : Fin 2) (x : ℤ)
    (hx : (Lv i).xs (r i) ≤ x ∧ x < (Lv i).xs (r i) + (Lv i).xm (r i)) :
    ∃ j, (0 ≤ j ∧ j < (if size = 1 then (Lv i).m else (Lv i).gxm (r i))) ∧
      (if (Lv i).periodic then ((Lv i).gxs (r i) + j) % (Lv i).m else (Lv i).gxs (r i) + j) = x := by
  obtain ⟨f1, f2, f3, f4, f5, f6⟩ := dir_facts (hL i) ((mem_procs Lv r).1 hr i)
  by_cases hp : (Lv i).periodic = true
  · have g := f6 hp
    simp only [hp, if_true]
    by_cases hs : size = 1
    · have := h1 hs i
      simp only [if_pos hs]
      by_cases hl : x = (Lv i).m - 1
      · refine ⟨0, by omega, ?_⟩
        rw [g.1, this.1]
        rw [show (0:ℤ) - 1 + 0 = ((Lv i).m - 1) + (Lv i).m * (-1) by ring, Int.add_mul_emod_self_left,
          Int.emod_eq_of_lt (by omega) (by omega), hl]
      · refine ⟨x + 1, by omega, ?_⟩
        rw [g.1, this.1]
        rw [show (0:ℤ) - 1 + (x + 1) = x by ring, Int.emod_eq_of_lt (by omega) (by omega)]
    · simp only [if_neg hs]
      refine ⟨x - (Lv i).gxs (r i), by omega, ?_⟩
      rw [add_sub_cancel, Int.emod_eq_of_lt (by omega) (by omega)]
  · have g := f5 (by simpa using hp)
    have hb := (border_bounds Lv hL size r hr h1 i).2 (by simpa using hp)
    simp only [hp]
    rw [hb]
    exact ⟨x - (Lv i).gxs (r i), by omega, by simp⟩

include hL hr h1 hH in
theorem bcIds_complete (g : Pos 2 ℤ)
    (hg : ∀ i, (Lv i).xs (r i) ≤ g i ∧ g i < (Lv i).xs (r i) + (Lv i).xm (r i)) (f : ℕ)
    (hf : OnFace Lv g f) (c : Fin 2) :
    ∃ id ∈ bcIds Lv size r, ltog Lv Lp r id = some (.inl (g, c)) := by
  obtain ⟨a1, a2, a3, a4, a5, a6⟩ := dir_facts (hL 0) ((mem_procs Lv r).1 hr 0)
  obtain ⟨b1, b2, b3, b4, b5, b6⟩ := dir_facts (hL 1) ((mem_procs Lv r).1 hr 1)
  have hx := border_bounds Lv hL size r hr h1 0
  have hy := border_bounds Lv hL size r hr h1 1
  obtain ⟨k, hp, hfk⟩ := hf
  have hk : k = 0 ∨ k = 1 := by omega
  rcases hk with rfl | rfl
  · obtain ⟨j, hj, hw⟩ := border_covers Lv hL size r hr h1 1 (g 1) (hg 1)
    have hj' : 0 ≤ j ∧ j < (Lv 1).gxm (r 1) := ⟨hj.1, lt_of_lt_of_le hj.2 hy.1⟩
    have g0 := a5 hp
    have hg0 := hg 0
    rcases hfk with ⟨-, h⟩ | ⟨-, h⟩
    · refine ⟨c.1 + 2 * (0 + j * (Lv 0).gxm (r 0)), ?_, ?_⟩
      · unfold bcIds
        simp only [List.mem_append]
        left; left; left
        rw [if_pos (by simp [hp]; omega), mem_border]
        exact ⟨j, hj, c, by rw [hx.2 hp]⟩
      · rw [ltog_border Lv Lp r 0 j c (by omega) hj']
        congr 3
        funext i
        fin_cases i
        · simp only [wrap]
          simp [hp]; omega
        · simpa [wrap] using hw
    · refine ⟨c.1 + 2 * (((Lv 0).gxm (r 0) - 1) + j * (Lv 0).gxm (r 0)), ?_, ?_⟩
      · unfold bcIds
        simp only [List.mem_append]
        left; left; right
        rw [if_pos (by simp [hp]; omega), mem_border]
        exact ⟨j, hj, c, by rw [hx.2 hp, border_last Lv hL size r hr h1 0 hp]⟩
      · rw [ltog_border Lv Lp r _ j c (by omega) hj']
        congr 3
        funext i
        fin_cases i
        · simp only [wrap]
          simp [hp]; omega
        · simpa [wrap] using hw
  · obtain ⟨i, hi, hw⟩ := border_covers Lv hL size r hr h1 0 (g 0) (hg 0)
    have hnx : (if size = 1 then (Lv 0).m else (Lv 0).gxm (r 0)) = (Lv 0).gxm (r 0) := by
      by_cases hp0 : (Lv 0).periodic = true
      · rw [if_neg fun hs => hH ⟨hs, hp0, hp⟩]
      · exact hx.2 (by simpa using hp0)
    have hi' := hnx ▸ hi
    have g0 := b5 hp
    have hg0 := hg 1
    rcases hfk with ⟨-, h⟩ | ⟨-, h⟩
    · refine ⟨c.1 + 2 * (i + 0 * (Lv 0).gxm (r 0)), ?_, ?_⟩
      · unfold bcIds
        simp only [List.mem_append]
        left; right
        rw [if_pos (by simp [hp]; omega), mem_border]
        exact ⟨i, hi, c, by rw [hnx]⟩
      · rw [ltog_border Lv Lp r i 0 c hi' (by omega)]
        congr 3
        funext k
        fin_cases k
        · simpa [wrap] using hw
        · simp only [wrap]
          simp [hp]; omega
    · refine ⟨c.1 + 2 * (i + ((Lv 1).gxm (r 1) - 1) * (Lv 0).gxm (r 0)), ?_, ?_⟩
      · unfold bcIds
        simp only [List.mem_append]
        right
        rw [if_pos (by simp [hp]; omega), mem_border]
        exact ⟨i, hi, c, by rw [hnx, border_last Lv hL size r hr h1 1 hp]⟩
      · rw [ltog_border Lv Lp r i _ c hi' (by omega)]
        congr 3
        funext k
        fin_cases k
        · simpa [wrap] using hw
        · simp only [wrap]
          simp [hp]; omega

end borders

/-- What `SetDirichletOnMat` does (all the processes): identity rows for the velocity dofs on the
walls. -/
theorem setDirichletOnMat_eq [Zero K] [One K] (Lv Lp : Fin 2 → Dir) (hL : ∀ i, (Lv i).WF)
    (rs : List (Fin 2 → ℕ)) (hrs : AllProcs Lv rs)
    (hH : ¬ (rs.length = 1 ∧ (Lv 0).periodic = true ∧ (Lv 1).periodic = false)) (A : GMat K) :
    setDirichletOnMat Lv Lp rs (some A) = some (identityRows (fun p =>
      ∃ g c f, p = .inl (g, c) ∧ g ∈ gridNodes Lv ∧ OnFace Lv g f) A) := by
  have hone : rs.length = 1 → ∀ r ∈ procs Lv, ∀ i, (Lv i).xs (r i) = 0 ∧ (Lv i).xm (r i) = (Lv i).m :=
    fun h1 r hr i => single_proc Lv hL rs hrs h1 r hr i
  have hfold : ∀ (l : List (Fin 2 → ℕ)), (∀ r ∈ l, r ∈ procs Lv) → ∀ A : GMat K,
      l.foldl (fun A r => setDirichletOnMatImpl Lv Lp rs.length r A) (some A) =
      some (identityRows (fun p => ∃ r ∈ l, ∃ id ∈ bcIds Lv rs.length r,
        ltog Lv Lp r id = some p) A) := by
    intro l
    induction l with
    | nil =>
      intro _ A
      rw [List.foldl_nil, Option.some.injEq]
      funext p q
      simp [identityRows]
    | cons a l ih =>
      intro hl A
      have ha := hl a (by simp)
      rw [List.foldl_cons, setDirichletOnMatImpl_ids, matZeroRowsLocal_eq,
        ih (fun r hr => hl r (by simp [hr])), identityRows_comp]
      · congr 2
        funext p
        simp only [List.mem_cons, eq_iff_iff, exists_eq_or_imp]
        exact or_comm
      · intro id hid
        obtain ⟨g, c, f, h, -⟩ := bcIds_sound Lv Lp hL rs.length a ha (fun h1 => hone h1 a ha) hH id hid
        exact ⟨_, h⟩
  unfold setDirichletOnMat
  rw [hfold rs (fun r hr => (hrs.2 r).1 hr) A]
  congr 2
  funext p
  simp only [eq_iff_iff]
  constructor
  · rintro ⟨r, hr, id, hid, hm⟩
    have hr' := (hrs.2 r).1 hr
    obtain ⟨g, c, f, h, hg, hf⟩ := bcIds_sound Lv Lp hL rs.length r hr' (fun h1 => hone h1 r hr') hH id hid
    rw [h] at hm
    exact ⟨g, c, f, (Option.some.inj hm).symm, hg, hf⟩
  · rintro ⟨g, c, f, rfl, hg, hf⟩
    obtain ⟨r, ⟨hr, hgr⟩, -⟩ := owner_unique Lv hL g (by
      have := (mem_gridNodes Lv g).1 hg
      exact this)
    obtain ⟨id, hid, hm⟩ := bcIds_complete Lv Lp hL rs.length r hr (fun h1 => hone h1 r hr) hH g hgr f hf c
    exact ⟨r, (hrs.2 r).2 hr, id, hid, hm⟩

open Classical in
/-- C28, exact (outside of the case one process, first direction periodic, second not): whatever the
declared conditions, `SetDirichletOnMat` replaces by identity rows exactly the rows of the two velocity
components of the nodes on the walls, and keeps all the others. -/
theorem C28_walls [Zero K] [One K] (Lv Lp : Fin 2 → Dir) (hL : ∀ i, (Lv i).WF)
    (rs : List (Fin 2 → ℕ)) (hrs : AllProcs Lv rs)
    (hH : ¬ (rs.length = 1 ∧ (Lv 0).periodic = true ∧ (Lv 1).periodic = false)) (A : GMat K) :
    ∃ A', setDirichletOnMat Lv Lp rs (some A) = some A' ∧
      (∀ g ∈ gridNodes Lv, ∀ c q, A' (.inl (g, c)) q =
        if ∃ f, OnFace Lv g f then (if q = .inl (g, c) then 1 else 0) else A (.inl (g, c)) q) ∧
      (∀ g q, A' (.inr g) q = A (.inr g) q) := by
  refine ⟨_, setDirichletOnMat_eq Lv Lp hL rs hrs hH A, fun g hg c q => ?_, fun g q => ?_⟩
  · unfold identityRows
    by_cases hc : ∃ f, OnFace Lv g f
    · obtain ⟨f, hf⟩ := hc
      rw [if_pos ⟨g, c, f, rfl, hg, hf⟩, if_pos (c := ∃ f, OnFace Lv g f) ⟨f, hf⟩]
    · rw [if_neg hc, if_neg]
      rintro ⟨g', c', f, h, -, hf⟩
      cases h
      exact hc ⟨f, hf⟩
  · unfold identityRows
    rw [if_neg]
    rintro ⟨g', c', f, h, -⟩
    cases h

open Classical in
/-- C28: when every wall carries a condition for both components, and outside of the
case (one process, first direction periodic, second not), `SetDirichletOnMat` replaces by identity
rows exactly the rows of the constrained dofs and keeps all the others. In the two excluded cases the
claim is false (`C28_stride_refuted`, `C28_null_condition_refuted`). -/
theorem C28_rows [Zero K] [One K] (Lv Lp : Fin 2 → Dir) (hL : ∀ i, (Lv i).WF)
    (rs : List (Fin 2 → ℕ)) (hrs : AllProcs Lv rs) {C : Type*} (bc : ℕ → Fin 2 → Option C)
    (hbc : ∀ f c, (bc f c).isSome)
    (hH : ¬ (rs.length = 1 ∧ (Lv 0).periodic = true ∧ (Lv 1).periodic = false)) (A : GMat K) :
    ∃ A', setDirichletOnMat Lv Lp rs (some A) = some A' ∧
      (∀ g ∈ gridNodes Lv, ∀ c q, A' (.inl (g, c)) q =
        if Constrained Lv bc g c then (if q = .inl (g, c) then 1 else 0) else A (.inl (g, c)) q) ∧
      (∀ g q, A' (.inr g) q = A (.inr g) q) := by
  refine ⟨_, setDirichletOnMat_eq Lv Lp hL rs hrs hH A, fun g hg c q => ?_, fun g q => ?_⟩
  · unfold identityRows
    by_cases hc : Constrained Lv bc g c
    · obtain ⟨f, hf, -⟩ := hc
      rw [if_pos ⟨g, c, f, rfl, hg, hf⟩, if_pos (c := Constrained Lv bc g c) ⟨f, hf, hbc f c⟩]
    · rw [if_neg hc, if_neg]
      rintro ⟨g', c', f, h, -, hf⟩
      cases h
      exact hc ⟨f, hf, hbc f c⟩
  · unfold identityRows
    rw [if_neg]
    rintro ⟨g', c', f, h, -⟩
    cases h

/-- The hypotheses of `C28_rows` on a concrete grid (6 points, walls; 5 points, periodic) on
`3 x 2` processes. -/
example : (∀ i, ((![exDir, exDirP] : Fin 2 → Dir) i).WF) ∧
    AllProcs ![exDir, exDirP] (procs ![exDir, exDirP]).toList ∧
    ¬ ((procs ![exDir, exDirP]).toList.length = 1 ∧ ((![exDir, exDirP] : Fin 2 → Dir) 0).periodic = true
      ∧ ((![exDir, exDirP] : Fin 2 → Dir) 1).periodic = false) := by
  refine ⟨?_, ⟨Finset.nodup_toList _, by simp⟩, ?_⟩
  · intro i; fin_cases i
    · exact exDir_wf
    · exact exDirP_wf
  · rintro ⟨-, h, -⟩
    simp [exDir] at h

/-- A `4 x 4` velocity grid, periodic in `x`, walls in `y`, on one process. -/
def perX : Fin 2 → Dir := ![⟨4, true, [4]⟩, ⟨4, false, [4]⟩]

theorem perX_wf : ∀ i, (perX i).WF := by
  intro i; fin_cases i <;> exact ⟨by decide, by decide⟩

theorem perX_procs : AllProcs perX [fun _ => 0] := by
  refine ⟨by simp, fun r => ?_⟩
  rw [mem_procs]
  constructor
  · intro h i
    rw [List.mem_singleton.1 h]
    fin_cases i <;> simp [perX]
  · intro h
    rw [List.mem_singleton]
    funext i
    have := h i
    fin_cases i <;> simpa [perX] using this

/-- C28 is false of the code, first case: one process, first direction periodic, walls in the second
one, a condition on every wall and component. The row of the constrained dof `((1, 3), 0)` is not
replaced, and the row of `((1, 2), 0)`, which is on no wall, is replaced (wrong stride `mx` instead of
`gxm` in cafes/fem/bc.hpp:247-281). -/
theorem C28_stride_refuted : let bc : ℕ → Fin 2 → Option Unit := fun _ _ => some ()
    (∀ i, (perX i).WF) ∧ AllProcs perX [fun _ => 0] ∧ Constrained perX bc ![1, 3] 0 ∧
    ¬ Constrained perX bc ![1, 2] 0 ∧
    ∃ A' : GMat ℤ, setDirichletOnMat perX perX [fun _ => 0] (some fun _ _ => 2) = some A' ∧
      A' (.inl (![1, 3], 0)) (.inl (![1, 3], 0)) = 2 ∧
      A' (.inl (![1, 2], 0)) (.inl (![1, 2], 0)) = 1 ∧
      A' (.inl (![1, 2], 0)) (.inl (![1, 3], 0)) = 0 := by
  refine ⟨perX_wf, perX_procs, ⟨3, ⟨1, rfl, Or.inr ⟨rfl, rfl⟩⟩, rfl⟩, ?_, ?_⟩
  · rintro ⟨f, ⟨i, hp, h⟩, -⟩
    fin_cases i
    · revert hp; decide
    · rcases h with ⟨-, h⟩ | ⟨-, h⟩ <;> revert h <;> decide
  · have h4 : forRange 0 4 = [0, 1, 2, 3] := by simp [forRange]
    have hids : bcIds perX 1 (fun _ => 0) =
        [0, 1, 2, 3, 4, 5, 6, 7, 24, 25, 26, 27, 28, 29, 30, 31] := by
      have hc : ∀ i : Fin 2, (perX i).m = 4 := by decide
      unfold bcIds
      simp only [hc, if_true, h4]
      decide +kernel
    unfold setDirichletOnMat
    simp only [List.foldl_cons, List.foldl_nil, List.length_cons, List.length_nil, zero_add,
      setDirichletOnMatImpl_ids, hids]
    have hall : ∀ id ∈ ([0, 1, 2, 3, 4, 5, 6, 7, 24, 25, 26, 27, 28, 29, 30, 31] : List ℤ),
        (ltog perX perX (fun _ => 0) id).isSome = true := by decide +kernel
    have h13 : ¬ ∃ id ∈ ([0, 1, 2, 3, 4, 5, 6, 7, 24, 25, 26, 27, 28, 29, 30, 31] : List ℤ),
        ltog perX perX (fun _ => 0) id = some (.inl (![1, 3], 0)) := by decide +kernel
    have h12 : ∃ id ∈ ([0, 1, 2, 3, 4, 5, 6, 7, 24, 25, 26, 27, 28, 29, 30, 31] : List ℤ),
        ltog perX perX (fun _ => 0) id = some (.inl (![1, 2], 0)) := by
      have hd : ltog perX perX (fun _ => 0) (((0 : Fin 2).1 : ℤ) + 2 * (2 + 2 * (perX 0).gxm 0)) = _ :=
        ltog_border perX perX (fun _ => 0) 2 2 0 (by decide) (by decide)
      refine ⟨28, by decide, hd.trans ?_⟩
      congr 3
      funext i
      fin_cases i <;> rfl
    refine ⟨_, matZeroRowsLocal_eq _ _ (fun id hid => Option.isSome_iff_exists.1 (hall id hid)) _,
      ?_, ?_, ?_⟩
    · unfold identityRows
      rw [if_neg h13]
    · unfold identityRows
      rw [if_pos h12, if_pos rfl]
    · unfold identityRows
      rw [if_pos h12, if_neg (by decide)]

/-- C28 is false of the code, second case: with no condition at all (every `condition_fn` null, so that
`SetDirichletOnVec` changes nothing), the rows of all the wall nodes are still replaced. -/
theorem C28_null_condition_refuted [Zero K] [One K] (Lv Lp : Fin 2 → Dir) (hL : ∀ i, (Lv i).WF)
    (rs : List (Fin 2 → ℕ)) (hrs : AllProcs Lv rs)
    (hH : ¬ (rs.length = 1 ∧ (Lv 0).periodic = true ∧ (Lv 1).periodic = false)) (A : GMat K)
    (g : Pos 2 ℤ) (hg : g ∈ gridNodes Lv) (f : ℕ) (hf : OnFace Lv g f) (c : Fin 2) :
    ¬ Constrained Lv (fun _ _ => (none : Option Unit)) g c ∧
    ∃ A', setDirichletOnMat Lv Lp rs (some A) = some A' ∧
      ∀ q, A' (.inl (g, c)) q = if q = .inl (g, c) then 1 else 0 := by
  refine ⟨fun ⟨_, _, h⟩ => by simp at h, _, setDirichletOnMat_eq Lv Lp hL rs hrs hH A, fun q => ?_⟩
  unfold identityRows
  rw [if_pos ⟨g, c, f, rfl, hg, hf⟩]

/-! ### C22, C28: the whole assembled Stokes matrix with its boundary conditions -/

theorem applyMat_identity_row [CommRing K] (Lv Lp : Fin 2 → Dir) (A : GMat K) (x : Dof → K) (p : Dof)
    (hp : p ∈ dofs Lv Lp) (h : ∀ q, A p q = if q = p then 1 else 0) : applyMat Lv Lp A x p = x p := by
  unfold applyMat
  rw [Finset.sum_eq_single p]
  · rw [h, if_pos rfl, one_mul]
  · intro q _ hq
    rw [h, if_neg hq, zero_mul]
  · exact fun hh => absurd hp hh

theorem applyMat_congr_row [CommRing K] (Lv Lp : Fin 2 → Dir) (A B : GMat K) (x : Dof → K) (p : Dof)
    (h : ∀ q, A p q = B p q) : applyMat Lv Lp A x p = applyMat Lv Lp B x p := by
  unfold applyMat
  exact Finset.sum_congr rfl fun q _ => by rw [h]

/-- Identity rows on the constrained dofs, on the assembled and on the matrix-free side. -/
theorem bc_agree [CommRing K] (Lv Lp : Fin 2 → Dir) (hL : ∀ i, (Lv i).WF)
    (rs : List (Fin 2 → ℕ)) (hrs : AllProcs Lv rs) (bc : BC 2 K) (hbc : ∀ f c, (bc f c).isSome)
    (hH : ¬ (rs.length = 1 ∧ (Lv 0).periodic = true ∧ (Lv 1).periodic = false)) (A : GMat K) :
    ∃ A', setDirichletOnMat Lv Lp rs (some A) = some A' ∧ ∀ u p,
      (∀ y : NodeVec 2 2 K, (∀ g ∈ gridNodes Lv, ∀ c, ¬ Constrained Lv bc g c →
          applyMat Lv Lp A (pack u p) (.inl (g, c)) = y g c) →
        ∀ g ∈ gridNodes Lv, ∀ c, applyMat Lv Lp A' (pack u p) (.inl (g, c)) =
          setDirichletOnVec Lv rs bc u y g c) ∧
      (∀ g, applyMat Lv Lp A' (pack u p) (.inr g) = applyMat Lv Lp A (pack u p) (.inr g)) := by
  obtain ⟨A', hA, h1, h2⟩ := C28_rows Lv Lp hL rs hrs bc hbc hH A
  refine ⟨A', hA, fun u p => ⟨fun y hy g hg c => ?_, fun g => applyMat_congr_row _ _ _ _ _ _ (h2 g)⟩⟩
  rw [C25_vec Lv hL rs hrs bc u y g c]
  by_cases hc : Constrained Lv bc g c
  · rw [if_pos ⟨hg, hc⟩]
    refine applyMat_identity_row _ _ _ _ _ ((mem_dofs_vel _ _ _ _).2 hg) fun q => ?_
    rw [h1 g hg c q, if_pos hc]
  · rw [if_neg fun h => hc h.2, ← hy g hg c hc]
    refine applyMat_congr_row _ _ _ _ _ _ fun q => ?_
    rw [h1 g hg c q, if_neg hc]

section stokes
variable [Field K] (N : Fin 2 → ℤ) (per : Fin 2 → Bool) (lx : Fin 2 → List ℤ)
    (hne : ∀ i, lx i ≠ []) (hW : ∀ i, (presLayout N per lx i).WF) (rs : List (Fin 2 → ℕ))
    (hrs : AllProcs (presLayout N per lx) rs) (h : Pos 2 K) (bc : BC 2 K)
    (hbc : ∀ f c, (bc f c).isSome) (hH : ¬ (rs.length = 1 ∧ per 0 = true ∧ per 1 = false))

include hne hW hrs hbc hH in
/-- C28 end to end (Laplacian form): with conditions on every wall and outside of the case (one
process, first direction periodic, second not), the assembled Stokes matrix after
`SetDirichletOnMat` acts as the matrix-free Stokes operator with the same boundary conditions. -/
theorem C28_stokes_laplacian :
    ∃ A', setDirichletOnMat (velLayout N per lx) (presLayout N per lx) rs
        (stokesAssembled (velLayout N per lx) (presLayout N per lx) rs h) = some A' ∧ ∀ u p,
      let y := stokesMatrixBC (velLayout N per lx) (presLayout N per lx) rs bc
        (diagBlockMult (velLayout N per lx) getElement2 (matElemLaplacian2 h)) getElement2
        getElement4Q1_2 (matElemPressure2 h) u p
      (∀ g ∈ gridNodes (velLayout N per lx), ∀ c,
        applyMat (velLayout N per lx) (presLayout N per lx) A' (pack u p) (.inl (g, c)) = y.1 g c) ∧
      (∀ g, applyMat (velLayout N per lx) (presLayout N per lx) A' (pack u p) (.inr g) = y.2 g 0) := by
  have hv := velLayout_wf N per lx hne hW
  have hpr := procs_layout N per lx
  have hrs' : AllProcs (velLayout N per lx) rs := ⟨hrs.1, fun r => by rw [hrs.2, hpr]⟩
  obtain ⟨A, hA, h1⟩ := C22_stokes N per lx hne hW rs hrs h
  obtain ⟨A', hA', h2⟩ := bc_agree (velLayout N per lx) (presLayout N per lx) hv rs hrs' bc hbc
    (by simpa [velLayout, velDir] using hH) A
  refine ⟨A', by rw [hA]; exact hA', fun u p => ⟨?_, fun g => ?_⟩⟩
  · exact (h2 u p).1 _ fun g _ c _ => (h1 u p).1 g c
  · rw [(h2 u p).2]
    exact (h1 u p).2 g

include hne hW hrs hbc hH in
/-- C23/C28 end to end (strain form): although the assembled strain block differs from the matrix-free
one on the walls (`C23_refuted`), once the Dirichlet rows of all the walls are set the two Stokes
operators agree. -/
theorem C28_stokes_strain [CharZero K] :
    ∃ A', setDirichletOnMat (velLayout N per lx) (presLayout N per lx) rs
        (stokesAssembledStrain (velLayout N per lx) (presLayout N per lx) rs h) = some A' ∧ ∀ u p,
      let y := stokesMatrixBC (velLayout N per lx) (presLayout N per lx) rs bc
        (tensorBlockMult (velLayout N per lx) getElement2 (matElemStrain2 h)) getElement2
        getElement4Q1_2 (matElemPressure2 h) u p
      (∀ g ∈ gridNodes (velLayout N per lx), ∀ c,
        applyMat (velLayout N per lx) (presLayout N per lx) A' (pack u p) (.inl (g, c)) = y.1 g c) ∧
      (∀ g, applyMat (velLayout N per lx) (presLayout N per lx) A' (pack u p) (.inr g) = y.2 g 0) := by
  have hv := velLayout_wf N per lx hne hW
  have hpr := procs_layout N per lx
  have hrs' : AllProcs (velLayout N per lx) rs := ⟨hrs.1, fun r => by rw [hrs.2, hpr]⟩
  obtain ⟨A1, hA1, h1'⟩ := C23_interior (velLayout N per lx) (presLayout N per lx) hv rs hrs' h
    (fun _ _ => 0)
  obtain ⟨A2, hA2, h2'⟩ := C22_coupling N per lx hne hW rs hrs h A1
  obtain ⟨A', hA', h2⟩ := bc_agree (velLayout N per lx) (presLayout N per lx) hv rs hrs' bc hbc
    (by simpa [velLayout, velDir] using hH) A2
  have hz : ∀ x row, applyMat (velLayout N per lx) (presLayout N per lx) (fun _ _ => (0:K))
      x row = 0 := fun x row => by simp [applyMat]
  refine ⟨A', ?_, fun u p => ?_⟩
  · unfold stokesAssembledStrain
    rw [hA1, hA2, diagonalAssembling_id _ _ hv hW hpr rs hrs 0 A2]
    exact hA'
  · have hs := stokes_split N per lx hne hW getElement2 getElement4Q1_2 isQ1_2 trit2 is4Q1_2
      (tensorBlockMult (velLayout N per lx) getElement2 (matElemStrain2 h))
      (matElemPressure2 h) u p
    constructor
    · refine (h2 u p).1 _ fun g hg c hc => ?_
      rw [(h2' u p).1, (h1' u p).1 g hg c (Or.inr fun f hf => hc ⟨f, hf, hbc f c⟩), hz, zero_add]
      exact (hs.1 g c).symm
    · intro g
      rw [(h2 u p).2, (h2' u p).2, (h1' u p).2, hz, zero_add]
      exact (hs.2 g 0).symm

end stokes

end Cafes.Props
