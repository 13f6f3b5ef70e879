/-
Property theorems for the preallocation of the assembled matrices: C66.
-/
import Verif.Model.Prealloc
import Verif.Lemmas.AssembleElem
import Verif.Props.Assemble

namespace Cafes.Props
open Cafes Cafes.Prealloc Cafes.Spec

/-! ### The entries the assembly inserts -/

/-- The assembly run with all the element values equal to 1, from the zero matrix: an entry of the result is non zero
when, and only when, `MatSetValuesLocal` was called on it at least once, by any process. `precond` is the matrix `P`
(velocity block and pressure mass matrix), otherwise the matrix `A` (velocity block, coupling, pressure diagonal);
cafes/problem/stokes.hpp:246-303. -/
def insertions (Lv Lp : Fin 2 → Dir) (rs : List (Fin 2 → ℕ)) (strain precond : Bool) : Option (GMat ℚ) :=
  let A := if strain then
      assembleBy Lv rs (fun r => kernelTensorBlockA (ltog Lv Lp r) Lv r fun _ => some 1) (some fun _ _ => 0)
    else assembleBy Lv rs (fun r => kernelDiagBlockA (ltog Lv Lp r) Lv r 2 (fun _ => some 1) 0) (some fun _ _ => 0)
  let A := if precond then A else
    assembleBy Lp rs (fun r => kernelOffDiagBlockA (ltog Lv Lp r) Lv Lp r (decOf Lv r) (fun _ => some 1) (fun _ => some 1)) A
  assembleBy Lp rs (fun r => kernelDiagBlockA (ltog Lv Lp r) Lp r 1 (fun _ => some 1) (decOf Lv r)) A

/-! ### One direction -/

/-- Grid index behind an index of one direction. -/
def wrap1 (D : Dir) (x : ℤ) : ℤ := if D.periodic then x % D.m else x

theorem wrap1_eq {d : ℕ} (L : Fin d → Dir) (p : Pos d ℤ) (i : Fin d) : wrap L p i = wrap1 (L i) (p i) := rfl

theorem near1 (D : Dir) (e : ℤ) (h0 : 0 ≤ e) (h1 : e < D.nElem) (a b : ℤ) (ha : 0 ≤ a ∧ a ≤ 1) (hb : 0 ≤ b ∧ b ≤ 1) :
    ∃ p ∈ offs1 D (wrap1 D (e + a)), wrap1 D (wrap1 D (e + a) + p) = wrap1 D (e + b) := by
  refine ⟨b - a, ?_, ?_⟩
  · unfold offs1
    rw [mem_forRange]
    unfold wrap1
    unfold Dir.nElem at h1
    split_ifs at h1 ⊢ <;> omega
  · unfold wrap1
    split_ifs with h
    · rw [Int.emod_add_emod]; congr 1; ring
    · ring

/-- The velocity and pressure directions of `createMesh`. -/
structure Pair (Dv Dp : Dir) : Prop where
  per : Dv.periodic = Dp.periodic
  m : Dv.m = if Dp.periodic then 2 * Dp.m else 2 * Dp.m - 1
  wv : Dv.WF
  wp : Dp.WF
  len : Dv.l.length = Dp.l.length
  xs : ∀ r < Dp.l.length, Dv.xs r = 2 * Dp.xs r
  xm : ∀ r < Dp.l.length, Dv.xm r = 2 * Dp.xm r - if Dp.periodic = false ∧ r + 1 = Dp.l.length then 1 else 0

theorem near21 (Dv Dp : Dir) (P : Pair Dv Dp) (e : ℤ) (h0 : 0 ≤ e) (h1 : e < Dp.nElem) (a t : ℤ) (ha : 0 ≤ a ∧ a ≤ 1)
    (ht : 0 ≤ t ∧ t ≤ 2) :
    ∃ p ∈ offs21 Dv Dp (wrap1 Dp (e + a)), wrap1 Dv (2 * wrap1 Dp (e + a) + p) = wrap1 Dv (2 * e + t) := by
  have hm := P.m
  have hp := P.per
  refine ⟨t - 2 * a, ?_, ?_⟩
  · unfold offs21
    rw [mem_forRange]
    unfold wrap1
    unfold Dir.nElem at h1
    split_ifs at h1 hm ⊢ <;> omega
  · unfold wrap1
    rw [hp]
    split_ifs at hm ⊢ with h
    · rw [hm]
      have : 2 * ((e + a) % Dp.m) = (2 * (e + a)) % (2 * Dp.m) := (Int.mul_emod_mul_of_pos _ _ (by norm_num)).symm
      rw [this, Int.emod_add_emod]; congr 1; ring
    · ring

theorem near12 (Dv Dp : Dir) (P : Pair Dv Dp) (e : ℤ) (h0 : 0 ≤ e) (h1 : e < Dp.nElem) (a t : ℤ) (ha : 0 ≤ a ∧ a ≤ 1)
    (ht : 0 ≤ t ∧ t ≤ 2) :
    ∃ p ∈ offs12 Dp (wrap1 Dv (2 * e + t)), wrap1 Dp (wrap1 Dv (2 * e + t) / 2 + p) = wrap1 Dp (e + a) := by
  have hm := P.m
  have hp := P.per
  unfold Dir.nElem at h1
  by_cases h : Dp.periodic
  · rw [if_pos h] at hm h1
    have hw : wrap1 Dv (2 * e + t) = if 2 * e + t < 2 * Dp.m then 2 * e + t else 0 := by
      unfold wrap1
      rw [hp, if_pos h, hm]
      split_ifs with h2
      · exact Int.emod_eq_of_lt (by omega) h2
      · have : 2 * e + t = 2 * Dp.m := by omega
        rw [this, Int.emod_self]
    rw [hw]
    split_ifs with h2
    · refine ⟨a - t / 2, ?_, ?_⟩
      · unfold offs12
        rw [mem_forRange, if_pos h, if_pos h]
        omega
      · congr 1; omega
    · refine ⟨a - 1, ?_, ?_⟩
      · unfold offs12
        rw [mem_forRange, if_pos h, if_pos h]
        omega
      · unfold wrap1
        rw [if_pos h, if_pos h]
        have : e + a = (0 / 2 + (a - 1)) + Dp.m := by omega
        rw [this, Int.add_emod_right]
  · have h' : ¬ Dv.periodic = true := by rw [hp]; exact h
    rw [if_neg h] at hm h1
    have hw : wrap1 Dv (2 * e + t) = 2 * e + t := by unfold wrap1; rw [if_neg h']
    rw [hw]
    refine ⟨a - t / 2, ?_, ?_⟩
    · unfold offs12
      rw [mem_forRange, if_neg h, if_neg h, Int.neg_tdiv, Int.tdiv_eq_ediv_of_nonneg (by omega)]
      omega
    · congr 1; omega

/-- Owned indices of one direction. -/
def Own1 (D : Dir) (q : ℕ) (x : ℤ) : Prop := D.xs q ≤ x ∧ x < D.xs q + D.xm q

theorem win1 (D : Dir) (h : D.WF) (q : ℕ) (hq : q < D.l.length) (i p : ℤ) (hi : Own1 D q i) (hp : p ∈ offs1 D i) :
    D.gxs q ≤ i + p ∧ i + p < D.gxe q := by
  unfold offs1 at hp
  rw [mem_forRange] at hp
  have h3 := Dir.xs_nonneg h q
  have h4 := Dir.xe_le h hq
  obtain ⟨h1, h2⟩ := hi
  unfold Dir.gxs Dir.gxe
  split_ifs at hp ⊢ <;> omega

theorem win12 (Dv Dp : Dir) (P : Pair Dv Dp) (q : ℕ) (hq : q < Dp.l.length) (i p : ℤ) (hi : Own1 Dv q i)
    (hp : p ∈ offs12 Dp i) : Dp.gxs q ≤ i / 2 + p ∧ i / 2 + p < Dp.gxe q := by
  unfold offs12 at hp
  rw [mem_forRange] at hp
  have h3 := Dir.xs_nonneg P.wp q
  have h4 := Dir.xe_le P.wp hq
  have h5 := P.xs q hq
  have h6 := P.xm q hq
  obtain ⟨h1, h2⟩ := hi
  have hi0 : 0 ≤ i := by omega
  rw [Int.neg_tdiv, Int.tdiv_eq_ediv_of_nonneg hi0] at hp
  unfold Dir.gxs Dir.gxe
  split_ifs at h6 <;> split_ifs at hp ⊢ <;> omega

/-- The column of the block (2,1) in one direction: outside of the kept range only for a node of another process; else it is
the local position of the right node. -/
theorem loc21_spec (Dv Dp : Dir) (P : Pair Dv Dp) (q : ℕ) (hq : q < Dp.l.length) (i p : ℤ) (hi : Own1 Dp q i)
    (hp : p ∈ offs21 Dv Dp i) :
    (out21 Dv q (loc21 Dv Dp q i p) = true → ¬ Own1 Dv q (wrap1 Dv (2 * i + p))) ∧
    (out21 Dv q (loc21 Dv Dp q i p) = false →
      Dv.gxs q ≤ Dv.gxs q + loc21 Dv Dp q i p ∧ Dv.gxs q + loc21 Dv Dp q i p < Dv.gxe q ∧
      wrap1 Dv (Dv.gxs q + loc21 Dv Dp q i p) = wrap1 Dv (2 * i + p)) := by
  unfold offs21 at hp
  rw [mem_forRange] at hp
  have v0 := Dir.xs_nonneg P.wv q
  have v1 := Dir.xe_le P.wv (P.len.symm ▸ hq)
  have v2 := Dir.xm_pos P.wv (P.len.symm ▸ hq)
  have p0 := Dir.xs_nonneg P.wp q
  have p1 := Dir.xe_le P.wp hq
  have p2 := Dir.xm_pos P.wp hq
  have h5 := P.xs q hq
  have h6 := P.xm q hq
  have hm := P.m
  have hper := P.per
  obtain ⟨h1, h2⟩ := hi
  have single : Dv.l.length = 1 → Dp.xs q = 0 ∧ Dp.xm q = Dp.m := by
    intro hl
    rw [P.len] at hl
    have hq0 : q = 0 := by omega
    obtain ⟨x, hx⟩ := List.length_eq_one_iff.1 hl
    have := P.wp.sum_eq
    rw [hx] at this
    subst hq0
    simp [Dir.xs, Dir.xm, hx] at this ⊢
    exact this
  have several : Dv.l.length ≠ 1 → Dp.xm q + 1 ≤ Dp.m := by
    intro hl
    rw [P.len] at hl
    have := Dir.sum_xm P.wp
    have h2 : ∃ q' < Dp.l.length, q' ≠ q := by
      by_cases h : q = 0
      · exact ⟨1, by omega, by omega⟩
      · exact ⟨0, by omega, by omega⟩
    obtain ⟨q', hq', hne⟩ := h2
    have h3 : Dp.xm q + Dp.xm q' ≤ ∑ r ∈ Finset.range Dp.l.length, Dp.xm r := by
      rw [← Finset.sum_pair (f := Dp.xm) hne.symm]
      refine Finset.sum_le_sum_of_subset_of_nonneg ?_ ?_
      · intro x hx
        simp only [Finset.mem_insert, Finset.mem_singleton] at hx
        rcases hx with rfl | rfl <;> simp [hq, hq']
      · intro x hx _
        exact (Dir.xm_pos P.wp (Finset.mem_range.1 hx)).le
    have := Dir.xm_pos P.wp hq'
    omega
  by_cases h : Dp.periodic
  · have h' : Dv.periodic = true := by rw [hper]; exact h
    have hnp : ¬ (Dp.periodic = false ∧ q + 1 = Dp.l.length) := by simp [h]
    rw [if_neg hnp] at h6
    rw [if_pos h] at hm
    rw [if_pos h, if_pos h] at hp
    have g1 : Dv.gxs q = Dv.xs q - 1 := by unfold Dir.gxs; rw [if_pos h']
    have g2 : Dv.gxe q = Dv.xs q + Dv.xm q + 1 := by unfold Dir.gxe; rw [if_pos h']
    have wr : ∀ x, wrap1 Dv x = x % Dv.m := fun x => by unfold wrap1; rw [if_pos h']
    have em : ∀ x y : ℤ, (x = y ∨ x = y + Dv.m ∨ x = y - Dv.m) → x % Dv.m = y % Dv.m := by
      rintro x y (rfl | rfl | rfl)
      · rfl
      · rw [Int.add_emod_right]
      · rw [Int.sub_emod_right]
    have key : ∀ x, ∃ k : ℤ, (x % Dv.m = x - Dv.m * k) ∧ 0 ≤ x % Dv.m ∧ x % Dv.m < Dv.m := by
      intro x
      refine ⟨x / Dv.m, by have := Int.emod_add_mul_ediv x Dv.m; linarith, Int.emod_nonneg _ (by omega),
        Int.emod_lt_of_pos _ (by omega)⟩
    have e2 : loc21 Dv Dp q i p = setInRange (2 * i + p - Dv.gxs q) Dv.m := by unfold loc21; rw [if_pos h]
    rw [e2, wr, wr]
    by_cases hl : Dv.l.length = 1
    · obtain ⟨s1, s2⟩ := single hl
      have e1 : shift21 Dv q = 0 := by unfold shift21; rw [if_pos hl]
      have hr : 0 ≤ setInRange (2 * i + p - Dv.gxs q) Dv.m ∧ setInRange (2 * i + p - Dv.gxs q) Dv.m < Dv.m := by
        unfold setInRange; split_ifs <;> omega
      constructor
      · intro ho
        unfold out21 at ho
        rw [e1] at ho
        simp only [Bool.or_eq_true, decide_eq_true_eq] at ho
        omega
      · intro _
        refine ⟨by omega, by omega, em _ _ ?_⟩
        unfold setInRange
        split_ifs <;> omega
    · have s1 := several hl
      have e1 : shift21 Dv q = Dv.gxs q := by unfold shift21; rw [if_neg hl]
      constructor
      · intro ho hown
        unfold out21 at ho
        rw [e1] at ho
        simp only [Bool.or_eq_true, decide_eq_true_eq] at ho
        obtain ⟨o1, o2⟩ := hown
        have : (2 * i + p) % Dv.m = if 2 * i + p < 0 then 2 * i + p + Dv.m
            else if 2 * i + p < Dv.m then 2 * i + p else 2 * i + p - Dv.m := by
          split_ifs
          · rw [← Int.add_emod_right]; exact Int.emod_eq_of_lt (by omega) (by omega)
          · exact Int.emod_eq_of_lt (by omega) (by omega)
          · rw [← Int.sub_emod_right]; exact Int.emod_eq_of_lt (by omega) (by omega)
        rw [this] at o1 o2
        unfold setInRange at ho
        split_ifs at ho o1 o2 <;> omega
      · intro ho
        unfold out21 at ho
        rw [e1] at ho
        simp only [Bool.or_eq_false_iff, decide_eq_false_iff_not] at ho
        refine ⟨?_, ?_, em _ _ ?_⟩
        · unfold setInRange; split_ifs <;> omega
        · omega
        · unfold setInRange; split_ifs <;> omega
  · have h' : ¬ Dv.periodic = true := by rw [hper]; exact h
    rw [if_neg h] at hm
    rw [if_neg h, if_neg h] at hp
    have g1 : Dv.gxs q = max (Dv.xs q - 1) 0 := by unfold Dir.gxs; rw [if_neg h']
    have g2 : Dv.gxe q = min (Dv.xs q + Dv.xm q + 1) Dv.m := by unfold Dir.gxe; rw [if_neg h']
    have wr : ∀ x, wrap1 Dv x = x := fun x => by unfold wrap1; rw [if_neg h']
    have e2 : loc21 Dv Dp q i p = 2 * i + p - Dv.gxs q := by unfold loc21; rw [if_neg h]
    have e1 : shift21 Dv q = Dv.gxs q := by
      unfold shift21
      split_ifs with hl
      · have := single hl; omega
      · rfl
    rw [e2, wr, wr]
    unfold out21
    rw [e1]
    simp only [Bool.or_eq_true, decide_eq_true_eq, Bool.or_eq_false_iff, decide_eq_false_iff_not]
    constructor
    · intro ho hown
      obtain ⟨o1, o2⟩ := hown
      omega
    · intro ho
      refine ⟨by omega, by omega, by ring⟩

/-! ### Counting -/

/-- What one call of `MatPreallocateSetLocal` on the rows `R` and the true columns `T` adds to the counters. -/
def callW (own : Dof → Bool) (R T : List Dof) : Nnz := fun ρ =>
  (R.countP fun x => decide (x = ρ)) • (T.countP own, T.countP fun c => !own c)

theorem mapM_map {α β γ : Type*} (l : List α) (f : α → β) (g : β → Option γ) (E : α → γ)
    (h : ∀ o ∈ l, g (f o) = some (E o)) : (l.map f).mapM g = some (l.map E) := by
  induction l with
  | nil => rfl
  | cons a l ih =>
    rw [List.map_cons, List.mapM_cons, h a (by simp), ih fun o ho => h o (by simp [ho])]
    rfl

theorem setLocal_eq {α β : Type*} (map : ℤ → Option Dof) (own : Dof → Bool) (cap : ℕ) (rows : List β) (rid : β → ℤ)
    (R : β → Dof) (offs : List α) (idf : α → ℤ) (T : α → Dof) (hlen : offs.length ≤ cap)
    (hrow : ∀ b ∈ rows, map (rid b) = some (R b) ∧ own (R b) = true)
    (hcol : ∀ o ∈ offs, ∃ E, colDof map (idf o) = some E ∧ E.any own = own (T o)) (s : Nnz) :
    setLocal map own cap (rows.map rid) (offs.map idf) (some s) =
      some (s + callW own (rows.map R) (offs.map T)) := by
  choose! E hE using hcol
  unfold setLocal
  rw [if_pos (by simpa using hlen), mapM_map offs idf _ E fun o ho => (hE o ho).1]
  simp only
  have c1 : ∀ b : Bool, (offs.map E).countP (fun c => c.any own == b) = (offs.map T).countP (fun c => own c == b) := by
    intro b
    rw [List.countP_map, List.countP_map]
    refine List.countP_congr fun o ho => ?_
    simp only [Function.comp, (hE o ho).2]
  have c2 : (offs.map E).countP (fun c => c.any own) = (offs.map T).countP own := by simpa using c1 true
  have c3 : (offs.map E).countP (fun c => !c.any own) = (offs.map T).countP (fun c => !own c) := by
    have := c1 false
    have e : ∀ x : Bool, (x == false) = !x := by decide
    simpa only [e] using this
  clear hE c1
  induction rows generalizing s with
  | nil =>
    simp only [List.map_nil, List.foldl_nil]
    congr 1
    funext ρ
    simp [callW]
  | cons b l ih =>
    simp only [List.map_cons, List.foldl_cons]
    rw [(hrow b (by simp)).1]
    simp only [(hrow b (by simp)).2, if_true]
    have hl : ∀ b ∈ l, map (rid b) = some (R b) ∧ own (R b) = true := fun b hb => hrow b (by simp [hb])
    rw [ih hl]
    congr 1
    funext ρ
    simp only [Pi.add_apply, setRow, callW, c2, c3, List.countP_cons]
    by_cases h : ρ = R b
    · rw [if_pos h, if_pos (decide_eq_true h.symm), add_smul, one_smul]
      ext <;> simp only [Prod.fst_add, Prod.snd_add] <;> ring
    · have h' : ¬ decide (R b = ρ) = true := by
        rw [decide_eq_true_eq]
        exact fun e => h e.symm
      rw [if_neg h, if_neg h', add_zero]

theorem fold_nnz {α : Type*} (l : List α) (step : Option Nnz → α → Option Nnz) (W : α → Nnz)
    (h : ∀ s, ∀ a ∈ l, step (some s) a = some (s + W a)) (s : Nnz) :
    l.foldl step (some s) = some (s + (l.map W).sum) := by
  rw [foldl_some l step (fun s a => s + W a) h]
  congr 1
  clear h
  induction l generalizing s with
  | nil => simp
  | cons a l ih => rw [List.foldl_cons, ih, List.map_cons, List.sum_cons, add_assoc]

theorem le_sum_nnz {α : Type*} (l : List α) (W : α → Nnz) (a : α) (ha : a ∈ l) : W a ≤ (l.map W).sum := by
  induction l with
  | nil => simp at ha
  | cons b l ih =>
    rw [List.map_cons, List.sum_cons]
    intro ρ
    rcases List.mem_cons.1 ha with rfl | h
    · exact ⟨Nat.le_add_right _ _, Nat.le_add_right _ _⟩
    · exact ⟨((ih h ρ).1).trans (Nat.le_add_left _ _), ((ih h ρ).2).trans (Nat.le_add_left _ _)⟩

theorem le_callW (own : Dof → Bool) (R T : List Dof) (ρ : Dof) (h : ρ ∈ R) :
    (T.countP own, T.countP fun c => !own c) ≤ callW own R T ρ := by
  unfold callW
  have : 1 ≤ R.countP (fun x => decide (x = ρ)) := List.countP_pos_iff.2 ⟨ρ, h, by simp⟩
  obtain ⟨k, hk⟩ := Nat.exists_eq_add_of_le this
  rw [hk, add_smul, one_smul]
  exact ⟨Nat.le_add_right _ _, Nat.le_add_right _ _⟩

theorem length_pairs (a b : List ℤ) : (pairs a b).length = a.length * b.length := by
  simp [pairs]

theorem mem_pairs {a b : List ℤ} {x : ℤ × ℤ} : x ∈ pairs a b ↔ x.1 ∈ a ∧ x.2 ∈ b := by
  obtain ⟨u, v⟩ := x
  simp [pairs]

theorem length_offs1 (D : Dir) (i : ℤ) : (offs1 D i).length ≤ 3 := by
  unfold offs1; rw [length_forRange]; split_ifs <;> omega

theorem length_offs21 (Dv Dp : Dir) (i : ℤ) : (offs21 Dv Dp i).length ≤ 5 := by
  unfold offs21; rw [length_forRange]; split_ifs <;> omega

theorem length_offs12 (Dp : Dir) (i : ℤ) : (offs12 Dp i).length ≤ 3 := by
  unfold offs12; rw [length_forRange]
  have : i % 2 = 0 ∨ i % 2 = 1 := by omega
  split_ifs <;> omega

/-! ### The blocks -/

/-- The component of a component number. -/
def toC (kd : ℕ) : Fin 2 := if kd = 0 then 0 else 1

theorem toC_val {kd : ℕ} (h : kd < 2) : (toC kd).1 = kd := by
  unfold toC; split_ifs with h0 <;> simp <;> omega

section
variable (Lv Lp : Fin 2 → Dir) (P : ∀ i, Pair (Lv i) (Lp i)) (r : Fin 2 → ℕ) (hr : ∀ i, r i < (Lp i).l.length)
include P hr

theorem velId_map (kd : ℕ) (hk : kd < 2) (p : Pos 2 ℤ) (hp : p ∈ (ghostWindow Lv r).halfOpen) :
    ltog Lv Lp r (velId Lv r kd (p 0) (p 1)) = some (.inl (wrap Lv p, toC kd)) := by
  have := ltog_vel Lv Lp r p hp (toC kd)
  rw [toC_val hk] at this
  exact this

theorem dec_nonneg : 0 ≤ decOf Lv r :=
  decOf_nonneg Lv (fun i => (P i).wv) r (by rw [mem_procs]; intro i; rw [(P i).len]; exact hr i)

theorem presId_map (p : Pos 2 ℤ) (hp : p ∈ (ghostWindow Lp r).halfOpen) :
    ltog Lv Lp r (presId Lv Lp r (p 0) (p 1)) = some (.inr (wrap Lp p)) :=
  ltog_pres Lv Lp r p hp (dec_nonneg Lv Lp P r hr)

omit P hr in
/-- An id of the map is not negative. -/
theorem ltog_nonneg (id : ℤ) (γ : Dof) (h : ltog Lv Lp r id = some γ) (h0 : 0 ≤ decOf Lv r) : ¬ id < 0 := by
  intro hneg
  unfold ltog at h
  simp only at h
  rw [if_neg (by omega), if_neg (by omega)] at h
  exact absurd h (by simp)

theorem colDof_of (id : ℤ) (γ : Dof) (h : ltog Lv Lp r id = some γ) (own : Dof → Bool) :
    ∃ E, colDof (ltog Lv Lp r) id = some E ∧ E.any own = own γ := by
  refine ⟨some γ, ?_, rfl⟩
  unfold colDof
  rw [if_neg (ltog_nonneg Lv Lp r id γ h (dec_nonneg Lv Lp P r hr)), h]
  rfl

omit P hr in
theorem mem_ownedNodes (L : Fin 2 → Dir) (ij : ℤ × ℤ) :
    ij ∈ ownedNodes L r ↔ Own1 (L 0) (r 0) ij.1 ∧ Own1 (L 1) (r 1) ij.2 := by
  unfold ownedNodes
  rw [mem_pairs, mem_forRange, mem_forRange]
  rfl

omit P hr in
theorem own_node (L : Fin 2 → Dir) (hW : ∀ i, (L i).WF) (hr : ∀ i, r i < (L i).l.length) (i j : ℤ)
    (hi : Own1 (L 0) (r 0) i) (hj : Own1 (L 1) (r 1) j) :
    ![i, j] ∈ (ghostWindow L r).halfOpen ∧ wrap L ![i, j] = ![i, j] := by
  have key : ∀ k x, Own1 (L k) (r k) x → ((L k).gxs (r k) ≤ x ∧ x < (L k).gxe (r k)) ∧ wrap1 (L k) x = x := by
    intro k x hx
    have h3 := Dir.xs_nonneg (hW k) (r k)
    have h4 := Dir.xe_le (hW k) (hr k)
    obtain ⟨h1, h2⟩ := hx
    constructor
    · unfold Dir.gxs Dir.gxe
      split_ifs <;> omega
    · unfold wrap1
      split_ifs
      · exact Int.emod_eq_of_lt (by omega) (by omega)
      · rfl
  constructor
  · intro k
    fin_cases k
    · exact (key 0 i hi).1
    · exact (key 1 j hj).1
  · funext k
    rw [wrap1_eq]
    fin_cases k
    · exact (key 0 i hi).2
    · exact (key 1 j hj).2

omit P hr in
theorem owns_vel (i j : ℤ) (c : Fin 2) :
    owns Lv Lp r (.inl (![i, j], c)) = true ↔ Own1 (Lv 0) (r 0) i ∧ Own1 (Lv 1) (r 1) j := by
  simp [owns, Fin.forall_fin_two, Own1]

omit P hr in
theorem owns_pres (i j : ℤ) :
    owns Lv Lp r (.inr ![i, j]) = true ↔ Own1 (Lp 0) (r 0) i ∧ Own1 (Lp 1) (r 1) j := by
  simp [owns, Fin.forall_fin_two, Own1]

/-- True columns of the block (1,1), component `c`. -/
def T11 (i j : ℤ) (c : Fin 2) : List Dof :=
  (pairs (offs1 (Lv 1) j) (offs1 (Lv 0) i)).map fun lp => .inl (wrap Lv ![i + lp.2, j + lp.1], c)

/-- True columns of the block (2,2). -/
def T22 (i j : ℤ) : List Dof :=
  (pairs (offs1 (Lp 1) j) (offs1 (Lp 0) i)).map fun lp => .inr (wrap Lp ![i + lp.2, j + lp.1])

/-- True columns of the block (2,1). -/
def T21 (i j : ℤ) : List Dof :=
  (pairs (offs21 (Lv 1) (Lp 1) j) (offs21 (Lv 0) (Lp 0) i)).flatMap fun lp =>
    (List.range 2).map fun kd => .inl (wrap Lv ![2 * i + lp.2, 2 * j + lp.1], toC kd)

/-- True columns of the block (1,2). -/
def T12 (i j : ℤ) : List Dof :=
  (pairs (offs12 (Lp 1) j) (offs12 (Lp 0) i)).map fun lp => .inr (wrap Lp ![i / 2 + lp.2, j / 2 + lp.1])

theorem rowVel (i j : ℤ) (hi : Own1 (Lv 0) (r 0) i) (hj : Own1 (Lv 1) (r 1) j) (kd : ℕ) (hk : kd < 2) :
    ltog Lv Lp r (velId Lv r kd i j) = some (.inl (![i, j], toC kd)) ∧
    owns Lv Lp r (.inl (![i, j], toC kd)) = true := by
  obtain ⟨h1, h2⟩ := own_node r Lv (fun i => (P i).wv) (fun i => by rw [(P i).len]; exact hr i) i j hi hj
  refine ⟨?_, (owns_vel Lv Lp r i j _).2 ⟨hi, hj⟩⟩
  have := velId_map Lv Lp P r hr kd hk _ h1
  rw [h2] at this
  exact this

theorem rowPres (i j : ℤ) (hi : Own1 (Lp 0) (r 0) i) (hj : Own1 (Lp 1) (r 1) j) :
    ltog Lv Lp r (presId Lv Lp r i j) = some (.inr ![i, j]) ∧ owns Lv Lp r (.inr ![i, j]) = true := by
  obtain ⟨h1, h2⟩ := own_node r Lp (fun i => (P i).wp) hr i j hi hj
  refine ⟨?_, (owns_pres Lv Lp r i j).2 ⟨hi, hj⟩⟩
  have := presId_map Lv Lp P r hr _ h1
  rw [h2] at this
  exact this

theorem col11 (i j : ℤ) (hi : Own1 (Lv 0) (r 0) i) (hj : Own1 (Lv 1) (r 1) j) (kd : ℕ) (hk : kd < 2) (lp : ℤ × ℤ)
    (h : lp ∈ pairs (offs1 (Lv 1) j) (offs1 (Lv 0) i)) :
    ltog Lv Lp r (velId Lv r kd (i + lp.2) (j + lp.1)) = some (.inl (wrap Lv ![i + lp.2, j + lp.1], toC kd)) := by
  obtain ⟨h1, h2⟩ := mem_pairs.1 h
  refine velId_map Lv Lp P r hr kd hk ![i + lp.2, j + lp.1] ?_
  intro k
  fin_cases k
  · exact win1 (Lv 0) (P 0).wv (r 0) (by rw [(P 0).len]; exact hr 0) i lp.2 hi h2
  · exact win1 (Lv 1) (P 1).wv (r 1) (by rw [(P 1).len]; exact hr 1) j lp.1 hj h1

theorem block11Lap_le (s : Nnz) : ∃ W, block11Lap Lv Lp r (some s) = some (s + W) ∧
    ∀ i j c, Own1 (Lv 0) (r 0) i → Own1 (Lv 1) (r 1) j →
      ((T11 Lv i j c).countP (owns Lv Lp r), (T11 Lv i j c).countP fun γ => !owns Lv Lp r γ) ≤ W (.inl (![i, j], c)) := by
  unfold block11Lap
  let V : ℤ × ℤ → ℕ → Nnz := fun ij kd => callW (owns Lv Lp r) [.inl (![ij.1, ij.2], toC kd)] (T11 Lv ij.1 ij.2 (toC kd))
  refine ⟨((ownedNodes Lv r).map fun ij => ((List.range 2).map (V ij)).sum).sum, ?_, ?_⟩
  · apply fold_nnz
    intro s ij hij
    obtain ⟨hi, hj⟩ := (mem_ownedNodes r Lv ij).1 hij
    apply fold_nnz
    intro s kd hkd
    have hk : kd < 2 := List.mem_range.1 hkd
    have := setLocal_eq (ltog Lv Lp r) (owns Lv Lp r) capU [kd] (fun kd => velId Lv r kd ij.1 ij.2)
      (fun kd => .inl (![ij.1, ij.2], toC kd)) (pairs (offs1 (Lv 1) ij.2) (offs1 (Lv 0) ij.1))
      (fun lp => velId Lv r kd (ij.1 + lp.2) (ij.2 + lp.1))
      (fun lp => .inl (wrap Lv ![ij.1 + lp.2, ij.2 + lp.1], toC kd)) ?_ ?_ ?_ s
    · exact this
    · rw [length_pairs]
      have := Nat.mul_le_mul (length_offs1 (Lv 1) ij.2) (length_offs1 (Lv 0) ij.1)
      unfold capU; omega
    · intro b hb
      rw [List.mem_singleton] at hb
      subst hb
      exact rowVel Lv Lp P r hr _ _ hi hj _ hk
    · intro lp hlp
      exact colDof_of Lv Lp P r hr _ _ (col11 Lv Lp P r hr _ _ hi hj kd hk lp hlp) _
  · intro i j c hi hj
    have h1 := le_sum_nnz (ownedNodes Lv r) (fun ij => ((List.range 2).map (V ij)).sum) (i, j)
      ((mem_ownedNodes r Lv _).2 ⟨hi, hj⟩) (.inl (![i, j], c))
    have h2 := le_sum_nnz (List.range 2) (V (i, j)) c.1 (List.mem_range.2 c.2) (.inl (![i, j], c))
    have hc : toC c.1 = c := Fin.ext (toC_val c.2)
    refine le_trans ?_ (le_trans h2 h1)
    have := le_callW (owns Lv Lp r) [.inl (![i, j], c)] (T11 Lv i j c) (.inl (![i, j], c)) (by simp)
    simp only [V, hc]
    exact this

/-- True columns of a velocity row in the strain case: both components. -/
def T11s (i j : ℤ) : List Dof := (List.range 2).flatMap fun kd => T11 Lv i j (toC kd)

theorem block11Strain_le (s : Nnz) : ∃ W, block11Strain Lv Lp r (some s) = some (s + W) ∧
    ∀ i j c, Own1 (Lv 0) (r 0) i → Own1 (Lv 1) (r 1) j →
      ((T11s Lv i j).countP (owns Lv Lp r), (T11s Lv i j).countP fun γ => !owns Lv Lp r γ) ≤ W (.inl (![i, j], c)) := by
  unfold block11Strain
  let V : ℤ × ℤ → Nnz := fun ij => callW (owns Lv Lp r) ((List.range 2).map fun kd => .inl (![ij.1, ij.2], toC kd))
    (T11s Lv ij.1 ij.2)
  refine ⟨((ownedNodes Lv r).map V).sum, ?_, ?_⟩
  · apply fold_nnz
    intro s ij hij
    obtain ⟨hi, hj⟩ := (mem_ownedNodes r Lv ij).1 hij
    have := setLocal_eq (ltog Lv Lp r) (owns Lv Lp r) capU (List.range 2) (fun kd => velId Lv r kd ij.1 ij.2)
      (fun kd => .inl (![ij.1, ij.2], toC kd))
      ((List.range 2).flatMap fun kd => (pairs (offs1 (Lv 1) ij.2) (offs1 (Lv 0) ij.1)).map fun lp => (kd, lp))
      (fun x => velId Lv r x.1 (ij.1 + x.2.2) (ij.2 + x.2.1))
      (fun x => .inl (wrap Lv ![ij.1 + x.2.2, ij.2 + x.2.1], toC x.1)) ?_ ?_ ?_ s
    · simp only [List.map_flatMap, List.map_map, Function.comp_def] at this
      exact this
    · simp only [List.length_flatMap, List.length_map, length_pairs]
      have := Nat.mul_le_mul (length_offs1 (Lv 1) ij.2) (length_offs1 (Lv 0) ij.1)
      simp [List.range_succ, capU]
      omega
    · intro b hb
      exact rowVel Lv Lp P r hr _ _ hi hj _ (List.mem_range.1 hb)
    · intro x hx
      obtain ⟨kd, hkd, lp, hlp, rfl⟩ : ∃ kd ∈ List.range 2, ∃ lp ∈ pairs (offs1 (Lv 1) ij.2) (offs1 (Lv 0) ij.1),
          (kd, lp) = x := by
        rw [List.mem_flatMap] at hx
        obtain ⟨kd, hkd, hx⟩ := hx
        obtain ⟨lp, h1, h2⟩ := List.mem_map.1 hx
        exact ⟨kd, hkd, lp, h1, h2⟩
      exact colDof_of Lv Lp P r hr _ _ (col11 Lv Lp P r hr _ _ hi hj kd (List.mem_range.1 hkd) lp hlp) _
  · intro i j c hi hj
    have h1 := le_sum_nnz (ownedNodes Lv r) V (i, j) ((mem_ownedNodes r Lv _).2 ⟨hi, hj⟩) (.inl (![i, j], c))
    refine le_trans ?_ h1
    refine le_callW (owns Lv Lp r) _ (T11s Lv i j) (.inl (![i, j], c)) ?_
    rw [List.mem_map]
    exact ⟨c.1, List.mem_range.2 c.2, by rw [show toC c.1 = c from Fin.ext (toC_val c.2)]⟩

theorem block22_le (s : Nnz) : ∃ W, block22 Lv Lp r (some s) = some (s + W) ∧
    ∀ i j, Own1 (Lp 0) (r 0) i → Own1 (Lp 1) (r 1) j →
      ((T22 Lp i j).countP (owns Lv Lp r), (T22 Lp i j).countP fun γ => !owns Lv Lp r γ) ≤ W (.inr ![i, j]) := by
  unfold block22
  let V : ℤ × ℤ → Nnz := fun ij => callW (owns Lv Lp r) [.inr ![ij.1, ij.2]] (T22 Lp ij.1 ij.2)
  refine ⟨((ownedNodes Lp r).map V).sum, ?_, ?_⟩
  · apply fold_nnz
    intro s ij hij
    obtain ⟨hi, hj⟩ := (mem_ownedNodes r Lp ij).1 hij
    have := setLocal_eq (ltog Lv Lp r) (owns Lv Lp r) capP [()] (fun _ => presId Lv Lp r ij.1 ij.2)
      (fun _ => .inr ![ij.1, ij.2]) (pairs (offs1 (Lp 1) ij.2) (offs1 (Lp 0) ij.1))
      (fun lp => presId Lv Lp r (ij.1 + lp.2) (ij.2 + lp.1))
      (fun lp => .inr (wrap Lp ![ij.1 + lp.2, ij.2 + lp.1])) ?_ ?_ ?_ s
    · exact this
    · rw [length_pairs]
      have := Nat.mul_le_mul (length_offs1 (Lp 1) ij.2) (length_offs1 (Lp 0) ij.1)
      unfold capP; omega
    · intro b _
      exact rowPres Lv Lp P r hr _ _ hi hj
    · intro lp hlp
      obtain ⟨h1, h2⟩ := mem_pairs.1 hlp
      refine colDof_of Lv Lp P r hr _ _ (presId_map Lv Lp P r hr ![ij.1 + lp.2, ij.2 + lp.1] ?_) _
      intro k
      fin_cases k
      · exact win1 (Lp 0) (P 0).wp (r 0) (hr 0) ij.1 lp.2 hi h2
      · exact win1 (Lp 1) (P 1).wp (r 1) (hr 1) ij.2 lp.1 hj h1
  · intro i j hi hj
    have h1 := le_sum_nnz (ownedNodes Lp r) V (i, j) ((mem_ownedNodes r Lp _).2 ⟨hi, hj⟩) (.inr ![i, j])
    exact le_trans (le_callW (owns Lv Lp r) _ (T22 Lp i j) (.inr ![i, j]) (by simp)) h1

theorem col21_spec (i j : ℤ) (hi : Own1 (Lp 0) (r 0) i) (hj : Own1 (Lp 1) (r 1) j) (kd : ℕ) (hk : kd < 2) (lp : ℤ × ℤ)
    (h : lp ∈ pairs (offs21 (Lv 1) (Lp 1) j) (offs21 (Lv 0) (Lp 0) i)) :
    ∃ E, colDof (ltog Lv Lp r) (col21 Lv Lp r i j lp.1 lp.2 kd) = some E ∧
      E.any (owns Lv Lp r) = owns Lv Lp r (.inl (wrap Lv ![2 * i + lp.2, 2 * j + lp.1], toC kd)) := by
  obtain ⟨h1, h2⟩ := mem_pairs.1 h
  obtain ⟨x1, x2⟩ := loc21_spec (Lv 0) (Lp 0) (P 0) (r 0) (hr 0) i lp.2 hi h2
  obtain ⟨y1, y2⟩ := loc21_spec (Lv 1) (Lp 1) (P 1) (r 1) (hr 1) j lp.1 hj h1
  have hw : wrap Lv ![2 * i + lp.2, 2 * j + lp.1] = ![wrap1 (Lv 0) (2 * i + lp.2), wrap1 (Lv 1) (2 * j + lp.1)] := by
    funext k; rw [wrap1_eq]; fin_cases k <;> rfl
  unfold col21
  simp only
  split_ifs with ho
  · refine ⟨none, by simp [colDof], ?_⟩
    rw [hw]
    have : ¬ owns Lv Lp r (.inl (![wrap1 (Lv 0) (2 * i + lp.2), wrap1 (Lv 1) (2 * j + lp.1)], toC kd)) = true := by
      rw [owns_vel]
      rintro ⟨o1, o2⟩
      rcases Bool.or_eq_true _ _ ▸ ho with h | h
      · exact x1 h o1
      · exact y1 h o2
    rw [Bool.not_eq_true] at this
    rw [this]
    rfl
  · rw [Bool.not_eq_true, Bool.or_eq_false_iff] at ho
    obtain ⟨a1, a2, a3⟩ := x2 ho.1
    obtain ⟨b1, b2, b3⟩ := y2 ho.2
    set ii := loc21 (Lv 0) (Lp 0) (r 0) i lp.2
    set jj := loc21 (Lv 1) (Lp 1) (r 1) j lp.1
    have hid : 2 * (jj * (Lv 0).gxm (r 0) + ii) + (kd : ℤ) =
        velId Lv r kd ((![(Lv 0).gxs (r 0) + ii, (Lv 1).gxs (r 1) + jj] : Pos 2 ℤ) 0)
          ((![(Lv 0).gxs (r 0) + ii, (Lv 1).gxs (r 1) + jj] : Pos 2 ℤ) 1) := by
      unfold velId localIndex2
      simp only [Matrix.cons_val]
      ring
    rw [hid]
    refine colDof_of Lv Lp P r hr _ _ ?_ _
    have := velId_map Lv Lp P r hr kd hk ![(Lv 0).gxs (r 0) + ii, (Lv 1).gxs (r 1) + jj] (by
      intro k
      fin_cases k
      · exact ⟨a1, a2⟩
      · exact ⟨b1, b2⟩)
    rw [this, hw]
    congr 3
    funext k
    rw [wrap1_eq]
    fin_cases k
    · exact a3
    · exact b3

theorem block21_le (s : Nnz) : ∃ W, block21 Lv Lp r (some s) = some (s + W) ∧
    ∀ i j, Own1 (Lp 0) (r 0) i → Own1 (Lp 1) (r 1) j →
      ((T21 Lv Lp i j).countP (owns Lv Lp r), (T21 Lv Lp i j).countP fun γ => !owns Lv Lp r γ) ≤ W (.inr ![i, j]) := by
  unfold block21
  let V : ℤ × ℤ → Nnz := fun ij => callW (owns Lv Lp r) [.inr ![ij.1, ij.2]] (T21 Lv Lp ij.1 ij.2)
  have hmem : ∀ ij : ℤ × ℤ, (ij ∈ (forRange ((Lp 1).xs (r 1)) ((Lp 1).xs (r 1) + (Lp 1).xm (r 1))).flatMap fun j =>
      (forRange ((Lp 0).xs (r 0)) ((Lp 0).xs (r 0) + (Lp 0).xm (r 0))).map fun i => (i, j)) ↔
      Own1 (Lp 0) (r 0) ij.1 ∧ Own1 (Lp 1) (r 1) ij.2 := by
    rintro ⟨i, j⟩
    simp only [List.mem_flatMap, List.mem_map, mem_forRange, Prod.mk.injEq, Own1]
    constructor
    · rintro ⟨j', hj', i', hi', rfl, rfl⟩; exact ⟨hi', hj'⟩
    · rintro ⟨hi, hj⟩; exact ⟨j, hj, i, hi, rfl, rfl⟩
  refine ⟨(((forRange ((Lp 1).xs (r 1)) ((Lp 1).xs (r 1) + (Lp 1).xm (r 1))).flatMap fun j =>
      (forRange ((Lp 0).xs (r 0)) ((Lp 0).xs (r 0) + (Lp 0).xm (r 0))).map fun i => (i, j)).map V).sum, ?_, ?_⟩
  · apply fold_nnz
    intro s ij hij
    obtain ⟨hi, hj⟩ := (hmem ij).1 hij
    have := setLocal_eq (ltog Lv Lp r) (owns Lv Lp r) capU [()] (fun _ => presId Lv Lp r ij.1 ij.2)
      (fun _ => .inr ![ij.1, ij.2])
      ((pairs (offs21 (Lv 1) (Lp 1) ij.2) (offs21 (Lv 0) (Lp 0) ij.1)).flatMap fun lp =>
        (List.range 2).map fun kd => (lp, kd))
      (fun x => col21 Lv Lp r ij.1 ij.2 x.1.1 x.1.2 x.2)
      (fun x => .inl (wrap Lv ![2 * ij.1 + x.1.2, 2 * ij.2 + x.1.1], toC x.2)) ?_ ?_ ?_ s
    · simp only [List.map_flatMap, List.map_map, Function.comp_def] at this
      exact this
    · simp only [List.length_flatMap, List.length_map, List.length_range, List.map_const', List.sum_replicate, length_pairs]
      have := Nat.mul_le_mul (length_offs21 (Lv 1) (Lp 1) ij.2) (length_offs21 (Lv 0) (Lp 0) ij.1)
      simp [capU]
      omega
    · intro b _
      exact rowPres Lv Lp P r hr _ _ hi hj
    · intro x hx
      obtain ⟨lp, hlp, kd, hkd, rfl⟩ : ∃ lp ∈ pairs (offs21 (Lv 1) (Lp 1) ij.2) (offs21 (Lv 0) (Lp 0) ij.1),
          ∃ kd ∈ List.range 2, (lp, kd) = x := by
        rw [List.mem_flatMap] at hx
        obtain ⟨lp, hlp, hx⟩ := hx
        obtain ⟨kd, h1, h2⟩ := List.mem_map.1 hx
        exact ⟨lp, hlp, kd, h1, h2⟩
      exact col21_spec Lv Lp P r hr _ _ hi hj kd (List.mem_range.1 hkd) lp hlp
  · intro i j hi hj
    have h1 := le_sum_nnz _ V (i, j) ((hmem (i, j)).2 ⟨hi, hj⟩) (.inr ![i, j])
    exact le_trans (le_callW (owns Lv Lp r) _ (T21 Lv Lp i j) (.inr ![i, j]) (by simp)) h1

theorem block12_le (s : Nnz) : ∃ W, block12 Lv Lp r (some s) = some (s + W) ∧
    ∀ i j c, Own1 (Lv 0) (r 0) i → Own1 (Lv 1) (r 1) j →
      ((T12 Lp i j).countP (owns Lv Lp r), (T12 Lp i j).countP fun γ => !owns Lv Lp r γ) ≤ W (.inl (![i, j], c)) := by
  unfold block12
  let V : ℤ × ℤ → Nnz := fun ij => callW (owns Lv Lp r) ((List.range 2).map fun kd => .inl (![ij.1, ij.2], toC kd))
    (T12 Lp ij.1 ij.2)
  refine ⟨((ownedNodes Lv r).map V).sum, ?_, ?_⟩
  · apply fold_nnz
    intro s ij hij
    obtain ⟨hi, hj⟩ := (mem_ownedNodes r Lv ij).1 hij
    refine setLocal_eq (ltog Lv Lp r) (owns Lv Lp r) capP (List.range 2) _
      (fun kd => .inl (![ij.1, ij.2], toC kd))
      (pairs (offs12 (Lp 1) ij.2) (offs12 (Lp 0) ij.1)) _
      (fun lp => .inr (wrap Lp ![ij.1 / 2 + lp.2, ij.2 / 2 + lp.1])) ?_ ?_ ?_ s
    · rw [length_pairs]
      have := Nat.mul_le_mul (length_offs12 (Lp 1) ij.2) (length_offs12 (Lp 0) ij.1)
      unfold capP; omega
    · intro kd hb
      have := rowVel Lv Lp P r hr _ _ hi hj kd (List.mem_range.1 hb)
      refine ⟨?_, this.2⟩
      rw [← this.1]
      congr 1
      unfold velId localIndex2
      ring
    · intro lp hlp
      obtain ⟨h1, h2⟩ := mem_pairs.1 hlp
      refine colDof_of Lv Lp P r hr _ _ ?_ _
      have := presId_map Lv Lp P r hr ![ij.1 / 2 + lp.2, ij.2 / 2 + lp.1] (by
        intro k
        fin_cases k
        · exact win12 (Lv 0) (Lp 0) (P 0) (r 0) (hr 0) ij.1 lp.2 hi h2
        · exact win12 (Lv 1) (Lp 1) (P 1) (r 1) (hr 1) ij.2 lp.1 hj h1)
      rw [← this]
      congr 1
      unfold presId localIndex2
      simp only [Matrix.cons_val]
      ring
  · intro i j c hi hj
    have h1 := le_sum_nnz (ownedNodes Lv r) V (i, j) ((mem_ownedNodes r Lv _).2 ⟨hi, hj⟩) (.inl (![i, j], c))
    refine le_trans ?_ h1
    refine le_callW (owns Lv Lp r) _ (T12 Lp i j) (.inl (![i, j], c)) ?_
    rw [List.mem_map]
    exact ⟨c.1, List.mem_range.2 c.2, by rw [show toC c.1 = c from Fin.ext (toC_val c.2)]⟩

/-- True columns of a row. -/
def trueCols (strain precond : Bool) : Dof → List Dof
  | .inl (g, c) => (if strain then T11s Lv (g 0) (g 1) else T11 Lv (g 0) (g 1) c) ++
      if precond then [] else T12 Lp (g 0) (g 1)
  | .inr g => T22 Lp (g 0) (g 1) ++ if precond then [] else T21 Lv Lp (g 0) (g 1)

omit P hr in
theorem owns_vel' (g : Pos 2 ℤ) (c : Fin 2) :
    owns Lv Lp r (.inl (g, c)) = true ↔ Own1 (Lv 0) (r 0) (g 0) ∧ Own1 (Lv 1) (r 1) (g 1) := by
  simp [owns, Fin.forall_fin_two, Own1]

omit P hr in
theorem owns_pres' (g : Pos 2 ℤ) :
    owns Lv Lp r (.inr g) = true ↔ Own1 (Lp 0) (r 0) (g 0) ∧ Own1 (Lp 1) (r 1) (g 1) := by
  simp [owns, Fin.forall_fin_two, Own1]

theorem prealloc_le (strain precond : Bool) : ∃ z, preallocateMat Lv Lp r strain precond = some z ∧
    ∀ ρ, owns Lv Lp r ρ = true →
      (trueCols Lv Lp strain precond ρ).countP (owns Lv Lp r) ≤ (z ρ).1 ∧
      ((trueCols Lv Lp strain precond ρ).countP fun γ => !owns Lv Lp r γ) ≤ (z ρ).2 := by
  have hA : ∃ W, (if strain then block11Strain Lv Lp r (some fun _ => 0) else block11Lap Lv Lp r (some fun _ => 0)) =
      some (0 + W) ∧ ∀ (g : Pos 2 ℤ) c, owns Lv Lp r (.inl (g, c)) = true →
      ((if strain then T11s Lv (g 0) (g 1) else T11 Lv (g 0) (g 1) c).countP (owns Lv Lp r),
        (if strain then T11s Lv (g 0) (g 1) else T11 Lv (g 0) (g 1) c).countP fun γ => !owns Lv Lp r γ) ≤
        W (.inl (g, c)) := by
    have eta : ∀ g : Pos 2 ℤ, ![g 0, g 1] = g := fun g => by funext k; fin_cases k <;> rfl
    cases strain
    · obtain ⟨W, h1, h2⟩ := block11Lap_le Lv Lp P r hr (fun _ => 0)
      refine ⟨W, h1, fun g c hg => ?_⟩
      obtain ⟨o1, o2⟩ := (owns_vel' Lv Lp r g c).1 hg
      have := h2 (g 0) (g 1) c o1 o2
      rw [eta] at this
      exact this
    · obtain ⟨W, h1, h2⟩ := block11Strain_le Lv Lp P r hr (fun _ => 0)
      refine ⟨W, h1, fun g c hg => ?_⟩
      obtain ⟨o1, o2⟩ := (owns_vel' Lv Lp r g c).1 hg
      have := h2 (g 0) (g 1) c o1 o2
      rw [eta] at this
      exact this
  have eta : ∀ g : Pos 2 ℤ, ![g 0, g 1] = g := fun g => by funext k; fin_cases k <;> rfl
  obtain ⟨W1, h1, k1⟩ := hA
  obtain ⟨W2, h2, k2⟩ := block22_le Lv Lp P r hr (0 + W1)
  obtain ⟨W3, h3, k3⟩ := block21_le Lv Lp P r hr (0 + W1 + W2)
  obtain ⟨W4, h4, k4⟩ := block12_le Lv Lp P r hr (0 + W1 + W2 + W3)
  unfold preallocateMat
  simp only
  rw [h1, h2, h3, h4]
  cases precond
  · refine ⟨_, rfl, fun ρ hρ => ?_⟩
    rcases ρ with ⟨g, c⟩ | g
    · have e1 := k1 g c hρ
      obtain ⟨o1, o2⟩ := (owns_vel' Lv Lp r g c).1 hρ
      have e4 := k4 (g 0) (g 1) c o1 o2
      rw [eta] at e4
      simp only [trueCols, List.countP_append, Pi.add_apply, Prod.fst_add, Prod.snd_add, Pi.zero_apply]
      have a1 := e1.1; have a2 := e1.2; have b1 := e4.1; have b2 := e4.2
      simp only at a1 a2 b1 b2 ⊢
      constructor <;> simp only [Bool.false_eq_true, if_false] <;> omega
    · obtain ⟨o1, o2⟩ := (owns_pres' Lv Lp r g).1 hρ
      have e2 := k2 (g 0) (g 1) o1 o2
      have e3 := k3 (g 0) (g 1) o1 o2
      rw [eta] at e2 e3
      simp only [trueCols, List.countP_append, Pi.add_apply, Prod.fst_add, Prod.snd_add, Pi.zero_apply]
      have a1 := e2.1; have a2 := e2.2; have b1 := e3.1; have b2 := e3.2
      simp only at a1 a2 b1 b2 ⊢
      constructor <;> simp only [Bool.false_eq_true, if_false] <;> omega
  · refine ⟨_, rfl, fun ρ hρ => ?_⟩
    rcases ρ with ⟨g, c⟩ | g
    · have e1 := k1 g c hρ
      simp only [trueCols, List.countP_append, Pi.add_apply, Prod.fst_add, Prod.snd_add, Pi.zero_apply]
      have a1 := e1.1; have a2 := e1.2
      simp only at a1 a2 ⊢
      constructor <;> simp only [if_true, List.countP_nil] <;> omega
    · obtain ⟨o1, o2⟩ := (owns_pres' Lv Lp r g).1 hρ
      have e2 := k2 (g 0) (g 1) o1 o2
      rw [eta] at e2
      simp only [trueCols, List.countP_append, Pi.add_apply, Prod.fst_add, Prod.snd_add, Pi.zero_apply]
      have a1 := e2.1; have a2 := e2.2
      simp only at a1 a2 ⊢
      constructor <;> simp only [if_true, List.countP_nil] <;> omega

end

/-! ### The entries inserted are among the true columns -/

section
variable (Lv Lp : Fin 2 → Dir) (P : ∀ i, Pair (Lv i) (Lp i))

theorem near_elem (L : Fin 2 → Dir) (e : Pos 2 ℤ) (he : e ∈ gridElems L) (a b : Fin 4) :
    ∃ lp ∈ pairs (offs1 (L 1) (wrap L (getElement2 e a) 1)) (offs1 (L 0) (wrap L (getElement2 e a) 0)),
      wrap L ![wrap L (getElement2 e a) 0 + lp.2, wrap L (getElement2 e a) 1 + lp.1] = wrap L (getElement2 e b) := by
  rw [mem_gridElems] at he
  have key : ∀ i, ∃ p ∈ offs1 (L i) (wrap L (getElement2 e a) i),
      wrap1 (L i) (wrap L (getElement2 e a) i + p) = wrap1 (L i) (getElement2 e b i) := by
    intro i
    have ha := getElement2_mem e a i
    have hb := getElement2_mem e b i
    have := near1 (L i) (e i) (he i).1 (he i).2 (getElement2 e a i - e i) (getElement2 e b i - e i)
      (by omega) (by omega)
    rw [wrap1_eq]
    simpa only [add_sub_cancel] using this
  obtain ⟨p, hp, hp'⟩ := key 0
  obtain ⟨l, hl, hl'⟩ := key 1
  refine ⟨(l, p), mem_pairs.2 ⟨hl, hp⟩, ?_⟩
  funext k
  rw [wrap1_eq, wrap1_eq]
  fin_cases k
  · exact hp'
  · exact hl'

include P

theorem near_elem21 (e : Pos 2 ℤ) (he : e ∈ gridElems Lp) (a : Fin 4) (b : Fin 9) :
    ∃ lp ∈ pairs (offs21 (Lv 1) (Lp 1) (wrap Lp (getElement2 e a) 1)) (offs21 (Lv 0) (Lp 0) (wrap Lp (getElement2 e a) 0)),
      wrap Lv ![2 * wrap Lp (getElement2 e a) 0 + lp.2, 2 * wrap Lp (getElement2 e a) 1 + lp.1] =
        wrap Lv (getElement4Q1_2 e b) := by
  rw [mem_gridElems] at he
  have key : ∀ i, ∃ p ∈ offs21 (Lv i) (Lp i) (wrap Lp (getElement2 e a) i),
      wrap1 (Lv i) (2 * wrap Lp (getElement2 e a) i + p) = wrap1 (Lv i) (getElement4Q1_2 e b i) := by
    intro i
    have ha := getElement2_mem e a i
    have hb := is4Q1_2 e b i
    have hb' := (trit2 b i).2
    have := near21 (Lv i) (Lp i) (P i) (e i) (he i).1 (he i).2 (getElement2 e a i - e i)
      (getElement4Q1_2 e b i - 2 * e i) (by omega) (by omega)
    rw [wrap1_eq]
    simpa only [add_sub_cancel] using this
  obtain ⟨p, hp, hp'⟩ := key 0
  obtain ⟨l, hl, hl'⟩ := key 1
  refine ⟨(l, p), mem_pairs.2 ⟨hl, hp⟩, ?_⟩
  funext k
  rw [wrap1_eq, wrap1_eq]
  fin_cases k
  · exact hp'
  · exact hl'

theorem near_elem12 (e : Pos 2 ℤ) (he : e ∈ gridElems Lp) (a : Fin 4) (b : Fin 9) :
    ∃ lp ∈ pairs (offs12 (Lp 1) (wrap Lv (getElement4Q1_2 e b) 1)) (offs12 (Lp 0) (wrap Lv (getElement4Q1_2 e b) 0)),
      wrap Lp ![wrap Lv (getElement4Q1_2 e b) 0 / 2 + lp.2, wrap Lv (getElement4Q1_2 e b) 1 / 2 + lp.1] =
        wrap Lp (getElement2 e a) := by
  rw [mem_gridElems] at he
  have key : ∀ i, ∃ p ∈ offs12 (Lp i) (wrap Lv (getElement4Q1_2 e b) i),
      wrap1 (Lp i) (wrap Lv (getElement4Q1_2 e b) i / 2 + p) = wrap1 (Lp i) (getElement2 e a i) := by
    intro i
    have ha := getElement2_mem e a i
    have hb := is4Q1_2 e b i
    have hb' := (trit2 b i).2
    have := near12 (Lv i) (Lp i) (P i) (e i) (he i).1 (he i).2 (getElement2 e a i - e i)
      (getElement4Q1_2 e b i - 2 * e i) (by omega) (by omega)
    rw [wrap1_eq]
    simpa only [add_sub_cancel] using this
  obtain ⟨p, hp, hp'⟩ := key 0
  obtain ⟨l, hl, hl'⟩ := key 1
  refine ⟨(l, p), mem_pairs.2 ⟨hl, hp⟩, ?_⟩
  funext k
  rw [wrap1_eq, wrap1_eq]
  fin_cases k
  · exact hp'
  · exact hl'

end

/-- Insertions of one pressure cell in the coupling blocks. -/
def wOnes (Lv Lp : Fin 2 → Dir) (e : Pos 2 ℤ) : GMat ℚ := fun p q =>
  (∑ i : Fin 4, ∑ m : Fin 18, if p = .inr (wrap Lp (getElement2 e i)) ∧
    q = .inl (wrap Lv (getElement4Q1_2 e ⟨m.1 % 9, by omega⟩), ⟨m.1 / 9, by omega⟩) then 1 else 0) +
  (∑ m : Fin 18, ∑ i : Fin 4,
    if p = .inl (wrap Lv (getElement4Q1_2 e ⟨m.1 % 9, by omega⟩), ⟨m.1 / 9, by omega⟩) ∧
      q = .inr (wrap Lp (getElement2 e i)) then 1 else 0)

/-- The coupling kernel with all values 1. -/
theorem kernelOff_ones (Lv Lp : Fin 2 → Dir) (r : Fin 2 → ℕ) (e : Pos 2 ℤ) (hv : 0 ≤ decOf Lv r)
    (hw : ∀ k, getElement2 e k ∈ (ghostWindow Lp r).halfOpen)
    (hw4 : ∀ k, getElement4Q1_2 e k ∈ (ghostWindow Lv r).halfOpen) (A : GMat ℚ) :
    kernelOffDiagBlockA (ltog Lv Lp r) Lv Lp r (decOf Lv r) (fun _ => some 1) (fun _ => some 1) e (some A) =
      some fun p q => A p q + wOnes Lv Lp e p q := by
  unfold kernelOffDiagBlockA
  have hp : ∀ k, ltog Lv Lp r (getIndices2 1 ((Lp 0).gxs (r 0)) ((Lp 1).gxs (r 1))
        ((Lp 0).gxm (r 0)) e (decOf Lv r) k) = some (.inr (wrap Lp (getElement2 e k))) := by
    intro k
    rw [getIndices2_eq]
    exact ltog_pres Lv Lp r _ (hw k) hv
  have hq : ∀ m : Fin 18, ltog Lv Lp r (getIndices4Q1 2 ((Lv 0).gxs (r 0)) ((Lv 1).gxs (r 1))
      ((Lv 0).gxm (r 0)) e ⟨m.1 / 9, by omega⟩ ⟨m.1 % 9, by omega⟩) =
        some (.inl (wrap Lv (getElement4Q1_2 e ⟨m.1 % 9, by omega⟩), ⟨m.1 / 9, by omega⟩)) := by
    intro m
    exact ltog_vel Lv Lp r _ (hw4 _) _
  simp only
  rw [matSetValuesLocal_eq _ _ _ _ _ _ (fun _ _ => 1) hp hq (fun _ _ => rfl) A,
    matSetValuesLocal_eq _ _ _ _ _ _ (fun _ _ => 1) hq hp (fun _ _ => rfl)]
  congr 1; funext p q
  unfold wOnes
  rw [add_assoc]

theorem ne_zero_ite {p : Prop} [Decidable p] (h : (if p then (1:ℚ) else 0) ≠ 0) : p := by
  by_contra hp; rw [if_neg hp] at h; exact h rfl

theorem layout_pair (N : Fin 2 → ℤ) (per : Fin 2 → Bool) (lx : Fin 2 → List ℤ) (hne : ∀ i, lx i ≠ [])
    (hW : ∀ i, (presLayout N per lx i).WF) (i : Fin 2) : Pair (velLayout N per lx i) (presLayout N per lx i) := by
  obtain ⟨h1, h2, h3, -⟩ := C03_nested (N i) (per i) (lx i) (hne i) (hW i)
  refine ⟨rfl, ?_, h1, hW i, h2, h3, ?_⟩
  · simp only [velLayout, presLayout, velDir, presDir, meshVel, meshPres]
    split_ifs <;> ring
  · intro r hr
    have := setLxu_getElem (per i) (lx i) r hr
    simp only [velLayout, presLayout, velDir, presDir, Dir.xm]
    rw [this]
    congr 1
    have hpos : 0 < (lx i).length := List.length_pos_iff.2 (hne i)
    refine if_congr ?_ rfl rfl
    rw [Bool.and_eq_true, decide_eq_true_eq, Bool.not_eq_true']
    exact and_congr_right fun _ => by omega

/-- C66: on every mesh of `createMesh`, process and options, `PreallocateMat` ends without error and without overrunning
its buffers, and for every row of a dof of the process, any set of columns in which the whole assembly (all the elements of
all the processes) inserts a value has at most `dnz` members owned by the process and at most `onz` members owned by the
other ones: no insertion needs more memory than was reserved. -/
theorem C66_sufficient (N : Fin 2 → ℤ) (per : Fin 2 → Bool) (lx : Fin 2 → List ℤ) (hne : ∀ i, lx i ≠ [])
    (hW : ∀ i, (presLayout N per lx i).WF) (rs : List (Fin 2 → ℕ)) (hrs : AllProcs (presLayout N per lx) rs)
    (r : Fin 2 → ℕ) (hr : r ∈ procs (presLayout N per lx)) (strain precond : Bool) :
    ∃ z T, preallocateMat (velLayout N per lx) (presLayout N per lx) r strain precond = some z ∧
      insertions (velLayout N per lx) (presLayout N per lx) rs strain precond = some T ∧
      ∀ ρ, owns (velLayout N per lx) (presLayout N per lx) r ρ = true → ∀ S : Finset Dof, (∀ γ ∈ S, T ρ γ ≠ 0) →
        (S.filter fun γ => owns (velLayout N per lx) (presLayout N per lx) r γ = true).card ≤ (z ρ).1 ∧
        (S.filter fun γ => owns (velLayout N per lx) (presLayout N per lx) r γ = false).card ≤ (z ρ).2 := by
  have hv := velLayout_wf N per lx hne hW
  have hpr := procs_layout N per lx
  have hrs' : AllProcs (velLayout N per lx) rs := ⟨hrs.1, fun r => by rw [hrs.2, hpr]⟩
  have P := layout_pair N per lx hne hW
  obtain ⟨z, hz, hz'⟩ := prealloc_le (velLayout N per lx) (presLayout N per lx) P r ((mem_procs _ _).1 hr) strain precond
  have w4 := win4 N per lx hne hW getElement2 getElement4Q1_2 isQ1_2 trit2 is4Q1_2
  generalize velLayout N per lx = Lv at *
  generalize presLayout N per lx = Lp at *
  -- velocity block
  have hA : ∃ A, (if strain then
      assembleBy Lv rs (fun r => kernelTensorBlockA (ltog Lv Lp r) Lv r fun _ => some (1:ℚ)) (some fun _ _ => 0)
    else assembleBy Lv rs (fun r => kernelDiagBlockA (ltog Lv Lp r) Lv r 2 (fun _ => some 1) 0) (some fun _ _ => 0)) =
      some A ∧ ∀ ρ γ, A ρ γ ≠ 0 → γ ∈ trueCols Lv Lp strain precond ρ := by
    cases strain
    · have e0 := assembleBy_eq Lv hv rs hrs'
        (fun r => kernelDiagBlockA (ltog Lv Lp r) Lv r 2 (fun _ => some (1:ℚ)) 0) (wDiagVel Lv fun _ _ => 1)
        (fun r hr e he A => kernelDiagBlockA_vel Lv Lp r (fun _ => some 1) (fun _ _ => 1) (fun _ _ => rfl) e
          (C04_element2_in_window Lv hv r hr e he) A) (fun _ _ => 0)
      refine ⟨_, (if_neg (by decide)).trans e0, ?_⟩
      intro ρ γ h
      rw [zero_add] at h
      obtain ⟨e, he, h⟩ := Finset.exists_ne_zero_of_sum_ne_zero h
      unfold wDiagVel at h
      obtain ⟨c, -, h⟩ := Finset.exists_ne_zero_of_sum_ne_zero h
      obtain ⟨a, -, h⟩ := Finset.exists_ne_zero_of_sum_ne_zero h
      obtain ⟨b, -, h⟩ := Finset.exists_ne_zero_of_sum_ne_zero h
      obtain ⟨rfl, rfl⟩ := ne_zero_ite h
      obtain ⟨lp, h1, h2⟩ := near_elem Lv e he a b
      unfold trueCols
      rw [List.mem_append]
      left
      rw [if_neg (by decide)]
      unfold T11
      rw [List.mem_map]
      exact ⟨lp, h1, by rw [h2]⟩
    · have e0 := assembleBy_eq Lv hv rs hrs'
        (fun r => kernelTensorBlockA (ltog Lv Lp r) Lv r fun _ => some (1:ℚ)) (wTensor Lv fun _ _ => 1)
        (fun r hr e he A => kernelTensorBlockA_vel Lv Lp r (fun _ => some 1) (fun _ _ => 1) (fun _ _ => rfl) e
          (C04_element2_in_window Lv hv r hr e he) A) (fun _ _ => 0)
      refine ⟨_, (if_pos rfl).trans e0, ?_⟩
      intro ρ γ h
      rw [zero_add] at h
      obtain ⟨e, he, h⟩ := Finset.exists_ne_zero_of_sum_ne_zero h
      unfold wTensor at h
      obtain ⟨m, -, h⟩ := Finset.exists_ne_zero_of_sum_ne_zero h
      obtain ⟨n, -, h⟩ := Finset.exists_ne_zero_of_sum_ne_zero h
      obtain ⟨rfl, rfl⟩ := ne_zero_ite h
      obtain ⟨lp, h1, h2⟩ := near_elem Lv e he ⟨m.1 % 4, by omega⟩ ⟨n.1 % 4, by omega⟩
      unfold trueCols
      rw [List.mem_append]
      left
      rw [if_pos rfl]
      unfold T11s T11
      rw [List.mem_flatMap]
      refine ⟨n.1 / 4, List.mem_range.2 (by omega), ?_⟩
      rw [List.mem_map]
      refine ⟨lp, h1, ?_⟩
      rw [h2, show toC (n.1 / 4) = ⟨n.1 / 4, by omega⟩ from Fin.ext (toC_val (by omega))]
  obtain ⟨A, eA, kA⟩ := hA
  have hB : ∃ B, (if precond then some A else
      assembleBy Lp rs (fun r => kernelOffDiagBlockA (ltog Lv Lp r) Lv Lp r (decOf Lv r) (fun _ => some 1)
        (fun _ => some 1)) (some A)) = some B ∧ ∀ ρ γ, B ρ γ ≠ 0 → γ ∈ trueCols Lv Lp strain precond ρ := by
    cases precond
    · have e0 := assembleBy_eq Lp hW rs hrs (fun r => kernelOffDiagBlockA (ltog Lv Lp r) Lv Lp r (decOf Lv r)
          (fun _ => some (1:ℚ)) (fun _ => some 1)) (wOnes Lv Lp) (fun r hr e he A =>
        kernelOff_ones Lv Lp r e (decOf_nonneg Lv hv r (hpr ▸ hr)) (C04_element2_in_window Lp hW r hr e he)
          (w4 r hr e he) A) A
      refine ⟨_, (if_neg (by decide)).trans e0, ?_⟩
      intro ρ γ h
      by_cases hAz : A ρ γ = 0
      · rw [hAz, zero_add] at h
        obtain ⟨e, he, h⟩ := Finset.exists_ne_zero_of_sum_ne_zero h
        have : ∃ (a : Fin 4) (m : Fin 18), (ρ = .inr (wrap Lp (getElement2 e a)) ∧
            γ = .inl (wrap Lv (getElement4Q1_2 e ⟨m.1 % 9, by omega⟩), ⟨m.1 / 9, by omega⟩)) ∨
            (ρ = .inl (wrap Lv (getElement4Q1_2 e ⟨m.1 % 9, by omega⟩), ⟨m.1 / 9, by omega⟩) ∧
              γ = .inr (wrap Lp (getElement2 e a))) := by
          by_contra hno
          push Not at hno
          apply h
          unfold wOnes
          rw [Finset.sum_eq_zero, Finset.sum_eq_zero, add_zero]
          · exact fun m _ => Finset.sum_eq_zero fun a _ => if_neg fun hh => (hno a m).2 hh.1 hh.2
          · exact fun a _ => Finset.sum_eq_zero fun m _ => if_neg fun hh => (hno a m).1 hh.1 hh.2
        obtain ⟨a, m, ⟨rfl, rfl⟩ | ⟨rfl, rfl⟩⟩ := this
        · obtain ⟨lp, h1, h2⟩ := near_elem21 Lv Lp P e he a ⟨m.1 % 9, by omega⟩
          unfold trueCols
          rw [List.mem_append]
          right
          rw [if_neg (by decide)]
          unfold T21
          rw [List.mem_flatMap]
          refine ⟨lp, h1, ?_⟩
          rw [List.mem_map]
          refine ⟨m.1 / 9, List.mem_range.2 (by omega), ?_⟩
          rw [h2, show toC (m.1 / 9) = ⟨m.1 / 9, by omega⟩ from Fin.ext (toC_val (by omega))]
        · obtain ⟨lp, h1, h2⟩ := near_elem12 Lv Lp P e he a ⟨m.1 % 9, by omega⟩
          unfold trueCols
          rw [List.mem_append]
          right
          rw [if_neg (by decide)]
          unfold T12
          rw [List.mem_map]
          exact ⟨lp, h1, by rw [h2]⟩
      · exact kA ρ γ hAz
    · exact ⟨A, rfl, kA⟩
  obtain ⟨B, eB, kB⟩ := hB
  have eT := assembleBy_eq Lp hW rs hrs
    (fun r => kernelDiagBlockA (ltog Lv Lp r) Lp r 1 (fun _ => some (1:ℚ)) (decOf Lv r)) (wDiagPres Lp fun _ _ => 1)
    (fun r hr e he A => kernelDiagBlockA_pres Lv Lp r (fun _ => some 1) (fun _ _ => 1) (fun _ _ => rfl) e (decOf_nonneg Lv hv r (hpr ▸ hr))
      (C04_element2_in_window Lp hW r hr e he) A) B
  refine ⟨z, fun p q => B p q + ∑ e ∈ gridElems Lp, wDiagPres Lp (fun _ _ => 1) e p q, hz, ?_, ?_⟩
  · unfold insertions
    simp only
    rw [eA, eB]
    exact eT
  · intro ρ hρ S hS
    have sub : ∀ γ ∈ S, γ ∈ trueCols Lv Lp strain precond ρ := by
      intro γ hγ
      have h := hS γ hγ
      by_cases hB0 : B ρ γ = 0
      · simp only [hB0, zero_add] at h
        obtain ⟨e, he, h⟩ := Finset.exists_ne_zero_of_sum_ne_zero h
        unfold wDiagPres at h
        obtain ⟨a, -, h⟩ := Finset.exists_ne_zero_of_sum_ne_zero h
        obtain ⟨b, -, h⟩ := Finset.exists_ne_zero_of_sum_ne_zero h
        obtain ⟨rfl, rfl⟩ := ne_zero_ite h
        obtain ⟨lp, h1, h2⟩ := near_elem Lp e he a b
        unfold trueCols
        rw [List.mem_append]
        left
        unfold T22
        rw [List.mem_map]
        exact ⟨lp, h1, by rw [h2]⟩
      · exact kB ρ γ hB0
    obtain ⟨z1, z2⟩ := hz' ρ hρ
    constructor
    · refine le_trans ?_ z1
      rw [List.countP_eq_length_filter]
      refine le_trans (Finset.card_le_card ?_) (List.toFinset_card_le _)
      intro γ hγ
      rw [Finset.mem_filter] at hγ
      rw [List.mem_toFinset, List.mem_filter]
      exact ⟨sub γ hγ.1, hγ.2⟩
    · refine le_trans ?_ z2
      rw [List.countP_eq_length_filter]
      refine le_trans (Finset.card_le_card ?_) (List.toFinset_card_le _)
      intro γ hγ
      rw [Finset.mem_filter] at hγ
      rw [List.mem_toFinset, List.mem_filter]
      exact ⟨sub γ hγ.1, by rw [hγ.2]; rfl⟩

/-- The hypotheses are met by a 6 x 6 mesh, periodic in `y`, on 3 x 2 processes; the process (1, 1) owns a velocity dof. -/
example : (∀ i, (![[2, 3, 1], [2, 3]] : Fin 2 → List ℤ) i ≠ []) ∧
    (∀ i, (presLayout (fun _ => 6) (fun i => decide (i = (1 : Fin 2))) ![[2, 3, 1], [2, 3]] i).WF) ∧
    ![1, 1] ∈ procs (presLayout (fun _ => 6) (fun i => decide (i = (1 : Fin 2))) ![[2, 3, 1], [2, 3]]) ∧
    owns (velLayout (fun _ => 6) (fun i => decide (i = (1 : Fin 2))) ![[2, 3, 1], [2, 3]])
      (presLayout (fun _ => 6) (fun i => decide (i = (1 : Fin 2))) ![[2, 3, 1], [2, 3]]) ![1, 1]
      (.inl (![5, 6], 1)) = true := by
  refine ⟨fun i => by fin_cases i <;> decide, fun i => by fin_cases i <;> exact ⟨by decide, by decide⟩, ?_, by decide +kernel⟩
  rw [mem_procs]
  intro i
  fin_cases i <;> decide

end Cafes.Props
