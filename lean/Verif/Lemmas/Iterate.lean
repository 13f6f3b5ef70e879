import Verif.Model.Iterate
import Verif.Spec.Box
import Mathlib.Data.List.Pairwise
import Mathlib.Data.List.Nodup
import Mathlib.Tactic.Linarith

namespace Cafes

theorem mem_forRange {lo hi v : ℤ} : v ∈ forRange lo hi ↔ lo ≤ v ∧ v < hi := by
  fun_induction forRange lo hi with
  | case1 lo h ih => rw [List.mem_cons, ih]; omega
  | case2 lo h => simp; omega

theorem forRange_pairwise (lo hi : ℤ) : (forRange lo hi).Pairwise (· < ·) := by
  fun_induction forRange lo hi with
  | case1 lo h ih =>
    rw [List.pairwise_cons]
    exact ⟨fun v hv => by rw [mem_forRange] at hv; omega, ih⟩
  | case2 lo h => simp

theorem length_forRange (lo hi : ℤ) : (forRange lo hi).length = (hi - lo).toNat := by
  fun_induction forRange lo hi with
  | case1 lo h ih => rw [List.length_cons, ih]; omega
  | case2 lo h => simp; omega

theorem forRange_nodup (lo hi : ℤ) : (forRange lo hi).Nodup :=
  (forRange_pairwise lo hi).imp (fun h => ne_of_lt h)

theorem forRange_append {a b c : ℤ} (hab : a ≤ b) (hbc : b ≤ c) :
    forRange a c = forRange a b ++ forRange b c := by
  induction h : (b - a).toNat generalizing a with
  | zero =>
    have : a = b := by omega
    subst this
    rw [forRange.eq_def a a]; simp
  | succ n ih =>
    rw [forRange.eq_def a c, forRange.eq_def a b, if_pos (by omega), if_pos (by omega),
      ih (by omega) (by omega)]
    rfl

/-- Points enumerated by the loops over the first `n` directions, as a plain list. -/
def ptsFrom {d : ℕ} (b : Box d ℤ) : (n : ℕ) → n ≤ d → Pos d ℤ → List (Pos d ℤ)
  | 0, _, p => [p]
  | n + 1, h, p => (forRange (b.bl ⟨n, h⟩) (b.ur ⟨n, h⟩)).flatMap
      fun v => ptsFrom b n (Nat.le_of_succ_le h) (Function.update p ⟨n, h⟩ v)

theorem ptsFrom_congr {d : ℕ} (b : Box d ℤ) (n : ℕ) (h : n ≤ d) (p q : Pos d ℤ)
    (hpq : ∀ i : Fin d, n ≤ i.1 → p i = q i) : ptsFrom b n h p = ptsFrom b n h q := by
  induction n generalizing p q with
  | zero => 
    have : p = q := funext fun i => hpq i (Nat.zero_le _)
    rw [this]
  | succ n ih =>
    simp only [ptsFrom]
    congr 1; funext v
    apply ih
    intro i hi
    by_cases hin : i = ⟨n, h⟩
    · subst hin; simp
    · rw [Function.update_of_ne hin, Function.update_of_ne hin]
      apply hpq
      have : i.1 ≠ n := fun e => hin (Fin.ext e)
      omega

theorem iterateImpl_eq {d : ℕ} {σ : Type*} (b : Box d ℤ) (f : Pos d ℤ → σ → σ) (n : ℕ) (h : n ≤ d)
    (p : Pos d ℤ) (s : σ) :
    (iterateImpl b f n h p s).2 = (ptsFrom b n h p).foldl (fun s q => f q s) s ∧
    ∀ i : Fin d, n ≤ i.1 → (iterateImpl b f n h p s).1 i = p i := by
  induction n generalizing p s with
  | zero => simp [iterateImpl, ptsFrom]
  | succ n ih =>
    simp only [iterateImpl, ptsFrom]
    generalize forRange (b.bl ⟨n, h⟩) (b.ur ⟨n, h⟩) = L
    induction L generalizing p s with
    | nil => simp
    | cons v L ihL =>
      simp only [List.foldl_cons, List.flatMap_cons, List.foldl_append]
      have h1 := ih (Nat.le_of_succ_le h) (Function.update p ⟨n, h⟩ v) s
      generalize hps : iterateImpl b f n (Nat.le_of_succ_le h) (Function.update p ⟨n, h⟩ v) s = ps at h1
      obtain ⟨p', s'⟩ := ps
      have h2 := ihL p' s'
      constructor
      · rw [h2.1, ← h1.1]
        dsimp only
        congr 1
        congr 1
        funext w
        apply ptsFrom_congr
        intro i hi
        by_cases hin : i = ⟨n, h⟩
        · subst hin; simp
        · rw [Function.update_of_ne hin, Function.update_of_ne hin]
          have := h1.2 i hi
          rw [Function.update_of_ne hin] at this
          exact this
      · intro i hi
        rw [h2.2 i hi]
        have := h1.2 i (by omega)
        have hin : i ≠ ⟨n, h⟩ := by intro e; subst e; simp at hi
        rw [Function.update_of_ne hin] at this
        exact this

theorem mem_ptsFrom {d : ℕ} (b : Box d ℤ) (n : ℕ) (h : n ≤ d) (p q : Pos d ℤ) :
    q ∈ ptsFrom b n h p ↔
      (∀ i : Fin d, i.1 < n → b.bl i ≤ q i ∧ q i < b.ur i) ∧ (∀ i : Fin d, n ≤ i.1 → q i = p i) := by
  induction n generalizing p with
  | zero =>
    simp only [ptsFrom, List.mem_singleton]
    constructor
    · rintro rfl; simp
    · intro hq; exact funext fun i => hq.2 i (Nat.zero_le _)
  | succ n ih =>
    simp only [ptsFrom, List.mem_flatMap, mem_forRange, ih]
    constructor
    · rintro ⟨v, hv, hq1, hq2⟩
      have hn := hq2 ⟨n, h⟩ le_rfl
      simp at hn
      refine ⟨fun i hi => ?_, fun i hi => ?_⟩
      · by_cases hin : i.1 < n
        · exact hq1 i hin
        · have : i = ⟨n, h⟩ := Fin.ext (by simp; omega)
          subst this; rw [hn]; exact hv
      · have := hq2 i (by omega)
        have hin : i ≠ ⟨n, h⟩ := by intro e; subst e; simp at hi
        rwa [Function.update_of_ne hin] at this
    · rintro ⟨hq1, hq2⟩
      refine ⟨q ⟨n, h⟩, hq1 ⟨n, h⟩ (Nat.lt_succ_self n), fun i hi => hq1 i (by omega), fun i hi => ?_⟩
      by_cases hin : i = ⟨n, h⟩
      · subst hin; simp
      · rw [Function.update_of_ne hin]
        have : i.1 ≠ n := fun e => hin (Fin.ext e)
        exact hq2 i (by omega)

theorem ptsFrom_pairwise {d : ℕ} (b : Box d ℤ) (n : ℕ) (h : n ≤ d) (p : Pos d ℤ) :
    (ptsFrom b n h p).Pairwise ColexLt := by
  induction n generalizing p with
  | zero => simp [ptsFrom]
  | succ n ih =>
    simp only [ptsFrom]
    rw [List.pairwise_flatMap]
    refine ⟨fun v _ => ih _ _, ?_⟩
    refine (forRange_pairwise _ _).imp ?_
    intro v w hvw q hq r hr
    rw [mem_ptsFrom] at hq hr
    refine ⟨⟨n, h⟩, ?_, ?_⟩
    · have h1 := hq.2 ⟨n, h⟩ le_rfl
      have h2 := hr.2 ⟨n, h⟩ le_rfl
      simp at h1 h2
      omega
    · intro j hj
      have hjn : n < j.1 := hj
      have h1 := hq.2 j (by omega)
      have h2 := hr.2 j (by omega)
      have hin : j ≠ ⟨n, h⟩ := by intro e; subst e; simp at hjn
      rw [Function.update_of_ne hin] at h1 h2
      rw [h1, h2]

theorem foldl_append_singleton {α : Type*} (l acc : List α) :
    l.foldl (fun s q => s ++ [q]) acc = acc ++ l := by
  induction l generalizing acc with
  | nil => simp
  | cons a l ih => simp [ih]

theorem Box.visited_eq {d : ℕ} (b : Box d ℤ) : b.visited = ptsFrom b d le_rfl (fun _ => 0) := by
  unfold Box.visited iterate
  rw [(iterateImpl_eq _ _ _ _ _ _).1, foldl_append_singleton, List.nil_append]

theorem iterate_eq_foldl {d : ℕ} {σ : Type*} (b : Box d ℤ) (f : Pos d ℤ → σ → σ) (s : σ) :
    iterate b f s = b.visited.foldl (fun s p => f p s) s := by
  unfold iterate
  rw [(iterateImpl_eq _ _ _ _ _ _).1, Box.visited_eq]

theorem Box.mem_visited {d : ℕ} (b : Box d ℤ) (p : Pos d ℤ) :
    p ∈ b.visited ↔ ∀ i, b.bl i ≤ p i ∧ p i < b.ur i := by
  rw [Box.visited_eq, mem_ptsFrom]
  constructor
  · intro h i; exact h.1 i i.2
  · intro h; exact ⟨fun i _ => h i, fun i hi => absurd i.2 (by omega)⟩

theorem Box.visited_pairwise {d : ℕ} (b : Box d ℤ) : b.visited.Pairwise ColexLt := by
  rw [Box.visited_eq]; exact ptsFrom_pairwise _ _ _ _

theorem Box.visited_nodup {d : ℕ} (b : Box d ℤ) : b.visited.Nodup := by
  refine b.visited_pairwise.imp ?_
  rintro p q ⟨k, hk, -⟩ rfl
  exact lt_irrefl _ hk

end Cafes
