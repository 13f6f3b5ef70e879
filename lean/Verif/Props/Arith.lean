/-
Property theorems: C100, operators of forces and velocities, scalars passed by reference, integer positions.
-/
import Verif.Model.Arith
import Verif.Props.Geometry
import Mathlib.Tactic.FinCases
import Mathlib.Tactic.NormNum

namespace Cafes.Geometry
open Cafes
variable {d : ℕ} {K : Type*}

/-! ### C100 -/

/-- C100 (forces and velocities): the operators of forces and velocities are the componentwise operations their
symbols denote. -/
theorem C100_force [Field K] (f g : Pos d K) (c : K) :
    (∀ i, forceScaleAssign f c i = f i * c ∧ forceShiftAssign f c i = f i + c ∧ forceFill f c i = c) ∧
    (∀ i, forceScale f c i = f i * c ∧ forceScaleL c f i = c * f i ∧ forceShift f c i = f i + c ∧
      forceShiftL c f i = c + f i) ∧
    forceAddAssign f g = f + g ∧ forceSubAssign f g = f - g ∧ forceAdd f g = f + g ∧ forceSub f g = f - g ∧
    velAdd f g = f + g := by
  have e : ∀ (h : Fin d → K → K) (x : Pos d K), compLoop h x = fun i => h i (x i) := compLoop_eq
  refine ⟨fun i => ⟨?_, ?_, ?_⟩, fun i => ⟨?_, ?_, ?_, ?_⟩, ?_, ?_, ?_, ?_, ?_⟩ <;>
    simp only [forceScale, forceScaleL, forceShift, forceShiftL, forceAdd, forceSub, forceScaleAssign, forceShiftAssign,
      forceFill, forceAddAssign, forceSubAssign, velAdd, e, mul_comm, add_comm] <;> rfl

/-- Running the loop of `a op= a[k]` over a list of distinct increasing indices. -/
theorem selfLoop_list (op : K → K → K) (k : Fin d) : ∀ (l : List (Fin d)) (a : Pos d K), l.Pairwise (· < ·) → ∀ i,
    l.foldl (fun a i => Function.update a i (op (a i) (a k))) a i =
      if i ∈ l then (if k ∈ l ∧ k < i then op (a i) (op (a k) (a k)) else op (a i) (a k)) else a i := by
  intro l
  induction l with
  | nil => simp
  | cons b l ih =>
    intro a hp i
    rw [List.pairwise_cons] at hp
    have hb : b ∉ l := fun h => lt_irrefl _ (hp.1 b h)
    rw [List.foldl_cons, ih _ hp.2]
    by_cases hi : i = b
    · subst hi
      have : ¬ (k ∈ i :: l ∧ k < i) := by
        rintro ⟨h1, h2⟩
        rcases List.mem_cons.1 h1 with h | h
        · exact lt_irrefl _ (h ▸ h2)
        · exact lt_asymm h2 (hp.1 k h)
      rw [if_neg hb, if_pos List.mem_cons_self, if_neg this, Function.update_self]
    · by_cases hl : i ∈ l
      · have hbi := hp.1 i hl
        by_cases hk : k = b
        · subst hk
          simp [hi, hl, hb, hbi]
        · simp [hi, hl, hk]
      · simp [hi, hl]

/-- C100 (scalar read from the object itself): `a op= a[k]` applies the scalar to the components up to `k`, and the
modified scalar to the components after `k`. -/
theorem C100_self (op : K → K → K) (a : Pos d K) (k i : Fin d) :
    selfLoop op a k i = if k < i then op (a i) (op (a k) (a k)) else op (a i) (a k) := by
  unfold selfLoop
  rw [selfLoop_list op k _ a (List.pairwise_lt_finRange d) i]
  simp

/-- C100 (what it computes): with a component of their own object, `-=` and `/=` leave the later components unchanged,
`+=` adds twice the scalar and `*=` multiplies by its square. -/
theorem C100_self_values [Field K] (a : Pos d K) (k i : Fin d) (h : k < i) :
    selfLoop (· - ·) a k i = a i ∧ (a k ≠ 0 → selfLoop (· / ·) a k i = a i) ∧
    selfLoop (· + ·) a k i = a i + 2 * a k ∧ selfLoop (· * ·) a k i = a i * a k ^ 2 := by
  refine ⟨?_, fun hk => ?_, ?_, ?_⟩ <;> rw [C100_self, if_pos h]
  · simp
  · simp [div_self hk]
  · ring
  · ring

/-- C100 (when it is right): `a op= a[k]` is the intended `a[i] op a[k]` for every component iff, for all the components after
`k`, the scalar and the modified scalar act alike; always for the last component. -/
theorem C100_self_iff [Field K] (a : Pos d K) (k : Fin d) :
    ((∀ i, selfLoop (· - ·) a k i = a i - a k) ↔ a k = 0 ∨ ∀ i, ¬ k < i) ∧
    ((∀ i, ¬ k < i) → ∀ (op : K → K → K) i, selfLoop op a k i = op (a i) (a k)) := by
  refine ⟨⟨fun h => ?_, fun h i => ?_⟩, fun h op i => by rw [C100_self, if_neg (h i)]⟩
  · by_cases hk : ∃ i, k < i
    · obtain ⟨i, hi⟩ := hk
      have h1 := (C100_self_values a k i hi).1.symm.trans (h i)
      left
      linear_combination h1
    · right
      exact fun i hi => hk ⟨i, hi⟩
  · rw [C100_self]
    rcases h with h | h
    · simp [h]
    · rw [if_neg (h i)]

/-- C100 (free operators): the free functions work on a copy, so `p op p[k]` is right for every component and every
operation. -/
theorem C100_copy (op : K → K → K) (p : Pos d K) (k i : Fin d) : copyLoop op p k i = op (p i) (p k) :=
  compLoop_apply _ _ _

example : selfLoop (· - ·) (![3, 5] : Pos 2 ℚ) 0 = ![0, 5] ∧ copyLoop (· - ·) (![3, 5] : Pos 2 ℚ) 0 = ![0, 2] := by
  constructor <;> funext i <;> fin_cases i <;> simp only [C100_self, C100_copy] <;> norm_num

theorem truncInt_intCast (n : ℤ) : truncInt (n : ℝ) = n := by
  unfold truncInt
  split_ifs <;> simp

/-- C100 (integer positions): the conversion to integers is the unique integer vector of the same signs at distance less
than 1 that is not larger in absolute value; `floor` and `ceil` are the usual ones in every component, below and above
zero, and the conversion is `floor` exactly on the components that are nonnegative or whole. -/
theorem C100_round (p : Pos d ℝ) (i : Fin d) :
    (|p i - posToInt p i| < 1 ∧ |((posToInt p i : ℤ) : ℝ)| ≤ |p i| ∧ 0 ≤ p i * posToInt p i) ∧
    ((posFloor p i : ℝ) ≤ p i ∧ p i < posFloor p i + 1) ∧
    (p i ≤ posCeil p i ∧ (posCeil p i : ℝ) - 1 < p i) ∧
    (posToInt p i = posFloor p i ↔ 0 ≤ p i ∨ ∃ n : ℤ, p i = n) := by
  have hf : posFloor p i = ⌊p i⌋ := truncInt_intCast _
  have hc : posCeil p i = ⌈p i⌉ := truncInt_intCast _
  refine ⟨?_, ?_, ?_, ?_⟩
  · unfold posToInt truncInt
    split_ifs with h
    · have h0 : (0 : ℝ) ≤ (⌊p i⌋ : ℤ) := by exact_mod_cast Int.floor_nonneg.2 h
      have h1 := Int.floor_le (p i)
      have h2 := Int.lt_floor_add_one (p i)
      rw [abs_of_nonneg h0, abs_of_nonneg h, abs_of_nonneg (by linarith)]
      exact ⟨by linarith, h1, mul_nonneg h h0⟩
    · push Not at h
      have h0 : ((⌈p i⌉ : ℤ) : ℝ) ≤ 0 := by exact_mod_cast Int.ceil_le.2 (by exact_mod_cast h.le)
      have h1 := Int.le_ceil (p i)
      have h2 := Int.ceil_lt_add_one (p i)
      rw [abs_of_nonpos h0, abs_of_nonpos h.le, abs_of_nonpos (by linarith)]
      exact ⟨by linarith, by linarith, mul_nonneg_of_nonpos_of_nonpos h.le h0⟩
  · rw [hf]; exact ⟨Int.floor_le _, Int.lt_floor_add_one _⟩
  · rw [hc]; exact ⟨Int.le_ceil _, by linarith [Int.ceil_lt_add_one (p i)]⟩
  · rw [hf]
    unfold posToInt truncInt
    split_ifs with h
    · simp [h]
    · constructor
      · intro h1
        right
        refine ⟨⌊p i⌋, le_antisymm ?_ (Int.floor_le _)⟩
        rw [← h1]; exact Int.le_ceil _
      · rintro (h1 | ⟨n, h1⟩)
        · exact absurd h1 h
        · rw [h1]; simp

example : posToInt (![-1/2] : Pos 1 ℝ) 0 ≠ posFloor (![-1/2] : Pos 1 ℝ) 0 := by
  intro h
  rcases (C100_round _ _).2.2.2.1 h with h | ⟨n, h⟩
  · norm_num at h
  · simp at h
    have : (2 * n : ℤ) = -1 := by
      have h2 : (2 : ℝ) * n = -1 := by rw [← h]; norm_num
      exact_mod_cast h2
    omega

end Cafes.Geometry
