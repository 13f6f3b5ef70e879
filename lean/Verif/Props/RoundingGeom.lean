/-
Property theorem C125: the localisation of the particles on the mesh in floating point.
-/
import Verif.Spec.RoundingGeom
import Verif.Props.Rounding
import Verif.Props.Particle

namespace Cafes.RoundGeom
open Cafes Cafes.Geometry Cafes.Particle Cafes.Rounding Cafes.Props
variable {d : ℕ} {rnd : ℝ → ℝ} {u : ℝ} {K : ℤ}

/-! ### The integer bounding box -/

/-- C125 (box): with a correct rounding, the integer box computed from a real box contains every grid node of the real box,
nodes on the boundary included, with no margin, as long as the indices are exact in the arithmetic. -/
theorem C125_box (hr : Correct rnd u K) (b : Box d ℝ) (h : Pos d ℝ) (hh : ∀ i, 0 < h i) (p : Pos d ℤ)
    (hK : ∀ i, |p i| + 1 ≤ K) (hp : (fun i => (p i : ℝ) * h i) ∈ b.closed) : p ∈ (intBox rnd b h).halfOpen := by
  intro i
  have h1 := (hp i).1
  have h2 := (hp i).2
  have hi := hh i
  have hk := hK i
  have a1 := abs_le.1 (show |p i| ≤ K by omega)
  have e0 := hr.int (p i) (by omega)
  have e1 := hr.int (p i - 1) (abs_le.2 ⟨by have := neg_abs_le (p i); omega, by omega⟩)
  have e2 := hr.int (p i + 1) (abs_le.2 ⟨by omega, by have := le_abs_self (p i); omega⟩)
  push_cast at e1 e2
  constructor
  · apply truncInt_le
    have := hr.mono ((div_le_iff₀ hi).2 h1)
    rw [e0] at this
    have := hr.mono (sub_le_sub_right this 1)
    rw [e1] at this
    linarith
  · apply Int.lt_of_add_one_le
    apply le_truncInt
    have := hr.mono ((le_div_iff₀ hi).2 h2)
    rw [e0] at this
    have := hr.mono (add_le_add_left this 1)
    push_cast
    rw [e2] at this
    exact this

/-! ### The scan of the nodes -/

/-- The abscissa of the node `lo + j` in a loop that starts at the node `lo`. -/
noncomputable def scan (rnd : ℝ → ℝ) (h : ℝ) (lo : ℤ) : ℕ → ℝ
  | 0 => rnd (lo * h)
  | j + 1 => rnd (scan rnd h lo j + h)

theorem coordLoop_scan (h : ℝ) (lo : ℤ) (hlo : 0 ≤ lo) (hi k : ℤ) (hk : lo ≤ k) (hhi : 0 ≤ hi) :
    coordLoop rnd h hi.toNat k.toNat (scan rnd h lo (k - lo).toNat) =
      (forRange k hi).map fun k : ℤ => (k.toNat, scan rnd h lo (k - lo).toNat) := by
  fun_induction forRange k hi with
  | case1 k hlt ih =>
    rw [coordLoop, if_pos (by omega), List.map_cons]
    have e1 : k.toNat + 1 = (k + 1).toNat := by omega
    have e2 : rnd (scan rnd h lo (k - lo).toNat + h) = scan rnd h lo (k + 1 - lo).toNat := by
      rw [show (k + 1 - lo).toNat = (k - lo).toNat + 1 by omega, scan]
    rw [e1, e2, ih (by omega)]
  | case2 k hlt =>
    rw [coordLoop, if_neg (by omega), List.map_nil]

/-- The abscissa computed for the node `k` in direction `i`. -/
noncomputable def abscissa (rnd : ℝ → ℝ) (b : Box d ℤ) (h : Pos d ℝ) (i : Fin d) (k : ℤ) : ℝ :=
  scan rnd (h i) (b.bl i) (k - b.bl i).toNat

theorem dirLoop_scan (b : Box d ℤ) (hb : NatBox b) (h : Pos d ℝ) (i : Fin d) :
    dirLoop rnd b h i = (forRange (b.bl i) (b.ur i)).map fun k : ℤ => (k.toNat, abscissa rnd b h i k) := by
  obtain ⟨h0, h1, h2, h3⟩ := hb i
  unfold dirLoop
  rw [toSize_of_nonneg h1 (h3.trans (by norm_num)), toSize_of_nonneg h0 (h2.trans (by norm_num))]
  have := coordLoop_scan (rnd := rnd) (h i) (b.bl i) h0 (b.ur i) (b.bl i) le_rfl h1
  rw [sub_self, show (0 : ℤ).toNat = 0 from rfl, scan] at this
  exact this

theorem fluidPoints2_scan (c : Pos 2 ℝ → Bool) (b : Box 2 ℤ) (hb : NatBox b) (h : Pos 2 ℝ) :
    fluidPoints2 rnd c b h = b.visited.filter fun p => c fun i => abscissa rnd b h i (p i) := by
  unfold fluidPoints2
  simp only [dirLoop_scan b hb, foldl_if_append, foldl_append_flatMap, List.nil_append, visited2]
  rw [List.filter_flatMap, List.flatMap_map]
  apply List.flatMap_congr
  intro y hy
  rw [List.filter_map, List.map_map, List.filter_map]
  have hc : ∀ x : ℤ, ((fun p : ℕ × ℝ => c ![p.2, abscissa rnd b h 1 y]) ∘
      fun k : ℤ => (k.toNat, abscissa rnd b h 0 k)) x =
      ((fun p => c fun i => abscissa rnd b h i (p i)) ∘ fun x => ![x, y]) x := by
    intro x
    simp only [Function.comp]
    congr 1
    funext i
    fin_cases i <;> rfl
  rw [List.filter_congr fun x _ => hc x]
  apply List.map_congr_left
  intro x hx
  have hx' := toNat_of_mem hb (List.mem_of_mem_filter hx)
  have hy' := toNat_of_mem hb hy
  simp only [Function.comp]
  rw [hx', hy']

theorem fluidPoints3_scan (c : Pos 3 ℝ → Bool) (b : Box 3 ℤ) (hb : NatBox b) (h : Pos 3 ℝ) :
    fluidPoints3 rnd c b h = b.visited.filter fun p => c fun i => abscissa rnd b h i (p i) := by
  unfold fluidPoints3
  simp only [dirLoop_scan b hb, foldl_if_append, foldl_append_flatMap, List.nil_append, visited3]
  rw [List.filter_flatMap, List.flatMap_map]
  apply List.flatMap_congr
  intro z hz
  rw [List.filter_flatMap, List.flatMap_map]
  apply List.flatMap_congr
  intro y hy
  rw [List.filter_map, List.map_map, List.filter_map]
  have hc : ∀ x : ℤ, ((fun p : ℕ × ℝ => c ![p.2, abscissa rnd b h 1 y, abscissa rnd b h 2 z]) ∘
      fun k : ℤ => (k.toNat, abscissa rnd b h 0 k)) x =
      ((fun p => c fun i => abscissa rnd b h i (p i)) ∘ fun x => ![x, y, z]) x := by
    intro x
    simp only [Function.comp]
    congr 1
    funext i
    fin_cases i <;> rfl
  rw [List.filter_congr fun x _ => hc x]
  apply List.map_congr_left
  intro x hx
  have hx' := toNat_of_mem hb (List.mem_of_mem_filter hx)
  have hy' := toNat_of_mem hb hy
  have hz' := toNat_of_mem hb hz
  simp only [Function.comp]
  rw [hx', hy', hz']

theorem rounds_of (hr : Correct rnd u K) : Rounds ⟨fun a b => rnd (a + b), fun a b => rnd (a * b)⟩ u :=
  ⟨hr.nonneg, fun _ _ => hr.err _, fun _ _ => hr.err _⟩

theorem scan_err (hr : Correct rnd u K) {h : ℝ} (hh : 0 < h) {lo : ℤ} (hlo : 0 ≤ lo) (j : ℕ) :
    Err u (j + 1) ((lo + j) * h) ((lo + j) * h) (scan rnd h lo j) := by
  have hl : (0 : ℝ) ≤ lo := by exact_mod_cast hlo
  induction j with
  | zero =>
    have := err_mul (rounds_of hr) (lo : ℝ) h
    rw [abs_of_nonneg hl, abs_of_pos hh] at this
    simpa [scan] using this
  | succ j ih =>
    have hx : Err u (j + 1) h h h := by
      have hg : 0 ≤ gamma u (j + 1) := gamma_nonneg hr.nonneg _
      refine ⟨?_, le_of_eq (abs_of_pos hh)⟩
      rw [sub_self, abs_zero]
      exact mul_nonneg hg hh.le
    have := err_add (rounds_of hr) ih hx
    have e : ((lo : ℝ) + (j + 1 : ℕ)) * h = (lo + j) * h + h := by push_cast; ring
    rw [e]
    exact this

/-- The error on the abscissa of a node grows with the number of nodes between the start of the loop and the node. -/
theorem abscissa_err (hr : Correct rnd u K) (b : Box d ℤ) (hb : NatBox b) (h : Pos d ℝ) (hh : ∀ i, 0 < h i) (i : Fin d) (k : ℤ)
    (hk : b.bl i ≤ k) :
    |abscissa rnd b h i k - k * h i| ≤ gamma u ((k - b.bl i).toNat + 1) * (k * h i) := by
  have := (scan_err hr (hh i) (hb i).1 (k - b.bl i).toNat).1
  have e : ((b.bl i : ℝ) + ((k - b.bl i).toNat : ℕ)) = k := by
    have : (b.bl i + ((k - b.bl i).toNat : ℤ)) = k := by omega
    exact_mod_cast this
  rw [e] at this
  exact this

/-- C125 (scan, 2D): `find_fluid_points_insides` tests each node of the box once, at a point whose coordinates differ from those
of the node by at most one rounding per node scanned in the direction, and records the nodes whose point passes the test. -/
theorem C125_scan2 (hr : Correct rnd u K) (b : Box 2 ℤ) (hb : NatBox b) (h : Pos 2 ℝ) (hh : ∀ i, 0 < h i) :
    ∃ X : Fin 2 → ℤ → ℝ, (∀ i k, b.bl i ≤ k → |X i k - k * h i| ≤ gamma u ((k - b.bl i).toNat + 1) * (k * h i)) ∧
      ∀ c : Pos 2 ℝ → Bool, (∀ p, p ∈ fluidPoints2 rnd c b h ↔ p ∈ b.halfOpen ∧ c (fun i => X i (p i)) = true) ∧
        (fluidPoints2 rnd c b h).Nodup ∧ (fluidPoints2 rnd c b h).Pairwise ColexLt := by
  refine ⟨abscissa rnd b h, fun i k hk => abscissa_err hr b hb h hh i k hk, fun c => ?_⟩
  rw [fluidPoints2_scan c b hb h]
  refine ⟨fun p => ?_, b.visited_nodup.filter _, b.visited_pairwise.filter _⟩
  rw [List.mem_filter, Box.mem_visited]
  rfl

/-- C125 (scan, 3D). -/
theorem C125_scan3 (hr : Correct rnd u K) (b : Box 3 ℤ) (hb : NatBox b) (h : Pos 3 ℝ) (hh : ∀ i, 0 < h i) :
    ∃ X : Fin 3 → ℤ → ℝ, (∀ i k, b.bl i ≤ k → |X i k - k * h i| ≤ gamma u ((k - b.bl i).toNat + 1) * (k * h i)) ∧
      ∀ c : Pos 3 ℝ → Bool, (∀ p, p ∈ fluidPoints3 rnd c b h ↔ p ∈ b.halfOpen ∧ c (fun i => X i (p i)) = true) ∧
        (fluidPoints3 rnd c b h).Nodup ∧ (fluidPoints3 rnd c b h).Pairwise ColexLt := by
  refine ⟨abscissa rnd b h, fun i k hk => abscissa_err hr b hb h hh i k hk, fun c => ?_⟩
  rw [fluidPoints3_scan c b hb h]
  refine ⟨fun p => ?_, b.visited_nodup.filter _, b.visited_pairwise.filter _⟩
  rw [List.mem_filter, Box.mem_visited]
  rfl

theorem decided_abscissa (hr : Correct rnd u K) (b : Box d ℤ) (hb : NatBox b) (h : Pos d ℝ) (hh : ∀ i, 0 < h i)
    (c : Pos d ℝ → Bool) (n : ℕ) (hn : ∀ i, b.ur i - b.bl i ≤ n) (p : Pos d ℤ) (hp : p ∈ b.halfOpen) (hc : Decided u c h n p) :
    c (fun i => abscissa rnd b h i (p i)) = c (fun i => (p i : ℝ) * h i) := by
  refine hc _ fun i => ?_
  have h1 := (hp i).1
  have h2 := (hp i).2
  have h3 := hn i
  refine (abscissa_err hr b hb h hh i (p i) h1).trans ?_
  have h4 := (hb i).1
  have h5 : (0 : ℝ) ≤ p i := by exact_mod_cast h4.trans h1
  refine mul_le_mul_of_nonneg_right ?_ (mul_nonneg h5 (hh i).le)
  have : (1 + u) ^ ((p i - b.bl i).toNat + 1) ≤ (1 + u) ^ n :=
    pow_le_pow_right₀ (by linarith [hr.nonneg]) (by omega)
  unfold gamma; linarith

/-- C125 (decompositions, 2D): a node that is not within the rounding errors of the surface of the particle is found by every
process whose box holds it if it is in the particle, by none otherwise: wherever the scan starts. -/
theorem C125_decided2 (hr : Correct rnd u K) (b : Box 2 ℤ) (hb : NatBox b) (h : Pos 2 ℝ) (hh : ∀ i, 0 < h i)
    (c : Pos 2 ℝ → Bool) (n : ℕ) (hn : ∀ i, b.ur i - b.bl i ≤ n) (p : Pos 2 ℤ) (hc : Decided u c h n p) :
    p ∈ fluidPoints2 rnd c b h ↔ p ∈ b.halfOpen ∧ c (fun i => (p i : ℝ) * h i) = true := by
  rw [fluidPoints2_scan c b hb h, List.mem_filter, Box.mem_visited]
  exact and_congr_right fun hp => by rw [decided_abscissa hr b hb h hh c n hn p hp hc]

/-- C125 (decompositions, 3D). -/
theorem C125_decided3 (hr : Correct rnd u K) (b : Box 3 ℤ) (hb : NatBox b) (h : Pos 3 ℝ) (hh : ∀ i, 0 < h i)
    (c : Pos 3 ℝ → Bool) (n : ℕ) (hn : ∀ i, b.ur i - b.bl i ≤ n) (p : Pos 3 ℤ) (hc : Decided u c h n p) :
    p ∈ fluidPoints3 rnd c b h ↔ p ∈ b.halfOpen ∧ c (fun i => (p i : ℝ) * h i) = true := by
  rw [fluidPoints3_scan c b hb h, List.mem_filter, Box.mem_visited]
  exact and_congr_right fun hp => by rw [decided_abscissa hr b hb h hh c n hn p hp hc]

/-! ### The surface points -/

/-- C125 (surface points): each entry `(k, x)` comes from one of the surface points; in the directions where its coordinate is
nonnegative, the point is before the end of the cell `k` and after its start up to one rounding of the coordinate, and
`k h + x` is the point up to one rounding of the step and three of the coordinate. -/
theorem C125_surface (hr : Correct rnd u K) (ps : List (Pos d ℝ)) (b : Box d ℤ) (h : Pos d ℝ) (hh : ∀ i, 0 < h i)
    (e : Pos d ℤ × Pos d ℝ) (he : e ∈ surfPoints rnd ps b h) :
    e.1 ∈ b.halfOpen ∧ ∃ p ∈ ps, ∀ i, 0 ≤ p i → 0 ≤ e.1 i ∧
      (e.1 i + 1 ≤ K → p i < (e.1 i + 1) * h i) ∧ e.1 i * h i - u * p i ≤ p i ∧
      (e.1 i + 1 ≤ K → |e.1 i * h i + e.2 i - p i| ≤ u * h i + gamma u 3 * p i) := by
  unfold surfPoints at he
  rw [foldl_if_append ps (fun p => b.pointInside (surfIndex rnd h p))
    (fun p => (surfIndex rnd h p, fun i => rnd (p i - rnd ((surfIndex rnd h p i : ℝ) * h i)))), List.nil_append,
    List.mem_map] at he
  obtain ⟨p, hp, rfl⟩ := he
  rw [List.mem_filter, Box.pointInside_iff] at hp
  refine ⟨hp.2, p, hp.1, fun i hi => ?_⟩
  have hi' := hh i
  have hq : 0 ≤ p i / h i := div_nonneg hi hi'.le
  have hK0 : |(0 : ℤ)| ≤ K ∨ ¬ |(0 : ℤ)| ≤ K := em _
  have hu := hr.nonneg
  have herr := hr.err (p i / h i)
  rw [abs_of_nonneg hq] at herr
  have hpos : 0 ≤ rnd (p i / h i) := by
    have h0 : rnd 0 = 0 := by
      have := hr.err 0
      simp only [sub_zero, abs_zero, mul_zero] at this
      exact abs_nonpos_iff.1 this
    have := hr.mono hq
    rwa [h0] at this
  have hidx : surfIndex rnd h p i = ⌊rnd (p i / h i)⌋ := by
    unfold surfIndex truncInt
    rw [if_pos hpos]
  simp only [hidx]
  set k := ⌊rnd (p i / h i)⌋ with hk
  have hk0 : 0 ≤ k := Int.floor_nonneg.2 hpos
  have hk0' : (0 : ℝ) ≤ k := by exact_mod_cast hk0
  have hle : (k : ℝ) ≤ rnd (p i / h i) := Int.floor_le _
  have hlt : rnd (p i / h i) < k + 1 := Int.lt_floor_add_one _
  have hq2 : p i / h i * h i = p i := div_mul_cancel₀ _ hi'.ne'
  have hlow : (k : ℝ) * h i - u * p i ≤ p i := by
    have h1 : (k : ℝ) ≤ (1 + u) * (p i / h i) := by
      have := (abs_le.1 herr).2
      linarith
    have := mul_le_mul_of_nonneg_right h1 hi'.le
    rw [mul_assoc, hq2] at this
    linarith
  have hup : k + 1 ≤ K → p i < ((k : ℝ) + 1) * h i := fun hkK => by
    by_contra hcon
    rw [not_lt] at hcon
    have h1 := hr.mono ((le_div_iff₀ hi').2 hcon)
    have h2 := hr.int (k + 1) (by rw [abs_of_nonneg (by omega)]; exact hkK)
    push_cast at h2
    rw [h2] at h1
    linarith
  refine ⟨hk0, hup, hlow, fun hkK => ?_⟩
  have h1 := hr.err (k * h i)
  have h2 := hr.err (p i - rnd (k * h i))
  have hkh : 0 ≤ (k : ℝ) * h i := mul_nonneg hk0' hi'.le
  rw [abs_of_nonneg hkh] at h1
  have h3 : |p i - k * h i| ≤ h i + u * p i := by
    rw [abs_le]
    have := hup hkK
    have hup' := mul_nonneg hu hi
    constructor <;> nlinarith
  have hkp : (k : ℝ) * h i ≤ (1 + u) * p i := by linarith
  have h1' : |rnd (k * h i) - k * h i| ≤ u * ((1 + u) * p i) := h1.trans (mul_le_mul_of_nonneg_left hkp hu)
  have h4 : |p i - rnd (k * h i)| ≤ h i + u * p i + u * ((1 + u) * p i) := by
    have : p i - rnd (k * h i) = (p i - k * h i) - (rnd (k * h i) - k * h i) := by ring
    rw [this]
    exact (abs_sub _ _).trans (add_le_add h3 h1')
  have h5 := h2.trans (mul_le_mul_of_nonneg_left h4 hu)
  have h6 : (k : ℝ) * h i + rnd (p i - rnd (k * h i)) - p i =
      (rnd (p i - rnd (k * h i)) - (p i - rnd (k * h i))) - (rnd (k * h i) - k * h i) := by ring
  rw [h6]
  refine (abs_sub _ _).trans ((add_le_add h5 h1').trans ?_)
  unfold gamma
  have : 0 ≤ u * p i := mul_nonneg hu hi
  nlinarith

/-! ### The arithmetic -/

/-- Rounding to the multiples of `1 / s`. -/
theorem grid_mono {s : ℝ} (hs : 0 < s) {x y : ℝ} (h : x ≤ y) : (round (x * s) : ℝ) / s ≤ (round (y * s) : ℝ) / s := by
  refine div_le_div_of_nonneg_right ?_ hs.le
  rw [round_eq, round_eq]
  exact_mod_cast Int.floor_mono (by have := mul_le_mul_of_nonneg_right h hs.le; linarith)

theorem grid_fix {s : ℝ} (hs : 0 < s) {x : ℝ} {m : ℤ} (h : x * s = m) : (round (x * s) : ℝ) / s = x := by
  rw [h, round_intCast, ← h]
  field_simp

theorem roundTo_fix {p : ℕ} {x v : ℝ} {m : ℤ} (h : v * 2 ^ ((p : ℤ) - 1 - Int.log 2 |x|) = m) :
    (x ≤ v → roundTo p x ≤ v) ∧ (v ≤ x → v ≤ roundTo p x) := by
  have hs : (0 : ℝ) < 2 ^ ((p : ℤ) - 1 - Int.log 2 |x|) := by positivity
  unfold roundTo
  constructor
  · intro hx
    have := grid_mono hs hx
    rwa [grid_fix hs h] at this
  · intro hx
    have := grid_mono hs hx
    rwa [grid_fix hs h] at this

theorem pow_grid {p : ℕ} (hp : 1 ≤ p) (e : ℤ) : ((2 : ℝ) ^ e * 2 ^ ((p : ℤ) - 1 - e) = ((2 ^ (p - 1) : ℕ) : ℤ)) ∧
    ((2 : ℝ) ^ (e + 1) * 2 ^ ((p : ℤ) - 1 - e) = ((2 ^ p : ℕ) : ℤ)) := by
  constructor
  · rw [← zpow_add₀ (by norm_num), show e + ((p : ℤ) - 1 - e) = ((p - 1 : ℕ) : ℤ) by omega, zpow_natCast]
    push_cast; rfl
  · rw [← zpow_add₀ (by norm_num), show e + 1 + ((p : ℤ) - 1 - e) = (p : ℤ) by omega, zpow_natCast]
    push_cast; rfl

theorem roundTo_mono {p : ℕ} (hp : 1 ≤ p) : Monotone (roundTo p) := by
  intro x y hxy
  have hz : ∀ x : ℝ, (x ≤ 0 → roundTo p x ≤ 0) ∧ (0 ≤ x → 0 ≤ roundTo p x) := fun x =>
    roundTo_fix (m := 0) (by simp)
  have hlo : ∀ x : ℝ, x ≠ 0 → (2 : ℝ) ^ (Int.log 2 |x|) ≤ |x| := fun x hx => by
    have := Int.zpow_log_le_self (R := ℝ) (b := 2) (by norm_num) (abs_pos.2 hx)
    exact_mod_cast this
  have hhi : ∀ x : ℝ, |x| < (2 : ℝ) ^ (Int.log 2 |x| + 1) := fun x => by
    have := Int.lt_zpow_succ_log_self (R := ℝ) (b := 2) (by norm_num) |x|
    exact_mod_cast this
  rcases le_or_gt x 0 with hx | hx
  · rcases le_or_gt 0 y with hy | hy
    · exact ((hz x).1 hx).trans ((hz y).2 hy)
    · -- both negative
      have hx' : x < 0 := lt_of_le_of_lt hxy hy
      rcases eq_or_ne (Int.log 2 |x|) (Int.log 2 |y|) with he | he
      · unfold roundTo
        rw [he]
        exact grid_mono (by positivity) hxy
      · have hle : Int.log 2 |y| ≤ Int.log 2 |x| := Int.log_mono_right (abs_pos.2 hy.ne) (by
          rw [abs_of_neg hy, abs_of_neg hx']; linarith)
        have hlt : Int.log 2 |y| + 1 ≤ Int.log 2 |x| := by omega
        have h1 : roundTo p x ≤ -(2 : ℝ) ^ (Int.log 2 |x|) := by
          refine (roundTo_fix (m := -((2 ^ (p - 1) : ℕ) : ℤ)) ?_).1 ?_
          · rw [neg_mul, (pow_grid hp _).1]; push_cast; rfl
          · have := hlo x hx'.ne
            rw [abs_of_neg hx'] at this
            rw [abs_of_neg hx']
            linarith
        have h2 : -(2 : ℝ) ^ (Int.log 2 |y| + 1) ≤ roundTo p y := by
          refine (roundTo_fix (m := -((2 ^ p : ℕ) : ℤ)) ?_).2 ?_
          · rw [neg_mul, (pow_grid hp _).2]; push_cast; rfl
          · have := hhi y
            rw [abs_of_neg hy] at this
            rw [abs_of_neg hy]
            linarith
        have h3 : (2 : ℝ) ^ (Int.log 2 |y| + 1) ≤ 2 ^ (Int.log 2 |x|) := zpow_le_zpow_right₀ (by norm_num) hlt
        linarith
  · have hy : 0 < y := lt_of_lt_of_le hx hxy
    rcases eq_or_ne (Int.log 2 |x|) (Int.log 2 |y|) with he | he
    · unfold roundTo
      rw [he]
      exact grid_mono (by positivity) hxy
    · have hle : Int.log 2 |x| ≤ Int.log 2 |y| := Int.log_mono_right (abs_pos.2 hx.ne') (by
        rw [abs_of_pos hy, abs_of_pos hx]; exact hxy)
      have hlt : Int.log 2 |x| + 1 ≤ Int.log 2 |y| := by omega
      have h1 : roundTo p x ≤ (2 : ℝ) ^ (Int.log 2 |x| + 1) := by
        refine (roundTo_fix (pow_grid hp _).2).1 ?_
        have := hhi x
        rw [abs_of_pos hx] at this
        rw [abs_of_pos hx]
        exact this.le
      have h2 : (2 : ℝ) ^ (Int.log 2 |y|) ≤ roundTo p y := by
        refine (roundTo_fix (pow_grid hp _).1).2 ?_
        have := hlo y hy.ne'
        rw [abs_of_pos hy] at this
        rw [abs_of_pos hy]
        exact this
      have h3 : (2 : ℝ) ^ (Int.log 2 |x| + 1) ≤ 2 ^ (Int.log 2 |y|) := zpow_le_zpow_right₀ (by norm_num) hlt
      linarith

theorem roundTo_int {p : ℕ} (k : ℤ) (hk : |k| ≤ 2 ^ p - 1) : roundTo p (k : ℝ) = k := by
  have hs : (0 : ℝ) < 2 ^ ((p : ℤ) - 1 - Int.log 2 |(k : ℝ)|) := by positivity
  by_cases h0 : k = 0
  · subst h0; simp [roundTo]
  have hlog : Int.log 2 |(k : ℝ)| < p := by
    have h1 : |(k : ℝ)| < (2 : ℝ) ^ (p : ℤ) := by
      rw [zpow_natCast]
      have : |k| < 2 ^ p := by omega
      exact_mod_cast this
    have := (Int.lt_zpow_iff_log_lt (R := ℝ) (b := 2) (by norm_num) (r := |(k : ℝ)|) (x := (p : ℤ))
      (abs_pos.2 (by exact_mod_cast h0))).1 (by exact_mod_cast h1)
    exact this
  unfold roundTo
  obtain ⟨t, ht⟩ : ∃ t : ℕ, (p : ℤ) - 1 - Int.log 2 |(k : ℝ)| = t := ⟨((p : ℤ) - 1 - Int.log 2 |(k : ℝ)|).toNat, by omega⟩
  refine grid_fix hs (m := k * 2 ^ t) ?_
  rw [ht, zpow_natCast]
  push_cast; rfl

/-- C125 (the hypothesis on the arithmetic): rounding to nearest with `p ≥ 1` binary digits satisfies it, with the integers
below `2 ^ p` (`double`: `p = 53`). -/
theorem C125_binary (p : ℕ) (hp : 1 ≤ p) : Correct (roundTo p) ((2 : ℝ)⁻¹ ^ p) (2 ^ p - 1) :=
  ⟨by positivity, roundTo_err p, roundTo_mono hp, fun k hk => roundTo_int k hk⟩

/-- C125 (nothing is hidden in the model): without rounding these are the functions of Verif/Model/Geometry.lean and
Verif/Model/Particle.lean. -/
theorem C125_exact : (∀ (b : Box d ℝ) (h : Pos d ℝ), intBox id b h = Geometry.intBox b h) ∧
    (∀ c b h, fluidPoints2 id c b h = Particle.fluidPoints2 c b h) ∧
    (∀ c b h, fluidPoints3 id c b h = Particle.fluidPoints3 c b h) ∧
    ∀ (ps : List (Pos d ℝ)) b h, surfPoints id ps b h = Particle.surfPoints ps b h := by
  have hloop : ∀ (h : ℝ) (hi i : ℕ) (x : ℝ), coordLoop id h hi i x = Particle.coordLoop h hi i x := fun h hi i x => by
    fun_induction Particle.coordLoop h hi i x with
    | case1 i x hlt ih => rw [coordLoop, if_pos hlt]; exact congrArg _ ih
    | case2 i x hlt => rw [coordLoop, if_neg hlt]
  have hdir : ∀ {d : ℕ} (b : Box d ℤ) (h : Pos d ℝ) (i : Fin d), dirLoop id b h i = Particle.dirLoop b h i := fun b h i =>
    hloop _ _ _ _
  refine ⟨fun b h => ?_, fun c b h => ?_, fun c b h => ?_, fun ps b h => ?_⟩
  · simp only [intBox, Geometry.intBox, posSubScal, posAddScal, posDiv, compLoop_apply, id]
  · unfold fluidPoints2 Particle.fluidPoints2
    simp only [hdir]
  · unfold fluidPoints3 Particle.fluidPoints3
    simp only [hdir]
  · unfold surfPoints Particle.surfPoints surfIndex Particle.surfIndex
    simp only [posSub, posMul, posDiv, compLoop_eq, id]

/-- Concrete case: in `double`, on a mesh of step `1/10` (which is not representable), the node `(3, 0)` is on the boundary of
the box `[0, 3/10]²` and is in the integer box. -/
example : (![3, 0] : Pos 2 ℤ) ∈ (intBox (roundTo 53) (⟨fun _ => 0, fun _ => 3 / 10⟩ : Box 2 ℝ) fun _ => 1 / 10).halfOpen := by
  refine C125_box (C125_binary 53 (by norm_num)) _ _ (fun _ => by norm_num) _ (fun i => ?_) fun i => ?_
  · fin_cases i <;> norm_num
  · fin_cases i <;> norm_num

/-- Concrete case of `C125_decided2`: in `double`, a scan of a hundred nodes in each direction; the test is `x < 1 / 2` with the
step `1 / 100`, the node `(40, 0)` is decided. -/
example : Decided ((2 : ℝ)⁻¹ ^ 53) (fun x : Pos 2 ℝ => decide (x 0 < 1 / 2)) (fun _ => 1 / 100) 100 ![40, 0] := by
  have hg : gamma ((2 : ℝ)⁻¹ ^ 53) 100 ≤ 1 / 10 := by unfold gamma; norm_num
  intro x hx
  have h0 := hx 0
  simp only [Matrix.cons_val_zero] at h0
  have h1 := (abs_le.1 h0).2
  push_cast at h1
  have h2 : x 0 < 1 / 2 := by nlinarith
  have h3 : (((![40, 0] : Pos 2 ℤ) 0 : ℤ) : ℝ) * (1 / 100) < 1 / 2 := by simp only [Matrix.cons_val_zero]; norm_num
  exact (decide_eq_true h2).trans (decide_eq_true h3).symm

/-! ### Where the scan starts matters -/

theorem roundTo_eq {x : ℝ} {e m : ℤ} (h1 : (2 : ℝ) ^ e ≤ x) (h2 : x < (2 : ℝ) ^ (e + 1))
    (h3 : -(1 / 2) ≤ x * 2 ^ (52 - e) - m ∧ x * 2 ^ (52 - e) - m < 1 / 2) : roundTo 53 x = m / 2 ^ (52 - e) := by
  have hx : 0 < x := lt_of_lt_of_le (by positivity) h1
  have hlog : Int.log 2 |x| = e := by
    rw [abs_of_pos hx]
    have a := (Int.zpow_le_iff_le_log (R := ℝ) (b := 2) (by norm_num) hx (x := e)).1 (by exact_mod_cast h1)
    have b := (Int.lt_zpow_iff_log_lt (R := ℝ) (b := 2) (by norm_num) hx (x := e + 1)).1 (by exact_mod_cast h2)
    omega
  unfold roundTo
  rw [hlog]
  have e1 : ((53 : ℕ) : ℤ) - 1 - e = 52 - e := by omega
  rw [e1]
  have hr : round (x * 2 ^ (52 - e)) = m := by
    rw [round_eq, Int.floor_eq_iff]
    obtain ⟨a, b⟩ := h3
    constructor <;> linarith
  rw [hr]

/-- `1. / 6` in `double`. -/
noncomputable def sixth : ℝ := 6004799503160661 / 36028797018963968

/-- The abscissae of the nodes `1` to `6` in a scan that starts at the node `0`, in `double`. -/
theorem sixth_scan : scan (roundTo 53) sixth 0 6 = 9007199254740991 / 9007199254740992 ∧ scan (roundTo 53) sixth 6 0 = 1 := by
  have h0 : scan (roundTo 53) sixth 0 0 = 0 := by simp [scan, roundTo]
  have h1 : scan (roundTo 53) sixth 0 1 = 6004799503160661 / 36028797018963968 := by
    rw [scan, h0, roundTo_eq (e := -3) (m := 6004799503160661) (by unfold sixth; norm_num) (by unfold sixth; norm_num)
      (by unfold sixth; norm_num)]
    norm_num
  have h2 : scan (roundTo 53) sixth 0 2 = 6004799503160661 / 18014398509481984 := by
    rw [scan, h1, roundTo_eq (e := -2) (m := 6004799503160661) (by unfold sixth; norm_num) (by unfold sixth; norm_num)
      (by unfold sixth; norm_num)]
    norm_num
  have h3 : scan (roundTo 53) sixth 0 3 = 1 / 2 := by
    rw [scan, h2, roundTo_eq (e := -2) (m := 9007199254740992) (by unfold sixth; norm_num) (by unfold sixth; norm_num)
      (by unfold sixth; norm_num)]
    norm_num
  have h4 : scan (roundTo 53) sixth 0 4 = 6004799503160661 / 9007199254740992 := by
    rw [scan, h3, roundTo_eq (e := -1) (m := 6004799503160661) (by unfold sixth; norm_num) (by unfold sixth; norm_num)
      (by unfold sixth; norm_num)]
    norm_num
  have h5 : scan (roundTo 53) sixth 0 5 = 3752999689475413 / 4503599627370496 := by
    rw [scan, h4, roundTo_eq (e := -1) (m := 7505999378950826) (by unfold sixth; norm_num) (by unfold sixth; norm_num)
      (by unfold sixth; norm_num)]
    norm_num
  have h6 : scan (roundTo 53) sixth 0 6 = 9007199254740991 / 9007199254740992 := by
    rw [scan, h5, roundTo_eq (e := -1) (m := 9007199254740991) (by unfold sixth; norm_num) (by unfold sixth; norm_num)
      (by unfold sixth; norm_num)]
    norm_num
  refine ⟨h6, ?_⟩
  rw [scan, roundTo_eq (e := -1) (m := 9007199254740992) (by unfold sixth; norm_num) (by unfold sixth; norm_num)
    (by unfold sixth; norm_num)]
  norm_num

/-- C125 (the margin is needed): in `double`, on a mesh of step `1. / 6`, a scan that starts at the node `0` tests the node `6` at
`0.9999999999999999` and a scan that starts there tests it at `1`: with a particle `x < 1` the node is recorded on one process
and not on two. -/
theorem C125_drift : ∃ (c : Pos 2 ℝ → Bool) (b b' : Box 2 ℤ) (p : Pos 2 ℤ), NatBox b ∧ NatBox b' ∧ p ∈ b.halfOpen ∧
    p ∈ b'.halfOpen ∧ p ∈ fluidPoints2 (roundTo 53) c b (fun _ => sixth) ∧
    p ∉ fluidPoints2 (roundTo 53) c b' (fun _ => sixth) := by
  have hb : NatBox (⟨![0, 0], ![7, 1]⟩ : Box 2 ℤ) := by intro i; fin_cases i <;> simp
  have hb' : NatBox (⟨![6, 0], ![7, 1]⟩ : Box 2 ℤ) := by intro i; fin_cases i <;> simp
  have hp : (![6, 0] : Pos 2 ℤ) ∈ (⟨![0, 0], ![7, 1]⟩ : Box 2 ℤ).halfOpen := by intro i; fin_cases i <;> simp
  have hp' : (![6, 0] : Pos 2 ℤ) ∈ (⟨![6, 0], ![7, 1]⟩ : Box 2 ℤ).halfOpen := by intro i; fin_cases i <;> simp
  refine ⟨fun x => decide (x 0 < 1), ⟨![0, 0], ![7, 1]⟩, ⟨![6, 0], ![7, 1]⟩, ![6, 0], hb, hb', hp, hp', ?_, ?_⟩
  · rw [fluidPoints2_scan _ _ hb, List.mem_filter, Box.mem_visited]
    refine ⟨hp, decide_eq_true ?_⟩
    show scan (roundTo 53) sixth 0 6 < 1
    rw [sixth_scan.1]; norm_num
  · rw [fluidPoints2_scan _ _ hb', List.mem_filter]
    rintro ⟨-, h2⟩
    have h3 := of_decide_eq_true h2
    have h4 : scan (roundTo 53) sixth 6 0 < 1 := h3
    rw [sixth_scan.2] at h4
    exact lt_irrefl _ h4

end Cafes.RoundGeom
