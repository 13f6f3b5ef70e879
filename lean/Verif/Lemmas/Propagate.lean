/-
Propagation of a nodal property from a wall to the whole grid, and the consequences for the
diffusion operators: a field without energy that vanishes on a wall vanishes.
-/
import Verif.Lemmas.Definite
import Verif.Props.Dirichlet

namespace Cafes.Props
open Cafes Cafes.Spec
variable {d n NN : ℕ}

theorem spread_zero (L : Fin d → Dir) (hne : ∀ i, 1 ≤ (L i).nElem)
    (elem : Pos d ℤ → Fin NN → Pos d ℤ) (hel : IsQ1 elem)
    (hc : ∀ e g : Pos d ℤ, (∀ i, g i = e i ∨ g i = e i + 1) → ∃ k, elem e k = g)
    (Z : Pos d ℤ → Prop) (f : ℕ) (g0 : Pos d ℤ) (hf0 : OnFace L g0 f)
    (rule : ∀ e ∈ gridElems L, ∀ i : Fin d, ∀ s : ℤ, (s = 0 ∨ s = 1) →
      (∀ k, elem e k i = e i + s → Z (wrap L (elem e k))) → ∀ k, Z (wrap L (elem e k)))
    (hface : ∀ g ∈ gridNodes L, OnFace L g f → Z g) (g : Pos d ℤ) (hg : g ∈ gridNodes L) : Z g := by
  obtain ⟨i, hp, hf⟩ := hf0
  have hm : 1 ≤ (L i).m - 1 := by have := hne i; simpa [Dir.nElem, hp] using this
  -- a node of the cell layer `j`
  have hcell : ∀ (j : ℤ), 0 ≤ j → j < (L i).m - 1 → ∀ g ∈ gridNodes L, (g i = j ∨ g i = j + 1) →
      ∃ e ∈ gridElems L, e i = j ∧ ∃ k, elem e k = g := by
    intro j hj hj' g hg hgi
    obtain ⟨e, he, hge⟩ := exists_corner L hne g hg
    refine ⟨Function.update e i j, ?_, by simp, ?_⟩
    · rw [mem_gridElems] at he ⊢
      intro l
      by_cases hl : l = i
      · subst hl; simp [Dir.nElem, hp]; omega
      · simpa [Function.update_of_ne hl] using he l
    · apply hc
      intro l
      by_cases hl : l = i
      · subst hl; simpa using hgi
      · simpa [Function.update_of_ne hl] using hge l
  have hnode : ∀ e ∈ gridElems L, ∀ k, wrap L (elem e k) ∈ gridNodes L ∧
      wrap L (elem e k) i = elem e k i := by
    intro e he k
    exact ⟨wrap_q1_mem L elem hel e he k, by simp [wrap, hp]⟩
  rcases hf with ⟨rfl, -⟩ | ⟨rfl, -⟩
  · -- upwards from the lower wall
    have up : ∀ j : ℕ, (j : ℤ) ≤ (L i).m - 1 → ∀ g ∈ gridNodes L, g i = j → Z g := by
      intro j
      induction j with
      | zero => intro _ g hg hgi; exact hface g hg ((onFace_low L g i).2 ⟨hp, by simpa using hgi⟩)
      | succ j ih =>
        intro hj g hg hgi
        push_cast at hj hgi
        obtain ⟨e, he, hei, k, hk⟩ := hcell j (by omega) (by omega) g hg (Or.inr hgi)
        have := rule e he i 0 (Or.inl rfl) (fun k hk => ih (by omega) _ (hnode e he k).1 (by
          rw [(hnode e he k).2, hk, hei, add_zero])) k
        rwa [hk, wrap_grid L g hg] at this
    have h1 := (mem_gridNodes L g).1 hg i
    obtain ⟨j, hj⟩ := Int.eq_ofNat_of_zero_le h1.1
    exact up j (by omega) g hg hj
  · have down : ∀ j : ℕ, (j : ℤ) ≤ (L i).m - 1 → ∀ g ∈ gridNodes L, g i = (L i).m - 1 - j → Z g := by
      intro j
      induction j with
      | zero => intro _ g hg hgi; exact hface g hg ((onFace_up L g i).2 ⟨hp, by simpa using hgi⟩)
      | succ j ih =>
        intro hj g hg hgi
        push_cast at hj hgi
        obtain ⟨e, he, hei, k, hk⟩ := hcell ((L i).m - 1 - (j + 1)) (by omega) (by omega) g hg
          (Or.inl hgi)
        have := rule e he i 1 (Or.inr rfl) (fun k hk => ih (by omega) _ (hnode e he k).1 (by
          rw [(hnode e he k).2, hk, hei]; ring)) k
        rwa [hk, wrap_grid L g hg] at this
    have h1 := (mem_gridNodes L g).1 hg i
    obtain ⟨j, hj⟩ := Int.eq_ofNat_of_zero_le (show 0 ≤ (L i).m - 1 - g i by omega)
    exact down j (by omega) g hg (by omega)

theorem bit2_of (e : Pos 2 ℤ) (k : Fin 4) (i : Fin 2) (s : ℤ) (b : Fin 2) (hb : (b.1 : ℤ) = s) :
    getElement2 e k i = e i + s ↔ bit2 k i = b := by
  rw [getElement2_eq]; subst hb
  fin_cases i <;> fin_cases k <;> fin_cases b <;> simp [bit2]

theorem bit3_of (e : Pos 3 ℤ) (k : Fin 8) (i : Fin 3) (s : ℤ) (b : Fin 2) (hb : (b.1 : ℤ) = s) :
    getElement3 e k i = e i + s ↔ bit3 k i = b := by
  rw [getElement3_eq]; subst hb
  fin_cases i <;> fin_cases k <;> fin_cases b <;> simp [bit3]

theorem side (s : ℤ) (hs : s = 0 ∨ s = 1) : ∃ b : Fin 2, (b.1 : ℤ) = s := by
  rcases hs with rfl | rfl
  · exact ⟨0, rfl⟩
  · exact ⟨1, rfl⟩

/-- A component without Laplacian energy that vanishes on a wall vanishes. -/
theorem lap2_definite (L : Fin 2 → Dir) (hL : ∀ i, (L i).WF) (hne : ∀ i, 1 ≤ (L i).nElem)
    (h : Pos 2 ℝ) (hh : ∀ c, 0 < h c) (x : NodeVec 2 n ℝ) (hx : dot L x (laplacian2 L h x) = 0)
    (c : Fin n) (f : ℕ) (g0 : Pos 2 ℤ) (hf : OnFace L g0 f)
    (hz : ∀ g ∈ gridNodes L, OnFace L g f → x g c = 0) (g : Pos 2 ℤ) (hg : g ∈ gridNodes L) :
    x g c = 0 := by
  unfold laplacian2 at hx
  rw [dot_diagBlock_eq L hL _ isQ1_2, Finset.sum_eq_zero_iff_of_nonneg fun e _ =>
    Finset.sum_nonneg fun c _ => (C14_psd2 h hh).1 fun k => x (wrap L (getElement2 e k)) c] at hx
  refine spread_zero L hne getElement2 isQ1_2 (fun e g hg => ((C09_element2 e).2.2 g).2 hg)
    (fun g => x g c = 0) f g0 hf ?_ hz g hg
  intro e he i s hs hk k
  obtain ⟨b, hb⟩ := side s hs
  have h1 := hx e he
  rw [Finset.sum_eq_zero_iff_of_nonneg fun c _ =>
    (C14_psd2 h hh).1 fun k => x (wrap L (getElement2 e k)) c] at h1
  exact lap2_cell h hh (fun k => x (wrap L (getElement2 e k)) c) (h1 c (Finset.mem_univ c)) i b
    (fun k hkb => hk k ((bit2_of e k i s b hb).2 hkb)) k

theorem lap3_definite (L : Fin 3 → Dir) (hL : ∀ i, (L i).WF) (hne : ∀ i, 1 ≤ (L i).nElem)
    (h : Pos 3 ℝ) (hh : ∀ c, 0 < h c) (x : NodeVec 3 n ℝ) (hx : dot L x (laplacian3 L h x) = 0)
    (c : Fin n) (f : ℕ) (g0 : Pos 3 ℤ) (hf : OnFace L g0 f)
    (hz : ∀ g ∈ gridNodes L, OnFace L g f → x g c = 0) (g : Pos 3 ℤ) (hg : g ∈ gridNodes L) :
    x g c = 0 := by
  unfold laplacian3 at hx
  rw [dot_diagBlock_eq L hL _ isQ1_3, Finset.sum_eq_zero_iff_of_nonneg fun e _ =>
    Finset.sum_nonneg fun c _ => (C14_psd3 h hh).1 fun k => x (wrap L (getElement3 e k)) c] at hx
  refine spread_zero L hne getElement3 isQ1_3 (fun e g hg => ((C09_element3 e).2.2 g).2 hg)
    (fun g => x g c = 0) f g0 hf ?_ hz g hg
  intro e he i s hs hk k
  obtain ⟨b, hb⟩ := side s hs
  have h1 := hx e he
  rw [Finset.sum_eq_zero_iff_of_nonneg fun c _ =>
    (C14_psd3 h hh).1 fun k => x (wrap L (getElement3 e k)) c] at h1
  exact lap3_cell h hh (fun k => x (wrap L (getElement3 e k)) c) (h1 c (Finset.mem_univ c)) i b
    (fun k hkb => hk k ((bit3_of e k i s b hb).2 hkb)) k

/-- A field without strain energy that vanishes on a wall vanishes. -/
theorem strain2_definite (L : Fin 2 → Dir) (hL : ∀ i, (L i).WF) (hne : ∀ i, 1 ≤ (L i).nElem)
    (h : Pos 2 ℝ) (hh : ∀ c, 0 < h c) (x : NodeVec 2 2 ℝ) (hx : dot L x (strain2 L h x) = 0)
    (f : ℕ) (g0 : Pos 2 ℤ) (hf : OnFace L g0 f)
    (hz : ∀ g ∈ gridNodes L, OnFace L g f → ∀ c, x g c = 0) (g : Pos 2 ℤ) (hg : g ∈ gridNodes L) :
    ∀ c, x g c = 0 := by
  unfold strain2 at hx
  rw [dot_tensorBlock_eq L hL _ isQ1_2, Finset.sum_eq_zero_iff_of_nonneg fun e _ =>
    (C14_psd2 h hh).2 fun p => x (wrap L (getElement2 e p.1)) p.2] at hx
  refine spread_zero L hne getElement2 isQ1_2 (fun e g hg => ((C09_element2 e).2.2 g).2 hg)
    (fun g => ∀ c, x g c = 0) f g0 hf ?_ hz g hg
  intro e he i s hs hk k c
  obtain ⟨b, hb⟩ := side s hs
  exact strain2_cell h hh (fun p => x (wrap L (getElement2 e p.1)) p.2) (hx e he) i b
    (fun k hkb => hk k ((bit2_of e k i s b hb).2 hkb)) k c

theorem strain3_definite (L : Fin 3 → Dir) (hL : ∀ i, (L i).WF) (hne : ∀ i, 1 ≤ (L i).nElem)
    (h : Pos 3 ℝ) (hh : ∀ c, 0 < h c) (x : NodeVec 3 3 ℝ) (hx : dot L x (strain3 L h x) = 0)
    (f : ℕ) (g0 : Pos 3 ℤ) (hf : OnFace L g0 f)
    (hz : ∀ g ∈ gridNodes L, OnFace L g f → ∀ c, x g c = 0) (g : Pos 3 ℤ) (hg : g ∈ gridNodes L) :
    ∀ c, x g c = 0 := by
  unfold strain3 at hx
  rw [dot_tensorBlock_eq L hL _ isQ1_3, Finset.sum_eq_zero_iff_of_nonneg fun e _ =>
    (C14_psd3 h hh).2 fun p => x (wrap L (getElement3 e p.1)) p.2] at hx
  refine spread_zero L hne getElement3 isQ1_3 (fun e g hg => ((C09_element3 e).2.2 g).2 hg)
    (fun g => ∀ c, x g c = 0) f g0 hf ?_ hz g hg
  intro e he i s hs hk k c
  obtain ⟨b, hb⟩ := side s hs
  exact strain3_cell h hh (fun p => x (wrap L (getElement3 e p.1)) p.2) (hx e he) i b
    (fun k hkb => hk k ((bit3_of e k i s b hb).2 hkb)) k c

end Cafes.Props
