/-
C123: what is on the disk during and after a sequence of calls of `save_hdf5`, for all the interleavings of the
processes.
-/
import Verif.Lemmas.Hdf5Save

namespace Cafes.Props
open Cafes Cafes.Hdf5

set_option linter.unusedSectionVars false
variable {n : ℕ} [NeZero n] {F K : Type} [DecidableEq F] [Field K]

/-- C123 (end): whatever the interleaving, a sequence of calls of `save_hdf5` ends, after `2n + 6` steps per call; then the
data file of each call holds all the values, each at its place, and its description is the one of C70, unless a later
call has the same name. -/
theorem C123_end (jobs : List (Job n F K)) (D : Disk F K) (m : ℕ) (s : State n F K)
    (hs : Run m ⟨session jobs, D⟩ s) :
    m ≤ jobs.length * (2 * n + 6) ∧ (s.Finished ∨ ∃ t, Step s t) ∧
    (s.Finished → ∀ pre J post, jobs = pre ++ J :: post → (∀ J' ∈ post, J'.name ≠ J.name) → J.Good →
      s.disk.h5 J.name = some (whole (J.Lv 0).m (J.Lv 1).m (J.Lp 0).m (J.Lp 1).m J.u J.p) ∧
      s.disk.xdmf J.name = some (.complete ⟨J.name, xdmfPressure (J.Lv 0).m (J.Lv 1).m J.h,
        xdmfVelocity (J.Lv 0).m (J.Lv 1).m J.h⟩)) := by
  have hi := inv_run hs
  refine ⟨inv_le hi, inv_go hi, fun hf pre J post hj hpost hJ => ?_⟩
  obtain ⟨hd, -⟩ := inv_finished hi hf
  have h1 := foldl_after_other post (after (pre.foldl after D) J) J.name hpost
  have h2 := after_self (pre.foldl after D) J
  rw [hd, hj, List.foldl_append, List.foldl_cons, h1.1, h1.2, h2.1, h2.2, full_eq J hJ]
  exact ⟨rfl, rfl⟩

/-- The `.h5` file named by no call. -/
theorem mid_other {J : Job n F K} {D : Disk F K} {rest : Fin n → List (Act n F K)} {s : State n F K} {k : ℕ}
    (h : Mid J D rest s k) (f : F) (hf : J.name ≠ f) : s.disk.h5 f = D.h5 f ∧ s.disk.xdmf f = D.xdmf f := by
  cases h <;> simp [Disk.put, Disk.describe, hf.symm]

/-- C123 (other files): at every moment of a run, the files that no call names are as before. -/
theorem C123_others (jobs : List (Job n F K)) (D : Disk F K) (m : ℕ) (s : State n F K)
    (hs : Run m ⟨session jobs, D⟩ s) (f : F) (hf : ∀ J ∈ jobs, J.name ≠ f) :
    s.disk.h5 f = D.h5 f ∧ s.disk.xdmf f = D.xdmf f := by
  obtain ⟨pre, post, rfl, ⟨rfl, rfl⟩ | ⟨J, post', k, rfl, hm, rfl⟩⟩ := inv_run hs
  · exact foldl_after_other pre D f fun J hJ => hf J (List.mem_append_left _ hJ)
  · have h1 := mid_other hm f (hf J (by simp))
    have h2 := foldl_after_other pre D f fun J hJ => hf J (List.mem_append_left _ hJ)
    exact ⟨h1.1.trans h2.1, h1.2.trans h2.2⟩

/-- C123 (crash): at every moment of a run, so also if it is killed there, as soon as the description of a call has
changed (it is complete, or only opened) the data file of this call is closed and holds all the values; and a complete
description which was not there is the right one. The call is the only one of the sequence with its name. -/
theorem C123_crash (pre post : List (Job n F K)) (J : Job n F K) (hJ : J.Good)
    (hpre : ∀ J' ∈ pre, J'.name ≠ J.name) (hpost : ∀ J' ∈ post, J'.name ≠ J.name)
    (D : Disk F K) (m : ℕ) (s : State n F K) (hs : Run m ⟨session (pre ++ J :: post), D⟩ s) :
    (s.disk.xdmf J.name ≠ D.xdmf J.name →
      s.disk.h5 J.name = some (whole (J.Lv 0).m (J.Lv 1).m (J.Lp 0).m (J.Lp 1).m J.u J.p)) ∧
    (∀ x, s.disk.xdmf J.name = some (.complete x) → D.xdmf J.name = none →
      x = ⟨J.name, xdmfPressure (J.Lv 0).m (J.Lv 1).m J.h, xdmfVelocity (J.Lv 0).m (J.Lv 1).m J.h⟩) := by
  suffices h : s.disk.xdmf J.name = D.xdmf J.name ∨ (s.disk.h5 J.name = some (full J) ∧
      (s.disk.xdmf J.name = some .opened ∨ s.disk.xdmf J.name = some (.complete J.xdmf))) by
    rw [full_eq J hJ] at h
    refine ⟨fun hne => (h.resolve_left hne).1, fun x hx hn => ?_⟩
    rcases h with h | ⟨-, h | h⟩
    · rw [hn, hx] at h; simp at h
    · rw [hx] at h; simp at h
    · rw [hx, Option.some.injEq, XFile.complete.injEq] at h; exact h
  -- what is true after a list of calls that is at the beginning of the sequence
  have key : ∀ a b, pre ++ J :: post = a ++ b →
      ((∀ J' ∈ a, J'.name ≠ J.name) ∧ (a.foldl after D).xdmf J.name = D.xdmf J.name) ∨
      ((∀ J' ∈ b, J'.name ≠ J.name) ∧ (a.foldl after D).h5 J.name = some (full J) ∧
        (a.foldl after D).xdmf J.name = some (.complete J.xdmf)) := by
    intro a b hab
    rcases List.append_eq_append_iff.1 hab with ⟨c, hc, hc'⟩ | ⟨c, hc, hc'⟩
    · cases c with
      | nil =>
        left
        rw [List.append_nil] at hc
        subst hc
        exact ⟨hpre, (foldl_after_other a D J.name hpre).2⟩
      | cons J' c =>
        right
        rw [List.cons_append, List.cons.injEq] at hc'
        obtain ⟨rfl, hc'⟩ := hc'
        have h1 : ∀ J' ∈ c, J'.name ≠ J.name := fun J' h => hpost J' (by rw [hc']; exact List.mem_append_left _ h)
        have h2 := foldl_after_other c (after (pre.foldl after D) J) J.name h1
        have h3 := after_self (pre.foldl after D) J
        rw [hc, List.foldl_append, List.foldl_cons, h2.1, h2.2]
        exact ⟨fun J' h => hpost J' (by rw [hc']; exact List.mem_append_right _ h), h3⟩
    · left
      have h1 : ∀ J' ∈ a, J'.name ≠ J.name := fun J' h => hpre J' (by rw [hc]; exact List.mem_append_left _ h)
      exact ⟨h1, (foldl_after_other a D J.name h1).2⟩
  obtain ⟨a, b, hab, ⟨rfl, rfl⟩ | ⟨J', b', k, rfl, hm, rfl⟩⟩ := inv_run hs
  · rcases key a b hab with ⟨-, h⟩ | ⟨-, h⟩
    · exact .inl h
    · exact .inr ⟨h.1, .inr h.2⟩
  · by_cases hn : J'.name = J.name
    · -- this call is `J`
      rcases key a (J' :: b') hab with ⟨ha, hx⟩ | ⟨hb, -⟩
      · have e : J' = J := by
          have hmem : J' ∈ pre ++ J :: post := by rw [hab]; simp
          rcases List.mem_append.1 hmem with h | h
          · exact absurd hn (hpre J' h)
          · rcases List.mem_cons.1 h with h | h
            · exact h
            · exact absurd hn (hpost J' h)
        subst e
        cases hm with
        | created => exact .inl hx
        | velocity W => exact .inl hx
        | pressure W => exact .inl hx
        | closed => exact .inl hx
        | opened =>
          right
          refine ⟨?_, .inl ?_⟩ <;> simp [Disk.put, Disk.describe]
      · exact absurd hn (hb J' (List.mem_cons_self ..))
    · have h1 := mid_other hm J.name hn
      rw [h1.1, h1.2]
      rcases key a (J' :: b') hab with ⟨-, h⟩ | ⟨-, h⟩
      · exact .inl h
      · exact .inr ⟨h.1, .inr h.2⟩

/-- C123 (finding): a call over the files of an earlier one: there is a moment where the old description is complete and
the data file is not closed and holds no velocity; a run killed there leaves a description of data that cannot be read
and the earlier data are lost. -/
theorem C123_hole (J : Job n F K) (post : List (Job n F K)) (D : Disk F K) (x : Xdmf F K)
    (hx : D.xdmf J.name = some (.complete x)) :
    ∃ m s, Run m ⟨session (J :: post), D⟩ s ∧ s.disk.xdmf J.name = some (.complete x) ∧
      ∃ a, s.disk.h5 J.name = some a ∧ a.closed = false ∧ a.velocity = none := by
  refine ⟨1, _, .succ 0 _ _ _ (.zero _) (.coll _ _ _ fun r => session_cons J post r), hx, ⟨false, none, none⟩, ?_, rfl, rfl⟩
  simp [Coll.run]

/-- C123 (decomposition): two runs that save the same fields under the same name on two decompositions of the same meshes,
on any numbers of processes and in any order of the steps, leave the same two files. -/
theorem C123_decomposition {n' : ℕ} [NeZero n'] (J : Job n F K) (J' : Job n' F K) (hJ : J.Good) (hJ' : J'.Good)
    (hname : J'.name = J.name) (hv : ∀ i, (J'.Lv i).m = (J.Lv i).m) (hp : ∀ i, (J'.Lp i).m = (J.Lp i).m)
    (hh : J'.h = J.h) (hu : J'.u = J.u) (hq : J'.p = J.p) (D D' : Disk F K) (m m' : ℕ) (s : State n F K)
    (s' : State n' F K) (hs : Run m ⟨session [J], D⟩ s) (hs' : Run m' ⟨session [J'], D'⟩ s') (hf : s.Finished)
    (hf' : s'.Finished) :
    s'.disk.h5 J.name = s.disk.h5 J.name ∧ s'.disk.xdmf J.name = s.disk.xdmf J.name := by
  have h1 := (C123_end [J] D m s hs).2.2 hf [] J [] rfl (by simp) hJ
  have h2 := (C123_end [J'] D' m' s' hs').2.2 hf' [] J' [] rfl (by simp) hJ'
  rw [hname] at h2
  rw [h1.1, h1.2, h2.1, h2.2, hv, hv, hp, hp, hh, hu, hq]
  exact ⟨rfl, rfl⟩

/-! ### A case -/

/-- A velocity mesh of 5 by 3 points and its pressure mesh of 3 by 2 points, on two processes. -/
def exJob : Job 2 String ℚ where
  name := "test"
  Lv := ![⟨5, false, [3, 2]⟩, ⟨3, false, [3]⟩]
  Lp := ![⟨3, false, [2, 1]⟩, ⟨2, false, [2]⟩]
  h := ![1/4, 1/2]
  u := fun q c => q 0 + 10 * q 1 + 100 * (c : ℚ)
  p := fun q _ => q 0 - q 1
  coord := fun r => ![r, 0]

theorem exJob_good : exJob.Good := by
  have hsurj : ∀ q : Fin 2 → ℕ, (q 0 < 2 ∧ q 1 < 1) ↔ ∃ r : Fin 2, (![(r : ℕ), 0] : Fin 2 → ℕ) = q := by
    intro q
    constructor
    · rintro ⟨h0, h1⟩
      refine ⟨⟨q 0, h0⟩, ?_⟩
      funext i
      fin_cases i
      · rfl
      · show 0 = q 1; omega
    · rintro ⟨r, rfl⟩
      exact ⟨r.isLt, Nat.one_pos⟩
  refine ⟨fun i => ?_, fun i => ?_, fun q => ?_, fun q => ?_⟩
  · fin_cases i <;> exact ⟨by decide, by decide⟩
  · fin_cases i <;> exact ⟨by decide, by decide⟩
  · rw [mem_procs, Fin.forall_fin_two]; exact hsurj q
  · rw [mem_procs, Fin.forall_fin_two]; exact hsurj q

/-- C123 (a case): a complete run of `save_hdf5` on two processes exists, and leaves the velocity of the node (4, 1), which
belongs to the process 1, at the place [1][4]. -/
theorem C123_example : ∃ m s, Run m ⟨session [exJob], ⟨fun _ => none, fun _ => none⟩⟩ s ∧ s.Finished ∧
    ∃ a v, s.disk.h5 "test" = some a ∧ a.velocity = some v ∧ v 1 4 0 = some 14 := by
  have hrun : ∀ k m s, Run m ⟨session [exJob], ⟨fun _ => none, fun _ => none⟩⟩ s → m + k = 10 →
      ∃ m' s', Run m' ⟨session [exJob], ⟨fun _ => none, fun _ => none⟩⟩ s' ∧ s'.Finished := by
    intro k
    induction k with
    | zero =>
      intro m s hs hm
      rcases (C123_end _ _ m s hs).2.1 with h | ⟨t, ht⟩
      · exact ⟨m, s, hs, h⟩
      · have := (C123_end _ _ _ t (.succ m _ s t hs ht)).1
        simp at this
        omega
    | succ k ih =>
      intro m s hs hm
      rcases (C123_end _ _ m s hs).2.1 with h | ⟨t, ht⟩
      · exact ⟨m, s, hs, h⟩
      · exact ih (m + 1) t (.succ m _ s t hs ht) (by omega)
  obtain ⟨m, s, hs, hf⟩ := hrun 10 0 _ (.zero _) rfl
  refine ⟨m, s, hs, hf, _, _, ((C123_end _ _ m s hs).2.2 hf [] exJob [] rfl (by simp) exJob_good).1, rfl, ?_⟩
  show (if _ then _ else _) = _
  rw [if_pos (by decide)]
  show some _ = some _
  simp only [exJob]
  norm_num

end Cafes.Props
