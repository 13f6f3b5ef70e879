/-
An invariant of the runs of a sequence of calls of `save_hdf5`: the calls are done one after the other, and in each call
the processes are in the same section between two collective operations.
-/
import Verif.Spec.Hdf5Save
import Verif.Lemmas.MeshSum

namespace Cafes.Hdf5
variable {n : ℕ} {F K : Type} [DecidableEq F]

/-- The disk with one `.h5` file replaced. -/
def Disk.put (D : Disk F K) (f : F) (a : H5 K) : Disk F K :=
  { D with h5 := fun x => if x = f then some a else D.h5 x }

/-- The disk with one `.xdmf` file replaced. -/
def Disk.describe (D : Disk F K) (f : F) (a : XFile F K) : Disk F K :=
  { D with xdmf := fun x => if x = f then some a else D.xdmf x }

theorem change_put (D : Disk F K) (f : F) (a : H5 K) (g : H5 K → H5 K) : (D.put f a).change f g = D.put f (g a) := by
  unfold Disk.change Disk.put
  congr 1
  funext x
  by_cases h : x = f <;> simp [h]

/-- The velocities of the processes `W`. -/
def partV (J : Job n F K) (W : Finset (Fin n)) : ℤ → ℤ → Fin 2 → Option K := fun j i c =>
  if ∃ r ∈ W, Owns J.Lv (J.coord r) i j then some (J.u ![i, j] c) else none

/-- The pressures of the processes `W`. -/
def partP (J : Job n F K) (W : Finset (Fin n)) : ℤ → ℤ → Option K := fun j i =>
  if ∃ r ∈ W, Owns J.Lp (J.coord r) i j then some (J.p ![i, j] 0) else none

theorem partV_empty (J : Job n F K) : partV J ∅ = fun _ _ _ => none := by
  funext j i c; simp [partV]

theorem partP_empty (J : Job n F K) : partP J ∅ = fun _ _ => none := by
  funext j i; simp [partP]

theorem partV_insert (J : Job n F K) (W : Finset (Fin n)) (r : Fin n) :
    (fun j i c => if Owns J.Lv (J.coord r) i j then some (J.u ![i, j] c) else partV J W j i c) =
      partV J (insert r W) := by
  funext j i c
  unfold partV
  by_cases h : Owns J.Lv (J.coord r) i j <;> simp [h, Finset.exists_mem_insert]

theorem partP_insert (J : Job n F K) (W : Finset (Fin n)) (r : Fin n) :
    (fun j i => if Owns J.Lp (J.coord r) i j then some (J.p ![i, j] 0) else partP J W j i) =
      partP J (insert r W) := by
  funext j i
  unfold partP
  by_cases h : Owns J.Lp (J.coord r) i j <;> simp [h, Finset.exists_mem_insert]

set_option linter.unusedSectionVars false
variable [NeZero n] [Field K]

/-- The data file when all have written. -/
def full (J : Job n F K) : H5 K := ⟨true, some (partV J Finset.univ), some (partP J Finset.univ)⟩

/-- The disk after a call. -/
def after (D : Disk F K) (J : Job n F K) : Disk F K := (D.put J.name (full J)).describe J.name (.complete J.xdmf)

/-- The instructions of the process 0 at the end. -/
def describes (J : Job n F K) (r : Fin n) : List (Act n F K) :=
  if r = 0 then [.loc (.openXdmf J.name), .loc (.closeXdmf J.name J.xdmf)] else []

/-- The states inside a call; the last argument counts the steps. -/
inductive Mid (J : Job n F K) (D : Disk F K) (rest : Fin n → List (Act n F K)) : State n F K → ℕ → Prop
  | created : Mid J D rest ⟨fun r => .coll (.dataVelocity J.name) :: .loc (.putVelocity J r) ::
      .coll (.dataPressure J.name) :: .loc (.putPressure J r) :: .coll (.close J.name) :: (describes J r ++ rest r),
      D.put J.name ⟨false, none, none⟩⟩ 1
  | velocity (W : Finset (Fin n)) : Mid J D rest ⟨fun r => (if r ∈ W then [] else [.loc (.putVelocity J r)]) ++
      .coll (.dataPressure J.name) :: .loc (.putPressure J r) :: .coll (.close J.name) :: (describes J r ++ rest r),
      D.put J.name ⟨false, some (partV J W), none⟩⟩ (2 + W.card)
  | pressure (W : Finset (Fin n)) : Mid J D rest ⟨fun r => (if r ∈ W then [] else [.loc (.putPressure J r)]) ++
      .coll (.close J.name) :: (describes J r ++ rest r),
      D.put J.name ⟨false, some (partV J Finset.univ), some (partP J W)⟩⟩ (3 + n + W.card)
  | closed : Mid J D rest ⟨fun r => describes J r ++ rest r, D.put J.name (full J)⟩ (4 + 2 * n)
  | opened : Mid J D rest ⟨fun r => (if r = 0 then [.loc (.closeXdmf J.name J.xdmf)] else []) ++ rest r,
      (D.put J.name (full J)).describe J.name .opened⟩ (5 + 2 * n)

/-- The instructions left after the work of one process in a section. -/
theorem update_section (W : Finset (Fin n)) (a : Fin n → Loc n F K) (x : Fin n → List (Act n F K)) (r : Fin n) :
    Function.update (fun r => (if r ∈ W then [] else [Act.loc (a r)]) ++ x r) r (x r) =
      fun r' => (if r' ∈ insert r W then [] else [Act.loc (a r')]) ++ x r' := by
  funext q
  by_cases h : q = r
  · subst h; simp
  · rw [Function.update_of_ne h]; simp [h]

theorem describe_describe (D : Disk F K) (f : F) (a b : XFile F K) : (D.describe f a).describe f b = D.describe f b := by
  unfold Disk.describe
  congr 1
  funext x
  by_cases h : x = f <;> simp [h]

/-- A step inside a call: still inside, or at the end of the call. -/
theorem mid_step {J : Job n F K} {D : Disk F K} {rest : Fin n → List (Act n F K)}
    (hrest : ∀ r a l, rest r ≠ .loc a :: l) {s t : State n F K} {k : ℕ}
    (h : Mid J D rest s k) (hs : Step s t) :
    Mid J D rest t (k + 1) ∨ (t = ⟨rest, after D J⟩ ∧ k + 1 = 2 * n + 6) := by
  cases h with
  | created =>
    left
    cases hs with
    | coll c l hl =>
      have h0 := hl 0
      simp only [List.cons.injEq, Act.coll.injEq] at h0
      obtain ⟨rfl, -⟩ := h0
      have e : l = fun r => (if r ∈ (∅ : Finset (Fin n)) then [] else [Act.loc (.putVelocity J r)]) ++
          .coll (.dataPressure J.name) :: .loc (.putPressure J r) :: .coll (.close J.name) ::
            (describes J r ++ rest r) := by
        funext r
        have := hl r
        simp only [List.cons.injEq, true_and] at this
        rw [← this]; simp
      subst e
      have := Mid.velocity (J := J) (D := D) (rest := rest) ∅
      rw [partV_empty] at this
      show Mid J D rest ⟨_, Disk.change _ _ _⟩ _
      rw [change_put]
      exact this
    | loc r a l hl => simp at hl
  | velocity W =>
    left
    cases hs with
    | coll c l hl =>
      have hW : W = Finset.univ := by
        ext r
        simp only [Finset.mem_univ, iff_true]
        by_contra hr
        have := hl r
        simp [hr] at this
      subst hW
      have h0 := hl 0
      simp only [Finset.mem_univ, if_true, List.nil_append, List.cons.injEq, Act.coll.injEq] at h0
      obtain ⟨rfl, -⟩ := h0
      have e : l = fun r => (if r ∈ (∅ : Finset (Fin n)) then [] else [Act.loc (.putPressure J r)]) ++
          .coll (.close J.name) :: (describes J r ++ rest r) := by
        funext r
        have := hl r
        simp only [Finset.mem_univ, if_true, List.nil_append, List.cons.injEq, true_and] at this
        rw [← this]; simp
      subst e
      have := Mid.pressure (J := J) (D := D) (rest := rest) ∅
      rw [partP_empty] at this
      show Mid J D rest ⟨_, Disk.change _ _ _⟩ _
      rw [change_put]
      refine cast (congrArg _ ?_) this
      simp; omega
    | loc r a l hl =>
      have hr : r ∉ W := fun hr => by simp [hr] at hl
      simp only [hr, if_false, List.singleton_append, List.cons.injEq, Act.loc.injEq] at hl
      obtain ⟨rfl, rfl⟩ := hl
      rw [update_section W (fun r => .putVelocity J r)]
      show Mid J D rest ⟨_, Disk.change _ _ _⟩ _
      rw [change_put]
      have := Mid.velocity (J := J) (D := D) (rest := rest) (insert r W)
      rw [Finset.card_insert_of_notMem hr, ← partV_insert] at this
      exact this
  | pressure W =>
    left
    cases hs with
    | coll c l hl =>
      have hW : W = Finset.univ := by
        ext r
        simp only [Finset.mem_univ, iff_true]
        by_contra hr
        have := hl r
        simp [hr] at this
      subst hW
      have h0 := hl 0
      simp only [Finset.mem_univ, if_true, List.nil_append, List.cons.injEq, Act.coll.injEq] at h0
      obtain ⟨rfl, -⟩ := h0
      have e : l = fun r => describes J r ++ rest r := by
        funext r
        have := hl r
        simp only [Finset.mem_univ, if_true, List.nil_append, List.cons.injEq, true_and] at this
        rw [← this]
      subst e
      have := Mid.closed (J := J) (D := D) (rest := rest)
      show Mid J D rest ⟨_, Disk.change _ _ _⟩ _
      rw [change_put]
      refine cast (congrArg _ ?_) this
      simp; omega
    | loc r a l hl =>
      have hr : r ∉ W := fun hr => by simp [hr] at hl
      simp only [hr, if_false, List.singleton_append, List.cons.injEq, Act.loc.injEq] at hl
      obtain ⟨rfl, rfl⟩ := hl
      rw [update_section W (fun r => .putPressure J r)]
      show Mid J D rest ⟨_, Disk.change _ _ _⟩ _
      rw [change_put]
      have := Mid.pressure (J := J) (D := D) (rest := rest) (insert r W)
      rw [Finset.card_insert_of_notMem hr, ← partP_insert] at this
      exact this
  | closed =>
    left
    cases hs with
    | coll c l hl =>
      have := hl 0
      simp [describes] at this
    | loc r a l hl =>
      by_cases hr : r = 0
      · subst hr
        simp only [describes, if_true, List.cons_append, List.nil_append, List.cons.injEq, Act.loc.injEq] at hl
        obtain ⟨rfl, rfl⟩ := hl
        have := Mid.opened (J := J) (D := D) (rest := rest)
        have e : Function.update (fun r => describes J r ++ rest r) 0 (.loc (.closeXdmf J.name J.xdmf) :: rest 0) =
            fun r => (if r = 0 then [.loc (.closeXdmf J.name J.xdmf)] else []) ++ rest r := by
          funext q
          by_cases h : q = 0
          · subst h; simp
          · rw [Function.update_of_ne h]; simp [h, describes]
        rw [e]
        refine cast (congrArg _ ?_) this
        omega
      · simp only [describes, hr, if_false, List.nil_append] at hl
        exact absurd hl (hrest r a l)
  | opened =>
    right
    cases hs with
    | coll c l hl =>
      have := hl 0
      simp at this
    | loc r a l hl =>
      by_cases hr : r = 0
      · subst hr
        simp only [if_true, List.singleton_append, List.cons.injEq, Act.loc.injEq] at hl
        obtain ⟨rfl, rfl⟩ := hl
        have e : Function.update (fun r => (if r = 0 then [Act.loc (.closeXdmf J.name J.xdmf)] else []) ++ rest r) 0
            (rest 0) = rest := by
          funext q
          by_cases h : q = 0
          · subst h; simp
          · rw [Function.update_of_ne h]; simp [h]
        rw [e]
        refine ⟨congrArg _ (describe_describe ..), by omega⟩
      · simp only [hr, if_false, List.nil_append] at hl
        exact absurd hl (hrest r a l)

/-- A state of a run of the calls `jobs`: between two calls, or inside a call. -/
def Inv (jobs : List (Job n F K)) (D : Disk F K) (s : State n F K) (m : ℕ) : Prop :=
  ∃ pre post, jobs = pre ++ post ∧
    ((s = ⟨session post, pre.foldl after D⟩ ∧ m = pre.length * (2 * n + 6)) ∨
     ∃ J post' k, post = J :: post' ∧ Mid J (pre.foldl after D) (session post') s k ∧ m = pre.length * (2 * n + 6) + k)

theorem session_nil (r : Fin n) : session ([] : List (Job n F K)) r = [] := rfl

theorem session_cons (J : Job n F K) (l : List (Job n F K)) (r : Fin n) :
    session (J :: l) r = .coll (.create J.name) :: .coll (.dataVelocity J.name) :: .loc (.putVelocity J r) ::
      .coll (.dataPressure J.name) :: .loc (.putPressure J r) :: .coll (.close J.name) ::
      (describes J r ++ session l r) := by
  simp [session, save, describes]

theorem session_head (l : List (Job n F K)) (r : Fin n) (a : Loc n F K) (x : List (Act n F K)) :
    session l r ≠ .loc a :: x := by
  cases l with
  | nil => simp [session_nil]
  | cons J l => rw [session_cons]; simp

theorem inv_step {jobs : List (Job n F K)} {D : Disk F K} {s t : State n F K} {m : ℕ} (hi : Inv jobs D s m)
    (hs : Step s t) : Inv jobs D t (m + 1) := by
  obtain ⟨pre, post, hj, ⟨rfl, rfl⟩ | ⟨J, post', k, rfl, hm, rfl⟩⟩ := hi
  · cases post with
    | nil =>
      cases hs with
      | coll c l hl => exact absurd (hl 0) (by simp [session_nil])
      | loc r a l hl => exact absurd hl (by simp [session_nil])
    | cons J post' =>
      refine ⟨pre, J :: post', hj, .inr ⟨J, post', 1, rfl, ?_, rfl⟩⟩
      cases hs with
      | coll c l hl =>
        have h0 := hl 0
        simp only [session_cons, List.cons.injEq, Act.coll.injEq] at h0
        obtain ⟨rfl, -⟩ := h0
        have e : l = fun r => .coll (.dataVelocity J.name) :: .loc (.putVelocity J r) ::
            .coll (.dataPressure J.name) :: .loc (.putPressure J r) :: .coll (.close J.name) ::
              (describes J r ++ session post' r) := by
          funext r
          have := hl r
          simp only [session_cons, List.cons.injEq, true_and] at this
          exact this.symm
        subst e
        exact Mid.created
      | loc r a l hl => exact absurd hl (session_head (J :: post') r a l)
  · rcases mid_step (session_head post') hm hs with h | ⟨rfl, h⟩
    · exact ⟨pre, J :: post', hj, .inr ⟨J, post', k + 1, rfl, h, by omega⟩⟩
    · refine ⟨pre ++ [J], post', by simp [hj], .inl ⟨by simp, ?_⟩⟩
      rw [List.length_append, List.length_singleton, Nat.add_mul]
      omega

theorem inv_run {jobs : List (Job n F K)} {D : Disk F K} {s : State n F K} {m : ℕ}
    (h : Run m ⟨session jobs, D⟩ s) : Inv jobs D s m := by
  generalize hs : (⟨session jobs, D⟩ : State n F K) = s0 at h
  induction h with
  | zero s => subst hs; exact ⟨[], jobs, rfl, .inl ⟨rfl, by simp⟩⟩
  | succ m s t u _ hstep ih => exact inv_step (ih hs) hstep

/-- No state of a run is stuck. -/
theorem inv_go {jobs : List (Job n F K)} {D : Disk F K} {s : State n F K} {m : ℕ} (hi : Inv jobs D s m) :
    s.Finished ∨ ∃ t, Step s t := by
  obtain ⟨pre, post, hj, ⟨rfl, rfl⟩ | ⟨J, post', k, rfl, hm, rfl⟩⟩ := hi
  · cases post with
    | nil => exact .inl fun r => rfl
    | cons J post' => exact .inr ⟨_, .coll _ _ _ fun r => session_cons J post' r⟩
  · right
    cases hm with
    | created => exact ⟨_, .coll _ _ _ fun r => rfl⟩
    | velocity W =>
      by_cases hW : ∃ r, r ∉ W
      · obtain ⟨r, hr⟩ := hW
        exact ⟨_, .loc _ r (.putVelocity J r) _ (by simp [hr]; rfl)⟩
      · push Not at hW
        exact ⟨_, .coll _ _ _ fun r => by simp only [hW r, if_true]; rfl⟩
    | pressure W =>
      by_cases hW : ∃ r, r ∉ W
      · obtain ⟨r, hr⟩ := hW
        exact ⟨_, .loc _ r (.putPressure J r) _ (by simp [hr]; rfl)⟩
      · push Not at hW
        exact ⟨_, .coll _ _ _ fun r => by simp only [hW r, if_true]; rfl⟩
    | closed => exact ⟨_, .loc _ 0 (.openXdmf J.name) _ (by simp [describes]; rfl)⟩
    | opened => exact ⟨_, .loc _ 0 (.closeXdmf J.name J.xdmf) _ (by simp; rfl)⟩

theorem inv_finished {jobs : List (Job n F K)} {D : Disk F K} {s : State n F K} {m : ℕ} (hi : Inv jobs D s m)
    (hf : s.Finished) : s.disk = jobs.foldl after D ∧ m = jobs.length * (2 * n + 6) := by
  obtain ⟨pre, post, hj, ⟨rfl, rfl⟩ | ⟨J, post', k, rfl, hm, rfl⟩⟩ := hi
  · cases post with
    | nil => simp at hj; subst hj; exact ⟨rfl, rfl⟩
    | cons J post' => exact absurd (hf 0) (by show session _ _ ≠ _; rw [session_cons]; simp)
  · exfalso
    cases hm with
    | created => exact absurd (hf 0) (by simp)
    | velocity W => exact absurd (hf 0) (by simp)
    | pressure W => exact absurd (hf 0) (by simp)
    | closed => exact absurd (hf 0) (by simp [describes])
    | opened => exact absurd (hf 0) (by simp)

theorem mid_le {J : Job n F K} {D : Disk F K} {rest : Fin n → List (Act n F K)} {s : State n F K} {k : ℕ}
    (h : Mid J D rest s k) : k ≤ 2 * n + 6 := by
  cases h with
  | created => omega
  | velocity W => have := Finset.card_le_univ W; rw [Fintype.card_fin] at this; omega
  | pressure W => have := Finset.card_le_univ W; rw [Fintype.card_fin] at this; omega
  | closed => omega
  | opened => omega

theorem inv_le {jobs : List (Job n F K)} {D : Disk F K} {s : State n F K} {m : ℕ} (hi : Inv jobs D s m) :
    m ≤ jobs.length * (2 * n + 6) := by
  obtain ⟨pre, post, rfl, ⟨rfl, rfl⟩ | ⟨J, post', k, rfl, hm, rfl⟩⟩ := hi
  · rw [List.length_append, Nat.add_mul]; omega
  · have := mid_le hm
    rw [List.length_append, List.length_cons, Nat.add_mul, Nat.add_mul]
    omega

/-! ### The data -/

theorem owns_all {L : Fin 2 → Dir} (hL : ∀ i, (L i).WF) {coord : Fin n → Fin 2 → ℕ}
    (hall : ∀ q, q ∈ procs L ↔ ∃ r, coord r = q) (i j : ℤ) :
    (∃ r ∈ (Finset.univ : Finset (Fin n)), Owns L (coord r) i j) ↔
      (0 ≤ i ∧ i < (L 0).m) ∧ (0 ≤ j ∧ j < (L 1).m) := by
  constructor
  · rintro ⟨r, -, h0, h1⟩
    have hq := (mem_procs L _).1 ((hall (coord r)).2 ⟨r, rfl⟩)
    have a0 := Dir.xs_nonneg (hL 0) (coord r 0)
    have a1 := Dir.xs_nonneg (hL 1) (coord r 1)
    have b0 := Dir.xe_le (hL 0) (hq 0)
    have b1 := Dir.xe_le (hL 1) (hq 1)
    omega
  · rintro ⟨h0, h1⟩
    obtain ⟨q, ⟨hq, ho⟩, -⟩ := owner_unique L hL ![i, j] (fun t => by fin_cases t; exacts [h0, h1])
    obtain ⟨r, rfl⟩ := (hall q).1 hq
    exact ⟨r, Finset.mem_univ r, ho 0, ho 1⟩

theorem full_eq (J : Job n F K) (hJ : J.Good) : full J = J.file := by
  unfold full Job.file whole partV partP
  congr 2
  · funext j i c
    exact if_congr (owns_all hJ.wfv hJ.allv i j) rfl rfl
  · funext j i
    exact if_congr (owns_all hJ.wfp hJ.allp i j) rfl rfl

/-- A file that the calls do not name. -/
theorem foldl_after_other (l : List (Job n F K)) (D : Disk F K) (f : F) (h : ∀ J ∈ l, J.name ≠ f) :
    (l.foldl after D).h5 f = D.h5 f ∧ (l.foldl after D).xdmf f = D.xdmf f := by
  induction l generalizing D with
  | nil => exact ⟨rfl, rfl⟩
  | cons J l ih =>
    have := ih (after D J) fun J' hJ' => h J' (List.mem_cons_of_mem _ hJ')
    have hne : f ≠ J.name := (h J (List.mem_cons_self ..)).symm
    rw [List.foldl_cons, this.1, this.2]
    simp [after, Disk.put, Disk.describe, hne]

theorem after_self (D : Disk F K) (J : Job n F K) :
    (after D J).h5 J.name = some (full J) ∧ (after D J).xdmf J.name = some (.complete J.xdmf) := by
  simp [after, Disk.put, Disk.describe]

end Cafes.Hdf5
