/-
An invariant of the runs of `save_VTK`: every process has done a prefix of its program, the process 0 has received what
the others gave, and a file is what the process that writes it has made of it.
-/
import Verif.Spec.VtkSave

namespace Cafes.Vtk
variable {n : ℕ} {K : Type}

/-- The values given by a list of instructions. -/
def vals : List (Act n K) → List ℤ
  | [] => []
  | .gather v :: l => v :: vals l
  | _ :: l => vals l

theorem vals_append (l l' : List (Act n K)) : vals (l ++ l') = vals l ++ vals l' := by
  induction l with
  | nil => rfl
  | cons a l ih => cases a <;> simp [vals, ih]

/-- The first `k` arrays received by the process 0. -/
def arrays (prog : Fin n → List (Act n K)) (k : ℕ) : List (Fin n → ℤ) :=
  (List.range k).map fun j r => (vals (prog r)).getD j 0

/-- One instruction, seen from a file: the number of arrays received and the file. -/
def seen (prog : Fin n → List (Act n K)) (f : Name n) (st : ℕ × Option (File K)) : Act n K → ℕ × Option (File K)
  | .gather _ => (st.1 + 1, st.2)
  | .openFile g => (st.1, if f = g then some .opened else st.2)
  | .closeFile g d => (st.1, if f = g then some (.complete (d (arrays prog st.1))) else st.2)

/-- A file after a list of instructions. -/
def after (prog : Fin n → List (Act n K)) (f : Name n) (l : List (Act n K)) (x : Option (File K)) : ℕ × Option (File K) :=
  l.foldl (seen prog f) (0, x)

theorem after_snoc (prog : Fin n → List (Act n K)) (f : Name n) (l : List (Act n K)) (a : Act n K) (x : Option (File K)) :
    after prog f (l ++ [a]) x = seen prog f (after prog f l x) a := by
  simp [after, List.foldl_append]

theorem after_fst (prog : Fin n → List (Act n K)) (f : Name n) (l : List (Act n K)) (x : Option (File K)) :
    (after prog f l x).1 = (vals l).length := by
  induction l using List.reverseRecOn with
  | nil => rfl
  | append_singleton l a ih =>
    rw [after_snoc, vals_append, List.length_append, ← ih]
    cases a <;> simp [seen, vals]

/-- The process that writes a file. -/
def owner [NeZero n] : Name n → Fin n
  | .pressure r => r
  | .velocity r => r
  | .pressureAll => 0
  | .velocityAll => 0

/-- The programs that are considered. -/
structure Tidy [NeZero n] (prog : Fin n → List (Act n K)) : Prop where
  opens : ∀ r f, Act.openFile f ∈ prog r → owner f = r
  closes : ∀ r f d, Act.closeFile f d ∈ prog r → owner f = r
  const : ∀ r, r ≠ 0 → ∀ f d, Act.closeFile f d ∈ prog r → ∀ g g', d g = d g'
  count : ∀ r, (vals (prog r)).length = (vals (prog 0)).length

/-- The invariant; `dn` is what has been done. -/
structure Inv [NeZero n] (prog : Fin n → List (Act n K)) (disk : Disk n K) (s : Save n K) (dn : Fin n → List (Act n K)) :
    Prop where
  split : ∀ r, prog r = dn r ++ s.todo r
  sent : ∀ r, s.sent r = vals (dn r)
  len : s.got.length = (vals (dn 0)).length
  le : ∀ r, s.got.length ≤ (vals (dn r)).length
  got : s.got = arrays prog s.got.length
  files : ∀ f, s.disk f = (after prog f (dn (owner f)) (disk f)).2

theorem inv_start [NeZero n] (prog : Fin n → List (Act n K)) (disk : Disk n K) :
    Inv prog disk (Save.start prog disk) fun _ => [] :=
  ⟨fun _ => rfl, fun _ => rfl, rfl, fun _ => le_refl _, rfl, fun _ => rfl⟩

theorem arrays_succ (prog : Fin n → List (Act n K)) (k : ℕ) :
    arrays prog (k + 1) = arrays prog k ++ [fun r => (vals (prog r)).getD k 0] := by
  simp [arrays, List.range_succ]

theorem after_gather (prog : Fin n → List (Act n K)) (f : Name n) (l : List (Act n K)) (v : ℤ) (x : Option (File K)) :
    (after prog f (l ++ [.gather v]) x).2 = (after prog f l x).2 := by rw [after_snoc]; rfl

theorem update_split [NeZero n] {prog dn : Fin n → List (Act n K)} {todo : Fin n → List (Act n K)} (r : Fin n)
    (a : Act n K) (l : List (Act n K)) (h : ∀ r, prog r = dn r ++ todo r) (ha : todo r = a :: l) (q : Fin n) :
    prog q = Function.update dn r (dn r ++ [a]) q ++ Function.update todo r l q := by
  by_cases hq : q = r
  · subst hq
    rw [Function.update_self, Function.update_self, h q, ha, List.append_assoc]; rfl
  · rw [Function.update_of_ne hq, Function.update_of_ne hq, h q]

theorem getD_prefix (l l' : List ℤ) (k : ℕ) (hk : k < l.length) : (l ++ l').getD k 0 = l.getD k 0 := by
  rw [List.getD_eq_getElem?_getD, List.getElem?_append_left hk, ← List.getD_eq_getElem?_getD]

theorem inv_step [NeZero n] {prog : Fin n → List (Act n K)} (hp : Tidy prog) {disk : Disk n K}
    {ret : Save n K → Fin n → Prop} {s t : Save n K} (h : SaveStep ret s t) {dn : Fin n → List (Act n K)}
    (hi : Inv prog disk s dn) : ∃ r a, s.todo r = a :: t.todo r ∧ (∀ q, q ≠ r → t.todo q = s.todo q) ∧
      Inv prog disk t (Function.update dn r (dn r ++ [a])) := by
  cases h with
  | send r v l hr hl _ =>
    refine ⟨r, .gather v, by rw [hl]; simp, fun q hq => Function.update_of_ne hq .., ?_⟩
    have hv : ∀ q, vals (Function.update dn r (dn r ++ [.gather v]) q) =
        Function.update s.sent r (s.sent r ++ [v]) q := fun q => by
      by_cases hq : q = r
      · subst hq; rw [Function.update_self, Function.update_self, vals_append, hi.sent q]; rfl
      · rw [Function.update_of_ne hq, Function.update_of_ne hq, hi.sent q]
    refine ⟨update_split r _ l hi.split hl, fun q => (hv q).symm, ?_, fun q => ?_, hi.got, fun f => ?_⟩
    · rw [Function.update_of_ne (Ne.symm hr)]; exact hi.len
    · refine (hi.le q).trans ?_
      by_cases hq : q = r
      · subst hq; rw [Function.update_self, vals_append]; simp
      · rw [Function.update_of_ne hq]
    · refine (hi.files f).trans ?_
      by_cases hq : owner f = r
      · rw [hq, Function.update_self, after_gather]
      · rw [Function.update_of_ne hq]
  | recv v l hl hall =>
    refine ⟨0, .gather v, by rw [hl]; simp, fun q hq => Function.update_of_ne hq .., ?_⟩
    have hv : ∀ q, vals (Function.update dn 0 (dn 0 ++ [.gather v]) q) =
        Function.update s.sent 0 (s.sent 0 ++ [v]) q := fun q => by
      by_cases hq : q = 0
      · subst hq; rw [Function.update_self, Function.update_self, vals_append, hi.sent 0]; rfl
      · rw [Function.update_of_ne hq, Function.update_of_ne hq, hi.sent q]
    have hsp := update_split 0 _ l hi.split hl
    have hlt : ∀ q, s.got.length < (Function.update s.sent 0 (s.sent 0 ++ [v]) q).length := fun q => by
      by_cases hq : q = 0
      · subst hq; rw [Function.update_self, hi.sent, List.length_append, ← hi.len]; simp
      · rw [Function.update_of_ne hq]; exact hall q hq
    refine ⟨hsp, fun q => (hv q).symm, ?_, fun q => ?_, ?_, fun f => ?_⟩
    · show (s.got ++ [_]).length = _
      rw [Function.update_self, vals_append, List.length_append, List.length_append, hi.len]; rfl
    · show (s.got ++ [_]).length ≤ _
      rw [hv q, List.length_append]
      exact hlt q
    · show s.got ++ [_] = arrays prog (s.got ++ [_]).length
      rw [List.length_append, List.length_singleton, arrays_succ, ← hi.got]
      refine congrArg (fun x => s.got ++ [x]) (funext fun q => ?_)
      rw [hsp q, vals_append, hv q, getD_prefix _ _ _ (hlt q)]
    · refine (hi.files f).trans ?_
      by_cases hq : owner f = 0
      · rw [hq, Function.update_self, after_gather]
      · rw [Function.update_of_ne hq]
  | openFile r f l hl =>
    refine ⟨r, .openFile f, by rw [hl]; simp, fun q hq => Function.update_of_ne hq .., ?_⟩
    have hv : ∀ q, vals (Function.update dn r (dn r ++ [.openFile f]) q) = vals (dn q) := fun q => by
      by_cases hq : q = r
      · subst hq; rw [Function.update_self, vals_append]; simp [vals]
      · rw [Function.update_of_ne hq]
    refine ⟨update_split r _ l hi.split hl, fun q => (hi.sent q).trans (hv q).symm, by rw [hv]; exact hi.len,
      fun q => by rw [hv]; exact hi.le q, hi.got, fun g => ?_⟩
    have hf : owner f = r := hp.opens r f (by rw [hi.split r, hl]; simp)
    show Function.update s.disk f (some .opened) g = _
    by_cases hg : g = f
    · subst hg
      rw [Function.update_self, hf, Function.update_self, after_snoc]
      simp [seen]
    · rw [Function.update_of_ne hg, hi.files g]
      by_cases hq : owner g = r
      · rw [hq, Function.update_self, after_snoc]
        simp [seen, hg]
      · rw [Function.update_of_ne hq]
  | closeFile r f d l hl =>
    refine ⟨r, .closeFile f d, by rw [hl]; simp, fun q hq => Function.update_of_ne hq .., ?_⟩
    have hv : ∀ q, vals (Function.update dn r (dn r ++ [.closeFile f d]) q) = vals (dn q) := fun q => by
      by_cases hq : q = r
      · subst hq; rw [Function.update_self, vals_append]; simp [vals]
      · rw [Function.update_of_ne hq]
    refine ⟨update_split r _ l hi.split hl, fun q => (hi.sent q).trans (hv q).symm, by rw [hv]; exact hi.len,
      fun q => by rw [hv]; exact hi.le q, hi.got, fun g => ?_⟩
    have hm : Act.closeFile f d ∈ prog r := by rw [hi.split r, hl]; simp
    have hf : owner f = r := hp.closes r f d hm
    show Function.update s.disk f (some (.complete (d s.got))) g = _
    by_cases hg : g = f
    · subst hg
      rw [Function.update_self, hf, Function.update_self, after_snoc]
      simp only [seen, if_true]
      rw [after_fst]
      by_cases hr : r = 0
      · subst hr
        rw [← hi.len, ← hi.got]
      · rw [hp.const r hr g d hm s.got]
    · rw [Function.update_of_ne hg, hi.files g]
      by_cases hq : owner g = r
      · rw [hq, Function.update_self, after_snoc]
        simp [seen, hg]
      · rw [Function.update_of_ne hq]

theorem inv_run [NeZero n] {prog : Fin n → List (Act n K)} (hp : Tidy prog) {disk : Disk n K}
    {ret : Save n K → Fin n → Prop} {m : ℕ} {s : Save n K} (h : SaveRun ret m (Save.start prog disk) s) :
    (∃ dn, Inv prog disk s dn) ∧ m + ∑ r, (s.todo r).length = ∑ r, (prog r).length := by
  generalize hs : Save.start prog disk = s0 at h
  induction h with
  | zero s => subst hs; exact ⟨⟨_, inv_start prog disk⟩, by rw [Nat.zero_add]; rfl⟩
  | succ m s t u _ hstep ih =>
    obtain ⟨⟨dn, hi⟩, hm⟩ := ih hs
    obtain ⟨r, a, h1, h2, h3⟩ := inv_step hp hstep hi
    refine ⟨⟨_, h3⟩, ?_⟩
    rw [← hm, ← Finset.add_sum_erase _ _ (Finset.mem_univ r), ← Finset.add_sum_erase _ (fun r => (t.todo r).length)
      (Finset.mem_univ r), h1, List.length_cons]
    have : ∑ x ∈ Finset.univ.erase r, (u.todo x).length = ∑ x ∈ Finset.univ.erase r, (t.todo x).length :=
      Finset.sum_congr rfl fun q hq => by rw [h2 q (Finset.mem_erase.1 hq).1]
    rw [this]
    omega

/-- A process that is not in `MPI_Gather` can go on. -/
theorem step_local [NeZero n] (ret : Save n K → Fin n → Prop) (s : Save n K) (r : Fin n) (a : Act n K) (l : List (Act n K))
    (h : s.todo r = a :: l) (ha : ∀ v, a ≠ .gather v) : ∃ t, SaveStep ret s t := by
  cases a with
  | gather v => exact absurd rfl (ha v)
  | openFile f => exact ⟨_, .openFile s r f l h⟩
  | closeFile f d => exact ⟨_, .closeFile s r f d l h⟩

/-- No state of a run is stuck. -/
theorem inv_go [NeZero n] {prog : Fin n → List (Act n K)} (hp : Tidy prog) {disk : Disk n K}
    {ret : Save n K → Fin n → Prop} (hret : Allowed ret) {s : Save n K} {dn : Fin n → List (Act n K)}
    (hi : Inv prog disk s dn) : s.Finished ∨ ∃ t, SaveStep ret s t := by
  by_contra hc
  rw [not_or] at hc
  have hloc : ∀ r a l, s.todo r = a :: l → ∃ v, a = .gather v := fun r a l h => by
    by_contra hv
    exact hc.2 (step_local ret s r a l h fun v e => hv ⟨v, e⟩)
  have hcount : ∀ r, (vals (dn r)).length + (vals (s.todo r)).length = (vals (prog 0)).length := fun r => by
    rw [← hp.count r, hi.split r, vals_append, List.length_append]
  have h0 : s.todo 0 = [] := by
    match h : s.todo 0 with
    | [] => rfl
    | a :: l =>
      exfalso
      obtain ⟨v, rfl⟩ := hloc 0 a l h
      by_cases hall : ∀ r, r ≠ 0 → s.got.length < (s.sent r).length
      · exact hc.2 ⟨_, .recv s v l h hall⟩
      · push Not at hall
        obtain ⟨r, hr, hle⟩ := hall
        have e1 : (s.sent r).length = s.got.length := le_antisymm hle (by rw [hi.sent r]; exact hi.le r)
        match hr' : s.todo r with
        | [] =>
          have h1 := hcount r
          have h2 := hcount 0
          rw [hr', ← hi.sent r, e1, hi.len] at h1
          rw [h] at h2
          simp [vals] at h1 h2
          omega
        | a' :: l' =>
          obtain ⟨v', rfl⟩ := hloc r a' l' hr'
          exact hc.2 ⟨_, .send s r v' l' hr hr' (hret s r ⟨v, l, h⟩ e1)⟩
  refine hc.1 fun r => ?_
  match hr' : s.todo r with
  | [] => rfl
  | a' :: l' =>
    exfalso
    obtain ⟨v', rfl⟩ := hloc r a' l' hr'
    have h1 := hcount r
    have h2 := hcount 0
    have h3 := hi.le r
    rw [h0] at h2
    rw [hr'] at h1
    rw [hi.len] at h3
    simp [vals] at h1 h2
    omega

/-! ### Reading the invariant -/

/-- The instructions do not touch the file. -/
def Quiet (f : Name n) (l : List (Act n K)) : Prop := ∀ a ∈ l, a ≠ .openFile f ∧ ∀ d, a ≠ .closeFile f d

theorem quiet_append {f : Name n} {l l' : List (Act n K)} : Quiet f (l ++ l') ↔ Quiet f l ∧ Quiet f l' := by
  unfold Quiet
  constructor
  · exact fun h => ⟨fun a ha => h a (List.mem_append_left _ ha), fun a ha => h a (List.mem_append_right _ ha)⟩
  · rintro ⟨h, h'⟩ a ha
    exact (List.mem_append.1 ha).elim (h a) (h' a)

theorem foldl_quiet (prog : Fin n → List (Act n K)) (f : Name n) (l : List (Act n K)) (h : Quiet f l)
    (st : ℕ × Option (File K)) : (l.foldl (seen prog f) st).2 = st.2 := by
  induction l generalizing st with
  | nil => rfl
  | cons a l ih =>
    rw [List.foldl_cons, ih fun b hb => h b (List.mem_cons_of_mem _ hb)]
    have ha := h a (List.mem_cons_self ..)
    cases a with
    | gather v => rfl
    | openFile g => exact if_neg fun e => ha.1 (by rw [e])
    | closeFile g d => exact if_neg fun e => ha.2 d (by rw [e])

theorem after_quiet (prog : Fin n → List (Act n K)) (f : Name n) (l : List (Act n K)) (h : Quiet f l)
    (x : Option (File K)) : (after prog f l x).2 = x := foldl_quiet prog f l h _

theorem after_close (prog : Fin n → List (Act n K)) (f : Name n) (l l' : List (Act n K))
    (d : List (Fin n → ℤ) → Doc K) (h : Quiet f l') (x : Option (File K)) :
    (after prog f (l ++ .closeFile f d :: l') x).2 = some (.complete (d (arrays prog (vals l).length))) := by
  have : l ++ .closeFile f d :: l' = (l ++ [.closeFile f d]) ++ l' := by simp
  rw [this]
  unfold after
  rw [List.foldl_append, foldl_quiet prog f l' h]
  show (after prog f (l ++ [.closeFile f d]) x).2 = _
  rw [after_snoc]
  simp only [seen, if_true]
  rw [after_fst]

/-- A file that has changed: the process that writes it has done what comes before. -/
theorem Inv.before [NeZero n] {prog : Fin n → List (Act n K)} {disk : Disk n K} {s : Save n K}
    {dn : Fin n → List (Act n K)} (hi : Inv prog disk s dn) (f : Name n) (l l' : List (Act n K))
    (hl : prog (owner f) = l ++ l') (hq : Quiet f l) (h : s.disk f ≠ disk f) : l <+: dn (owner f) := by
  rcases List.prefix_or_prefix_of_prefix (⟨l', hl.symm⟩ : l <+: prog (owner f))
    (⟨_, (hi.split (owner f)).symm⟩ : dn (owner f) <+: prog (owner f)) with h' | ⟨c, hc⟩
  · exact h'
  · refine absurd ?_ h
    rw [hi.files f, after_quiet]
    rw [← hc, quiet_append] at hq
    exact hq.1

/-- When the process 0 has received more arrays than a process gives in the instructions `l`, these are done. -/
theorem Inv.passed [NeZero n] {prog : Fin n → List (Act n K)} {disk : Disk n K} {s : Save n K}
    {dn : Fin n → List (Act n K)} (hi : Inv prog disk s dn) (r : Fin n) (l l' : List (Act n K))
    (hl : prog r = l ++ l') (h : (vals l).length < (vals (dn 0)).length) : l <+: dn r := by
  rcases List.prefix_or_prefix_of_prefix (⟨l', hl.symm⟩ : l <+: prog r)
    (⟨_, (hi.split r).symm⟩ : dn r <+: prog r) with h' | ⟨c, hc⟩
  · exact h'
  · exfalso
    have := hi.le r
    rw [hi.len] at this
    rw [← hc, vals_append, List.length_append] at h
    omega

/-- A file that has been closed. -/
theorem Inv.closed [NeZero n] {prog : Fin n → List (Act n K)} {disk : Disk n K} {s : Save n K}
    {dn : Fin n → List (Act n K)} (hi : Inv prog disk s dn) (f : Name n) (l l' : List (Act n K))
    (d : List (Fin n → ℤ) → Doc K) (hl : prog (owner f) = l ++ .closeFile f d :: l') (hq : Quiet f l')
    (h : l ++ [.closeFile f d] <+: dn (owner f)) :
    s.disk f = some (.complete (d (arrays prog (vals l).length))) := by
  obtain ⟨c, hc⟩ := h
  have h1 := hi.split (owner f)
  rw [hl, ← hc, List.append_assoc, List.append_assoc] at h1
  have h2 : l' = c ++ s.todo (owner f) := by
    have := List.append_cancel_left h1
    simpa using this
  rw [h2, quiet_append] at hq
  rw [hi.files f, ← hc, List.append_assoc]
  exact after_close prog f l c d hq.1 _

/-- A file that is complete and was not there. -/
theorem Inv.wrote [NeZero n] {prog : Fin n → List (Act n K)} {disk : Disk n K} {s : Save n K}
    {dn : Fin n → List (Act n K)} (hi : Inv prog disk s dn) (f : Name n) (l l' : List (Act n K))
    (d : List (Fin n → ℤ) → Doc K) (hl : prog (owner f) = l ++ (writeFile f d ++ l')) (hq : Quiet f l) (hq' : Quiet f l')
    (h : disk f = none) (x : Doc K) (hx : s.disk f = some (.complete x)) :
    l <+: dn (owner f) ∧ x = d (arrays prog (vals l).length) := by
  have h1 := hi.before f l _ hl hq (by rw [h, hx]; simp)
  refine ⟨h1, ?_⟩
  have hl' : prog (owner f) = (l ++ [.openFile f]) ++ .closeFile f d :: l' := by rw [hl]; simp [writeFile]
  have hv : (vals (l ++ [.openFile f])).length = (vals l).length := by rw [vals_append]; simp [vals]
  rcases List.prefix_or_prefix_of_prefix
    (⟨l', by rw [hl']; simp⟩ : (l ++ [.openFile f]) ++ [.closeFile f d] <+: prog (owner f))
    (⟨_, (hi.split (owner f)).symm⟩ : dn (owner f) <+: prog (owner f)) with h2 | ⟨c, hc⟩
  · have := hi.closed f _ l' d hl' hq' h2
    rw [hx, hv] at this
    simpa using this
  · obtain ⟨e, he⟩ := h1
    rw [← he, List.append_assoc, List.append_assoc] at hc
    have h3 := List.append_cancel_left hc
    rw [hi.files f, ← he] at hx
    match e, h3 with
    | [], _ => rw [List.append_nil, after_quiet _ _ _ hq, h] at hx; simp at hx
    | [a], h3 =>
      simp at h3
      obtain ⟨rfl, -⟩ := h3
      rw [after_snoc] at hx
      simp [seen] at hx
    | [a, b], h3 =>
      simp at h3
      obtain ⟨rfl, rfl, rfl⟩ := h3
      have := hi.closed f _ l' d hl' hq' ⟨[], by rw [← he]; simp⟩
      rw [hi.files f, ← he, hx, hv] at this
      simpa using this
    | a :: b :: c' :: e', h3 => simp at h3

end Cafes.Vtk
