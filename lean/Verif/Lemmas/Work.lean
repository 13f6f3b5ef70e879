/-
Lemmas on the work arrays: pool discipline, and kernels that only look at the ghosted window.
-/
import Verif.Spec.Work
import Verif.Lemmas.Iterate
import Verif.Lemmas.Operator
import Verif.Lemmas.OperatorForm
import Verif.Props.Mesh

namespace Cafes.Work
variable {A : Type*}

theorem get_mem (P : Pool A) : P.get.2.mem = P.mem := by
  unfold Pool.get; split <;> rfl

theorem get_live (P : Pool A) (hP : Sound P) : Sound P.get.2 ∧ ¬ Live P P.get.1 ∧
    ∀ j, Live P.get.2 j ↔ j = P.get.1 ∨ Live P j := by
  obtain ⟨hn, hc⟩ := hP
  unfold Pool.get Live
  split
  · rename_i h
    refine ⟨⟨by simp [h], by simp [h]⟩, by simp, fun j => ?_⟩
    simp only [h, List.not_mem_nil, not_false_eq_true, and_true]
    omega
  · rename_i i t h
    rw [h] at hn hc
    rw [List.nodup_cons] at hn
    refine ⟨⟨hn.2, fun j hj => hc j (List.mem_cons_of_mem _ hj)⟩, by simp [h], fun j => ?_⟩
    simp only [h, List.mem_cons, not_or]
    have := hc i (List.mem_cons_self ..)
    constructor
    · rintro ⟨h1, h2⟩
      by_cases hj : j = i
      · exact Or.inl hj
      · exact Or.inr ⟨h1, hj, h2⟩
    · rintro (rfl | h1)
      · exact ⟨this, hn.1⟩
      · exact ⟨h1.1, h1.2.2⟩

theorem put_live (P : Pool A) (hP : Sound P) (i : ℕ) (hi : Live P i) : Sound (P.put i) ∧
    ∀ j, Live (P.put i) j ↔ Live P j ∧ j ≠ i := by
  obtain ⟨hn, hc⟩ := hP
  refine ⟨⟨List.nodup_cons.2 ⟨hi.2, hn⟩, fun j hj => ?_⟩, fun j => ?_⟩
  · rcases List.mem_cons.1 hj with rfl | h
    · exact hi.1
    · exact hc j h
  · simp only [Live, Pool.put, List.mem_cons, not_or]
    tauto

theorem put_mem (P : Pool A) (i : ℕ) : (P.put i).mem = P.mem := rfl

theorem set_live (P : Pool A) (i : ℕ) (a : A) : (Sound (P.set i a) ↔ Sound P) ∧ ∀ j, Live (P.set i a) j ↔ Live P j :=
  ⟨⟨fun h => ⟨h.1, h.2⟩, fun h => ⟨h.1, h.2⟩⟩, fun _ => Iff.rfl⟩

theorem set_mem (P : Pool A) (i : ℕ) (a : A) (j : ℕ) : (P.set i a).mem j = if j = i then a else P.mem j := by
  simp only [Pool.set, Function.update_apply]

theorem returned_refl (P : Pool A) (hP : Sound P) : Returned P P := ⟨hP, fun _ => Iff.rfl, fun _ _ => rfl⟩

theorem returned_trans {P Q R : Pool A} (h1 : Returned P Q) (h2 : Returned Q R) : Returned P R :=
  ⟨h2.sound, fun i => (h2.same i).trans (h1.same i), fun i hi =>
    (h2.kept i ((h1.same i).2 hi)).trans (h1.kept i hi)⟩

/-- One array taken, written, given back. -/
theorem returned_one (P Q : Pool A) (hP : Sound P) (hQ : Sound Q) (hl : ∀ j, Live Q j ↔ Live P.get.2 j)
    (hm : ∀ j, j ≠ P.get.1 → Live P j → Q.mem j = P.mem j) : Returned P (Q.put P.get.1) := by
  obtain ⟨s1, n1, l1⟩ := get_live P hP
  have hi : Live Q P.get.1 := (hl _).2 ((l1 _).2 (Or.inl rfl))
  obtain ⟨s2, l2⟩ := put_live Q hQ P.get.1 hi
  refine ⟨s2, fun i => ?_, fun i hi => ?_⟩
  · rw [l2, hl, l1]
    constructor
    · rintro ⟨rfl | h, h'⟩
      · exact absurd rfl h'
      · exact h
    · intro h
      exact ⟨Or.inr h, fun e => n1 (e ▸ h)⟩
  · rw [put_mem]
    exact hm i (fun e => n1 (e ▸ hi)) hi

/-! ### Kernels and windows -/

variable {d n N : ℕ} {K : Type*}

/-- The two arrays of the process `r` have the same content in its ghosted window. -/
def Eqv (L : Fin d → Dir) (r : Fin d → ℕ) (y y' : NodeVec d n K) : Prop :=
  ∀ p ∈ (ghostWindow L r).visited, y p = y' p

theorem addAt_eqv [Add K] (L : Fin d → Dir) (r : Fin d → ℕ) {y y' : NodeVec d n K} (h : Eqv L r y y') (p : Pos d ℤ)
    (c : Fin n) {v v' : K} (hv : v = v') : Eqv L r (addAt y p c v) (addAt y' p c v') := by
  intro q hq
  funext e
  simp only [addAt, h q hq, hv]

theorem foldl_rel {σ ι : Type*} (R : σ → σ → Prop) (l : List ι) (f g : σ → ι → σ)
    (hs : ∀ i ∈ l, ∀ s s', R s s' → R (f s i) (g s' i)) : ∀ s s', R s s' → R (l.foldl f s) (l.foldl g s') := by
  induction l with
  | nil => exact fun s s' h => h
  | cons a t ih =>
    intro s s' h
    exact ih (fun i hi => hs i (List.mem_cons_of_mem _ hi)) _ _ (hs a (List.mem_cons_self ..) _ _ h)

theorem iterate_rel {σ : Type*} (R : σ → σ → Prop) (b : Box d ℤ) (f g : Pos d ℤ → σ → σ)
    (hs : ∀ e ∈ b.halfOpen, ∀ s s', R s s' → R (f e s) (g e s')) (s s' : σ) (h : R s s') :
    R (iterate b f s) (iterate b g s') := by
  rw [iterate_eq_foldl, iterate_eq_foldl]
  refine foldl_rel R _ _ _ (fun e he s s' h => hs e ?_ s s' h) s s' h
  rw [← mem_visited_toFinset, List.mem_toFinset]; exact he

theorem win_of_halfOpen (L : Fin d → Dir) (r : Fin d → ℕ) {p : Pos d ℤ} (h : p ∈ (ghostWindow L r).halfOpen) :
    p ∈ (ghostWindow L r).visited := by
  rw [← List.mem_toFinset, mem_visited_toFinset]; exact h

/-- The local operator of a process only looks at the ghosted window, and what it leaves there depends on nothing
else. -/
def LocalOp (L : Fin d → Dir) (apply : (Fin d → ℕ) → NodeVec d n K → NodeVec d n K → NodeVec d n K) : Prop :=
  ∀ r ∈ procs L, ∀ x x' y y', Eqv L r x x' → Eqv L r y y' → Eqv L r (apply r x y) (apply r x' y')

section
variable [CommRing K]

theorem diagBlock_local (L : Fin d → Dir) (hL : ∀ i, (L i).WF) (elem : Pos d ℤ → Fin N → Pos d ℤ) (hel : IsQ1 elem)
    (M : Fin N → Fin N → K) : LocalOp (n := n) L (diagBlockMult L elem M) := by
  intro r hr x x' y y' hx hy
  refine iterate_rel (Eqv L r) _ _ _ (fun e he s s' h => ?_) _ _ hy
  have hw : ∀ k, elem e k ∈ (ghostWindow L r).visited := fun k =>
    win_of_halfOpen L r (Props.C04_q1_window L hL r hr e he _ (hel e k))
  refine foldl_rel (Eqv L r) _ _ _ (fun k1 _ s s' h => ?_) _ _ h
  refine foldl_rel (Eqv L r) _ _ _ (fun k2 _ s s' h => ?_) _ _ h
  refine foldl_rel (Eqv L r) _ _ _ (fun c _ s s' h => ?_) _ _ h
  refine addAt_eqv L r h _ _ ?_
  rw [hx _ (hw k2)]

theorem tensorBlock_local (L : Fin d → Dir) (hL : ∀ i, (L i).WF) (elem : Pos d ℤ → Fin N → Pos d ℤ) (hel : IsQ1 elem)
    (M : Fin N → Fin N → Fin n → Fin n → K) : LocalOp L (tensorBlockMult L elem M) := by
  intro r hr x x' y y' hx hy
  refine iterate_rel (Eqv L r) _ _ _ (fun e he s s' h => ?_) _ _ hy
  have hw : ∀ k, elem e k ∈ (ghostWindow L r).visited := fun k =>
    win_of_halfOpen L r (Props.C04_q1_window L hL r hr e he _ (hel e k))
  refine foldl_rel (Eqv L r) _ _ _ (fun k1 _ s s' h => ?_) _ _ h
  refine foldl_rel (Eqv L r) _ _ _ (fun k2 _ s s' h => ?_) _ _ h
  refine foldl_rel (Eqv L r) _ _ _ (fun c1 _ s s' h => ?_) _ _ h
  refine foldl_rel (Eqv L r) _ _ _ (fun c2 _ s s' h => ?_) _ _ h
  refine addAt_eqv L r h _ _ ?_
  rw [hx _ (hw k2)]

theorem diagDiag_local (L : Fin d → Dir) (elem : Pos d ℤ → Fin N → Pos d ℤ)
    (M : Fin N → Fin N → K) (r : Fin d → ℕ) (y y' : NodeVec d n K) (hy : Eqv L r y y') :
    Eqv L r (diagDiagBlockMult L elem M r y) (diagDiagBlockMult L elem M r y') := by
  refine iterate_rel (Eqv L r) _ _ _ (fun e _ s s' h => ?_) _ _ hy
  refine foldl_rel (Eqv L r) _ _ _ (fun k _ s s' h => ?_) _ _ h
  refine foldl_rel (Eqv L r) _ _ _ (fun c _ s s' h => ?_) _ _ h
  exact addAt_eqv L r h _ _ rfl

/-- `B_and_BT_mult` only looks at the windows of the two meshes. -/
def LocalOff {NP NV : ℕ} (Lv Lp : Fin d → Dir) (elemP : Pos d ℤ → Fin NP → Pos d ℤ)
    (elemV : Pos d ℤ → Fin NV → Pos d ℤ) : Prop :=
  ∀ r ∈ procs Lp, ∀ e ∈ (getDMBounds Lp r true).halfOpen, (∀ k, elemP e k ∈ (ghostWindow Lp r).halfOpen) ∧
    ∀ k, elemV e k ∈ (ghostWindow Lv r).halfOpen

theorem offDiag_local {NP NV : ℕ} (Lv Lp : Fin d → Dir) (elemP : Pos d ℤ → Fin NP → Pos d ℤ)
    (elemV : Pos d ℤ → Fin NV → Pos d ℤ) (hw : LocalOff Lv Lp elemP elemV) (B : Fin NP → Fin NV → Fin n → K)
    (r : Fin d → ℕ) (hr : r ∈ procs Lp) (x1 x1' y1 y1' : NodeVec d n K) (x2 x2' y2 y2' : NodeVec d 1 K)
    (hx1 : Eqv Lv r x1 x1') (hx2 : Eqv Lp r x2 x2') (hy1 : Eqv Lv r y1 y1') (hy2 : Eqv Lp r y2 y2') :
    Eqv Lv r (offDiagBlockMult Lp elemP elemV B r x1 x2 (y1, y2)).1
        (offDiagBlockMult Lp elemP elemV B r x1' x2' (y1', y2')).1 ∧
      Eqv Lp r (offDiagBlockMult Lp elemP elemV B r x1 x2 (y1, y2)).2
        (offDiagBlockMult Lp elemP elemV B r x1' x2' (y1', y2')).2 := by
  let R : NodeVec d n K × NodeVec d 1 K → NodeVec d n K × NodeVec d 1 K → Prop :=
    fun s s' => Eqv Lv r s.1 s'.1 ∧ Eqv Lp r s.2 s'.2
  refine iterate_rel R _ _ _ (fun e he s s' h => ?_) _ _ ⟨hy1, hy2⟩
  obtain ⟨hp, hv⟩ := hw r hr e he
  refine foldl_rel R _ _ _ (fun iv _ s s' h => ?_) _ _ h
  refine foldl_rel R _ _ _ (fun ip _ s s' h => ?_) _ _ h
  refine foldl_rel R _ _ _ (fun c _ s s' h => ?_) _ _ h
  refine ⟨addAt_eqv Lv r h.1 _ _ ?_, addAt_eqv Lp r h.2 _ _ ?_⟩
  · rw [hx2 _ (win_of_halfOpen Lp r (hp ip))]
  · rw [hx1 _ (win_of_halfOpen Lv r (hv iv))]

/-- The sum of the local arrays only looks at their windows. -/
theorem l2g_congr (L : Fin d → Dir) (a a' : Arr d n K) (h : ∀ r ∈ procs L, Eqv L r (a r) (a' r)) (y : NodeVec d n K) :
    localToGlobalAdd L a y = localToGlobalAdd L a' y := by
  funext g c
  unfold localToGlobalAdd
  refine congrArg (y g c + ·) (Finset.sum_congr rfl fun r hr => Finset.sum_congr rfl fun p hp => ?_)
  rw [h r hr p (List.mem_toFinset.1 hp)]

end

theorem g2l_eqv (L : Fin d → Dir) (x : NodeVec d n K) (i : ℕ) (P : Pool (Arr d n K)) (r : Fin d → ℕ) :
    Eqv L r ((g2l L x i P).mem i r) (globalToLocal L x) := by
  intro p hp
  unfold g2l
  rw [set_mem, if_pos rfl, if_pos hp]
  rfl

theorem fill_eqv (L : Fin d → Dir) (v : K) (i : ℕ) (P : Pool (Arr d n K)) (r : Fin d → ℕ) :
    Eqv L r ((fill L v i P).mem i r) (fun _ _ => v) := by
  intro p hp
  unfold fill
  rw [set_mem, if_pos rfl, if_pos hp]

end Cafes.Work
