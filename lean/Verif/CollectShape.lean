import Verif.CollectLemmas
import Verif.TreeLemmas

/-! The shapes of the variables chosen for one file, and what their data become. -/

namespace Nappy

open Spec

variable {F : Type}

/-! ### Shapes -/

/-- What the second loop keeps: main variables of the shape of the best one, auxiliary variables on an axis as long
as its first one. -/
def GoodLists (b : XVar F) (s : SortState F) : Prop :=
  (∀ v ∈ s.main, v.shape = b.shape) ∧ (∀ v ∈ s.aux, v.shape = b.shape.take 1 ∧ v.shape ≠ b.shape)

theorem coordByIndex_zero {v : XVar F} {ax : XAxis F} (h : coordByIndex v 0 = .ok ax) :
    ∃ more, v.axes = ax :: more := by
  unfold coordByIndex at h
  cases hv : v.axes with
  | nil => rw [hv] at h; cases h
  | cons b t => rw [hv] at h; cases h; exact ⟨t, rfl⟩

theorem sortStep_good {env : XEnv F} {b : XVar F} {zeroIds : List Str} {s s' : SortState F} {v : XVar F}
    (h : sortStep env b zeroIds s v = .ok s') (hs : GoodLists b s) : GoodLists b s' := by
  obtain ⟨hm, ha⟩ := hs
  unfold sortStep at h
  split at h
  · injection h with h; subst h; exact ⟨hm, ha⟩
  · split at h
    · rename_i hne
      split at h
      · rename_i first hv
        obtain ⟨ax0, hax, h3⟩ := ok_of_bind h
        unfold sortOneDim at h3
        split at h3
        · rename_i hid
          split at h3 <;> (injection h3 with h3; subst h3)
          · exact ⟨hm, ha⟩
          · refine ⟨hm, fun w hw => ?_⟩
            rw [List.mem_append, List.mem_singleton] at hw
            rcases hw with hw | rfl
            · exact ha w hw
            · obtain ⟨more, hmore⟩ := coordByIndex_zero hax
              have := ((areAxesIdentical_iff _ _ _).1 hid).2.1
              exact ⟨by simp [XVar.shape, hv, hmore, this], hne⟩
        · split at h3
          · cases h3
          · injection h3 with h3; subst h3; exact ⟨hm, ha⟩
          · injection h3 with h3; subst h3; exact ⟨hm, ha⟩
          · injection h3 with h3; subst h3; exact ⟨hm, ha⟩
      · injection h with h; subst h; exact ⟨hm, ha⟩
    · rename_i hsh
      split at h <;> (injection h with h; subst h)
      · refine ⟨fun w hw => ?_, ha⟩
        rw [List.mem_append, List.mem_singleton] at hw
        rcases hw with hw | rfl
        · exact hm w hw
        · exact Decidable.of_not_not hsh
      · exact ⟨hm, ha⟩

theorem sortGo_good {env : XEnv F} {b : XVar F} {zeroIds : List Str} {s s' : SortState F}
    {vs : List (XVar F)} (h : sortGo env b zeroIds s vs = .ok s') (hs : GoodLists b s) : GoodLists b s' := by
  induction vs generalizing s with
  | nil => injection h with h; subst h; exact hs
  | cons v vs ih =>
    obtain ⟨s1, h1, h2⟩ := ok_of_bind h
    exact ih h2 (sortStep_good h1 hs)

theorem setSlot_mem {α : Type} {l l' : List (Option α)} {i : Int} {a : α} (h : setSlot l i a = .ok l')
    {x : α} (hx : some x ∈ l') : some x ∈ l ∨ x = a := by
  have key : ∀ k, some x ∈ l.set k (some a) → some x ∈ l ∨ x = a := by
    intro k hk
    rcases List.mem_or_eq_of_mem_set hk with h | h
    · exact .inl h
    · exact .inr (by injection h)
  unfold setSlot at h
  split at h
  · injection h with h; subst h; exact key _ hx
  · split at h
    · injection h with h; subst h; exact key _ hx
    · cases h

theorem slotGo_mem {α : Type} (num : α → Option Int) (vs : List α) :
    ∀ (slots : List (Option α)) (others : List α) r, slotGo num slots others vs = .ok r →
      ∀ x, some x ∈ r.1 ∨ x ∈ r.2 → some x ∈ slots ∨ x ∈ others ∨ x ∈ vs := by
  induction vs with
  | nil =>
    intro slots others r h x hx
    injection h with h
    subst h
    rcases hx with h | h
    · exact .inl h
    · exact .inr (.inl h)
  | cons v vs ih =>
    intro slots others r h x hx
    unfold slotGo at h
    split at h
    · obtain ⟨s1, h1, h2⟩ := ok_of_bind h
      rcases ih _ _ _ h2 x hx with h3 | h3 | h3
      · rcases setSlot_mem h1 h3 with h4 | h4
        · exact .inl h4
        · exact .inr (.inr (by simp [h4]))
      · exact .inr (.inl h3)
      · exact .inr (.inr (List.mem_cons_of_mem _ h3))
    · rcases ih _ _ _ h x hx with h3 | h3 | h3
      · exact .inl h3
      · rw [List.mem_append, List.mem_singleton] at h3
        rcases h3 with h3 | h3
        · exact .inr (.inl h3)
        · exact .inr (.inr (by simp [h3]))
      · exact .inr (.inr (List.mem_cons_of_mem _ h3))

theorem reorderBy_mem {α : Type} {num : α → Option Int} {vars r : List α} (h : reorderBy num vars = .ok r) :
    ∀ x ∈ r, x ∈ vars := by
  intro x hx
  obtain ⟨p, h1, h2⟩ := ok_of_bind h
  injection h2 with h2
  subst h2
  rw [List.mem_append, List.mem_filterMap] at hx
  have := slotGo_mem num vars _ _ _ h1 x (by
    rcases hx with ⟨o, ho, he⟩ | h
    · refine .inl ?_
      simp only [id_eq] at he
      rw [← he]; exact ho
    · exact .inr h)
  rcases this with h | h | h
  · rw [List.mem_replicate] at h; exact absurd h.2 (by simp)
  · cases h
  · exact h

/-- The shapes of the variables of one file. -/
theorem analyse_shapes {env : XEnv F} {requested : Option Int} {vars : List (XVar F)} {a : Analysis F}
    (h : analyse env requested vars = .ok (some a)) :
    ∃ n ns, a.niv = ns.length + 1 ∧ (∀ v ∈ a.main, v.shape = n :: ns) ∧ (∀ v ∈ a.aux, v.shape = [n]) := by
  obtain ⟨p⟩ := analyse_parts h
  obtain ⟨hb1, hb2, _⟩ := best_some p.best
  have hg := sortGo_good p.sorted ⟨by intro v hv; simp at hv; rw [hv], by intro v hv; cases hv⟩
  cases hax : p.b.axes with
  | nil => exact absurd (by simp [XVar.rank, hax]) hb2
  | cons a0 t =>
    refine ⟨a0.values.length, t.map (fun x => x.values.length), ?_, ?_, ?_⟩
    · rw [p.niv]; simp [XVar.rank, hax]
    · intro v hv
      rw [hg.1 v (reorderBy_mem p.orderM v hv)]
      simp [XVar.shape, hax]
    · intro v hv
      rw [(hg.2 v (reorderBy_mem p.orderX v hv)).1]
      simp [XVar.shape, hax]

/-- Data with one axis leave no room for auxiliary variables. -/
theorem analyse_no_aux {env : XEnv F} {requested : Option Int} {vars : List (XVar F)} {a : Analysis F}
    (h : analyse env requested vars = .ok (some a)) (h1 : a.niv = 1) : a.aux = [] := by
  obtain ⟨p⟩ := analyse_parts h
  have hg := sortGo_good p.sorted ⟨by intro v hv; simp at hv; rw [hv], by intro v hv; cases hv⟩
  cases ha : a.aux with
  | nil => rfl
  | cons v vs =>
    obtain ⟨e1, e2⟩ := hg.2 v (reorderBy_mem p.orderX v (by rw [ha]; simp))
    refine absurd ?_ e2
    rw [e1]
    refine List.take_of_length_le ?_
    have : p.b.rank = 1 := by rw [← p.niv, h1]
    simp only [XVar.shape, List.length_map]
    simp only [XVar.rank] at this
    omega

/-- Format 1010 needs auxiliary variables. -/
theorem decide_1010 {requested : Option Int} {dims naux : Nat} {ffis : Option (List Int)}
    (h : decideFFI requested dims naux ffis = .ok 1010) (hl : ∀ l, ffis = some l → (1010 : Int) ∉ l) :
    dims ≤ 1 ∧ 0 < naux := by
  have key : ∀ {f}, ffiForDims requested dims naux = .ok f → f = 1010 → dims ≤ 1 ∧ 0 < naux := by
    intro f hf e
    subst e
    unfold ffiForDims at hf
    split at hf
    · cases hf
    · split at hf
      · injection hf with hf; omega
      · split at hf
        · injection hf with hf
          split at hf
          · split at hf <;> omega
          · cases hf
        · split at hf
          · exact ⟨by omega, by omega⟩
          · cases hf
  unfold decideFFI at h
  split at h
  · rename_i r l _
    split at h
    · injection h with h
      subst h
      exact absurd (by assumption) (hl l rfl)
    · cases h
  · obtain ⟨f, h1, h2⟩ := ok_of_bind h
    split at h2
    · split at h2
      · injection h2 with h2; exact key h1 h2
      · cases h2
    · injection h2 with h2; exact key h1 h2

/-- Format 1010 is never chosen. -/
theorem analyse_never_1010 {env : XEnv F} {requested : Option Int} {vars : List (XVar F)} {a : Analysis F}
    (h : analyse env requested vars = .ok (some a)) : a.ffi ≠ 1010 := by
  intro hf
  obtain ⟨p⟩ := analyse_parts h
  have hd := p.decided
  rw [hf] at hd
  have hb : p.b.rank ≠ 0 := (best_some p.best).2.1
  obtain ⟨h1, h2⟩ := decide_1010 hd (by
    intro l hl hm
    rcases sortGo_ffis p.sorted (p := fun l => (1010 : Int) ∉ l) (by
      intro l hl
      have h0 := p.first
      unfold initialFFIs at h0
      dsimp only at hl
      split at h0
      · obtain ⟨ax, _, h1⟩ := ok_of_bind h0
        obtain ⟨u, _, h2⟩ := ok_of_bind h1
        injection h2 with h2
        rw [← h2] at hl
        injection hl with hl
        rw [← hl]
        split <;> decide
      · injection h0 with h0
        rw [← h0] at hl
        cases hl) with ⟨e1, _⟩ | ⟨e1, _⟩
    · exact e1 l hl hm
    · rw [e1] at hl
      injection hl with hl
      rw [← hl] at hm
      simp at hm)
  have := analyse_no_aux h (by rw [p.niv]; omega)
  rw [this] at h2
  exact absurd h2 (by simp)

/-! ### Data -/

mutual
theorem mapVals_eq (f : F → F) : ∀ t : Tree F, t.mapVals f = mapTree f t
  | .val x => rfl
  | .lst l => by rw [Tree.mapVals, mapTree, mapVals_go_eq f l]
theorem mapVals_go_eq (f : F → F) : ∀ l : List (Tree F), Tree.mapVals.go f l = mapTrees f l
  | [] => rfl
  | t :: ts => by rw [Tree.mapVals.go, mapTrees, mapVals_eq f t, mapVals_go_eq f ts]
end

theorem pyTree_go_eq : ∀ l : List (Tree F), pyTree.go l = l.map pyTree
  | [] => rfl
  | t :: ts => by rw [pyTree.go, pyTree_go_eq ts, List.map_cons]

theorem arrayAsList_eq (env : XEnv F) (v : XVar F) :
    arrayAsList env (getMissing env v) v.data = written env v := by
  rw [arrayAsList, mapVals_eq]
  unfold written
  have : fillNaN env (getMissing env v) = fun x => if env.isNaN x then v.miss.getD env.defaultMiss else x := by
    funext x
    unfold fillNaN getMissing
    cases v.miss <;> rfl
  rw [this]

/-- A nested list of one dimension is a list of numbers. -/
theorem pyTree_one {n : Nat} {t : Tree F} (h : Shaped [n] t) :
    pyTree t = pyNums (leaves t) ∧ (leaves t).length = n := by
  refine ⟨?_, by rw [leaves_shaped _ _ h]; simp⟩
  cases t with
  | val x => exact h.elim
  | lst l =>
    rw [pyTree, pyTree_go_eq, leaves_lst, pyNums]
    obtain ⟨_, h2⟩ := h
    congr 1
    clear * - h2
    induction l with
    | nil => rfl
    | cons u us ih =>
      have h1 := h2 u (by simp)
      cases u with
      | lst _ => exact h1.elim
      | val x =>
        rw [List.map_cons, List.map_cons, List.flatten_cons, List.map_append,
          ih (fun t ht => h2 t (List.mem_cons_of_mem _ ht))]
        rfl

theorem pyTree_rows {d : Nat} {ds : List Nat} {t : Tree F} (h : Shaped (d :: ds) t) :
    pyTree t = .list ((rows t).map pyTree) ∧ (rows t).length = d ∧ ∀ u ∈ rows t, Shaped ds u := by
  cases t with
  | val x => exact h.elim
  | lst l => exact ⟨by rw [pyTree, pyTree_go_eq]; rfl, h.1, h.2⟩

theorem written_shaped (env : XEnv F) {v : XVar F} (h : DataFits v) : Shaped v.shape (written env v) :=
  shaped_map _ _ _ h

/-- What `varItem` gives. -/
theorem varItem_ok {env : XEnv F} {v : XVar F} {i : VarItem F} (h : varItem env v = .ok i) :
    v.bestName = .ok i.name ∧ i.miss = v.miss.getD env.defaultMiss ∧ i.scal = env.one ∧
      i.data = pyTree (written env v) := by
  obtain ⟨n, h1, h2⟩ := ok_of_bind h
  injection h2 with h2
  subst h2
  refine ⟨h1, ?_, rfl, ?_⟩
  · simp only [getMissing]; cases v.miss <;> rfl
  · simp only [arrayAsList_eq]

end Nappy
