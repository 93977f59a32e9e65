import Verif.Spec.Config
import Verif.ConvertLemmas

/-! Property C53: the configuration. -/

namespace Nappy.Props

open Nappy Spec

/-! ### Lemmas -/

def InStore (store : List Section) (d : Outer) : Prop := ∀ ka ∈ d, ka.2 < store.length

theorem view_append {store more : List Section} {d : Outer} (h : InStore store d) :
    view (store ++ more) d = view store d := by
  unfold view
  refine List.map_congr_left fun ka hk => ?_
  rw [List.getElem?_append_left (h ka hk)]

theorem inStore_append {store more : List Section} {d : Outer} (h : InStore store d) : InStore (store ++ more) d :=
  fun ka hk => by rw [List.length_append]; exact Nat.lt_of_lt_of_le (h ka hk) (Nat.le_add_right _ _)

theorem view_alloc (store : List Section) (l : List (Str × Section)) :
    view (store ++ l.map Prod.snd) (alloc store.length l) = l ∧
      InStore (store ++ l.map Prod.snd) (alloc store.length l) := by
  induction l generalizing store with
  | nil => exact ⟨rfl, fun _ h => by cases h⟩
  | cons p t ih =>
    obtain ⟨k, e⟩ := p
    have := ih (store ++ [e])
    rw [List.append_assoc, List.singleton_append, List.length_append, List.length_singleton] at this
    refine ⟨?_, ?_⟩
    · rw [List.map_cons, alloc]
      unfold view at this ⊢
      rw [List.map_cons, this.1]
      simp
    · rw [List.map_cons, alloc]
      intro ka hk
      rcases List.mem_cons.1 hk with rfl | hk
      · simp
      · exact this.2 ka hk

theorem kvGet_view (store : List Section) (d : Outer) (k : Str) :
    kvGet (view store d) k = (kvGet d k).map (fun a => store[a]?.getD []) := by
  unfold kvGet
  have : kvGet? (view store d) k = (kvGet? d k).map (fun a => store[a]?.getD []) := by
    induction d with
    | nil => rfl
    | cons p t ih =>
      obtain ⟨k', a⟩ := p
      unfold view at ih ⊢
      rw [List.map_cons, kvGet?, kvGet?]
      split
      · rfl
      · exact ih
  rw [this]
  cases kvGet? d k <;> rfl

/-- What holds all the time. -/
structure CfgInv (fs : CfgFiles) (e1 e2 : Option Str) (s : CfgState) : Prop where
  env1 : s.envNotes = e1
  env2 : s.envAtts = e2
  config : ∀ d, s.config = some d → configOf fs = .ok (view s.store d) ∧ InStore s.store d
  notes : ∀ n, s.notes = some n → notesOf fs e1 = .ok n
  atts : ∀ d, s.atts = some d → localAttsOf fs e2 = .ok (view s.store d) ∧ InStore s.store d

theorem CfgInv.grow {fs : CfgFiles} {e1 e2 : Option Str} {s : CfgState} (h : CfgInv fs e1 e2 s) (more : List Section) :
    CfgInv fs e1 e2 { s with store := s.store ++ more } where
  env1 := h.env1
  env2 := h.env2
  config d hd := by
    obtain ⟨h1, h2⟩ := h.config d hd
    exact ⟨by rw [h1, view_append h2], inStore_append h2⟩
  notes := h.notes
  atts d hd := by
    obtain ⟨h1, h2⟩ := h.atts d hd
    exact ⟨by rw [h1, view_append h2], inStore_append h2⟩

/-- The lookup of the configuration. -/
theorem getConfig_inv {fs : CfgFiles} {e1 e2 : Option Str} {s : CfgState} (h : CfgInv fs e1 e2 s) :
    (∃ x, getConfigDict fs fs.default s = .error x ∧ configOf fs = .error x) ∨
    ∃ s' d, getConfigDict fs fs.default s = .ok (s', d) ∧ CfgInv fs e1 e2 s' ∧
      configOf fs = .ok (view s'.store d) ∧ InStore s'.store d := by
  unfold getConfigDict
  cases hc : s.config with
  | some d =>
    obtain ⟨h1, h2⟩ := h.config d hc
    exact .inr ⟨s, d, rfl, h, h1, h2⟩
  | none =>
    dsimp only
    cases hp : fs.parse fs.default with
    | error x => exact .inl ⟨x, rfl, by unfold configOf; rw [hp]; rfl⟩
    | ok p =>
      obtain ⟨v1, v2⟩ := view_alloc s.store (makeConfigDict p)
      have hcfg : configOf fs = .ok (makeConfigDict p) := by unfold configOf; rw [hp]; rfl
      have hg := h.grow ((makeConfigDict p).map Prod.snd)
      refine .inr ⟨_, _, rfl, ⟨h.env1, h.env2, ?_, h.notes, hg.atts⟩, by rw [hcfg, v1], v2⟩
      intro d hd
      cases hd
      exact ⟨by rw [hcfg, v1], v2⟩

theorem otherFile_eq {fs : CfgFiles} {s : CfgState} {d : Outer} (h : configOf fs = .ok (view s.store d))
    (env : Option Str) (item : Str) : otherFile fs s d env item = fileFor fs env item := by
  unfold otherFile fileFor
  rw [h, ok_bind]
  have hk := kvGet_view s.store d "main".toList
  rcases env with _ | _ | ⟨c, t⟩
  · dsimp only; rw [hk]; cases kvGet d "main".toList <;> rfl
  · dsimp only; rw [hk]; cases kvGet d "main".toList <;> rfl
  · rfl

/-- Every harmless operation keeps the invariant and has the right reply. -/
theorem cfgStep_inv {fs : CfgFiles} {e1 e2 : Option Str} {s : CfgState} (h : CfgInv fs e1 e2 s) {op : CfgOp}
    (hop : Harmless fs op) :
    CfgInv fs e1 e2 (cfgStep fs s op).1 ∧ RightReply fs e1 e2 op (cfgStep fs s op).2 := by
  cases op with
  | setItem => exact hop.elim
  | setEnv => exact hop.elim
  | setSection i k e =>
    have := h.grow [e]
    exact ⟨⟨this.env1, this.env2, this.config, this.notes, this.atts⟩, rfl⟩
  | delSection i k => exact ⟨⟨h.env1, h.env2, h.config, h.notes, h.atts⟩, rfl⟩
  | setNote i k v => exact ⟨⟨h.env1, h.env2, h.config, h.notes, h.atts⟩, rfl⟩
  | config cf =>
    have hcf : cf = fs.default := hop
    subst hcf
    simp only [cfgStep, RightReply]
    change _ ∧ _ = CfgReply.sections (configOf fs)
    rcases getConfig_inv h with ⟨x, h1, h2⟩ | ⟨s', d, h1, h2, h3, _⟩
    · rw [h1, h2]; exact ⟨h, rfl⟩
    · rw [h1, h3]; exact ⟨⟨h2.env1, h2.env2, h2.config, h2.notes, h2.atts⟩, rfl⟩
  | annotations =>
    simp only [cfgStep, RightReply, getAnnotationsConfigDict]
    rcases getConfig_inv h with ⟨x, h1, h2⟩ | ⟨s', d, h1, h2, h3, _⟩
    · rw [h1]
      refine ⟨h, ?_⟩
      unfold notesOf fileFor
      rw [h2]; rfl
    · rw [h1]
      dsimp only
      rw [show otherFile fs s' d s'.envNotes "annotations_file".toList = fileFor fs e1 "annotations_file".toList by
        rw [otherFile_eq h3, h2.env1]]
      cases hf : fileFor fs e1 "annotations_file".toList with
      | error x =>
        refine ⟨h2, ?_⟩
        unfold notesOf
        rw [hf]; rfl
      | ok f =>
        dsimp only
        cases hn : s'.notes with
        | some n =>
          dsimp only
          exact ⟨⟨h2.env1, h2.env2, h2.config, fun m hm => h2.notes m hm, h2.atts⟩, by rw [h2.notes n hn]⟩
        | none =>
          have hno : notesOf fs e1 = (do let p ← fs.parse f; makeAnnotationsConfigDict p) := by
            unfold notesOf; rw [hf]; rfl
          dsimp only
          cases hm : (do let p ← fs.parse f; makeAnnotationsConfigDict p : Res (List (Str × Str))) with
          | error x => exact ⟨h2, by rw [hno, hm]⟩
          | ok n =>
            dsimp only
            refine ⟨⟨h2.env1, h2.env2, h2.config, ?_, h2.atts⟩, by rw [hno, hm]⟩
            intro m hm'
            cases hm'
            rw [hno, hm]
  | localAtts =>
    simp only [cfgStep, RightReply, getLocalAttributesConfigDict]
    rcases getConfig_inv h with ⟨x, h1, h2⟩ | ⟨s', d, h1, h2, h3, _⟩
    · rw [h1]
      refine ⟨h, ?_⟩
      unfold localAttsOf fileFor
      rw [h2]; rfl
    · rw [h1]
      dsimp only
      rw [show otherFile fs s' d s'.envAtts "local_attributes_file".toList
        = fileFor fs e2 "local_attributes_file".toList by rw [otherFile_eq h3, h2.env2]]
      cases hf : fileFor fs e2 "local_attributes_file".toList with
      | error x =>
        refine ⟨h2, ?_⟩
        unfold localAttsOf
        rw [hf]; rfl
      | ok f =>
        dsimp only
        cases hn : s'.atts with
        | some n =>
          dsimp only
          obtain ⟨a1, a2⟩ := h2.atts n hn
          exact ⟨⟨h2.env1, h2.env2, h2.config, h2.notes, fun m hm => h2.atts m hm⟩, by rw [a1]⟩
        | none =>
          have hno : localAttsOf fs e2 = (do let p ← fs.parse f; makeLocalAttributesConfigDict p) := by
            unfold localAttsOf; rw [hf]; rfl
          dsimp only
          cases hm : (do let p ← fs.parse f; makeLocalAttributesConfigDict p : Res (List (Str × Section))) with
          | error x => exact ⟨h2, by rw [hno, hm]⟩
          | ok l =>
            obtain ⟨v1, v2⟩ := view_alloc s'.store l
            have hg := h2.grow (l.map Prod.snd)
            dsimp only
            refine ⟨⟨h2.env1, h2.env2, hg.config, h2.notes, ?_⟩, by rw [hno, hm, v1]⟩
            intro m hm'
            cases hm'
            exact ⟨by rw [hno, hm, v1], v2⟩

/-! ### C53 -/

/-- C53, as far as it holds. In every history of lookups, and of changes that callers make to the dictionaries they got
(but not to the dictionaries of sections inside them), every lookup gives what the files say: the default configuration,
the annotations and the local attributes. -/
theorem C53_partial (fs : CfgFiles) (e1 e2 : Option Str) (ops : List CfgOp) (h : ∀ op ∈ ops, Harmless fs op) :
    ∀ r ∈ cfgRun fs (cfgStart e1 e2) ops, RightReply fs e1 e2 r.1 r.2 := by
  have key : ∀ (ops : List CfgOp) (s : CfgState), CfgInv fs e1 e2 s → (∀ op ∈ ops, Harmless fs op) →
      ∀ r ∈ cfgRun fs s ops, RightReply fs e1 e2 r.1 r.2 := by
    intro ops
    induction ops with
    | nil => intro s _ _ r hr; cases hr
    | cons op ops ih =>
      intro s hs hops r hr
      obtain ⟨h1, h2⟩ := cfgStep_inv hs (hops op (by simp))
      rw [cfgRun] at hr
      rcases List.mem_cons.1 hr with rfl | hr
      · exact h2
      · exact ih _ h1 (fun op hop => hops op (List.mem_cons_of_mem _ hop)) r hr
  exact key ops _ ⟨rfl, rfl, (fun d hd => by cases hd), (fun d hd => by cases hd), (fun d hd => by cases hd)⟩ h

/-- Every operation of the history has its reply. -/
theorem C53_all (fs : CfgFiles) (s : CfgState) (ops : List CfgOp) : (cfgRun fs s ops).map Prod.fst = ops := by
  induction ops generalizing s with
  | nil => rfl
  | cons op ops ih => rw [cfgRun, List.map_cons, ih]

/-- The content of the default configuration: every option of every section is there, with `__space__` replaced, and
split at `&`. Sections and options of a file have different names. -/
theorem C53_content (p : Parsed) (hs : (p.map Prod.fst).Nodup) (sect : Str) (opts : List (Str × Str))
    (hp : (sect, opts) ∈ p) (ho : (opts.map Prod.fst).Nodup) (item value : Str) (hi : (item, value) ∈ opts) :
    ∃ e, kvGet? (makeConfigDict p) sect = some e ∧
      kvGet? e (asWord item) = some (asWord (replaceSub "__space__".toList [' '] value)) := by
  have get_set : ∀ {α β : Type} [DecidableEq α] (d : List (α × β)) (k k' : α) (v : β),
      kvGet? (kvSet d k v) k' = if k = k' then some v else kvGet? d k' := by
    intro α β _ d k k' v
    induction d with
    | nil => rfl
    | cons q t ih =>
      obtain ⟨a, b⟩ := q
      unfold kvSet
      by_cases h : a = k
      · subst h
        rw [if_pos rfl, kvGet?, kvGet?]
        split <;> rfl
      · rw [if_neg h, kvGet?, kvGet?, ih]
        by_cases h2 : a = k'
        · subst h2
          rw [if_pos rfl, if_pos rfl, if_neg (fun e => h e.symm)]
        · rw [if_neg h2, if_neg h2]
  have fold_get : ∀ {ι α β : Type} [DecidableEq α] (key : ι → α) (val : ι → β) (l : List ι) (d : List (α × β)) (x : ι),
      (l.map key).Nodup → x ∈ l → kvGet? (l.foldl (fun d i => kvSet d (key i) (val i)) d) (key x) = some (val x) := by
    intro ι α β _ key val l
    have keep : ∀ (l : List ι) (d : List (α × β)) (k : α), k ∉ l.map key →
        kvGet? (l.foldl (fun d i => kvSet d (key i) (val i)) d) k = kvGet? d k := by
      intro l
      induction l with
      | nil => intro d k _; rfl
      | cons y l ih =>
        intro d k hk
        rw [List.map_cons, List.mem_cons, not_or] at hk
        rw [List.foldl_cons, ih _ _ hk.2, get_set, if_neg (fun e => hk.1 e.symm)]
    induction l with
    | nil => intro d x _ hx; cases hx
    | cons y l ih =>
      intro d x hn hx
      rw [List.map_cons, List.nodup_cons] at hn
      rw [List.foldl_cons]
      rcases List.mem_cons.1 hx with rfl | hx
      · rw [keep _ _ _ hn.1, get_set, if_pos rfl]
      · exact ih _ x hn.2 hx
  have word_inj : ∀ a b : Str, asWord a = asWord b → a = b := by
    intro a b h
    unfold asWord at h
    split at h <;> split at h
    · injection h with h
      rw [← join_splitP '&' a, ← join_splitP '&' b, h]
    · cases h
    · cases h
    · injection h
  refine ⟨_, fold_get (fun so : Str × List (Str × Str) => so.1) _ p [] (sect, opts) hs hp, ?_⟩
  refine fold_get (fun iv : Str × Str => asWord iv.1) (fun iv => configValue iv.2) opts [] (item, value) ?_ hi
  have : opts.map (fun iv => asWord iv.1) = (opts.map Prod.fst).map asWord := by rw [List.map_map]; rfl
  rw [this]
  exact List.Pairwise.map _ (fun a b hab he => hab (word_inj a b he)) ho

/-- Files for the examples. -/
def exFiles : CfgFiles :=
  { parse := fun f =>
      if f = "nappy.ini".toList then
        .ok [("main".toList, [("annotations_file".toList, "annotations.ini".toList),
          ("local_attributes_file".toList, "local.ini".toList),
          ("default_delimiter".toList, "__space____space__".toList)])]
      else if f = "/c/annotations.ini".toList then .ok [("annotations".toList, [("X".toList, "Values".toList)])]
      else if f = "mine.ini".toList then .ok [("annotations".toList, [("X".toList, "Mine".toList)])]
      else if f = "/c/local.ini".toList then
        .ok [("nc_attributes".toList, []), ("na_attributes".toList, [("ORG".toList, "BADC".toList)])]
      else .ok [],
    default := "nappy.ini".toList, inBase := fun f => "/c/".toList ++ f }

/-- A harmless history, and what it gives. -/
example : (∀ op ∈ [CfgOp.config "nappy.ini".toList, .delSection 0 "main".toList, .annotations, .setNote 0 [] [],
      .localAtts], Harmless exFiles op) ∧
    configOf exFiles = .ok [("main".toList, [(.one "annotations_file".toList, .one "annotations.ini".toList),
      (.one "local_attributes_file".toList, .one "local.ini".toList),
      (.one "default_delimiter".toList, .one "  ".toList)])] ∧
    notesOf exFiles none = .ok [("X".toList, "Values".toList)] := by
  refine ⟨?_, by decide +kernel, by decide +kernel⟩
  intro op hop
  simp only [List.mem_cons, List.not_mem_nil, or_false] at hop
  rcases hop with rfl | rfl | rfl | rfl | rfl <;> trivial

/-- What the local attributes look like to later callers. -/
def lastSections (l : List (CfgOp × CfgReply)) : Option (List (Str × Section)) :=
  match l.getLast? with
  | some (_, .sections (.ok v)) => some v
  | _ => none

def lastNotes (l : List (CfgOp × CfgReply)) : Option (List (Str × Str)) :=
  match l.getLast? with
  | some (_, .notes (.ok v)) => some v
  | _ => none

/-- C53 is false: a caller that changes an item in a section changes it for all later callers. -/
theorem C53_fails :
    lastSections (cfgRun exFiles (cfgStart none none)
      [.localAtts, .setItem 0 "na_attributes".toList (.one "ORG".toList) (.one "Me".toList), .localAtts])
      = some [("nc_attributes".toList, []), ("na_attributes".toList, [(.one "ORG".toList, .one "Me".toList)])] ∧
    (localAttsOf exFiles none).toOption
      = some [("nc_attributes".toList, []), ("na_attributes".toList, [(.one "ORG".toList, .one "BADC".toList)])] := by
  decide +kernel

/-- C53 is false: the file asked for is looked at only the first time. Whatever files are named, the second lookup gives
what the first gave. -/
theorem C53_file_fails :
    (∀ (fs : CfgFiles) (e1 e2 : Option Str) (f g : Str) (p : Parsed), fs.parse f = .ok p →
      lastSections (cfgRun fs (cfgStart e1 e2) [.config f, .config g]) = some (makeConfigDict p)) ∧
    lastSections (cfgRun exFiles (cfgStart none none) [.config "mine.ini".toList, .config "nappy.ini".toList])
      = some [("annotations".toList, [(.one "X".toList, .one "Mine".toList)])] := by
  refine ⟨?_, by decide +kernel⟩
  intro fs e1 e2 f g p hp
  have h1 : cfgStep fs (cfgStart e1 e2) (.config f) = ({ cfgStart e1 e2 with
      store := [] ++ (makeConfigDict p).map Prod.snd, config := some (alloc 0 (makeConfigDict p)),
      held := [alloc 0 (makeConfigDict p)] },
      .sections (.ok (view ([] ++ (makeConfigDict p).map Prod.snd) (alloc 0 (makeConfigDict p))))) := by
    have : getConfigDict fs f (cfgStart e1 e2) = .ok ({ cfgStart e1 e2 with
        store := [] ++ (makeConfigDict p).map Prod.snd, config := some (alloc 0 (makeConfigDict p)) },
        alloc 0 (makeConfigDict p)) := by
      show (fs.parse f >>= _) = _
      rw [hp]; rfl
    simp only [cfgStep]
    rw [this]; rfl
  unfold cfgRun
  rw [h1]
  exact congrArg some (view_alloc [] (makeConfigDict p)).1

/-- C53 is false: another file named in the environment later on is not looked at. -/
theorem C53_env_fails :
    lastNotes (cfgRun exFiles (cfgStart none none) [.annotations, .setEnv (some "mine.ini".toList) none, .annotations])
      = some [("X".toList, "Values".toList)] ∧
    (notesOf exFiles (some "mine.ini".toList)).toOption = some [("X".toList, "Mine".toList)] := by
  decide +kernel

end Nappy.Props
