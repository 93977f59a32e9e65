import Verif.IniLemmas
import Verif.Props.Config
import Verif.Scripts
import Verif.CollectDict

/-! Property C98: configuration files mean what they say. -/

namespace Nappy.Props

open Nappy Spec

/-- The parser finds the sections, options and values that the file has. -/
theorem C98_parse (cfg : Parsed) (text : Str) (h : IniText cfg text) : parseIni text = .ok cfg := parseIni_text h

theorem iniText_nodup {cfg : Parsed} {text : Str} (h : IniText cfg text) :
    (cfg.map Prod.fst).Nodup ∧ ∀ so ∈ cfg, (so.2.map Prod.fst).Nodup := by
  cases h with
  | mk fillers blocks hf hb hd hdef hnb =>
    refine ⟨hd, ?_⟩
    clear hd hdef hnb
    induction hb with
    | nil => intro so h; cases h
    | @cons x ls _ _ h1 _ ih =>
      intro so hso
      rcases List.mem_cons.1 hso with rfl | hso
      · cases h1 with
        | mk _ _ _ _ _ _ _ _ _ hd => exact hd
      · exact ih so hso

/-- `makeConfigDict` gives the dictionary that the file stands for. -/
theorem C98_dict (cfg : Parsed) (text : Str) (h : IniText cfg text) :
    ∃ p, parseIni text = .ok p ∧ DictFor cfg (makeConfigDict p) :=
  ⟨cfg, parseIni_text h, (dictFor_iff _ _).2 (makeConfigDict_eq (iniText_nodup h).1 (iniText_nodup h).2)⟩

/-- No file stands for two dictionaries. -/
theorem C98_unique (cfg : Parsed) (d d' : List (Str × Section)) (h : DictFor cfg d) (h' : DictFor cfg d') : d = d' := by
  rw [(dictFor_iff _ _).1 h, (dictFor_iff _ _).1 h']

theorem afterOps_inv {fs : CfgFiles} {e1 e2 : Option Str} (ops : List CfgOp) {s : CfgState} (hs : CfgInv fs e1 e2 s)
    (h : ∀ op ∈ ops, Harmless fs op) : CfgInv fs e1 e2 (afterOps fs s ops) := by
  induction ops generalizing s with
  | nil => exact hs
  | cons op ops ih =>
    exact ih (cfgStep_inv hs (h op (by simp))).1 (fun op' h' => h op' (by simp [h']))

theorem ofTexts_parse {read : Str → Option Str} {default : Str} {inBase : Str → Str} {cfg : Parsed} {f text : Str}
    (ht : read f = some text) (h : IniText cfg text) : (CfgFiles.ofTexts read default inBase).parse f = .ok cfg := by
  show (match read f with | none => Except.ok [] | some t => parseIni t) = _
  rw [ht]; exact parseIni_text h

theorem ofTexts_config {read : Str → Option Str} {default : Str} {inBase : Str → Str} {cfg : Parsed} {text : Str}
    (ht : read default = some text) (h : IniText cfg text) :
    configOf (CfgFiles.ofTexts read default inBase) = .ok (dictFor cfg) := by
  unfold configOf
  rw [show (CfgFiles.ofTexts read default inBase).default = default from rfl, ofTexts_parse ht h, ok_bind,
    makeConfigDict_eq (iniText_nodup h).1 (iniText_nodup h).2]

theorem kvGet_dictFor {cfg : Parsed} {text : Str} (h : IniText cfg text) {sect : Str} {items : List (Str × Str)}
    (hm : (sect, items) ∈ cfg) :
    kvGet (dictFor cfg) sect = .ok (items.map (fun kv => (asWord kv.1, configValue kv.2))) := by
  have : kvGet? (dictFor cfg) sect = some (items.map (fun kv => (asWord kv.1, configValue kv.2))) := by
    refine kvGet?_of_mem ?_ (List.mem_map.2 ⟨_, hm, rfl⟩)
    have := (iniText_nodup h).1
    simpa [dictFor, List.map_map, Function.comp_def] using this
  unfold kvGet; rw [this]

theorem words_nodup {items : List (Str × Str)} (h : (items.map Prod.fst).Nodup) :
    ((items.map (fun kv => (asWord kv.1, configValue kv.2))).map Prod.fst).Nodup := by
  have := h.map (f := asWord) (fun a b hab => asWord_inj hab)
  rw [List.map_map] at this ⊢
  simpa [Function.comp_def] using this

theorem kvGet_item {items : List (Str × Str)} (h : (items.map Prod.fst).Nodup) {k v t : Str} {w : Nappy.Word}
    (hk : '&' ∉ k) (hm : (k, v) ∈ items) (hs : SpacedBy v t) (hw : Means t w) :
    kvGet (items.map (fun kv => (asWord kv.1, configValue kv.2))) (.one k) = .ok w := by
  have h1 : asWord k = .one k := ((means_iff k _).1 (Means.one k hk)).symm
  have h2 : w = configValue v := (configValue_iff v w).1 ⟨t, hs, hw⟩
  have : kvGet? (items.map (fun kv => (asWord kv.1, configValue kv.2))) (.one k) = some w := by
    rw [← h1, h2]
    exact kvGet?_of_mem (words_nodup h) (List.mem_map.2 ⟨_, hm, rfl⟩)
  unfold kvGet; rw [this]

theorem start_inv (fs : CfgFiles) (e1 e2 : Option Str) : CfgInv fs e1 e2 (cfgStart e1 e2) :=
  ⟨rfl, rfl, (fun d hd => by cases hd), (fun d hd => by cases hd), (fun d hd => by cases hd)⟩

/-- Whatever lookups came before, `getConfigDict()` gives the dictionary that the default file stands for. -/
theorem C98_config (read : Str → Option Str) (default : Str) (inBase : Str → Str) (cfg : Parsed) (text : Str)
    (ht : read default = some text) (h : IniText cfg text) (e1 e2 : Option Str) (ops : List CfgOp)
    (hops : ∀ op ∈ ops, Harmless (.ofTexts read default inBase) op) :
    ∀ r ∈ cfgRun (.ofTexts read default inBase) (cfgStart e1 e2) ops, r.1 = .config default →
      ∃ d, r.2 = .sections (.ok d) ∧ DictFor cfg d := by
  intro r hr he
  have := C53_partial _ e1 e2 ops hops r hr
  rw [he] at this
  have this : r.2 = .sections (do let p ← (CfgFiles.ofTexts read default inBase).parse default; .ok (makeConfigDict p)) :=
    this
  rw [ofTexts_parse ht h] at this
  exact ⟨_, this, (dictFor_iff _ _).2 (makeConfigDict_eq (iniText_nodup h).1 (iniText_nodup h).2)⟩

theorem getDefault_eq {fs : CfgFiles} {e1 e2 : Option Str} {s : CfgState} (hi : CfgInv fs e1 e2 s)
    {d : List (Str × Section)} (hc : configOf fs = .ok d) (item : Str) :
    (getDefault fs s item).map Prod.snd = (do let m ← kvGet d "main".toList; kvGet m (.one item)) := by
  rcases getConfig_inv hi with ⟨x, _, hx⟩ | ⟨s', o, h1, _, h3, _⟩
  · rw [hc] at hx; cases hx
  · rw [hc] at h3
    cases h3
    unfold getDefault
    rw [h1, ok_bind, kvGet_view]
    dsimp only
    cases kvGet o "main".toList with
    | error e => rfl
    | ok a =>
      rw [ok_bind]
      show Except.map Prod.snd ((kvGet (s'.store[a]?.getD []) (.one item)).bind _) = kvGet (s'.store[a]?.getD []) (.one item)
      cases kvGet (s'.store[a]?.getD []) (.one item) <;> rfl

/-- Whatever lookups came before, `getDefault(item)` gives what section `main` of the default file says. -/
theorem C98_default (read : Str → Option Str) (default : Str) (inBase : Str → Str) (cfg : Parsed) (text : Str)
    (ht : read default = some text) (h : IniText cfg text) (e1 e2 : Option Str) (ops : List CfgOp)
    (hops : ∀ op ∈ ops, Harmless (.ofTexts read default inBase) op)
    (items : List (Str × Str)) (hm : ("main".toList, items) ∈ cfg) (item : Str) (hk : '&' ∉ item) :
    (∀ v t w, (item, v) ∈ items → SpacedBy v t → Means t w →
      (getDefault (.ofTexts read default inBase) (afterOps (.ofTexts read default inBase) (cfgStart e1 e2) ops) item).map
        Prod.snd = .ok w) ∧
    (item ∉ items.map Prod.fst →
      (getDefault (.ofTexts read default inBase) (afterOps (.ofTexts read default inBase) (cfgStart e1 e2) ops) item).map
        Prod.snd = .error .key) := by
  have he := getDefault_eq (afterOps_inv ops (start_inv _ e1 e2) hops) (ofTexts_config (inBase := inBase) ht h) item
  rw [kvGet_dictFor h hm, ok_bind] at he
  rw [he]
  refine ⟨fun v t w hv hs hw => kvGet_item ((iniText_nodup h).2 _ hm) hk hv hs hw, fun hn => ?_⟩
  unfold kvGet
  rw [kvGet?_none]
  intro hmem
  rw [List.map_map] at hmem
  obtain ⟨kv, h1, h2⟩ := List.mem_map.1 hmem
  refine hn (List.mem_map.2 ⟨kv, h1, ?_⟩)
  refine asWord_inj (s := kv.1) (t := item) ?_
  rw [(means_iff item _).1 (Means.one item hk)] at h2
  exact h2

/-- `getDebug()` gives what section `main` of the default file says. -/
theorem C98_debug (read : Str → Option Str) (default : Str) (inBase : Str → Str) (cfg : Parsed) (text : Str)
    (ht : read default = some text) (h : IniText cfg text) (e1 e2 : Option Str) (ops : List CfgOp)
    (hops : ∀ op ∈ ops, Harmless (.ofTexts read default inBase) op)
    (items : List (Str × Str)) (hm : ("main".toList, items) ∈ cfg) (b : Bool)
    (hd : ("DEBUG".toList, if b then "True".toList else "False".toList) ∈ items) :
    (getDebug (.ofTexts read default inBase) (afterOps (.ofTexts read default inBase) (cfgStart e1 e2) ops)).map
      Prod.snd = .ok b := by
  have h1 := (C98_default read default inBase cfg text ht h e1 e2 ops hops items hm "DEBUG".toList (by decide)).1 _ _
    (.one (if b then "True".toList else "False".toList)) hd (SpacedBy.done _ (by
      cases b <;> (rintro ⟨p, q, e⟩; have := congrArg List.length e; simp at this <;> omega)))
    (Means.one _ (by cases b <;> decide))
  unfold getDebug
  cases hg : getDefault (.ofTexts read default inBase)
      (afterOps (.ofTexts read default inBase) (cfgStart e1 e2) ops) "DEBUG".toList with
  | error e => rw [hg] at h1; cases h1
  | ok p =>
    obtain ⟨s, w⟩ := p
    rw [hg] at h1
    injection h1 with h1
    have h1 : w = .one (if b then "True".toList else "False".toList) := h1
    rw [ok_bind]
    dsimp only
    rw [h1]
    cases b <;> rfl

theorem fileFor_named {read : Str → Option Str} {default : Str} {inBase : Str → Str} {cfg : Parsed} {text : Str}
    (ht : read default = some text) (h : IniText cfg text) {item : Str} (hk : '&' ∉ item) {env : Option Str} {f : Str}
    (hf : NamedFile cfg inBase item env f) : fileFor (.ofTexts read default inBase) env item = .ok f := by
  unfold fileFor
  rw [ofTexts_config ht h, ok_bind]
  cases hf with
  | env _ hne =>
    cases f with
    | nil => exact absurd rfl hne
    | cons c t => rfl
  | main _ items v t he hm hi hs ha =>
    have hg := kvGet_item ((iniText_nodup h).2 _ hm) hk hi hs (Means.one t ha)
    rcases he with rfl | rfl <;> dsimp only <;> rw [kvGet_dictFor h hm, ok_bind, hg] <;> rfl

/-- Whatever lookups came before, the annotations are those of the file that is named: the texts of section `annotations`
as they stand. -/
theorem C98_annotations (read : Str → Option Str) (default : Str) (inBase : Str → Str) (cfg : Parsed) (text : Str)
    (ht : read default = some text) (h : IniText cfg text) (e1 e2 : Option Str) (ops : List CfgOp)
    (hops : ∀ op ∈ ops, Harmless (.ofTexts read default inBase) op)
    (f : Str) (hf : NamedFile cfg inBase "annotations_file".toList e1 f) (cfg' : Parsed) (text' : Str)
    (ht' : read f = some text') (h' : IniText cfg' text') (items : List (Str × Str))
    (hm : ("annotations".toList, items) ∈ cfg') :
    ∀ r ∈ cfgRun (.ofTexts read default inBase) (cfgStart e1 e2) ops, r.1 = .annotations → r.2 = .notes (.ok items) := by
  intro r hr he
  have := C53_partial _ e1 e2 ops hops r hr
  rw [he] at this
  have this : r.2 = .notes (notesOf (.ofTexts read default inBase) e1) := this
  rw [this]
  unfold notesOf
  rw [fileFor_named ht h (by decide) hf, ok_bind, ofTexts_parse ht' h', ok_bind]
  unfold makeAnnotationsConfigDict
  rw [kvGet?_of_mem (iniText_nodup h').1 hm]
  dsimp only
  rw [foldl_kvSet (fun iv : Str × Str => iv.1) (fun iv => iv.2) items [] (by simpa using (iniText_nodup h').2 _ hm)]
  simp

/-- Whatever lookups came before, the local attributes are those of the file that is named. -/
theorem C98_local (read : Str → Option Str) (default : Str) (inBase : Str → Str) (cfg : Parsed) (text : Str)
    (ht : read default = some text) (h : IniText cfg text) (e1 e2 : Option Str) (ops : List CfgOp)
    (hops : ∀ op ∈ ops, Harmless (.ofTexts read default inBase) op)
    (f : Str) (hf : NamedFile cfg inBase "local_attributes_file".toList e2 f) (cfg' : Parsed) (text' : Str)
    (ht' : read f = some text') (h' : IniText cfg' text') (nc na : List (Str × Str))
    (hm1 : ("nc_attributes".toList, nc) ∈ cfg') (hm2 : ("na_attributes".toList, na) ∈ cfg') :
    ∀ r ∈ cfgRun (.ofTexts read default inBase) (cfgStart e1 e2) ops, r.1 = .localAtts →
      r.2 = .sections (.ok [("nc_attributes".toList, nc.map (fun kv => (.one kv.1, .one kv.2))),
        ("na_attributes".toList, na.map (fun kv => (.one kv.1, .one kv.2)))]) := by
  intro r hr he
  have := C53_partial _ e1 e2 ops hops r hr
  rw [he] at this
  have this : r.2 = .sections (localAttsOf (.ofTexts read default inBase) e2) := this
  rw [this]
  have hl : ∀ sect items, (sect, items) ∈ cfg' →
      localSection cfg' sect = .ok (items.map (fun kv => (.one kv.1, .one kv.2))) := by
    intro sect items hm
    unfold localSection
    rw [kvGet?_of_mem (iniText_nodup h').1 hm]
    dsimp only
    rw [foldl_kvSet (fun iv : Str × Str => Nappy.Word.one iv.1) (fun iv => Nappy.Word.one iv.2) items []]
    · rfl
    · have := ((iniText_nodup h').2 _ hm).map (f := Nappy.Word.one) (fun a b hab => by injection hab)
      rw [List.map_map] at this
      simpa [Function.comp_def] using this
  unfold localAttsOf
  rw [fileFor_named ht h (by decide) hf, ok_bind, ofTexts_parse ht' h', ok_bind]
  unfold makeLocalAttributesConfigDict
  rw [hl _ _ hm1, ok_bind, hl _ _ hm2, ok_bind]

/-! ### C99 -/

/-- C99, as far as it holds: column headings are added unless the value in the file is empty. What is missing: that
`False` switches them off (`C99_fails`). -/
theorem C99_partial (read : Str → Option Str) (default : Str) (inBase : Str → Str) (cfg : Parsed) (text : Str)
    (ht : read default = some text) (h : IniText cfg text) (e1 e2 : Option Str) (ops : List CfgOp)
    (hops : ∀ op ∈ ops, Harmless (.ofTexts read default inBase) op)
    (items : List (Str × Str)) (hm : ("main".toList, items) ∈ cfg) (v : Str)
    (hd : ("add_column_headers".toList, v) ∈ items) :
    (addColumnHeaders (.ofTexts read default inBase)
      (afterOps (.ofTexts read default inBase) (cfgStart e1 e2) ops)).map Prod.snd = .ok (decide (v ≠ [])) := by
  obtain ⟨t, hs⟩ := spacedBy_exists v
  have h1 := (C98_default read default inBase cfg text ht h e1 e2 ops hops items hm "add_column_headers".toList
    (by decide)).1 v t (asWord t) hd hs ((means_iff _ _).2 rfl)
  have htv : t = [] ↔ v = [] := by
    cases hs with
    | done _ _ => rfl
    | next a s t _ _ => constructor <;> intro e <;> simp at e
  have hw : (asWord t).truthy = decide (v ≠ []) := by
    unfold asWord
    split
    · rename_i hc
      have h1 : v ≠ [] := fun e => by rw [htv.2 e] at hc; cases hc
      have h2 := splitP_ne_nil (· == '&') t
      simp only [Word.truthy, h1, ne_eq, not_false_iff, decide_true, Bool.not_eq_true', List.isEmpty_eq_false_iff]
      exact h2
    · cases ht : t with
      | nil => simp [Word.truthy, htv.1 ht]
      | cons c r =>
        have : v ≠ [] := fun e => by rw [htv.2 e] at ht; cases ht
        simp [Word.truthy, this]
  unfold addColumnHeaders
  cases hg : getDefault (.ofTexts read default inBase)
      (afterOps (.ofTexts read default inBase) (cfgStart e1 e2) ops) "add_column_headers".toList with
  | error e => rw [hg] at h1; cases h1
  | ok p =>
    obtain ⟨s, w⟩ := p
    rw [hg] at h1
    injection h1 with h1
    have h1 : w = asWord t := h1
    rw [ok_bind, h1, ← hw]
    rfl

/-! ### Cases -/

/-- A file with a comment, two delimiters, a value over several lines with a comment between them, two blanks written out, and two names in one. -/
def exIni : Parsed :=
  [("main".toList, [("DEBUG".toList, "False".toList), ("pad".toList, "a__space____space__b".toList),
    ("text".toList, "one\n\ntwo".toList)]),
   ("map".toList, [("SCOM&NCOM".toList, "comment".toList)])]

def exIniText : Str := asLines ["; defaults".toList, "[main]".toList, "DEBUG = False ".toList, "pad: a__space____space__b".toList,
  "text = one".toList, "".toList, "  ; more".toList, "  two".toList, "".toList, "# map".toList, "[map] ".toList, "SCOM&NCOM=comment".toList]

theorem exIni_text : IniText exIni exIniText := by
  have h1 : OptionLines ("DEBUG".toList, "False".toList) ["DEBUG = False ".toList] :=
    OptionLines.mk "DEBUG".toList [' '] [' '] "False".toList [' '] '=' [] [] []
      ⟨by decide, ⟨_, _, rfl, by decide⟩, by decide⟩ (by decide) (by decide) (by decide) (by decide) (by decide)
      ValueLines.nil (by decide) (fun _ h => nomatch h)
  have h2 : OptionLines ("pad".toList, "a__space____space__b".toList) ["pad: a__space____space__b".toList] :=
    OptionLines.mk "pad".toList [] [' '] "a__space____space__b".toList [] ':' [] [] []
      ⟨by decide, ⟨_, _, rfl, by decide⟩, by decide⟩ (by decide) (by decide) (by decide) (by decide) (by decide)
      ValueLines.nil (by decide) (fun _ h => nomatch h)
  have h3 : OptionLines ("text".toList, "one\n\ntwo".toList) ["text = one".toList, "".toList, "  ; more".toList, "  two".toList, "".toList, "# map".toList] :=
    OptionLines.mk "text".toList [' '] [' '] "one".toList [] '=' ["".toList, "two".toList]
      ["".toList, "  ; more".toList, "  two".toList] ["".toList, "# map".toList]
      ⟨by decide, ⟨_, _, rfl, by decide⟩, by decide⟩ (by decide) (by decide) (by decide) (by decide) (by decide)
      (ValueLines.blank [] _ _ (by decide) (ValueLines.comment "  ".toList ';' " more".toList _ _ (by decide) (by decide)
        (ValueLines.piece "two".toList "  ".toList [] _ _ ⟨by decide, ⟨_, _, rfl, by decide⟩⟩ (by decide) (by decide)
          (by decide) ValueLines.nil))) (by decide)
      (by
        intro l hl
        rcases List.mem_cons.1 hl with rfl | hl
        · exact Filler.blank _ (by decide)
        · rw [List.mem_singleton] at hl
          subst hl
          exact Filler.comment [] '#' " map".toList (by decide) (by decide))
  have h4 : OptionLines ("SCOM&NCOM".toList, "comment".toList) ["SCOM&NCOM=comment".toList] :=
    OptionLines.mk "SCOM&NCOM".toList [] [] "comment".toList [] '=' [] [] []
      ⟨by decide, ⟨_, _, rfl, by decide⟩, by decide⟩ (by decide) (by decide) (by decide) (by decide) (by decide)
      ValueLines.nil (by decide) (fun _ h => nomatch h)
  have s1 := SectionLines.mk "main".toList [] _ [] _ (by decide) (by decide) (fun _ h => nomatch h)
    (List.Forall₂.cons h1 (List.Forall₂.cons h2 (List.Forall₂.cons h3 List.Forall₂.nil))) (by decide)
  have s2 := SectionLines.mk "map".toList [' '] _ [] _ (by decide) (by decide) (fun _ h => nomatch h)
    (List.Forall₂.cons h4 List.Forall₂.nil) (by decide)
  exact IniText.mk exIni ["; defaults".toList] _
    (by
      intro l hl
      rw [List.mem_singleton] at hl
      subst hl
      exact Filler.comment [] ';' " defaults".toList (by decide) (by decide))
    (List.Forall₂.cons s1 (List.Forall₂.cons s2 List.Forall₂.nil)) (by decide) (by decide) (by decide)

def exRead (f : Str) : Option Str := if f = "nappy.ini".toList then some exIniText else none

def exTexts : CfgFiles := .ofTexts exRead "nappy.ini".toList id

/-- The case meets the hypotheses of `C98_default`. -/
example : (getDefault exTexts (afterOps exTexts (cfgStart none none) [.config "nappy.ini".toList, .delSection 0 "main".toList])
    "pad".toList).map Prod.snd = .ok (.one "a  b".toList) := by
  refine (C98_default exRead "nappy.ini".toList id exIni exIniText rfl exIni_text none none _ ?_ _
    (List.mem_cons_self ..) "pad".toList (by decide)).1 "a__space____space__b".toList "a  b".toList _
    (List.mem_cons_of_mem _ (List.mem_cons_self ..)) ?_ ?_
  · intro op hop
    simp only [List.mem_cons, List.not_mem_nil, or_false] at hop
    rcases hop with rfl | rfl
    · rfl
    · trivial
  · exact (spacedBy_iff _ _).2 (by decide +kernel)
  · exact Means.one _ (by decide)

/-- A configuration that says that there are to be no column headings. -/
def exOff : Parsed := [("main".toList, [("add_column_headers".toList, "False".toList)])]

def exOffText : Str := asLines ["[main]".toList, "add_column_headers = False".toList]

theorem exOff_text : IniText exOff exOffText := by
  have h1 : OptionLines ("add_column_headers".toList, "False".toList) ["add_column_headers = False".toList] :=
    OptionLines.mk "add_column_headers".toList [' '] [' '] "False".toList [] '=' [] [] []
      ⟨by decide, ⟨_, _, rfl, by decide⟩, by decide⟩ (by decide) (by decide) (by decide) (by decide) (by decide)
      ValueLines.nil (by decide) (fun _ h => nomatch h)
  have s1 := SectionLines.mk "main".toList [] _ [] _ (by decide) (by decide) (fun _ h => nomatch h)
    (List.Forall₂.cons h1 List.Forall₂.nil) (by decide)
  exact IniText.mk exOff [] _ (fun _ h => nomatch h) (List.Forall₂.cons s1 List.Forall₂.nil) (by decide) (by decide)
    (by decide)

/-- Column headings are added although the configuration says that they are not to be. -/
theorem C99_fails : ∃ (read : Str → Option Str) (default : Str) (inBase : Str → Str) (cfg : Parsed) (text : Str)
    (items : List (Str × Str)), read default = some text ∧ IniText cfg text ∧ ("main".toList, items) ∈ cfg ∧
    ("add_column_headers".toList, "False".toList) ∈ items ∧
    (addColumnHeaders (.ofTexts read default inBase) (cfgStart none none)).map Prod.snd = .ok true := by
  refine ⟨fun _ => some exOffText, [], id, exOff, exOffText, _, rfl, exOff_text, List.mem_cons_self .., List.mem_cons_self ..,
    ?_⟩
  exact C99_partial (fun _ => some exOffText) [] id exOff exOffText rfl exOff_text none none [] (fun _ h => nomatch h) _
    (List.mem_cons_self ..) _ (List.mem_cons_self ..)

/-- The lines of `nappy/config/nappy.ini` as it is shipped. -/
def shippedIni : List Str :=
  ["[main]".toList,
   "; deprecated: version = 0.3.0".toList,
   "DEBUG = False".toList,
   "default_delimiter = __space____space____space____space__".toList,
   "default_float_format = %.10g".toList,
   "comment_override_rule = insert ".toList,
   "add_column_headers = True".toList,
   "annotations_file = annotations.ini".toList,
   "local_attributes_file = local_attributes.ini".toList,
   "".toList,
   "[header_partitions]".toList,
   "sc_start = ==== Special Comments follow ====".toList,
   "sc_end = ==== Special Comments end ====".toList,
   "nc_start = ==== Normal Comments follow ====".toList,
   "nc_end = ==== Normal Comments end ====".toList,
   "data_next = === Data Section begins on the next line ===".toList,
   "sing_start = == Singleton Variables defined in the source file follow ==".toList,
   "sing_end = == Singleton Variables defined in the source file end ==".toList,
   "ncatts_start = == Variable attributes from source (NetCDF) file follow ==".toList,
   "ncatts_end = == Variable attributes from source (NetCDF) file end ==".toList,
   "addl_globals = === Additional Global Attributes defined in the source file ===".toList,
   "addl_vatts = === Additional Variable Attributes defined in the source file ===".toList,
   "".toList,
   "[na_to_nc_map]".toList,
   "NLHEAD = no_of_nasa_ames_header_lines".toList,
   "FFI = file_format_index".toList,
   "ONAME&ORG = institution".toList,
   "SNAME = source".toList,
   "MNAME = title".toList,
   "IVOL = file_number_in_set".toList,
   "NVOL = total_files_in_set".toList,
   "RDATE = history".toList,
   "DATE = first_valid_date_of_data".toList,
   "SCOM&NCOM = comment".toList,
   "".toList,
   "[nc_to_na_map]".toList,
   "Conventions = None".toList,
   "source = SNAME".toList,
   "title = MNAME".toList,
   "institution = ONAME&ORG".toList,
   "references = None".toList,
   "comment = SCOM&NCOM".toList,
   "history = RDATE".toList,
   "file_format_index = FFI".toList,
   "no_of_nasa_ames_header_lines = NLHEAD".toList,
   "total_files_in_set = NVOL".toList,
   "file_number_in_set = IVOL".toList,
   "first_valid_date_of_data = DATE".toList,
   "".toList,
   "".toList]

/-- Its sections and options. -/
def shippedCfg : Parsed :=
  [("main".toList, [("DEBUG".toList, "False".toList),
     ("default_delimiter".toList, "__space____space____space____space__".toList),
     ("default_float_format".toList, "%.10g".toList),
     ("comment_override_rule".toList, "insert".toList),
     ("add_column_headers".toList, "True".toList),
     ("annotations_file".toList, "annotations.ini".toList),
     ("local_attributes_file".toList, "local_attributes.ini".toList)]),
   ("header_partitions".toList, [("sc_start".toList, "==== Special Comments follow ====".toList),
     ("sc_end".toList, "==== Special Comments end ====".toList),
     ("nc_start".toList, "==== Normal Comments follow ====".toList),
     ("nc_end".toList, "==== Normal Comments end ====".toList),
     ("data_next".toList, "=== Data Section begins on the next line ===".toList),
     ("sing_start".toList, "== Singleton Variables defined in the source file follow ==".toList),
     ("sing_end".toList, "== Singleton Variables defined in the source file end ==".toList),
     ("ncatts_start".toList, "== Variable attributes from source (NetCDF) file follow ==".toList),
     ("ncatts_end".toList, "== Variable attributes from source (NetCDF) file end ==".toList),
     ("addl_globals".toList, "=== Additional Global Attributes defined in the source file ===".toList),
     ("addl_vatts".toList, "=== Additional Variable Attributes defined in the source file ===".toList)]),
   ("na_to_nc_map".toList, [("NLHEAD".toList, "no_of_nasa_ames_header_lines".toList),
     ("FFI".toList, "file_format_index".toList),
     ("ONAME&ORG".toList, "institution".toList),
     ("SNAME".toList, "source".toList),
     ("MNAME".toList, "title".toList),
     ("IVOL".toList, "file_number_in_set".toList),
     ("NVOL".toList, "total_files_in_set".toList),
     ("RDATE".toList, "history".toList),
     ("DATE".toList, "first_valid_date_of_data".toList),
     ("SCOM&NCOM".toList, "comment".toList)]),
   ("nc_to_na_map".toList, [("Conventions".toList, "None".toList),
     ("source".toList, "SNAME".toList),
     ("title".toList, "MNAME".toList),
     ("institution".toList, "ONAME&ORG".toList),
     ("references".toList, "None".toList),
     ("comment".toList, "SCOM&NCOM".toList),
     ("history".toList, "RDATE".toList),
     ("file_format_index".toList, "FFI".toList),
     ("no_of_nasa_ames_header_lines".toList, "NLHEAD".toList),
     ("total_files_in_set".toList, "NVOL".toList),
     ("file_number_in_set".toList, "IVOL".toList),
     ("first_valid_date_of_data".toList, "DATE".toList)])]

/-- What the parser makes of the file. -/
theorem C98_shipped : (parseIni (asLines shippedIni)).toOption = some shippedCfg := by decide +kernel

/-- A value of a dictionary of sections. -/
def valueOf (d : List (Str × Section)) (sect item : String) : Option Nappy.Word :=
  (kvGet? d sect.toList).bind (fun e => kvGet? e (.one item.toList))

/-- The values that other parts of the model take from the file are those that it has. There is no
`default_missing_value`, which `ffi_translator.py` line 20 asks for. -/
theorem C98_shipped_values :
    valueOf (makeConfigDict shippedCfg) "main" "default_delimiter" = some (.one defaultDelimiter) ∧
    valueOf (makeConfigDict shippedCfg) "main" "default_float_format" = some (.one defaultFloatFormat) ∧
    kvGet? (makeConfigDict shippedCfg) "header_partitions".toList =
      some [(.one "sc_start".toList, .one iniHeadings.sc_start), (.one "sc_end".toList, .one iniHeadings.sc_end),
        (.one "nc_start".toList, .one iniHeadings.nc_start), (.one "nc_end".toList, .one iniHeadings.nc_end),
        (.one "data_next".toList, .one iniHeadings.data_next), (.one "sing_start".toList, .one iniHeadings.sing_start),
        (.one "sing_end".toList, .one iniHeadings.sing_end), (.one "ncatts_start".toList, .one iniHeadings.ncatts_start),
        (.one "ncatts_end".toList, .one iniHeadings.ncatts_end),
        (.one "addl_globals".toList, .one iniHeadings.addl_globals),
        (.one "addl_vatts".toList, .one iniHeadings.addl_vatts)] ∧
    (∀ kv ∈ plainMap, valueOf (makeConfigDict shippedCfg) "nc_to_na_map" kv.1 = some (.one kv.2.toList)) ∧
    (kvGet? (makeConfigDict shippedCfg) "nc_to_na_map".toList).map List.length
      = some (plainMap.length + specialKeys.length) ∧
    valueOf (makeConfigDict shippedCfg) "main" "default_missing_value" = none := by
  decide +kernel

end Nappy.Props
