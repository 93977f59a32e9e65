import Verif.Spec.Scripts
import Verif.Props.Utils
import Verif.WriteLemmas
import Mathlib.Data.List.Nodup

/-! Lemmas about `getopt` and the command line tools. -/

namespace Nappy

open Nappy.Spec

/-! ### getopt -/

theorem argsSpell_append {S : List (Char × Bool)} {L : List (Str × Bool)} {os os' : List (Str × Str)}
    {args args' : List Str} (h : ArgsSpell S L os args) (h' : ArgsSpell S L os' args') :
    ArgsSpell S L (os ++ os') (args ++ args') := by
  induction h with
  | nil => exact h'
  | short os1 os2 s args hc _ ih => rw [List.append_assoc]; exact .short _ _ _ _ hc ih
  | shortApart flags c v os args hf hc _ ih => rw [List.append_assoc]; exact .shortApart _ _ _ _ _ hf hc ih
  | flag n p os args hm ha _ ih => exact .flag _ _ _ _ hm ha ih
  | long n p v os args hm ha _ ih => exact .long _ _ _ _ _ hm ha ih
  | longApart n p v os args hm ha _ ih => exact .longApart _ _ _ _ _ hm ha ih

theorem shortHasArg_text {S : List (Char × Bool)} (hn : (S.map Prod.fst).Nodup) (hc : ∀ cb ∈ S, cb.1 ≠ ':')
    {c : Char} {b : Bool} (h : (c, b) ∈ S) : shortHasArg c (shortText S) = .ok b := by
  induction S with
  | nil => cases h
  | cons d S ih =>
    obtain ⟨e, f⟩ := d
    have hcc : c ≠ ':' := hc _ h
    have he : e ≠ ':' := hc (e, f) (by simp)
    rw [List.map_cons, List.nodup_cons] at hn
    have hhead : ∀ t : List (Char × Bool), (∀ cb ∈ t, cb.1 ≠ ':') → ((shortText t).head? == some ':') = false := by
      intro t ht
      cases t with
      | nil => rfl
      | cons g t =>
        have := ht g (by simp)
        cases hg : g.2 <;> simp [shortText, hg, this]
    have hS := hhead S fun cb hcb => hc cb (List.mem_cons_of_mem _ hcb)
    rcases List.mem_cons.1 h with h | h
    · cases h
      cases b
      · show (if c = c ∧ c ≠ ':' then Except.ok ((shortText S).head? == some ':') else _) = _
        rw [if_pos ⟨rfl, hcc⟩, hS]
      · simp [shortText, shortHasArg, hcc]
    · have hne : e ≠ c := by
        rintro rfl
        exact hn.1 (List.mem_map.2 ⟨_, h, rfl⟩)
      have := ih hn.2 (fun cb hcb => hc cb (List.mem_cons_of_mem _ hcb)) h
      cases f
      · simp only [shortText, List.flatMap_cons, Bool.false_eq_true, if_false, List.singleton_append, shortHasArg]
        rw [if_neg (fun h => hne h.1)]
        exact this
      · simp only [shortText, List.flatMap_cons, if_true, List.cons_append, List.nil_append, shortHasArg]
        rw [if_neg (fun h => hne h.1), if_neg (fun h => hcc h.1.symm)]
        exact this

theorem doShorts_cluster {S : List (Char × Bool)} (hn : (S.map Prod.fst).Nodup) (hc : ∀ cb ∈ S, cb.1 ≠ ':')
    {os : List (Str × Str)} {s : Str} (h : Cluster S os s) : doShorts (shortText S) s = .ok (os, none) := by
  induction h with
  | last c h =>
    simp [doShorts, shortHasArg_text hn hc h]
  | flag c os s h _ ih =>
    simp [doShorts, shortHasArg_text hn hc h, ih]
  | value c v h hv =>
    simp [doShorts, shortHasArg_text hn hc h, hv]

theorem doShorts_apart {S : List (Char × Bool)} (hn : (S.map Prod.fst).Nodup) (hc : ∀ cb ∈ S, cb.1 ≠ ':')
    {c : Char} (h : (c, true) ∈ S) : ∀ {flags : List Char}, (∀ f ∈ flags, (f, false) ∈ S) →
    doShorts (shortText S) (flags ++ [c]) = .ok (flags.map (fun f => (['-', f], [])), some ['-', c])
  | [], _ => by simp [doShorts, shortHasArg_text hn hc h]
  | f :: fs, hf => by
    have := doShorts_apart hn hc h (flags := fs) fun g hg => hf g (List.mem_cons_of_mem _ hg)
    simp [doShorts, shortHasArg_text hn hc (hf f (by simp)), this]

theorem cutAtEq_none {s : Str} (h : '=' ∉ s) : cutAtEq s = (s, none) := by
  induction s with
  | nil => rfl
  | cons c t ih =>
    rw [List.mem_cons, not_or] at h
    rw [cutAtEq, if_neg (fun e => h.1 e.symm), ih h.2]

theorem cutAtEq_some {s : Str} (h : '=' ∉ s) (v : Str) : cutAtEq (s ++ '=' :: v) = (s, some v) := by
  induction s with
  | nil => simp [cutAtEq]
  | cons c t ih =>
    rw [List.mem_cons, not_or] at h
    rw [List.cons_append, cutAtEq, if_neg (fun e => h.1 e.symm), ih h.2]

theorem startsWith_eq {p s : Str} : startsWith p s = true ↔ p <+: s := by
  unfold startsWith; exact List.isPrefixOf_iff_prefix

/-- A beginning without `=` of a name with the mark is a beginning of the name. -/
theorem prefix_mark {p n : Str} {b : Bool} (hp : '=' ∉ p) :
    p <+: (if b then n ++ ['='] else n) ↔ p <+: n := by
  cases b
  · simp
  · simp only [if_true]
    constructor
    · intro h
      rw [List.prefix_concat_iff] at h
      rcases h with h | h
      · exact absurd (by rw [h]; simp) hp
      · exact h
    · intro h
      exact h.trans (List.prefix_append _ _)

theorem longHasArgs_text {L : List (Str × Bool)} (hn : (L.map Prod.fst).Nodup)
    (hname : ∀ nb ∈ L, nb.1 ≠ [] ∧ '=' ∉ nb.1) {p n : Str} {b : Bool} (h : (n, b) ∈ L) (ha : Abbreviates L p n) :
    longHasArgs p (longText L) = .ok (b, n) ∧ '=' ∉ p ∧ p ≠ [] := by
  have hpn : p <+: n := by
    rcases ha with rfl | ⟨_, h, _⟩
    · exact List.prefix_refl _
    · exact h
  have hpe : '=' ∉ p := fun hm => (hname _ h).2 (hpn.subset hm)
  have hp0 : p ≠ [] := by
    rcases ha with rfl | ⟨h', _⟩
    · exact (hname _ h).1
    · exact h'
  refine ⟨?_, hpe, hp0⟩
  have hmem : ∀ x, x ∈ (longText L).filter (startsWith p) ↔
      ∃ m c, (m, c) ∈ L ∧ p <+: m ∧ x = if c then m ++ ['='] else m := by
    intro x
    rw [List.mem_filter, startsWith_eq]
    unfold longText
    rw [List.mem_map]
    constructor
    · rintro ⟨⟨⟨m, c⟩, hm, rfl⟩, hpx⟩
      exact ⟨m, c, hm, (prefix_mark hpe).1 hpx, rfl⟩
    · rintro ⟨m, c, hm, hpm, rfl⟩
      exact ⟨⟨(m, c), hm, rfl⟩, (prefix_mark hpe).2 hpm⟩
  have huniq : ∀ m c, (m, c) ∈ L → m = n → c = b := by
    rintro m c hm rfl
    have := List.inj_on_of_nodup_map hn hm h rfl
    cases this; rfl
  have hne : (longText L).filter (startsWith p) ≠ [] := by
    intro he
    have := (hmem (if b then n ++ ['='] else n)).2 ⟨n, b, h, hpn, rfl⟩
    rw [he] at this; cases this
  unfold longHasArgs
  simp only [if_neg hne]
  by_cases hex : p = n
  · subst hex
    cases b
    · rw [if_pos (List.contains_iff_mem.2 ((hmem p).2 ⟨p, false, h, hpn, rfl⟩))]
    · rw [if_neg, if_pos (List.contains_iff_mem.2 ((hmem (p ++ ['='])).2 ⟨p, true, h, hpn, rfl⟩))]
      intro hc
      obtain ⟨m, c, hm, _, he⟩ := (hmem p).1 (List.contains_iff_mem.1 hc)
      cases c
      · have := huniq m false hm he.symm
        cases this
      · exact hpe (by rw [he]; simp)
  · have hother : ∀ mb ∈ L, p <+: mb.1 → mb.1 = n := by
      rcases ha with rfl | ⟨_, _, h'⟩
      · exact absurd rfl hex
      · exact h'
    have hall : ∀ x, x ∈ (longText L).filter (startsWith p) ↔ x = if b then n ++ ['='] else n := by
      intro x
      rw [hmem]
      constructor
      · rintro ⟨m, c, hm, hpm, rfl⟩
        have e1 : m = n := hother _ hm hpm
        rw [huniq m c hm e1, e1]
      · rintro rfl
        exact ⟨n, b, h, hpn, rfl⟩
    have hnd : ((longText L).filter (startsWith p)).Nodup := by
      apply List.Nodup.filter
      unfold longText
      rw [List.nodup_map_iff_inj_on (List.Nodup.of_map _ hn)]
      rintro ⟨m, c⟩ hm ⟨m', c'⟩ hm' he
      have h1 := (hname _ hm).2
      have h2 := (hname _ hm').2
      have : m = m' := by
        cases c <;> cases c' <;> simp only [if_true, Bool.false_eq_true, if_false] at he
        · exact he
        · exact absurd (by rw [he]; simp) h1
        · exact absurd (by rw [← he]; simp) h2
        · exact List.append_cancel_right he
      subst this
      exact List.inj_on_of_nodup_map hn hm hm' rfl
    have hone : (longText L).filter (startsWith p) = [if b then n ++ ['='] else n] := by
      revert hall hnd
      generalize (longText L).filter (startsWith p) = l
      intro hall hnd
      match l, hall, hnd with
      | [], hall, _ => exact absurd ((hall _).2 rfl) (by simp)
      | [x], hall, _ => rw [(hall x).1 (by simp)]
      | x :: y :: t, hall, hnd =>
        have h1 := (hall x).1 (by simp)
        have h2 := (hall y).1 (by simp)
        rw [h1, h2] at hnd
        simp at hnd
    rw [hone, if_neg, if_neg]
    · cases b
      · have : n.getLast? ≠ some '=' := fun hl => (hname _ h).2 (List.mem_of_getLast? hl)
        simp [this]
      · simp
    · rw [List.contains_iff_mem, List.mem_singleton]
      intro he
      cases b
      · exact (hname _ h).2 (by simp only [Bool.false_eq_true, if_false] at he; rw [← he]; simp)
      · exact hex (List.append_cancel_right he)
    · rw [List.contains_iff_mem, List.mem_singleton]
      intro he
      cases b
      · exact hex he
      · exact hpe (by rw [he]; simp)

theorem getopt_stop {shorts : Str} {longs : List Str} {rest : List Str} (h : Positional rest) :
    getopt shorts longs rest = .ok ([], withoutMark rest) := by
  cases rest with
  | nil => rfl
  | cons a t =>
    by_cases hm : a = ['-', '-']
    · subst hm
      rw [getopt, getoptGo, if_neg (by decide), if_pos rfl]
      rfl
    · have h' : startsWith ['-'] a = false ∨ a = ['-'] := by
        rcases h with h | h | h
        · left
          cases a with
          | nil => rfl
          | cons c a =>
            have : c ≠ '-' := by simpa using h
            simp [startsWith, List.isPrefixOf, this.symm]
        · exact .inr h
        · exact absurd h hm
      have hw : withoutMark (a :: t) = a :: t := by
        unfold withoutMark
        split
        · rename_i e; simp at e; exact absurd e.1 hm
        · rfl
      rw [getopt, getoptGo, if_pos h', hw]

theorem getopt_more {shorts : Str} {longs : List Str} {a : Str} {rest left : List Str} {os more : List (Str × Str)}
    (h1 : startsWith ['-'] a = true) (h2 : a ≠ ['-']) (h3 : a ≠ ['-', '-'])
    (ho : optionsOf shorts longs a = .ok (os, none)) (hr : getopt shorts longs rest = .ok (more, left)) :
    getopt shorts longs (a :: rest) = .ok (os ++ more, left) := by
  rw [getopt] at hr ⊢
  rw [getoptGo, if_neg (by simp [h1, h2]), if_neg h3, ho]
  simp only [ok_bind]
  rw [hr]; rfl

theorem getopt_apart {shorts : Str} {longs : List Str} {a v : Str} {rest left : List Str} {os more : List (Str × Str)}
    {w : Str} (h1 : startsWith ['-'] a = true) (h2 : a ≠ ['-']) (h3 : a ≠ ['-', '-'])
    (ho : optionsOf shorts longs a = .ok (os, some w)) (hr : getopt shorts longs rest = .ok (more, left)) :
    getopt shorts longs (a :: v :: rest) = .ok (os ++ (w, v) :: more, left) := by
  rw [getopt] at hr ⊢
  rw [getoptGo, if_neg (by simp [h1, h2]), if_neg h3, ho]
  simp only [ok_bind, getoptGo]
  rw [hr]; rfl

theorem optionsOf_short {shorts : Str} {longs : List Str} {c : Char} {t : Str} (hc : c ≠ '-') :
    optionsOf shorts longs ('-' :: c :: t) = doShorts shorts (c :: t) := by
  unfold optionsOf
  rw [if_neg (by simp [startsWith, List.isPrefixOf, hc.symm])]
  rfl

theorem optionsOf_long {shorts : Str} {longs : List Str} {s : Str} :
    optionsOf shorts longs ('-' :: '-' :: s) = doLongs longs s := by
  unfold optionsOf
  rw [if_pos (by simp [startsWith, List.isPrefixOf])]
  rfl

/-- `getopt` finds the options that are spelt. -/
theorem getopt_spells {S : List (Char × Bool)} {L : List (Str × Bool)} (ht : Table S L) {os : List (Str × Str)}
    {args rest left : List Str} (h : ArgsSpell S L os args)
    {more : List (Str × Str)} (hr : getopt (shortText S) (longText L) rest = .ok (more, left)) :
    getopt (shortText S) (longText L) (args ++ rest) = .ok (os ++ more, left) := by
  have hc : ∀ cb ∈ S, cb.1 ≠ ':' := fun cb h => (ht.letter cb h).1
  have hdash : ∀ s : Str, startsWith ['-'] ('-' :: s) = true := fun s => by simp [startsWith, List.isPrefixOf]
  induction h with
  | nil => exact hr
  | short os os' s args hs _ ih =>
    have hd := doShorts_cluster ht.letters hc hs
    obtain ⟨c, t, rfl, b, hb⟩ : ∃ c t, s = c :: t ∧ ∃ b, (c, b) ∈ S := by
      cases hs with
      | last c h => exact ⟨c, [], rfl, _, h⟩
      | flag c os s h _ => exact ⟨c, s, rfl, _, h⟩
      | value c v h _ => exact ⟨c, v, rfl, _, h⟩
    have hcd : c ≠ '-' := (ht.letter _ hb).2
    rw [List.append_assoc]
    exact getopt_more (hdash _) (by simp) (by simp [hcd]) (by rw [optionsOf_short hcd, hd]) ih
  | shortApart flags c v os args hf hcm _ ih =>
    have hd := doShorts_apart ht.letters hc hcm hf
    obtain ⟨d, t, he, hcd⟩ : ∃ d t, flags ++ [c] = d :: t ∧ d ≠ '-' := by
      cases flags with
      | nil => exact ⟨c, [], rfl, (ht.letter _ hcm).2⟩
      | cons f fs => exact ⟨f, fs ++ [c], rfl, (ht.letter _ (hf f (by simp))).2⟩
    rw [he] at hd ⊢
    rw [List.append_assoc]
    exact getopt_apart (hdash _) (by simp) (by simp [hcd]) (by rw [optionsOf_short hcd, hd]) ih
  | flag n p os args hnm ha _ ih =>
    obtain ⟨h1, h2, h3⟩ := longHasArgs_text ht.names ht.name hnm ha
    refine getopt_more (os := [('-' :: '-' :: n, [])]) (hdash _) (by simp) (by simp [h3]) ?_ ih
    rw [optionsOf_long]
    simp only [doLongs, cutAtEq_none h2, h1, ok_bind]
  | long n p v os args hnm ha _ ih =>
    obtain ⟨h1, h2, h3⟩ := longHasArgs_text ht.names ht.name hnm ha
    refine getopt_more (os := [('-' :: '-' :: n, v)]) (hdash _) (by simp) (by simp) ?_ ih
    rw [optionsOf_long]
    simp only [doLongs, cutAtEq_some h2, h1, ok_bind]
  | longApart n p v os args hnm ha _ ih =>
    obtain ⟨h1, h2, h3⟩ := longHasArgs_text ht.names ht.name hnm ha
    refine getopt_apart (os := []) (hdash _) (by simp) (by simp [h3]) ?_ ih
    rw [optionsOf_long]
    simp only [doLongs, cutAtEq_none h2, h1, ok_bind]

/-! ### Folding options into a record -/

theorem lastOf_fold {α β γ : Type} (upd : α → β → α) (proj : α → γ) (f : β → Option γ)
    (h : ∀ a b, proj (upd a b) = (f b).getD (proj a)) (l : List β) (a : α) :
    proj (l.foldl upd a) = (lastOf f l).getD (proj a) := by
  induction l generalizing a with
  | nil => rfl
  | cons b l ih =>
    rw [List.foldl_cons, ih, h]
    unfold lastOf
    cases hb : f b with
    | none => simp [List.filterMap_cons_none hb]
    | some c =>
      rw [List.filterMap_cons_some hb, List.getLast?_cons]
      cases (l.filterMap f).getLast? <;> rfl

/-! ### nc2na -/

theorem ncTable_ok : Table ncShortTable ncLongTable :=
  ⟨by decide, by decide, by decide, by decide⟩

theorem ncShorts_text : shortText ncShortTable = ncShorts := by decide

theorem ncLongs_text : longText ncLongTable = ncLongs := by decide

/-- The dictionary made from pairs. -/
def pairsDict (l : List (Str × Str)) : List (Str × Str) := l.foldl (fun d kv => sdictSet d kv.1 kv.2) []

theorem makeDict_pairs {l : List (Str × Str)} {v : Str} (h : CommaPairs l v) :
    makeDictFromCommaSepString v = .ok (pairsDict l) := by
  obtain ⟨h1, h2, rfl⟩ := h
  unfold makeDictFromCommaSepString
  rw [Props.C32_list l h1 h2]
  rfl

theorem pairsDict_get (l : List (Str × Str)) (k : Str) : sdictGet? (pairsDict l) k = lastValue l k := by
  unfold pairsDict
  rw [sdict_foldl_get]
  cases lastValue l k <;> rfl

theorem pairsDict_keys (l : List (Str × Str)) : ((pairsDict l).map Prod.fst).Nodup :=
  sdict_foldl_keys l [] (by simp)

/-- What an option does to the arguments. -/
def ncUpd (a : NcArgs) : NcOpt → NcArgs
  | .input f => { a with ncFile := some f }
  | .output f => { a with naFile := some f }
  | .vars l => { a with varIds := some l }
  | .ffi n => { a with requestedFFI := some n }
  | .floatFormat f => { a with floatFormat := f }
  | .delimiter d => { a with delimiter := d }
  | .rows _ => a
  | .exclude l => { a with excludeVars := l }
  | .overwrite l => { a with naItems := pairsDict l }
  | .namesOnly => { a with onlyNames := true }
  | .noHeader => { a with noHeader := true }
  | .annotated => { a with annotation := true }

/-- The step for an option, when the tests before it fail. -/
theorem ncStep_i (a : NcArgs) (v : Str) : ncStep a "-i".toList v = .ok { a with ncFile := some v } := by
  unfold ncStep
  rw [if_pos rfl]

theorem ncStep_o (a : NcArgs) (v : Str) : ncStep a "-o".toList v = .ok { a with naFile := some v } := by
  unfold ncStep
  iterate 1 rw [if_neg (by decide)]
  rw [if_pos rfl]

theorem ncStep_v (a : NcArgs) (v : Str) : ncStep a "-v".toList v = .ok { a with varIds := some (splitComma v) } := by
  unfold ncStep
  iterate 2 rw [if_neg (by decide)]
  rw [if_pos rfl]

theorem ncStep_ffi (a : NcArgs) (v : Str) (n : Int) (h : pyInt v = .ok n) :
    ncStep a "--ffi".toList v = .ok { a with requestedFFI := some n } := by
  unfold ncStep
  iterate 3 rw [if_neg (by decide)]
  rw [if_pos rfl, h]; rfl

theorem ncStep_f (a : NcArgs) (v : Str) : ncStep a "-f".toList v = .ok { a with floatFormat := v } := by
  unfold ncStep
  iterate 4 rw [if_neg (by decide)]
  rw [if_pos rfl]

theorem ncStep_d (a : NcArgs) (v : Str) : ncStep a "-d".toList v = .ok { a with delimiter := v } := by
  unfold ncStep
  iterate 5 rw [if_neg (by decide)]
  rw [if_pos rfl]

theorem ncStep_e (a : NcArgs) (v : Str) : ncStep a "-e".toList v = .ok { a with excludeVars := splitComma v } := by
  unfold ncStep
  iterate 7 rw [if_neg (by decide)]
  rw [if_pos rfl]

theorem ncStep_overwrite (a : NcArgs) (v : Str) (d : List (Str × Str)) (h : makeDictFromCommaSepString v = .ok d) :
    ncStep a "--overwrite-metadata".toList v = .ok { a with naItems := d } := by
  unfold ncStep
  iterate 8 rw [if_neg (by decide)]
  rw [if_pos rfl, h]; rfl

theorem ncStep_names (a : NcArgs) (v : Str) : ncStep a "--names-only".toList v = .ok { a with onlyNames := true } := by
  unfold ncStep
  iterate 9 rw [if_neg (by decide)]
  rw [if_pos rfl]

theorem ncStep_noHeader (a : NcArgs) (v : Str) : ncStep a "--no-header".toList v = .ok { a with noHeader := true } := by
  unfold ncStep
  iterate 10 rw [if_neg (by decide)]
  rw [if_pos rfl]

theorem ncStep_annotated (a : NcArgs) (v : Str) : ncStep a "--annotated".toList v = .ok { a with annotation := true } := by
  unfold ncStep
  iterate 11 rw [if_neg (by decide)]
  rw [if_pos rfl]

theorem ncStep_spells (a : NcArgs) (g : NcOpt) (v : Str) (h : g.Value v) (hr : g.rows? = none) :
    ncStep a g.called v = .ok (ncUpd a g) := by
  cases g with
  | input f => cases h; exact ncStep_i a v
  | output f => cases h; exact ncStep_o a v
  | vars l =>
    obtain ⟨h1, h2, rfl⟩ := h
    refine (ncStep_v a _).trans ?_
    rw [splitComma_join l h1 h2]; rfl
  | ffi n => exact ncStep_ffi a v n h
  | floatFormat f => cases h; exact ncStep_f a v
  | delimiter d => cases h; exact ncStep_d a v
  | rows n => cases hr
  | exclude l =>
    obtain ⟨h1, h2, rfl⟩ := h
    refine (ncStep_e a _).trans ?_
    rw [splitComma_join l h1 h2]; rfl
  | overwrite l => exact ncStep_overwrite a v _ (makeDict_pairs h)
  | namesOnly => exact ncStep_names a v
  | noHeader => exact ncStep_noHeader a v
  | annotated => exact ncStep_annotated a v

theorem ncStep_rows (a : NcArgs) (n : Int) (v : Str) : ncStep a (NcOpt.rows n).called v = .error .exit := by
  show ncStep a "-l".toList v = _
  unfold ncStep
  iterate 12 rw [if_neg (by decide)]

theorem ncLoop_spells {given : List NcOpt} {os : List (Str × Str)}
    (h : List.Forall₂ (fun (g : NcOpt) (o : Str × Str) => o.1 = g.called ∧ g.Value o.2) given os)
    (hr : ∀ g ∈ given, g.rows? = none) (a : NcArgs) : ncLoop a os = .ok (given.foldl ncUpd a) := by
  induction h generalizing a with
  | nil => rfl
  | @cons g o given os hg _ ih =>
    obtain ⟨arg, v⟩ := o
    obtain ⟨h1, h2⟩ := hg
    simp only at h1
    rw [ncLoop, h1, ncStep_spells a g v h2 (hr g (by simp)), ok_bind,
      ih (fun g hg => hr g (List.mem_cons_of_mem _ hg)), List.foldl_cons]

theorem ncLoop_rows {given : List NcOpt} {os : List (Str × Str)}
    (h : List.Forall₂ (fun (g : NcOpt) (o : Str × Str) => o.1 = g.called ∧ g.Value o.2) given os)
    (hr : ∃ g ∈ given, g.rows? ≠ none) (a : NcArgs) : ncLoop a os = .error .exit := by
  induction h generalizing a with
  | nil => obtain ⟨g, hg, _⟩ := hr; cases hg
  | @cons g o given os hg _ ih =>
    obtain ⟨arg, v⟩ := o
    obtain ⟨h1, h2⟩ := hg
    simp only at h1
    rw [ncLoop, h1]
    by_cases hg : g.rows? = none
    · rw [ncStep_spells a g v h2 hg, ok_bind]
      obtain ⟨g', hm, hne⟩ := hr
      rcases List.mem_cons.1 hm with rfl | hm
      · exact absurd hg hne
      · exact ih ⟨g', hm, hne⟩ _
    · cases g with
      | rows n => rw [ncStep_rows]; rfl
      | _ => exact absurd rfl hg

theorem ncParse_opts {given : List NcOpt} {args rest : List Str} (h : NcSpells given args) (hp : Positional rest) :
    ∃ os, List.Forall₂ (fun (g : NcOpt) (o : Str × Str) => o.1 = g.called ∧ g.Value o.2) given os ∧
      getopt ncShorts ncLongs (args ++ rest) = .ok (os, withoutMark rest) := by
  obtain ⟨os, h1, h2⟩ := h
  refine ⟨os, h1, ?_⟩
  have := getopt_spells ncTable_ok h2 (getopt_stop (shorts := shortText ncShortTable) (longs := longText ncLongTable) hp)
  rwa [List.append_nil, ncShorts_text, ncLongs_text] at this

/-- A switch is on if it is on at the start or given. -/
theorem switch_fold {α β : Type} [DecidableEq β] (upd : α → β → α) (proj : α → Bool) (b0 : β)
    (h0 : ∀ a, proj (upd a b0) = true) (h1 : ∀ a b, b ≠ b0 → proj (upd a b) = proj a) (l : List β) (a : α)
    (ha : proj a = false) : proj (l.foldl upd a) = decide (b0 ∈ l) := by
  have hon : ∀ (l : List β) a, proj a = true → proj (l.foldl upd a) = true := by
    intro l
    induction l with
    | nil => intro a h; exact h
    | cons b l ih =>
      intro a h
      rw [List.foldl_cons]
      apply ih
      by_cases hb : b = b0
      · rw [hb, h0]
      · rw [h1 a b hb, h]
  induction l generalizing a with
  | nil => simpa using ha
  | cons b l ih =>
    rw [List.foldl_cons]
    by_cases hb : b = b0
    · subst hb
      rw [hon l _ (h0 a)]; simp
    · rw [ih _ (by rw [h1 a b hb, ha])]
      simp [Ne.symm hb]

/-! ### na2nc -/

theorem na2ncTable_ok : Table na2ncShortTable [] := ⟨by decide, by decide, by decide, by decide⟩

theorem na2ncShorts_text : shortText na2ncShortTable = na2ncShorts := by decide

theorem makeList_pairs {l : List (Str × Str)} {v : Str} (h : CommaPairs l v) :
    makeListFromCommaSepString v = .ok l := by
  obtain ⟨h1, h2, rfl⟩ := h
  exact Props.C32_list l h1 h2

/-- What an option does to the arguments. -/
def naUpd (a : Na2ncArgs) : NaOpt → Na2ncArgs
  | .input f => { a with naFile := some f }
  | .output f => { a with ncFile := some f }
  | .mode m => { a with mode := m }
  | .vars _ => a
  | .auxVars _ => a
  | .atts l => { a with globalAttributes := l }
  | .rename l => { a with renameVariables := pairsDict l }
  | .timeUnits t => { a with timeUnits := some t }
  | .quiet => { a with timeWarning := false }

theorem naStep_spells (a : Na2ncArgs) (g : NaOpt) (v : Str) (h : g.Value v) (hi : g.Implemented) :
    na2ncStep a g.called v = .ok (naUpd a g) := by
  cases g with
  | input f => cases h; rfl
  | output f => cases h; rfl
  | mode m => cases h; rfl
  | vars l => exact hi.elim
  | auxVars l => exact hi.elim
  | atts l => simp only [na2ncStep, NaOpt.called, makeList_pairs h]; rfl
  | rename l => simp only [na2ncStep, NaOpt.called, makeDict_pairs h]; rfl
  | timeUnits t => cases h; rfl
  | quiet => cases h; rfl

theorem naLoop_spells {given : List NaOpt} {os : List (Str × Str)}
    (h : List.Forall₂ (fun (g : NaOpt) (o : Str × Str) => o.1 = g.called ∧ g.Value o.2) given os)
    (hr : ∀ g ∈ given, g.Implemented) (a : Na2ncArgs) : na2ncLoop a os = .ok (given.foldl naUpd a) := by
  induction h generalizing a with
  | nil => rfl
  | @cons g o given os hg _ ih =>
    obtain ⟨arg, v⟩ := o
    obtain ⟨h1, h2⟩ := hg
    simp only at h1
    rw [na2ncLoop, h1, naStep_spells a g v h2 (hr g (by simp)), ok_bind,
      ih (fun g hg => hr g (List.mem_cons_of_mem _ hg)), List.foldl_cons]

theorem naLoop_stops {given : List NaOpt} {os : List (Str × Str)}
    (h : List.Forall₂ (fun (g : NaOpt) (o : Str × Str) => o.1 = g.called ∧ g.Value o.2) given os)
    (hr : ∃ g ∈ given, ¬ g.Implemented) (a : Na2ncArgs) : na2ncLoop a os = .error .exit := by
  induction h generalizing a with
  | nil => obtain ⟨g, hg, _⟩ := hr; cases hg
  | @cons g o given os hg _ ih =>
    obtain ⟨arg, v⟩ := o
    obtain ⟨h1, h2⟩ := hg
    simp only at h1
    rw [na2ncLoop, h1]
    by_cases hg : g.Implemented
    · rw [naStep_spells a g v h2 hg, ok_bind]
      obtain ⟨g', hm, hne⟩ := hr
      rcases List.mem_cons.1 hm with rfl | hm
      · exact absurd hg hne
      · exact ih ⟨g', hm, hne⟩ _
    · cases g <;> first | exact absurd trivial hg | rfl

theorem naParse_opts {given : List NaOpt} {args rest : List Str} (h : NaSpells given args) (hp : Positional rest) :
    ∃ os, List.Forall₂ (fun (g : NaOpt) (o : Str × Str) => o.1 = g.called ∧ g.Value o.2) given os ∧
      getopt na2ncShorts [] (args ++ rest) = .ok (os, withoutMark rest) := by
  obtain ⟨os, h1, h2⟩ := h
  refine ⟨os, h1, ?_⟩
  have := getopt_spells na2ncTable_ok h2 (getopt_stop (shorts := shortText na2ncShortTable) (longs := longText []) hp)
  rwa [List.append_nil, na2ncShorts_text] at this

theorem lookupLast_eq {l : List (Str × Str)} (k : Str) : lookupLast l k = lastValue l k := by
  unfold lookupLast lastValue
  have key : ∀ (l : List (Str × Str)) (o : Option Str), l.foldl (fun o kv => if kv.1 = k then some kv.2 else o) o =
      ((l.filter (fun p => p.1 = k)).getLast?.map Prod.snd).or o := by
    intro l
    induction l with
    | nil => intro o; simp
    | cons p l ih =>
      intro o
      rw [List.foldl_cons, ih]
      by_cases hp : p.1 = k
      · rw [List.filter_cons_of_pos (by simpa using hp), if_pos hp, List.getLast?_cons]
        cases (l.filter (fun p => p.1 = k)).getLast? <;> simp
      · rw [List.filter_cons_of_neg (by simpa using hp), if_neg hp]
  rw [key]; simp

/-- In a dictionary the value found first is the only one. -/
theorem lookupLast_dict {l : List (Str × Str)} (hn : (l.map Prod.fst).Nodup) (k : Str) :
    lookupLast l k = sdictGet? l k := by
  rw [lookupLast_eq]
  unfold lastValue
  induction l with
  | nil => rfl
  | cons p l ih =>
    rw [List.map_cons, List.nodup_cons] at hn
    unfold sdictGet?
    by_cases hp : p.1 = k
    · have : l.filter (fun p => p.1 = k) = [] := by
        rw [List.filter_eq_nil_iff]
        intro q hq
        simp only [decide_eq_true_eq]
        rintro rfl
        exact hn.1 (List.mem_map.2 ⟨q, hq, hp.symm⟩)
      rw [List.filter_cons_of_pos (by simpa using hp), this, if_pos hp]
      rfl
    · rw [List.filter_cons_of_neg (by simpa using hp), if_neg hp, ih hn.2]

end Nappy
