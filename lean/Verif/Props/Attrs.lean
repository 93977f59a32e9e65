import Verif.AttrLemmas
import Verif.SelectLemmas
import Verif.Props.ToXarray

/-! Properties of the comments that keep what has no place of its own in a NASA Ames file. -/

namespace Nappy

open Spec

variable {F : Type}

theorem shownAs_mem {l out : List Str} (h : ShownAs l out) {c : Str} (hc : c ∈ l) (hb : ¬ Blank c) (hn : '\n' ∉ c) :
    c ∈ out := by
  induction h with
  | nil => cases hc
  | blank hb' _ ih =>
    rcases List.mem_cons.1 hc with e | hc
    · exact absurd (e ▸ hb') hb
    · exact ih hc
  | @text c' first more t out hb' hl _ ih =>
    rcases List.mem_cons.1 hc with e | hc
    · subst e
      have : c = first := by
        cases more with
        | nil => exact hl.2.2.symm
        | cons x xs =>
          refine absurd ?_ hn
          rw [← hl.2.2]
          simp [join]
      rw [this]
      simp
    · exact List.mem_append_right _ (ih hc)

theorem shownAs_nil {out : List Str} (h : ShownAs [] out) : out = [] := by cases h; rfl

theorem blocks_mem {l : List (XVar F)} {ls : List Str} (h : VarBlocks l ls) {v : XVar F} (hv : v ∈ l) :
    ∃ best, v.bestName = .ok best ∧ ∀ x ∈ blockOf best v, x ∈ ls := by
  induction l generalizing ls with
  | nil => cases hv
  | cons w t ih =>
    obtain ⟨best, rest, h1, h2, rfl⟩ := h
    rcases List.mem_cons.1 hv with e | hv
    · subst e
      exact ⟨best, h1, fun x hx => List.mem_append_left _ hx⟩
    · obtain ⟨b, k1, k2⟩ := ih h2 hv
      exact ⟨b, k1, fun x hx => List.mem_append_right _ (k2 x hx)⟩

theorem not_blank_of {pre t : Str} {c : Char} (hm : c ∈ pre) (hc : isSpace c = false) : ¬ Blank (pre ++ t) := by
  intro h
  have := h c (List.mem_append_left _ hm)
  rw [hc] at this
  cases this

theorem unfoldLines_join (ls : List Str) (h : ∀ l ∈ ls, '\n' ∉ l) :
    unfoldLines (join ['\n'] ls) = join "  ".toList ls := by
  have happ : ∀ a b, unfoldLines (a ++ b) = unfoldLines a ++ unfoldLines b := fun a b => by simp [unfoldLines]
  induction ls with
  | nil => rfl
  | cons a t ih =>
    cases t with
    | nil => exact unfoldLines_plain (h a (by simp))
    | cons b t =>
      rw [join, join, happ, happ, unfoldLines_plain (h a (by simp)), ih (fun l hl => h l (List.mem_cons_of_mem _ hl))]
      rfl

theorem mapRes_image {α β : Type} {f : α → Res β} {l : List α} {r : List β} (h : mapRes f l = .ok r) {x : α}
    (hx : x ∈ l) : ∃ y ∈ r, f x = .ok y := by
  induction l generalizing r with
  | nil => cases hx
  | cons a t ih =>
    rw [mapRes] at h
    obtain ⟨y, h1, h⟩ := ok_of_bind h
    obtain ⟨ys, h2, h⟩ := ok_of_bind h
    injection h with h
    subst h
    rcases List.mem_cons.1 hx with e | hx
    · subst e
      exact ⟨y, by simp, h1⟩
    · obtain ⟨z, k1, k2⟩ := ih h2 hx
      exact ⟨z, List.mem_cons_of_mem _ k1, k2⟩

/-- What `convert` makes of a singleton that is not named like a dimension. -/
theorem singleton_kept {env : CollectEnv F} {shw : Tree F → Str} {req : Option Int} {globals : Dict (PyVal F)}
    {fuel : Nat} {vars : List (XVar F)} {ds : List (Dict (PyVal F))}
    (h : convertDicts env shw req globals fuel vars = .ok (some ds)) :
    ∃ a d rest, ds = d :: rest ∧ collectDict env globals a = .ok d ∧
      (∀ w ∈ a.main, w ∈ vars ∧ w.axes ≠ []) ∧ a.main ≠ [] ∧
      ∀ v ∈ vars, v.axes = [] → ∃ n, v.bestName = .ok n ∧
        ((∀ w ∈ vars, ∀ ax ∈ w.axes, ax.name ≠ n) → ∃ v' ∈ a.zero, v'.name = n ∧
          v'.attrs = dictSet v.attrs "value" (shw v.data)) := by
  obtain ⟨passes, h1, h2⟩ := ok_of_bind h
  cases passes with
  | none => cases h2
  | some l =>
    obtain ⟨ds', h3, h4⟩ := ok_of_bind h2
    injection h4 with h4
    injection h4 with h4
    subst h4
    obtain ⟨vars1, g1, h1⟩ := ok_of_bind h1
    obtain ⟨vars2, g2, h1⟩ := ok_of_bind h1
    obtain ⟨o, g3, h1⟩ := ok_of_bind h1
    cases o with
    | none => cases h1
    | some a =>
      obtain ⟨more, g4, h1⟩ := ok_of_bind h1
      injection h1 with h1
      injection h1 with h1
      subst h1
      rw [mapRes] at h3
      obtain ⟨d, k1, h3⟩ := ok_of_bind h3
      obtain ⟨rest, k2, h3⟩ := ok_of_bind h3
      injection h3 with h3
      have hsub : ∀ w ∈ vars2, w ∈ vars1 := by
        unfold dropCoordinateVars at g2
        split at g2
        · cases g2
        · injection g2 with g2
          subst g2
          exact fun w hw => (List.mem_filter.1 hw).1
      have hstep : ∀ w ∈ vars1, ∃ v ∈ vars, w.axes = v.axes ∧ (v.axes ≠ [] → w = v) := by
        intro w hw
        obtain ⟨v, hv, hf⟩ := mapRes_mem g1 hw
        refine ⟨v, hv, ?_⟩
        split at hf
        · rename_i h0
          obtain ⟨n, _, hf⟩ := ok_of_bind hf
          injection hf with hf
          subst hf
          exact ⟨rfl, fun hne => absurd (List.length_eq_zero_iff.1 h0) hne⟩
        · injection hf with hf
          subst hf
          exact ⟨rfl, fun _ => rfl⟩
      obtain ⟨p⟩ := collectDict_parts k1
      refine ⟨a, d, rest, h3.symm, k1, fun w hw => ?_, by rw [p.main]; simp, fun v hv hax => ?_⟩
      · obtain ⟨q1, q2⟩ := (analyse_from g3).1 w (List.mem_append_left _ hw)
        obtain ⟨v, hv, e1, e2⟩ := hstep w (hsub w q1)
        rw [e1] at q2
        rw [e2 q2]
        exact ⟨hv, q2⟩
      · obtain ⟨w, hw, hf⟩ := mapRes_image g1 hv
        rw [if_pos (by unfold XVar.rank; rw [hax]; rfl)] at hf
        obtain ⟨n, hn, hf⟩ := ok_of_bind hf
        injection hf with hf
        refine ⟨n, hn, fun hdim => ⟨w, ?_, by rw [← hf], by rw [← hf]⟩⟩
        have hw2 : w ∈ vars2 := by
          unfold dropCoordinateVars at g2
          split at g2
          · cases g2
          · injection g2 with g2
            subst g2
            refine List.mem_filter.2 ⟨hw, ?_⟩
            rw [Bool.not_eq_true', ← Bool.not_eq_true, List.contains_iff_mem]
            intro hm
            obtain ⟨u, hu, hm⟩ := List.mem_flatMap.1 hm
            obtain ⟨ax, hax', e⟩ := List.mem_map.1 hm
            obtain ⟨u', hu', e1, _⟩ := hstep u hu
            rw [e1] at hax'
            refine hdim u' hu' ax hax' ?_
            rw [e, ← hf]
        have hz : a.zero = rankZeroVars vars2 := by
          unfold analyse at g3
          split at g3
          · cases g3
          · obtain ⟨_, _, g3⟩ := ok_of_bind g3
            obtain ⟨_, _, g3⟩ := ok_of_bind g3
            obtain ⟨_, _, g3⟩ := ok_of_bind g3
            obtain ⟨_, _, g3⟩ := ok_of_bind g3
            obtain ⟨_, _, g3⟩ := ok_of_bind g3
            injection g3 with g3
            injection g3 with g3
            rw [← g3]
        rw [hz]
        refine List.mem_filter.2 ⟨hw2, ?_⟩
        rw [← hf]
        simp [XVar.rank, hax]

end Nappy

namespace Nappy.Props

open Nappy Spec

variable {F : Type} {env : CollectEnv F} {globals : Dict (PyVal F)} {a : Analysis F} {d : Dict (PyVal F)}

/-! ### C103 -/

/-- C103, in part. The normal comments are, in this order and between headings: a line for every attribute without a place
of its own, the lines of the attribute `comment`, a line on the conversion and the lines of the old history. The
comment must not have been written by nappy (see C52 for these). What is missing:
attributes that are lists, see `C103_lists_fails`. -/
theorem C103_exact_partial (h : collectDict env globals a = .ok d) (hn : (globals.map Prod.fst).Nodup)
    (hf : ForeignComment env.hp globals) (hs : '\n' ∉ env.stamp) (hv : '\n' ∉ env.version) :
    ∃ coms hist body N, CommentIs globals coms ∧ HistoryIs env globals hist ∧
      body = otherAttrs env.show_ globals ++ (if coms = [] then [] else env.hp.addl_globals :: coms) ++ hist ∧
      ShownAs (if body = [] then [] else env.hp.nc_start :: body ++ [env.hp.nc_end, env.hp.data_next]) N ∧
      dictGet? d "NCOM" = some (pyStrs N) ∧ dictGet? d "NNCOML" = some (.int N.length) := by
  obtain ⟨p⟩ := collectDict_parts h
  obtain ⟨coms, k1, _, k2⟩ := foreign_comment p.globs hn hf
  obtain ⟨k3, k4⟩ := globGo_text _ _ _ p.globs hn
  simp only [List.nil_append] at k2 k3
  have k5 := history_is (env := env) hs hv globals
  rw [← k4] at k5
  refine ⟨coms, p.g.history.getD [], _, cleanComments (rawNormal env.hp p.g), k1, k5, rfl, ?_, p.ncom, p.nncoml⟩
  have hsh := shownAs_clean (rawNormal env.hp p.g)
  have e : rawNormal env.hp p.g =
      (let l := otherAttrs env.show_ globals ++ (if coms = [] then [] else env.hp.addl_globals :: coms)
        ++ p.g.history.getD []
      if l = [] then [] else env.hp.nc_start :: l ++ [[], env.hp.nc_end, env.hp.data_next]) := by
    unfold rawNormal
    rw [k2, k3]
  dsimp only at e
  by_cases hb : otherAttrs env.show_ globals ++ (if coms = [] then [] else env.hp.addl_globals :: coms)
      ++ p.g.history.getD [] = []
  · rw [if_pos hb] at e ⊢
    rw [e] at hsh ⊢
    exact hsh
  · rw [if_neg hb] at e ⊢
    rw [e] at hsh ⊢
    exact shownAs_drop_blank hsh

/-- C103, in part: every attribute that is a text of one line or a number and has no place of its own is a line of the normal
comments. -/
theorem C103_kept_partial (h : collectDict env globals a = .ok d) (hn : (globals.map Prod.fst).Nodup) {key : String}
    {v : PyVal F} (hk : (key, v) ∈ globals) (hv : textOrNumber v = true) (hp : key ∉ placedNames)
    (hl : '\n' ∉ key.toList ++ ":   ".toList ++ env.show_ v) :
    ∃ N, dictGet? d "NCOM" = some (pyStrs N) ∧ key.toList ++ ":   ".toList ++ env.show_ v ∈ N := by
  obtain ⟨p⟩ := collectDict_parts h
  obtain ⟨k3, _⟩ := globGo_text _ _ _ p.globs hn
  refine ⟨_, p.ncom, shownAs_mem (shownAs_clean _) ?_ ?_ hl⟩
  · have hm : key.toList ++ ":   ".toList ++ env.show_ v ∈ p.g.extra2 := by
      rw [k3]
      refine List.mem_map.2 ⟨(key, v), List.mem_filter.2 ⟨hk, ?_⟩, rfl⟩
      simp [hv, hp]
    unfold rawNormal
    dsimp only
    rw [if_neg]
    · exact List.mem_append_left _ (List.mem_cons_of_mem _ (List.mem_append_left _ (List.mem_append_left _ hm)))
    · intro e
      have : p.g.extra2 = [] := by
        rw [List.append_assoc] at e
        exact (List.append_eq_nil_iff.1 e).1
      rw [this] at hm
      cases hm
  · refine not_blank_of (c := ':') ?_ (by decide)
    exact List.mem_append_right _ (by decide)

/-- C103 fails for lists: an attribute that is neither a text nor a number is in no comment and no item: the result
is the same as without it. -/
theorem C103_lists_fails {key : String} {v : PyVal F} {pre post : Dict (PyVal F)} (hv : textOrNumber v = false)
    (hk : key ≠ "first_valid_date_of_data") :
    collectDict env (pre ++ (key, v) :: post) a = collectDict env (pre ++ post) a := by
  have hgo : ∀ s : GlobState F, globGo env s (pre ++ (key, v) :: post) = globGo env s (pre ++ post) := by
    induction pre with
    | nil =>
      intro s
      show (do let s ← globStep env s key v; globGo env s post) = _
      have : globStep env s key v = .ok s := by
        unfold globStep
        rw [plain_text, if_pos (by simp [hv, hk])]
      rw [this]
      rfl
    | cons kv t ih =>
      intro s
      show (do let s ← globStep env s kv.1 kv.2; globGo env s (t ++ (key, v) :: post)) = _
      simp only [ih]
      rfl
  unfold collectDict defineGlobals
  simp only [hgo]

/-- A conversion that shows texts as they are. -/
def textEnv : CollectEnv Int :=
  { Ex.collectEnv with show_ := fun v => match v with | .str s => s | _ => "?".toList }

/-- The assumptions are met. -/
example : ∃ a, analyse textEnv.x none [Ex.dataVar "temp" [exTime] none none] = .ok (some a) ∧
    ((collectDict textEnv Ex.globals a).toOption.bind (fun d => (dictGet? d "NCOM").bind Ex.strs)) =
      some ["==== Normal Comments follow ====".toList, "Conventions:   CF-1.7".toList,
        "=== Additional Global Attributes defined in the source file ===".toList, "calibrated in spring".toList,
        "two soundings lost".toList,
        "History:  2024-05-17 12:00:00 - Converted to NASA Ames format using nappy-2.0.4.".toList,
        "    made by hand".toList, "==== Normal Comments end ====".toList,
        "=== Data Section begins on the next line ===".toList] ∧
    (Ex.globals.map Prod.fst).Nodup ∧ '\n' ∉ textEnv.stamp ∧ '\n' ∉ textEnv.version ∧
    ("Conventions", .str "CF-1.7".toList) ∈ Ex.globals ∧ "Conventions" ∉ placedNames := by
  have : ∃ a, analyse textEnv.x none [Ex.dataVar "temp" [exTime] none none] = .ok (some a) ∧
    ((collectDict textEnv Ex.globals a).toOption.bind (fun d => (dictGet? d "NCOM").bind Ex.strs)) =
      some ["==== Normal Comments follow ====".toList, "Conventions:   CF-1.7".toList,
        "=== Additional Global Attributes defined in the source file ===".toList, "calibrated in spring".toList,
        "two soundings lost".toList,
        "History:  2024-05-17 12:00:00 - Converted to NASA Ames format using nappy-2.0.4.".toList,
        "    made by hand".toList, "==== Normal Comments end ====".toList,
        "=== Data Section begins on the next line ===".toList] := found_of_eval (by decide +kernel)
  obtain ⟨a, h1, h2⟩ := this
  exact ⟨a, h1, h2, by decide, by decide, by decide, by simp [Ex.globals], by decide⟩

example : ForeignComment iniHeadings Ex.globals := by
  intro t ht
  have : t = "calibrated in spring\ntwo soundings lost".toList := by
    simp [Ex.globals, dictGet?] at ht
    exact ht.symm
  subst this
  intro k hk hc
  rw [← hasSub_iff] at hc
  revert k
  decide +kernel

/-! ### C104 -/

/-- C104, in part. The special comments of a source without comments of nappy are, between headings, the singletons with
their attributes and the main variables with theirs, in order. -/
theorem C104_exact_partial (h : collectDict env globals a = .ok d) (hn : (globals.map Prod.fst).Nodup)
    (hf : ForeignComment env.hp globals) :
    ∃ raw S, SpecialText env.hp a.zero a.main raw ∧ ShownAs raw S ∧ dictGet? d "SCOM" = some (pyStrs S) ∧
      dictGet? d "NSCOML" = some (.int S.length) := by
  obtain ⟨p⟩ := collectDict_parts h
  obtain ⟨_, _, k1, _⟩ := foreign_comment p.globs hn hf
  have hsp := p.special
  rw [k1] at hsp
  exact ⟨p.scom, _, rawSpecial_text hsp, shownAs_clean _, p.scomIs, p.nscoml⟩

/-- C104, in part: the value of every singleton is in the special comments of the first file, if all other variables
have an attribute, it is not named like a dimension and the source has no comments of nappy. -/
theorem C104_value_partial {shw : Tree F → Str} {req : Option Int} {fuel : Nat} {vars : List (XVar F)}
    {ds : List (Dict (PyVal F))} (h : convertDicts env shw req globals fuel vars = .ok (some ds))
    (hn : (globals.map Prod.fst).Nodup) (hf : ForeignComment env.hp globals)
    (hattrs : ∀ w ∈ vars, w.axes ≠ [] → w.attrs ≠ []) {v : XVar F} (hv : v ∈ vars) (hax : v.axes = [])
    (hdim : ∀ n, v.bestName = .ok n → ∀ w ∈ vars, ∀ ax ∈ w.axes, ax.name ≠ n) (hl : '\n' ∉ shw v.data) :
    ∃ d S, ds.head? = some d ∧ dictGet? d "SCOM" = some (pyStrs S) ∧ "    value = ".toList ++ shw v.data ∈ S := by
  obtain ⟨a, d, rest, h1, h2, h3, h4, h5⟩ := singleton_kept h
  obtain ⟨n, k1, k2⟩ := h5 v hv hax
  obtain ⟨v', k3, _, k4⟩ := k2 (hdim n k1)
  obtain ⟨raw, S, ⟨z, m, g1, _, g2⟩, g3, g4, _⟩ := C104_exact_partial h2 hn hf
  refine ⟨d, S, by rw [h1]; rfl, g4, shownAs_mem g3 ?_ ?_ ?_⟩
  · have hne : a.main.all (fun v => v.attrs.isEmpty) = false := by
      rw [← Bool.not_eq_true, List.all_eq_true]
      intro hall
      cases hm : a.main with
      | nil => exact h4 hm
      | cons w t =>
        have hw : w ∈ a.main := by rw [hm]; simp
        obtain ⟨q1, q2⟩ := h3 w hw
        exact hattrs w q1 q2 (by simpa using hall w hw)
    obtain ⟨best, _, q⟩ := blocks_mem g1 k3
    have hz : "    value = ".toList ++ shw v.data ∈ z := by
      refine q _ (List.mem_cons_of_mem _ (List.mem_map.2 ⟨("value", shw v.data), ?_, ?_⟩))
      · rw [k4]
        exact dictGet?_mem (by rw [dictGet?_set, if_pos rfl])
      · show "    ".toList ++ "value".toList ++ " = ".toList ++ shw v.data = _
        rw [show "    ".toList ++ "value".toList ++ " = ".toList = "    value = ".toList by decide]
    have hz0 : a.zero.isEmpty = false := by
      cases hz : a.zero with
      | nil => rw [hz] at k3; cases k3
      | cons _ _ => rfl
    rw [g2, hne, hz0]
    simp only [Bool.false_eq_true, if_false]
    refine List.mem_append_left _ (List.mem_append_left _ (List.mem_append_left _ (List.mem_cons_of_mem _
      (List.mem_cons_of_mem _ (List.mem_append_left _ hz)))))
  · exact not_blank_of (c := 'v') (by decide) (by decide)
  · intro hm
    rcases List.mem_append.1 hm with hm | hm
    · revert hm; decide
    · exact hl hm

/-- C104 fails: if no main variable has an attribute, nothing is said about the singletons, whatever they are. -/
theorem C104_lost_fails (h : collectDict env globals a = .ok d) (hn : (globals.map Prod.fst).Nodup)
    (hf : ForeignComment env.hp globals) (hm : ∀ v ∈ a.main, v.attrs = []) :
    dictGet? d "SCOM" = some (pyStrs []) := by
  obtain ⟨raw, S, ⟨z, m, _, _, g2⟩, g3, g4, _⟩ := C104_exact_partial h hn hf
  rw [if_pos (by rw [List.all_eq_true]; intro v hv; rw [hm v hv]; rfl)] at g2
  subst g2
  rw [g4, shownAs_nil g3]

/-- A variable with the given attributes, and a singleton. -/
def attrVars (attrs : Dict Str) : List (XVar Int) :=
  [{ Ex.dataVar "temp" [exTime] none none with attrs := attrs }, exVar "base_height" [] none none]

/-- Whether the list of texts has this line. -/
def hasLine (ds : Res (Option (List (Dict (PyVal Int))))) (line : String) : Bool :=
  match ds with
  | .ok (some (d :: _)) => ((dictGet? d "SCOM").bind Ex.strs).any (fun l => l.contains line.toList)
  | _ => false

/-- The assumptions of `C104_value_partial` are met. -/
example : hasLine (convertDicts textEnv (fun _ => "115.0".toList) none Ex.globals 5 (attrVars [("units", "K".toList)]))
      "    value = 115.0" = true ∧
    (∀ w ∈ attrVars [("units", "K".toList)], w.axes ≠ [] → w.attrs ≠ []) := by
  refine ⟨by decide +kernel, fun w hw => ?_⟩
  simp only [attrVars, List.mem_cons, List.not_mem_nil, or_false] at hw
  rcases hw with rfl | rfl <;> simp [exVar]

/-- The loss in `C104_lost_fails` happens: the same data without the attribute say nothing of the singleton. -/
example : hasLine (convertDicts textEnv (fun _ => "115.0".toList) none Ex.globals 5 (attrVars []))
      "    value = 115.0" = false ∧
    (convertDicts textEnv (fun _ => "115.0".toList) none Ex.globals 5 (attrVars [])).isOk = true :=
  ⟨by decide +kernel, by decide +kernel⟩

/-- C104 fails: if the source already has special comments of nappy, the singletons are left out, even though the
variable has an attribute. -/
theorem C104_nappy_fails :
    ∃ globals : Dict (PyVal Int), ∃ vars d S, convertDicts textEnv (fun _ => "115.0".toList) none globals 5 vars
        = .ok (some [d]) ∧ (∀ w ∈ vars, w.axes ≠ [] → w.attrs ≠ []) ∧ (∃ v ∈ vars, v.axes = []) ∧
      (dictGet? d "SCOM").bind Ex.strs = some S ∧ "flown by night".toList ∈ S ∧ "    units = K".toList ∈ S ∧
      "    value = 115.0".toList ∉ S := by
  have key : ∃ d, convertDicts textEnv (fun _ => "115.0".toList) none
        [("comment", .str ("==== Special Comments follow ====\nflown by night\n" ++
          "==== Special Comments end ====").toList)] 5 (attrVars [("units", "K".toList)]) = .ok (some [d]) ∧
      ((dictGet? d "SCOM").bind Ex.strs).any (fun S => S.contains "flown by night".toList &&
        S.contains "    units = K".toList && !S.contains "    value = 115.0".toList) = true := by
    have : (match convertDicts textEnv (fun _ => "115.0".toList) none
        [("comment", .str ("==== Special Comments follow ====\nflown by night\n" ++
          "==== Special Comments end ====").toList)] 5 (attrVars [("units", "K".toList)]) with
      | .ok (some [d]) => ((dictGet? d "SCOM").bind Ex.strs).any (fun S => S.contains "flown by night".toList &&
          S.contains "    units = K".toList && !S.contains "    value = 115.0".toList)
      | _ => false) = true := by decide +kernel
    split at this
    · rename_i d e
      exact ⟨d, e, this⟩
    · cases this
  obtain ⟨d, h1, h2⟩ := key
  cases hS : (dictGet? d "SCOM").bind Ex.strs with
  | none => rw [hS] at h2; cases h2
  | some S =>
    rw [hS] at h2
    simp only [Option.any_some, Bool.and_eq_true, Bool.not_eq_true', List.contains_iff_mem, ← Bool.not_eq_true] at h2
    refine ⟨_, _, d, S, h1, fun w hw => ?_, ⟨exVar "base_height" [] none none, by simp [attrVars], rfl⟩, hS, h2.1.1,
      h2.1.2, h2.2⟩
    simp only [attrVars, List.mem_cons, List.not_mem_nil, or_false] at hw
    rcases hw with rfl | rfl <;> simp [exVar]

/-! ### C61 -/

/-- C61, in part: an institution of several lines becomes one line, the lines two spaces apart. -/
theorem C61_lines_partial (h : collectDict env globals a = .ok d) (hn : (globals.map Prod.fst).Nodup) {ls : List Str}
    {s : Str} (hl : LinesOf s ls) (ho : ¬ Occurs "(ONAME from NASA Ames file);".toList s)
    (hs : dictGet? globals "institution" = some (.str s)) :
    dictGet? d "ONAME" = some (.str (join "  ".toList ls)) ∧ dictGet? d "ORG" = some (.str (join "  ".toList ls)) := by
  obtain ⟨p⟩ := collectDict_parts h
  have e : splitInstitution s = (join "  ".toList ls, join "  ".toList ls) := by
    unfold splitInstitution
    rw [match_no_mark ho]
    have := unfoldLines_join ls hl.2.1
    rw [hl.2.2] at this
    rw [this]
  rw [p.rest _ (by decide), p.rest _ (by decide)]
  refine ⟨?_, ?_⟩
  · refine globGo_set "ONAME" "institution" (· = some (.str _)) (by simp [setters]) (.str s)
      (fun _ _ g => ?_) _ _ _ p.globs hn hs
    have := (globStep_institution g).1
    rwa [e] at this
  · refine globGo_set "ORG" "institution" (· = some (.str _)) (by simp [setters]) (.str s)
      (fun _ _ g => ?_) _ _ _ p.globs hn hs
    have := (globStep_institution g).2
    rwa [e] at this

example : LinesOf "British Atmospheric\nData Centre".toList ["British Atmospheric".toList, "Data Centre".toList] :=
  ⟨by decide, by decide, by decide⟩

/-! ### C59 -/

/-- C59 fails for the names of the auxiliary variables of 2110 and 2310: they hold the numbers of the second axis (how
many values it has, the first one and the increment) but give the name of the first. -/
theorem C59_axis_name_fails (h : collectDict env globals a = .ok d) :
    (a.ffi = 2110 → ∃ v ax0 more name rest, a.main.head? = some v ∧ v.axes = ax0 :: more ∧ ax0.bestName = .ok name ∧
      dictGet? d "ANAME" = some (pyStrs (("Number of '".toList ++ name ++
        "' values recorded in subsequent data records".toList) :: rest))) ∧
    (a.ffi = 2310 → ∃ v ax0 more name rest, a.main.head? = some v ∧ v.axes = ax0 :: more ∧ ax0.bestName = .ok name ∧
      dictGet? d "ANAME" = some (pyStrs (("Number of '".toList ++ name ++
        "' values recorded in subsequent data records".toList) ::
        ("'".toList ++ name ++ "' value for first data point".toList) ::
        ("'".toList ++ name ++ "' increment".toList) :: rest))) := by
  obtain ⟨p⟩ := collectDict_parts h
  obtain ⟨_, hind, x, hx, hs⟩ := p.vars_ok
  have hA : dictGet? d "ANAME" = some (pyStrs (p.s.aux.map VarItem.name)) := p.get "ANAME" (by simp [varItems]) (by decide) (by decide) (by simp [dictGet?])
  obtain ⟨ax, h1, h2⟩ := ok_of_bind hind
  obtain ⟨name, h3, h4⟩ := ok_of_bind h2
  obtain ⟨_, _, h5⟩ := ok_of_bind h4
  obtain ⟨_, _, h6⟩ := ok_of_bind h5
  obtain ⟨_, _, h7⟩ := ok_of_bind h6
  clear h2 h4 h5 h6
  have hax : ax = p.ax0 := by
    rw [coordByIndex, p.axes] at h1
    simpa [idx] using h1.symm
  subst hax
  refine ⟨fun hf => ?_, fun hf => ?_⟩
  · rw [if_pos hf] at h7
    obtain ⟨_, _, h8⟩ := ok_of_bind h7
    injection h8 with h8
    refine ⟨p.v, p.ax0, p.more, name, x.map VarItem.name, by rw [p.main]; rfl, p.axes, h3, ?_⟩
    rw [hA, hs, ← h8]
    rfl
  · rw [if_neg (by omega), if_pos hf] at h7
    obtain ⟨_, _, h8⟩ := ok_of_bind h7
    obtain ⟨_, _, h9⟩ := ok_of_bind h8
    obtain ⟨_, _, h10⟩ := ok_of_bind h9
    injection h10 with h10
    refine ⟨p.v, p.ax0, p.more, name, x.map VarItem.name, by rw [p.main]; rfl, p.axes, h3, ?_⟩
    rw [hA, hs, ← h10]
    rfl

/-- Both formats are chosen on request. -/
example : (∃ a d, Ex.Collected Ex.collectEnv (some 2110) Ex.globals
      [Ex.dataVar "temp" [exTime, exHeight] none none] 2110 a d ∧ decide (a.main.length = 1) = true) ∧
    ∃ a d, Ex.Collected Ex.collectEnv (some 2310) Ex.globals
      [Ex.dataVar "temp" [exTime, exHeight] none none] 2310 a d ∧ decide (a.main.length = 1) = true :=
  ⟨Ex.collected_of (P := fun a _ => decide (a.main.length = 1)) (by decide +kernel),
    Ex.collected_of (P := fun a _ => decide (a.main.length = 1)) (by decide +kernel)⟩

end Nappy.Props
