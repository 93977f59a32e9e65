import Verif.Props.ToNC

/-! The comments of a file grow with every trip to NetCDF variables and back (C52). -/

namespace Nappy

open Spec

variable {F : Type}

theorem strip_head {l t : Str} {c : Char} (hl : Blank l) (hc : isSpace c = false) :
    (strip (l ++ c :: t)).head? = some c := by
  have e : lstrip (l ++ c :: t) = c :: t := by
    unfold lstrip
    rw [List.dropWhile_append_of_pos (fun a ha => hl a ha), List.dropWhile_cons_of_neg (by simp [hc])]
  unfold strip rstrip
  rw [e]
  obtain ⟨r, h1, h2⟩ := rstripP_split isSpace (c :: t)
  cases hr : rstripP isSpace (c :: t) with
  | nil =>
    rw [hr, List.nil_append] at h1
    have := h2 c (by rw [← h1]; simp)
    rw [hc] at this
    cases this
  | cons x xs =>
    rw [hr] at h1
    injection h1 with h1 _
    rw [h1]
    rfl

theorem splitP_prefix (p t : Str) (hp : '\n' ∉ p) :
    ∃ x r, splitP (· == '\n') (p ++ t) = (p ++ x) :: r := by
  induction p with
  | nil =>
    cases h : splitP (· == '\n') t with
    | nil => exact absurd h (splitP_ne_nil _ _)
    | cons x r => exact ⟨x, r, h⟩
  | cons c p ih =>
    obtain ⟨x, r, h⟩ := ih (fun hm => hp (List.mem_cons_of_mem _ hm))
    have hc : ¬ ((c == '\n') = true) := by
      simp only [beq_iff_eq]
      rintro rfl
      exact hp (by simp)
    refine ⟨x, r, ?_⟩
    rw [List.cons_append, splitP, if_neg hc, h]
    rfl

theorem indentLines_head {s y : Str} {r : List Str} (h : splitP (· == '\n') s = y :: r) :
    ∃ r', indentLines s = y :: r' := by
  unfold indentLines
  rw [h]
  simp

/-- How many lines of a cleaned list have a property. -/
def cleanCount (P : Str → Bool) (l : List Str) : Nat := ((cleanComments l).filter P).length

theorem cleanCount_append (P : Str → Bool) (l m : List Str) :
    cleanCount P (l ++ m) = cleanCount P l + cleanCount P m := by
  simp [cleanCount, cleanComments]

theorem cleanCount_cons (P : Str → Bool) (c : Str) (m : List Str) :
    cleanCount P (c :: m) = cleanCount P [c] + cleanCount P m := cleanCount_append P [c] m

/-- A comment that begins with blanks and a visible character gives at least one line. -/
theorem cleanCount_one {P : Str → Bool} {l p t : Str} {c : Char} (hl : Blank l) (hc : isSpace c = false)
    (hn : '\n' ∉ l ++ c :: p) (hP : ∀ s : Str, (strip s).head? = some c → P s = true) :
    1 ≤ cleanCount P [l ++ c :: p ++ t] := by
  have h1 : (strip (l ++ c :: p ++ t)).isEmpty = false := by
    have := strip_head (t := p ++ t) hl hc
    rw [show l ++ c :: p ++ t = l ++ c :: (p ++ t) by simp]
    cases h : strip (l ++ c :: (p ++ t)) with
    | nil => rw [h] at this; cases this
    | cons _ _ => rfl
  obtain ⟨x, r, h2⟩ := splitP_prefix (l ++ c :: p) t hn
  have h3 : (strip (l ++ c :: p ++ x)).head? = some c := by
    rw [show l ++ c :: p ++ x = l ++ c :: (p ++ x) by simp]
    exact strip_head hl hc
  have h4 := hP _ h3
  have e : cleanComments [l ++ c :: p ++ t] = indentLines (l ++ c :: p ++ t) := by
    unfold cleanComments
    rw [List.filter_cons_of_pos (by show (!(strip _).isEmpty) = true; rw [h1]; rfl)]
    simp
  obtain ⟨r', h5⟩ := indentLines_head h2
  unfold cleanCount
  rw [e, h5, List.filter_cons_of_pos h4]
  simp

/-- The headings begin with an equals sign, as in `nappy.ini`. -/
def headingsEq (hp : Headings) : Prop :=
  ∀ h ∈ [hp.sc_start, hp.sc_end, hp.addl_vatts, hp.addl_globals], h.head? = some '='

/-- The test of `ownSpecial`. -/
def ownLine (hp : Headings) (s : Str) : Bool :=
  decide (strip s ∉ [[], hp.sc_start, hp.sc_end, hp.addl_vatts, hp.addl_globals])

theorem ownLine_of {hp : Headings} (hh : headingsEq hp) {c : Char} (hc : c ≠ '=') {s : Str}
    (hs : (strip s).head? = some c) : ownLine hp s = true := by
  unfold ownLine
  rw [decide_eq_true_eq]
  intro hm
  rcases List.mem_cons.1 hm with e | hm
  · rw [e] at hs; cases hs
  · have := hh _ hm
    rw [hs] at this
    injection this with this
    exact hc this

theorem attr_count {hp : Headings} (hh : headingsEq hp) (v : XVar F) (n : Str)
    (hv : ∃ pre short, v.attrs = pre ++ [("long_name", short), ("title", short)]) :
    3 ≤ cleanCount (ownLine hp) (if v.attrs = [] then [] else variableLine v.name n :: attrLines v.attrs) := by
  obtain ⟨pre, short, e⟩ := hv
  rw [if_neg (by rw [e]; simp), cleanCount_cons, e]
  unfold attrLines
  rw [List.map_append, cleanCount_append]
  simp only [List.map_cons, List.map_nil]
  rw [cleanCount_cons (ownLine hp) _ [_]]
  have b2 : Blank "  ".toList := by unfold Blank; decide
  have b4 : Blank "    ".toList := by unfold Blank; decide
  have h1 : 1 ≤ cleanCount (ownLine hp) [variableLine v.name n] := by
    have := cleanCount_one (P := ownLine hp) (l := "  ".toList) (p := "ariable ".toList)
      (t := v.name ++ (": ".toList ++ n)) (c := 'V') b2 (by decide) (by decide) (fun s hs => ownLine_of hh (by decide) hs)
    have e : "  Variable ".toList = "  ".toList ++ 'V' :: "ariable ".toList := by decide
    rw [← e] at this
    have e2 : variableLine v.name n = "  Variable ".toList ++ (v.name ++ (": ".toList ++ n)) := by
      unfold variableLine
      simp only [List.append_assoc]
    rw [e2]
    exact this
  have h2 : 1 ≤ cleanCount (ownLine hp) ["    ".toList ++ "long_name".toList ++ " = ".toList ++ short] := by
    have := cleanCount_one (P := ownLine hp) (l := "    ".toList) (p := "ong_name = ".toList)
      (t := short) (c := 'l') b4 (by decide) (by decide) (fun s hs => ownLine_of hh (by decide) hs)
    have e : "    long_name = ".toList = "    ".toList ++ 'l' :: "ong_name = ".toList := by decide
    rw [← e] at this
    rw [show "    ".toList ++ "long_name".toList ++ " = ".toList = "    long_name = ".toList by decide]
    exact this
  have h3 : 1 ≤ cleanCount (ownLine hp) ["    ".toList ++ "title".toList ++ " = ".toList ++ short] := by
    have := cleanCount_one (P := ownLine hp) (l := "    ".toList) (p := "itle = ".toList)
      (t := short) (c := 't') b4 (by decide) (by decide) (fun s hs => ownLine_of hh (by decide) hs)
    have e : "    title = ".toList = "    ".toList ++ 't' :: "itle = ".toList := by decide
    rw [← e] at this
    rw [show "    ".toList ++ "title".toList ++ " = ".toList = "    title = ".toList by decide]
    exact this
  omega

theorem attrs_count {hp : Headings} (hh : headingsEq hp) {main : List (XVar F)} {atts : List Str}
    (h : varAttrLines main = .ok atts)
    (hv : ∀ v ∈ main, ∃ pre short, v.attrs = pre ++ [("long_name", short), ("title", short)]) :
    3 * main.length ≤ cleanCount (ownLine hp) atts := by
  obtain ⟨ls, h1, h2⟩ := ok_of_bind h
  injection h2 with h2
  subst h2
  clear h
  induction main generalizing ls with
  | nil => simp
  | cons v t ih =>
    rw [mapRes] at h1
    obtain ⟨x, hx, h1⟩ := ok_of_bind h1
    obtain ⟨xs, hxs, h1⟩ := ok_of_bind h1
    injection h1 with h1
    subst h1
    obtain ⟨n, _, hx⟩ := ok_of_bind hx
    injection hx with hx
    have k1 := attr_count hh v n (hv v (by simp))
    rw [hx] at k1
    have k2 := ih (fun w hw => hv w (by simp [hw])) xs hxs
    rw [List.flatten_cons, cleanCount_append, List.length_cons]
    omega

theorem rawSpecial_count {hp : Headings} (hh : headingsEq hp) {e : List Str} {zero main : List (XVar F)}
    {scom : List Str} (h : rawSpecial hp e zero main = .ok scom)
    (hv : ∀ v ∈ main, ∃ pre short, v.attrs = pre ++ [("long_name", short), ("title", short)]) :
    cleanCount (ownLine hp) e + 3 * main.length ≤ cleanCount (ownLine hp) scom := by
  obtain ⟨sing, _, h'⟩ := ok_of_bind h
  obtain ⟨atts, h2, h'⟩ := ok_of_bind h'
  clear h
  rename' h' => h
  have k := attrs_count hh h2 hv
  by_cases he : e = []
  · rw [if_pos he] at h
    subst he
    injection h with h
    subst h
    have : cleanCount (ownLine hp) ([] : List Str) = 0 := rfl
    rw [this]
    split
    · rename_i ha
      rw [ha, this] at k
      omega
    · rw [cleanCount_append, cleanCount_append]
      omega
  · rw [if_neg he] at h
    injection h with h
    subst h
    rw [List.append_assoc, List.append_assoc, List.cons_append, cleanCount_cons, cleanCount_append, cleanCount_append]
    omega

theorem makeVar_titles {env : ToXEnv F} {axes : List (XAxis F)} {short : Str} {units : Option Str} {miss scal : F}
    {data : Tree F} {num aux : Option Int} {v : XVar F}
    (h : makeVar env axes short units miss scal data num aux = .ok v) :
    ∃ pre short, v.attrs = pre ++ [("long_name", short), ("title", short)] := by
  obtain ⟨_, _, h2⟩ := ok_of_bind h
  rw [← Except.ok.inj h2]
  exact ⟨_, _, rfl⟩

theorem toXarray_titles {env : ToXEnv F} {user : Dict (PyVal F)} {sel auxSel : Selection} {tu : Option Str}
    {o : Obj F} {r : ToXResult F} (h : toXarray env user sel auxSel tu o = .ok r) :
    ∀ v ∈ r.vars ++ r.aux, ∃ pre short, v.attrs = pre ++ [("long_name", short), ("title", short)] := by
  obtain ⟨n, axes, is, _, _, _, _, h5, h6, h7⟩ := toXarray_parts h
  intro v hv
  rcases List.mem_append.1 hv with hv | hv
  · obtain ⟨i, _, hi⟩ := mapRes_mem h5 hv
    obtain ⟨_, _, hi⟩ := ok_of_bind hi
    obtain ⟨_, _, hi⟩ := ok_of_bind hi
    obtain ⟨_, _, hi⟩ := ok_of_bind hi
    obtain ⟨_, _, hi⟩ := ok_of_bind hi
    exact makeVar_titles hi
  · by_cases hex : ∃ a, n.aux = some a ∧ a.NAUXV > 0
    · obtain ⟨a, ha, hpos⟩ := hex
      obtain ⟨js, _, h6⟩ := h6 a ha hpos
      obtain ⟨i, _, hi⟩ := mapRes_mem h6 hv
      obtain ⟨_, _, hi⟩ := ok_of_bind hi
      obtain ⟨_, _, hi⟩ := ok_of_bind hi
      obtain ⟨_, _, hi⟩ := ok_of_bind hi
      obtain ⟨_, _, hi⟩ := ok_of_bind hi
      exact makeVar_titles hi
    · rw [h7 (fun a ha hp => hex ⟨a, ha, hp⟩)] at hv
      cases hv

/-- What the collector makes of the comments that the conversion has put into the attribute `comment`. -/
theorem collected_growth {cenv : CollectEnv F} {hp : Headings} {com : ComHdr} {globals d : Dict (PyVal F)} {a : Analysis F}
    (hc : collectDict cenv globals a = .ok d) (gn : (globals.map Prod.fst).Nodup)
    (hcom : commentAttr hp com ≠ [] → dictGet? globals "comment" = some (.str (commentAttr hp com)))
    (hhp : cenv.hp = hp) (hh : HeadingsApart hp) (hq : headingsEq hp) (hw : WfCom com)
    (hS : ∀ s ∈ com.SCOM, strip s ∉ specialKnown hp → PlainComment hp s)
    (hN : ∀ s ∈ com.NCOM, strip s ∉ normalKnown hp → PlainComment hp s)
    (ht : ∀ v ∈ a.main, ∃ pre short, v.attrs = pre ++ [("long_name", short), ("title", short)]) :
    a.main ≠ [] ∧ ∃ S, dictGet? d "SCOM" = some (pyStrs S) ∧
      (ownSpecial hp com).length + 3 * a.main.length ≤ (ownSpecial hp { com with SCOM := S }).length := by
  obtain ⟨p⟩ := collectDict_parts hc
  have hsnl : ∀ s ∈ com.SCOM, '\n' ∉ s := fun s hs hc => (hw.scom s hs _ hc).1 rfl
  have hnnl : ∀ s ∈ com.NCOM, '\n' ∉ s := fun s hs hc => (hw.ncom s hs _ hc).1 rfl
  have k3 := rawSpecial_count (hp := hp) hq (by rw [← hhp]; exact p.special) ht
  have hnone : com.NSCOML ≤ 0 → ownSpecial hp com = [] := by
    intro h
    have : com.SCOM = [] := List.length_eq_zero_iff.1 (by have := hw.nscoml; omega)
    rw [ownSpecial, this]
    rfl
  have k2 : (ownSpecial hp com).length ≤ cleanCount (ownLine hp) p.g.extra0 := by
    by_cases he : commentAttr hp com = []
    · have hl := commentAttr_lines hh com hsnl hnnl
      rw [he] at hl
      have : com.NSCOML ≤ 0 := by
        by_contra hpos
        rw [decide_eq_true (by omega : com.NSCOML > 0)] at hl
        cases hl
      rw [hnone this]
      exact Nat.zero_le _
    · obtain ⟨b1, _⟩ := comments_back hh com hsnl hnnl
        (fun i hi => by
          obtain ⟨h1, h2⟩ := List.mem_filter.1 hi
          exact hS i h1 (by simpa using h2))
        (fun i hi => by
          obtain ⟨h1, h2⟩ := List.mem_filter.1 hi
          exact hN i h1 (by simpa using h2))
      obtain ⟨e0, _⟩ := globGo_comment _ _ _ p.globs gn (hcom he)
      simp only [List.nil_append, hhp] at e0
      have k0 : p.g.extra0.filter (fun c => !(strip c).isEmpty) = ownSpecial hp com := by
        rw [e0, ← nonBlank_filter, b1]
        split
        · rw [nonBlank_filter, own_special]
        · rw [hnone (by omega)]
          rfl
      have k1 : cleanComments p.g.extra0 = ownSpecial hp com := by
        unfold cleanComments
        rw [k0]
        exact flatMap_indent fun s hs => hsnl s (List.mem_filter.1 hs).1
      unfold cleanCount
      rw [k1, List.filter_eq_self.2]
      intro s hs
      exact (List.mem_filter.1 hs).2
  refine ⟨?_, _, p.scomIs, ?_⟩
  · intro e
    unfold collectDict defineVars at hc
    rw [e] at hc
    cases hc
  · refine Nat.le_trans (Nat.add_le_add_right k2 _) ?_
    exact k3

end Nappy

namespace Nappy.Props

open Nappy Spec

variable {F : Type} {env : ToXEnv F} {user : Dict (PyVal F)} {sel auxSel : Selection} {tu : Option Str} {o : Obj F}
  {r : ToXResult F} {cenv : CollectEnv F} {a : Analysis F} {d : Dict (PyVal F)}

/-- C52 fails for every file that can be converted: each trip adds at least three lines of special comments for every
main variable, even if an earlier trip has already put them there. Comments must not hold one of the headings that
mark comments. -/
theorem C52_grows (h : toXarray env user sel auxSel tu o = .ok r) (hu : (user.map Prod.fst).Nodup)
    {req : Option Int} (ha : analyse cenv.x req (r.vars ++ r.aux) = .ok (some a))
    (hc : collectDict cenv r.attrs a = .ok d) (hhp : cenv.hp = env.hp) (hh : HeadingsApart env.hp)
    (hq : ∀ h ∈ [env.hp.sc_start, env.hp.sc_end, env.hp.addl_vatts, env.hp.addl_globals], h.head? = some '=')
    (hw : WfCom (comHeader o))
    (hS : ∀ s ∈ (comHeader o).SCOM, strip s ∉ specialKnown env.hp → PlainComment env.hp s)
    (hN : ∀ s ∈ (comHeader o).NCOM, strip s ∉ normalKnown env.hp → PlainComment env.hp s) :
    a.main ≠ [] ∧ ∃ S, dictGet? d "SCOM" = some (pyStrs S) ∧
      (ownSpecial env.hp (comHeader o)).length + 3 * a.main.length ≤
        (ownSpecial env.hp { comHeader o with SCOM := S }).length := by
  obtain ⟨gn, hcom⟩ := toXarray_comment h hu
  have hfrom := (analyse_from ha).1
  have ht := toXarray_titles h
  exact collected_growth hc gn (fun _ => hcom) hhp hh hq hw hS hN
    (fun v hv => ht v (hfrom v (List.mem_append_left _ hv)).1)

/-- The assumptions are met, for a file with two variables: one special comment before the trip and nine after
it. -/
example : (∀ h ∈ [iniHeadings.sc_start, iniHeadings.sc_end, iniHeadings.addl_vatts, iniHeadings.addl_globals],
      h.head? = some '=') ∧
    ∃ r a d, toXarray Ex.toXEnv [] .all .all none (.o1001 Ex.d1001) = .ok r ∧
      analyse Ex.collectEnv.x none (r.vars ++ r.aux) = .ok (some a) ∧ collectDict Ex.collectEnv r.attrs a = .ok d ∧
      decide (a.main.length = 2 ∧ (ownSpecial iniHeadings Ex.d1001.com).length = 1 ∧
        (dictGet? d "SCOM").bind Ex.strs = some Ex.specialBack ∧
        (ownSpecial iniHeadings { Ex.d1001.com with SCOM := Ex.specialBack }).length = 9) = true :=
  ⟨by decide, Ex.back_of (P := fun _ a d => decide (a.main.length = 2 ∧
    (ownSpecial iniHeadings Ex.d1001.com).length = 1 ∧ (dictGet? d "SCOM").bind Ex.strs = some Ex.specialBack ∧
    (ownSpecial iniHeadings { Ex.d1001.com with SCOM := Ex.specialBack }).length = 9)) (by decide +kernel)⟩

end Nappy.Props
