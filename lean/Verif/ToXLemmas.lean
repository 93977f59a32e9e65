import Verif.CommentLemmas
import Verif.CollectObj
import Verif.ConvertLemmas
import Verif.InstLemmas

/-! Facts about the conversion of NASA Ames files to variables. -/

namespace Nappy

open Spec

variable {F : Type}

/-! ### Global attributes -/

theorem setAll_get {α : Type} (l : Dict α) : ∀ (d : Dict α) (k : String), (l.map Prod.fst).Nodup →
    dictGet? (setAll d l) k = (match dictGet? l k with | some v => some v | none => dictGet? d k) := by
  induction l with
  | nil => intro d k _; rfl
  | cons kv t ih =>
    obtain ⟨k', v⟩ := kv
    intro d k hn
    rw [List.map_cons, List.nodup_cons] at hn
    rw [setAll, ih _ _ hn.2]
    by_cases hk : k' = k
    · subst hk
      have : dictGet? t k' = none := by
        cases e : dictGet? t k' with
        | none => rfl
        | some w => exact absurd (List.mem_map.2 ⟨_, dictGet?_mem e, rfl⟩) hn.1
      rw [this]
      simp [dictGet?, dictGet?_set]
    · rw [dictGet?, if_neg hk]
      cases dictGet? t k with
      | some w => rfl
      | none => simp [dictGet?_set, hk]

theorem setAll_keys {α : Type} (l : Dict α) : ∀ (d : Dict α) (k : String),
    k ∈ (setAll d l).map Prod.fst ↔ k ∈ d.map Prod.fst ∨ k ∈ l.map Prod.fst := by
  induction l with
  | nil => intro d k; simp [setAll]
  | cons kv t ih =>
    obtain ⟨k', v⟩ := kv
    intro d k
    rw [setAll, ih, dictSet_keys]
    simp only [List.map_cons, List.mem_cons]
    constructor
    · rintro ((h | h) | h) <;> simp [h]
    · rintro (h | h | h) <;> simp [h]

theorem setAll_nodup {α : Type} (l : Dict α) : ∀ (d : Dict α), (d.map Prod.fst).Nodup →
    ((setAll d l).map Prod.fst).Nodup := by
  induction l with
  | nil => intro d h; exact h
  | cons kv t ih =>
    obtain ⟨k', v⟩ := kv
    intro d h
    exact ih _ (dictSet_nodup _ _ _ h)

theorem dictSet_keyList {α : Type} (d : Dict α) (k : String) (v : α) :
    (dictSet d k v).map Prod.fst = if k ∈ d.map Prod.fst then d.map Prod.fst else d.map Prod.fst ++ [k] := by
  induction d with
  | nil => simp [dictSet]
  | cons p t ih =>
    obtain ⟨k', v'⟩ := p
    unfold dictSet
    by_cases e : k' = k
    · simp [e]
    · rw [if_neg e, List.map_cons, ih]
      by_cases h : k ∈ t.map Prod.fst
      · rw [if_pos h, if_pos (by simp only [List.map_cons, List.mem_cons]; exact .inr h)]; rfl
      · rw [if_neg h, if_neg (by simp only [List.map_cons, List.mem_cons, not_or]; exact ⟨fun x => e x.symm, h⟩)]; rfl

theorem setAll_keyList {α : Type} (l : Dict α) : ∀ (d : Dict α), (l.map Prod.fst).Nodup →
    (setAll d l).map Prod.fst = d.map Prod.fst ++ (l.map Prod.fst).filter (fun k => !(d.map Prod.fst).contains k) := by
  induction l with
  | nil => intro d _; simp [setAll]
  | cons kv t ih =>
    obtain ⟨k, v⟩ := kv
    intro d hn
    rw [List.map_cons, List.nodup_cons] at hn
    rw [setAll, ih _ hn.2, dictSet_keyList, List.map_cons]
    by_cases h : k ∈ d.map Prod.fst
    · rw [if_pos h, List.filter_cons, if_neg (by simpa using h)]
    · rw [if_neg h, List.filter_cons, if_pos (by simpa using h), List.append_assoc]
      congr 1
      show k :: _ = _
      congr 1
      refine List.filter_congr fun x hx => ?_
      have : x ≠ k := by rintro rfl; exact hn.1 hx
      simp [this]

theorem mappedAttrs_keys {hp : Headings} {stamp version : Str} {c : Common} {com : ComHdr} {m : Dict (PyVal F)}
    (h : mappedAttrs hp stamp version c com = .ok m) : m.map Prod.fst = attributeNames := by
  obtain ⟨hist, h1, h2⟩ := ok_of_bind h
  injection h2 with h2
  subst h2
  rfl

theorem get_of_mem {α : Type} {d : Dict α} {k : String} {v : α} (hn : (d.map Prod.fst).Nodup) (h : (k, v) ∈ d) :
    dictGet? d k = some v := by
  induction d with
  | nil => cases h
  | cons p t ih =>
    obtain ⟨k', v'⟩ := p
    rw [List.map_cons, List.nodup_cons] at hn
    rcases List.mem_cons.1 h with e | e
    · injection e with e1 e2
      subst e1 e2
      simp [dictGet?]
    · rw [dictGet?, if_neg]
      · exact ih hn.2 e
      · rintro rfl
        exact hn.1 (List.mem_map.2 ⟨_, e, rfl⟩)

/-- The attributes returned: those of the caller in their order, then the others; the file decides the ten values
that come from it. -/
theorem globalAttrs_facts {hp : Headings} {stamp version : Str} {c : Common} {com : ComHdr}
    {user g : Dict (PyVal F)} (h : globalAttrs hp stamp version c com user = .ok g)
    (hu : (user.map Prod.fst).Nodup) :
    ∃ m, mappedAttrs hp stamp version c com = .ok m ∧
      g.map Prod.fst = user.map Prod.fst ++ attributeNames.filter (fun k => !(user.map Prod.fst).contains k) ∧
      (g.map Prod.fst).Nodup ∧
      ∀ k, dictGet? g k = (match dictGet? m k with | some v => some v | none => dictGet? user k) := by
  obtain ⟨m, hm, h1⟩ := ok_of_bind h
  obtain ⟨old, ho, h2⟩ := ok_of_bind h1
  injection h2 with h2
  have hmk := mappedAttrs_keys hm
  have hmn : (m.map Prod.fst).Nodup := by rw [hmk]; decide
  have ha0 : (setAll ([] : Dict (PyVal F)) user).map Prod.fst = user.map Prod.fst := by
    rw [setAll_keyList _ _ hu]; simp
  have hak := setAll_keyList m (setAll ([] : Dict (PyVal F)) user) hmn
  have han : ((setAll (setAll ([] : Dict (PyVal F)) user) m).map Prod.fst).Nodup :=
    setAll_nodup _ _ (setAll_nodup _ _ (by simp))
  have hget : ∀ k, dictGet? (setAll (setAll ([] : Dict (PyVal F)) user) m) k
      = (match dictGet? m k with | some v => some v | none => dictGet? user k) := by
    intro k
    rw [setAll_get _ _ _ hmn, setAll_get _ _ _ hu]
    cases dictGet? m k with
    | some v => rfl
    | none =>
      cases dictGet? user k with
      | some v => rfl
      | none => rfl
  generalize setAll (setAll ([] : Dict (PyVal F)) user) m = atts at *
  rw [ha0, hmk] at hak
  have hold : old.map Prod.fst = user.map Prod.fst := by
    refine mapRes_project ho (fun kv _ y hy => ?_)
    obtain ⟨v, _, h4⟩ := ok_of_bind hy
    injection h4 with h4
    rw [← h4]
  have hkeys : g.map Prod.fst
      = user.map Prod.fst ++ attributeNames.filter (fun k => !(user.map Prod.fst).contains k) := by
    rw [← h2, List.map_append, hold]
    congr 1
    rw [show atts.filter (fun kv => !(user.map Prod.fst).contains kv.1)
      = atts.filter ((fun k => !(user.map Prod.fst).contains k) ∘ Prod.fst) from rfl, ← List.filter_map, hak,
      List.filter_append, List.filter_filter]
    simp
  refine ⟨m, hm, hkeys, ?_, ?_⟩
  · rw [hkeys, ← hak]; exact han
  · intro k
    rw [← hget]
    have hgn : (g.map Prod.fst).Nodup := by rw [hkeys, ← hak]; exact han
    by_cases hk : k ∈ user.map Prod.fst
    · have : k ∈ old.map Prod.fst := by rw [hold]; exact hk
      obtain ⟨⟨k', v⟩, hv, rfl⟩ := List.mem_map.1 this
      obtain ⟨kv, _, hkv⟩ := mapRes_mem ho hv
      obtain ⟨w, h3, h4⟩ := ok_of_bind hkv
      injection h4 with h4
      injection h4 with h4 h5
      subst h5
      subst h4
      rw [get_of_mem hgn (by rw [← h2]; exact List.mem_append_left _ hv)]
      unfold dictGet at h3
      split at h3
      · rename_i e; injection h3 with h3; subst h3; exact e.symm
      · cases h3
    · cases e : dictGet? atts k with
      | some v =>
        refine get_of_mem hgn ?_
        rw [← h2, List.mem_append, List.mem_filter]
        refine .inr ⟨dictGet?_mem e, ?_⟩
        rw [hold]
        simpa using hk
      | none =>
        cases e2 : dictGet? g k with
        | none => rfl
        | some v =>
          have : k ∈ g.map Prod.fst := List.mem_map.2 ⟨_, dictGet?_mem e2, rfl⟩
          rw [hkeys, ← hak] at this
          exact absurd this (absent_of_none e)

/-! ### Variables -/

theorem idxI_nat {α : Type} (l : List α) (i : Nat) : idxI l (i : Int) = idx l i := by
  unfold idxI
  rw [if_pos (by omega)]
  rfl

theorem idx_some {α : Type} {l : List α} {i : Nat} {a : α} (h : idx l i = .ok a) : l[i]? = some a := by
  unfold idx at h
  split at h
  · injection h with h; subst h; assumption
  · cases h

/-- What the view keeps. -/
theorem view_facts {add : F → F → F} {o : Obj F} {n : NAView F} (h : o.view add = .ok n) :
    n.c = o.common ∧ n.com = comHeader o ∧ n.v = varHeader o ∧ n.NIV = (axisHeader o).1 ∧
      n.XNAME = (axisHeader o).2 ∧ (∀ i, n.V[i]? = mainArray o i) ∧
      (∀ a, n.aux = some a → a.NAUXV = auxCount o ∧ (∀ i, n.A[i]? = auxColumn o i) ∧
        ∀ i name m s, (a.ANAME[i]? = some name ∧ a.AMISS[i]? = some m ∧ a.ASCAL[i]? = some s) →
          DeclaresAux o i name (.num m) (some s)) ∧
      (n.aux = none → auxCount o = 0) := by
  cases o with
  | o1001 r =>
    injection h with h
    subst h
    exact ⟨rfl, rfl, rfl, rfl, rfl, fun i => by rw [mainArray, List.getElem?_map]; rfl,
      ⟨fun a ha => (by cases ha), fun _ => rfl⟩⟩
  | o1010 r =>
    injection h with h
    subst h
    refine ⟨rfl, rfl, rfl, rfl, rfl, fun i => by rw [mainArray, List.getElem?_map]; rfl, fun a ha => ?_,
      fun h => by cases h⟩
    injection ha with ha
    subst ha
    exact ⟨rfl, fun i => rfl, fun i name m s h => ⟨h.1, ⟨m, h.2.1, rfl⟩, rfl, h.2.2⟩⟩
  | o1020 r =>
    unfold Obj.view at h
    dsimp only at h
    split at h <;> cases h
  | o2010 r =>
    obtain ⟨s, h1, h2⟩ := ok_of_bind h
    injection h2 with h2
    subst h2
    unfold normalizeIndVars at h1
    obtain ⟨xs, _, h4⟩ := ok_of_bind h1
    injection h4 with h4
    subst h4
    refine ⟨rfl, rfl, rfl, rfl, rfl, fun i => by simp [mainArray], fun a ha => ?_, fun h => by cases h⟩
    injection ha with ha
    subst ha
    exact ⟨rfl, fun i => rfl, fun i name m s h => ⟨h.1, ⟨m, h.2.1, rfl⟩, rfl, h.2.2⟩⟩
  | o2110 r => cases h
  | o2160 r => cases h
  | o2310 r => cases h

/-- The parts of a conversion. -/
theorem toXarray_parts {env : ToXEnv F} {user : Dict (PyVal F)} {sel auxSel : Selection} {tu : Option Str}
    {o : Obj F} {r : ToXResult F} (h : toXarray env user sel auxSel tu o = .ok r) :
    ∃ n axes is, o.view env.add = .ok n ∧ globalAttrs env.hp env.stamp env.version n.c n.com user = .ok r.attrs ∧
      axesGo env n tu 0 n.NIV.toNat = .ok axes ∧ mainNumbers n sel = .ok is ∧
      mapRes (mainVar env n axes) is = .ok r.vars ∧
      (∀ a, n.aux = some a → a.NAUXV > 0 → ∃ js, auxNumbers a auxSel = .ok js ∧
        mapRes (auxVar env n a axes) js = .ok r.aux) ∧
      ((∀ a, n.aux = some a → ¬ a.NAUXV > 0) → r.aux = []) := by
  obtain ⟨n, h1, h⟩ := ok_of_bind h
  obtain ⟨g, h2, h⟩ := ok_of_bind h
  obtain ⟨axes, h3, h⟩ := ok_of_bind h
  obtain ⟨is, h4, h⟩ := ok_of_bind h
  obtain ⟨vars, h5, h⟩ := ok_of_bind h
  obtain ⟨aux, h6, h⟩ := ok_of_bind h
  injection h with h
  subst h
  refine ⟨n, axes, is, h1, h2, h3, h4, h5, ?_, ?_⟩
  · intro a ha hp
    rw [ha] at h6
    dsimp only at h6
    rw [if_pos hp] at h6
    exact ok_of_bind h6
  · intro hno
    cases hx : n.aux with
    | none => rw [hx] at h6; injection h6 with h6; exact h6.symm
    | some a =>
      rw [hx] at h6
      dsimp only at h6
      rw [if_neg (hno a hx)] at h6
      injection h6 with h6
      exact h6.symm

theorem units_attr (units : Option Str) (short : Str) :
    dictGet? ((match units with
          | some u => if u = [] then [] else [("units", u)]
          | none => []) ++ [("long_name", short), ("title", short)]) "units"
      = units.filter (fun u => !u.isEmpty) := by
  cases units with
  | none => simp [dictGet?]
  | some u => cases u with
    | nil => simp [dictGet?]; rfl
    | cons c t => simp [dictGet?]; rfl

theorem makeVar_facts {env : ToXEnv F} {axes : List (XAxis F)} {short : Str} {units : Option Str} {miss scal : F}
    {data : Tree F} {num aux : Option Int} {v : XVar F}
    (h : makeVar env axes short units miss scal data num aux = .ok v) :
    v.data = mapTree (fun x => env.mul x scal) data ∧ v.miss = some miss ∧ v.axes = axes ∧ v.naNumber = num ∧
      v.naAuxNumber = aux ∧ dictGet? v.attrs "units" = units.filter (fun u => !u.isEmpty) ∧
      hasShape (axes.map (fun a => a.values.length)) v.data = true ∧ (axes.map XAxis.name).Nodup := by
  obtain ⟨_, h1, h2⟩ := ok_of_bind h
  injection h2 with h2
  subst h2
  unfold checkArray at h1
  split at h1
  · rename_i hc
    simp only [Bool.and_eq_true, decide_eq_true_eq] at hc
    exact ⟨mapVals_eq _ _, rfl, rfl, rfl, rfl, units_attr _ _, hc.1, hc.2⟩
  · cases h1

/-- One main variable. -/
theorem mainVar_facts {env : ToXEnv F} {o : Obj F} {n : NAView F} (hn : o.view env.add = .ok n)
    {axes : List (XAxis F)} {i : Nat} {v : XVar F} (h : mainVar env n axes i = .ok v) :
    ∃ name miss scal data, DeclaresVar o i name miss scal ∧ mainArray o i = some data ∧
      Carries env.mul env.cb name miss scal data v ∧ v.axes = axes ∧ v.naNumber = some (i : Int) ∧
      v.naAuxNumber = none ∧ hasShape (axes.map (fun a => a.values.length)) v.data = true ∧
      (axes.map XAxis.name).Nodup := by
  obtain ⟨name, h1, h⟩ := ok_of_bind h
  obtain ⟨miss, h2, h⟩ := ok_of_bind h
  obtain ⟨scal, h3, h⟩ := ok_of_bind h
  obtain ⟨data, h4, h⟩ := ok_of_bind h
  rw [idxI_nat] at h1 h2 h3 h4
  have f := view_facts hn
  obtain ⟨g1, g2, g3, g4, g5, g6, g7, g8⟩ := makeVar_facts h
  refine ⟨name, miss, scal, data, ⟨?_, ?_, ?_⟩, ?_, ⟨g1, g2, g6⟩, g3, g4, g5, g7, g8⟩
  · rw [← f.2.2.1]; exact idx_some h1
  · rw [← f.2.2.1]; exact idx_some h2
  · rw [← f.2.2.1]; exact idx_some h3
  · rw [← f.2.2.2.2.2.1]; exact idx_some h4

/-- One auxiliary variable. -/
theorem auxVar_facts {env : ToXEnv F} {o : Obj F} {n : NAView F} (hn : o.view env.add = .ok n) {a : AuxHdr F}
    (ha : n.aux = some a) {axes : List (XAxis F)} {i : Nat} {v : XVar F} (h : auxVar env n a axes i = .ok v) :
    ∃ name miss scal col, DeclaresAux o i name (.num miss) (some scal) ∧ auxColumn o i = some col ∧
      Carries env.mul env.cb name miss scal (.lst (col.map .val)) v ∧ v.axes = axes.take 1 ∧
      v.naNumber = none ∧ v.naAuxNumber = some (i : Int) ∧
      hasShape ((axes.take 1).map (fun a => a.values.length)) v.data = true := by
  obtain ⟨name, h1, h⟩ := ok_of_bind h
  obtain ⟨miss, h2, h⟩ := ok_of_bind h
  obtain ⟨scal, h3, h⟩ := ok_of_bind h
  obtain ⟨data, h4, h⟩ := ok_of_bind h
  rw [idxI_nat] at h1 h2 h3 h4
  obtain ⟨f1, f2, f3⟩ := (view_facts hn).2.2.2.2.2.2.1 a ha
  obtain ⟨g1, g2, g3, g4, g5, g6, g7, g8⟩ := makeVar_facts h
  refine ⟨name, miss, scal, data, f3 i name miss scal ⟨idx_some h1, idx_some h2, idx_some h3⟩, ?_,
    ⟨g1, g2, g6⟩, g3, g4, g5, g7⟩
  rw [← f2]; exact idx_some h4

/-! ### Comments in the collected dictionary -/

theorem globStep_extra {env : CollectEnv F} {s s' : GlobState F} {key : String} {v : PyVal F}
    (h : globStep env s key v = .ok s') (hk : key ≠ "comment") : s'.extra0 = s.extra0 ∧ s'.extra1 = s.extra1 := by
  unfold globStep at h
  rw [if_neg hk] at h
  split at h
  · injection h with h; subst h; exact ⟨rfl, rfl⟩
  split at h
  · injection h with h; subst h; exact ⟨rfl, rfl⟩
  split at h
  · split at h
    · injection h with h; subst h; exact ⟨rfl, rfl⟩
    · cases h
  split at h
  · injection h with h; subst h; exact ⟨rfl, rfl⟩
  split at h
  · injection h with h; subst h; exact ⟨rfl, rfl⟩
  · injection h with h; subst h; exact ⟨rfl, rfl⟩

theorem globGo_extra {env : CollectEnv F} :
    ∀ (l : Dict (PyVal F)) (s s' : GlobState F), globGo env s l = .ok s' → "comment" ∉ l.map Prod.fst →
      s'.extra0 = s.extra0 ∧ s'.extra1 = s.extra1 := by
  intro l
  induction l with
  | nil => intro s s' h _; injection h with h; subst h; exact ⟨rfl, rfl⟩
  | cons kv l ih =>
    obtain ⟨k, v⟩ := kv
    intro s s' h hk
    obtain ⟨s1, h1, h2⟩ := ok_of_bind h
    simp only [List.map_cons, List.mem_cons, not_or] at hk
    obtain ⟨a, b⟩ := ih s1 s' h2 hk.2
    obtain ⟨c, d⟩ := globStep_extra h1 (fun e => hk.1 e.symm)
    exact ⟨a.trans c, b.trans d⟩

theorem globGo_comment {env : CollectEnv F} {txt : Str} :
    ∀ (l : Dict (PyVal F)) (s s' : GlobState F), globGo env s l = .ok s' → (l.map Prod.fst).Nodup →
      dictGet? l "comment" = some (.str txt) →
      s'.extra0 = s.extra0 ++ (parseComment env.hp txt).1 ∧ s'.extra1 = s.extra1 ++ (parseComment env.hp txt).2 := by
  intro l
  induction l with
  | nil => intro s s' _ _ h; cases h
  | cons kv l ih =>
    obtain ⟨k, v⟩ := kv
    intro s s' h hn hg
    obtain ⟨s1, h1, h2⟩ := ok_of_bind h
    rw [List.map_cons, List.nodup_cons] at hn
    by_cases hk : k = "comment"
    · subst hk
      simp only [dictGet?, if_true, Option.some.injEq] at hg
      subst hg
      obtain ⟨a, b⟩ := globGo_extra l s1 s' h2 hn.1
      simp [globStep, PyVal.plain] at h1
      subst h1
      exact ⟨a, b⟩
    · simp only [dictGet?, if_neg hk] at hg
      obtain ⟨a, b⟩ := ih s1 s' h2 hn.2 hg
      obtain ⟨c, d⟩ := globStep_extra h1 hk
      exact ⟨by rw [a, c], by rw [b, d]⟩

theorem strip_ne_nl (s : Str) : strip s ≠ ['\n'] := by
  intro h
  have := strip_strip s
  rw [h] at this
  exact absurd this (by decide)

theorem strip_nil : strip ([] : Str) = [] := by decide

theorem nonBlank_filter (l : List Str) :
    (nonEmpty l).filter (fun c => !(strip c).isEmpty) = l.filter (fun c => !(strip c).isEmpty) := by
  unfold nonEmpty
  rw [List.filter_filter]
  refine List.filter_congr fun x _ => ?_
  cases x with
  | nil => rfl
  | cons c t => simp

theorem own_special (hp : Headings) (com : ComHdr) :
    (keptComments (specialKnown hp) com.SCOM).filter (fun c => !(strip c).isEmpty) = ownSpecial hp com := by
  unfold keptComments ownSpecial specialKnown
  rw [List.filter_filter]
  refine List.filter_congr fun x _ => ?_
  have : strip x ≠ ['\n'] := strip_ne_nl x
  rw [Bool.eq_iff_iff]
  simp [this]

theorem own_normal (hp : Headings) (com : ComHdr) :
    (keptComments (normalKnown hp) com.NCOM).filter (fun c => !(strip c).isEmpty) = ownNormal hp com := by
  unfold keptComments ownNormal normalKnown
  rw [List.filter_filter]
  refine List.filter_congr fun x _ => ?_
  have : strip x ≠ ['\n'] := strip_ne_nl x
  rw [Bool.eq_iff_iff]
  simp [this]

theorem indentLines_plain {s : Str} (h : '\n' ∉ s) : indentLines s = [s] := by
  unfold indentLines
  rw [splitP_none isNl s]
  · simp
  · intro c hc
    simp only [beq_eq_false_iff_ne]
    rintro rfl
    exact h hc

theorem flatMap_indent {l : List Str} (h : ∀ s ∈ l, '\n' ∉ s) : l.flatMap indentLines = l := by
  induction l with
  | nil => rfl
  | cons s t ih =>
    rw [List.flatMap_cons, indentLines_plain (h s (by simp)), ih (fun x hx => h x (by simp [hx]))]
    rfl

theorem flatMap_sublist {α β : Type} (f : α → List β) {l m : List α} (h : l.Sublist m) :
    (l.flatMap f).Sublist (m.flatMap f) := by
  induction h with
  | slnil => simp
  | cons a h ih => rw [List.flatMap_cons]; exact ih.trans (List.sublist_append_right _ _)
  | cons_cons a h ih =>
    rw [List.flatMap_cons, List.flatMap_cons]
    exact (List.Sublist.refl _).append ih

/-- Lines that are part of a list stay part of it when it is cleaned. -/
theorem clean_sublist {l m own : List Str} (h : l.filter (fun c => !(strip c).isEmpty) = own)
    (ho : ∀ s ∈ own, '\n' ∉ s) (hs : l.Sublist m) : own.Sublist (cleanComments m) := by
  unfold cleanComments
  have h1 := hs.filter (fun c => !(strip c).isEmpty)
  rw [h] at h1
  have h2 : (own.flatMap indentLines).Sublist ((m.filter (fun c => !(strip c).isEmpty)).flatMap indentLines) := by
    exact flatMap_sublist _ h1
  rwa [flatMap_indent ho] at h2

theorem rawSpecial_extra {hp : Headings} {e : List Str} {zero main : List (XVar F)} {scom : List Str}
    (h : rawSpecial hp e zero main = .ok scom) : e.Sublist scom := by
  obtain ⟨sing, h1, h⟩ := ok_of_bind h
  obtain ⟨atts, h2, h⟩ := ok_of_bind h
  split at h
  · rename_i he; rw [he]; exact List.nil_sublist _
  · injection h with h
    subst h
    refine (List.sublist_cons_self hp.sc_start e).trans ?_
    rw [List.append_assoc, List.append_assoc]
    exact List.sublist_append_left _ _

theorem rawNormal_extra (hp : Headings) (s : GlobState F) : s.extra1.Sublist (rawNormal hp s) := by
  unfold rawNormal
  by_cases he : s.extra1 = []
  · rw [he]; exact List.nil_sublist _
  · rw [if_neg he]
    dsimp only
    rw [if_neg (by simp)]
    have h1 : s.extra1.Sublist (s.extra2 ++ hp.addl_globals :: s.extra1 ++ s.history.getD []) :=
      ((List.sublist_cons_self _ _).trans (List.sublist_append_right _ _)).trans (List.sublist_append_left _ _)
    exact (h1.trans (List.sublist_append_left _ _)).cons _

/-! ### Axes -/

theorem axisOf_facts {env : ToXEnv F} {i : Nat} {xname : Str} {values : List F} {tu : Option Str}
    {r : XAxis F × Option Str} (h : axisOf env i xname values tu = .ok r) : r.1.values = values := by
  unfold axisOf at h
  obtain ⟨x, _, h⟩ := ok_of_bind h
  injection h with h
  subst h
  rfl

theorem axesGo_values {env : ToXEnv F} {n : NAView F} :
    ∀ (k i : Nat) (tu : Option Str) (axes : List (XAxis F)), axesGo env n tu i k = .ok axes →
      axes.map XAxis.values = (n.X.drop i).take k ∧ axes.length = k
  | 0, i, tu, axes, h => by injection h with h; subst h; simp
  | k + 1, i, tu, axes, h => by
    obtain ⟨vals, h1, h⟩ := ok_of_bind h
    obtain ⟨xn, h2, h⟩ := ok_of_bind h
    obtain ⟨r, h3, h⟩ := ok_of_bind h
    obtain ⟨rest, h4, h⟩ := ok_of_bind h
    injection h with h
    subst h
    obtain ⟨e1, e2⟩ := axesGo_values k (i + 1) r.2 rest h4
    have hi := idx_some h1
    obtain ⟨hlt, hget⟩ := List.getElem?_eq_some_iff.1 hi
    refine ⟨?_, by simp [e2]⟩
    rw [List.map_cons, e1, axisOf_facts h3, List.drop_eq_getElem_cons hlt, hget]
    rfl

theorem askUnits_ok {timeMatch : Str → Bool} : ∀ {l : List Str}, (∃ a ∈ l, a = [] ∨ timeMatch a = true) →
    ∃ a, askUnits timeMatch l = .ok a
  | [], h => by obtain ⟨a, ha, _⟩ := h; cases ha
  | b :: t, h => by
    unfold askUnits
    split
    · exact ⟨b, rfl⟩
    · rename_i hb
      obtain ⟨a, ha, hc⟩ := h
      rcases List.mem_cons.1 ha with rfl | ha
      · exfalso
        apply hb
        rcases hc with rfl | hc
        · simp
        · simp [hc]
      · exact askUnits_ok ⟨a, ha, hc⟩

theorem timeUnits_ok {env : ToXEnv F} {tu : Option Str} (hu : UnitsKnown env.timeMatch env.answers tu) :
    ∃ t, timeUnits env tu = .ok t := by
  unfold timeUnits
  rcases hu with h | h | ⟨l, h1, h2⟩
  · obtain ⟨t, ht⟩ := Option.isSome_iff_exists.1 h
    rw [ht]
    exact ⟨t, rfl⟩
  · cases tu with
    | some t => exact ⟨t, rfl⟩
    | none => rw [h]; exact ⟨[], rfl⟩
  · cases tu with
    | some t => exact ⟨t, rfl⟩
    | none => rw [h1]; exact askUnits_ok h2

theorem axisTime_ok {env : ToXEnv F} {tu : Option Str} (hu : UnitsKnown env.timeMatch env.answers tu)
    (units : Option Str) (na : Str × Dict Str) : ∃ r, axisTime env tu units na = .ok r := by
  unfold axisTime
  split
  · obtain ⟨t, ht⟩ := timeUnits_ok hu
    rw [ht]
    exact ⟨_, rfl⟩
  · exact ⟨_, rfl⟩

theorem axisOf_ok {env : ToXEnv F} {tu : Option Str} (hu : UnitsKnown env.timeMatch env.answers tu) (i : Nat)
    (xname : Str) (values : List F) :
    ∃ r, axisOf env i xname values tu = .ok r ∧ UnitsKnown env.timeMatch env.answers r.2 := by
  unfold axisOf
  dsimp only
  obtain ⟨x, hx⟩ := axisTime_ok hu (varAndUnits env.cb xname).2 _
  rw [hx, ok_bind]
  refine ⟨_, rfl, ?_⟩
  dsimp only
  cases x.2.2 with
  | some t => exact .inl rfl
  | none => exact hu

theorem axesGo_ok {env : ToXEnv F} {n : NAView F} :
    ∀ (k i : Nat) (tu : Option Str), UnitsKnown env.timeMatch env.answers tu → i + k ≤ n.X.length →
      i + k ≤ n.XNAME.length → ∃ axes, axesGo env n tu i k = .ok axes
  | 0, i, tu, _, _, _ => ⟨[], rfl⟩
  | k + 1, i, tu, hu, h1, h2 => by
    rw [axesGo]
    have l1 : i < n.X.length := by omega
    have l2 : i < n.XNAME.length := by omega
    have e1 : idx n.X i = .ok n.X[i] := by unfold idx; rw [List.getElem?_eq_getElem l1]
    have e2 : idx n.XNAME i = .ok n.XNAME[i] := by unfold idx; rw [List.getElem?_eq_getElem l2]
    obtain ⟨r, e3, hu'⟩ := axisOf_ok hu i n.XNAME[i] n.X[i]
    obtain ⟨rest, e4⟩ := axesGo_ok (n := n) k (i + 1) r.2 hu' (by omega) (by omega)
    rw [e1, ok_bind, e2, ok_bind, e3, ok_bind, e4]
    exact ⟨_, rfl⟩

/-- The view holds the values of the axes. -/
theorem view_axes {add : F → F → F} {o : Obj F} {n : NAView F} (h : o.view add = .ok n) : AxisValues add o n.X := by
  cases o with
  | o1001 r => injection h with h; subst h; rfl
  | o1010 r => injection h with h; subst h; rfl
  | o1020 r => unfold Obj.view at h; dsimp only at h; split at h <;> cases h
  | o2010 r =>
    obtain ⟨s, h1, h⟩ := ok_of_bind h
    injection h with h
    subst h
    exact ⟨s, h1, rfl⟩
  | o2110 r => cases h
  | o2160 r => cases h
  | o2310 r => cases h

/-! ### No refusal -/

theorem dictGet_of_mem {α : Type} {d : Dict α} {k : String} (h : k ∈ d.map Prod.fst) : ∃ v, dictGet d k = .ok v := by
  unfold dictGet
  cases e : dictGet? d k with
  | some v => exact ⟨v, rfl⟩
  | none => exact absurd h (absent_of_none e)

theorem mapRes_all_ok {α β : Type} {f : α → Res β} {l : List α} (h : ∀ a ∈ l, ∃ b, f a = .ok b) :
    ∃ r, mapRes f l = .ok r := by
  induction l with
  | nil => exact ⟨[], rfl⟩
  | cons a t ih =>
    obtain ⟨b, hb⟩ := h a (by simp)
    obtain ⟨r, hr⟩ := ih (fun x hx => h x (by simp [hx]))
    exact ⟨b :: r, by rw [mapRes, hb, ok_bind, hr]; rfl⟩

theorem globalAttrs_ok (hp : Headings) (stamp version : Str) {c : Common} (com : ComHdr) (user : Dict (PyVal F))
    (h : c.RDATE.length = 3) : ∃ g, globalAttrs hp stamp version c com user = .ok g := by
  obtain ⟨y, m, d, hr⟩ : ∃ y m d, c.RDATE = [y, m, d] := by
    match hc : c.RDATE, h with
    | [y, m, d], _ => exact ⟨y, m, d, rfl⟩
  have hm : ∃ mp, mappedAttrs (F := F) hp stamp version c com = .ok mp := by
    unfold mappedAttrs historyAttr
    rw [hr]
    exact ⟨_, rfl⟩
  obtain ⟨mp, hm⟩ := hm
  unfold globalAttrs
  rw [hm, ok_bind]
  obtain ⟨old, ho⟩ := mapRes_all_ok (f := fun kv : String × PyVal F => do
    let v ← dictGet (setAll (setAll [] user) mp) kv.1
    Except.ok (kv.1, v)) (l := user) (fun kv hkv => by
      obtain ⟨v, hv⟩ := dictGet_of_mem (d := setAll (setAll [] user) mp) (k := kv.1)
        ((setAll_keys _ _ _).2 (.inl ((setAll_keys _ _ _).2 (.inr (List.mem_map_of_mem hkv)))))
      exact ⟨(kv.1, v), by rw [hv]; rfl⟩)
  dsimp only
  rw [ho]
  exact ⟨_, rfl⟩

theorem shaped_iff {ds : List Nat} {t : Tree F} : hasShape ds t = true ↔ Shaped ds t := by
  induction ds generalizing t with
  | nil => cases t <;> simp [hasShape, Shaped]
  | cons d ds ih =>
    cases t with
    | val x => simp [hasShape, Shaped]
    | lst l =>
      simp only [hasShape, Shaped, Bool.and_eq_true, beq_iff_eq, List.all_eq_true]
      exact and_congr Iff.rfl (forall₂_congr fun t _ => ih)

theorem shaped_col (l : List F) : Shaped [l.length] (colTree l) := by
  refine ⟨by simp, ?_⟩
  intro t ht
  obtain ⟨x, _, rfl⟩ := List.mem_map.1 ht
  exact trivial

theorem makeVar_ok (env : ToXEnv F) {axes : List (XAxis F)} (short : Str) (units : Option Str) (miss scal : F)
    {data : Tree F} (num aux : Option Int) (h1 : Shaped (axes.map (fun a => a.values.length)) data)
    (h2 : (axes.map XAxis.name).Nodup) : ∃ v, makeVar env axes short units miss scal data num aux = .ok v := by
  unfold makeVar checkArray
  rw [if_pos]
  · exact ⟨_, rfl⟩
  · simp only [Bool.and_eq_true, decide_eq_true_eq]
    exact ⟨shaped_iff.2 (by rw [mapVals_eq]; exact shaped_map _ _ _ h1), h2⟩

theorem mainVar_ok (env : ToXEnv F) {n : NAView F} {axes : List (XAxis F)} {i : Nat} (h1 : i < n.v.VNAME.length)
    (h2 : i < n.v.VMISS.length) (h3 : i < n.v.VSCAL.length) (h4 : i < n.V.length)
    (hs : ∀ t ∈ n.V, Shaped (axes.map (fun a => a.values.length)) t) (ha : (axes.map XAxis.name).Nodup) :
    ∃ v, mainVar env n axes (i : Int) = .ok v := by
  unfold mainVar
  simp only [idxI_nat, idx_lt _ _ h1, idx_lt _ _ h2, idx_lt _ _ h3, idx_lt _ _ h4, ok_bind]
  exact makeVar_ok env _ _ _ _ _ _ (hs _ (List.getElem_mem h4)) ha

theorem auxVar_ok (env : ToXEnv F) {n : NAView F} {a : AuxHdr F} {axes : List (XAxis F)} {i : Nat}
    (h1 : i < a.ANAME.length) (h2 : i < a.AMISS.length) (h3 : i < a.ASCAL.length) (h4 : i < n.A.length)
    (hs : ∀ col ∈ n.A, (axes.take 1).map (fun a => a.values.length) = [col.length])
    (ha : (axes.map XAxis.name).Nodup) : ∃ v, auxVar env n a axes (i : Int) = .ok v := by
  unfold auxVar
  simp only [idxI_nat, idx_lt _ _ h1, idx_lt _ _ h2, idx_lt _ _ h3, idx_lt _ _ h4, ok_bind]
  refine makeVar_ok env _ _ _ _ _ _ ?_ ?_
  · rw [hs _ (List.getElem_mem h4)]; exact shaped_col _
  · rw [List.map_take]; exact ha.sublist (List.take_sublist _ _)

/-- For witnesses: a computation that evaluates to a result with a property. -/
theorem ok_of_eval {α : Type} {r : Res α} {P : α → Prop} [DecidablePred P]
    (h : (match r with | .ok a => decide (P a) | _ => false) = true) : ∃ a, r = .ok a ∧ P a := by
  split at h
  · exact ⟨_, rfl, of_decide_eq_true h⟩
  · cases h

theorem indexOf?_some {s : Str} : ∀ {l : List Str} {i : Nat}, indexOf? s l = some i →
    l[i]? = some s ∧ ∀ k < i, l[k]? ≠ some s
  | [], i, h => by cases h
  | a :: t, i, h => by
    unfold indexOf? at h
    split at h
    · rename_i e
      injection h with h
      subst h e
      exact ⟨rfl, fun k hk => by omega⟩
    · rename_i e
      rw [Option.map_eq_some_iff] at h
      obtain ⟨j, hj, rfl⟩ := h
      obtain ⟨h1, h2⟩ := indexOf?_some hj
      refine ⟨h1, fun k hk => ?_⟩
      cases k with
      | zero => simpa using e
      | succ k => exact h2 k (by omega)

theorem indexOf?_none {s : Str} : ∀ {l : List Str}, indexOf? s l = none ↔ s ∉ l
  | [] => by simp [indexOf?]
  | a :: t => by
    unfold indexOf?
    by_cases e : a = s
    · simp [e]
    · rw [if_neg e, Option.map_eq_none_iff, indexOf?_none, List.mem_cons]
      constructor
      · rintro h (h1 | h1)
        · exact e h1.symm
        · exact h h1
      · exact fun h h1 => h (.inr h1)

theorem extendAxis_length (add : F → F → F) (dx : F) : ∀ (k : Nat) (x : F), (extendAxis add dx k x).length = k + 1
  | 0, x => rfl
  | k + 1, x => by rw [extendAxis, List.length_cons, extendAxis_length add dx k]

/-- All the bounded axes of a well-formed file can be written out in full. -/
theorem normalize_ok (add : F → F → F) {r : NA2010 F} (hw : Wf2010 r) :
    ∃ s, normalizeIndVars add r = .ok s ∧ s.XB.map List.length = r.NX.map Int.toNat ∧
      s = { r with XB := s.XB } := by
  have hlen : r.XB.length = r.NXDEF.length := by rw [← hw.axes]; simp
  have hk : (r.NIV - 1).toNat = r.NX.length := by have := hw.nx; omega
  have hk2 : r.NXDEF.length = r.NX.length := by have := hw.nx; have := hw.nxdef; omega
  have hdx : r.DX.length = r.NX.length + 1 := by have := hw.nx; have := hw.dx; omega
  have step : ∀ i, i < r.NX.length → ∃ x, (do
      let n ← idx r.NXDEF i
      let nx ← idx r.NX i
      let x ← idx r.XB i
      if n = nx then .ok x
      else do
        let dx ← idx r.DX (i + 1)
        normalizeAxis add n nx dx x : Res (List F)) = .ok x ∧ some x.length = r.NX[i]?.map Int.toNat := by
    intro i hi
    have l1 : i < r.NXDEF.length := by omega
    have l2 : i < r.XB.length := by omega
    have l3 : i + 1 < r.DX.length := by omega
    have hn : (r.XB[i].length : Int) = r.NXDEF[i] := by
      have := congrArg (fun l => l[i]?) hw.axes
      simp only [List.getElem?_map, List.getElem?_eq_getElem l1, List.getElem?_eq_getElem l2, Option.map_some,
        Option.some.injEq] at this
      exact this
    have hp := hw.nx_pos _ (List.getElem_mem hi)
    have hp2 := hw.nxdef_pos _ (List.getElem_mem l1)
    simp only [idx_lt _ _ l1, idx_lt _ _ hi, idx_lt _ _ l2, idx_lt _ _ l3, ok_bind, List.getElem?_eq_getElem hi,
      Option.map_some]
    by_cases e : r.NXDEF[i] = r.NX[i]
    · rw [if_pos e]
      exact ⟨_, rfl, by congr 1; omega⟩
    · rw [if_neg e]
      unfold normalizeAxis
      rw [if_neg e]
      cases hx : r.XB[i] with
      | nil => rw [hx] at hn; simp only [List.length_nil] at hn; omega
      | cons b t =>
        refine ⟨_, rfl, ?_⟩
        rw [extendAxis_length]
        congr 1
        omega
  obtain ⟨xs, hxs⟩ := mapRes_all_ok (l := List.range r.NX.length) (f := fun i => do
      let n ← idx r.NXDEF i
      let nx ← idx r.NX i
      let x ← idx r.XB i
      if n = nx then .ok x
      else do
        let dx ← idx r.DX (i + 1)
        normalizeAxis add n nx dx x) (fun i hi => by
    obtain ⟨x, hx, _⟩ := step i (List.mem_range.1 hi)
    exact ⟨x, hx⟩)
  have hl := mapRes_ok_length _ _ _ hxs
  rw [List.length_range] at hl
  unfold normalizeIndVars
  rw [hk, hxs]
  refine ⟨_, rfl, ?_, rfl⟩
  dsimp only
  rw [List.drop_of_length_le (by omega), List.append_nil]
  refine List.ext_getElem? fun i => ?_
  rw [List.getElem?_map, List.getElem?_map]
  by_cases hi : i < r.NX.length
  · have hi2 : i < xs.length := by omega
    obtain ⟨x, hx, hx2⟩ := step i hi
    have := mapRes_get hxs (i := i) (by rw [List.getElem?_range hi]) (List.getElem?_eq_getElem hi2)
    rw [hx] at this
    injection this with this
    rw [List.getElem?_eq_getElem hi2, ← this, ← hx2]
    rfl
  · rw [List.getElem?_eq_none (by omega), List.getElem?_eq_none (by omega)]
    rfl

end Nappy
