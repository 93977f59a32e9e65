import Verif.NameLemmas
import Verif.CollectCheck
import Verif.Props.Core

/-! Properties C73 and C74: the names of variables with their units, and the spacing declared for axes. -/

namespace Nappy.Props

open Nappy Spec

variable {F : Type}

/-! ### C73 -/

/-- C73. A variable without units is named by what it is called; empty brackets at the end are taken off. -/
theorem C73_no_units (v : XVar F) (hn : calledBy v.attrs v.name ≠ [])
    (hu : unitsOf (dictGet? v.attrs "units") v.encUnits = []) :
    (∀ s, calledBy v.attrs v.name ≠ s ++ "()".toList) ∧ v.bestName = .ok (calledBy v.attrs v.name) ∨
      ∃ s, calledBy v.attrs v.name = s ++ "()".toList ∧ v.bestName = .ok s := by
  unfold XVar.bestName
  rw [bestNameOf_eq _ _ _ _ hn, if_pos hu]
  unfold dropEmptyBrackets
  split
  · rename_i h
    right
    refine ⟨_, ?_, rfl⟩
    rw [← h, List.take_append_drop]
  · rename_i h
    left
    refine ⟨fun s e => h ?_, rfl⟩
    rw [e]
    have : (s ++ "()".toList).length - 2 = s.length := by
      rw [List.length_append, show "()".toList.length = 2 by decide]; omega
    rw [this, List.drop_left]

/-- C73. The units follow the name in brackets. -/
theorem C73_new (v : XVar F) (u : Str) (hn : calledBy v.attrs v.name ≠ [])
    (hu : unitsOf (dictGet? v.attrs "units") v.encUnits = u) (hne : u ≠ []) (hp : '(' ∉ u)
    (ho : ¬ Occurs ("(".toList ++ u ++ ")".toList) (calledBy v.attrs v.name)) :
    v.bestName = .ok (calledBy v.attrs v.name ++ " (".toList ++ u ++ ")".toList) := by
  subst hu
  unfold XVar.bestName
  rw [bestNameOf_eq _ _ _ _ hn, if_neg hne, withUnits]
  have hc := countSub_new (u := unitsOf (dictGet? v.attrs "units") v.encUnits)
    (name := calledBy v.attrs v.name) (by simpa [bracketed] using ho)
  rw [if_neg (by omega), dropEmptyBrackets_units hne hp]
  simp [bracketed]

/-- C73. Units that the name holds in brackets already are moved to its end, not repeated. -/
theorem C73_have (v : XVar F) (u a b : Str)
    (hu : unitsOf (dictGet? v.attrs "units") v.encUnits = u) (hne : u ≠ []) (hp : '(' ∉ u ∧ ')' ∉ u)
    (hn : calledBy v.attrs v.name = a ++ ("(".toList ++ u ++ ")".toList) ++ b)
    (ha : ¬ Occurs ("(".toList ++ u ++ ")".toList) a) (hb : ¬ Occurs ("(".toList ++ u ++ ")".toList) b) :
    v.bestName = .ok (a ++ b ++ " (".toList ++ u ++ ")".toList) := by
  have e : "(".toList ++ u ++ ")".toList = bracketed u := by simp [bracketed]
  rw [e] at hn ha hb
  unfold XVar.bestName
  rw [bestNameOf_eq _ _ _ _ (by rw [hn]; simp [bracketed]), hu, if_neg hne, hn, withUnits_have hp.2 ha hb,
    dropEmptyBrackets_units hne hp.1]
  simp [bracketed]

/-- C73. A variable that is called nothing is refused. -/
theorem C73_unnamed (v : XVar F) : v.bestName = .error .exn ↔ calledBy v.attrs v.name = [] := by
  unfold XVar.bestName
  constructor
  · intro h
    by_cases hn : calledBy v.attrs v.name = []
    · exact hn
    · rw [bestNameOf_eq _ _ _ _ hn] at h; cases h
  · intro h
    unfold bestNameOf
    dsimp only
    rw [pickName_called, if_pos h]

/-- C73. Axes are named in the same way as variables with the same attributes. -/
theorem C73_axis (ax : XAxis F) (v : XVar F) (h1 : v.attrs = ax.attrs) (h2 : v.name = ax.name)
    (h3 : v.encUnits = ax.encUnits) : ax.bestName = v.bestName := by
  unfold XAxis.bestName XVar.bestName XAxis.units
  rw [h1, h2, h3]

/-- C73 with C47. Reading such a name gives what the variable is called, and its units. -/
theorem C73_back (v : XVar F) (u : Str) (hn : calledBy v.attrs v.name ≠ []) (hl : '\n' ∉ calledBy v.attrs v.name)
    (hu : unitsOf (dictGet? v.attrs "units") v.encUnits = u) (hne : u ≠ [])
    (hp : ∀ c ∈ u, c ≠ '(' ∧ c ≠ ')' ∧ c ≠ '\n')
    (ho : ¬ Occurs ("(".toList ++ u ++ ")".toList) (calledBy v.attrs v.name)) :
    ∃ n, v.bestName = .ok n ∧ varAndUnits none n = (strip (calledBy v.attrs v.name), some u) :=
  ⟨_, C73_new v u hn hu hne (fun h => (hp _ h).1 rfl) ho, C47_split _ _ hl hne hp⟩

/-- C73 with C47, for a name that holds its units. -/
theorem C73_have_back (v : XVar F) (u a b : Str) (hl : '\n' ∉ calledBy v.attrs v.name)
    (hu : unitsOf (dictGet? v.attrs "units") v.encUnits = u) (hne : u ≠ [])
    (hp : ∀ c ∈ u, c ≠ '(' ∧ c ≠ ')' ∧ c ≠ '\n')
    (hn : calledBy v.attrs v.name = a ++ ("(".toList ++ u ++ ")".toList) ++ b)
    (ha : ¬ Occurs ("(".toList ++ u ++ ")".toList) a) (hb : ¬ Occurs ("(".toList ++ u ++ ")".toList) b) :
    ∃ n, v.bestName = .ok n ∧ varAndUnits none n = (strip (a ++ b), some u) := by
  refine ⟨_, C73_have v u a b hu hne ⟨fun h => (hp _ h).1 rfl, fun h => (hp _ h).2.1 rfl⟩ hn ha hb,
    C47_split _ _ (fun h => hl ?_) hne hp⟩
  rw [hn]
  rcases List.mem_append.1 h with h | h <;> simp [h]

def Ex.named (attrs : Dict Str) (enc : Option Str) : XVar Int :=
  { name := "t".toList, axes := [], data := .val 0, naNumber := none, naAuxNumber := none, miss := none,
    attrs := attrs, encUnits := enc }

/-- A part of a text that a short search finds or not. -/
theorem Ex.occurs_iff (sub s : Str) : Occurs sub s ↔ sub <:+: s :=
  ⟨fun ⟨a, b, e⟩ => ⟨a, b, e.symm⟩, fun ⟨a, b, e⟩ => ⟨a, b, e.symm⟩⟩

/-- The long name comes first, units of the encoding are used, white space is taken off. -/
example : ∃ v : XVar Int, calledBy v.attrs v.name = "Air (dry)".toList ∧
    unitsOf (dictGet? v.attrs "units") v.encUnits = "K".toList ∧
    ¬ Occurs ("(".toList ++ "K".toList ++ ")".toList) (calledBy v.attrs v.name) ∧
    v.bestName = .ok "Air (dry) (K)".toList := by
  refine ⟨Ex.named [("title", "T".toList), ("standard_name", "air".toList), ("long_name", "Air (dry)".toList),
    ("units", [])] (some " K ".toList), ?_⟩
  rw [Ex.occurs_iff]
  decide +kernel

example : ∃ v : XVar Int, calledBy v.attrs v.name = "Height ".toList ++ ("(".toList ++ "m".toList ++ ")".toList) ++
      " of base".toList ∧ unitsOf (dictGet? v.attrs "units") v.encUnits = "m".toList ∧
    ¬ Occurs ("(".toList ++ "m".toList ++ ")".toList) "Height ".toList ∧
    ¬ Occurs ("(".toList ++ "m".toList ++ ")".toList) " of base".toList ∧
    v.bestName = .ok "Height  of base (m)".toList := by
  refine ⟨Ex.named [("standard_name", "Height (m) of base".toList), ("units", "m".toList)] none, ?_⟩
  rw [Ex.occurs_iff, Ex.occurs_iff]
  decide +kernel

example : (Ex.named [("title", "Ratio ()".toList)] none).bestName = .ok "Ratio ".toList ∧
    (Ex.named [] none).bestName = .ok "t".toList ∧
    (Ex.named [("long_name", []), ("title", "Ratio".toList)] none).bestName = .error .exn := by
  decide +kernel

/-- C73, negation: the units can be there twice, because taking them out can make new ones. -/
theorem C73_twice_fails : (Ex.named [("long_name", "((m)m)".toList), ("units", "m".toList)] none).bestName
    = .ok "(m) (m)".toList := by decide +kernel

/-! ### C74 -/

section
variable {env : CollectEnv F} {globals : Dict (PyVal F)} {a : Analysis F} {d : Dict (PyVal F)}

/-- C74. The dictionary declares for every axis of the first variable its spacing: the common difference of
neighbours, or zero if there is none. -/
theorem C74_declared (hf : a.ffi ≠ 2310) (h : collectDict env globals a = .ok d) :
    ∃ v dxs, a.main.head? = some v ∧ dictGet? d "DX" = some (pyNums dxs) ∧ dxs.length = v.axes.length ∧
      ∀ (i : Nat) (ax : XAxis F) dx, v.axes[i]? = some ax → dxs[i]? = some dx → Declared env.x ax.values dx := by
  obtain ⟨p⟩ := collectDict_parts h
  obtain ⟨_, hind, _⟩ := p.vars_ok
  obtain ⟨q, _, q2, _⟩ := indSection_parts hind
  obtain ⟨_, _, x3, _, _⟩ := p.axisItems
  refine ⟨p.v, _, by rw [p.main]; rfl, by rw [x3, q2 hf], ?_, ?_⟩
  · rw [q.axes]
    simp [mapRes_ok_length _ _ _ q.defs]
  · intro i ax dx h1 h2
    rw [q.axes] at h1
    cases i with
    | zero =>
      simp only [List.getElem?_cons_zero, Option.some.injEq] at h1 h2
      subst h1 h2
      exact firstStep_declared q.dx
    | succ i =>
      simp only [List.getElem?_cons_succ, List.getElem?_map] at h1 h2
      obtain ⟨e, he, h2⟩ := Option.map_eq_some_iff.1 h2
      subst h2
      exact (axisDef_declared (mapRes_get q.defs h1 he)).1

/-- C74 for 2010, 3010 and 4010. The size of every further axis is declared, and either all its points are given or
it is evenly spaced and the first three are. -/
theorem C74_points (hf : a.ffi = 2010 ∨ a.ffi = 3010 ∨ a.ffi = 4010) (h : collectDict env globals a = .ok d) :
    ∃ v ax0 more dx0 dxs xs, a.main.head? = some v ∧ v.axes = ax0 :: more ∧
      dictGet? d "DX" = some (pyNums (dx0 :: dxs)) ∧ dictGet? d "X" = some (pyCols (ax0.values :: xs)) ∧
      dictGet? d "NX" = some (pyInts (more.map (fun ax => (ax.values.length : Int)))) ∧
      dictGet? d "NXDEF" = some (pyInts (xs.map (fun x => (x.length : Int)))) ∧
      xs.length = more.length ∧ dxs.length = more.length ∧
      ∀ (i : Nat) (ax : XAxis F) dx x, more[i]? = some ax → dxs[i]? = some dx → xs[i]? = some x →
        (Spaced env.x ax.values dx ∧ x = ax.values.take 3) ∨ x = ax.values := by
  obtain ⟨p⟩ := collectDict_parts h
  obtain ⟨_, hind, _⟩ := p.vars_ok
  obtain ⟨q, _, q2, q3, _⟩ := indSection_parts hind
  obtain ⟨x1, _, x3, x4, x5⟩ := p.axisItems
  have hne : ∀ n : Int, n ≠ 2010 → n ≠ 3010 → n ≠ 4010 → a.ffi ≠ n := by
    intro n h1 h2 h3 e
    rcases hf with hf | hf | hf <;> omega
  obtain ⟨_, q4, q5, _, _, q6⟩ := q3 (hne _ (by decide) (by decide) (by decide)) (hne _ (by decide) (by decide) (by decide))
  have hlen := mapRes_ok_length _ _ _ q.defs
  refine ⟨p.v, q.ax0, q.more, q.dx0, q.rest.map AxisDef.DX, q.rest.map AxisDef.X, by rw [p.main]; rfl, q.axes,
    by rw [x3, q2 (hne _ (by decide) (by decide) (by decide))],
    by rw [x1, q6 (hne _ (by decide) (by decide) (by decide)) (hne _ (by decide) (by decide) (by decide))
      (hne _ (by decide) (by decide) (by decide))], ?_, ?_, by simp [hlen], by simp [hlen], ?_⟩
  · rw [x4, q4, pyNats, mapRes_project q.defs (g := AxisDef.NX) (k := fun ax => ax.values.length)
      (fun ax _ e he => (axisDef_declared he).2.1), List.map_map]
    rfl
  · rw [x5, q5, pyNats]
    congr 2
    rw [List.map_map, List.map_map]
    refine List.map_congr_left fun e he => ?_
    obtain ⟨ax, _, hax⟩ := mapRes_mem q.defs he
    simp [(axisDef_declared hax).2.2.1]
  · intro i ax dx x h1 h2 h3
    rw [List.getElem?_map] at h2 h3
    obtain ⟨e, he, h2⟩ := Option.map_eq_some_iff.1 h2
    rw [he] at h3
    injection h3 with h3
    subst h2 h3
    exact (axisDef_declared (mapRes_get q.defs h1 he)).2.2.2

end

/-- An axis with a step and one without. -/
example : ∃ a d, Ex.Collected Ex.collectEnv none Ex.globals
    [Ex.dataVar "temp" [exAxis "time" [0, 1, 2, 4], exAxis "height" [10, 20, 30, 40]] none none] 2010 a d ∧
    decide ((dictGet? d "DX").bind Ex.nums = some [0, 10]) = true :=
  Ex.collected_of (P := fun _ d => decide ((dictGet? d "DX").bind Ex.nums = some [0, 10])) (by decide +kernel)

/-- C74, negation for 2310: the item declares the step of the second axis once per mark, and nothing for the first
axis. -/
theorem C74_2310_fails : ∃ a d, Ex.Collected Ex.collectEnv (some 2310) Ex.globals
    [Ex.dataVar "temp" [exTime, exHeight] none none] 2310 a d ∧
      decide ((dictGet? d "DX").bind Ex.nums = some [10, 10, 10, 10]) = true :=
  Ex.collected_of (P := fun _ d => decide ((dictGet? d "DX").bind Ex.nums = some [10, 10, 10, 10])) (by decide +kernel)

end Nappy.Props
