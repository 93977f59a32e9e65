import Verif.Objs
import Verif.Props.Select

/-! Property C106: variables in memory are converted like those of a file. -/

namespace Nappy.Props

open Nappy Spec

variable {F : Type}

/-- No variable of the file is named as the bounds of another one, and single values have their units, if any, as an
attribute. -/
structure PlainVars (nc : NCFile F) : Prop where
  noBounds : ∀ v ∈ nc.vars, dictGet? v.attrs "bounds" = none
  units : ∀ v ∈ nc.vars, v.axes = [] → v.encUnits = none

theorem mapRes_map {α β γ : Type} (f : β → Res γ) (g : α → β) : ∀ l : List α,
    mapRes f (l.map g) = mapRes (fun a => f (g a)) l
  | [] => rfl
  | a :: l => by
    simp only [List.map_cons, mapRes, mapRes_map f g l]

theorem mapRes_agree {α γ : Type} {f g : α → Res γ} : ∀ {l : List α}, (∀ a ∈ l, f a = g a) → mapRes f l = mapRes g l
  | [], _ => rfl
  | a :: l, h => by
    simp only [mapRes, h a (List.mem_cons_self ..), mapRes_agree (fun b hb => h b (List.mem_cons_of_mem _ hb))]

theorem boundsVars_nil {vars : List (XVar F)} (h : ∀ v ∈ vars, dictGet? v.attrs "bounds" = none) :
    boundsVars vars = [] := by
  unfold boundsVars
  exact List.filterMap_eq_nil_iff.2 h

theorem read_all {nc : NCFile F} (h : PlainVars nc) : readXarrayFile nc.vars none [] = nc.vars.map singleValue := by
  unfold readXarrayFile
  rw [List.filter_eq_self.2 fun v _ => ?_]
  simp [takesVar, boundsVars_nil h.noBounds, fuzzyContains]

theorem singletons_same (show_ : Tree F → Str) {nc : NCFile F} (h : PlainVars nc) :
    convertSingletonVars show_ (nc.vars.map singleValue) = convertSingletonVars show_ nc.vars := by
  unfold convertSingletonVars
  rw [mapRes_map]
  refine mapRes_agree fun v hv => ?_
  unfold singleValue
  by_cases hr : v.rank = 0
  · have hu := h.units v hv (by simpa [XVar.rank] using hr)
    have hb : ({ v with miss := none, encUnits := none } : XVar F).bestName = v.bestName := by
      simp only [XVar.bestName, hu]
    have hk : ({ v with miss := none, encUnits := none } : XVar F).rank = 0 := hr
    rw [if_pos hr, if_pos hk, if_pos hr, hb]
  · rw [if_neg hr, if_neg hr]

theorem dicts_same (env : ApiEnv F) {nc : NCFile F} (h : PlainVars nc) (a : NCToNAArgs F)
    (hnc : env.openNC a.ncFile = .ok nc) (hids : a.varIds = none) (hex : a.excludeVars = []) :
    ncDicts env a = (do
      let r ← convertDicts env.collect env.showTree a.requestedFFI nc.attrs nc.vars.length nc.vars
      .ok (r.getD [])) := by
  have : convertDicts env.collect env.showTree a.requestedFFI nc.attrs (nc.vars.map singleValue).length
      (nc.vars.map singleValue) =
      convertDicts env.collect env.showTree a.requestedFFI nc.attrs nc.vars.length nc.vars := by
    unfold convertDicts convert
    rw [singletons_same env.showTree h, List.length_map]
  unfold ncDicts
  rw [hnc, ok_bind, hids, hex, read_all h]
  exact congrArg (fun x => (do let r ← x; .ok (r.getD []) : Res (List (Dict (PyVal F))))) this

theorem writeNAFiles_base (emit : WriteCall F → Res Unit) (cfg : WriteConfig F) (items : Dict (PyVal F))
    (opts : WriteOpts) (a b : Option Str) (f : Str) (ds : List (Dict (PyVal F))) :
    writeNAFiles emit cfg items opts a (some f) ds = writeNAFiles emit cfg items opts b (some f) ds := rfl

/-- C106, in part. An object made of the variables and attributes of a NetCDF file writes the same files as
`convertNCToNA`, with the same effects and errors, if a name is given and the file gives something to write. What is
missing: without a name and with nothing to write it raises, see below; variables that are bounds of others are
written too. -/
theorem C106_same_partial (emit : WriteCall F → Res Unit) (env : ApiEnv F) (a : NCToNAArgs F) {nc : NCFile F} {f : Str}
    (hnc : env.openNC a.ncFile = .ok nc) (hp : PlainVars nc) (hids : a.varIds = none) (hex : a.excludeVars = [])
    (hname : a.naFile = some f) (hnames : a.onlyNames = false) (hfound : ncDicts env a ≠ .ok []) :
    (ObjsToNA.new nc.vars nc.attrs a.naItems a.requestedFFI).write emit env (some f) a.opts =
      convertNCToNA emit env a := by
  have e := dicts_same env hp a hnc hids hex
  unfold convertNCToNA ObjsToNA.write
  rw [e] at hfound ⊢
  simp only [ObjsToNA.convert, ObjsToNA.new]
  cases hd : convertDicts env.collect env.showTree a.requestedFFI nc.attrs nc.vars.length nc.vars with
  | error x => rfl
  | ok r =>
    rw [hd] at hfound
    cases r with
    | none => exact absurd rfl hfound
    | some ds =>
      simp only [hname, hnames, ok_bind, Option.getD_some]
      rw [writeNAFiles_base emit env.cfg a.naItems a.opts none (some a.ncFile)]
      rfl

/-- C106: the names told beforehand are those `convertNCToNA` tells, if a name is given. -/
theorem C106_names_partial (emit : WriteCall F → Res Unit) (env : ApiEnv F) (a : NCToNAArgs F) {nc : NCFile F}
    {f : Str} (hnc : env.openNC a.ncFile = .ok nc) (hp : PlainVars nc) (hids : a.varIds = none)
    (hex : a.excludeVars = []) (hname : a.naFile = some f) (hnames : a.onlyNames = true)
    (hfound : ncDicts env a ≠ .ok []) :
    (ObjsToNA.new nc.vars nc.attrs a.naItems a.requestedFFI).names env (some f) = (convertNCToNA emit env a).result := by
  have e := dicts_same env hp a hnc hids hex
  unfold convertNCToNA ObjsToNA.names
  rw [e] at hfound ⊢
  simp only [ObjsToNA.convert, ObjsToNA.new]
  cases hd : convertDicts env.collect env.showTree a.requestedFFI nc.attrs nc.vars.length nc.vars with
  | error x => rfl
  | ok r =>
    rw [hd] at hfound
    cases r with
    | none => exact absurd rfl hfound
    | some ds =>
      simp only [hname, hnames, ok_bind, Option.getD_some, if_true]
      rfl

/-- C106: converting first makes no difference. -/
theorem C106_converted (emit : WriteCall F → Res Unit) (env : ApiEnv F) {s s' : ObjsToNA F}
    {r : Option (List (Dict (PyVal F)))} (h : s.convert env = .ok (s', r)) (naFile : Option Str) (opts : WriteOpts) :
    s'.write emit env naFile opts = s.write emit env naFile opts ∧ s'.names env naFile = s.names env naFile ∧
      s'.convert env = .ok (s', r) := by
  have key : s'.convert env = .ok (s', r) := by
    unfold ObjsToNA.convert at h
    split at h
    · rename_i ds hs
      cases h
      simp only [ObjsToNA.convert, hs]
    · rename_i hs
      obtain ⟨q, h1, h⟩ := ok_of_bind h
      cases q with
      | none =>
        cases h
        simp only [ObjsToNA.convert, hs, h1, ok_bind]
      | some ds =>
        cases h
        rfl
  refine ⟨?_, ?_, key⟩
  · unfold ObjsToNA.write
    rw [key, h]
  · unfold ObjsToNA.names
    rw [key, h]

/-- C106 fails without a name: then no object writes anything, and none tells names, whatever its variables. -/
theorem C106_name_fails (emit : WriteCall F → Res Unit) (env : ApiEnv F) (vars : List (XVar F))
    (globals items : Dict (PyVal F)) (requested : Option Int) (opts : WriteOpts) :
    ((ObjsToNA.new vars globals items requested).write emit env none opts).calls = [] ∧
      (∃ x, ((ObjsToNA.new vars globals items requested).write emit env none opts).result = .error x) ∧
      ∃ x, (ObjsToNA.new vars globals items requested).names env none = .error x := by
  unfold ObjsToNA.write ObjsToNA.names
  simp only [ObjsToNA.convert, ObjsToNA.new]
  cases hd : convertDicts env.collect env.showTree requested globals vars.length vars with
  | error x => exact ⟨rfl, ⟨x, rfl⟩, ⟨x, rfl⟩⟩
  | ok r =>
    cases r with
    | none => exact ⟨rfl, ⟨_, rfl⟩, ⟨_, rfl⟩⟩
    | some ds => exact ⟨rfl, ⟨_, rfl⟩, ⟨_, rfl⟩⟩

/-- C106 fails if there is nothing to write: `convertNCToNA` returns an empty list, the object raises an
`AttributeError`. -/
theorem C106_nothing_fails (emit : WriteCall F → Res Unit) (env : ApiEnv F) (a : NCToNAArgs F) {nc : NCFile F} {f : Str}
    (hnc : env.openNC a.ncFile = .ok nc) (hempty : nc.vars = []) :
    (ObjsToNA.new nc.vars nc.attrs a.naItems a.requestedFFI).write emit env (some f) a.opts =
        { calls := [], result := .error .attribute } ∧
      convertNCToNA emit env a = { calls := [], result := .ok [] } := by
  have h : ∀ ffi : Option Int, convertDicts env.collect env.showTree ffi nc.attrs 0 [] = .ok none := fun _ => rfl
  constructor
  · unfold ObjsToNA.write
    simp only [ObjsToNA.convert, ObjsToNA.new, hempty, List.length_nil, h, ok_bind]
  · have : ncDicts env a = .ok [] := by
      unfold ncDicts
      rw [hnc, ok_bind, hempty]
      rfl
    unfold convertNCToNA
    rw [this]
    simp only [List.length_nil]
    cases a.onlyNames <;> rfl

/-- The number of main variables in the files of a run. -/
def Ex.mainCounts (r : Run Int) : List Nat :=
  r.calls.map (fun c => match (dictGet? c.dict "V" : Option (PyVal Int)) with
    | some (.list l) => l.length
    | _ => 0)

/-- The variables of `exNC`, where `wind` holds the bounds of `temp`. -/
def Ex.boundVars : List (XVar Int) :=
  exNC.vars.map (fun v => if v.name = "temp".toList then { v with attrs := v.attrs ++ [("bounds", "wind".toList)] } else v)
def Ex.boundApi : ApiEnv Int := { exApi with openNC := fun _ => .ok { vars := Ex.boundVars, attrs := Ex.globals } }

/-- The hypotheses of `C106_same_partial` are met, and more than one file is written. -/
example : PlainVars exNC ∧
    Ex.mainCounts (convertNCToNA (fun _ => .ok ()) exApi { exArgs with naFile := some "b.na".toList }) = [2, 1] :=
  ⟨⟨by decide +kernel, fun v hv _ => (show ∀ v ∈ exNC.vars, v.encUnits = none by decide +kernel) v hv⟩, by decide +kernel⟩

/-- C106 fails for bounds: `convertNCToNA` leaves them out, the object writes them. -/
theorem C106_bounds_fails :
    Ex.mainCounts (convertNCToNA (fun _ => .ok ()) Ex.boundApi { exArgs with naFile := some "b.na".toList }) = [1, 1] ∧
      Ex.mainCounts ((ObjsToNA.new Ex.boundVars Ex.globals [] none).write (fun _ => .ok ()) Ex.boundApi (some "b.na".toList)
        exArgs.opts) = [2, 1] := by
  decide +kernel

end Nappy.Props
