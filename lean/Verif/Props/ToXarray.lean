import Verif.ToXLemmas
import Verif.Props.Collect
import Verif.Examples

/-! Properties of the conversion of NASA Ames files to variables and global attributes, and of the way back. -/

namespace Nappy.Ex

open Nappy

/-- Whole numbers, the headings of the configuration file, nobody to ask for units. -/
def toXEnv : ToXEnv Int :=
  { mul := (· * ·), add := (· + ·), isTime := fun n _ => n == "time".toList, cfOf := fun _ _ => [],
    timeMatch := fun s => hasSub "since".toList s, answers := none, cb := .none, renames := [], hp := iniHeadings,
    stamp := "2024-05-17 12:00:00".toList, version := "2.0.4".toList }

/-- For witnesses: a file converted to variables and back. -/
theorem back_of {F : Type} {env : ToXEnv F} {cenv : CollectEnv F} {user : Dict (PyVal F)} {o : Obj F}
    {P : ToXResult F → Analysis F → Dict (PyVal F) → Bool}
    (h : (match toXarray env user .all .all none o with
      | .ok r => (match analyse cenv.x none (r.vars ++ r.aux) with
        | .ok (some a) => (match collectDict cenv r.attrs a with
          | .ok d => P r a d
          | _ => false)
        | _ => false)
      | _ => false) = true) :
    ∃ r a d, toXarray env user .all .all none o = .ok r ∧ analyse cenv.x none (r.vars ++ r.aux) = .ok (some a) ∧
      collectDict cenv r.attrs a = .ok d ∧ P r a d = true := by
  split at h
  · next r hr =>
    split at h
    · next a ha =>
      split at h
      · next d hd => exact ⟨r, a, d, hr, ha, hd, h⟩
      · cases h
    · cases h
  · cases h

/-- The texts of a list. -/
def str? {F : Type} : PyVal F → Option Str
  | .str s => some s
  | _ => none

def strs {F : Type} : PyVal F → Option (List Str)
  | .list l => l.mapM str?
  | _ => none

/-- The comments of the example after a conversion and back. -/
def specialBack : List Str :=
  ["==== Special Comments follow ====".toList, "a special comment".toList, "  Variable o3: o3 (ppb)".toList,
   "    units = ppb".toList, "    long_name = o3".toList, "    title = o3".toList, "  Variable temp: temp".toList,
   "    long_name = temp".toList, "    title = temp".toList,
   "== Variable attributes from source (NetCDF) file end ==".toList, "==== Special Comments end ====".toList]

def normalBack : List Str :=
  ["==== Normal Comments follow ====".toList,
   "=== Additional Global Attributes defined in the source file ===".toList, "normal".toList,
   "History:  2024-05-17 12:00:00 - Converted to NASA Ames format using nappy-2.0.4.".toList, "    value".toList,
   "==== Normal Comments end ====".toList, "=== Data Section begins on the next line ===".toList]

end Nappy.Ex

namespace Nappy.Props

open Nappy Spec

variable {F : Type}

section
variable {env : ToXEnv F} {user : Dict (PyVal F)} {sel auxSel : Selection} {tu : Option Str} {o : Obj F}
  {r : ToXResult F}

/-! ### C64 -/

/-- The variables made are those of the numbers chosen. -/
theorem vars_of_numbers {n : NAView F} {axes : List (XAxis F)} {is : List Nat} {vars : List (XVar F)}
    (hn : o.view env.add = .ok n) (hax : axesGo env n tu 0 n.NIV.toNat = .ok axes)
    (h : mapRes (mainVar env n axes) (is.map Int.ofNat) = .ok vars) :
    vars.length = is.length ∧ ∀ (j i : Nat) v, is[j]? = some i → vars[j]? = some v →
      (∃ name miss scale data, DeclaresVar o i name miss scale ∧ mainArray o i = some data ∧
        Carries env.mul env.cb name miss scale data v) ∧ v.naNumber = some (i : Int) ∧ v.naAuxNumber = none ∧
      DataFits v ∧ ∃ l, AxisValues env.add o l ∧ v.axes.map XAxis.values = l.take (axisHeader o).1.toNat := by
  refine ⟨by rw [mapRes_ok_length _ _ _ h, List.length_map], fun j i v hi hv => ?_⟩
  have hm := mapRes_get h (x := (i : Int)) (by rw [List.getElem?_map, hi]; rfl) hv
  obtain ⟨name, miss, scale, data, h1, h2, h3, h4, h5, h6, h7, _⟩ := mainVar_facts hn hm
  refine ⟨⟨name, miss, scale, data, h1, h2, h3⟩, h5, h6, ?_, n.X, view_axes hn, ?_⟩
  · unfold DataFits XVar.shape
    rw [h4]
    exact shaped_iff.1 h7
  · have := (axesGo_values _ _ _ _ hax).1
    rw [List.drop_zero, (view_facts hn).2.2.2.1] at this
    rw [h4, this]

/-- C64. Without a choice every main variable of the file becomes a variable, in order: it has the units, the
missing value and the data, multiplied by the scale factor, on the axes of the file. -/
theorem C64_values (h : toXarray env user .all auxSel tu o = .ok r) :
    r.vars.length = (varHeader o).NV.toNat ∧
    ∀ (i : Nat) v, r.vars[i]? = some v →
      (∃ name miss scale data, DeclaresVar o i name miss scale ∧ mainArray o i = some data ∧
        Carries env.mul env.cb name miss scale data v) ∧ v.naNumber = some (i : Int) ∧ v.naAuxNumber = none ∧
      DataFits v ∧ ∃ l, AxisValues env.add o l ∧ v.axes.map XAxis.values = l.take (axisHeader o).1.toNat := by
  obtain ⟨n, axes, is, h1, h2, h3, h4, h5, _, _⟩ := toXarray_parts h
  injection h4 with h4
  subst h4
  obtain ⟨l1, l2⟩ := vars_of_numbers h1 h3 h5
  rw [List.length_range, (view_facts h1).2.2.1] at l1
  refine ⟨l1, fun i v hv => l2 i i v ?_ hv⟩
  have := (List.getElem?_eq_some_iff.1 hv).1
  rw [List.getElem?_range]
  rw [(view_facts h1).2.2.1]
  omega

/-- C64. Without a choice every auxiliary variable of the file becomes a variable on the first axis, in order. -/
theorem C64_aux (h : toXarray env user sel .all tu o = .ok r) :
    r.aux.length = (auxCount o).toNat ∧
    ∀ (i : Nat) v, r.aux[i]? = some v →
      (∃ name miss scale col, DeclaresAux o i name (.num miss) (some scale) ∧ auxColumn o i = some col ∧
        Carries env.mul env.cb name miss scale (.lst (col.map .val)) v) ∧
      v.naNumber = none ∧ v.naAuxNumber = some (i : Int) ∧ DataFits v ∧
      ∃ l, AxisValues env.add o l ∧ v.axes.map XAxis.values = (l.take (axisHeader o).1.toNat).take 1 := by
  obtain ⟨n, axes, is, h1, h2, h3, h4, h5, h6, h7⟩ := toXarray_parts h
  have f := view_facts h1
  cases ha : n.aux with
  | none =>
    have e := h7 (fun a hb => by rw [ha] at hb; cases hb)
    have e2 := f.2.2.2.2.2.2.2 ha
    rw [e, e2]
    exact ⟨rfl, fun i v hv => by simp at hv⟩
  | some a =>
    have e2 := (f.2.2.2.2.2.2.1 a ha).1
    by_cases hpos : a.NAUXV > 0
    · obtain ⟨js, g1, g2⟩ := h6 a ha hpos
      injection g1 with g1
      subst g1
      have hl : r.aux.length = (auxCount o).toNat := by
        rw [mapRes_ok_length _ _ _ g2, List.length_map, List.length_range, e2]
      refine ⟨hl, fun i v hv => ?_⟩
      have hi := (List.getElem?_eq_some_iff.1 hv).1
      have hm := mapRes_get g2 (x := (i : Int))
        (by rw [List.getElem?_map, List.getElem?_range (by omega)]; rfl) hv
      obtain ⟨name, miss, scale, col, k1, k2, k3, k4, k5, k6, k7⟩ := auxVar_facts h1 ha hm
      refine ⟨⟨name, miss, scale, col, k1, k2, k3⟩, k5, k6, ?_, n.X, view_axes h1, ?_⟩
      · unfold DataFits XVar.shape
        rw [k4]
        exact shaped_iff.1 k7
      · have := (axesGo_values _ _ _ _ h3).1
        rw [List.drop_zero, f.2.2.2.1] at this
        rw [k4, List.map_take, this]
    · have e := h7 (fun b hb => by rw [ha] at hb; cases hb; exact hpos)
      rw [e]
      refine ⟨by simp only [List.length_nil]; omega, fun i v hv => by simp at hv⟩

/-- C64, in part: a scale factor that changes no value leaves the data alone, so a missing value is still the
missing value. What is missing: other scale factors, see `C64_missing_fails`. -/
theorem C64_missing_partial {mul : F → F → F} {cb : UnitsCallback} {name : Str} {miss scale : F} {data : Tree F}
    {v : XVar F} (h : Carries mul cb name miss scale data v) (hs : ∀ x, mul x scale = x) :
    v.data = data ∧ v.miss = some miss := by
  refine ⟨?_, h.2.1⟩
  rw [h.1]
  exact mapTree_id hs data

/-- C64 fails for missing values: they are multiplied by the scale factor but the missing value is not. The second
variable of the example is scaled by 10 and its missing value is 99; the gap in the data becomes 990. -/
theorem C64_missing_fails :
    ∃ r v, toXarray Ex.toXEnv [] .all .all none (.o1001 { Ex.d1001 with V := [[1, 2, 3], [-4, 99, 60]] }) = .ok r ∧
      r.vars[1]? = some v ∧ v.miss = some 99 ∧ leaves v.data = [-40, 990, 600] := by
  have : ∃ r, toXarray Ex.toXEnv [] .all .all none (.o1001 { Ex.d1001 with V := [[1, 2, 3], [-4, 99, 60]] }) = .ok r ∧
      (r.vars.map (fun v => (v.miss, leaves v.data)))[1]? = some (some 99, [-40, 990, 600]) :=
    ok_of_eval (by decide +kernel)
  obtain ⟨r, h1, h2⟩ := this
  rw [List.getElem?_map, Option.map_eq_some_iff] at h2
  obtain ⟨v, h3, h4⟩ := h2
  injection h4 with h4 h5
  exact ⟨r, v, h1, h3, h4, h5⟩

/-- The assumption is met by a file with two variables, and by one with two axes and an auxiliary variable. -/
example : ∃ r, toXarray Ex.toXEnv [] .all .all none (.o1001 Ex.d1001) = .ok r ∧ r.vars.length = 2 :=
  ok_of_eval (by decide +kernel)

example : ∃ r, toXarray Ex.toXEnv [] .all .all none (.o2010 Ex.d2010) = .ok r ∧
    r.vars.length = 2 ∧ r.aux.length = 1 := ok_of_eval (by decide +kernel)

/-! ### C63 -/

/-- C63, in part: the attributes given by the caller come first, in their order, then those from the header that the
caller did not name; a name that does not belong to the header keeps its value. What is missing: names that do,
see `C63_fails`. -/
theorem C63_partial (h : toXarray env user sel auxSel tu o = .ok r) (hu : (user.map Prod.fst).Nodup) :
    r.attrs.map Prod.fst = user.map Prod.fst ++ attributeNames.filter (fun k => !(user.map Prod.fst).contains k) ∧
      (∀ k, k ∉ attributeNames → dictGet? r.attrs k = dictGet? user k) ∧
      ∀ k ∈ attributeNames, ∃ v, dictGet? r.attrs k = some v := by
  obtain ⟨n, axes, is, h1, h2, _⟩ := toXarray_parts h
  obtain ⟨m, hm, g1, g2, g3⟩ := globalAttrs_facts h2 hu
  have hk := mappedAttrs_keys hm
  refine ⟨g1, fun k hn => ?_, fun k hk2 => ?_⟩
  · rw [g3]
    cases e : dictGet? m k with
    | none => rfl
    | some v =>
      exact absurd (by rw [← hk]; exact List.mem_map.2 ⟨_, dictGet?_mem e, rfl⟩) hn
  · rw [g3]
    cases e : dictGet? m k with
    | none => exact absurd (by rw [hk]; exact hk2) (absent_of_none e)
    | some v => exact ⟨v, rfl⟩

/-- C63 fails: a value that the caller gives for one of the other names is replaced by the one from the file. -/
theorem C63_fails (h : toXarray env user sel auxSel tu o = .ok r) (hu : (user.map Prod.fst).Nodup) :
    dictGet? r.attrs "title" = some (.str o.common.MNAME) ∧ dictGet? r.attrs "source" = some (.str o.common.SNAME) ∧
      dictGet? r.attrs "institution" = some (.str (o.common.ONAME ++ " (ONAME from NASA Ames file); ".toList
        ++ o.common.ORG ++ " (ORG from NASA Ames file).".toList)) ∧
      dictGet? r.attrs "file_format_index" = some (.int o.common.FFI) ∧
      dictGet? r.attrs "file_number_in_set" = some (.int o.common.IVOL) ∧
      dictGet? r.attrs "total_files_in_set" = some (.int o.common.NVOL) ∧
      dictGet? r.attrs "no_of_nasa_ames_header_lines" = some (.int o.common.NLHEAD) ∧
      dictGet? r.attrs "first_valid_date_of_data" = some (pyInts o.common.DATE) := by
  obtain ⟨n, axes, is, h1, h2, _⟩ := toXarray_parts h
  obtain ⟨m, hm, _, _, g3⟩ := globalAttrs_facts h2 hu
  rw [(view_facts h1).1] at hm
  obtain ⟨hist, _, hm⟩ := ok_of_bind hm
  injection hm with hm
  subst hm
  refine ⟨?_, ?_, ?_, ?_, ?_, ?_, ?_, ?_⟩ <;> rw [g3] <;> rfl

/-- The assumptions are met: an attribute of its own and one that is replaced. -/
example : ∃ r, toXarray Ex.toXEnv [("licence", .str "open".toList), ("title", .str "mine".toList)] .all .all none
      (.o1001 Ex.d1001) = .ok r ∧
    r.attrs.map Prod.fst = ["licence", "title", "no_of_nasa_ames_header_lines", "file_format_index", "institution",
      "source", "file_number_in_set", "total_files_in_set", "history", "first_valid_date_of_data", "comment"] :=
  ok_of_eval (by decide +kernel)

/-! ### C65 -/

/-- C65. A list of numbers chooses these variables, in this order, repeated if repeated. -/
theorem C65_numbers {is : List Nat} (hne : is ≠ [])
    (h : toXarray env user (.items (is.map (fun i : Nat => SelItem.int i))) auxSel tu o = .ok r) :
    r.vars.length = is.length ∧ ∀ (j i : Nat) v, is[j]? = some i → r.vars[j]? = some v →
      ∃ name miss scale data, DeclaresVar o i name miss scale ∧ mainArray o i = some data ∧
        Carries env.mul env.cb name miss scale data v := by
  obtain ⟨n, axes, ns, h1, h2, h3, h4, h5, _, _⟩ := toXarray_parts h
  have e : ns = is.map Int.ofNat := by
    cases is with
    | nil => exact absurd rfl hne
    | cons i t =>
      simp only [List.map_cons, mainNumbers] at h4
      have key : ∀ l : List Nat, mapRes SelItem.toInt (l.map (fun i : Nat => SelItem.int i)) = .ok (l.map Int.ofNat) := by
        intro l
        induction l with
        | nil => rfl
        | cons a l ih => rw [List.map_cons, mapRes, ih]; rfl
      have := key (i :: t)
      rw [List.map_cons, h4] at this
      injection this
  subst e
  obtain ⟨l1, l2⟩ := vars_of_numbers h1 h3 h5
  exact ⟨l1, fun j i v hi hv => (l2 j i v hi hv).1⟩

/-- C65, in part: a list of names chooses the variables of these names, in this order. What is missing: names that
begin with a digit, see `C65_digit_fails`. -/
theorem C65_names_partial {names : List Str} (hne : ∀ s ∈ names.head?, (s.head?.map Char.isDigit).getD false = false)
    (h : toXarray env user (.items (names.map .str)) auxSel tu o = .ok r) :
    r.vars.length = names.length ∧ ∀ (j : Nat) s v, names[j]? = some s → r.vars[j]? = some v →
      ∃ (i : Nat) (miss scale : F) (data : Tree F), DeclaresVar o i s miss scale ∧ mainArray o i = some data ∧
        Carries env.mul env.cb s miss scale data v ∧ v.naNumber = some (i : Int) ∧
        ∀ k < i, (varHeader o).VNAME[k]? ≠ some s := by
  obtain ⟨n, axes, ns, h1, h2, h3, h4, h5, _, _⟩ := toXarray_parts h
  have f := view_facts h1
  cases names with
  | nil => cases h4
  | cons s0 t =>
    have e : mapRes (fun (it : SelItem) => match it with
      | .int _ => .error .exn
      | .str s => match indexOf? s n.v.VNAME with
        | some i => .ok (i : Int)
        | none => .error .exn) ((s0 :: t).map .str) = .ok ns := by
      rw [List.map_cons, mainNumbers, if_neg] at h4
      · exact h4
      · rw [hne s0 rfl]; simp
    have l1 := mapRes_ok_length _ _ _ e
    have l2 := mapRes_ok_length _ _ _ h5
    rw [List.length_map] at l1
    refine ⟨by omega, fun j s v hs hv => ?_⟩
    have hj : j < ns.length := by
      have := (List.getElem?_eq_some_iff.1 hs).1
      omega
    have e1 := mapRes_get e (i := j) (x := .str s) (by rw [List.getElem?_map, hs]; rfl) (List.getElem?_eq_getElem hj)
    have e2 := mapRes_get h5 (i := j) (List.getElem?_eq_getElem hj) hv
    dsimp only at e1
    cases hi : indexOf? s n.v.VNAME with
    | none => rw [hi] at e1; cases e1
    | some i =>
      rw [hi] at e1
      injection e1 with e1
      rw [← e1] at e2
      obtain ⟨name, miss, scale, data, k1, k2, k3, k4, k5, k6, k7, _⟩ := mainVar_facts h1 e2
      obtain ⟨m1, m2⟩ := indexOf?_some hi
      rw [f.2.2.1] at m1 m2
      have : name = s := by
        have := k1.1
        rw [m1] at this
        injection this with this
        exact this.symm
      subst this
      exact ⟨i, miss, scale, data, k1, k2, k3, k5, m2⟩

/-- C65. A name that the file does not have is refused. -/
theorem C65_unknown {names : List Str} {s : Str} (hs : s ∈ names) (hno : s ∉ (varHeader o).VNAME)
    (hne : ∀ s ∈ names.head?, (s.head?.map Char.isDigit).getD false = false) :
    toXarray env user (.items (names.map .str)) auxSel tu o ≠ .ok r := by
  intro h
  obtain ⟨l, hl⟩ := C65_names_partial hne h
  obtain ⟨j, hj⟩ := List.mem_iff_getElem?.1 hs
  have hjl : j < r.vars.length := by
    have := (List.getElem?_eq_some_iff.1 hj).1
    omega
  obtain ⟨i, miss, scale, data, h1, _⟩ := hl j s _ hj (List.getElem?_eq_getElem hjl)
  exact hno (List.mem_of_getElem? h1.1)

/-- C65 fails: a variable whose name begins with a digit cannot be chosen by its name. -/
theorem C65_digit_fails :
    toXarray Ex.toXEnv [] (.items [.str "3d wind".toList]) .all none
      (.o1001 { Ex.d1001 with v := { Ex.vars with VNAME := ["O3 (ppb)".toList, "3d wind".toList] } })
      = .error .value := error_of_eval (by decide +kernel)

/-- C65 fails: a name of an auxiliary variable that the file does not have is passed over. -/
theorem C65_aux_fails :
    ∃ r, toXarray Ex.toXEnv [] .all (.items [.str "cuont".toList]) none (.o1010 Ex.d1010) = .ok r ∧ r.aux.length = 0 :=
  ok_of_eval (by decide +kernel)

/-- The assumptions are met. -/
example : ∃ r, toXarray Ex.toXEnv [] (.items ([1, 0].map (fun i : Nat => .int i))) .all none (.o1001 Ex.d1001) = .ok r ∧
    r.vars.length = 2 := ok_of_eval (by decide +kernel)

example : (∀ s ∈ ["Temp".toList, "O3 (ppb)".toList].head?, (s.head?.map Char.isDigit).getD false = false) ∧
    ∃ r, toXarray Ex.toXEnv [] (.items (["Temp".toList, "O3 (ppb)".toList].map .str)) .all none (.o1001 Ex.d1001) = .ok r ∧
      r.vars.map XVar.naNumber = [some 1, some 0] := ⟨by decide, ok_of_eval (by decide +kernel)⟩

/-! ### C66 -/

/-- The conversion succeeds if all that it looks up is there. -/
theorem toXarray_ok {n : NAView F} (hn : o.view env.add = .ok n) (hr : n.c.RDATE.length = 3)
    (hu : UnitsKnown env.timeMatch env.answers tu) (hx : n.NIV.toNat ≤ n.X.length) (hx2 : n.NIV.toNat ≤ n.XNAME.length)
    (hpos : 1 ≤ n.NIV.toNat) (hv : WfVars n.v) (hV : (n.V.length : Int) = n.v.NV)
    (hs : ∀ t ∈ n.V, Shaped (n.X.map List.length |>.take n.NIV.toNat) t)
    (ha : ∀ a, n.aux = some a → WfAux a ∧ (n.A.length : Int) = a.NAUXV ∧
      ∀ col ∈ n.A, ∀ x ∈ n.X.head?, col.length = x.length) :
    (∃ r, toXarray env user .all .all tu o = .ok r) ∨
      ∃ axes, axesGo env n tu 0 n.NIV.toNat = .ok axes ∧ ¬ (axes.map XAxis.name).Nodup := by
  obtain ⟨g, hg⟩ := globalAttrs_ok env.hp env.stamp env.version n.com user hr
  obtain ⟨axes, hax⟩ := axesGo_ok (env := env) (n := n) n.NIV.toNat 0 tu hu (by omega) (by omega)
  by_cases hnd : (axes.map XAxis.name).Nodup
  · left
    obtain ⟨x1, x2⟩ := axesGo_values _ _ _ _ hax
    rw [List.drop_zero] at x1
    have hshape : axes.map (fun a => a.values.length) = (n.X.map List.length).take n.NIV.toNat := by
      rw [← List.map_take, ← x1, List.map_map]
      rfl
    obtain ⟨vars, hvars⟩ := mapRes_all_ok (f := mainVar env n axes)
      (l := (List.range n.v.NV.toNat).map Int.ofNat) (fun i hi => by
        obtain ⟨j, hj, rfl⟩ := List.mem_map.1 hi
        have hj := List.mem_range.1 hj
        have l1 := hv.vname
        have l2 := hv.vmiss
        have l3 := hv.vscal
        exact mainVar_ok env (by omega) (by omega) (by omega) (by omega) (by rw [hshape]; exact hs) hnd)
    unfold toXarray
    rw [hn, ok_bind, hg, ok_bind, hax, ok_bind, mainNumbers, ok_bind, hvars, ok_bind]
    cases hA : n.aux with
    | none => exact ⟨_, rfl⟩
    | some a =>
      obtain ⟨a1, a2, a3⟩ := ha a hA
      dsimp only
      split
      · obtain ⟨aux, haux⟩ := mapRes_all_ok (f := auxVar env n a axes)
          (l := (List.range a.NAUXV.toNat).map Int.ofNat) (fun i hi => by
            obtain ⟨j, hj, rfl⟩ := List.mem_map.1 hi
            have hj := List.mem_range.1 hj
            have l1 := a1.aname
            have l2 := a1.amiss
            have l3 := a1.ascal
            refine auxVar_ok env (by omega) (by omega) (by omega) (by omega) (fun col hc => ?_) hnd
            rw [List.map_take, hshape, List.take_take]
            cases hX : n.X with
            | nil => rw [hX, List.length_nil] at hx; omega
            | cons x xs =>
              rw [a3 col hc x (by rw [hX]; rfl), show min 1 n.NIV.toNat = 1 by omega]
              rfl)
        rw [auxNumbers, ok_bind, haux]
        exact ⟨_, rfl⟩
      · exact ⟨_, rfl⟩
  · exact .inr ⟨axes, hax, hnd⟩

theorem one_nodup {axes : List (XAxis F)} (h : axes.length = 1) : (axes.map XAxis.name).Nodup := by
  obtain ⟨a, rfl⟩ := List.length_eq_one_iff.1 h
  simp

theorem columns_shaped {cols : List (List F)} {n : Nat} (h : ∀ col ∈ cols, col.length = n) :
    ∀ t ∈ cols.map colTree, Shaped [n] t := by
  intro t ht
  obtain ⟨col, hc, rfl⟩ := List.mem_map.1 ht
  rw [← h col hc]
  exact shaped_col col

/-- C66. Every well-formed file of format 1001 can be converted. -/
theorem C66_1001 {f : NA1001 F} (hw : Wf1001 f) (hu : UnitsKnown env.timeMatch env.answers tu) :
    ∃ r, toXarray env user .all .all tu (.o1001 f) = .ok r := by
  have hniv := hw.niv
  rcases toXarray_ok (env := env) (tu := tu) (user := user) (o := .o1001 f) rfl hw.common.rdate hu
      (by simp only [hniv, List.length_singleton]; decide) (by simp only [hniv, hw.xname]; decide)
      (by simp only [hniv]; decide) hw.vars
      (by simp only [List.length_map]; exact hw.data.1)
      (by simp only [hniv]; exact columns_shaped hw.data.2) (fun a ha => by cases ha) with h | ⟨axes, h1, h2⟩
  · exact h
  · refine absurd (one_nodup ?_) h2
    rw [(axesGo_values _ _ _ _ h1).2]
    simp only [hniv]
    decide

/-- C66. Every well-formed file of format 1010 can be converted. -/
theorem C66_1010 {f : NA1010 F} (hw : Wf1010 f) (hu : UnitsKnown env.timeMatch env.answers tu) :
    ∃ r, toXarray env user .all .all tu (.o1010 f) = .ok r := by
  have hniv := hw.niv
  rcases toXarray_ok (env := env) (tu := tu) (user := user) (o := .o1010 f) rfl hw.common.rdate hu
      (by simp only [hniv, List.length_singleton]; decide) (by simp only [hniv, hw.xname]; decide)
      (by simp only [hniv]; decide) hw.vars
      (by simp only [List.length_map]; exact hw.data.1)
      (by simp only [hniv]; exact columns_shaped hw.data.2)
      (fun a ha => by
        cases ha
        refine ⟨hw.aux, hw.aux_data.1, fun col hc x hx => ?_⟩
        cases hx
        exact hw.aux_data.2 col hc) with h | ⟨axes, h1, h2⟩
  · exact h
  · refine absurd (one_nodup ?_) h2
    rw [(axesGo_values _ _ _ _ h1).2]
    simp only [hniv]
    decide

/-- C66, in part, for formats 2010, 3010 and 4010: the only files that are refused are those whose axes get the same
name. What is missing: such files, see `C66_axes_fails`. -/
theorem C66_2010_partial {f : NA2010 F} (hw : Wf2010 f) (hu : UnitsKnown env.timeMatch env.answers tu) :
    (∃ r, toXarray env user .all .all tu (.o2010 f) = .ok r) ∨
      ∃ n axes, Obj.view env.add (.o2010 f) = .ok n ∧ axesGo env n tu 0 n.NIV.toNat = .ok axes ∧
        ¬ (axes.map XAxis.name).Nodup := by
  obtain ⟨s, h1, h2, h3⟩ := normalize_ok env.add hw
  have hv : Obj.view env.add (.o2010 f) = .ok { c := s.c, NIV := s.NIV, XNAME := s.XNAME, X := s.X0 :: s.XB,
                                                v := s.v, V := s.V.map .lst, aux := some s.aux, A := s.A,
                                                com := s.com } := by
    simp only [Obj.view, h1, ok_bind]
  have hniv : 1 ≤ f.NIV.toNat := by rcases hw.ffi with e | e | e <;> omega
  have hl : s.XB.length = f.NX.length := by simpa using congrArg List.length h2
  have hk : f.NIV.toNat = f.NX.length + 1 := by have := hw.nx; omega
  have c1 : s.NIV = f.NIV := by rw [h3]
  have c2 : s.XNAME = f.XNAME := by rw [h3]
  have c3 : s.v = f.v := by rw [h3]
  have c4 : s.V = f.V := by rw [h3]
  have c5 : s.aux = f.aux := by rw [h3]
  have c6 : s.A = f.A := by rw [h3]
  have c7 : s.X0 = f.X0 := by rw [h3]
  have c8 : s.c = f.c := by rw [h3]
  rcases toXarray_ok (env := env) (tu := tu) (user := user) hv (by simp only [c8]; exact hw.common.rdate) hu
      (by simp only [c1, List.length_cons, hl]; omega)
      (by simp only [c1, c2]; have := hw.xname; omega) (by simp only [c1]; exact hniv)
      (by simp only [c3]; exact hw.vars)
      (by simp only [List.length_map, c4, c3]; exact hw.data.1)
      (by
        intro t ht
        simp only [c4, List.mem_map] at ht
        obtain ⟨col, hc, rfl⟩ := ht
        simp only [List.map_cons, h2, c1, hk, List.take_succ_cons]
        rw [List.take_of_length_le (by simp)]
        exact ⟨by rw [c7]; exact hw.data.2 col hc, fun t ht => hw.shape col hc t ht⟩)
      (fun a ha => by
        simp only [Option.some.injEq, c5] at ha
        subst ha
        simp only [c6, c7]
        refine ⟨hw.aux, hw.aux_data.1, fun col hc x hx => ?_⟩
        cases hx
        exact hw.aux_data.2 col hc) with h | ⟨axes, h1, h2⟩
  · exact .inl h
  · exact .inr ⟨_, axes, hv, h1, h2⟩

/-- C66 fails: the names of axes are changed, and two that become equal cannot be used. -/
theorem C66_axes_fails :
    toXarray Ex.toXEnv [] .all .all none (.o2010 { Ex.d2010 with XNAME := ["Level (m)".toList, "level [km]".toList] })
      = .error .value := error_of_eval (by decide +kernel)

/-- C66 fails: files of the formats 1020, 2110, 2160 and 2310 are never converted. -/
theorem C66_formats_fails (ho : match o with | .o1020 _ | .o2110 _ | .o2160 _ | .o2310 _ => True | _ => False) :
    toXarray env user sel auxSel tu o ≠ .ok r := by
  intro h
  obtain ⟨n, axes, is, h1, _⟩ := toXarray_parts h
  cases o with
  | o1020 f => unfold Obj.view at h1; dsimp only at h1; split at h1 <;> cases h1
  | o2110 f => cases h1
  | o2160 f => cases h1
  | o2310 f => cases h1
  | o1001 f => exact ho
  | o1010 f => exact ho
  | o2010 f => exact ho

/-- The assumptions are met. -/
example : Wf1001 Ex.d1001 ∧ Wf1010 Ex.d1010 ∧ Wf2010 Ex.d2010 ∧
    UnitsKnown Ex.toXEnv.timeMatch Ex.toXEnv.answers none := ⟨Ex.wf1001, Ex.wf1010, Ex.wf2010, .inr (.inl rfl)⟩

/-! ### C62 -/

section
variable {cenv : CollectEnv F} {a : Analysis F} {d : Dict (PyVal F)}

/-- The attribute `comment` of the variables in memory. -/
theorem toXarray_comment (h : toXarray env user sel auxSel tu o = .ok r) (hu : (user.map Prod.fst).Nodup) :
    (r.attrs.map Prod.fst).Nodup ∧
      dictGet? r.attrs "comment" = some (.str (commentAttr env.hp (comHeader o))) := by
  obtain ⟨n, axes, is, g1, g2, _⟩ := toXarray_parts h
  obtain ⟨m, hm, _, gn, g3⟩ := globalAttrs_facts g2 hu
  have f := view_facts g1
  refine ⟨gn, ?_⟩
  rw [g3]
  obtain ⟨hist, _, hm⟩ := ok_of_bind hm
  injection hm with hm
  subst hm
  rw [f.2.1]
  rfl

/-- What the collector makes of the names that the conversion has put into attributes. -/
theorem collected_header {globals : Dict (PyVal F)} {c : Common} (hc : collectDict cenv globals a = .ok d)
    (gn : (globals.map Prod.fst).Nodup) (f1 : dictGet? globals "title" = some (.str c.MNAME))
    (f2 : dictGet? globals "source" = some (.str c.SNAME))
    (f3 : dictGet? globals "institution" = some (.str (c.ONAME ++ " (ONAME from NASA Ames file); ".toList
      ++ c.ORG ++ " (ORG from NASA Ames file).".toList)))
    (h1 : '\n' ∉ c.ONAME) (h2 : '\n' ∉ c.ORG) (h3 : ∀ x ∈ c.ORG.head?, isSpace x = false)
    (h4 : ¬ Occurs "(ONAME from NASA Ames file);".toList c.ORG) :
    dictGet? d "ONAME" = some (.str c.ONAME) ∧ dictGet? d "ORG" = some (.str c.ORG) ∧
      dictGet? d "SNAME" = some (.str c.SNAME) ∧ dictGet? d "MNAME" = some (.str c.MNAME) := by
  obtain ⟨p⟩ := collectDict_parts hc
  have e : splitInstitution (c.ONAME ++ " (ONAME from NASA Ames file); ".toList
      ++ c.ORG ++ " (ORG from NASA Ames file).".toList) = (c.ONAME, c.ORG) := by
    unfold splitInstitution
    have := match_institution h1 h2 h3 h4
    rw [show c.ONAME ++ " (ONAME from NASA Ames file); ".toList ++ c.ORG
        ++ " (ORG from NASA Ames file).".toList = institutionText c.ONAME c.ORG by
      rw [show " (ONAME from NASA Ames file); ".toList = ' ' :: (onameMark ++ [' ']) by decide,
        show " (ORG from NASA Ames file).".toList = ' ' :: orgMark by decide]
      simp only [institutionText, List.append_assoc, List.cons_append, List.nil_append], this]
    dsimp only
    rw [unfoldLines_plain h1, unfoldLines_plain h2]
  refine ⟨?_, ?_, (C61_names_partial hc gn _).1 f2, (C61_names_partial hc gn _).2 f1⟩
  · rw [p.rest _ (by decide)]
    refine globGo_set "ONAME" "institution" (· = some (.str c.ONAME)) (by simp [setters]) _
      (fun _ _ g => ?_) _ _ _ p.globs gn f3
    have := (globStep_institution g).1
    rwa [e] at this
  · rw [p.rest _ (by decide)]
    refine globGo_set "ORG" "institution" (· = some (.str c.ORG)) (by simp [setters]) _
      (fun _ _ g => ?_) _ _ _ p.globs gn f3
    have := (globStep_institution g).2
    rwa [e] at this

/-- C62, in part: the names in the header survive the conversion to variables and back, whatever variables are
written. The organisation must not begin with white space nor hold the mark that nappy puts behind the originator.
What is missing: the dates and the volume numbers, see `C62_fails`. -/
theorem C62_partial (h : toXarray env user sel auxSel tu o = .ok r) (hu : (user.map Prod.fst).Nodup)
    (hc : collectDict cenv r.attrs a = .ok d) (h1 : '\n' ∉ o.common.ONAME) (h2 : '\n' ∉ o.common.ORG)
    (h3 : ∀ c ∈ o.common.ORG.head?, isSpace c = false)
    (h4 : ¬ Occurs "(ONAME from NASA Ames file);".toList o.common.ORG) :
    dictGet? d "ONAME" = some (.str o.common.ONAME) ∧ dictGet? d "ORG" = some (.str o.common.ORG) ∧
      dictGet? d "SNAME" = some (.str o.common.SNAME) ∧ dictGet? d "MNAME" = some (.str o.common.MNAME) := by
  obtain ⟨f1, f2, f3, _⟩ := C63_fails h hu
  exact collected_header hc (toXarray_comment h hu).1 f1 f2 f3 h1 h2 h3 h4

theorem collected_date {globals : Dict (PyVal F)} {l : List Int} (hc : collectDict cenv globals a = .ok d)
    (gn : (globals.map Prod.fst).Nodup) (f8 : dictGet? globals "first_valid_date_of_data" = some (pyInts l))
    (ht : ∀ v ∈ a.main, ∀ ax ∈ v.axes.head?, cenv.isTime ax = false) : dictGet? d "DATE" = some (pyInts l) := by
  obtain ⟨p⟩ := collectDict_parts hc
  rw [p.date]
  unfold headerDate
  rw [ht p.v (by rw [p.main]; simp) p.ax0 (by rw [p.axes]; rfl)]
  have : dictGet? p.g.dict "DATE" = some (pyInts l) :=
    globGo_set "DATE" "first_valid_date_of_data" (· = some (pyInts l)) (by simp [setters]) _
      (fun s s' g => by
        simp [globStep] at g
        subst g
        simp [dictGet?_set]) _ _ _ p.globs gn f8
  rw [this]
  rfl

/-- C62, in part: the first date survives if the first axis of the variables is not a time axis. -/
theorem C62_date_partial (h : toXarray env user sel auxSel tu o = .ok r) (hu : (user.map Prod.fst).Nodup)
    (hc : collectDict cenv r.attrs a = .ok d)
    (ht : ∀ v ∈ a.main, ∀ ax ∈ v.axes.head?, cenv.isTime ax = false) :
    dictGet? d "DATE" = some (pyInts o.common.DATE) := by
  obtain ⟨_, _, _, _, _, _, _, f8⟩ := C63_fails h hu
  exact collected_date hc (toXarray_comment h hu).1 f8 ht

theorem parseInt_digits {s : Str} (hne : s ≠ []) (hs : ∀ c ∈ s, ∃ d, d < 10 ∧ c = digitChar d) {n : Nat}
    (h : parseNat s = some n) : parseInt s = some (n : Int) := by
  unfold parseInt
  have hsp : ∀ c ∈ s, isSpace c = false := by
    intro c hc
    obtain ⟨d, hd, rfl⟩ := hs c hc
    exact digitChar_not_space d hd
  rw [strip_eq_self _ (trimmed_of_no_space _ hsp)]
  cases s with
  | nil => exact absurd rfl hne
  | cons c t =>
    obtain ⟨d, hd, hc⟩ := hs c (by simp)
    have hsg := digitChar_ne_sign d hd
    split
    · rename_i e; simp at e; exact absurd (hc.symm.trans e.1) hsg.1
    · rename_i e; simp at e; exact absurd (hc.symm.trans e.1) hsg.2
    · rw [h]; rfl

theorem padInt_digits (k n : Nat) : ∀ c ∈ padInt k n, c.isDigit = true := by
  have e : padInt k n = List.replicate (k - (natStr n).length) '0' ++ natStr n := by
    unfold padInt
    simp
  intro c hc
  have hd : ∃ d, d < 10 ∧ c = digitChar d := by
    rw [e] at hc
    rcases List.mem_append.1 hc with hm | hm
    · exact ⟨0, by decide, (List.mem_replicate.1 hm).2⟩
    · exact natStr_digits n c hm
  obtain ⟨d, hd, rfl⟩ := hd
  have : ∀ d < 10, (digitChar d).isDigit = true := by decide
  exact this d hd

/-- A number printed with leading zeros is read as the number. -/
theorem padInt_spec (k n : Nat) : (natStr n).length ≤ (padInt k n).length ∧ k ≤ (padInt k n).length ∧
    ((natStr n).length ≤ k → (padInt k n).length = k) ∧ parseInt (padInt k n) = some (n : Int) := by
  have e : padInt k n = List.replicate (k - (natStr n).length) '0' ++ natStr n := by
    unfold padInt
    simp
  have hz : ∀ j, parseNat (List.replicate j '0' ++ natStr n) = some n := by
    intro j
    induction j with
    | zero => exact parseNat_natStr n
    | succ j ih =>
      rw [List.replicate_succ, List.cons_append]
      generalize hs : List.replicate j '0' ++ natStr n = s at ih
      have h0 : digitVal '0' = some 0 := by decide
      cases s with
      | nil => simp [parseNat] at ih
      | cons c t =>
        have hd : ∃ d, d < 10 ∧ c = digitChar d := by
          have hm : c ∈ List.replicate j '0' ++ natStr n := by rw [hs]; simp
          rcases List.mem_append.1 hm with hm | hm
          · exact ⟨0, by decide, (List.mem_replicate.1 hm).2⟩
          · exact natStr_digits n c hm
        obtain ⟨d, hd, rfl⟩ := hd
        have h1 : parseNat ('0' :: digitChar d :: t) = parseDigitsAux 0 (digitChar d :: t) := by
          simp only [parseNat, h0]
        rw [h1, parseDigitsAux_digit 0 d hd]
        simpa [parseNat, digitVal_digitChar d hd] using ih
  rw [e]
  refine ⟨by simp, by simp; omega, fun h => by simp; omega, parseInt_digits ?_ ?_ (hz _)⟩
  · simp [natStr_ne_nil]
  · intro c hc
    rcases List.mem_append.1 hc with hm | hm
    · exact ⟨0, by decide, (List.mem_replicate.1 hm).2⟩
    · exact natStr_digits n c hm

/-- C62. The date of revision is put into the attribute `history`, with four digits for the year and two for the month
and the day. -/
theorem C62_history (h : toXarray env user sel auxSel tu o = .ok r) (hu : (user.map Prod.fst).Nodup) {y m d : Nat}
    (hr : o.common.RDATE = [(y : Int), (m : Int), (d : Int)]) :
    ∃ Y M D, dictGet? r.attrs "history" =
        some (.str (Y ++ "-".toList ++ M ++ "-".toList ++ D ++ " - NASA Ames File created/revised.\n\n".toList ++
          env.stamp ++ " - Converted to Xarray (NetCDF) format using nappy-".toList ++ env.version ++ ".".toList)) ∧
      parseInt Y = some (y : Int) ∧ parseInt M = some (m : Int) ∧ parseInt D = some (d : Int) ∧
      (y < 10000 → Y.length = 4) ∧ (m < 100 → M.length = 2) ∧ (d < 100 → D.length = 2) ∧
      ∀ c ∈ Y ++ M ++ D, c.isDigit = true := by
  obtain ⟨n, axes, is, h1, h2, _⟩ := toXarray_parts h
  obtain ⟨a, hm, _, _, g3⟩ := globalAttrs_facts h2 hu
  rw [(view_facts h1).1] at hm
  obtain ⟨hist, hh, hm⟩ := ok_of_bind hm
  injection hm with hm
  subst hm
  rw [hr] at hh
  injection hh with hh
  have len : ∀ (k n : Nat), 0 < k → n < 10 ^ k → (natStr n).length ≤ k := by
    intro k
    induction k with
    | zero => intro n h; omega
    | succ k ih =>
      intro n _ hn
      rw [natStr]
      split
      · simp
      · have : 0 < k := by
          rcases Nat.eq_zero_or_pos k with rfl | h
          · simp at hn; omega
          · exact h
        have := ih (n / 10) this (by rw [Nat.pow_succ] at hn; omega)
        simp; omega
  obtain ⟨-, -, a3, a4⟩ := padInt_spec 4 y
  obtain ⟨-, -, b3, b4⟩ := padInt_spec 2 m
  obtain ⟨-, -, c3, c4⟩ := padInt_spec 2 d
  refine ⟨_, _, _, ?_, a4, b4, c4, fun h => a3 (len 4 y (by decide) h), fun h => b3 (len 2 m (by decide) h),
    fun h => c3 (len 2 d (by decide) h), ?_⟩
  · rw [g3]
    show some (PyVal.str hist) = _
    rw [← hh]
    have e : " - NASA Ames File created/revised.\n\n".toList =
      " - NASA Ames File created/revised.\n".toList ++ ['\n'] := by decide +kernel
    have e1 : "-".toList = ['-'] := by decide +kernel
    have e2 : ".".toList = ['.'] := by decide +kernel
    rw [e, e1, e2]
    simp only [List.append_assoc, List.cons_append, List.nil_append]
  · intro c hc
    rcases List.mem_append.1 hc with hc | hc
    · rcases List.mem_append.1 hc with hc | hc
      · exact padInt_digits _ _ c hc
      · exact padInt_digits _ _ c hc
    · exact padInt_digits _ _ c hc

/-- A file revised on 31 October 2002. -/
example : (Obj.o1001 Ex.d1001).common.RDATE = [((2002 : Nat) : Int), ((10 : Nat) : Int), ((31 : Nat) : Int)] := rfl

/-- C62 fails: the date of revision and the volume numbers are lost, and the format is that of the old file, whatever
format was chosen for the variables. -/
theorem C62_fails (h : toXarray env user sel auxSel tu o = .ok r) (hu : (user.map Prod.fst).Nodup)
    (hc : collectDict cenv r.attrs a = .ok d) :
    dictGet? d "RDATE" = some (pyInts cenv.today) ∧ dictGet? d "IVOL" = some (.int 1) ∧
      dictGet? d "NVOL" = some (.int 1) ∧ dictGet? d "FFI" = some (.int o.common.FFI) := by
  obtain ⟨n, axes, is, g1, g2, _⟩ := toXarray_parts h
  obtain ⟨m, hm, _, gn, _⟩ := globalAttrs_facts g2 hu
  obtain ⟨k1, k2, k3⟩ := C61_volumes_fails hc
  exact ⟨k3, k1, k2, C43_attribute_wins hc gn _ rfl (C63_fails h hu).2.2.2.1⟩

/-- The assumptions are met: a file, its variables, and the dictionary made from these. The last volume number
was 13 and the organisation has brackets in its name. -/
example : (∀ c ∈ Ex.d1001.c.ORG.head?, isSpace c = false) ∧
    ¬ Occurs "(ONAME from NASA Ames file);".toList Ex.d1001.c.ORG ∧
    ∃ r a d, toXarray Ex.toXEnv [] .all .all none (.o1001 Ex.d1001) = .ok r ∧
      analyse Ex.collectEnv.x none (r.vars ++ r.aux) = .ok (some a) ∧
      collectDict Ex.collectEnv r.attrs a = .ok d ∧
      (a.main.all (fun v => v.axes.head?.all (fun ax => !Ex.collectEnv.isTime ax))) = true :=
  ⟨by decide, by decide +kernel, Ex.back_of
    (P := fun _ a _ => a.main.all (fun v => v.axes.head?.all (fun ax => !Ex.collectEnv.isTime ax)))
    (by decide +kernel)⟩

/-! ### C52 -/

/-- What the collector makes of the comments that the conversion has put into the attribute `comment`. -/
theorem collected_comments {hp : Headings} {com : ComHdr} {globals : Dict (PyVal F)}
    (hc : collectDict cenv globals a = .ok d) (gn : (globals.map Prod.fst).Nodup)
    (hcom : commentAttr hp com ≠ [] → dictGet? globals "comment" = some (.str (commentAttr hp com)))
    (hhp : cenv.hp = hp) (hh : HeadingsApart hp) (hw : WfCom com)
    (hS : ∀ s ∈ com.SCOM, strip s ∉ specialKnown hp → PlainComment hp s)
    (hN : ∀ s ∈ com.NCOM, strip s ∉ normalKnown hp → PlainComment hp s) :
    ∃ S N, dictGet? d "SCOM" = some (pyStrs S) ∧ dictGet? d "NCOM" = some (pyStrs N) ∧
      (ownSpecial hp com).Sublist S ∧ (ownNormal hp com).Sublist N := by
  obtain ⟨p⟩ := collectDict_parts hc
  have hsnl : ∀ s ∈ com.SCOM, '\n' ∉ s := fun s hs hc => (hw.scom s hs _ hc).1 rfl
  have hnnl : ∀ s ∈ com.NCOM, '\n' ∉ s := fun s hs hc => (hw.ncom s hs _ hc).1 rfl
  have z1 : com.NSCOML ≤ 0 → ownSpecial hp com = [] := by
    intro h
    have : com.SCOM = [] := List.length_eq_zero_iff.1 (by have := hw.nscoml; omega)
    rw [ownSpecial, this]
    rfl
  have z2 : com.NNCOML ≤ 0 → ownNormal hp com = [] := by
    intro h
    have : com.NCOM = [] := List.length_eq_zero_iff.1 (by have := hw.nncoml; omega)
    rw [ownNormal, this]
    rfl
  refine ⟨_, _, p.scomIs, p.ncom, ?_⟩
  by_cases he : commentAttr hp com = []
  · have hl := commentAttr_lines hh com hsnl hnnl
    rw [he] at hl
    obtain ⟨l1, l2⟩ := List.append_eq_nil_iff.1 hl.symm
    have y1 : com.NSCOML ≤ 0 := by
      by_contra hpos
      rw [decide_eq_true (by omega : com.NSCOML > 0)] at l1
      cases l1
    have y2 : com.NNCOML ≤ 0 := by
      by_contra hpos
      rw [decide_eq_true (by omega : com.NNCOML > 0)] at l2
      cases l2
    rw [z1 y1, z2 y2]
    exact ⟨List.nil_sublist _, List.nil_sublist _⟩
  obtain ⟨b1, b2⟩ := comments_back hh com hsnl hnnl
    (fun i hi => by
      obtain ⟨h1, h2⟩ := List.mem_filter.1 hi
      exact hS i h1 (by simpa using h2))
    (fun i hi => by
      obtain ⟨h1, h2⟩ := List.mem_filter.1 hi
      exact hN i h1 (by simpa using h2))
  obtain ⟨e0, e1⟩ := globGo_comment _ _ _ p.globs gn (hcom he)
  simp only [List.nil_append, hhp] at e0 e1
  have k0 : p.g.extra0.filter (fun c => !(strip c).isEmpty) = ownSpecial hp com := by
    rw [e0, ← nonBlank_filter, b1]
    split
    · rw [nonBlank_filter, own_special]
    · rw [z1 (by omega)]
      rfl
  have k1 : p.g.extra1.filter (fun c => !(strip c).isEmpty) = ownNormal hp com := by
    rw [e1, ← nonBlank_filter, b2]
    split
    · rw [nonBlank_filter, own_normal]
    · rw [z2 (by omega)]
      rfl
  constructor
  · exact clean_sublist k0 (fun s hs => hsnl s (List.mem_filter.1 hs).1) (rawSpecial_extra p.special)
  · exact clean_sublist k1 (fun s hs => hnnl s (List.mem_filter.1 hs).1) (rawNormal_extra _ _)

/-- C52, in part: all comments that are not blank and are not headings of nappy come through the attribute
`comment` into the header of the dictionary, in order. Comments must not hold one of the headings that mark
comments. What is missing: blank lines are lost, and other lines are added, see `C52_fails`. -/
theorem C52_partial (h : toXarray env user sel auxSel tu o = .ok r) (hu : (user.map Prod.fst).Nodup)
    (hc : collectDict cenv r.attrs a = .ok d) (hhp : cenv.hp = env.hp) (hh : HeadingsApart env.hp)
    (hw : WfCom (comHeader o)) (hS : ∀ s ∈ (comHeader o).SCOM, strip s ∉ specialKnown env.hp → PlainComment env.hp s)
    (hN : ∀ s ∈ (comHeader o).NCOM, strip s ∉ normalKnown env.hp → PlainComment env.hp s) :
    ∃ S N, dictGet? d "SCOM" = some (pyStrs S) ∧ dictGet? d "NCOM" = some (pyStrs N) ∧
      (ownSpecial env.hp (comHeader o)).Sublist S ∧ (ownNormal env.hp (comHeader o)).Sublist N := by
  obtain ⟨gn, hcom⟩ := toXarray_comment h hu
  exact collected_comments hc gn (fun _ => hcom) hhp hh hw hS hN

/-- C52 fails: in the example, which has one special comment and two normal ones of which one is blank, the comments
are put between headings, attributes of the variables and the history are added, and the blank one is lost. -/
theorem C52_fails :
    ∃ r a d, toXarray Ex.toXEnv [] .all .all none (.o1001 Ex.d1001) = .ok r ∧
      analyse Ex.collectEnv.x none (r.vars ++ r.aux) = .ok (some a) ∧ collectDict Ex.collectEnv r.attrs a = .ok d ∧
      decide ((dictGet? d "SCOM").bind Ex.strs = some Ex.specialBack ∧
        (dictGet? d "NCOM").bind Ex.strs = some Ex.normalBack) = true :=
  Ex.back_of (P := fun _ _ d => decide ((dictGet? d "SCOM").bind Ex.strs = some Ex.specialBack ∧
        (dictGet? d "NCOM").bind Ex.strs = some Ex.normalBack)) (by decide +kernel)

/-- The assumptions are met. -/
example : HeadingsApart iniHeadings ∧ Ex.collectEnv.hp = Ex.toXEnv.hp ∧ WfCom (comHeader (.o1001 Ex.d1001)) ∧
    (∀ s ∈ Ex.d1001.com.SCOM ++ Ex.d1001.com.NCOM, PlainComment iniHeadings s) :=
  ⟨by decide +kernel, rfl, Ex.wf1001.com, by decide +kernel⟩

end

end

end Nappy.Props
