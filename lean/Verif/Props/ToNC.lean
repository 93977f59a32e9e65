import Verif.ToNCLemmas
import Verif.Props.ToXarray
import Verif.Props.Api
import Mathlib.Data.List.Perm.Subperm

/-! Properties of NetCDF files made from NASA Ames files: C77 to C79. -/

namespace Nappy.Ex

open Nappy Spec

/-- A file with two variables of the given names. -/
def twoVars (n1 n2 : String) : Str :=
  asLines (["16 1001", "Lee", "RAL", "GPS", "M", "1 1", "2000 1 1 2000 1 2", "0", "Height (m)", "2", "1 1", "99 99",
    n1, n2, "0", "0", "1 2 3", "4 5 6"].map String.toList)

/-- The arguments that are used if the caller gives none but the name of the file. -/
def toNCArgs : NAToNCArgs Int :=
  { ncFile := none, mode := "w".toList, mainVars := .all, auxVars := .all, globalAttributes := [], timeUnits := none,
    timeWarning := false, renameVariables := [] }

end Nappy.Ex

namespace Nappy.Props

open Nappy Spec

variable {F : Type}

section
variable {env : ToXEnv F} {user : Dict (PyVal F)} {sel auxSel : Selection} {tu : Option Str} {o : Obj F}
  {r : ToXResult F}

/-! ### C77 -/

/-- C77. The NetCDF file has one variable for every name among the converted variables: the last of this name. If all
names differ, it has exactly the converted variables, main ones first, in order. -/
theorem C77_file {cd : Codec F} {typed : List Str} {naFile text name : Str} {a : NAToNCArgs F} {nc : NCFile F}
    (h : convertNAToNC cd env typed naFile text a = .ok (name, nc)) :
    ∃ o r, readFile cd 0 text = .ok o ∧
      toXarray { env with renames := a.renameVariables, answers := if a.timeWarning then some typed else none }
        a.globalAttributes a.mainVars a.auxVars a.timeUnits o = .ok r ∧
      (nc.vars.map XVar.name).Nodup ∧
      (∀ s, s ∈ nc.vars.map XVar.name ↔ s ∈ (r.vars ++ r.aux).map XVar.name) ∧
      (∀ w ∈ nc.vars, LastOfName (r.vars ++ r.aux) w) ∧
      (((r.vars ++ r.aux).map XVar.name).Nodup → nc.vars = r.vars ++ r.aux) := by
  unfold convertNAToNC at h
  obtain ⟨o1, h1, h⟩ := ok_of_bind h
  obtain ⟨o, h2, h⟩ := ok_of_bind h
  obtain ⟨r, h3, h⟩ := ok_of_bind h
  have e := Except.ok.inj h
  injection e with _ e
  refine ⟨o, r, ?_, h3, ?_⟩
  · unfold readFile; rw [h1, ok_bind, h2]
  · have hn := byName_named (r.vars ++ r.aux)
    rw [← e]
    exact ⟨hn.distinct, hn.same, hn.last, hn.keeps⟩

/-- C77, in part. If the NetCDF file has as many variables as the NASA Ames file, then these are its variables: main
variable `i` comes at place `i`, then the auxiliary variables, each with its values. What is missing: names may become
the same and then there are fewer, see `C77_fails`. -/
theorem C77_all_partial {cd : Codec F} {typed : List Str} {naFile text name : Str} {a : NAToNCArgs F} {nc : NCFile F}
    (h : convertNAToNC cd env typed naFile text { a with mainVars := .all, auxVars := .all } = .ok (name, nc))
    {o : Obj F} (ho : readFile cd 0 text = .ok o)
    (hn : nc.vars.length = (varHeader o).NV.toNat + (Spec.auxCount o).toNat) :
    (∀ i < (varHeader o).NV.toNat, ∃ v name miss scale data, nc.vars[i]? = some v ∧ DeclaresVar o i name miss scale ∧
      mainArray o i = some data ∧ Carries env.mul env.cb name miss scale data v) ∧
    ∀ i < (Spec.auxCount o).toNat, ∃ v name miss scale col, nc.vars[(varHeader o).NV.toNat + i]? = some v ∧
      DeclaresAux o i name (.num miss) (some scale) ∧ auxColumn o i = some col ∧
      Carries env.mul env.cb name miss scale (.lst (col.map .val)) v := by
  obtain ⟨o', r, h1, h2, h3, h4, h5, h6⟩ := C77_file h
  rw [ho] at h1
  have e := Except.ok.inj h1
  subst e
  obtain ⟨l1, k1⟩ := C64_values h2
  obtain ⟨l2, k2⟩ := C64_aux h2
  have hnd : ((r.vars ++ r.aux).map XVar.name).Nodup := by
    have hsub : (nc.vars.map XVar.name).Subperm ((r.vars ++ r.aux).map XVar.name) :=
      List.subperm_of_subset h3 (fun s hs => (h4 s).1 hs)
    have hp := hsub.perm_of_length_le (by simp [hn, l1, l2])
    exact hp.nodup_iff.1 h3
  have e := h6 hnd
  rw [e]
  refine ⟨fun i hi => ?_, fun i hi => ?_⟩
  · have hlt : i < r.vars.length := by rw [l1]; exact hi
    obtain ⟨⟨name, miss, scale, data, c1, c2, c3⟩, _⟩ := k1 i _ (List.getElem?_eq_getElem hlt)
    refine ⟨r.vars[i], name, miss, scale, data, ?_, c1, c2, c3⟩
    rw [List.getElem?_append_left hlt, List.getElem?_eq_getElem hlt]
  · have hlt : i < r.aux.length := by rw [l2]; exact hi
    obtain ⟨⟨name, miss, scale, data, c1, c2, c3⟩, _⟩ := k2 i _ (List.getElem?_eq_getElem hlt)
    refine ⟨r.aux[i], name, miss, scale, data, ?_, c1, c2, c3⟩
    rw [List.getElem?_append_right (by omega), l1, Nat.add_sub_cancel_left, List.getElem?_eq_getElem hlt]

/-- C77 fails: of two variables whose names differ in capitals and units only, the first is lost. -/
theorem C77_fails :
    ∃ p, convertNAToNC intCodec Ex.toXEnv [] "a.na".toList (Ex.twoVars "Temp (C)" "TEMP (K)") Ex.toNCArgs = .ok p ∧
      (p.1 = "a.na.nc".toList ∧
        p.2.vars.map (fun v => (v.name, leaves v.data)) = [("temp".toList, [3, 6])]) := ok_of_eval (by decide +kernel)

/-- The assumptions are met. -/
example :
    ∃ p, convertNAToNC intCodec Ex.toXEnv [] "a.na".toList (Ex.twoVars "Temp (C)" "O3 [old] (ppb)")
        { Ex.toNCArgs with mainVars := .all, auxVars := .all } = .ok p ∧
      (p.1 = "a.na.nc".toList ∧ p.2.vars.length = 2 ∧
        p.2.vars.map (fun v => (v.name, leaves v.data))
          = [("temp".toList, [2, 5]), ("o3_old_".toList, [3, 6])]) := ok_of_eval (by decide +kernel)

example : ∃ o, readFile intCodec 0 (Ex.twoVars "Temp (C)" "O3 [old] (ppb)") = .ok o ∧
    ((varHeader o).NV.toNat = 2 ∧ (Spec.auxCount o).toNat = 0) := ok_of_eval (by decide +kernel)

/-! ### C78 -/

theorem main_named {n : NAView F} {axes : List (XAxis F)} {i : Nat} {v : XVar F} {name : Str}
    (h : mainVar env n axes i = .ok v) (hname : n.v.VNAME[i]? = some name) :
    ∃ short, short = (lookupLast (lowerKeys env.renames)
        (lower (shortName "naVariable_".toList (varAndUnits env.cb name).1 i))).getD
          (shortName "naVariable_".toList (varAndUnits env.cb name).1 i) ∧
      v.name = safeName short ∧ dictGet? v.attrs "long_name" = some short ∧ dictGet? v.attrs "title" = some short := by
  obtain ⟨name', h1, h⟩ := ok_of_bind h
  rw [idxI_nat] at h1
  have := idx_some h1
  rw [hname] at this
  injection this with this
  subst this
  obtain ⟨miss, _, h⟩ := ok_of_bind h
  obtain ⟨scal, _, h⟩ := ok_of_bind h
  obtain ⟨data, _, h⟩ := ok_of_bind h
  exact ⟨_, rfl, makeVar_names h⟩

theorem aux_named {n : NAView F} {a : AuxHdr F} {axes : List (XAxis F)} {i : Nat} {v : XVar F} {name : Str}
    (h : auxVar env n a axes i = .ok v) (hname : a.ANAME[i]? = some name) :
    ∃ short, short = (lookupLast (lowerKeys env.renames)
        (shortName "naAuxVariable_".toList (varAndUnits env.cb name).1 i)).getD
          (shortName "naAuxVariable_".toList (varAndUnits env.cb name).1 i) ∧
      v.name = safeName short ∧ dictGet? v.attrs "long_name" = some short ∧ dictGet? v.attrs "title" = some short := by
  obtain ⟨name', h1, h⟩ := ok_of_bind h
  rw [idxI_nat] at h1
  have := idx_some h1
  rw [hname] at this
  injection this with this
  subst this
  obtain ⟨miss, _, h⟩ := ok_of_bind h
  obtain ⟨scal, _, h⟩ := ok_of_bind h
  obtain ⟨data, _, h⟩ := ok_of_bind h
  exact ⟨_, rfl, makeVar_names h⟩

/-- The variable made for number `i`. -/
theorem main_made (h : toXarray env user .all auxSel tu o = .ok r) {i : Nat} {v : XVar F} (hv : r.vars[i]? = some v) :
    ∃ n axes, n.v = varHeader o ∧ mainVar env n axes i = .ok v := by
  obtain ⟨n, axes, is, h1, h2, h3, h4, h5, _, _⟩ := toXarray_parts h
  injection h4 with h4
  subst h4
  refine ⟨n, axes, (view_facts h1).2.2.1, mapRes_get h5 ?_ hv⟩
  have := mapRes_ok_length _ _ _ h5
  have hi := (List.getElem?_eq_some_iff.1 hv).1
  rw [List.getElem?_map, List.getElem?_range (by simpa [this] using hi)]
  rfl

theorem good_named {s : Str} (h : GoodId s) : safeName s = s :=
  safeName_good fun c hc => ⟨by rintro rfl; exact absurd (h _ hc).1 (by decide), (h c hc).2.2⟩

/-- C78. A main variable gets a name that NetCDF tools can use, made from its name in the NASA Ames file without the
units; the caller may give it another one, for which capitals and blanks are replaced in the name only. -/
theorem C78_main (h : toXarray env user .all auxSel tu o = .ok r) {i : Nat} {v : XVar F} {name : Str}
    (hv : r.vars[i]? = some v) (hname : (varHeader o).VNAME[i]? = some name)
    (hshort : (varAndUnits env.cb name).1.length < 64) :
    ∃ id, IdFor (varAndUnits env.cb name).1 id ∧
      (NotWanted env.renames id → v.name = id ∧ dictGet? v.attrs "long_name" = some id ∧
        dictGet? v.attrs "title" = some id) ∧
      ∀ new, Wanted env.renames id new → v.name = new.map (fun c => if c = ' ' then '_' else c.toLower) ∧
        dictGet? v.attrs "long_name" = some new ∧ dictGet? v.attrs "title" = some new := by
  obtain ⟨n, axes, e, hm⟩ := main_made h hv
  obtain ⟨short, h1, h2, h3, h4⟩ := main_named hm (by rw [e]; exact hname)
  have hid := idFor_safeId (varAndUnits env.cb name).1
  unfold shortName at h1
  rw [if_pos hshort, lower_lower] at h1
  refine ⟨_, hid, fun hw => ?_, fun new hw => ?_⟩
  · rw [lookupLast_none hw] at h1
    rw [h2, h3, h4, h1, Option.getD_none]
    exact ⟨good_named hid.2.1, rfl, rfl⟩
  · rw [lookupLast_some hw, Option.getD_some] at h1
    rw [h2, h3, h4, h1]
    refine ⟨?_, rfl, rfl⟩
    unfold safeName
    refine List.map_congr_left fun c _ => ?_
    by_cases hc : c = ' '
    · rw [hc]; rfl
    · rw [if_neg hc, if_neg (fun e => hc (toLower_other (by decide) e))]

/-- C78. A name that is good already is kept. -/
theorem C78_kept (h : toXarray env user .all auxSel tu o = .ok r) {i : Nat} {v : XVar F} {name : Str}
    (hv : r.vars[i]? = some v) (hname : (varHeader o).VNAME[i]? = some name)
    (hshort : (varAndUnits env.cb name).1.length < 64) (hg : GoodId (varAndUnits env.cb name).1)
    (hw : NotWanted env.renames (varAndUnits env.cb name).1) : v.name = (varAndUnits env.cb name).1 := by
  obtain ⟨n, axes, e, hm⟩ := main_made h hv
  obtain ⟨short, h1, h2, _, _⟩ := main_named hm (by rw [e]; exact hname)
  have e1 : safeId (varAndUnits env.cb name).1 = (varAndUnits env.cb name).1 :=
    safeId_good _ _ fun c hc => (unsafeChar_iff c).2 ⟨(hg c hc).1, (hg c hc).2.1⟩
  have e2 : lower (varAndUnits env.cb name).1 = (varAndUnits env.cb name).1 := by
    unfold lower
    conv => rhs; rw [← List.map_id (varAndUnits env.cb name).1]
    exact List.map_congr_left fun c hc => (hg c hc).2.2
  unfold shortName at h1
  rw [if_pos hshort, e1, e2, e2, lookupLast_none hw, Option.getD_none] at h1
  rw [h2, h1]
  exact good_named hg

/-- C78. A variable whose name has 64 characters or more is named after its number, unless the caller gives another
name for this. -/
theorem C78_long (h : toXarray env user .all auxSel tu o = .ok r) {i : Nat} {v : XVar F} {name : Str}
    (hv : r.vars[i]? = some v) (hname : (varHeader o).VNAME[i]? = some name)
    (hlong : 64 ≤ (varAndUnits env.cb name).1.length) :
    (NotWanted env.renames ("navariable_".toList ++ natStr i) → v.name = "navariable_".toList ++ natStr i) ∧
      ∀ new, Wanted env.renames ("navariable_".toList ++ natStr i) new →
        v.name = new.map (fun c => if c = ' ' then '_' else c.toLower) := by
  obtain ⟨n, axes, e, hm⟩ := main_made h hv
  obtain ⟨short, h1, h2, _, _⟩ := main_named hm (by rw [e]; exact hname)
  have hlow : ∀ c ∈ natStr i, c ≠ ' ' ∧ c.toLower = c := by
    intro c hc
    obtain ⟨d, hd, rfl⟩ := natStr_digits i c hc
    have : ∀ d < 10, digitChar d ≠ ' ' ∧ (digitChar d).toLower = digitChar d := by decide
    exact this d hd
  have el : lower (natStr i) = natStr i := by
    unfold lower
    conv => rhs; rw [← List.map_id (natStr i)]
    exact List.map_congr_left fun c hc => (hlow c hc).2
  have hs : safeName ("naVariable_".toList ++ natStr i) = "navariable_".toList ++ natStr i := by
    have : safeName ("naVariable_".toList ++ natStr i) = safeName "naVariable_".toList ++ safeName (natStr i) := by
      unfold safeName; rw [List.map_append]
    rw [this, safeName_good hlow]
    rfl
  have hlw : lower ("naVariable_".toList ++ natStr i) = "navariable_".toList ++ natStr i := by
    have : lower ("naVariable_".toList ++ natStr i) = lower "naVariable_".toList ++ lower (natStr i) := by
      unfold lower; rw [List.map_append]
    rw [this, el]
    rfl
  unfold shortName at h1
  rw [if_neg (by omega), show intStr (i : Int) = natStr i from rfl, hlw] at h1
  refine ⟨fun hw => ?_, fun new hw => ?_⟩
  · rw [lookupLast_none hw, Option.getD_none] at h1
    rw [h2, h1, hs]
  · rw [lookupLast_some hw, Option.getD_some] at h1
    rw [h2, h1]
    unfold safeName
    refine List.map_congr_left fun c _ => ?_
    by_cases hc : c = ' '
    · rw [hc]; rfl
    · rw [if_neg hc, if_neg (fun e => hc (toLower_other (by decide) e))]

/-- The auxiliary variable made for number `i`. -/
theorem aux_made (h : toXarray env user sel .all tu o = .ok r) {i : Nat} {v : XVar F} (hv : r.aux[i]? = some v) :
    ∃ n a axes, o.view env.add = .ok n ∧ n.aux = some a ∧ auxVar env n a axes i = .ok v := by
  obtain ⟨n, axes, is, h1, h2, h3, h4, h5, h6, h7⟩ := toXarray_parts h
  have hne : r.aux ≠ [] := by intro e; rw [e] at hv; cases hv
  cases ha : n.aux with
  | none => exact absurd (h7 (fun a hb => by rw [ha] at hb; cases hb)) hne
  | some a =>
    by_cases hp : a.NAUXV > 0
    · obtain ⟨js, k1, k2⟩ := h6 a ha hp
      injection k1 with k1
      subst k1
      refine ⟨n, a, axes, h1, ha, mapRes_get k2 ?_ hv⟩
      have := mapRes_ok_length _ _ _ k2
      have hi := (List.getElem?_eq_some_iff.1 hv).1
      rw [List.getElem?_map, List.getElem?_range (by simpa [this] using hi)]
      rfl
    · exact absurd (h7 (fun b hb => by rw [ha] at hb; injection hb with hb; subst hb; exact hp)) hne

/-- C78 for auxiliary variables, in part. What is missing: names of 64 characters or more, which the caller cannot
replace, see `C78_aux_long_fails`. -/
theorem C78_aux_partial (h : toXarray env user sel .all tu o = .ok r) {i : Nat} {v : XVar F} {name : Str}
    {miss : Cell F} {scale : Option F} (hv : r.aux[i]? = some v) (hname : DeclaresAux o i name miss scale)
    (hshort : (varAndUnits env.cb name).1.length < 64) :
    ∃ id, IdFor (varAndUnits env.cb name).1 id ∧
      (NotWanted env.renames id → v.name = id ∧ dictGet? v.attrs "long_name" = some id ∧
        dictGet? v.attrs "title" = some id) ∧
      ∀ new, Wanted env.renames id new → v.name = new.map (fun c => if c = ' ' then '_' else c.toLower) ∧
        dictGet? v.attrs "long_name" = some new ∧ dictGet? v.attrs "title" = some new := by
  obtain ⟨n, a, axes, hn, ha, hm⟩ := aux_made h hv
  have hname' : a.ANAME[i]? = some name := by
    obtain ⟨name', k1, hm'⟩ := ok_of_bind hm
    obtain ⟨m', k2, hm'⟩ := ok_of_bind hm'
    obtain ⟨s', k3, _⟩ := ok_of_bind hm'
    rw [idxI_nat] at k1 k2 k3
    have hd := ((view_facts hn).2.2.2.2.2.2.1 a ha).2.2 i name' m' s' ⟨idx_some k1, idx_some k2, idx_some k3⟩
    have : name' = name := by
      cases o <;> simp only [DeclaresAux, DeclaresAux.Plain] at hd hname <;>
        first | exact hd.elim | exact Option.some.inj (hd.1.symm.trans hname.1)
    rw [← this]
    exact idx_some k1
  obtain ⟨short, h1, h2, h3, h4⟩ := aux_named hm hname'
  have hid := idFor_safeId (varAndUnits env.cb name).1
  unfold shortName at h1
  rw [if_pos hshort] at h1
  refine ⟨_, hid, fun hw => ?_, fun new hw => ?_⟩
  · rw [lookupLast_none hw] at h1
    rw [h2, h3, h4, h1, Option.getD_none]
    exact ⟨good_named hid.2.1, rfl, rfl⟩
  · rw [lookupLast_some hw, Option.getD_some] at h1
    rw [h2, h3, h4, h1]
    refine ⟨?_, rfl, rfl⟩
    unfold safeName
    refine List.map_congr_left fun c _ => ?_
    by_cases hc : c = ' '
    · rw [hc]; rfl
    · rw [if_neg hc, if_neg (fun e => hc (toLower_other (by decide) e))]

end

/-- A name of 64 characters. -/
def Ex.longName : Str := List.replicate 64 'a'

/-- C78 fails: an auxiliary variable with a long name is named after its number, and this name cannot be replaced,
whichever capitals the caller writes it with. -/
theorem C78_aux_long_fails :
    ∃ r, toXarray { Ex.toXEnv with renames := [("naAuxVariable_0".toList, "count".toList),
          ("naauxvariable_0".toList, "count".toList)] } [] .all .all none
        (.o1010 { Ex.d1010 with aux := { Ex.d1010.aux with ANAME := [Ex.longName] } }) = .ok r ∧
      r.aux.map XVar.name = ["naauxvariable_0".toList] := ok_of_eval (by decide +kernel)

/-- The assumptions are met, with and without a new name, and for a long name. -/
example :
    ∃ r, toXarray { Ex.toXEnv with renames := [("TEMP".toList, "Air Temp".toList)] } [] .all .all none
        (.o1010 { Ex.d1010 with aux := { Ex.d1010.aux with ANAME := ["No. of (m/s) shots!".toList] } }) = .ok r ∧
      (r.vars.map XVar.name = ["o3".toList, "air_temp".toList] ∧ r.aux.map XVar.name = ["no._of_shots_".toList]) :=
  ok_of_eval (by decide +kernel)

example : Wanted [("TEMP".toList, "Air Temp".toList)] "temp".toList "Air Temp".toList ∧
    NotWanted [("TEMP".toList, "Air Temp".toList)] "o3".toList ∧ GoodId "temp".toList :=
  ⟨⟨[], _, [], rfl, by decide, by simp⟩, by unfold NotWanted; decide, by unfold GoodId; decide⟩

example :
    ∃ r, toXarray { Ex.toXEnv with renames := [("naVariable_0".toList, "Ozone".toList)] } [] .all .all none
        (.o1010 { Ex.d1010 with v := { Ex.vars with VNAME := [Ex.longName, Ex.longName] } }) = .ok r ∧
      r.vars.map XVar.name = ["ozone".toList, "navariable_1".toList] := ok_of_eval (by decide +kernel)

/-! ### C79 -/

theorem toXarray_one {env : ToXEnv F} {user : Dict (PyVal F)} {auxSel : Selection} {tu : Option Str} {o : Obj F}
    {r : ToXResult F} (h : toXarray env user .all auxSel tu o = .ok r) {i : Nat} {v : XVar F} (hv : r.vars[i]? = some v)
    {it : SelItem} (hit : ∀ n, o.view env.add = .ok n → mainNumbers n (.items [it]) = .ok [(i : Int)]) :
    toXarray env user (.items [it]) auxSel tu o = .ok { r with vars := [v] } := by
  unfold toXarray at h ⊢
  obtain ⟨n, h1, h⟩ := ok_of_bind h
  obtain ⟨attrs, h2, h⟩ := ok_of_bind h
  obtain ⟨axes, h3, h⟩ := ok_of_bind h
  obtain ⟨is, h4, h⟩ := ok_of_bind h
  obtain ⟨vars, h5, h⟩ := ok_of_bind h
  obtain ⟨aux, h6, h⟩ := ok_of_bind h
  have e := Except.ok.inj h
  subst e
  injection h4 with h4
  subst h4
  have hm : mainVar env n axes i = .ok v := by
    refine mapRes_get h5 ?_ hv
    have := mapRes_ok_length _ _ _ h5
    have hi := (List.getElem?_eq_some_iff.1 hv).1
    rw [List.getElem?_map, List.getElem?_range (by simpa [this] using hi)]
    rfl
  rw [h1, ok_bind, h2, ok_bind, h3, ok_bind, hit n h1, ok_bind, mapRes, hm]
  simp only [mapRes, ok_bind]
  rw [h6, ok_bind]

/-- C79. Asking for one variable by its number gives what reading all variables gives at this place; the number may
be a text. -/
theorem C79_number {cd : Codec F} {env : ToXEnv F} {text : Str} {r : ToXResult F} {i : Nat} {v : XVar F}
    (h : readXarrayObjectsFromNA cd env text = .ok r) (hv : r.vars[i]? = some v) :
    getXarrayVariableFromNA cd env text (.int i) = .ok v ∧
      getXarrayVariableFromNA cd env text (.str (natStr i)) = .ok v := by
  unfold readXarrayObjectsFromNA at h
  obtain ⟨o1, h1, h⟩ := ok_of_bind h
  obtain ⟨o, h2, h⟩ := ok_of_bind h
  unfold getXarrayVariableFromNA
  rw [h1, ok_bind, h2, ok_bind, ok_bind, h2, ok_bind,
    toXarray_one h hv (it := .int i) (fun n _ => rfl), toXarray_one h hv (it := .str (natStr i)) (fun n _ => ?_)]
  · exact ⟨rfl, rfl⟩
  · have hstrip : strip (natStr i) = natStr i := by
      have hs := intStr_not_space (i : Int)
      refine strip_eq_self _ ⟨fun c t e => hs c (by rw [show intStr (i : Int) = natStr i from rfl, e]; simp), fun c t e => ?_⟩
      exact hs t (by rw [show intStr (i : Int) = natStr i from rfl, e]; simp)
    have hp : parseInt (natStr i) = some (i : Int) := parseInt_intStr i
    have hdig : ((natStr i).head?.map Char.isDigit).getD false = true := by
      cases e : natStr i with
      | nil => exact absurd e (natStr_ne_nil i)
      | cons c t =>
        obtain ⟨d, hd, rfl⟩ := natStr_digits i c (by rw [e]; simp)
        have : ∀ d < 10, (digitChar d).isDigit = true := by decide
        simpa using this d hd
    show (if ((natStr i).head?.map Char.isDigit).getD false = true then _ else _) = _
    rw [if_pos hdig]
    simp only [mapRes, SelItem.toInt, hstrip, hp]
    rfl

/-- C79, in part. Asking for one variable by its name gives the first variable of this name. What is missing: names
that begin with a digit, see `C79_digit_fails`. -/
theorem C79_name_partial {cd : Codec F} {env : ToXEnv F} {text : Str} {r : ToXResult F} {i : Nat} {v : XVar F}
    {o : Obj F} {s : Str} (ho : readFile cd 0 text = .ok o)
    (h : readXarrayObjectsFromNA cd env text = .ok r) (hv : r.vars[i]? = some v)
    (hs : (varHeader o).VNAME[i]? = some s) (hfirst : ∀ k < i, (varHeader o).VNAME[k]? ≠ some s)
    (hd : ∀ c ∈ s.head?, c.isDigit = false) :
    getXarrayVariableFromNA cd env text (.str s) = .ok v := by
  unfold readXarrayObjectsFromNA at h
  obtain ⟨o1, h1, h⟩ := ok_of_bind h
  obtain ⟨o', h2, h⟩ := ok_of_bind h
  have e : o' = o := by
    unfold readFile at ho
    rw [h1, ok_bind, h2] at ho
    exact Except.ok.inj ho
  subst e
  unfold getXarrayVariableFromNA
  rw [h1, ok_bind, h2, ok_bind, toXarray_one h hv (it := .str s) (fun n hn => ?_)]
  · rfl
  · show (if (s.head?.map Char.isDigit).getD false = true then _ else _) = _
    rw [if_neg]
    · have hx : indexOf? s n.v.VNAME = some i := by
        rw [(view_facts hn).2.2.1]
        cases hx : indexOf? s (varHeader o').VNAME with
        | none => exact absurd (List.mem_of_getElem? hs) (indexOf?_none.1 hx)
        | some j =>
          obtain ⟨k1, k2⟩ := indexOf?_some hx
          by_cases hij : i < j
          · exact absurd hs (k2 i hij)
          · by_cases hji : j < i
            · exact absurd k1 (hfirst j hji)
            · rw [show i = j by omega]
      simp only [mapRes, hx]
      rfl
    · cases s with
      | nil => simp
      | cons c t => simp [hd c (by simp)]

/-- C79 fails: a variable whose name begins with a digit is not found by its name, although it is in the file. -/
theorem C79_digit_fails :
    (∃ r, readXarrayObjectsFromNA intCodec Ex.toXEnv (Ex.twoVars "O3 (ppb)" "3d wind") = .ok r ∧
      r.vars.map XVar.name = ["o3".toList, "3d_wind".toList]) ∧
    getXarrayVariableFromNA intCodec Ex.toXEnv (Ex.twoVars "O3 (ppb)" "3d wind") (.str "3d wind".toList)
      = .error .value := ⟨ok_of_eval (by decide +kernel), error_of_eval (by decide +kernel)⟩

/-- The assumptions are met. -/
example :
    (∃ o, readFile intCodec 0 (Ex.twoVars "O3 (ppb)" "Temp (C)") = .ok o ∧
      (varHeader o).VNAME = ["O3 (ppb)".toList, "Temp (C)".toList]) ∧
    (∃ r, readXarrayObjectsFromNA intCodec Ex.toXEnv (Ex.twoVars "O3 (ppb)" "Temp (C)") = .ok r ∧ r.vars.length = 2) ∧
    (∃ v, getXarrayVariableFromNA intCodec Ex.toXEnv (Ex.twoVars "O3 (ppb)" "Temp (C)") (.str "Temp (C)".toList) = .ok v ∧
      leaves v.data = [3, 6]) ∧
    ∀ c ∈ ("Temp (C)".toList).head?, c.isDigit = false :=
  ⟨ok_of_eval (by decide +kernel), ok_of_eval (by decide +kernel), ok_of_eval (by decide +kernel), by decide⟩

end Nappy.Props
