import Verif.AccessorLemmas
import Verif.Props.Read
import Verif.Examples

/-! Properties of the metadata accessors of a file object: C57. -/

namespace Nappy.Props

open Nappy Spec

variable {F : Type}

/-- C57, main variables. `getVariables()` returns one entry per main variable, in header order, with name and
units taken from the name line, and the missing value and the scale factor the header declares. -/
theorem C57_variables (cb : UnitsCallback) (ign : List Str) (o : Obj F) (hc : HeaderCounts o) :
    ∃ l, (o.core ign).getVariables cb = .ok l ∧ l.length = (varHeader o).NV.toNat ∧
      ∀ (i : Nat), i < (varHeader o).NV.toNat → ∃ name miss scale, DeclaresVar o i name miss scale ∧
        l[i]? = some ((varAndUnits cb name).1, (varAndUnits cb name).2, .num miss, .num scale) := by
  obtain ⟨l, h1, h2, h3⟩ := mapRes_range_get ((o.core ign).getVariable cb)
    (fun i b => ∃ name miss scale, DeclaresVar o i name miss scale ∧
      b = ((varAndUnits cb name).1, (varAndUnits cb name).2, .num miss, .num scale))
    (varHeader o).NV.toNat (by
      intro i hi
      obtain ⟨c1, c2, c3, _⟩ := hc
      have hd : DeclaresVar o i (varHeader o).VNAME[i] (varHeader o).VMISS[i] (varHeader o).VSCAL[i] := by
        refine ⟨?_, ?_, ?_⟩ <;> simp
      exact ⟨_, getVariable_declared cb ign o i hd, _, _, _, hd, rfl⟩)
  refine ⟨l, ?_, h2, ?_⟩
  · simp only [NACore.getVariables, (core_VNAME ign o).2.2.2.1, rangeOf, ok_bind, h1]
  · intro i hi
    obtain ⟨b, hb, n, m, s, hd, rfl⟩ := h3 i hi
    exact ⟨n, m, s, hd, hb⟩

/-- C57, independent variables. -/
theorem C57_axes (cb : UnitsCallback) (ign : List Str) (o : Obj F) (hc : HeaderCounts o) :
    (o.core ign).getIndependentVariables cb = .ok ((axisHeader o).2.map (varAndUnits cb)) ∧
      (axisHeader o).2.length = (axisHeader o).1.toNat := by
  refine ⟨?_, hc.2.2.2.1⟩
  obtain ⟨l, h1, h2, h3⟩ := mapRes_range_get ((o.core ign).getIndependentVariable cb)
    (fun i b => ((axisHeader o).2.map (varAndUnits cb))[i]? = some b)
    (axisHeader o).1.toNat (by
      intro i hi
      have hx : i < (axisHeader o).2.length := by rw [hc.2.2.2.1]; exact hi
      refine ⟨varAndUnits cb (axisHeader o).2[i], ?_, by simp [List.getElem?_map, hx]⟩
      have e : (axisHeader o).2[i]? = some (axisHeader o).2[i] := by simp
      simp only [NACore.getIndependentVariable, (core_VNAME ign o).2.2.2.2.2, pyStrs_item e, ok_bind,
        namedUnits])
  have : l = (axisHeader o).2.map (varAndUnits cb) := by
    refine List.ext_getElem? fun i => ?_
    by_cases hi : i < (axisHeader o).1.toNat
    · obtain ⟨b, hb, he⟩ := h3 i hi; rw [hb, he]
    · rw [List.getElem?_eq_none (by omega), List.getElem?_eq_none (by simp [hc.2.2.2.1]; omega)]
  rw [← this]
  simp only [NACore.getIndependentVariables, (core_VNAME ign o).2.2.2.2.1, rangeOf, ok_bind, h1]

/-- C57, auxiliary variables. `getAuxVariables()` returns one entry per auxiliary variable (none for format
1001, where `NAUXV` is not set). A text variable of format 2160 has text as missing value and `None` as scale
factor. -/
theorem C57_aux (cb : UnitsCallback) (ign : List Str) (o : Obj F) (hc : HeaderCounts o) :
    ∃ l, (o.core ign).getAuxVariables cb = .ok l ∧ l.length = (auxCount o).toNat ∧
      ∀ (i : Nat), i < (auxCount o).toNat → ∃ name miss scale, DeclaresAux o i name miss scale ∧
        l[i]? = some ((varAndUnits cb name).1, (varAndUnits cb name).2, cellVal miss, scaleVal scale) := by
  obtain ⟨l, h1, h2, h3⟩ := mapRes_range_get ((o.core ign).getAuxVariable cb)
    (fun i b => ∃ name miss scale, DeclaresAux o i name miss scale ∧
      b = ((varAndUnits cb name).1, (varAndUnits cb name).2, cellVal miss, scaleVal scale))
    (auxCount o).toNat (by
      intro i hi
      obtain ⟨n, m, s, hd⟩ := declares_aux hc hi
      exact ⟨_, getAux_declared cb ign o (by omega) i hd, _, _, _, hd, rfl⟩)
  refine ⟨l, ?_, h2, ?_⟩
  · unfold NACore.getAuxVariables
    cases o with
    | o1001 r =>
      have e : ((Obj.o1001 r).core ign).attr "NAUXV" = .none := by rw [core_aux]
      rw [e]
      simp [auxCount] at h2
      subst h2
      rfl
    | _ =>
      simp only [core_aux, PyVal.isNone, rangeOf, ok_bind, h1]
      rfl
  · intro i hi
    obtain ⟨b, hb, n, m, s, hd, rfl⟩ := h3 i hi
    exact ⟨n, m, s, hd, hb⟩

/-- C57, the other accessors: each returns the header item it is named after. -/
theorem C57_simple (ign : List Str) (o : Obj F) :
    (o.core ign).getSimple "getNumHeaderLines" = .ok (.int o.common.NLHEAD) ∧
    (o.core ign).getSimple "getFFI" = .ok (.int o.common.FFI) ∧
    (o.core ign).getSimple "getOriginator" = .ok (.str o.common.ONAME) ∧
    (o.core ign).getSimple "getOrganisation" = .ok (.str o.common.ORG) ∧
    (o.core ign).getSimple "getOrg" = .ok (.str o.common.ORG) ∧
    (o.core ign).getSimple "getSource" = .ok (.str o.common.SNAME) ∧
    (o.core ign).getSimple "getMission" = .ok (.str o.common.MNAME) ∧
    (o.core ign).getVolumes = (.int o.common.IVOL, .int o.common.NVOL) ∧
    (o.core ign).getFileDates
      = (.list (o.common.DATE.map .int), .list (o.common.RDATE.map .int)) ∧
    (o.core ign).getSimple "getNormalComments" = .ok (.list ((comHeader o).NCOM.map .str)) ∧
    (o.core ign).getSimple "getSpecialComments" = .ok (.list ((comHeader o).SCOM.map .str)) := by
  simp only [NACore.getSimple, accessorKey, NACore.getVolumes, NACore.getFileDates, core_get]
  cases o <;>
    simp [Obj.attrs, attrs2110, commonAttrs, varAttrs, auxAttrs, comAttrs, dictGet?, dictGet?_append,
      Obj.common, comHeader, pyInts, pyStrs] <;> split <;> simp [dictGet?]

/-- C57. The counts needed above hold for every file that opens, before and after its data are read. -/
theorem C57_opened (cd : Codec F) (k : Nat) (text : Str) (o : Obj F) (h : openNA cd k text = .ok o) :
    HeaderCounts o ∧ ∀ o', o.readData cd text = .ok o' → HeaderCounts o' :=
  ⟨openNA_counts h, fun o' h' => sameHeader_counts (C24_header_kept cd text o o' h') (openNA_counts h)⟩

/-- The hypothesis is met by a header with one number and one text auxiliary variable. -/
example : HeaderCounts (.o2160 Ex.d2160) ∧ auxCount (.o2160 Ex.d2160) = 2 := by
  constructor
  · exact ⟨by decide, by decide, by decide, by decide, fun _ => by decide⟩
  · decide

end Nappy.Props
