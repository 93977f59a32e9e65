import Verif.AccessorsInt
import Verif.Props.Accessors

/-! Property C112: numbers given to the metadata accessors. -/

namespace Nappy.Props

open Nappy Spec

variable {F : Type}

theorem idxI_nat {α : Type} (l : List α) (i : Nat) : idxI l (i : Int) = idx l i := by
  unfold idxI
  rw [if_pos (by omega)]
  rfl

theorem idxI_back {α : Type} {l : List α} {k : Nat} (h1 : 1 ≤ k) (h2 : k ≤ l.length) :
    idxI l (-(k : Int)) = idx l (l.length - k) := by
  unfold idxI
  rw [if_neg (by omega), if_pos (by omega)]
  congr 1
  omega

theorem idxI_outside {α : Type} {l : List α} {i : Int} (h : (l.length : Int) ≤ i ∨ i < -(l.length : Int)) :
    idxI l i = .error .index := by
  unfold idxI
  split
  · unfold idx
    rw [List.getElem?_eq_none (by omega)]
  · rw [if_neg (by omega)]

theorem itemI_nat (v : PyVal F) (i : Nat) : v.itemI (i : Int) = v.item i := by
  cases v <;> simp only [PyVal.itemI, PyVal.item, idxI_nat]

theorem itemI_back {l : List (PyVal F)} {k : Nat} (h1 : 1 ≤ k) (h2 : k ≤ l.length) :
    (PyVal.list l).itemI (-(k : Int)) = (PyVal.list l).item (l.length - k) := idxI_back h1 h2

/-- C112. Numbers from zero on are those of C57. -/
theorem C112_same (cb : UnitsCallback) (c : NACore F) (i : Nat) :
    c.getVariableI cb i = c.getVariable cb i ∧ c.getIndependentVariableI cb i = c.getIndependentVariable cb i ∧
      c.getAuxVariableI cb i = c.getAuxVariable cb i := by
  refine ⟨?_, ?_, ?_⟩
  · simp only [NACore.getVariableI, NACore.getVariable, NACore.getMissingValue, NACore.getScaleFactor, itemI_nat]
  · simp only [NACore.getIndependentVariableI, NACore.getIndependentVariable, itemI_nat]
  · have e : c.auxScaleI i = c.auxScale i := by
      simp only [NACore.auxScaleI, NACore.auxScale, NACore.getAuxScaleFactor, itemI_nat]
      cases c.attr "NAUXC" <;> cases c.attr "NAUXV" <;> rfl
    simp only [NACore.getAuxVariableI, NACore.getAuxVariable, NACore.getAuxMissingValue, itemI_nat, e]

/-- C112, in part: a negative number counts the main variables from the end. What is missing: headers with more missing
values or scale factors than variables, see `C112_surplus_fails`. -/
theorem C112_variable_partial (cb : UnitsCallback) (ign : List Str) (o : Obj F) (hc : HeaderCounts o)
    (hm : (varHeader o).VMISS.length = (varHeader o).NV.toNat) (hs : (varHeader o).VSCAL.length = (varHeader o).NV.toNat)
    {k : Nat} (h1 : 1 ≤ k) (h2 : k ≤ (varHeader o).NV.toNat) :
    ∃ name miss scale, DeclaresVar o ((varHeader o).NV.toNat - k) name miss scale ∧
      (o.core ign).getVariableI cb (-(k : Int))
        = .ok ((varAndUnits cb name).1, (varAndUnits cb name).2, .num miss, .num scale) := by
  obtain ⟨c1, _, _, _⟩ := hc
  have hd : DeclaresVar o ((varHeader o).NV.toNat - k) (varHeader o).VNAME[(varHeader o).NV.toNat - k]
      (varHeader o).VMISS[(varHeader o).NV.toNat - k] (varHeader o).VSCAL[(varHeader o).NV.toNat - k] := by
    refine ⟨?_, ?_, ?_⟩ <;> simp
  refine ⟨_, _, _, hd, ?_⟩
  rw [← getVariable_declared cb ign o _ hd]
  obtain ⟨e1, e2, e3, _⟩ := core_VNAME ign o
  simp only [NACore.getVariableI, NACore.getVariable, NACore.getMissingValue, NACore.getScaleFactor, e1, e2, e3, pyStrs,
    pyNums]
  rw [itemI_back h1 (by simp [c1, h2]), itemI_back h1 (by simp [hm, h2]), itemI_back h1 (by simp [hs, h2])]
  simp only [List.length_map, c1, hm, hs]

/-- C112. A negative number counts the axes from the end. -/
theorem C112_axis (cb : UnitsCallback) (ign : List Str) (o : Obj F) (hc : HeaderCounts o) {k : Nat} (h1 : 1 ≤ k)
    (h2 : k ≤ (axisHeader o).1.toNat) :
    ∃ name, (axisHeader o).2[(axisHeader o).1.toNat - k]? = some name ∧
      (o.core ign).getIndependentVariableI cb (-(k : Int)) = .ok (varAndUnits cb name) := by
  have hl := hc.2.2.2.1
  obtain ⟨name, he⟩ : ∃ name, (axisHeader o).2[(axisHeader o).1.toNat - k]? = some name :=
    ⟨_, List.getElem?_eq_getElem (by omega)⟩
  refine ⟨_, he, ?_⟩
  have := pyStrs_item (F := F) he
  simp only [NACore.getIndependentVariableI, (core_VNAME ign o).2.2.2.2.2]
  unfold pyStrs at this ⊢
  rw [itemI_back h1 (by simp [hl, h2]), List.length_map, hl, this]
  rfl

/-- C112, in part: a negative number counts the auxiliary variables from the end. What is missing: format 2160, see
`C112_text_fails`, and headers with more missing values or scale factors than variables. -/
theorem C112_aux_partial (cb : UnitsCallback) (ign : List Str) (o : Obj F) (a : AuxHdr F) (ha : plainAux o = some a)
    (hn : a.ANAME.length = a.NAUXV.toNat) (hm : a.AMISS.length = a.NAUXV.toNat) (hs : a.ASCAL.length = a.NAUXV.toNat)
    {k : Nat} (h1 : 1 ≤ k) (h2 : k ≤ a.NAUXV.toNat) :
    ∃ name miss scale, DeclaresAux o (a.NAUXV.toNat - k) name miss scale ∧
      (o.core ign).getAuxVariableI cb (-(k : Int))
        = .ok ((varAndUnits cb name).1, (varAndUnits cb name).2, cellVal miss, scaleVal scale) := by
  have hp : 0 < a.NAUXV := by omega
  obtain ⟨name, miss, scale, hd⟩ := declares_plain (a := a) (fun _ => ⟨hn, by omega, by omega⟩)
    (i := a.NAUXV.toNat - k) (by omega)
  refine ⟨name, miss, scale, ?_, ?_⟩
  · cases o <;> simp only [plainAux] at ha <;> cases ha <;> exact hd
  · rw [← getAux_plain cb ign o a ha hp _ hd]
    obtain ⟨e1, e2, e3⟩ := core_plain ign o a ha hp
    have e4 : (o.core ign).attr "NAUXC" = .none := by
      rw [core_NAUXC]; cases o <;> simp_all [plainAux]
    simp only [NACore.getAuxVariableI, NACore.getAuxVariable, NACore.getAuxMissingValue, NACore.auxScaleI, NACore.auxScale,
      NACore.getAuxScaleFactor, e1, e2, e3, e4, pyStrs, pyNums]
    rw [itemI_back h1 (by simp [hn, h2]), itemI_back h1 (by simp [hm, h2]), itemI_back h1 (by simp [hs, h2])]
    simp only [List.length_map, hn, hm, hs]

/-- C112. A number that no variable has is refused. -/
theorem C112_refused (cb : UnitsCallback) (ign : List Str) (o : Obj F) (hc : HeaderCounts o) (i : Int) :
    (((varHeader o).NV.toNat : Int) ≤ i ∨ i < -((varHeader o).NV.toNat : Int) →
      (o.core ign).getVariableI cb i = .error .index) ∧
    (((axisHeader o).1.toNat : Int) ≤ i ∨ i < -((axisHeader o).1.toNat : Int) →
      (o.core ign).getIndependentVariableI cb i = .error .index) := by
  obtain ⟨c1, _, _, c4, _⟩ := hc
  refine ⟨fun h => ?_, fun h => ?_⟩
  · have : (pyStrs (varHeader o).VNAME : PyVal F).itemI i = .error .index :=
      idxI_outside (by rw [List.length_map, c1]; exact h)
    simp only [NACore.getVariableI, (core_VNAME ign o).1, this]
    rfl
  · have : (pyStrs (axisHeader o).2 : PyVal F).itemI i = .error .index :=
      idxI_outside (by rw [List.length_map, c4]; exact h)
    simp only [NACore.getIndependentVariableI, (core_VNAME ign o).2.2.2.2.2, this]
    rfl

/-- C112 is false for format 2160: a text variable has no scale factor, but counted from the end none of them is without.
It is given that of a number, if there is one. -/
theorem C112_text_fails (cb : UnitsCallback) (ign : List Str) (r : NA2160 F) (hp : 0 < r.aux.NAUXV)
    (hc : r.aux.NAUXC ≤ r.aux.NAUXV) {k : Nat} (h1 : 1 ≤ k) (hk : (k : Int) ≤ r.aux.NAUXC) {name : Str}
    {units : Option Str} {miss scale : PyVal F}
    (h : ((Obj.o2160 r).core ign).getAuxVariableI cb (-(k : Int)) = .ok (name, units, miss, scale)) :
    (∀ n m s, DeclaresAux (.o2160 r) (r.aux.NAUXV.toNat - k) n m s → s = none) ∧
      ∃ x ∈ r.aux.ASCAL, scale = .num x := by
  constructor
  · rintro n m s ⟨_, _, h3⟩
    rw [if_neg (by omega)] at h3
    exact h3
  · obtain ⟨_, _, e3⟩ := core_char ign r hp
    have e4 : ((Obj.o2160 r).core ign).attr "NAUXC" = .int r.aux.NAUXC := by rw [core_NAUXC]
    have e5 : ((Obj.o2160 r).core ign).attr "NAUXV" = .int r.aux.NAUXV := by rw [core_aux]; rfl
    unfold NACore.getAuxVariableI at h
    obtain ⟨_, _, h⟩ := ok_of_bind h
    obtain ⟨_, _, h⟩ := ok_of_bind h
    obtain ⟨_, _, h⟩ := ok_of_bind h
    obtain ⟨sc, hs, h⟩ := ok_of_bind h
    injection h with h
    have e : sc = scale := (Prod.mk.inj (Prod.mk.inj (Prod.mk.inj h).2).2).2
    subst e
    simp only [NACore.auxScaleI, e4, e5, e3] at hs
    rw [if_pos (by omega)] at hs
    have hs : idxI (r.aux.ASCAL.map PyVal.num) (-(k : Int)) = .ok sc := hs
    by_cases hl : k ≤ r.aux.ASCAL.length
    · rw [idxI_back h1 (by simpa using hl)] at hs
      unfold idx at hs
      split at hs
      · rename_i y hy
        injection hs with hs
        subst hs
        obtain ⟨x, hx, rfl⟩ := List.mem_map.1 (List.mem_of_getElem? hy)
        exact ⟨x, hx, rfl⟩
      · cases hs
    · rw [idxI_outside (.inr (by rw [List.length_map]; omega))] at hs
      cases hs

/-- A header with a number and a text: counted from the end, the text has the scale factor of the number. -/
example : ∃ name units miss x, ((Obj.o2160 Ex.d2160).core []).getAuxVariableI none (-1) = .ok (name, units, miss, .num x) ∧
    ((Obj.o2160 Ex.d2160).core []).getAuxVariable none 1 = .ok (name, units, miss, .none) :=
  ⟨_, _, _, _, rfl, rfl⟩

/-- A file with three missing values for two variables, on two lines. -/
def Ex.surplus : Str :=
  unlines (["20 1001", "De Rudder", "RAL", "MERIS", "TOROS", "1 13", "1969 1 1 2002 10 31", "0", "Seconds", "2", "1 10",
    "-9999", "99 77", "O3 (ppb)", "Temp", "1", "a special comment", "2", "normal", "", "0 1 -4"].map String.toList)

/-- What has to be computed for `C112_surplus_fails`. -/
def Ex.surplusTest : Bool :=
  match openNA intCodec 0 Ex.surplus with
  | .ok o => (match (o.core []).getVariableI none (-1), (o.core []).getVariable none 1 with
    | .ok (n, _, .num m, _), .ok (n', _, .num m', _) => decide (n = n' ∧ m = 77 ∧ m' = 99 ∧ (varHeader o).NV = 2)
    | _, _ => false)
  | .error _ => false

/-- C112 is false for files with more missing values than variables: the last variable, counted from the end, is given
the missing value of none. -/
theorem C112_surplus_fails : ∃ o n u u' s s', openNA intCodec 0 Ex.surplus = .ok o ∧ (varHeader o).NV = 2 ∧
    (o.core []).getVariableI none (-1) = .ok (n, u, .num 77, s) ∧
    (o.core []).getVariable none 1 = .ok (n, u', .num 99, s') := by
  have h : Ex.surplusTest = true := by decide +kernel
  unfold Ex.surplusTest at h
  split at h
  · rename_i o ho
    split at h
    · rename_i g1 g2
      obtain ⟨rfl, rfl, rfl, h4⟩ := of_decide_eq_true h
      exact ⟨o, _, _, _, _, _, ho, h4, g1, g2⟩
    · cases h
  · cases h

/-- The hypotheses of the other theorems are met. -/
example : HeaderCounts (.o2010 Ex.d2010) ∧ (varHeader (.o2010 Ex.d2010)).VMISS.length = 2 ∧
    (varHeader (.o2010 Ex.d2010)).VSCAL.length = 2 ∧ (varHeader (.o2010 Ex.d2010)).NV.toNat = 2 ∧
    plainAux (.o2010 Ex.d2010) = some Ex.d2010.aux ∧ Ex.d2010.aux.ANAME.length = Ex.d2010.aux.NAUXV.toNat ∧
    1 ≤ Ex.d2010.aux.NAUXV.toNat :=
  ⟨⟨by decide, by decide, by decide, by decide, fun _ => by decide⟩, rfl, rfl, rfl, rfl, rfl, by decide⟩

end Nappy.Props
