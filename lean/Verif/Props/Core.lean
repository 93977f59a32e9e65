import Verif.UtilLemmas
import Verif.Examples

/-! Properties C47 and C48: names with units, and the dictionary view of a file object. -/

namespace Nappy.Props

open Nappy Spec

variable {F : Type}

/-! ### C47 -/

/-- C47. `name (units)` is split into the name, without white space at its ends, and the units. The name may
hold brackets of its own. -/
theorem C47_split (name units : Str) (hn : '\n' ∉ name) (hne : units ≠ [])
    (hu : ∀ c ∈ units, c ≠ '(' ∧ c ≠ ')' ∧ c ≠ '\n') :
    varAndUnits none (name ++ " (".toList ++ units ++ ")".toList) = (strip name, some units) := by
  have hitem : name ++ " (".toList ++ units ++ ")".toList
      = (name ++ [' ']) ++ '(' :: (units ++ ')' :: []) := by
    simp
  have hnl : '\n' ∉ (name ++ [' ']) ++ '(' :: (units ++ ')' :: []) := by
    simp only [List.mem_append, List.mem_cons, List.not_mem_nil, or_false, not_or]
    exact ⟨⟨hn, by decide⟩, by decide, fun h => (hu _ h).2.2 rfl, by decide⟩
  rw [hitem]
  have hs : splitUnits ((name ++ [' ']) ++ '(' :: (units ++ ')' :: [])) = some (name ++ [' '], units, []) := by
    refine splitUnits_some.2 ⟨rfl, hne, fun h => (hu _ (List.mem_of_mem_tail h)).2.1 rfl, ?_⟩
    intro a b e
    exfalso
    have : '(' ∈ units ++ [')'] := by rw [e]; simp
    simp only [List.mem_append, List.mem_cons, List.not_mem_nil, or_false] at this
    rcases this with h | h
    · exact (hu _ h).1 rfl
    · revert h; decide
  unfold varAndUnits
  dsimp only
  rw [unitsMatch_line hnl, splitUnits_lstrip, hs]
  simp only [Option.map_some, List.append_nil]
  obtain ⟨l, h1, h2⟩ := lstrip_spaces_split (name ++ [' '])
  congr 1
  have e1 := strip_spaces (l := []) (s := name) (r := [' ']) (by simp) (by decide)
  have e2 := strip_spaces (l := l) (s := lstrip (name ++ [' '])) (r := []) h2 (by simp)
  have e3 := strip_spaces (l := []) (s := lstrip (name ++ [' '])) (r := [' ']) (by simp) (by decide)
  rw [List.nil_append] at e1 e3
  rw [List.append_nil, ← h1] at e2
  rw [e3, ← e2, e1]

/-- C47. A text without an opening or without a closing bracket has no units. -/
theorem C47_plain (item : Str) (h : '(' ∉ item ∨ ')' ∉ item) :
    varAndUnits none item = (strip item, none) := by
  have hsub : ∀ c, c ∈ (lstrip item).takeWhile (· != '\n') → c ∈ item := by
    intro c hc
    exact (List.dropWhile_sublist _).subset ((List.takeWhile_sublist _).subset hc)
  have : unitsMatch item = none := by
    unfold unitsMatch
    dsimp only
    split
    · refine splitUnits_none.2 ?_
      intro a b e hb
      rcases h with h | h
      · exact h (hsub _ (by rw [e]; simp))
      · refine h (hsub _ ?_)
        rw [e]
        exact List.mem_append_right _ (List.mem_cons_of_mem _ (List.mem_of_mem_tail hb))
    · rfl
  unfold varAndUnits
  dsimp only
  rw [this]

/-- C47. What happens to any text on one line, whatever brackets it holds: the units are the text between
the last opening bracket that has a closing one after at least one character, and the first such closing
bracket; the name is everything else. -/
theorem C47_general (item name units : Str) (h : '\n' ∉ item) :
    varAndUnits none item = (name, some units) ↔
      ∃ v1 v2, item = v1 ++ '(' :: (units ++ ')' :: v2) ∧ units ≠ [] ∧ ')' ∉ units.tail ∧
        (∀ a b, units ++ ')' :: v2 = a ++ '(' :: b → ')' ∉ b.tail) ∧ name = strip (v1 ++ [' '] ++ v2) := by
  have key : ∀ l v1 v2 : Str, (∀ c ∈ l, isSpace c = true) →
      strip ((l ++ v1) ++ [' '] ++ v2) = strip (v1 ++ [' '] ++ v2) := by
    intro l v1 v2 hl
    have := strip_spaces (l := l) (s := v1 ++ [' '] ++ v2) (r := []) hl (by simp)
    rw [List.append_nil] at this
    rw [← this]; simp [List.append_assoc]
  unfold varAndUnits
  dsimp only
  constructor
  · intro hv
    cases hm : unitsMatch item with
    | none => rw [hm] at hv; cases (Prod.mk.inj hv).2
    | some r =>
      obtain ⟨v1, u, v2⟩ := r
      rw [hm] at hv
      obtain ⟨e1, e2⟩ := Prod.mk.inj hv
      injection e2 with e2
      subst e2
      obtain ⟨l, hl, hs, _⟩ := (unitsMatch_iff h).1 hm
      obtain ⟨a, b, c, d⟩ := splitUnits_some.1 hs
      exact ⟨l ++ v1, v2, a, b, c, d, by rw [key l v1 v2 hl]; exact e1.symm⟩
  · rintro ⟨v1, v2, a, b, c, d, e⟩
    have hs := splitUnits_some.2 ⟨a, b, c, d⟩
    obtain ⟨l, h1, h2⟩ := lstrip_spaces_split v1
    have hm : unitsMatch item = some (lstrip v1, units, v2) := by
      rw [unitsMatch_line h, splitUnits_lstrip, hs]; rfl
    rw [hm, e]
    dsimp only
    conv => rhs; rw [h1]
    rw [key l (lstrip v1) v2 h2]

/-- C47. A function given by the user decides alone; only white space round the name is taken off. -/
theorem C47_callback (f : Str → Str × Option Str) (item : Str) :
    varAndUnits (some f) item = (strip (f item).1, (f item).2) := rfl

/-- Empty units are not recognised: the text comes back whole. -/
theorem C47_empty_units : varAndUnits none "Temp ()".toList = ("Temp ()".toList, none) := by decide +kernel

/-- The hypotheses of `C47_split` are met, also by a name with brackets. -/
example : varAndUnits none "Total (dry) ozone (ppb)".toList
      = ("Total (dry) ozone".toList, some "ppb".toList) ∧
    '\n' ∉ "Total (dry) ozone".toList ∧ (∀ c ∈ "ppb".toList, c ≠ '(' ∧ c ≠ ')' ∧ c ≠ '\n') ∧
    varAndUnits none "rate (mol (kg))".toList = ("rate (mol  )".toList, some "kg".toList) := by
  decide +kernel

/-! ### C48 -/

/-- C48. `getNADict` gives exactly the items that have a value: the NASA Ames keys whose attribute is not
`None`, each with the value of the attribute. -/
theorem C48_get (c : NACore F) (k : String) (v : PyVal F) :
    dictGet? c.getNADict.2 k = some v ↔ k ∈ naKeys ∧ c.attr k = v ∧ v.isNone = false := by
  show dictGet? c.collect k = some v ↔ _
  rw [collect_get]
  constructor
  · intro h
    split at h
    · rename_i h1
      injection h with h
      subst h
      exact ⟨h1.1, rfl, h1.2⟩
    · cases h
  · rintro ⟨h1, rfl, h2⟩
    rw [if_pos ⟨h1, h2⟩]

/-- C48. Every key is in the dictionary at most once. -/
theorem C48_keys (c : NACore F) : (c.getNADict.2.map Prod.fst).Nodup := by
  show (c.collect.map Prod.fst).Nodup
  rw [collect_keys]
  exact List.filter_sublist.nodup (by decide)

/-- C48. `getNADict` does not change what a later call gives. -/
theorem C48_repeat (c : NACore F) : c.getNADict.1.getNADict = c.getNADict := rfl

/-- C48. A dictionary that is set and made into attributes, as the constructor for writing does, is given
back: the items with a NASA Ames key and a value. -/
theorem C48_set_parse_partial (d : Dict (PyVal F)) (hd : (d.map Prod.fst).Nodup) (k : String) :
    dictGet? (((NACore.init.setNADict d).parseDictionary).getNADict.2) k
      = if k ∈ naKeys then (dictGet? d k).filter (fun v => !v.isNone) else none := by
  have hr : dictGet? d.reverse k = dictGet? d k := by
    clear * - hd
    induction d with
    | nil => rfl
    | cons x d ih =>
      obtain ⟨kx, vx⟩ := x
      rw [List.map_cons, List.nodup_cons] at hd
      rw [List.reverse_cons, dictGet?_append, ih hd.2]
      by_cases h : kx = k
      · subst h
        have : dictGet? d kx = none := by
          cases hg : dictGet? d kx with
          | none => rfl
          | some v => exact absurd (List.mem_map_of_mem (f := Prod.fst) (dictGet?_mem hg)) hd.1
        simp [dictGet?, this]
      · cases hg : dictGet? d k <;> simp [dictGet?, h, hg]
  show dictGet? (NACore.collect _) k = _
  rw [collect_get]
  have ha : ((NACore.init.setNADict d).parseDictionary).attr k = (dictGet? d k).getD .none := by
    unfold NACore.parseDictionary
    rw [attr_foldl]
    show (dictGet? d.reverse k).getD (NACore.init.attr k) = _
    rw [hr, attr_init]
  rw [ha]
  by_cases hk : k ∈ naKeys
  · cases hg : dictGet? d k with
    | none => simp [PyVal.isNone, hk]
    | some v => cases v <;> simp [PyVal.isNone, hk, Option.filter]
  · simp [hk]

/-- C48 is false of `setNADict` alone: what is set makes no difference at all to what `getNADict` gives. -/
theorem C48_set_lost (c : NACore F) (d : Dict (PyVal F)) : (c.setNADict d).getNADict.2 = c.getNADict.2 := rfl

/-- C48 is false of `setNADict`: a concrete dictionary is set, and the empty one is given back. -/
theorem C48_fails : ((NACore.init (F := Int)).setNADict [("NIV", .int 1)]).getNADict.2.length = 0 := by
  decide +kernel

/-- C48. Asking for the dictionary replaces the one that was set, so it is no longer there to be written. -/
theorem C48_get_replaces (c : NACore F) (d : Dict (PyVal F)) :
    (c.setNADict d).getNADict.1.naDict = c.getNADict.2 := rfl

/-- C48. Indexing gives the value stored last. -/
theorem C48_item (c : NACore F) (k k' : String) (v : PyVal F) :
    (c.setattr k v).getitem k = v ∧ (k' ≠ k → (c.setattr k v).getitem k' = c.getitem k') := by
  unfold NACore.getitem NACore.setattr
  refine ⟨by rw [dictGet?_set, if_pos rfl], fun h => ?_⟩
  rw [dictGet?_set, if_neg (fun e => h e.symm)]

/-- C48. For an object that was read, indexing and the dictionary agree. -/
theorem C48_item_dict (ign : List Str) (o : Obj F) (k : String) (v : PyVal F)
    (h : dictGet? (dictOf ign o) k = some v) : (o.core ign).getitem k = v := by
  obtain ⟨_, h1, h2⟩ := (C48_get _ k v).1 h
  unfold NACore.attr at h1
  unfold NACore.getitem
  split at h1
  · exact h1
  · subst h1; cases h2

/-- The items a 1001 object has after reading: all the keys are there. -/
example : (dictOf [] (.o1001 Ex.d1001)).map Prod.fst =
    ["DATE", "DX", "FFI", "IVOL", "MNAME", "NCOM", "NIV", "NLHEAD", "NNCOML", "NSCOML", "NV", "NVOL",
     "ONAME", "ORG", "RDATE", "SCOM", "SNAME", "V", "VMISS", "VNAME", "VSCAL", "X", "XNAME",
     "ignored_header_lines"] := by
  decide +kernel

end Nappy.Props
