import Verif.UtilLemmas
import Verif.Props.Read

/-! Properties C28-C32: nested lists, choice of the format, file names and comma-separated strings. -/

namespace Nappy.Props

open Nappy Spec

variable {F : Type}

/-! ### C28 -/

/-- C28. Filling a nested list from a flat list of the right length gives a nested list of the dimensions
asked for, and flattening it gives the flat list again. -/
theorem C28_fill (dims : List Nat) (hne : dims ≠ []) (arr : List F)
    (h : arr.length = dims.foldr (· * ·) 1) :
    ∃ l c, populate dims arr 0 = .ok (l, c) ∧ Shaped dims (.lst l) ∧ leaves (.lst l) = arr := by
  obtain ⟨l, h1, h2, h3⟩ := populate_ok dims hne arr 0 (by rw [h]; simp [prod])
  refine ⟨l, _, h1, h2, ?_⟩
  rw [h3, List.drop_zero]
  exact List.take_of_length_le (by rw [h]; exact Nat.le_refl _)

/-- C28. The entries stand in row-major order: the entry at any positions within the dimensions is the
value of the flat list at the place counted with the last position running fastest. -/
theorem C28_row_major (dims : List Nat) (arr : List F) (h : arr.length = dims.foldr (· * ·) 1)
    (l : List (Tree F)) (c : Nat) (hl : populate dims arr 0 = .ok (l, c)) (is : List Nat)
    (hb : InBounds is dims) : entry (.lst l) is = arr[rowMajor dims is]? := by
  have hne : dims ≠ [] := by intro e; subst e; cases hl
  obtain ⟨l', c', h1, h2, h3⟩ := C28_fill dims hne arr h
  rw [hl] at h1
  injection h1 with h1
  obtain ⟨e1, _⟩ := Prod.mk.inj h1
  subst e1
  rw [entry_eq _ h2 hb, h3]

/-- C28, the other way round: flattening a nested list and filling again gives that nested list. -/
theorem C28_flatten (dims : List Nat) (hne : dims ≠ []) (l : List (Tree F)) (h : Shaped dims (.lst l)) :
    ∃ c, populate dims (leaves (.lst l)) 0 = .ok (l, c) := by
  obtain ⟨l', c, h1, h2, h3⟩ := C28_fill dims hne (leaves (.lst l)) (leaves_shaped dims _ h)
  have := shaped_ext dims _ _ h2 h h3
  injection this with this
  exact ⟨c, this ▸ h1⟩

/-- C28. Writing a filled list writes every value of the flat list once and in order, with the number of
values of the last dimension on each line. -/
theorem C28_written (env : Env F) (dims : List Nat) (arr : List F)
    (h : arr.length = dims.foldr (· * ·) 1) (l : List (Tree F)) (c : Nat)
    (hl : populate dims arr 0 = .ok (l, c)) :
    ∃ rows : List (List F), rows.flatten = arr ∧ (∀ row ∈ rows, some row.length = dims.getLast?) ∧
      writeLines env.cd env.delim dims (.lst l)
        = .ok (rows.map (fun row =>
            rstripSC (concat (row.map (fun x => env.cd.ffmt x ++ env.delim))) ++ ['\n'])) := by
  have hne : dims ≠ [] := by intro e; subst e; cases hl
  obtain ⟨l', c', h1, h2, h3⟩ := C28_fill dims hne arr h
  rw [hl] at h1
  injection h1 with h1
  obtain ⟨e1, _⟩ := Prod.mk.inj h1
  subst e1
  refine ⟨rowsOf dims (.lst l), by rw [rowsOf_flatten _ _ h2, h3], rowsOf_length dims hne _ h2, ?_⟩
  rw [writeLines_ok dims hne _ h2]
  simp only [nl, List.map_map]
  rfl

/-- C28. A flat list that is too short is refused. -/
theorem C28_short (dims : List Nat) (hne : dims ≠ []) (arr : List F)
    (h : arr.length < dims.foldr (· * ·) 1) : populate dims arr 0 = .error .index :=
  populate_short dims hne arr 0 (Nat.lt_of_le_of_lt (Nat.zero_le _) h) (by rw [Nat.zero_add]; exact h)

/-- Three dimensions: the hypotheses of the theorems above are met. -/
example : ([1, 2, 3, 4, 5, 6] : List Int).length = [1, 3, 2].foldr (· * ·) 1 ∧
    InBounds [0, 2, 1] [1, 3, 2] ∧ rowMajor [1, 3, 2] [0, 2, 1] = 5 := by
  refine ⟨rfl, ?_, rfl⟩
  exact .cons (by decide) (.cons (by decide) (.cons (by decide) .nil))

/-! ### C29 -/

/-- C29. Whatever the dictionary is, a format index that is returned is a supported one, and its first digit
is the number of independent variables the dictionary gives. -/
theorem C29_sound (d : Dict (PyVal F)) (f : Int) (h : chooseFFI d = .ok f) :
    f ∈ [1001, 1010, 1020, 2010, 2110, 2160, 2310, 3010, 4010] ∧
    dictGet? d "NIV" = some (.int (f / 1000)) := by
  unfold chooseFFI at h
  obtain ⟨v, hv, h⟩ := ok_of_bind h
  have hv' : dictGet? d "NIV" = some v := by
    unfold dictGet at hv
    split at hv
    · rename_i hd; injection hv with hv; rw [hd, hv]
    · cases hv
  rw [hv']
  cases v with
  | int niv =>
    dsimp only at h
    split at h
    · cases h
    split at h
    · injection h with h; subst h; rename_i e; subst e; exact ⟨by decide, rfl⟩
    split at h
    · injection h with h; subst h; rename_i e; subst e; exact ⟨by decide, rfl⟩
    split at h
    · rename_i e; subst e
      obtain ⟨x, _, h⟩ := ok_of_bind h
      obtain ⟨x0, _, h⟩ := ok_of_bind h
      obtain ⟨x00, _, h⟩ := ok_of_bind h
      split at h
      · injection h with h; subst h; exact ⟨by decide, rfl⟩
      · obtain ⟨x01, _, h⟩ := ok_of_bind h
        split at h
        · split at h
          · injection h with h; subst h; exact ⟨by decide, rfl⟩
          split at h
          · injection h with h; subst h; exact ⟨by decide, rfl⟩
          · injection h with h; subst h; exact ⟨by decide, rfl⟩
        · injection h with h; subst h; exact ⟨by decide, rfl⟩
    split at h
    · rename_i e; subst e
      split at h
      · injection h with h; subst h; exact ⟨by decide, rfl⟩
      split at h
      · injection h with h; subst h; exact ⟨by decide, rfl⟩
      · injection h with h; subst h; exact ⟨by decide, rfl⟩
    · cases h
  | _ => cases h

/-- C29. With an integer NIV outside 1 to 4 the call raises. -/
theorem C29_refused (d : Dict (PyVal F)) (niv : Int) (h : dictGet? d "NIV" = some (.int niv))
    (hn : niv < 1 ∨ 4 < niv) : chooseFFI d = .error .exn := by
  unfold chooseFFI dictGet
  rw [h, ok_bind]
  dsimp only
  repeat' split
  all_goals first | rfl | omega

/-- C29. With one, three or four independent variables there always is a format. -/
theorem C29_accepted (d : Dict (PyVal F)) (niv : Int) (h : dictGet? d "NIV" = some (.int niv))
    (hn : niv = 1 ∨ niv = 3 ∨ niv = 4) : ∃ f, chooseFFI d = .ok f := by
  unfold chooseFFI dictGet
  rw [h, ok_bind]
  dsimp only
  repeat' split
  all_goals first | exact ⟨_, rfl⟩ | omega

/-- The hypotheses of the C29 theorems are met. -/
example : chooseFFI ([("NIV", .int 1), ("NAUXV", .int 0)] : Dict (PyVal Int)) = .ok 1010 ∧
    dictGet? ([("NIV", .int 5)] : Dict (PyVal Int)) "NIV" = some (.int 5) := ⟨rfl, rfl⟩

/-! ### C30 -/

/-- C30, in part: for a file that was opened and read, `chooseFFI` on its dictionary gives the format index
of the file exactly if the axes show it. `Recognisable` always holds for 1001, 1010, 1020, 3010 and 4010; 2010
needs two marks, 2110 a first mark with two or more values, 2160 and 2310 a mark. What is missing: the other
files, for which it is false (`C30_fails`). -/
theorem C30_partial (cd : Codec F) (k : Nat) (text : Str) (ign : List Str) (o o' : Obj F)
    (ho : openNA cd k text = .ok o) (h : o.readData cd text = .ok o') :
    chooseFFI (dictOf ign o') = .ok o'.FFI ↔ Recognisable o' := by
  obtain ⟨hc, hn⟩ := openNA_class ho
  have hh := C24_header_kept cd text o o' h
  have hs := C24_opened cd k text o o' ho h
  refine chooseFFI_iff ign o' ?_ ?_ ?_
  · cases o <;> cases o' <;> first | exact hh.elim | (simp only [SameHeader] at hh; rw [hh]; exact hc)
  · cases o <;> cases o' <;> first | exact hh.elim | (simp only [SameHeader] at hh; rw [hh]; exact hn)
  · cases o' with
    | o2310 r =>
      obtain ⟨_, h2, _⟩ := hs
      intro m hm
      obtain ⟨i, hi, e⟩ := List.mem_iff_getElem.1 hm
      have := congrArg (fun l => l[i]?) h2
      simp only [List.getElem?_map, List.getElem?_eq_getElem hi, Option.map_some, e] at this
      cases hx : r.NX[i]? with
      | none => rw [hx] at this; cases this
      | some y => rw [hx] at this; simpa using this
    | _ => trivial

/-- C30. For one, three and four independent variables there is no condition. -/
theorem C30_always (cd : Codec F) (k : Nat) (text : Str) (ign : List Str) (o o' : Obj F)
    (ho : openNA cd k text = .ok o) (h : o.readData cd text = .ok o')
    (hf : o'.FFI ∈ [1001, 1010, 1020, 3010, 4010]) : chooseFFI (dictOf ign o') = .ok o'.FFI := by
  refine (C30_partial cd k text ign o o' ho h).2 ?_
  obtain ⟨hc, _⟩ := openNA_class ho
  have hh := C24_header_kept cd text o o' h
  cases o' with
  | o1001 r => trivial
  | o1010 r => trivial
  | o1020 r => trivial
  | o2010 r =>
    intro e
    exfalso
    have : (Obj.o2010 r).FFI = 2010 := e
    rw [this] at hf
    revert hf; decide
  | o2110 r =>
    exfalso
    cases o <;> first | exact hh.elim | skip
    simp only [SameHeader] at hh; rw [hh] at hf
    simp only [Obj.classFFIs, List.mem_singleton] at hc
    have hc' : (Obj.o2110 _).FFI = 2110 := hc
    have hf' : (Obj.o2110 _).FFI ∈ _ := hf
    simp only [Obj.FFI, Obj.common] at hc' hf'
    rw [hc'] at hf'
    revert hf'; decide
  | o2160 r =>
    exfalso
    cases o <;> first | exact hh.elim | skip
    simp only [SameHeader] at hh; rw [hh] at hf
    simp only [Obj.classFFIs, List.mem_singleton] at hc
    have hc' : (Obj.o2160 _).FFI = 2160 := hc
    have hf' : (Obj.o2160 _).FFI ∈ _ := hf
    simp only [Obj.FFI, Obj.common] at hc' hf'
    rw [hc'] at hf'
    revert hf'; decide
  | o2310 r =>
    exfalso
    cases o <;> first | exact hh.elim | skip
    simp only [SameHeader] at hh; rw [hh] at hf
    simp only [Obj.classFFIs, List.mem_singleton] at hc
    have hc' : (Obj.o2310 _).FFI = 2310 := hc
    have hf' : (Obj.o2310 _).FFI ∈ _ := hf
    simp only [Obj.FFI, Obj.common] at hc' hf'
    rw [hc'] at hf'
    revert hf'; decide

/-- A 2110 dictionary whose first mark has one value. -/
def oneFirst : NA2110 Int :=
  { Ex.d2110 with NX := [1, 2], X := [(0, [10]), (1, [15, 20])], A := [[1, 2]],
                  V := [[[1], [2, 3]], [[4], [5, 6]]] }

/-- C30 is false for other files. A 2110 file whose first mark has one value is taken for 2310, and a 2010
file with one mark makes `chooseFFI` raise. -/
theorem C30_fails :
    (do let r ← read2110 intCodec 0 (write2110 Ex.env false oneFirst).2.text
        chooseFFI (dictOf [] (.o2110 r))) = .ok 2310 ∧
    (do let r ← read2010 intCodec 0 (write2010 Ex.env false
          { Ex.d2010 with X0 := [0], A := [[3]],
                          V := [[.lst [.val 1, .val 2]], [.lst [.val 5, .val 6]]] }).2.text
        chooseFFI (dictOf [] (.o2010 r))) = .error .index := by
  decide +kernel

/-- The condition of `C30_partial` is met by files of every kind. -/
example :
    (do let r ← read2110 intCodec 0 (write2110 Ex.env false Ex.d2110).2.text
        chooseFFI (dictOf [] (.o2110 r))) = .ok 2110 ∧
    (do let r ← read2160 intCodec 1 (write2160 Ex.env false Ex.d2160).2.text
        chooseFFI (dictOf [] (.o2160 r))) = .ok 2160 ∧
    (do let r ← read2310 intCodec 0 (write2310 Ex.env false Ex.d2310).2.text
        chooseFFI (dictOf [] (.o2310 r))) = .ok 2310 ∧
    (do let r ← read2010 intCodec 0 (write2010 Ex.env false Ex.d2010).2.text
        chooseFFI (dictOf [] (.o2010 r))) = .ok 2010 := by
  decide +kernel

/-! ### C31 -/

/-- The exact result: the new extension is always added and nothing is ever taken away. -/
theorem C31_exact (name fmt : Str) :
    getFileNameWithNewExtension name fmt = name ++ ['.'] ++ fmt := by
  unfold getFileNameWithNewExtension
  dsimp only
  split <;> simp [List.take_of_length_le]

/-- C31 is false for every name with an extension: the old extension is kept. -/
theorem C31_fails (base ext fmt : Str) :
    getFileNameWithNewExtension (base ++ ['.'] ++ ext) fmt ≠ base ++ ['.'] ++ fmt := by
  rw [C31_exact]
  intro h
  have := congrArg List.length h
  simp only [List.length_append, List.length_cons, List.length_nil] at this
  omega

/-- C31, in part: the result is right exactly for names without a dot. What is missing: names with an extension, see
`C31_fails`. -/
theorem C31_partial (name fmt : Str) : NewName fmt name (getFileNameWithNewExtension name fmt) ↔ '.' ∉ name := by
  have hx := C31_exact name fmt
  rw [List.append_assoc, List.singleton_append] at hx
  constructor
  · intro h hd
    generalize hr : getFileNameWithNewExtension name fmt = r at h
    cases h with
    | bare _ hn => exact hn hd
    | ext base ext _ =>
      have := C31_fails base ext fmt
      rw [List.append_assoc, List.append_assoc, List.singleton_append, List.singleton_append] at this
      exact this hr
  · intro h
    rw [hx]
    exact NewName.bare name h

/-- A file `ozone.na` converted to NetCDF. -/
example : getFileNameWithNewExtension "ozone.na".toList "nc".toList = "ozone.na.nc".toList ∧
    '.' ∉ "ozone".toList := by decide

/-! ### C32 -/

/-- C32. A comma-separated text of pairs gives those pairs. -/
theorem C32_list (pairs : List (Str × Str)) (hne : pairs ≠ []) (h : ∀ p ∈ pairs, ',' ∉ p.1 ∧ ',' ∉ p.2) :
    makeListFromCommaSepString (commaText pairs) = .ok pairs := by
  have hc : ∀ s ∈ (pairs.map (fun p => [p.1, p.2])).flatten, ',' ∉ s := by
    intro s hs
    simp only [List.mem_flatten, List.mem_map] at hs
    obtain ⟨_, ⟨p, hp, rfl⟩, hs⟩ := hs
    simp only [List.mem_cons, List.not_mem_nil, or_false] at hs
    rcases hs with rfl | rfl
    · exact (h p hp).1
    · exact (h p hp).2
  have hn : (pairs.map (fun p => [p.1, p.2])).flatten ≠ [] := by
    cases pairs with
    | nil => exact absurd rfl hne
    | cons p t => simp
  have hl : ((pairs.map (fun p => [p.1, p.2])).flatten).length = 2 * pairs.length := by
    clear hc hn hne h
    induction pairs with
    | nil => rfl
    | cons p t ih => simp only [List.map_cons, List.flatten_cons, List.length_append, ih]; simp; omega
  unfold makeListFromCommaSepString commaText
  have hcount := count_join _ hn hc
  rw [hl] at hcount
  rw [if_neg (by omega), splitComma_join _ hn hc, pairUp_pairs]

/-- C32. The dictionary maps each key to the last value given for it and nothing else, each key once. -/
theorem C32_dict (pairs : List (Str × Str)) (hne : pairs ≠ []) (h : ∀ p ∈ pairs, ',' ∉ p.1 ∧ ',' ∉ p.2) :
    ∃ d, makeDictFromCommaSepString (commaText pairs) = .ok d ∧ (d.map Prod.fst).Nodup ∧
      ∀ k, sdictGet? d k = lastValue pairs k := by
  unfold makeDictFromCommaSepString
  rw [C32_list pairs hne h]
  refine ⟨_, rfl, sdict_foldl_keys pairs [] (by simp), ?_⟩
  intro k
  rw [sdict_foldl_get]
  cases lastValue pairs k <;> rfl

/-- C32. An odd number of items is refused. -/
theorem C32_odd (items : List Str) (h : ∀ s ∈ items, ',' ∉ s) (ho : items.length % 2 = 1) :
    makeListFromCommaSepString (join [','] items) = .error .exn ∧
    makeDictFromCommaSepString (join [','] items) = .error .exn := by
  have hn : items ≠ [] := by intro e; subst e; simp at ho
  have hcount := count_join _ hn h
  have : makeListFromCommaSepString (join [','] items) = .error .exn := by
    unfold makeListFromCommaSepString
    rw [if_pos (by omega)]
  exact ⟨this, by unfold makeDictFromCommaSepString; rw [this]; rfl⟩

/-- A key given twice: the hypotheses are met and the last value wins. -/
example :
    let pairs := [("a".toList, "1".toList), ("b c".toList, [] ), ("a".toList, "2".toList)]
    (∀ p ∈ pairs, ',' ∉ p.1 ∧ ',' ∉ p.2) ∧ commaText pairs = "a,1,b c,,a,2".toList ∧
    lastValue pairs "a".toList = some "2".toList ∧
    (∀ s ∈ ["a".toList, "b".toList, "c".toList], ',' ∉ s) := by decide

end Nappy.Props
