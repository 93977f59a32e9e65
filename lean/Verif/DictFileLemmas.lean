import Verif.DictFile
import Verif.UtilLemmas
import Verif.CollectCheck

/-! Lemmas about writing from a dictionary: the object found in a dictionary that describes it. -/

namespace Nappy

open Spec

variable {F : Type}

/-! ### Typed items -/

theorem mapM_some_of {α β : Type} (f : β → Option α) (g : α → β) (h : ∀ a, f (g a) = some a) (l : List α) :
    (l.map g).mapM f = some l := by
  induction l with
  | nil => rfl
  | cons a t ih => simp [h, ih]

theorem list?_map {α : Type} (f : PyVal F → Option α) (g : α → PyVal F) (h : ∀ a, f (g a) = some a) (l : List α) :
    PyVal.list? f (.list (l.map g)) = some l := mapM_some_of f g h l

theorem list?_nums (l : List F) : PyVal.list? PyVal.num? (pyNums l) = some l :=
  list?_map PyVal.num? PyVal.num (fun _ => rfl) l
theorem list?_ints (l : List Int) : PyVal.list? PyVal.int? (pyInts l : PyVal F) = some l :=
  list?_map PyVal.int? PyVal.int (fun _ => rfl) l
theorem list?_strs (l : List Str) : PyVal.list? PyVal.str? (pyStrs l : PyVal F) = some l :=
  list?_map PyVal.str? PyVal.str (fun _ => rfl) l
theorem list?_cols (l : List (List F)) : PyVal.list? (PyVal.list? PyVal.num?) (pyCols l) = some l :=
  list?_map _ _ list?_nums l
theorem list?_arrays (l : List (List (List F))) :
    PyVal.list? (PyVal.list? (PyVal.list? PyVal.num?)) (.list (l.map pyCols)) = some l := list?_map _ _ list?_cols l
theorem cell?_pyCell (c : Cell F) : PyVal.cell? (pyCell c) = some c := by cases c <;> rfl
theorem list?_cells (l : List (Cell F)) : PyVal.list? PyVal.cell? (.list (l.map pyCell)) = some l :=
  list?_map _ _ cell?_pyCell l
theorem list?_cellCols (l : List (List (Cell F))) :
    PyVal.list? (PyVal.list? PyVal.cell?) (.list (l.map fun col => .list (col.map pyCell))) = some l :=
  list?_map _ _ list?_cells l
theorem list?_lena (l : List (Option Int)) :
    PyVal.list? PyVal.lena? (.list (l.map fun o => match o with | none => .none | some i => .int i) : PyVal F)
      = some l :=
  list?_map _ _ (fun o => by cases o <;> rfl) l
theorem list?_pairs (l : List (F × List F)) : PyVal.list? (PyVal.pair? PyVal.num?) (pyPairs l) = some l :=
  list?_map _ _ (fun x => by simp [PyVal.pair?, PyVal.num?, list?_nums]) l
theorem list?_textPairs (l : List (Str × List F)) :
    PyVal.list? (PyVal.pair? PyVal.str?) (.list (l.map fun x => .list [.str x.1, pyNums x.2])) = some l :=
  list?_map _ _ (fun x => by simp [PyVal.pair?, PyVal.str?, list?_nums]) l

mutual
theorem tree?_pyTree : (t : Tree F) → PyVal.tree? (pyTree t) = some t
  | .val x => rfl
  | .lst l => by rw [pyTree, PyVal.tree?, tree?_go l]; rfl
theorem tree?_go : (l : List (Tree F)) → PyVal.tree?.go (pyTree.go l) = some l
  | [] => rfl
  | t :: ts => by rw [pyTree.go, PyVal.tree?.go, tree?_pyTree t, tree?_go ts]; rfl
end

theorem list?_trees (l : List (List (Tree F))) :
    PyVal.list? (PyVal.list? PyVal.tree?) (.list (l.map fun col => .list (col.map pyTree))) = some l :=
  list?_map _ _ (list?_map _ _ tree?_pyTree) l

theorem itemAs_of {α : Type} {d : Dict (PyVal F)} {k : String} {v : PyVal F} {f : PyVal F → Option α} {a : α}
    (h : dictGet? d k = some v) (hf : f v = some a) : itemAs d k f = some a := by
  rw [itemAs, h]; exact hf

/-! ### Sections -/

/-- No names are kept for auxiliary variables that are not there. -/
def AuxHdr.Tidy (a : AuxHdr F) : Prop := a.NAUXV ≤ 0 → a.ASCAL = [] ∧ a.AMISS = [] ∧ a.ANAME = []

/-- The same for 2160. -/
def CharAuxHdr.Tidy (a : CharAuxHdr F) : Prop :=
  a.NAUXV ≤ 0 → a.ASCAL = [] ∧ a.AMISS = [] ∧ a.LENA = [] ∧ a.ANAME = []

theorem auxOf_of {d : Dict (PyVal F)} {a : AuxHdr F} (ht : a.Tidy)
    (h : ∀ k v, (k, v) ∈ auxAttrs a → k ≠ "ignored_header_lines" → dictGet? d k = some v) : auxOf d = some a := by
  unfold auxAttrs at h
  by_cases hp : a.NAUXV > 0
  · simp [hp, or_imp, forall_and] at h
    simp [auxOf, itemAs, h, PyVal.int?, list?_nums, list?_strs, hp]
  · have h1 := h _ _ (List.mem_cons_self ..) (by decide)
    obtain ⟨e1, e2, e3⟩ := ht (by omega)
    obtain ⟨n, s, m, na⟩ := a
    dsimp only at e1 e2 e3 hp h1
    subst e1 e2 e3
    simp [auxOf, itemAs, h1, PyVal.int?, hp]

/-! ### Objects -/

/-- The auxiliary variables section of an object is tidy. -/
def Obj.Tidy : Obj F → Prop
  | .o1001 _ => True
  | .o1010 r => r.aux.Tidy
  | .o1020 r => r.aux.Tidy
  | .o2010 r => r.aux.Tidy
  | .o2110 r => r.aux.Tidy
  | .o2310 r => r.aux.Tidy
  | .o2160 r => r.aux.Tidy

theorem of1001_of {d : Dict (PyVal F)} {r : NA1001 F} (h : Describes d (.o1001 r)) : of1001 d = some r := by
  have h : ∀ k v, (k, v) ∈ (Obj.o1001 r).attrs [] → k ≠ "ignored_header_lines" → dictGet? d k = some v :=
    fun k v hk hn => h (k, v) hk hn
  simp [Obj.attrs, commonAttrs, varAttrs, comAttrs, or_imp, forall_and] at h
  simp [of1001, commonOf, varsOf, comOf, itemAs, h, PyVal.int?, PyVal.str?, list?_ints, list?_nums, list?_strs,
    list?_cols]

theorem of1010_of {d : Dict (PyVal F)} {r : NA1010 F} (ht : r.aux.Tidy) (h : Describes d (.o1010 r)) :
    of1010 d = some r := by
  have h : ∀ k v, (k, v) ∈ (Obj.o1010 r).attrs [] → k ≠ "ignored_header_lines" → dictGet? d k = some v :=
    fun k v hk hn => h (k, v) hk hn
  have ha : auxOf d = some r.aux := auxOf_of ht (fun k v hk => h k v (by simp [Obj.attrs, hk]))
  simp [Obj.attrs, commonAttrs, varAttrs, comAttrs, or_imp, forall_and] at h
  simp [of1010, commonOf, varsOf, comOf, itemAs, h, ha, PyVal.int?, PyVal.str?, list?_ints, list?_nums, list?_strs,
    list?_cols]

theorem of1020_of {d : Dict (PyVal F)} {r : NA1020 F} (ht : r.aux.Tidy) (h : Describes d (.o1020 r)) :
    of1020 d = some r := by
  have h : ∀ k v, (k, v) ∈ (Obj.o1020 r).attrs [] → k ≠ "ignored_header_lines" → dictGet? d k = some v :=
    fun k v hk hn => h (k, v) hk hn
  have ha : auxOf d = some r.aux := auxOf_of ht (fun k v hk => h k v (by simp [Obj.attrs, hk]))
  simp [Obj.attrs, commonAttrs, varAttrs, comAttrs, or_imp, forall_and] at h
  simp [of1020, commonOf, varsOf, comOf, itemAs, h, ha, PyVal.int?, PyVal.str?, list?_ints, list?_nums, list?_strs,
    list?_cols]

theorem of2010_of {d : Dict (PyVal F)} {r : NA2010 F} (ht : r.aux.Tidy) (h : Describes d (.o2010 r)) :
    of2010 d = some r := by
  have h : ∀ k v, (k, v) ∈ (Obj.o2010 r).attrs [] → k ≠ "ignored_header_lines" → dictGet? d k = some v :=
    fun k v hk hn => h (k, v) hk hn
  have ha : auxOf d = some r.aux := auxOf_of ht (fun k v hk => h k v (by simp [Obj.attrs, hk]))
  simp [Obj.attrs, commonAttrs, varAttrs, comAttrs, or_imp, forall_and] at h
  simp [of2010, commonOf, varsOf, comOf, itemAs, h, ha, PyVal.int?, PyVal.str?, list?_ints, list?_nums, list?_strs,
    list?_cols, list?_trees]

theorem of2110_of {d : Dict (PyVal F)} {r : NA2110 F} (ht : r.aux.Tidy)
    (h : ∀ kv ∈ attrs2110 r, kv.1 ≠ "ignored_header_lines" → dictGet? d kv.1 = some kv.2) :
    of2110 d = some r := by
  have h : ∀ k v, (k, v) ∈ attrs2110 r → k ≠ "ignored_header_lines" → dictGet? d k = some v :=
    fun k v hk hn => h (k, v) hk hn
  have ha : auxOf d = some r.aux := auxOf_of ht (fun k v hk => h k v (by simp [attrs2110, hk]))
  simp [attrs2110, commonAttrs, varAttrs, comAttrs, or_imp, forall_and] at h
  simp [of2110, commonOf, varsOf, comOf, itemAs, h, ha, PyVal.int?, PyVal.str?, list?_ints, list?_nums, list?_strs,
    list?_cols, list?_pairs, list?_arrays]

theorem of2160_of {d : Dict (PyVal F)} {r : NA2160 F} (ht : r.aux.Tidy) (h : Describes d (.o2160 r))
    (hi : dictGet? d "ignored_header_lines" = some (pyStrs r.ignored)) : of2160 d = some r := by
  have h : ∀ k v, (k, v) ∈ (Obj.o2160 r).attrs [] → k ≠ "ignored_header_lines" → dictGet? d k = some v :=
    fun k v hk hn => h (k, v) hk hn
  have ha : charAuxOf d = some r.aux := by
    by_cases hp : r.aux.NAUXV > 0
    · simp [Obj.attrs, commonAttrs, varAttrs, comAttrs, or_imp, forall_and, hp] at h
      simp [charAuxOf, itemAs, h, PyVal.int?, list?_nums, list?_strs, hp, list?_cells]
      erw [list?_lena]
      rfl
    · simp [Obj.attrs, commonAttrs, varAttrs, comAttrs, or_imp, forall_and, hp] at h
      obtain ⟨e1, e2, e3, e4⟩ := ht (by omega)
      simp [charAuxOf, itemAs, h, PyVal.int?, hp]
      generalize r.aux = a at e1 e2 e3 e4
      obtain ⟨n, m, s1, s2, s3, s4⟩ := a
      dsimp only at e1 e2 e3 e4
      subst e1 e2 e3 e4
      rfl
  simp [Obj.attrs, commonAttrs, varAttrs, comAttrs, or_imp, forall_and] at h
  simp [of2160, commonOf, varsOf, comOf, itemAs, h, ha, hi, PyVal.int?, PyVal.str?, PyVal.num?, list?_ints, list?_nums,
    list?_strs, list?_textPairs, list?_arrays, list?_cellCols]

/-! ### Writing -/

theorem objOfDict_of {d : Dict (PyVal F)} {o : Obj F} {ffi : Int} (hf : ffi ∈ o.classFFIs) (ht : o.Tidy)
    (h : Describes d o) (hi : ∀ r, o = .o2160 r → dictGet? d "ignored_header_lines" = some (pyStrs r.ignored)) :
    objOfDict ffi d = some o := by
  cases o with
  | o1001 r => simp only [Obj.classFFIs, List.mem_singleton] at hf; subst hf; simp [objOfDict, of1001_of h]
  | o1010 r => simp only [Obj.classFFIs, List.mem_singleton] at hf; subst hf; simp [objOfDict, of1010_of ht h]
  | o1020 r => simp only [Obj.classFFIs, List.mem_singleton] at hf; subst hf; simp [objOfDict, of1020_of ht h]
  | o2010 r =>
    simp only [Obj.classFFIs, List.mem_cons, List.not_mem_nil, or_false] at hf
    rcases hf with rfl | rfl | rfl <;> simp [objOfDict, of2010_of ht h]
  | o2110 r =>
    simp only [Obj.classFFIs, List.mem_singleton] at hf; subst hf
    simp [objOfDict, of2110_of ht (fun kv hk => h kv (by simp [Obj.attrs, hk]))]
  | o2310 r =>
    simp only [Obj.classFFIs, List.mem_singleton] at hf; subst hf
    simp [objOfDict, of2110_of ht (fun kv hk => h kv (by simp [Obj.attrs, hk]))]
  | o2160 r =>
    simp only [Obj.classFFIs, List.mem_singleton] at hf; subst hf; simp [objOfDict, of2160_of ht h (hi r rfl)]

theorem describes_ffi {d : Dict (PyVal F)} {o : Obj F} (h : Describes d o) :
    dictGet? d "FFI" = some (.int o.FFI) := by
  cases o <;>
    exact h ("FFI", .int _) (by simp [Obj.attrs, attrs2110, commonAttrs, Obj.FFI, Obj.common]) (by simp)

theorem classFFIs_supported (o : Obj F) {ffi : Int} (h : ffi ∈ o.classFFIs) : ffi ∈ supportedFFIs := by
  revert h
  cases o <;> simp only [Obj.classFFIs, supportedFFIs, List.mem_cons, List.not_mem_nil, or_false] <;> omega

/-- Writing a dictionary that describes an object writes the object. -/
theorem writeDict_of (env : Env F) (nh : Bool) {d : Dict (PyVal F)} {o : Obj F} (hf : o.FFI ∈ o.classFFIs)
    (ht : o.Tidy) (h : Describes d o)
    (hi : ∀ r, o = .o2160 r → dictGet? d "ignored_header_lines" = some (pyStrs r.ignored)) :
    writeDict env nh d = .ok (afterWrite d (o.write env nh).1, (o.write env nh).2) := by
  unfold writeDict openDict
  rw [describes_ffi h]
  simp only [ok_bind, getNAFileClass, if_pos (classFFIs_supported o hf), objOfDict_of hf ht h hi]

/-! ### The dictionary of an object -/

theorem dictGet?_nodup {α : Type} {d : Dict α} (hn : (d.map Prod.fst).Nodup) {k : String} {v : α} (h : (k, v) ∈ d) :
    dictGet? d k = some v := by
  induction d with
  | nil => cases h
  | cons a t ih =>
    obtain ⟨k', v'⟩ := a
    rw [List.map_cons, List.nodup_cons] at hn
    rcases List.mem_cons.1 h with e | h
    · injection e with e1 e2; subst e1 e2; simp [dictGet?]
    · have hne : k' ≠ k := fun e => hn.1 (by rw [e]; exact List.mem_map.2 ⟨(k, v), h, rfl⟩)
      simp only [dictGet?, if_neg hne]
      exact ih hn.2 h

theorem attrs_nodup (ign : List Str) (o : Obj F) : ((o.attrs ign).map Prod.fst).Nodup := by
  cases o with
  | o1001 r => simp [Obj.attrs, commonAttrs, varAttrs, comAttrs]
  | o1010 r =>
    by_cases h : r.aux.NAUXV > 0 <;> simp [Obj.attrs, commonAttrs, varAttrs, auxAttrs, comAttrs, h]
  | o1020 r =>
    by_cases h : r.aux.NAUXV > 0 <;> simp [Obj.attrs, commonAttrs, varAttrs, auxAttrs, comAttrs, h]
  | o2010 r =>
    by_cases h : r.aux.NAUXV > 0 <;> simp [Obj.attrs, commonAttrs, varAttrs, auxAttrs, comAttrs, h]
  | o2110 r =>
    by_cases h : r.aux.NAUXV > 0 <;> simp [Obj.attrs, attrs2110, commonAttrs, varAttrs, auxAttrs, comAttrs, h]
  | o2310 r =>
    by_cases h : r.aux.NAUXV > 0 <;> simp [Obj.attrs, attrs2110, commonAttrs, varAttrs, auxAttrs, comAttrs, h]
  | o2160 r =>
    by_cases h : r.aux.NAUXV > 0 <;> simp [Obj.attrs, commonAttrs, varAttrs, comAttrs, h]

/-- Every item has a key of the dictionary and is not `None`. -/
def GoodItems (l : Dict (PyVal F)) : Prop := ∀ kv ∈ l, kv.1 ∈ naKeys ∧ kv.2.isNone = false

theorem GoodItems.append {a b : Dict (PyVal F)} (ha : GoodItems a) (hb : GoodItems b) : GoodItems (a ++ b) :=
  fun kv h => (List.mem_append.1 h).elim (ha kv) (hb kv)

theorem GoodItems.cons {k : String} {v : PyVal F} {b : Dict (PyVal F)} (hk : k ∈ naKeys) (hv : v.isNone = false)
    (hb : GoodItems b) : GoodItems ((k, v) :: b) :=
  fun kv h => (List.mem_cons.1 h).elim (fun e => e ▸ ⟨hk, hv⟩) (hb kv)

theorem GoodItems.nil : GoodItems ([] : Dict (PyVal F)) := fun _ h => by cases h

theorem GoodItems.common (c : Common) (niv : Int) : GoodItems (commonAttrs c niv : Dict (PyVal F)) := by
  unfold commonAttrs
  repeat' first | exact GoodItems.nil | refine GoodItems.cons (by decide) rfl ?_

theorem GoodItems.vars (v : VarHdr F) : GoodItems (varAttrs v) := by
  unfold varAttrs
  repeat' first | exact GoodItems.nil | refine GoodItems.cons (by decide) rfl ?_

theorem GoodItems.com (c : ComHdr) : GoodItems (comAttrs c : Dict (PyVal F)) := by
  unfold comAttrs
  repeat' first | exact GoodItems.nil | refine GoodItems.cons (by decide) rfl ?_

theorem GoodItems.aux (a : AuxHdr F) : GoodItems (auxAttrs a) := by
  unfold auxAttrs
  split <;> repeat' first | exact GoodItems.nil | refine GoodItems.cons (by decide) rfl ?_

theorem attrs_keys (ign : List Str) (o : Obj F) : GoodItems (o.attrs ign) := by
  cases o <;> simp only [Obj.attrs, attrs2110] <;>
  repeat' first
    | exact GoodItems.nil
    | exact GoodItems.common _ _
    | exact GoodItems.vars _
    | exact GoodItems.com _
    | exact GoodItems.aux _
    | refine GoodItems.cons (by decide) rfl ?_
    | refine GoodItems.append ?_ ?_
    | split

theorem dictOf_item {ign : List Str} {o : Obj F} {k : String} {v : PyVal F} (h : (k, v) ∈ o.attrs ign) :
    dictGet? (dictOf ign o) k = some v := by
  obtain ⟨hk, hv⟩ := attrs_keys ign o (k, v) h
  dsimp only at hk hv
  rw [dictOf_get _ _ _ hk, dictGet?_nodup (d := (o.attrs ign).reverse) (v := v)
    (by rw [List.map_reverse]; exact (List.reverse_perm _).nodup_iff.2 (attrs_nodup ign o)) (List.mem_reverse.2 h)]
  simp [hv]

theorem attrs_ign {ign : List Str} {o : Obj F} {k : String} {v : PyVal F} (h : (k, v) ∈ o.attrs [])
    (hk : k ≠ "ignored_header_lines") : (k, v) ∈ o.attrs ign := by
  cases o <;> simp [Obj.attrs, hk] at h ⊢ <;> exact h

/-- The dictionary of an object describes it. -/
theorem dictOf_describes (ign : List Str) (o : Obj F) : Describes (dictOf ign o) o :=
  fun kv h hk => dictOf_item (attrs_ign (k := kv.1) (v := kv.2) h hk)

theorem dictOf_ignored (ign : List Str) (o : Obj F) :
    dictGet? (dictOf ign o) "ignored_header_lines" = some (pyStrs ign) :=
  dictOf_item (by cases o <;> simp [Obj.attrs])

/-! ### Objects that were read are tidy -/

theorem readAux_tidy {cd : Codec F} {ls rest : List Str} {a : AuxHdr F} (h : readAux cd ls = .ok (a, rest)) :
    a.Tidy := by
  unfold readAux at h
  obtain ⟨⟨nv, l1⟩, _, h2⟩ := ok_of_bind h
  dsimp only at h2
  split at h2
  · rename_i hp
    obtain ⟨⟨vs, l2⟩, hs, h3⟩ := ok_of_bind h2
    obtain ⟨⟨vm, l3⟩, hm, h4⟩ := ok_of_bind h3
    injection h4 with h4
    have := (Prod.mk.inj h4).1
    subst this
    intro hn
    simp only at hn
    omega
  · injection h2 with h2
    have := (Prod.mk.inj h2).1
    subst this
    exact fun _ => ⟨rfl, rfl, rfl⟩

theorem readCharAux_tidy {cd : Codec F} {ls rest : List Str} {a : CharAuxHdr F}
    (h : readCharAux cd ls = .ok (a, rest)) : a.Tidy := by
  unfold readCharAux at h
  obtain ⟨⟨nv, l1⟩, _, h2⟩ := ok_of_bind h
  obtain ⟨⟨nc, l2⟩, _, h3⟩ := ok_of_bind h2
  dsimp only at h3
  split at h3
  · rename_i hp
    obtain ⟨⟨vs, l2⟩, hs, h4⟩ := ok_of_bind h3
    obtain ⟨⟨vm, l3⟩, hm, h5⟩ := ok_of_bind h4
    obtain ⟨⟨la, l4⟩, hl, h6⟩ := ok_of_bind h5
    obtain ⟨⟨mc, l5⟩, hc, h7⟩ := ok_of_bind h6
    injection h7 with h7
    have := (Prod.mk.inj h7).1
    subst this
    intro hn
    simp only at hn
    omega
  · injection h3 with h3
    have := (Prod.mk.inj h3).1
    subst this
    exact fun _ => ⟨rfl, rfl, rfl, rfl⟩

theorem openNA_tidy {cd : Codec F} {k : Nat} {text : Str} {o : Obj F} (h : openNA cd k text = .ok o) : o.Tidy := by
  unfold openNA at h
  obtain ⟨ffi, hf, h1⟩ := ok_of_bind h
  obtain ⟨cls, hcls, h2⟩ := ok_of_bind h1
  clear h h1 hf hcls
  unfold readHeaderOf at h2
  repeat' split at h2
  all_goals
    obtain ⟨⟨r, i1, l1⟩, hr, h3⟩ := ok_of_bind h2
    injection h3 with h3
    subst h3
    clear h2
  · trivial
  · unfold readHeader1010 at hr
    obtain ⟨⟨c, ign, rest⟩, _, hr⟩ := ok_of_bind hr
    obtain ⟨dx0, _, hr⟩ := ok_of_bind hr
    obtain ⟨⟨v, l1⟩, hv, hr⟩ := ok_of_bind hr
    obtain ⟨⟨a, l2⟩, ha, hr⟩ := ok_of_bind hr
    obtain ⟨⟨m, l3⟩, _, hr⟩ := ok_of_bind hr
    injection hr with hr
    have e := (Prod.mk.inj hr).1
    subst e
    exact readAux_tidy ha
  · unfold readHeader1020 at hr
    obtain ⟨⟨c, ign, rest⟩, _, hr⟩ := ok_of_bind hr
    obtain ⟨dx0, _, hr⟩ := ok_of_bind hr
    obtain ⟨⟨n1, l1⟩, _, hr⟩ := ok_of_bind hr
    obtain ⟨⟨v, l1⟩, hv, hr⟩ := ok_of_bind hr
    obtain ⟨⟨a, l2⟩, ha, hr⟩ := ok_of_bind hr
    obtain ⟨⟨m, l3⟩, _, hr⟩ := ok_of_bind hr
    injection hr with hr
    have e := (Prod.mk.inj hr).1
    subst e
    exact readAux_tidy ha
  · unfold readHeader2110 at hr
    obtain ⟨⟨c, ign, rest⟩, _, hr⟩ := ok_of_bind hr
    obtain ⟨dx0, _, hr⟩ := ok_of_bind hr
    obtain ⟨⟨v, l1⟩, hv, hr⟩ := ok_of_bind hr
    obtain ⟨⟨a, l2⟩, ha, hr⟩ := ok_of_bind hr
    obtain ⟨⟨m, l3⟩, _, hr⟩ := ok_of_bind hr
    injection hr with hr
    have e := (Prod.mk.inj hr).1
    subst e
    exact readAux_tidy ha
  · unfold readHeader2160 at hr
    obtain ⟨⟨c, ign, rest⟩, _, hr⟩ := ok_of_bind hr
    obtain ⟨dx0, _, hr⟩ := ok_of_bind hr
    obtain ⟨dx1, _, hr⟩ := ok_of_bind hr
    obtain ⟨⟨v, l1⟩, hv, hr⟩ := ok_of_bind hr
    obtain ⟨⟨a, l2⟩, ha, hr⟩ := ok_of_bind hr
    obtain ⟨⟨m, l3⟩, _, hr⟩ := ok_of_bind hr
    injection hr with hr
    have e := (Prod.mk.inj hr).1
    subst e
    exact readCharAux_tidy ha
  · unfold readHeader2310 at hr
    obtain ⟨⟨c, ign, rest⟩, _, hr⟩ := ok_of_bind hr
    obtain ⟨dx0, _, hr⟩ := ok_of_bind hr
    obtain ⟨⟨v, l1⟩, hv, hr⟩ := ok_of_bind hr
    obtain ⟨⟨a, l2⟩, ha, hr⟩ := ok_of_bind hr
    obtain ⟨⟨m, l3⟩, _, hr⟩ := ok_of_bind hr
    injection hr with hr
    have e := (Prod.mk.inj hr).1
    subst e
    exact readAux_tidy ha
  · unfold readHeader2010 at hr
    obtain ⟨⟨c, ign, rest⟩, _, hr⟩ := ok_of_bind hr
    obtain ⟨dx0, _, hr⟩ := ok_of_bind hr
    obtain ⟨dx1, _, hr⟩ := ok_of_bind hr
    obtain ⟨dx2, _, hr⟩ := ok_of_bind hr
    obtain ⟨⟨n3, l3⟩, _, hr⟩ := ok_of_bind hr
    obtain ⟨⟨v, l1⟩, hv, hr⟩ := ok_of_bind hr
    obtain ⟨⟨a, l2⟩, ha, hr⟩ := ok_of_bind hr
    obtain ⟨⟨m, l3⟩, _, hr⟩ := ok_of_bind hr
    injection hr with hr
    have e := (Prod.mk.inj hr).1
    subst e
    exact readAux_tidy ha

theorem sameHeader_tidy {o o' : Obj F} (h : SameHeader o o') (hc : o.Tidy) : o'.Tidy := by
  cases o <;> cases o' <;> simp only [SameHeader] at h <;> first | exact h.elim | (rw [h]; exact hc)

theorem sameHeader_class {o o' : Obj F} (h : SameHeader o o') (hc : o.FFI ∈ o.classFFIs) :
    o'.FFI ∈ o'.classFFIs := by
  cases o <;> cases o' <;> simp only [SameHeader] at h <;> first | exact h.elim | (rw [h]; exact hc)

end Nappy
