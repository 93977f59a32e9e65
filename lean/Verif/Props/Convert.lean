import Verif.ConvertLemmas
import Verif.Examples

/-! Properties C33 to C39: what conversion to NASA Ames does with file names, long data and header items. -/

namespace Nappy.Props

open Nappy Spec

variable {F : Type}

/-! ### C33 -/

/-- C33. With a limit of at least one record per file, the records of a 1001 dictionary go to files that hold
all of them once and in order, in blocks of that size, numbered from 1, and with distinct names. -/
theorem C33_partition (emit : WriteCall F → Res Unit) (d : Dict (PyVal F)) (name : Str) (opts : WriteOpts)
    (n : Nat) (x : List (PyVal F)) (cols : List (List (PyVal F)))
    (hkeys : (d.map Prod.fst).Nodup) (hx : dictGet? d "X" = some (.list x))
    (hv : dictGet? d "V" = some (.list (cols.map .list))) (hne : cols ≠ [])
    (hlen : ∀ c ∈ cols, c.length = x.length) (hivol : dictHas d "IVOL" = true) (hnvol : dictHas d "NVOL" = true)
    (hn : 1 ≤ n) (hemit : ∀ c, emit c = .ok ()) :
    ∃ s, writeSubsets emit d name opts n = (s, none) ∧ SplitFiles d x cols n s.written ∧
      (s.written.map WriteCall.name).Nodup ∧
      ∀ c ∈ s.written, c.delimiter = opts.delimiter ∧ c.floatFormat = opts.floatFormat ∧
        c.annotation = opts.annotation := by
  obtain ⟨s, hs, hw, -⟩ := writeSubsets_files emit d name opts n x cols hkeys hx hv hne hlen hn hemit
  have hcut := cuts_spec x n hn x.length 0 (by omega) (by omega)
  rw [List.drop_zero] at hcut
  have hcount : ((blockFiles (splitEnv d name opts n cols x.length) x cols n x.length 0 0).length : Int)
      = (splitEnv d name opts n cols x.length).nvol := by
    rw [blockFiles_length _ _ _ _ _ _ _ rfl, cutInto_length hn hcut]
    rfl
  have hget : ∀ k v, dictGet? d k = some v → ∀ (i : Nat) c, s.written[i]? = some c → ∃ a,
      dictGet? c.dict k = some (blockVal ((x.drop a).take n)
      (.list (cols.map (fun c => .list ((c.drop a).take n)))) ((i : Int) + 1) s.written.length k v) := by
    intro k v hk i c hc
    rw [hw] at hc
    obtain ⟨a, rfl⟩ := blockFiles_get _ _ _ _ _ _ _ _ _ hc
    refine ⟨a, ?_⟩
    rw [blockFile_get, hw, hcount, Nat.zero_add]
    show Option.map _ (dictGet? d k) = _
    rw [hk]
    rfl
  have hmem : ∀ c ∈ s.written, ∃ a i, c = blockFile (splitEnv d name opts n cols x.length) x cols n a i := by
    intro c hc
    obtain ⟨i, hi⟩ := List.mem_iff_getElem?.1 hc
    rw [hw] at hi
    obtain ⟨a, rfl⟩ := blockFiles_get _ _ _ _ _ _ _ _ _ hi
    exact ⟨a, _, rfl⟩
  refine ⟨s, hs, ⟨⟨_, hcut, ?_⟩, ⟨colCuts (splitEnv d name opts n cols x.length) cols n x.length 0, ?_, ?_⟩,
    ?_, ?_, ?_⟩, ?_, ?_⟩
  · rw [hw]; exact blockFiles_x _ _ _ _ _ _ _ rfl hx
  · intro j col hj
    have hl : col.length = x.length := hlen col (List.mem_of_getElem? hj)
    refine ⟨cuts col n x.length 0, ?_, colCuts_col _ _ _ _ _ _ _ hj hl⟩
    have := cuts_spec col n hn x.length 0 (by omega) (by omega)
    rwa [List.drop_zero] at this
  · rw [hw]; exact blockFiles_v _ _ _ _ _ _ _ _ hv
  · intro i c hc
    obtain ⟨v, hv'⟩ := Option.isSome_iff_exists.1 hivol
    obtain ⟨a, ha⟩ := hget _ v hv' i c hc
    rw [ha]; simp [blockVal]
  · intro c hc
    obtain ⟨i, hi⟩ := List.mem_iff_getElem?.1 hc
    obtain ⟨v, hv'⟩ := Option.isSome_iff_exists.1 hnvol
    obtain ⟨a, ha⟩ := hget _ v hv' i c hi
    rw [ha]; simp [blockVal]
  · intro c hc
    obtain ⟨a, i, rfl⟩ := hmem c hc
    refine ⟨by simp [blockFile, splitEnv, Function.comp_def], fun k hk => ?_⟩
    rw [blockFile_get]
    show Option.map _ (dictGet? d k) = _
    simp only [splitKeys, List.mem_cons, List.not_mem_nil, or_false, not_or] at hk
    cases dictGet? d k with
    | none => rfl
    | some v => simp [blockVal, hk.1, hk.2.1, hk.2.2.1, hk.2.2.2]
  · rw [hw]; exact blockFiles_names _ _ _ _ _ _ _
  · intro c hc
    obtain ⟨a, i, rfl⟩ := hmem c hc
    exact ⟨rfl, rfl, rfl⟩

/-- A dictionary of five records, used in the examples. -/
def exSplit : Dict (PyVal Int) :=
  [("FFI", .int 1001), ("IVOL", .int 1), ("NVOL", .int 1), ("NAUXV", .int 0), ("XNAME", .list [.str "t".toList]),
   ("VNAME", .list [.str "u".toList, .str "v".toList]), ("NCOM", .list [.str "c".toList]), ("NNCOML", .int 1),
   ("X", .list [.num 1, .num 2, .num 3, .num 4, .num 5]),
   ("V", .list [.list [.num 10, .num 20, .num 30, .num 40, .num 50],
     .list [.num 11, .num 21, .num 31, .num 41, .num 51]])]

/-- The hypotheses of `C33_partition` hold for five records in blocks of two. -/
example : ∃ s, writeSubsets (fun _ => .ok ()) exSplit "out.na".toList
      { delimiter := [','], floatFormat := [], annotation := false, sizeLimit := some 2, noHeader := false } (2 : Nat)
      = (s, none) ∧ SplitFiles exSplit [.num 1, .num 2, .num 3, .num 4, .num 5]
        [[.num 10, .num 20, .num 30, .num 40, .num 50], [.num 11, .num 21, .num 31, .num 41, .num 51]] 2 s.written :=
  have ⟨s, h1, h2, _⟩ := C33_partition (fun _ => .ok ()) exSplit "out.na".toList
    { delimiter := [','], floatFormat := [], annotation := false, sizeLimit := some 2, noHeader := false } 2
    [.num 1, .num 2, .num 3, .num 4, .num 5]
    [[.num 10, .num 20, .num 30, .num 40, .num 50], [.num 11, .num 21, .num 31, .num 41, .num 51]]
    (by decide) rfl rfl (by simp) (by simp) rfl rfl (by decide) (fun _ => rfl)
  ⟨s, h1, h2⟩

/-! ### C34 -/

/-- C34, first part. After a call of `writeNAFiles` that succeeds, the list of output files and the files
written are the same files. -/
theorem C34_same_files (emit : WriteCall F → Res Unit) (cfg : WriteConfig F) (items : Dict (PyVal F))
    (opts : WriteOpts) (nc na : Option Str) (dicts : List (Dict (PyVal F))) (r : WriteResult F)
    (h : writeNAFiles emit cfg items opts nc na dicts = (r, none)) (f : Str) :
    f ∈ r.fileList ↔ f ∈ r.written.map WriteCall.name := by
  unfold writeNAFiles at h
  split at h
  · exact absurd (Prod.mk.inj h).2 (by simp)
  · obtain ⟨ws, h1, -, -, h4⟩ := writeNAFilesGo_names emit cfg items opts _ _ _ _ h
    obtain ⟨nss, k1, k2, -⟩ := h4 rfl
    rw [h1, k1, List.nil_append, List.nil_append]
    clear h h1 k1 h4
    induction k2 with
    | nil => simp
    | cons a _ ih =>
      rw [List.flatten_cons, List.flatten_cons, List.mem_append, ih, List.map_append, List.mem_append]
      rcases a with rfl | rfl
      · rfl
      · simp [List.mem_flatMap, eq_comm]

/-- C34 without a size limit, in full: the list names every written file once. What is missing: with a size
limit the list has duplicates (`C34_split_twice`, `C34_fails`). -/
theorem C34_once_partial (emit : WriteCall F → Res Unit) (cfg : WriteConfig F) (items : Dict (PyVal F))
    (opts : WriteOpts) (nc na : Option Str) (dicts : List (Dict (PyVal F))) (r : WriteResult F)
    (h : writeNAFiles emit cfg items opts nc na dicts = (r, none)) (hs : opts.sizeLimit = none) :
    r.fileList = r.written.map WriteCall.name ∧ r.fileList.length = dicts.length ∧
      constructNAFileNames nc dicts.length na = .ok r.fileList := by
  unfold writeNAFiles at h
  split at h
  · exact absurd (Prod.mk.inj h).2 (by simp)
  · rename_i names hn
    obtain ⟨ws, h1, -, -, h4⟩ := writeNAFilesGo_names emit cfg items opts _ _ _ _ h
    obtain ⟨nss, k1, -, k3⟩ := h4 rfl
    obtain ⟨k3, k4⟩ := k3 hs
    rw [List.nil_append] at k1 h1
    have hl : names.length = dicts.length := (construct_length hn).1
    have hf : r.fileList = names := by
      rw [k1, k4]; exact zip_singletons _ _ hl
    refine ⟨?_, by rw [hf, hl], by rw [hf]; exact hn⟩
    rw [k1, h1, k3]
    simp [List.map_flatten]

/-- C34. When a dictionary is split, each file is listed twice. -/
theorem C34_split_twice (emit : WriteCall F → Res Unit) (d : Dict (PyVal F)) (name : Str) (opts : WriteOpts)
    (limit : Int) (s : SplitState F) (h : writeSubsets emit d name opts limit = (s, none)) :
    s.names = s.written.flatMap (fun c => [c.name, c.name]) :=
  (writeSubsets_names emit d name opts limit s none h).2 rfl

/-- The settings of the examples. -/
def exOpts (limit : Int) : WriteOpts :=
  { delimiter := [','], floatFormat := [], annotation := false, sizeLimit := some limit, noHeader := false }

/-- The configuration of the examples. -/
def exConfig : WriteConfig Int :=
  { hp := nappyIni, rule := .insert, addColumnHeaders := true, localAtts := [("ORG", .str "BADC".toList)] }

/-- C34 is false: five records in blocks of three are two files, and four names are listed. -/
theorem C34_fails : ∃ r, writeNAFiles (fun _ => .ok ()) exConfig [] (exOpts 3) none (some "out.na".toList) [exSplit]
      = (r, none) ∧
    r.fileList = ["out-001.na".toList, "out-001.na".toList, "out-002.na".toList, "out-002.na".toList] ∧
    r.written.map WriteCall.name = ["out-001.na".toList, "out-002.na".toList] := by
  refine ⟨_, rfl, ?_, ?_⟩ <;> decide +kernel

/-- C34. No file is written over by another one of the same call, if the name given ends in a dot and at least
two more characters, as in `.na`. -/
theorem C34_distinct (emit : WriteCall F → Res Unit) (cfg : WriteConfig F) (items : Dict (PyVal F))
    (opts : WriteOpts) (nc : Option Str) (base ext : Str) (hdot : '.' ∉ ext) (hext : 2 ≤ ext.length)
    (dicts : List (Dict (PyVal F))) (r : WriteResult F) (x : Option Err)
    (h : writeNAFiles emit cfg items opts nc (some (base ++ '.' :: ext)) dicts = (r, x)) :
    (r.written.map WriteCall.name).Nodup := by
  unfold writeNAFiles at h
  split at h
  · rw [← (Prod.mk.inj h).1]; simp
  · rename_i names hn
    obtain ⟨ws, h1, h2, h3, -⟩ := writeNAFilesGo_names emit cfg items opts _ _ _ _ h
    have hl : names.length = dicts.length := (construct_length hn).1
    rw [List.length_zip, hl, Nat.min_self] at h2
    rw [h1, List.nil_append, List.map_flatten, List.nodup_flatten]
    have hone : ∀ w ∈ ws, (w.map WriteCall.name).Nodup := by
      intro w hw
      obtain ⟨i, hi⟩ := List.mem_iff_getElem?.1 hw
      obtain ⟨p, -, ⟨c, rfl, -⟩ | e⟩ := h3 i w hi
      · simp
      · rw [e]
        refine List.pairwise_map.2 ((List.nodup_range' (step := 1)).imp (fun hne he => hne (partName_injective _ he)))
    refine ⟨by simpa using hone, ?_⟩
    refine List.pairwise_iff_getElem.2 (fun i j hi hj hij f hf1 hf2 => ?_)
    rw [List.length_map] at hi hj
    have hn1 : dicts.length ≠ 1 := by omega
    rw [construct_names nc dicts.length base ext hdot hn1] at hn
    have key : ∀ (k : Nat) (hk : k < ws.length) , f ∈ (ws[k]).map WriteCall.name →
        (f = numName base ext (k + 1) ∨ ∃ m, f = partName (numName base ext (k + 1)) m) := by
      intro k hk hf
      obtain ⟨p, hp, e⟩ := h3 k _ (List.getElem?_eq_getElem hk)
      have hp1 : p.1 = numName base ext (k + 1) := by
        rw [← Except.ok.inj hn, List.getElem?_zip_eq_some] at hp
        have := hp.1
        rw [List.getElem?_map] at this
        rw [List.getElem?_range (by omega)] at this
        simpa using this.symm
      rw [hp1] at e
      rcases e with ⟨c, hc, hcn⟩ | e
      · rw [hc] at hf
        simp at hf
        exact .inl (by rw [hf, hcn])
      · rw [e] at hf
        obtain ⟨m, -, hm⟩ := List.mem_map.1 hf
        exact .inr ⟨m, hm.symm⟩
    rw [List.getElem_map] at hf1 hf2
    have := name_num base ext hext _ _ f (key i hi hf1) (key j hj hf2)
    omega

/-- C34. With an extension of one character, the parts of one dictionary are written over those of another. -/
theorem C34_overwrites : ∃ r, writeNAFiles (fun _ => .ok ()) exConfig [] (exOpts 3) none (some "out.n".toList)
      [exSplit, exSplit] = (r, none) ∧
    r.written.map WriteCall.name = ["out_-001.na".toList, "out_-002.na".toList, "out_-001.na".toList,
      "out_-002.na".toList] := by
  refine ⟨_, rfl, ?_⟩; decide +kernel

/-! ### C35 -/

/-- C35 for limits that are not negative: the loop ends, within as many rounds as there are records. A limit
of zero raises. What is missing: with a negative limit the loop never ends (`C35_diverges`). -/
theorem C35_ends_partial (emit : WriteCall F → Res Unit) (d : Dict (PyVal F)) (name : Str) (opts : WriteOpts)
    (limit : Int) (hl : 0 ≤ limit) (hemit : ∀ c, emit c ≠ .error .hang) :
    (writeSubsets emit d name opts limit).2 ≠ some .hang := by
  unfold writeSubsets
  dsimp only
  cases hi : splitInit d name opts limit with
  | error x =>
    dsimp only
    unfold splitInit at hi
    intro hx
    have hx := Option.some.inj hx
    subst hx
    unfold dictGet idx at hi
    split at hi
    · rw [ok_bind] at hi
      split at hi
      · split at hi
        · rw [ok_bind] at hi
          split at hi
          · split at hi <;> cases hi
          · cases hi
        · cases hi
      · cases hi
    · cases hi
  | ok e =>
    dsimp only
    have hlim : e.limit = limit ∧ limit ≠ 0 := by
      unfold splitInit at hi
      obtain ⟨v, -, hi⟩ := ok_of_bind hi
      split at hi
      · obtain ⟨v0, -, hi⟩ := ok_of_bind hi
        split at hi
        · split at hi
          · cases hi
          · rename_i h0
            rw [← Except.ok.inj hi]; exact ⟨rfl, h0⟩
        · cases hi
      · cases hi
    exact splitGo_ends emit e (by omega) hemit _ _ (by dsimp only; omega)

/-- C35. With a limit of zero nothing is written and `ZeroDivisionError` is raised. -/
theorem C35_zero (emit : WriteCall F → Res Unit) (d : Dict (PyVal F)) (name : Str) (opts : WriteOpts)
    (cols : List (List (PyVal F))) (hv : dictGet? d "V" = some (.list (cols.map .list))) (hne : cols ≠ []) :
    (writeSubsets emit d name opts 0).2 = some .zeroDiv ∧ (writeSubsets emit d name opts 0).1.written = [] := by
  obtain ⟨c, t, rfl⟩ := List.exists_cons_of_ne_nil hne
  have : splitInit d name opts 0 = .error .zeroDiv := by
    unfold splitInit dictGet
    rw [hv]
    simp [idx]
  unfold writeSubsets
  rw [this]
  exact ⟨rfl, rfl⟩

/-- C35 is false: with a negative limit and at least one record the loop never ends. However long it is
left running, it goes on writing files. -/
theorem C35_diverges (emit : WriteCall F → Res Unit) (d : Dict (PyVal F)) (name : Str) (opts : WriteOpts)
    (limit : Int) (x : List (PyVal F)) (cols : List (List (PyVal F)))
    (hkeys : (d.map Prod.fst).Nodup) (hx : dictGet? d "X" = some (.list x))
    (hv : dictGet? d "V" = some (.list (cols.map .list))) (hne : cols ≠ []) (hx0 : x ≠ [])
    (hlen : ∀ c ∈ cols, c.length = x.length) (hl : limit < 0) (hemit : ∀ c, emit c = .ok ()) :
    ∃ e, splitInit d name opts limit = .ok e ∧ ∀ fuel,
      (splitGo emit e fuel { start := 0, ivol := 0, names := [], written := [] }).2 = some .hang ∧
      (splitGo emit e fuel { start := 0, ivol := 0, names := [], written := [] }).1.written.length = fuel := by
  refine ⟨_, splitInit_ok d name opts limit cols x.length hv hne hlen (by omega), fun fuel => ?_⟩
  have := splitGo_never emit (splitEnv d name opts limit cols x.length) x cols hl (List.length_pos_of_ne_nil hx0)
    rfl hkeys hx hemit fuel (SplitState.mk 0 0 [] []) (Int.le_refl 0)
  refine ⟨this.1, ?_⟩
  rw [this.2]; simp

/-- The hypotheses of `C35_diverges` hold for `exSplit`. -/
example : ∃ e, splitInit exSplit [] (exOpts (-1)) (-1) = .ok e ∧ ∀ fuel,
    (splitGo (fun _ => .ok ()) e fuel { start := 0, ivol := 0, names := [], written := [] }).2 = some .hang := by
  obtain ⟨e, h1, h2⟩ := C35_diverges (fun _ => .ok ()) exSplit [] (exOpts (-1)) (-1)
    [.num 1, .num 2, .num 3, .num 4, .num 5]
    [[.num 10, .num 20, .num 30, .num 40, .num 50], [.num 11, .num 21, .num 31, .num 41, .num 51]]
    (by decide) rfl rfl (by simp) (by simp) (by simp) (by decide) (fun _ => rfl)
  exact ⟨e, h1, fun fuel => (h2 fuel).1⟩

/-! ### C36 -/

/-- C36. The names made for `n` dictionaries are `n` distinct names. -/
theorem C36_distinct (nc na : Option Str) (n : Nat) (names : List Str)
    (h : constructNAFileNames nc n na = .ok names) : names.length = n ∧ names.Nodup :=
  construct_length h

/-- C36. A single dictionary gets the name asked for. -/
theorem C36_single (nc : Option Str) (na : Str) : constructNAFileNames nc 1 (some na) = .ok [na] := rfl

/-- C36. Without a name for the output, it is named after the NetCDF file. -/
theorem C36_default (base : Str) :
    constructNAFileNames (some (base ++ ".nc".toList)) 1 none = .ok [base ++ ".na".toList] := by
  have h1 : lastThree (base ++ ".nc".toList) = ".nc".toList := by
    unfold lastThree
    rw [List.length_append, show (".nc".toList).length = 3 from rfl, Nat.add_sub_cancel, List.drop_left]
  have h2 : dropThree (base ++ ".nc".toList) = base := by
    unfold dropThree
    rw [List.length_append, show (".nc".toList).length = 3 from rfl, Nat.add_sub_cancel, List.take_left]
  unfold constructNAFileNames baseNAFile
  simp only [h1, h2, if_true, ok_bind]

/-- C36. Several dictionaries get the name with a number put before the extension. -/
theorem C36_numbered (nc : Option Str) (n : Nat) (base ext : Str) (hdot : '.' ∉ ext) (hn : n ≠ 1) :
    constructNAFileNames nc n (some (base ++ '.' :: ext))
      = .ok ((List.range n).map (fun i => base ++ '_' :: natStr (i + 1) ++ '.' :: ext)) :=
  construct_names nc n base ext hdot hn

example : constructNAFileNames none 2 (some "a.b.na".toList) = .ok ["a.b_1.na".toList, "a.b_2.na".toList] :=
  (C36_numbered none 2 "a.b".toList "na".toList (by decide) (by decide)).trans (by decide +kernel)

/-! ### C37 -/

/-- C37, first part. Overriding changes nothing but overridable items that are given, and the numbers of
comment lines. -/
theorem C37_only_permitted (hp : Partitions) (rule : Rule) (o d d' : Dict (PyVal F))
    (h : applyOverrides hp rule d o = .ok d') (k : String) (hk : ¬ MayChange o k) :
    dictGet? d' k = dictGet? d k := by
  refine applyOverrides_frame h k ?_
  rintro key hkey ⟨hper, rfl | ⟨rfl, rfl⟩ | ⟨rfl, rfl⟩⟩
  · exact hk (.inl ⟨hper, hkey⟩)
  · exact hk (.inr (.inl ⟨rfl, hkey⟩))
  · exact hk (.inr (.inr ⟨rfl, hkey⟩))

/-- C37, second part. Comments given as lists: afterwards the declared numbers of lines are the numbers of
lines. -/
theorem C37_counts (hp : Partitions) (rule : Rule) (o d d' : Dict (PyVal F)) (key nkey : String)
    (hkey : key = "SCOM" ∧ nkey = "NSCOML" ∨ key = "NCOM" ∧ nkey = "NNCOML")
    (hin : key ∈ o.map Prod.fst) (hl : ∀ v, (key, v) ∈ o → ∃ l, v = .list l)
    (h : applyOverrides hp rule d o = .ok d') :
    ∃ l : List (PyVal F), dictGet? d' key = some (.list l) ∧ dictGet? d' nkey = some (.int l.length) :=
  applyOverrides_count hkey h hl (.inl hin)

/-- C37, third part. Overridden texts have the value given. -/
theorem C37_text (hp : Partitions) (rule : Rule) (o d d' : Dict (PyVal F)) (key : String) (v : PyVal F)
    (ho : (o.map Prod.fst).Nodup) (hkey : key = "MNAME" ∨ key = "ONAME" ∨ key = "ORG" ∨ key = "SNAME")
    (hm : (key, v) ∈ o) (h : applyOverrides hp rule d o = .ok d') : dictGet? d' key = some v := by
  refine applyOverrides_value ?_ ?_ ?_ ho hm ?_ h
  · rcases hkey with rfl | rfl | rfl | rfl <;> decide
  · rcases hkey with rfl | rfl | rfl | rfl <;> decide
  · rcases hkey with rfl | rfl | rfl | rfl <;> decide
  · unfold overrideItem
    rw [if_neg]
    rcases hkey with rfl | rfl | rfl | rfl <;> decide

/-- C37, fourth part. Overridden dates are the numbers given. -/
theorem C37_date (hp : Partitions) (rule : Rule) (o d d' : Dict (PyVal F)) (key : String) (s : Str) (is : List Int)
    (ho : (o.map Prod.fst).Nodup) (hkey : key = "DATE" ∨ key = "RDATE") (hm : (key, .str s) ∈ o)
    (hs : words s = is.map intStr) (h : applyOverrides hp rule d o = .ok d') :
    dictGet? d' key = some (.list (is.map .int)) := by
  refine applyOverrides_value ?_ ?_ ?_ ho hm ?_ h
  · rcases hkey with rfl | rfl <;> decide
  · rcases hkey with rfl | rfl <;> decide
  · rcases hkey with rfl | rfl <;> decide
  · unfold overrideItem
    rw [if_pos (by rcases hkey with rfl | rfl <;> decide)]
    simp only [if_pos hkey, hs, mapRes_pyInt, ok_bind]

/-- C37. The user's overrides win over those of the configuration. -/
theorem C37_user_first (l u : Dict (PyVal F)) (k : String) (hu : (u.map Prod.fst).Nodup) :
    dictGet? (overriders l u) k = (dictGet? u k).or (dictGet? l k) :=
  overriders_get l u k hu

/-- An override of three items, one of them not permitted, on a dictionary with comments. -/
example : ∃ d', applyOverrides (F := Int) nappyIni .insert
      [("NV", .int 1), ("SCOM", .list [.str "old".toList]), ("NSCOML", .int 1), ("ORG", .str "a".toList)]
      [("NV", .int 7), ("SCOM", .list [.str "new".toList]), ("ORG", .str "b".toList)] = .ok d' ∧
    ∃ l : List (PyVal Int), dictGet? d' "SCOM" = some (.list l) ∧ dictGet? d' "NSCOML" = some (.int l.length) ∧
      l.length = 2 :=
  ⟨_, rfl, _, rfl, rfl, rfl⟩

/-- C37 is false for comments given as one string, as the command line gives them: the string takes the
place of the list of comments, and the number of lines is its number of characters. -/
theorem C37_string_fails (hp : Partitions) (s : Str) (d : Dict (PyVal F)) (h : dictGet? d "SCOM" = none) :
    ∃ d', applyOverrides hp .insert d [("SCOM", .str s)] = .ok d' ∧ dictGet? d' "SCOM" = some (.str s) ∧
      dictGet? d' "NSCOML" = some (.int s.length) := by
  refine ⟨dictSet (dictSet d "SCOM" (.str s)) "NSCOML" (.int s.length), ?_, ?_, ?_⟩
  · unfold applyOverrides applyOverride
    rw [if_pos (by decide), overrideItem_comment _ (.inl rfl), ok_bind, if_pos (.inl rfl), h]
    rfl
  · rw [dictGet?_set, dictGet?_set, if_neg (by decide), if_pos rfl]
  · rw [dictGet?_set, if_pos rfl]

/-- C37. One string on top of existing comments raises `TypeError`. -/
theorem C37_string_raises : (applyOverrides (F := Int) nappyIni .insert
      [("SCOM", .list [.str "old".toList]), ("NSCOML", .int 1)] [("SCOM", .str "new".toList)]).toOption.isNone = true :=
  rfl

/-- C37 is false for names of variables with blanks: the one name given becomes two, and the number of
variables stays. -/
theorem C37_names_fails : ∃ d', applyOverrides (F := Int) nappyIni .insert
      [("NV", .int 1), ("VNAME", .list [.str "v".toList])] [("VNAME", .str "wind speed".toList)] = .ok d' ∧
    ∃ l, dictGet? d' "VNAME" = some (.list l) ∧ l.length = 2 ∧ dictGet? d' "NV" = some (.int 1) :=
  ⟨_, rfl, _, rfl, rfl, rfl⟩

/-! ### C38 -/

/-- C38. Merging keeps all lines of both lists in order, and the marker lines at their places. -/
theorem C38_merged (hp : Partitions) (old new : List Str) (ncom insert : Bool) (r : List Str)
    (ho : old ≠ []) (hn : new ≠ []) (h : cleanWrapComments hp old new ncom insert = .ok r) :
    Merged (if ncom then hp.nc_start else hp.sc_start)
      (if ncom then [hp.nc_end, hp.data_next] else [hp.sc_end]) old new insert r := by
  obtain ⟨a, body, b, h1, h2, h3, last, hl, h4⟩ := cleanWrap_eq hp old new ncom insert r ho hn h
  refine ⟨a, body, b, h1, h2, h3, fun l hl' => ?_⟩
  rw [hl'] at hl
  have := Option.some.inj hl
  subst this
  rw [h4]
  cases ncom <;> simp

/-- C38. With nothing on one side, the result is the other side. -/
theorem C38_empty (hp : Partitions) (l : List Str) (ncom insert : Bool) :
    cleanWrapComments hp [] l ncom insert = .ok l ∧ cleanWrapComments hp l [] ncom insert = .ok l := by
  refine ⟨rfl, ?_⟩
  unfold cleanWrapComments
  split
  · rename_i h; rw [h]
  · rfl

/-- C38. No line is lost, added or moved: both lists are in the result in order, and there is nothing else. -/
theorem C38_keeps (hp : Partitions) (old new : List Str) (ncom insert : Bool) (r : List Str)
    (h : cleanWrapComments hp old new ncom insert = .ok r) :
    old.Sublist r ∧ new.Sublist r ∧ r.length = old.length + new.length := by
  by_cases ho : old = []
  · subst ho
    rw [(C38_empty hp new ncom insert).1] at h
    rw [← Except.ok.inj h]; simp
  · by_cases hn : new = []
    · subst hn
      rw [(C38_empty hp old ncom insert).2] at h
      rw [← Except.ok.inj h]; simp
    · obtain ⟨a, body, b, h1, h2, -⟩ := (C38_merged hp old new ncom insert r ho hn h).lines
      rw [h1, h2]
      cases insert
      · refine ⟨?_, ?_, ?_⟩
        · simp only [Bool.false_eq_true, if_false]
          exact ((List.Sublist.refl a).append (List.sublist_append_left _ _)).append (List.Sublist.refl b)
        · simp only [Bool.false_eq_true, if_false]
          exact ((List.sublist_append_right _ _).trans (List.sublist_append_right _ _)).trans
            (List.sublist_append_left _ _)
        · simp; omega
      · refine ⟨?_, ?_, ?_⟩
        · simp only [if_true]
          exact ((List.Sublist.refl a).append (List.sublist_append_right _ _)).append (List.Sublist.refl b)
        · simp only [if_true]
          exact ((List.sublist_append_left _ _).trans (List.sublist_append_right _ _)).trans
            (List.sublist_append_left _ _)
        · simp; omega

/-- C38, no error, for old comments that are not just the start marker. What is missing: that one case
raises (`C38_fails`). -/
theorem C38_total_partial (hp : Partitions) (old new : List Str) (ncom insert : Bool)
    (h : old ≠ [if ncom then hp.nc_start else hp.sc_start]) :
    ∃ r, cleanWrapComments hp old new ncom insert = .ok r :=
  cleanWrap_ok hp old new ncom insert (.inl h)

/-- C38 is false when the old comments are just the start marker: `IndexError`. -/
theorem C38_fails (hp : Partitions) (new : List Str) (hn : new ≠ []) (ncom insert : Bool) :
    cleanWrapComments hp [if ncom then hp.nc_start else hp.sc_start] new ncom insert = .error .index := by
  unfold cleanWrapComments
  rw [if_neg (by simp), if_neg hn]
  simp

example : cleanWrapComments nappyIni [nappyIni.nc_start, ['a'], nappyIni.data_next] [['b'], ['c']] true true
    = .ok [nappyIni.nc_start, ['b'], ['c'], ['a'], nappyIni.data_next] := by
  decide

/-! ### C39 -/

/-- C39 for 1001 and 2110 without auxiliary variables: one line is added to the normal comments, with the
name of the first independent variable and then those of the variables, and it is counted. -/
theorem C39_headers (d : Dict (PyVal F)) (delimiter : Str) (ffi naux : Int) (x : Str) (xs : List (PyVal F))
    (vs : List Str) (ncom : List (PyVal F)) (hffi : dictGet? d "FFI" = some (.int ffi))
    (hf : ffi = 1001 ∨ ffi = 2110) (haux : dictGet? d "NAUXV" = some (.int naux)) (hn : naux ≤ 0)
    (hx : dictGet? d "XNAME" = some (.list (.str x :: xs))) (hv : dictGet? d "VNAME" = some (.list (vs.map .str)))
    (hc : dictGet? d "NCOM" = some (.list ncom)) :
    ∃ d', updateWithColumnHeaders d delimiter = .ok d' ∧
      dictGet? d' "NCOM" = some (.list (ncom ++ [.str (join [','] (x :: vs))])) ∧
      dictGet? d' "NNCOML" = some (.int (ncom.length + 1)) ∧
      ∀ k, k ≠ "NCOM" → k ≠ "NNCOML" → dictGet? d' k = dictGet? d k := by
  refine ⟨dictSet (dictSet d "NCOM" (.list (ncom ++ [.str (join [','] (x :: vs))]))) "NNCOML"
    (.int (ncom.length + 1)), ?_, ?_, ?_, ?_⟩
  · unfold updateWithColumnHeaders dictGet
    have hs : asStrs ([PyVal.str x] ++ vs.map PyVal.str : List (PyVal F)) = some (x :: vs) :=
      asStrs_eq.2 rfl
    have h1 : firstColumn d ffi = .ok [.str x] := by
      unfold firstColumn dictGet
      rw [if_pos hf, hx]; rfl
    simp only [hffi, ok_bind, haux, h1, hv, hc]
    rw [if_pos (by omega), if_neg (by omega)]
    simp only [hs, List.length_append, List.length_cons, List.length_nil]
    rfl
  · rw [dictGet?_set, dictGet?_set, if_neg (by decide), if_pos rfl]
  · rw [dictGet?_set, if_pos rfl]
  · intro k h1 h2
    rw [dictGet?_set, dictGet?_set, if_neg (fun e => h2 e.symm), if_neg (fun e => h1 e.symm)]

/-- C39 for every dictionary: either nothing changes, or one line is added to the normal comments, the
number of lines is set, and nothing else changes. -/
theorem C39_count (d d' : Dict (PyVal F)) (delimiter : Str) (h : updateWithColumnHeaders d delimiter = .ok d') :
    d' = d ∨ ∃ (ncom : List (PyVal F)) (line : Str), dictGet? d "NCOM" = some (.list ncom) ∧
      dictGet? d' "NCOM" = some (.list (ncom ++ [.str line])) ∧
      dictGet? d' "NNCOML" = some (.int (ncom.length + 1)) ∧
      ∀ k, k ≠ "NCOM" → k ≠ "NNCOML" → dictGet? d' k = dictGet? d k := by
  obtain rfl | ⟨ncom, line, h1, rfl⟩ := columnHeaders_cases h
  · exact .inl rfl
  · refine .inr ⟨ncom, line, h1, ?_, ?_, ?_⟩
    · rw [dictGet?_set, dictGet?_set, if_neg (by decide), if_pos rfl]
    · rw [dictGet?_set, if_pos rfl]
    · intro k h1 h2
      rw [dictGet?_set, dictGet?_set, if_neg (fun e => h2 e.symm), if_neg (fun e => h1 e.symm)]

/-- C39. Other formats, and dictionaries with auxiliary variables, are left as they are. -/
theorem C39_others (d : Dict (PyVal F)) (delimiter : Str) (ffi : Int)
    (hffi : dictGet? d "FFI" = some (.int ffi))
    (h : ffi ∉ [1001, 1010, 2110] ∨ ∃ naux, dictGet? d "NAUXV" = some (.int naux) ∧ 0 < naux) :
    updateWithColumnHeaders d delimiter = .ok d := by
  unfold updateWithColumnHeaders dictGet
  simp only [hffi, ok_bind]
  simp only [List.mem_cons, List.not_mem_nil, or_false] at h
  split
  · rename_i hf
    obtain ⟨naux, h1, h2⟩ := h.resolve_left (fun hn => hn hf)
    simp only [h1, ok_bind, if_pos h2]
  · rfl

/-- C39 is false for 1010: the line has the names of the variables only, although the data lines begin with
the independent variable. -/
theorem C39_1010_fails (d : Dict (PyVal F)) (delimiter : Str) (naux : Int) (vs : List Str)
    (ncom : List (PyVal F)) (hffi : dictGet? d "FFI" = some (.int 1010))
    (haux : dictGet? d "NAUXV" = some (.int naux)) (hn : naux ≤ 0)
    (hv : dictGet? d "VNAME" = some (.list (vs.map .str))) (hc : dictGet? d "NCOM" = some (.list ncom)) :
    ∃ d', updateWithColumnHeaders d delimiter = .ok d' ∧
      dictGet? d' "NCOM" = some (.list (ncom ++ [.str (join [','] vs)])) := by
  refine ⟨dictSet (dictSet d "NCOM" (.list (ncom ++ [.str (join [','] vs)]))) "NNCOML"
    (.int (ncom.length + 1)), ?_, ?_⟩
  · unfold updateWithColumnHeaders dictGet
    have hs : asStrs ([] ++ vs.map PyVal.str : List (PyVal F)) = some vs := asStrs_eq.2 rfl
    have h1 : firstColumn d 1010 = .ok [] := rfl
    simp only [hffi, ok_bind, haux, h1, hv, hc]
    rw [if_pos (by decide), if_neg (by omega)]
    simp only [hs, List.length_append, List.length_cons, List.length_nil]
    rfl
  · rw [dictGet?_set, dictGet?_set, if_neg (by decide), if_pos rfl]

/-- C39 is false for the delimiter: the line is the same for all delimiters. -/
theorem C39_delimiter_fails (d : Dict (PyVal F)) (a b : Str) :
    updateWithColumnHeaders d a = updateWithColumnHeaders d b := rfl

/-- The line made for `exSplit`. -/
example : ∃ d', updateWithColumnHeaders exSplit [';'] = .ok d' ∧
    dictGet? d' "NCOM" = some (.list ([.str "c".toList] ++ [.str "t,u,v".toList])) :=
  have ⟨d', h1, h2, _⟩ := C39_headers exSplit [';'] 1001 0 "t".toList [] ["u".toList, "v".toList] [.str "c".toList]
    rfl (.inl rfl) rfl (by decide) rfl rfl rfl
  ⟨d', h1, h2⟩

/-! ### C58 -/

/-- C58 is false: the dictionaries of a converter are changed by writing them, so that writing a second time
gives other files. Here the line of column names is in the header once after the first call and twice after
the second. -/
theorem C58_fails : ∃ r r2, writeNAFiles (fun _ => .ok ()) exConfig [] (exOpts 9) none (some "o.na".toList) [exSplit]
      = (r, none) ∧
    writeNAFiles (fun _ => .ok ()) exConfig [] (exOpts 9) none (some "o.na".toList) r.dicts = (r2, none) ∧
    (r.written.map (fun c => dictGet? c.dict "NNCOML")) = [some (.int 2)] ∧
    (r2.written.map (fun c => dictGet? c.dict "NNCOML")) = [some (.int 3)] :=
  ⟨_, _, rfl, rfl, rfl, rfl⟩

/-- C58 without column headers and without comment overrides: the second call gives the same files. What is
missing: with column headers (the setting of the configuration) it is false (`C58_fails`). -/
theorem C58_again_partial (emit : WriteCall F → Res Unit) (cfg : WriteConfig F) (items : Dict (PyVal F))
    (opts : WriteOpts) (nc na : Option Str) (dicts : List (Dict (PyVal F))) (r : WriteResult F)
    (hcol : cfg.addColumnHeaders = false) (hl : (cfg.localAtts.map Prod.fst).Nodup)
    (hc : ∀ k ∈ ["SCOM", "NCOM"], k ∉ items.map Prod.fst ∧ k ∉ cfg.localAtts.map Prod.fst)
    (h : writeNAFiles emit cfg items opts nc na dicts = (r, none)) :
    writeNAFiles emit cfg items opts nc na r.dicts = (r, none) := by
  have hp : ∀ d d', prepareDict cfg items opts.delimiter d = .ok d' →
      prepareDict cfg items opts.delimiter d' = .ok d' := by
    intro d d' hd
    unfold prepareDict at hd ⊢
    obtain ⟨d1, h1, h2⟩ := ok_of_bind hd
    rw [hcol] at h2 ⊢
    have := Except.ok.inj h2
    subst this
    have hno : ∀ k ∈ ["SCOM", "NCOM"], k ∉ (overriders cfg.localAtts items).map Prod.fst := by
      intro k hk hm
      rcases overriders_keys _ _ _ hm with m | m
      · exact (hc k hk).1 m
      · exact (hc k hk).2 m
    rw [applyOverrides_again (overriders_nodup _ _ hl) (hno _ (by simp)) (hno _ (by simp)) h1]
    rfl
  unfold writeNAFiles at h ⊢
  split at h
  · exact absurd (Prod.mk.inj h).2 (by simp)
  · rename_i names hn
    obtain ⟨ds, h1, h2, h3⟩ := writeNAFilesGo_again emit cfg items opts hp _ _ _ h
    have hlen := (construct_length hn).1
    rw [List.nil_append] at h1
    rw [List.length_zip, hlen, Nat.min_self] at h2
    rw [h1, h2, hn]
    dsimp only
    rwa [List.map_fst_zip (by omega)] at h3

/-- The hypotheses of `C34_same_files`, `C34_once_partial`, `C34_distinct` and `C58_again_partial` hold for two
dictionaries. -/
example : ∃ r, writeNAFiles (fun _ => .ok ()) { exConfig with addColumnHeaders := false } []
      { exOpts 9 with sizeLimit := none } none (some ("o".toList ++ '.' :: "na".toList)) [exSplit, exSplit] = (r, none) ∧
    r.fileList = ["o_1.na".toList, "o_2.na".toList] ∧ (r.written.map WriteCall.name).Nodup ∧
    writeNAFiles (fun _ => .ok ()) { exConfig with addColumnHeaders := false } []
      { exOpts 9 with sizeLimit := none } none (some ("o".toList ++ '.' :: "na".toList)) r.dicts = (r, none) := by
  obtain ⟨r, h⟩ : ∃ r, writeNAFiles (fun _ => .ok ()) { exConfig with addColumnHeaders := false } []
      { exOpts 9 with sizeLimit := none } none (some ("o".toList ++ '.' :: "na".toList)) [exSplit, exSplit]
        = (r, none) := ⟨_, rfl⟩
  have h1 := (C34_once_partial _ _ _ _ _ _ _ r h rfl).2.2
  have h2 : constructNAFileNames none 2 (some ("o".toList ++ '.' :: "na".toList))
      = .ok ["o_1.na".toList, "o_2.na".toList] := by decide +kernel
  refine ⟨r, h, ?_, C34_distinct _ _ _ _ _ _ _ (by decide) (by decide) _ _ _ h,
    C58_again_partial _ _ _ _ _ _ _ r rfl (by decide) (by decide) h⟩
  exact (Except.ok.inj (h1.symm.trans h2))

end Nappy.Props
