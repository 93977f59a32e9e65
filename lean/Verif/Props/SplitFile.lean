import Verif.SplitFileLemmas
import Verif.Props.ConvertFile

/-! Properties C33 and C75 for long data: the files that a conversion with a size limit writes, read back. -/

namespace Nappy.Props

open Nappy Spec

variable {F : Type}

/-- C33, read back. With a limit of at least one record per file, any well-formed 1001 dictionary goes to files that
are all written without an error and can all be read. Together they hold every value once and in order. -/
theorem C33_files (fmt : Str → Codec F) (table : String → Str) {d : Dict (PyVal F)} {r : NA1001 F} (name : Str)
    (opts : WriteOpts) (n : Nat) {q : F → F} (hcd : (fmt opts.floatFormat).Lawful q) (hdel : WsDelim opts.delimiter)
    (hann : opts.annotation = false) (hd : Describes d (.o1001 r)) (hw : Wf1001 r) (hkeys : (d.map Prod.fst).Nodup)
    (hne : r.V ≠ []) (hn : 1 ≤ n) :
    ∃ s os, writeSubsets (emitFile fmt table) d name opts n = (s, none) ∧
      s.names = s.written.flatMap (fun c => [c.name, c.name]) ∧ (s.written.map WriteCall.name).Nodup ∧
      List.Forall₂ (fun c o => ∃ out, fileOf fmt table c = .ok out ∧ out.err = none ∧
        readFile (fmt opts.floatFormat) 0 out.text = .ok o) s.written os ∧
      PartsOf q n (.o1001 r) os := by
  have gX := hd ("X", pyNums r.X) (by simp [Obj.attrs]) (by simp)
  have gV := hd ("V", pyCols r.V) (by simp [Obj.attrs]) (by simp)
  have gV' : dictGet? d "V" = some (.list ((r.V.map (fun col => col.map PyVal.num)).map .list)) := by
    rw [show dictGet? d "V" = some (pyCols r.V) from gV]
    simp [pyCols, pyNums, Function.comp_def]
  obtain ⟨s, h1, h2, h3⟩ := writeSubsets_files (fun _ => .ok ()) d name opts n (r.X.map .num)
    (r.V.map (fun col => col.map .num)) hkeys gX gV' (by simpa using hne)
    (by
      intro c hc
      obtain ⟨col, hcol, rfl⟩ := List.mem_map.1 hc
      rw [List.length_map, List.length_map, hw.data.2 col hcol]) hn (fun _ => rfl)
  rw [List.length_map] at h2
  generalize he : splitEnv d name opts n (r.V.map (fun col => col.map PyVal.num)) r.X.length = e at h2
  have hdict : e.dict = d := by rw [← he]; rfl
  have hlen : e.len = r.X.length := by rw [← he]; rfl
  have hparts := parts_files (e := e) (hdict ▸ hd) hw hlen n r.X.length 0 0
  rw [← h2] at hparts
  have hopts : ∀ c ∈ s.written, c.delimiter = opts.delimiter ∧ c.floatFormat = opts.floatFormat ∧ c.noHeader = false ∧
      c.annotation = opts.annotation := by
    intro c hc
    obtain ⟨i, hi⟩ := List.mem_iff_getElem?.1 hc
    rw [h2] at hi
    obtain ⟨b, rfl⟩ := blockFiles_get _ _ _ _ _ _ _ _ _ hi
    rw [← he]
    exact ⟨rfl, rfl, rfl, rfl⟩
  have hfile : ∀ c p, c ∈ s.written → Describes c.dict (.o1001 p) ∧ Wf1001 p → ∃ k out,
      fileOf fmt table c = .ok out ∧ out.err = none ∧
        readFile (fmt opts.floatFormat) 0 out.text = .ok (readForm q k (.o1001 p)) := by
    intro c p hc hp
    obtain ⟨o1, o2, o3, o4⟩ := hopts c hc
    have hf : Faithful (fmt opts.floatFormat) q (.o1001 p) := hp.2
    obtain ⟨dd, g1, _⟩ := C72_written { cd := fmt opts.floatFormat, delim := opts.delimiter, ann := none } false
      hf hp.1 (fun r e => by cases e)
    obtain ⟨g2, k, g3⟩ := readFile_written (env := { cd := fmt opts.floatFormat, delim := opts.delimiter, ann := none })
      hcd rfl hdel hf
    refine ⟨k, _, ?_, g2, g3⟩
    unfold fileOf
    rw [o1, o2, o3, o4, hann]
    simp only [Bool.false_eq_true, if_false, g1, ok_bind]
  have hall : ∃ os, List.Forall₂ (fun c o => ∃ out, fileOf fmt table c = .ok out ∧ out.err = none ∧
        readFile (fmt opts.floatFormat) 0 out.text = .ok o) s.written os ∧
      List.Forall₂ (fun p o => ∃ k, o = readForm q k (.o1001 p)) (parts1001 r n e.nvol r.X.length 0 0) os := by
    revert hparts
    generalize parts1001 r n e.nvol r.X.length 0 0 = ps
    intro hparts
    clear h1 h2 h3 hopts
    generalize s.written = l at hparts hfile
    induction hparts with
    | nil => exact ⟨[], .nil, .nil⟩
    | cons hp _ ih =>
      obtain ⟨os, i1, i2⟩ := ih (fun c p hc => hfile c p (List.mem_cons_of_mem _ hc))
      obtain ⟨k, out, g1, g2, g3⟩ := hfile _ _ List.mem_cons_self hp
      exact ⟨_ :: os, .cons ⟨out, g1, g2, g3⟩ i1, .cons ⟨k, rfl⟩ i2⟩
  obtain ⟨os, k1, k2⟩ := hall
  refine ⟨s, os, writeSubsets_emit _ h1 ?_, h3, ?_, k1, ?_⟩
  · intro c hc
    obtain ⟨i, hi, rfl⟩ := List.getElem_of_mem hc
    obtain ⟨out, g1, g2, _⟩ := (List.forall₂_iff_get.1 k1).2 i hi (by rw [← k1.length_eq]; exact hi)
    simp only [List.get_eq_getElem] at g1
    unfold emitFile
    simp only [g1, ok_bind, g2]
  · rw [h2]; exact blockFiles_names _ _ _ _ _ _ _
  · refine parts_of hw q hn k2 ?_
    have hcut := cuts_spec r.X n hn r.X.length 0 (by omega) (by omega)
    rw [List.drop_zero] at hcut
    rw [← k2.length_eq, ← List.length_map (f := NA1001.X), parts_x, cutInto_length hn hcut, ← he]
    rfl

section
variable {env : CollectEnv F} {globals : Dict (PyVal F)} {a : Analysis F} {d : Dict (PyVal F)}
  {requested : Option Int} {vars : List (XVar F)}

/-- The object that a prepared dictionary describes, the well-formed one of the same file, and what it holds. -/
theorem prepared_obj (cd : Codec F) (q : F → F)
    (hcount : MarksRead env.x cd q a)
    {cfg : WriteConfig F} {items : Dict (PyVal F)} {delimiter : Str} {d' : Dict (PyVal F)}
    (ha : analyse env.x requested vars = .ok (some a)) (h : collectDict env globals a = .ok d) (hkept : Kept a d)
    (hdata : ∀ v ∈ a.main ++ a.aux, DataFits v) (hfull : ∀ v ∈ a.main, ∀ ax ∈ v.axes, ax.values ≠ [])
    (hs : SourceFits d) (hk : TopLineKept d a.ffi)
    (hp : prepareDict cfg items delimiter d = .ok d') (hf : HeaderFits d') :
    ∃ o o' : Obj F, (∀ r, o ≠ .o2160 r) ∧ Describes d' o ∧ SameFile o o' ∧ Faithful cd q o' ∧
      Holds env.x id a d' o' := by
  obtain ⟨d2, h2, hs2⟩ := collectDict_more h
  have hsame : ∀ k, k ∉ textKeys → dictGet? d2 k = dictGet? d k := by
    intro k hk
    refine hs2.1 k (fun hm => hk ?_)
    simp only [headKeys, textKeys, List.mem_cons, List.not_mem_nil, or_false] at hm ⊢
    tauto
  have hk2 : TopLineKept d2 a.ffi :=
    ⟨by rw [hsame _ (by decide)]; exact hk.1, by rw [hsame _ (by decide)]; exact hk.2⟩
  have hkept2 : Kept a d2 := by
    unfold Kept
    rw [hsame "NXDEF" (by decide)]
    exact hkept
  obtain ⟨o, o', h6, ho, hsf, hw, hh⟩ :=
    collected_obj cd q hcount ha h2 hkept2 hdata hfull (supplied_texts hs2 hs) hk2
  obtain ⟨t, ht, hsf', hw', hn, hcm, hhd, hna⟩ := retexted h6 ho hsf hw
    (fun k hk => (prepareDict_frame hp k hk).trans (hsame k hk).symm) hf
  exact ⟨setTexts t o, setTexts t o', fun r e => h6 r ((setTexts_same t o).2.2.2.2.2.2 r e), ht, hsf', hw',
    holds_setTexts t hh hn hcm hhd hna hw'⟩

/-- The object of a 1001 pass, and what the test for the size limit finds. -/
theorem object1001 {cd : Codec F} {q : F → F} {d' : Dict (PyVal F)} {o o' : Obj F} (ho : Describes d' o)
    (hsf : SameFile o o') (hw : Faithful cd q o') (hh : Holds env.x id a d' o') (hffi : a.ffi = 1001) :
    ∃ r, o = .o1001 r ∧ o' = .o1001 r ∧ r.V = a.main.map (fun v => leaves (written env.x v)) ∧ r.V ≠ [] ∧
      (∃ v0 ax0, a.main.head? = some v0 ∧ v0.axes.head? = some ax0 ∧ r.X = ax0.values) ∧
      ∀ n, mustSplit d' (some n) = .ok (if (pointCount a : Int) > n then some n else none) := by
  obtain ⟨r, rfl⟩ : ∃ r, o' = .o1001 r := by
    have h1 := hh.format
    rw [hffi] at h1
    have h2 := faithful_class hw
    rw [h1] at h2
    cases o' with
    | o1001 r => exact ⟨r, rfl⟩
    | _ => simp [Obj.classFFIs] at h2
  obtain rfl : o = .o1001 r := by
    rcases hsf with e | ⟨_, _, _, e, _⟩
    · exact e.symm
    · cases e
  have hw' : Wf1001 r := hw
  have hV : r.V = a.main.map (fun v => leaves (written env.x v)) := by simpa [mainValues] using hh.values
  obtain ⟨v0, ax0, hv0, hax0, hX⟩ := hh.axis (by rw [hffi]; decide)
  rw [List.map_id] at hX
  have hX' : r.X = ax0.values := hX
  obtain ⟨vt, hmain⟩ : ∃ vt, a.main = v0 :: vt := by
    cases hm : a.main with
    | nil => rw [hm] at hv0; cases hv0
    | cons x t => rw [hm] at hv0; injection hv0 with hv0; exact ⟨t, by rw [hv0]⟩
  obtain ⟨axt, haxes⟩ : ∃ axt, v0.axes = ax0 :: axt := by
    cases hm : v0.axes with
    | nil => rw [hm] at hax0; cases hax0
    | cons x t => rw [hm] at hax0; injection hax0 with hax0; exact ⟨t, by rw [hax0]⟩
  have hpts : pointCount a = r.X.length := by
    simp only [pointCount, hmain, haxes, hX']
  have hne : r.V ≠ [] := by rw [hV, hmain]; simp
  refine ⟨r, rfl, rfl, hV, hne, ⟨v0, ax0, hv0, hax0, hX'⟩, fun n => ?_⟩
  have gF := ho ("FFI", .int r.c.FFI) (by simp [Obj.attrs, commonAttrs]) (by simp)
  have gV := ho ("V", pyCols r.V) (by simp [Obj.attrs]) (by simp)
  simp only at gF gV
  rw [hw'.ffi] at gF
  unfold mustSplit
  simp only [dictGet_of gF, dictGet_of gV, ok_bind]
  obtain ⟨c0, ct, hc⟩ := List.exists_cons_of_ne_nil hne
  have hl : c0.length = r.X.length := hw'.data.2 c0 (by rw [hc]; simp)
  rw [hc, hpts]
  simp only [pyCols, List.map_cons, PyVal.item, idx, List.getElem?_cons_zero, ok_bind, pyNums, PyVal.len,
    List.length_map, hl]

/-- C75 for one pass of 1001 data with a size limit: the parts are written and hold the variables together. -/
theorem C75_parts (fmt : Str → Codec F) (table : String → Str) (name : Str) (opts : WriteOpts) (n : Nat) {q : F → F}
    (hcd : (fmt opts.floatFormat).Lawful q) (hdel : WsDelim opts.delimiter) (hann : opts.annotation = false)
    (hn : 1 ≤ n) (hsz : opts.sizeLimit = some (n : Int)) (hlong : IsLong opts.sizeLimit a)
    {cfg : WriteConfig F} {items : Dict (PyVal F)} {delimiter : Str} {d' : Dict (PyVal F)}
    (ha : analyse env.x requested vars = .ok (some a)) (h : collectDict env globals a = .ok d)
    (hdata : ∀ v ∈ a.main ++ a.aux, DataFits v) (hfull : ∀ v ∈ a.main, ∀ ax ∈ v.axes, ax.values ≠ [])
    (hs : SourceFits d) (hk : TopLineKept d a.ffi)
    (hp : prepareDict cfg items delimiter d = .ok d') (hf : HeaderFits d') :
    ∃ names calls os, writeOne (emitFile fmt table) opts name d' = (names, calls, none) ∧
      names = calls.flatMap (fun c => [c.name, c.name]) ∧ (calls.map WriteCall.name).Nodup ∧
      List.Forall₂ (fun c o => ∃ out, fileOf fmt table c = .ok out ∧ out.err = none ∧
        readFile (fmt opts.floatFormat) 0 out.text = .ok o) calls os ∧
      HoldsParts env.x q a d' n os := by
  have hffi := hlong.1
  obtain ⟨o, o', _, ho, hsf, hw, hh⟩ := prepared_obj (fmt opts.floatFormat) q
    (fun e => by rw [hffi] at e; rcases e with e | e <;> cases e) ha h (.inl hffi) hdata hfull hs hk hp hf
  obtain ⟨r, rfl, rfl, hV, hne, ⟨v0, ax0, hv0, hax0, hX⟩, hsplit⟩ := object1001 ho hsf hw hh hffi
  have hw' : Wf1001 r := hw
  obtain ⟨s, os, w1, w2, w3, w4, w5⟩ := C33_files fmt table name opts n hcd hdel hann ho hw'
    (keys_prepareDict hp (keys_collectDict h)) hne hn
  have hlt : (n : Int) < pointCount a := by
    obtain ⟨m, e1, e2⟩ := hlong.2
    rw [hsz] at e1
    injection e1 with e1
    omega
  have hsplit := hsplit n
  rw [if_pos (by omega)] at hsplit
  refine ⟨s.names, s.written, os, ?_, w2, w3, w4, ?_⟩
  · unfold writeOne
    rw [hsz, hsplit]
    simp only [w1]
  · refine ⟨fun p hp => (w5.format p hp).trans (by rw [← hh.format]), ⟨v0, ax0, hv0, hax0, ?_⟩, ?_, ?_, ?_, ?_, ?_,
      w5.number⟩
    · have := w5.axis
      rwa [show markValues (Obj.o1001 r) = ax0.values from hX] at this
    · intro j v hj
      exact w5.values j (leaves (written env.x v)) (by
        show r.V[j]? = _
        rw [hV, List.getElem?_map, hj]
        rfl)
    · intro p hp
      rw [w5.count p hp]
      show r.V.length = _
      rw [hV, List.length_map]
    · intro p hp
      rw [w5.vars p hp]; exact hh.missing
    · intro p hp
      rw [w5.vars p hp]; exact hh.scale
    · intro p hp
      rw [w5.vars p hp]; exact hh.names

/-- A pass that is not long is written as a whole. -/
theorem short_whole (emit : WriteCall F → Res Unit) (opts : WriteOpts) (name : Str) {cd : Codec F} {q : F → F}
    {d' : Dict (PyVal F)} {o o' : Obj F} (ho : Describes d' o) (hsf : SameFile o o') (hw : Faithful cd q o')
    (hh : Holds env.x id a d' o') (hshort : ¬ IsLong opts.sizeLimit a) (hemit : emit (wholeCall opts name d') = .ok ()) :
    writeOne emit opts name d' = ([name], [wholeCall opts name d'], none) := by
  have hsplit : mustSplit d' opts.sizeLimit = .ok none := by
    unfold mustSplit
    cases hsz : opts.sizeLimit with
    | none => rfl
    | some n =>
      have gF : dictGet? d' "FFI" = some (.int a.ffi) := by
        have e : o'.FFI = o.FFI := congrArg (fun c => c.FFI) (sameFile_parts hsf).1
        rw [← hh.format, e]
        exact ho ("FFI", .int o.FFI) (by cases o <;> simp [Obj.attrs, commonAttrs, Obj.FFI, Obj.common, attrs2110])
          (by simp)
      simp only [dictGet_of gF, ok_bind]
      by_cases hffi : a.ffi = 1001
      · obtain ⟨r, -, -, -, -, -, hsplit⟩ := object1001 ho hsf hw hh hffi
        have hsplit := hsplit n
        unfold mustSplit at hsplit
        simp only [dictGet_of gF, ok_bind] at hsplit
        rw [hsplit, if_neg]
        intro hgt
        exact hshort ⟨hffi, n, hsz, hgt⟩
      · split
        · rename_i he
          injection he with he
          exact absurd he hffi
        · rfl
  unfold writeOne
  rw [hsplit]
  have h2' : emit { name := name, dict := d', delimiter := opts.delimiter, floatFormat := opts.floatFormat,
                    noHeader := opts.noHeader, annotation := opts.annotation } = .ok () := hemit
  simp only [h2']
  rfl

end

/-- C75 with any size limit. A call of `convertNCToNA` writes the files of each pass, one after the other, and returns
the names of the files it wrote. The files of each pass hold its variables: one file holds everything or, for 1001 data
with more records than the limit, the files hold the records in blocks. -/
theorem C75_limited (fmt : Str → Codec F) (table : String → Str) (env : ApiEnv F) (args : NCToNAArgs F) {q : F → F}
    (hcd : (fmt args.opts.floatFormat).Lawful q) (hdel : WsDelim args.opts.delimiter)
    (ho : args.opts.annotation = false) (hh : args.opts.noHeader = false)
    (hsz : ∀ n, args.opts.sizeLimit = some n → 1 ≤ n) (hnames : args.onlyNames = false)
    {nc : NCFile F} (hnc : env.openNC args.ncFile = .ok nc) {passes : List (Analysis F)} {ds : List (Dict (PyVal F))}
    (hp : convert env.collect.x env.showTree args.requestedFFI
      (readXarrayFile nc.vars args.varIds args.excludeVars).length
      (readXarrayFile nc.vars args.varIds args.excludeVars) = .ok (some passes))
    (hds : mapRes (collectDict env.collect nc.attrs) passes = .ok ds)
    (hcount : ∀ a ∈ passes, MarksRead env.collect.x (fmt args.opts.floatFormat) q a)
    (hfit : ∀ (i : Nat) a d, passes[i]? = some a → ds[i]? = some d →
      PassFits env args.naItems args.opts.delimiter a d) :
    ∃ (names : List Str) (groups : List (List (WriteCall F))),
      (convertNCToNA (emitFile fmt table) env args).result = .ok names ∧
      (convertNCToNA (emitFile fmt table) env args).calls = groups.flatten ∧ groups.length = passes.length ∧
      (∀ f, f ∈ names ↔ f ∈ (convertNCToNA (emitFile fmt table) env args).calls.map WriteCall.name) ∧
      ∀ (i : Nat) a d g, passes[i]? = some a → ds[i]? = some d → groups[i]? = some g →
        ∃ d', prepareDict env.cfg args.naItems args.opts.delimiter d = .ok d' ∧
          HoldsAll env.collect.x q (fmt args.opts.floatFormat) (fileOf fmt table) args.opts.sizeLimit a d' g := by
  have hlen := mapRes_ok_length _ _ _ hds
  have hdicts : ncDicts env args = .ok ds := by
    unfold ncDicts
    rw [hnc]
    simp only [ok_bind]
    unfold convertDicts
    rw [hp]
    simp only [ok_bind]
    rw [hds]
    rfl
  obtain ⟨names, hn⟩ : ∃ names, constructNAFileNames (some args.ncFile) ds.length
      (some (args.naFile.getD (getFileNameWithNewExtension args.ncFile "na".toList))) = .ok names := by
    unfold constructNAFileNames
    simp only [baseNAFile, ok_bind]
    split <;> exact ⟨_, rfl⟩
  obtain ⟨hnl, hnd⟩ := construct_length hn
  -- one pass
  have hpass : ∀ (i : Nat) a d, passes[i]? = some a → ds[i]? = some d → ∀ name,
      ∃ d' names calls, prepareDict env.cfg args.naItems args.opts.delimiter d = .ok d' ∧
        writeOne (emitFile fmt table) args.opts name d' = (names, calls, none) ∧
        HoldsAll env.collect.x q (fmt args.opts.floatFormat) (fileOf fmt table) args.opts.sizeLimit a d' calls := by
    intro i a d hi hd name
    obtain ⟨k1, k2, k3, k4, k5, d', k6, k7⟩ := hfit i a d hi hd
    obtain ⟨vars', ha⟩ := convert_analysed hp a (List.mem_of_getElem? hi)
    by_cases hlong : IsLong args.opts.sizeLimit a
    · obtain ⟨m, hm, _⟩ := hlong.2
      have h1 := hsz m hm
      obtain ⟨n, rfl⟩ : ∃ n : Nat, m = n := ⟨m.toNat, by omega⟩
      obtain ⟨names, calls, os, w1, _, _, w4, w5⟩ := C75_parts fmt table name args.opts n hcd hdel ho (by omega) hm hlong
        ha (mapRes_get hds hi hd) k2 k3 k4 k5 k6 k7
      exact ⟨d', names, calls, k6, w1, os, w4, .inl ⟨hlong, n, hm, w5⟩⟩
    · obtain ⟨dd, out, o, e1, e2, e3, e4⟩ := C75_pass
        { cd := fmt args.opts.floatFormat, delim := args.opts.delimiter, ann := none } hcd rfl hdel
        (hcount a (List.mem_of_getElem? hi)) ha (mapRes_get hds hi hd) k1 k2 k3 k4 k5 k6 k7
      obtain ⟨o', o'', _, g1, g2, g3, g4⟩ := prepared_obj (fmt args.opts.floatFormat) q (hcount a (List.mem_of_getElem? hi)) ha
        (mapRes_get hds hi hd) k1 k2 k3 k4 k5 k6 k7
      have hfile : fileOf fmt table (wholeCall args.opts name d') = .ok out := by
        unfold fileOf wholeCall
        simp only [ho, hh, e1, ok_bind, Bool.false_eq_true, if_false]
      refine ⟨d', _, _, k6, short_whole _ args.opts name g1 g2 g3 g4 hlong ?_, [o], .cons ⟨out, hfile, e2, e3⟩ .nil,
        .inr ⟨hlong, o, rfl, e4⟩⟩
      unfold emitFile
      simp only [hfile, ok_bind, e2]
  obtain ⟨r', groups, w1, w2, w3⟩ := writeNAFilesGo_groups (emitFile fmt table) env.cfg args.naItems args.opts
    (fun d d' calls => ∀ (i : Nat) a, passes[i]? = some a → ds[i]? = some d →
      HoldsAll env.collect.x q (fmt args.opts.floatFormat) (fileOf fmt table) args.opts.sizeLimit a d' calls)
    (names.zip ds) { fileList := [], written := [], dicts := [] } (by
      intro nd hnd
      obtain ⟨i, hi⟩ := List.mem_iff_getElem?.1 hnd
      rw [List.getElem?_zip_eq_some] at hi
      have hlt := (List.getElem?_eq_some_iff.1 hi.2).1
      obtain ⟨d', ns, calls, e1, e2, _⟩ := hpass i (passes[i]'(by omega)) nd.2 (List.getElem?_eq_getElem _) hi.2 nd.1
      refine ⟨d', ns, calls, e1, e2, fun j a hj hd => ?_⟩
      obtain ⟨d'', ns', calls', f1, f2, f3⟩ := hpass j a nd.2 hj hd nd.1
      have : d'' = d' := Except.ok.inj (f1.symm.trans e1)
      subst this
      rw [e2] at f2
      simp only [Prod.mk.injEq, and_true] at f2
      rw [f2.2]
      exact f3)
  have hwrite : writeNAFiles (emitFile fmt table) env.cfg args.naItems args.opts (some args.ncFile)
      (some (args.naFile.getD (getFileNameWithNewExtension args.ncFile "na".toList))) ds = (r', none) := by
    unfold writeNAFiles
    simp only [hn, w1]
  have hrun : convertNCToNA (emitFile fmt table) env args = { calls := r'.written, result := .ok r'.fileList } := by
    unfold convertNCToNA
    simp only [hdicts, hnames, Bool.false_eq_true, if_false]
    rw [hwrite]
  have hl := w3.length_eq
  rw [List.length_zip] at hl
  rw [hrun]
  refine ⟨r'.fileList, groups, rfl, by rw [w2]; rfl, by omega,
    C34_same_files _ _ _ _ _ _ _ _ hwrite, ?_⟩
  intro i a d g hi hd hg
  obtain ⟨hlt, hgi⟩ := List.getElem?_eq_some_iff.1 hg
  have hlt2 := (List.getElem?_eq_some_iff.1 hd).1
  obtain ⟨d', e1, e2⟩ := (List.forall₂_iff_get.1 w3).2 i (by rw [List.length_zip]; omega) hlt
  simp only [List.get_eq_getElem, List.getElem_zip] at e1 e2
  have hdi : ds[i] = d := (List.getElem?_eq_some_iff.1 hd).2
  rw [hdi] at e1 e2
  rw [hgi] at e2
  exact ⟨d', e1, e2 i a hi hd⟩

/-! ### Concrete cases -/

/-- The hypotheses of `C33_files` are met by the dictionary of a file; with one record per file, too. -/
example : ∃ s os, writeSubsets (emitFile (fun _ => Ex.tensCodec) exTable) (dictOf [] (.o1001 Nappy.Ex.d1001))
      "out.na".toList Ex.sourceArgs.opts (1 : Nat) = (s, none) ∧
    PartsOf (fun x => 10 * (x / 10)) 1 (.o1001 Nappy.Ex.d1001) os := by
  obtain ⟨s, os, h1, _, _, _, h5⟩ := C33_files (fun _ => Ex.tensCodec) exTable (d := dictOf [] (.o1001 Nappy.Ex.d1001))
    "out.na".toList Ex.sourceArgs.opts 1 Ex.tens_lawful (by decide) rfl (dictOf_describes _ _) Nappy.Ex.wf1001 (by decide)
    (by decide) (by decide)
  exact ⟨s, os, h1, h5⟩

/-- At most two records per file. -/
def Ex.limitedArgs : NCToNAArgs Int :=
  { Ex.sourceArgs with opts := { Ex.sourceArgs.opts with sizeLimit := some 2 } }

/-- The hypotheses of `C75_limited` are met by a source with two passes. One of them is long. -/
example : ∃ (passes : List (Analysis Int)) (names : List Str) (groups : List (List (WriteCall Int))),
    (convertNCToNA (emitFile (fun _ => Ex.tensCodec) exTable) Ex.sourceApi Ex.limitedArgs).result = .ok names ∧
    groups.length = 2 ∧ ∃ a ∈ passes, IsLong Ex.limitedArgs.opts.sizeLimit a := by
  obtain ⟨passes, ds, h1, h2, h3, h4, h5⟩ := Ex.run_of (env := Ex.sourceApi) (args := Ex.limitedArgs) (nc := Ex.source)
    (n := 2) (by decide +kernel)
  obtain ⟨names, groups, e1, _, e3, _⟩ := C75_limited (fun _ => Ex.tensCodec) exTable Ex.sourceApi Ex.limitedArgs
    Ex.tens_lawful (by decide) rfl rfl (fun n h => by injection h with h; omega) rfl (nc := Ex.source) rfl h1 h2
    (fun a ha hf => absurd hf (not_or.2 (h4 a ha))) h5
  refine ⟨passes, names, groups, e1, by omega, ?_⟩
  have hlong : (match convert Ex.sourceApi.collect.x Ex.sourceApi.showTree Ex.limitedArgs.requestedFFI
      (readXarrayFile Ex.source.vars Ex.limitedArgs.varIds Ex.limitedArgs.excludeVars).length
      (readXarrayFile Ex.source.vars Ex.limitedArgs.varIds Ex.limitedArgs.excludeVars) with
    | .ok (some l) => l.any (fun a => a.ffi == 1001 && decide (2 < pointCount a))
    | _ => false) = true := by decide +kernel
  rw [h1] at hlong
  simp only [List.any_eq_true, Bool.and_eq_true, beq_iff_eq, decide_eq_true_eq] at hlong
  obtain ⟨a, ha, hf, hc⟩ := hlong
  exact ⟨a, ha, hf, 2, rfl, by omega⟩

end Nappy.Props
