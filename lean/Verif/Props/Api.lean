import Verif.ApiLemmas
import Verif.CollectCheck
import Verif.Props.Convert
import Verif.Props.Output
import Verif.Props.Read
import Verif.Props.Utils

/-! Property C54: the options of the conversion functions. -/

namespace Nappy.Props

open Nappy Spec

variable {F : Type}

/-! ### Examples -/

/-- A NetCDF file with two variables on one axis, and one on another axis. -/
def exNC : NCFile Int :=
  { vars := [Ex.dataVar "temp" [exTime] none none, Ex.dataVar "wind" [exTime] none none,
      Ex.dataVar "depth" [exAxis "level" [1, 2, 3]] none none],
    attrs := Ex.globals }

def exApi : ApiEnv Int :=
  { openNC := fun _ => .ok exNC, collect := Ex.collectEnv, showTree := fun _ => [], cfg := exConfig }

def exArgs : NCToNAArgs Int :=
  { ncFile := "a.nc".toList, naFile := none, varIds := none, naItems := [], onlyNames := false, excludeVars := [],
    requestedFFI := none,
    opts := { delimiter := "    ".toList, floatFormat := "%.10g".toList, annotation := false, sizeLimit := none,
              noHeader := false } }

/-! ### From NetCDF -/

/-- C54 for `convertNCToNA`. Every file is written with the delimiter, the float format and the annotation that were
given, and without a header exactly if this was asked for. What is missing: with a size limit, `no_header` is
ignored for the files that are split (`C54_split_fails`). -/
theorem C54_nc_partial (emit : WriteCall F → Res Unit) (env : ApiEnv F) (a : NCToNAArgs F) (c : WriteCall F)
    (hc : c ∈ (convertNCToNA emit env a).calls) :
    c.delimiter = a.opts.delimiter ∧ c.floatFormat = a.opts.floatFormat ∧ c.annotation = a.opts.annotation ∧
      (a.opts.sizeLimit = none → c.noHeader = a.opts.noHeader) := by
  obtain ⟨⟨h1, h2, h3⟩, h4⟩ := convertNCToNA_uses emit env a c hc
  exact ⟨h1, h2, h3, fun hs => h4.elim id fun h => absurd hs h.2⟩

/-- C54. What `convertNCToNA` returns are the names of the files written, in order. A single file has the name given;
several have numbers before the extension. Without a name, the name is made from that of the NetCDF file. -/
theorem C54_nc_names (emit : WriteCall F → Res Unit) (env : ApiEnv F) (a : NCToNAArgs F) (names : List Str)
    (h : (convertNCToNA emit env a).result = .ok names) (hs : a.opts.sizeLimit = none) (ho : a.onlyNames = false) :
    names = (convertNCToNA emit env a).calls.map WriteCall.name ∧
    (∀ f, a.naFile = some f → names.length = 1 → names = [f]) ∧
    (∀ base ext, a.naFile = some (base ++ '.' :: ext) → '.' ∉ ext → names.length ≠ 1 →
      names = (List.range names.length).map (fun i => base ++ '_' :: natStr (i + 1) ++ '.' :: ext)) ∧
    (a.naFile = none → names.length = 1 → names = [a.ncFile ++ ".na".toList]) := by
  unfold convertNCToNA at h ⊢
  dsimp only at h ⊢
  cases hd : ncDicts env a with
  | error x => rw [hd] at h; cases h
  | ok ds =>
    rw [hd] at h
    simp only [ho, Bool.false_eq_true, if_false] at h ⊢
    cases hw : writeNAFiles emit env.cfg a.naItems a.opts (some a.ncFile)
        (some (a.naFile.getD (getFileNameWithNewExtension a.ncFile "na".toList))) ds with
    | mk r x =>
      rw [hw] at h
      cases x with
      | some x => cases h
      | none =>
        have hn : r.fileList = names := Except.ok.inj h
        obtain ⟨h1, h2, h3⟩ := C34_once_partial emit env.cfg a.naItems a.opts _ _ ds r hw hs
        rw [hn] at h1 h2 h3
        refine ⟨h1, ?_, ?_, ?_⟩
        · intro f hf hl
          rw [← h2, hl, hf] at h3
          exact (Except.ok.inj h3).symm
        · intro base ext hf hdot hl
          rw [← h2, hf, Option.getD_some, C36_numbered _ _ _ _ hdot hl] at h3
          exact (Except.ok.inj h3).symm
        · intro hf hl
          rw [← h2, hl, hf, Option.getD_none, C31_exact] at h3
          have := (Except.ok.inj h3).symm
          rw [this]; simp

/-- C54. With `only_return_file_names` nothing is written, and the names are those of a conversion that writes. -/
theorem C54_only_names (emit : WriteCall F → Res Unit) (env : ApiEnv F) (a : NCToNAArgs F) (names : List Str)
    (ho : a.onlyNames = false) :
    (convertNCToNA emit env { a with onlyNames := true }).calls = [] ∧
    (a.opts.sizeLimit = none → (convertNCToNA emit env a).result = .ok names →
      (convertNCToNA emit env { a with onlyNames := true }).result = .ok names) := by
  have hds : ncDicts env { a with onlyNames := true } = ncDicts env a := rfl
  unfold convertNCToNA
  dsimp only
  rw [hds]
  cases hd : ncDicts env a with
  | error x => exact ⟨rfl, fun _ h => h⟩
  | ok ds =>
    simp only [ho, Bool.false_eq_true, if_false, if_true, true_and]
    intro hs h
    cases hw : writeNAFiles emit env.cfg a.naItems a.opts (some a.ncFile)
        (some (a.naFile.getD (getFileNameWithNewExtension a.ncFile "na".toList))) ds with
    | mk r x =>
      rw [hw] at h
      cases x with
      | some x => cases h
      | none =>
        obtain ⟨-, -, h3⟩ := C34_once_partial emit env.cfg a.naItems a.opts _ _ ds r hw hs
        rw [← Except.ok.inj h]
        exact h3

/-- Two files are written for the example, and the options can be seen. -/
example :
    let run := convertNCToNA (fun _ => .ok ()) exApi
      { exArgs with naFile := some "b.na".toList, opts := { exArgs.opts with delimiter := [';'], noHeader := true } }
    run.result = .ok ["b_1.na".toList, "b_2.na".toList] ∧
    run.calls.map WriteCall.delimiter = [[';'], [';']] ∧ run.calls.map WriteCall.noHeader = [true, true] := by
  decide +kernel

/-- C54 does not hold for `no_header` with `size_limit`: files that are split always have a header. -/
theorem C54_split_fails :
    (∀ (emit : WriteCall F → Res Unit) (d : Dict (PyVal F)) (name : Str) (opts : WriteOpts) (limit : Int),
      ∀ c ∈ (writeSubsets emit d name opts limit).1.written, c.noHeader = false) ∧
    ((convertNCToNA (fun _ => .ok ()) exApi
      { exArgs with varIds := some ["temp".toList],
                    opts := { exArgs.opts with noHeader := true, sizeLimit := some 3 } }).calls.map
      fun c => (c.name, c.noHeader)) = [("a.nc-001.na".toList, false), ("a.nc-002.na".toList, false)] :=
  ⟨fun emit d name opts limit c hc => (writeSubsets_uses emit d name opts limit c hc).2, by decide +kernel⟩

/-- C54 for `convertNCToCSV` without a name for the output: the files are written with commas. -/
theorem C54_csv (emit : WriteCall F → Res Unit) (env : ApiEnv F) (a : NCToNAArgs F) (c : WriteCall F)
    (hc : c ∈ (convertNCToCSV emit env none a).calls) :
    c.delimiter = ",".toList ∧ c.floatFormat = a.opts.floatFormat ∧ c.annotation = a.opts.annotation ∧
      (a.opts.sizeLimit = none → c.noHeader = a.opts.noHeader) :=
  C54_nc_partial emit env _ c hc

/-- C54 does not hold for `convertNCToCSV` with a name for the output: name and delimiter are not passed on, and the
files written are those of `convertNCToNA`. -/
theorem C54_csv_fails :
    (∀ (emit : WriteCall F → Res Unit) (env : ApiEnv F) (csv : Str) (a : NCToNAArgs F),
      convertNCToCSV emit env (some csv) a = convertNCToNA emit env a) ∧
    ((convertNCToCSV (fun _ => .ok ()) exApi (some "b.csv".toList) exArgs).calls.map
      fun c => (c.name, c.delimiter))
      = [("a.nc_1.na".toList, "    ".toList), ("a.nc_2.na".toList, "    ".toList)] :=
  ⟨fun _ _ _ _ => rfl, by decide +kernel⟩

/-- C54 does not hold for the functions that take variables: they raise, whatever is given. -/
theorem C54_objects_fails (vars : List (XVar F)) (globals : Dict (PyVal F)) (f : Str) :
    (convertXarrayObjectsToNA vars globals f).result = .error .import ∧
    (convertXarrayObjectsToCSV vars globals f).result = .error .import ∧
    (convertXarrayObjectsToNA vars globals f).calls = [] ∧
    (convertXarrayObjectsToCSV vars globals f).calls = [] := ⟨rfl, rfl, rfl, rfl⟩

/-! ### From NASA Ames -/

/-- C54 for `convertNAToCSV`. A file that can be read and is well-formed gives one CSV file, with the name given or one
made from that of the input. The file has a whole header, and its data lines, split at commas, are the values of the
file. What is missing: `no_header` is ignored (`C54_na_csv_fails`). -/
theorem C54_na_csv_partial (cd : Codec F) (table : String → Str) (naFile text : Str) (csvFile : Option Str)
    (noHeader : Bool) {o o' : Obj F} (ho : openNA cd 0 text = .ok o) (hr : o.readData cd text = .ok o')
    {count : F → Option Int} {incr : F → Option F} (hw : WellFormed count incr o')
    (hp : PlainRows (cellRows cd.ffmt o'))
    (hok : (o'.write { cd := cd, delim := [','], ann := none } false).2.err = none) :
    ∃ name out h csv, convertNAToCSV cd table naFile text csvFile false noHeader = .ok (name, out) ∧
      (csvFile = some name ∨ (csvFile = none ∧ name = naFile ++ ".csv".toList)) ∧
      out.err = none ∧ CompleteHeader { cd := cd, delim := [','], ann := none } o.FFI h ∧
      out.text = asLines o'.ignored ++ h ++ asLines csv ∧ csv.map splitComma = cellRows cd.ffmt o' := by
  have hF : o'.FFI = o.FFI := by
    have := C24_header_kept cd text o o' hr
    cases o <;> cases o' <;> first | exact False.elim this | (unfold SameHeader at this; rw [this]; rfl)
  obtain ⟨cls, hcls⟩ : ∃ cls, getNAFileClass o.FFI = .ok cls := by
    unfold openNA at ho
    obtain ⟨ffi, hf, ho⟩ := ok_of_bind ho
    obtain ⟨cls, hcls, ho⟩ := ok_of_bind ho
    obtain ⟨ign, more, hcm⟩ := readHeaderOf_common ho
    exact ⟨cls, by rw [show o.FFI = ffi from readCommon_ffi hcm hf]; exact hcls⟩
  obtain ⟨h, csv, h1, h2, h3⟩ := C21_file (env := { cd := cd, delim := [','], ann := none }) rfl hw hp hok
  refine ⟨csvFile.getD (getFileNameWithNewExtension naFile "csv".toList), _, h, csv, ?_, ?_, hok, ?_, h2, h3⟩
  · unfold convertNAToCSV
    rw [ho, ok_bind, hr, ok_bind, hF, hcls, ok_bind]
    rfl
  · cases csvFile with
    | none => exact .inr ⟨rfl, by rw [Option.getD_none, C31_exact]; simp⟩
    | some f => exact .inl rfl
  · rw [← hF]; exact h1

/-- C54 for annotations in `convertNAToCSV`: they are switched on by the option, and nothing else changes. -/
theorem C54_na_csv_annotation (cd : Codec F) (table : String → Str) (naFile text : Str) (csvFile : Option Str)
    (noHeader : Bool) {o o' : Obj F} (ho : openNA cd 0 text = .ok o) (hr : o.readData cd text = .ok o') (name : Str)
    (out : Out) (h : convertNAToCSV cd table naFile text csvFile true noHeader = .ok (name, out)) :
    out = (o'.write { cd := cd, delim := [','], ann := some table } false).2 ∧
      ∃ out', convertNAToCSV cd table naFile text csvFile false noHeader = .ok (name, out') ∧
        out' = (o'.write { cd := cd, delim := [','], ann := none } false).2 := by
  unfold convertNAToCSV at h ⊢
  rw [ho, ok_bind, hr, ok_bind] at h ⊢
  obtain ⟨cls, hcls, h⟩ := ok_of_bind h
  have := Prod.mk.inj (Except.ok.inj h)
  refine ⟨this.2.symm, _, ?_, rfl⟩
  rw [hcls, ok_bind, ← this.1]
  rfl

/-- A file read and written again with commas. -/
example :
    let text := exFile ["1 2", "3 4"]
    ∃ o o', openNA intCodec 0 text = .ok o ∧ o.readData intCodec text = .ok o' ∧ WellFormed some some o' ∧
      PlainRows (cellRows intCodec.ffmt o') ∧ cellRows intCodec.ffmt o' = [["1".toList, "2".toList], ["3".toList, "4".toList]] ∧
      (o'.write { cd := intCodec, delim := [','], ann := none } false).2.err = none := by
  refine ⟨.o1001 exRec, .o1001 { exRec with X := [1, 3], V := [[2, 4]] }, ?_, ?_, ?_, by decide +kernel,
    by decide +kernel, by decide +kernel⟩
  · have : (readHeader1001 intCodec 0 (fileLines (exFile ["1 2", "3 4"]))).map Prod.fst = .ok exRec := by
      decide +kernel
    have h2 : readFFI (exFile ["1 2", "3 4"]) 0 = .ok 1001 := by decide +kernel
    have h3 : getNAFileClass 1001 = .ok 1001 := by decide
    unfold openNA
    rw [h2]; simp only [ok_bind]; rw [h3]
    simp only [ok_bind, readHeaderOf, if_true]
    cases h : readHeader1001 intCodec 0 (fileLines (exFile ["1 2", "3 4"])) with
    | error e => rw [h] at this; cases this
    | ok r => rw [h] at this; injection this with this; simp [this]
  · have : readData1001 intCodec (exFile ["1 2", "3 4"]) exRec = .ok { exRec with X := [1, 3], V := [[2, 4]] } := by
      decide +kernel
    show (readData1001 _ _ _ >>= fun r => Except.ok (Obj.o1001 r)) = _
    rw [this]; rfl
  · exact { common := by constructor <;> decide, ffi := rfl, niv := rfl, dx := rfl, xname := rfl, xnames := by decide,
            vars := by constructor <;> decide, com := by constructor <;> decide, data := by unfold Rect; decide }

/-- C54 does not hold for `no_header` in `convertNAToCSV`: it makes no difference, and the header is written. -/
theorem C54_na_csv_fails :
    (∀ (cd : Codec F) (table : String → Str) (naFile text : Str) (csvFile : Option Str) (annotation : Bool),
      convertNAToCSV cd table naFile text csvFile annotation true
        = convertNAToCSV cd table naFile text csvFile annotation false) ∧
    (convertNAToCSV intCodec (fun _ => []) "a.na".toList (exFile ["1 2"]) none false true).toOption.map
      (fun p => (p.1, (readlines p.2.text).take 2)) = some ("a.na.csv".toList, ["15,1001\n".toList, "Lee\n".toList]) :=
  ⟨fun _ _ _ _ _ _ => rfl, by decide +kernel⟩

/-- C54 does not hold for `mode` in `convertNAToNC`: it makes no difference. -/
theorem C54_mode_fails (cd : Codec F) (env : ToXEnv F) (typed : List Str) (naFile text : Str) (a : NAToNCArgs F)
    (m : Str) : convertNAToNC cd env typed naFile text { a with mode := m } = convertNAToNC cd env typed naFile text a :=
  rfl

/-- C102 does not hold: `writeNADictToNC` raises for every dictionary and file. -/
theorem C102_fails (d : Dict (PyVal F)) (ncFile : Str) : writeNADictToNC d ncFile = .error .attribute := rfl

end Nappy.Props
