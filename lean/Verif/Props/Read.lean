import Verif.Examples
import Verif.LossLemmas2160
import Verif.RepeatLemmas

/-!
Properties C22-C27: reading the data section. `text` is any text, `o` any object unless a theorem says that
it was made by opening a file.
-/

namespace Nappy.Props

open Nappy Spec

variable {F : Type}

/-! ### C22 -/

/-- C22. `readData` ends on every text and every object: it returns or raises, it does not loop for ever. -/
theorem C22_terminates (cd : Codec F) (text : Str) (o : Obj F) : o.readData cd text ≠ .error .hang :=
  (readData_safe cd text o).1

/-- C22, the reason: every pass of the read loop uses at least one data line or raises, so more than one
pass per data line is never needed, and allowing more makes no difference. For 1001; the other formats
likewise. -/
theorem C22_passes_1001 (cd : Codec F) (nv : Int) (st : List F × List (List F)) (ls : List Str) (k : Nat)
    (hk : ls.length ≤ k) :
    readLoop (step1001 cd nv) k st ls = readLoop (step1001 cd nv) ls.length st ls :=
  readLoop_fuel (consumes_1001 cd nv) k st ls hk

/-- See `C22_passes_1001`. -/
theorem C22_passes_1010 (cd : Codec F) (na nv : Int) (st : Arr1010 F) (ls : List Str) (k : Nat)
    (hk : ls.length ≤ k) :
    readLoop (step1010 cd na nv) k st ls = readLoop (step1010 cd na nv) ls.length st ls :=
  readLoop_fuel (consumes_1010 cd na nv) k st ls hk

/-- See `C22_passes_1001`. -/
theorem C22_passes_1020 (cd : Codec F) (na nv nvpm : Int) (st : Arr1010 F) (ls : List Str) (k : Nat)
    (hk : ls.length ≤ k) :
    readLoop (step1020 cd na nv nvpm) k st ls = readLoop (step1020 cd na nv nvpm) ls.length st ls :=
  readLoop_fuel (consumes_1020 cd na nv nvpm) k st ls hk

/-- See `C22_passes_1001`. -/
theorem C22_passes_2010 (cd : Codec F) (na : Int) (nx : List Int) (st : Arr2010 F) (ls : List Str)
    (k : Nat) (hk : ls.length ≤ k) :
    readLoop (step2010 cd na nx) k st ls = readLoop (step2010 cd na nx) ls.length st ls :=
  readLoop_fuel (consumes_2010 cd na nx) k st ls hk

/-- See `C22_passes_1001`. -/
theorem C22_passes_2110 (cd : Codec F) (na nv : Int) (st : Arr2110 F) (ls : List Str) (k : Nat)
    (hk : ls.length ≤ k) :
    readLoop (step2110 cd na nv) k st ls = readLoop (step2110 cd na nv) ls.length st ls :=
  readLoop_fuel (consumes_2110 cd na nv) k st ls hk

/-- See `C22_passes_1001`. -/
theorem C22_passes_2160 (cd : Codec F) (na nc nv : Int) (st : Arr2160 F) (ls : List Str) (k : Nat)
    (hk : ls.length ≤ k) :
    readLoop (step2160 cd na nc nv) k st ls = readLoop (step2160 cd na nc nv) ls.length st ls :=
  readLoop_fuel (consumes_2160 cd na nc nv) k st ls hk

/-- See `C22_passes_1001`. -/
theorem C22_passes_2310 (cd : Codec F) (na nv : Int) (st : Arr2110 F) (ls : List Str) (k : Nat)
    (hk : ls.length ≤ k) :
    readLoop (step2310 cd na nv) k st ls = readLoop (step2310 cd na nv) ls.length st ls :=
  readLoop_fuel (consumes_2310 cd na nv) k st ls hk

/-! ### C23 -/

/-- C23. A blank line with a line that is not blank somewhere after it makes `readData` raise. -/
theorem C23_gap (cd : Codec F) (text : Str) (o : Obj F) (p q : List Str) (l : Str)
    (hl : dataLines text o = p ++ l :: q) (hb : Blank l) (hq : ∃ x ∈ q, ¬ Blank x) :
    o.readData cd text = .error .exn := by
  refine readData_error cd o ?_
  unfold dataLines at hl
  rw [hl]
  refine checkBlank_gap _ _ _ _ ((strip_eq_nil_iff l).2 hb) ?_
  obtain ⟨x, hx, hn⟩ := hq
  exact ⟨x, hx, fun h => hn ((strip_eq_nil_iff x).1 h)⟩

/-- C23. Blank lines at the end make no difference. -/
theorem C23_trailing (cd : Codec F) (t1 t2 : Str) (o : Obj F) (blanks : List Str)
    (h : dataLines t2 o = dataLines t1 o ++ blanks) (hb : ∀ l ∈ blanks, Blank l) :
    o.readData cd t2 = o.readData cd t1 := by
  refine readData_congr cd o ?_
  unfold dataLines at h
  rw [h]
  exact checkBlank_trailing _ _ _ fun l hl => (strip_eq_nil_iff l).2 (hb l hl)

/-- A 1001 file with one variable and the given data lines. -/
def exFile (data : List String) : Str :=
  asLines ["15 1001".toList, "Lee".toList, "RAL".toList, "GPS".toList, "M".toList, "1 1".toList,
    "2000 1 1 2000 1 2".toList, "0".toList, "Time".toList, "1".toList, "1".toList, "99".toList,
    "O3".toList, "0".toList, "0".toList] ++ asLines (data.map String.toList)

/-- The object `exFile` gives when opened. -/
def exRec : NA1001 Int :=
  { c := { NLHEAD := 15, FFI := 1001, ONAME := "Lee".toList, ORG := "RAL".toList,
           SNAME := "GPS".toList, MNAME := "M".toList, IVOL := 1, NVOL := 1,
           DATE := [2000, 1, 1], RDATE := [2000, 1, 2] },
    NIV := 1, DX := [0], XNAME := ["Time".toList],
    v := { NV := 1, VSCAL := [1], VMISS := [99], VNAME := ["O3".toList] },
    com := { NSCOML := 0, SCOM := [], NNCOML := 0, NCOM := [] }, X := [], V := [] }

example : openNA intCodec 0 (exFile ["1 2"]) = .ok (.o1001 exRec) := by
  have : (readHeader1001 intCodec 0 (fileLines (exFile ["1 2"]))).map Prod.fst = .ok exRec := by
    decide +kernel
  have h2 : readFFI (exFile ["1 2"]) 0 = .ok 1001 := by decide +kernel
  have h3 : getNAFileClass 1001 = .ok 1001 := by decide
  unfold openNA
  rw [h2]; simp only [ok_bind]; rw [h3]
  simp only [ok_bind, readHeaderOf, if_true]
  cases h : readHeader1001 intCodec 0 (fileLines (exFile ["1 2"])) with
  | error e => rw [h] at this; cases this
  | ok r => rw [h] at this; injection this with this; simp [this]

/-- The hypotheses of `C23_gap` and `C23_trailing` are met. -/
example : dataLines (exFile ["1 2", " ", "3 4"]) (.o1001 exRec)
      = ["1 2\n".toList] ++ " \n".toList :: ["3 4\n".toList] ∧
    Blank " \n".toList ∧ ¬ Blank "3 4\n".toList ∧
    dataLines (exFile ["1 2", "3 4", "", "  "]) (.o1001 exRec)
      = dataLines (exFile ["1 2", "3 4"]) (.o1001 exRec) ++ ["\n".toList, "  \n".toList] := by
  decide +kernel

/-! ### C24 -/

/-- A file object that has just been opened. -/
theorem openNA_fresh {cd : Codec F} {k : Nat} {text : Str} {o : Obj F} (h : openNA cd k text = .ok o) :
    FreshObj o := by
  unfold openNA at h
  obtain ⟨ffi, _, h⟩ := ok_of_bind h
  obtain ⟨cls, _, h⟩ := ok_of_bind h
  unfold readHeaderOf at h
  split at h
  · obtain ⟨r, _, h⟩ := ok_of_bind h; injection h with h; subst h; exact trivial
  split at h
  · obtain ⟨r, _, h⟩ := ok_of_bind h; injection h with h; subst h; exact trivial
  split at h
  · obtain ⟨r, _, h⟩ := ok_of_bind h; injection h with h; subst h; exact trivial
  split at h
  · obtain ⟨r, _, h⟩ := ok_of_bind h; injection h with h; subst h; exact trivial
  split at h
  · obtain ⟨r, _, h⟩ := ok_of_bind h; injection h with h; subst h; exact trivial
  split at h
  · obtain ⟨r, _, h⟩ := ok_of_bind h; injection h with h; subst h; exact trivial
  · obtain ⟨⟨r, ign, ls⟩, h1, h⟩ := ok_of_bind h
    injection h with h; subst h
    unfold readHeader2010 at h1
    obtain ⟨⟨c, ig, l1⟩, _, h1⟩ := ok_of_bind h1
    obtain ⟨dx, _, h1⟩ := ok_of_bind h1
    obtain ⟨nx, _, h1⟩ := ok_of_bind h1
    obtain ⟨nxd, _, h1⟩ := ok_of_bind h1
    obtain ⟨xs, _, h1⟩ := ok_of_bind h1
    obtain ⟨v, _, h1⟩ := ok_of_bind h1
    obtain ⟨aux, _, h1⟩ := ok_of_bind h1
    obtain ⟨com, _, h1⟩ := ok_of_bind h1
    injection h1 with h1
    have := (Prod.mk.inj h1).1
    subst this
    rfl

/-- C24. Whatever the data section is, if `readData` succeeds the data have the shape the header gives:
one column per variable and per auxiliary variable, with one entry per mark (NVPM for 1020; an array of the
dimensions NX for 2010, 3010 and 4010; NX[m] entries at mark m for 2110, 2160 and 2310). -/
theorem C24_shape (cd : Codec F) (text : Str) (o o' : Obj F) (hf : FreshObj o)
    (h : o.readData cd text = .ok o') : DataShape o' := by
  cases o with
  | o1001 r => obtain ⟨r', h1, h⟩ := ok_of_bind h; injection h with h; subst h; exact shape_1001 h1
  | o1010 r => obtain ⟨r', h1, h⟩ := ok_of_bind h; injection h with h; subst h; exact shape_1010 h1
  | o1020 r => obtain ⟨r', h1, h⟩ := ok_of_bind h; injection h with h; subst h; exact shape_1020 h1
  | o2010 r => obtain ⟨r', h1, h⟩ := ok_of_bind h; injection h with h; subst h; exact shape_2010 hf h1
  | o2110 r => obtain ⟨r', h1, h⟩ := ok_of_bind h; injection h with h; subst h; exact shape_2110 h1
  | o2160 r => obtain ⟨r', h1, h⟩ := ok_of_bind h; injection h with h; subst h; exact shape_2160 h1
  | o2310 r => obtain ⟨r', h1, h⟩ := ok_of_bind h; injection h with h; subst h; exact shape_2310 h1

/-- C24 for a file that was opened and read. -/
theorem C24_opened (cd : Codec F) (k : Nat) (text : Str) (o o' : Obj F) (ho : openNA cd k text = .ok o)
    (h : o.readData cd text = .ok o') : DataShape o' :=
  C24_shape cd text o o' (openNA_fresh ho) h

/-- C24. `readData` leaves the header fields as they are, so the shape is the one the header of the file
gives. -/
theorem C24_header_kept (cd : Codec F) (text : Str) (o o' : Obj F) (h : o.readData cd text = .ok o') :
    SameHeader o o' := by
  cases o with
  | o1001 r =>
    obtain ⟨r', h1, h⟩ := ok_of_bind h; injection h with h; subst h
    obtain ⟨a, _, h1⟩ := ok_of_bind h1; injection h1 with h1; subst h1; rfl
  | o1010 r =>
    obtain ⟨r', h1, h⟩ := ok_of_bind h; injection h with h; subst h
    obtain ⟨a, _, h1⟩ := ok_of_bind h1; injection h1 with h1; subst h1; rfl
  | o1020 r =>
    obtain ⟨r', h1, h⟩ := ok_of_bind h; injection h with h; subst h
    obtain ⟨a, _, h1⟩ := ok_of_bind h1; injection h1 with h1; subst h1; rfl
  | o2010 r =>
    obtain ⟨r', h1, h⟩ := ok_of_bind h; injection h with h; subst h
    obtain ⟨a, _, h1⟩ := ok_of_bind h1; injection h1 with h1; subst h1; rfl
  | o2110 r =>
    obtain ⟨r', h1, h⟩ := ok_of_bind h; injection h with h; subst h
    obtain ⟨a, h2, h1⟩ := ok_of_bind h1; injection h1 with h1; subst h1
    simp only [SameHeader, dx_2110 h2]
  | o2160 r =>
    obtain ⟨r', h1, h⟩ := ok_of_bind h; injection h with h; subst h
    obtain ⟨a, _, h1⟩ := ok_of_bind h1; injection h1 with h1; subst h1; rfl
  | o2310 r =>
    obtain ⟨r', h1, h⟩ := ok_of_bind h; injection h with h; subst h
    obtain ⟨a, _, h1⟩ := ok_of_bind h1; injection h1 with h1; subst h1; rfl

/-- The hypotheses of `C24_shape` are met by records that run over several lines. -/
example : readData1001 intCodec (exFile ["1", "2", "3 4"]) exRec
    = .ok { exRec with X := [1, 3], V := [[2, 4]] } := by decide +kernel

/-! ### C25 -/

/-- C25, in part. All words of an accepted data section are numbers, and the numbers held by the object
are among them, in the order of the file: nothing is made up, repeated or moved. If the object holds as many
numbers as the data section has words, it holds exactly the numbers of the file. For format 2160 see
`C25_2160_partial`.
What is missing: the code may drop numbers, see `C25_fails`. -/
theorem C25_partial (cd : Codec F) (k : Nat) (text : Str) (o o' : Obj F) (ho : openNA cd k text = .ok o)
    (h : o.readData cd text = .ok o') (hn : NumFormat o') :
    ∃ ws vals, List.Forall₂ LineWords (dataLines text o) ws ∧
      List.Forall₂ (fun w x => cd.float w = .ok x) ws.flatten vals ∧
      (heldValues o').Sublist vals ∧
      ((heldValues o').length = ws.flatten.length → heldValues o' = vals) := by
  obtain ⟨vals, hm, hs⟩ := readData_gives (openNA_fresh ho) h hn
  refine ⟨(dataLines text o).map lineItems, vals, ?_, ?_, hs, ?_⟩
  · generalize dataLines text o = ls
    induction ls with
    | nil => exact .nil
    | cons l ls ih => exact .cons ((lineWords_iff _ _).2 rfl) ih
  · exact mapRes_forall₂ hm
  · intro hl
    refine hs.eq_of_length ?_
    rw [hl, mapRes_ok_length _ _ _ hm]
    rfl

/-- C25 for format 2160, in part. Each line of an accepted data section is read as words, as numbers or as one text,
and what the object holds is among these, in the order of the file: nothing is made up, repeated or moved. If the
object holds as much as has been read, nothing has been dropped. -/
theorem C25_2160_partial (cd : Codec F) (text : Str) (r r' : NA2160 F)
    (h : (Obj.o2160 r).readData cd text = .ok (.o2160 r')) :
    ∃ toks, List.Forall₂ (LineReads cd) (dataLines text (.o2160 r)) toks ∧
      (heldCells r').Sublist toks.flatten ∧
      ((heldCells r').length = toks.flatten.length → heldCells r' = toks.flatten) := by
  obtain ⟨r1, h1, h⟩ := ok_of_bind h
  injection h with h
  injection h with h
  subst h
  obtain ⟨toks, k1, k2⟩ := readData_gives_2160 h1
  exact ⟨toks, k1, k2, k2.eq_of_length⟩

/-- C25 is false of the code: the record starts on the first line, and the number left over on its last line
is dropped although the file is accepted. -/
theorem C25_fails :
    readData1001 intCodec (exFile ["1", "2 3"]) exRec = .ok { exRec with X := [1], V := [[2]] } ∧
    dataLines (exFile ["1", "2 3"]) (Obj.o1001 exRec) = ["1\n".toList, "2 3\n".toList] ∧
    heldValues (.o1001 { exRec with X := [1], V := [[2]] }) = [1, 2] := by
  decide +kernel

/-- The hypotheses of `C25_partial` are met, and no number is lost. -/
example : readData1001 intCodec (exFile ["1", "2", "3 4"]) exRec
      = .ok { exRec with X := [1, 3], V := [[2, 4]] } ∧
    heldValues (.o1001 { exRec with X := [1, 3], V := [[2, 4]] }) = [1, 2, 3, 4] := by
  decide +kernel

/-- The hypothesis of `C25_2160_partial` is met by a file with a text and two marks. -/
example : (let text := ((Obj.o2160 Ex.d2160).write Nappy.Ex.env false).2.text
    match (openNA intCodec 1 text).bind (·.readData intCodec text) with
    | .ok (.o2160 r') => decide (heldCells r' = heldCells Ex.d2160 ∧ (heldCells r').length = 15)
    | _ => false) = true := by decide +kernel

/-! ### C26 -/

/-- C26, in part: for formats 1001, 1010, 1020, 2110 and 2160 further calls of `readData` change nothing.
What is missing: 2010, 3010, 4010 and 2310, for which it is false (`C26_2010`, `C26_2310`). -/
theorem C26_partial (cd : Codec F) (text : Str) (o o' : Obj F) (hk : ResetsAll o)
    (h : o.readData cd text = .ok o') (n : Nat) : readTimes cd text n o' = .ok o' :=
  readTimes_fix (readData_again hk h) n

/-- C26 is false for 2010, 3010 and 4010. The exact result of `n` calls on an opened file: the variables are
those of one call, but the unbounded axis holds `n` copies of its values. -/
theorem C26_2010 (cd : Codec F) (text : Str) (r r' : NA2010 F) (h0 : r.X0 = [])
    (h : (Obj.o2010 r).readData cd text = .ok (.o2010 r')) (n : Nat) (hn : n ≠ 0) :
    readTimes cd text n (.o2010 r) = .ok (.o2010 { r' with X0 := copies n r'.X0 }) := by
  obtain ⟨r1, h1, h⟩ := ok_of_bind h
  injection h with h
  injection h with h
  subst h
  rw [readTimes_2010 h0 h1, if_neg hn]

/-- C26 is false for 2310. The exact result of `n` calls: everything is as after one call, except that `DX`
has grown by the entries of all marks once per call. -/
theorem C26_2310 (cd : Codec F) (text : Str) (r r' : NA2110 F)
    (h : (Obj.o2310 r).readData cd text = .ok (.o2310 r')) :
    ∃ new, r'.DX = r.DX ++ new ∧ ∀ n, n ≠ 0 →
      readTimes cd text n (.o2310 r) = .ok (.o2310 { r' with DX := r.DX ++ copies n new }) := by
  obtain ⟨r1, h1, h⟩ := ok_of_bind h
  injection h with h
  injection h with h
  subst h
  obtain ⟨new, e, hn⟩ := readTimes_2310 h1
  exact ⟨new, e, fun n h0 => by rw [hn, if_neg h0]⟩

/-- A 2010 file: two marks. -/
def ex2010 : Str := (write2010 Ex.env false Ex.d2010).2.text

/-- A 2310 file: two marks. -/
def ex2310 : Str := (write2310 Ex.env false Ex.d2310).2.text

/-- C26 fails on concrete files: after two calls the 2010 axis has four values for two marks, and the 2310
`DX` has an entry too many for every mark. -/
theorem C26_fails :
    (do let r ← read2010 intCodec 0 ex2010; .ok r.X0 : Res (List Int)) = .ok [0, 1] ∧
    (do let r ← read2010 intCodec 0 ex2010; let r ← readData2010 intCodec ex2010 r; .ok r.X0 :
      Res (List Int)) = .ok [0, 1, 0, 1] ∧
    (do let r ← read2310 intCodec 0 ex2310; .ok r.DX : Res (List Int)) = .ok [0, 10, 5] ∧
    (do let r ← read2310 intCodec 0 ex2310; let r ← readData2310 intCodec ex2310 r; .ok r.DX :
      Res (List Int)) = .ok [0, 10, 5, 10, 5] := by
  decide +kernel

/-- The hypotheses of `C26_partial` are met. -/
example : readData1001 intCodec (exFile ["1 2", "3 4"]) exRec
    = .ok { exRec with X := [1, 3], V := [[2, 4]] } ∧
    readData1001 intCodec (exFile ["1 2", "3 4"]) { exRec with X := [1, 3], V := [[2, 4]] }
    = .ok { exRec with X := [1, 3], V := [[2, 4]] } := by decide +kernel

/-! ### C27 -/

/-- C27. Lines put in front of a file and ignored: opening gives the same header fields with NLHEAD larger
by their number, or the same exception. -/
theorem C27_header (cd : Codec F) (pre : List Str) (hp : ∀ l ∈ pre, NoBreak l) (text : Str) :
    openNA cd pre.length (asLines pre ++ text)
      = (do let o ← openNA cd 0 text; .ok (afterLines pre o)) :=
  openNA_shift cd hp text

/-- C27. The data are the same, or the same exception is raised, if NLHEAD is not negative. -/
theorem C27_data_partial (cd : Codec F) (pre : List Str) (hp : ∀ l ∈ pre, NoBreak l) (text : Str) (o : Obj F)
    (h : 0 ≤ o.common.NLHEAD) :
    (afterLines pre o).readData cd (asLines pre ++ text)
      = (do let o' ← o.readData cd text; .ok (afterLines pre o')) :=
  readData_shift cd hp text h

/-- C27 with a negative NLHEAD is false: the header is read, but then the data lines are counted from the end
of the file, and one ignored line changes which ones they are. -/
theorem C27_fails :
    let r : NA1001 Int := { exRec with c := { exRec.c with NLHEAD := -2 } }
    let t := exFile ["1 2", "3 4"]
    readData1001 intCodec t r = .ok { r with X := [1, 3], V := [[2, 4]] } ∧
    readData1001 intCodec (asLines ["x".toList] ++ t) { r with c := { r.c with NLHEAD := -2 + 1 } }
      = .ok { r with c := { r.c with NLHEAD := -2 + 1 }, X := [3], V := [[4]] } := by
  decide +kernel

/-- The hypotheses of `C27_data_partial` are met: two lines in front. -/
example :
    let pre := ["a {comment}".toList, "12 13".toList]
    (∀ l ∈ pre, NoBreak l) ∧ (0 : Int) ≤ exRec.c.NLHEAD ∧
    read1001 intCodec 2 (asLines pre ++ exFile ["1 2"])
      = .ok { exRec with c := { exRec.c with NLHEAD := 17 }, X := [1], V := [[2]] } := by
  decide +kernel

end Nappy.Props
