import Verif.AnnLemmas
import Verif.CellLemmas
import Verif.Examples
import Verif.Props.Write
import Verif.Spec.Annotation
import Verif.Spec.Rows

/-! Properties of the written text: annotations and cells. -/

namespace Nappy.Props

open Nappy.Spec

variable {F : Type}

/-- C20. With an annotation table the text written is the text written without, with marks put in; a mark is
an annotation, perhaps a number, and the delimiter. The ignored lines of 2160 get no marks. The dictionary
is left in the same state, and the call fails if and only if it fails without annotation, with the same
error. Whatever the dictionary, there are as many newline characters in both texts. -/
theorem C20_marks {env : Env F} (hd : '\n' ∉ env.delim) {t : String → Str} (ht : CleanTable t)
    (noHeader : Bool) (o : Obj F) :
    (o.write (withAnn env (some t)) noHeader).1 = (o.write (withAnn env none) noHeader).1 ∧
    (o.write (withAnn env (some t)) noHeader).2.err = (o.write (withAnn env none) noHeader).2.err ∧
    (o.write (withAnn env (some t)) noHeader).2.text.count '\n'
      = (o.write (withAnn env none) noHeader).2.text.count '\n' ∧
    ∃ plain annotated, MarksAdded t env.delim plain annotated ∧
      (o.write (withAnn env none) noHeader).2.text = (if noHeader then [] else asLines o.ignored) ++ plain ∧
      (o.write (withAnn env (some t)) noHeader).2.text
        = (if noHeader then [] else asLines o.ignored) ++ annotated := by
  have hc : CleanTbl (some t) := by intro t' h; cases h; exact ht
  obtain ⟨h1, ps, _, h2⟩ := Obj.write_uni hd noHeader o
  refine ⟨h1 _ hc, (h2 _ hc).1, ?_, _, _, render_marksAdded env.delim t ps, (h2 none cleanTbl_none).2, (h2 _ hc).2⟩
  rw [(h2 _ hc).2, (h2 none cleanTbl_none).2, List.count_append, List.count_append, render_count hd hc]

/-- C20. If no string of the dictionary has a line-break character, and no header line is missing, then line
number i with annotation is a mark followed by line number i without, for all lines after the ignored lines
of 2160. What is missing from the full statement: the ignored lines get no mark
(`C20_ignored_lines_unmarked`), a mark can stand inside a line if a string holds one of the rarer line-break
characters (`C20_line_break_fails`), and dictionaries with empty header lines. -/
theorem C20_lines_partial {env : Env F} {q : F → F} (hcd : env.cd.Lawful q) (hd : '\n' ∉ env.delim)
    {t : String → Str} (ht : CleanTable t) (noHeader : Bool) (o : Obj F) (htx : ∀ s ∈ texts o, Unbroken s)
    (hf : LinesFilled o) (hign : ∀ s ∈ o.ignored, '\n' ∉ s) :
    ∃ top plain annotated, top = (if noHeader then [] else o.ignored.map (· ++ ['\n'])) ∧
      readlines (o.write (withAnn env none) noHeader).2.text = top ++ plain ∧
      readlines (o.write (withAnn env (some t)) noHeader).2.text = top ++ annotated ∧
      LineByLine t env.delim plain annotated := by
  have hc : CleanTbl (some t) := by intro t' h; cases h; exact ht
  obtain ⟨_, ps, h1, h2⟩ := Obj.write_uni hd noHeader o
  have hl := render_lineByLine hd ht (h1 ⟨lineEnv_of_lawful hcd hd, sfmt_unbroken_of_lawful hcd, htx, hf⟩)
  refine ⟨_, _, _, rfl, ?_, ?_, hl⟩
  · rw [(h2 none cleanTbl_none).2]
    cases noHeader
    · exact readlines_unlines _ _ hign
    · rfl
  · rw [(h2 _ hc).2]
    cases noHeader
    · exact readlines_unlines _ _ hign
    · rfl

/-- An annotation table. -/
def exTable : String → Str := fun item => if item = "XNAME" then "axis".toList else "note".toList

theorem exTable_clean : CleanTable exTable := by
  intro item
  unfold exTable
  split <;> decide

/-- Cases that meet the hypotheses of C20. -/
example : '\n' ∉ Ex.env.delim ∧ CleanTable exTable ∧ Ex.env.cd.Lawful id ∧
    ∀ o ∈ [Obj.o1001 Ex.d1001, Obj.o1020 Ex.d1020, Obj.o2010 Ex.d2010, Obj.o2110 Ex.d2110, Obj.o2160 Ex.d2160],
      (∀ s ∈ texts o, Unbroken s) ∧ LinesFilled o ∧ (∀ s ∈ o.ignored, '\n' ∉ s) ∧
      (o.write Ex.env false).2.err = none := by
  refine ⟨by decide, exTable_clean, Ex.intCodec_lawful, ?_⟩
  intro o ho
  simp only [List.mem_cons, List.not_mem_nil, or_false] at ho
  rcases ho with rfl | rfl | rfl | rfl | rfl
  · exact ⟨by decide +kernel, trivial, by decide, by decide +kernel⟩
  · exact ⟨by decide +kernel, rfl, by decide, by decide +kernel⟩
  · exact ⟨by decide +kernel, Ex.wf2010.nxdef_pos, by decide, by decide +kernel⟩
  · exact ⟨by decide +kernel, trivial, by decide, by decide +kernel⟩
  · exact ⟨by decide +kernel, trivial, by decide, by decide +kernel⟩

/-- C20 fails for the ignored lines of a 2160 file: they are written without annotation. -/
theorem C20_ignored_lines_unmarked :
    let text a := ((Obj.o2160 Ex.d2160).write (withAnn Ex.env a) false).2.text
    (readlines (text none)).take 2 = ["an extra line\n".toList, "29    2160\n".toList] ∧
    (readlines (text (some exTable))).take 2
      = ["an extra line\n".toList, "note    29    2160\n".toList] := by
  decide +kernel

/-- C20 fails for a name with a vertical tab: there is a mark inside the line. -/
theorem C20_line_break_fails :
    let r := { Ex.d1001 with v := { Ex.vars with VNAME := ["O\x0b3".toList, "Temp".toList] } }
    let text a := ((Obj.o1001 r).write (withAnn Ex.env a) false).2.text
    (readlines (text none))[12]? = some "O\x0b3\n".toList ∧
    (readlines (text (some exTable)))[12]? = some "note 1    O\x0bnote 2    3\n".toList := by
  decide +kernel

/-- C21. The data lines of a CSV file, split at commas, are exactly the formatted values of the dictionary,
row by row and in order; and the lines of the file written with a white-space delimiter, split at white
space, are the same. -/
theorem C21_cells {env : Env F} (hann : env.ann = none) {count : F → Option Int} {incr : F → Option F} {o : Obj F}
    (hw : WellFormed count incr o) (hp : PlainRows (cellRows env.cd.ffmt o)) {d : Str} (hd : WsDelim d) :
    ∃ csv na : List Str, ((forNoHeader o).write (withDelim env [',']) true).2 = ⟨csv.map (· ++ ['\n']), none⟩ ∧
      ((forNoHeader o).write (withDelim env d) true).2 = ⟨na.map (· ++ ['\n']), none⟩ ∧
      csv.map splitComma = cellRows env.cd.ffmt o ∧ na.map words = cellRows env.cd.ffmt o := by
  obtain ⟨csv, h1, h2⟩ := rows_cells (env := withDelim env [',']) hann hw
  obtain ⟨na, h3, h4⟩ := rows_cells (env := withDelim env d) hann hw
  refine ⟨csv, na, ?_, ?_, ?_, ?_⟩
  · rw [write_rows, h1, ofRows_ok]; rfl
  · rw [write_rows, h3, ofRows_ok]; rfl
  · change AreRows [','] csv (cellRows env.cd.ffmt o) at h2
    exact rows_comma h2 hp
  · change AreRows d na (cellRows env.cd.ffmt o) at h4
    exact rows_words hd h4 hp

/-- C21. In the whole CSV file these rows follow the header, after the ignored lines of 2160. -/
theorem C21_file {env : Env F} (hann : env.ann = none) {count : F → Option Int} {incr : F → Option F} {o : Obj F}
    (hw : WellFormed count incr o) (hp : PlainRows (cellRows env.cd.ffmt o))
    (hok : (o.write (withDelim env [',']) false).2.err = none) :
    ∃ h csv, CompleteHeader (withDelim env [',']) o.FFI h ∧
      (o.write (withDelim env [',']) false).2.text = asLines o.ignored ++ h ++ asLines csv ∧
      csv.map splitComma = cellRows env.cd.ffmt o := by
  obtain ⟨h, h1, h2, _⟩ := C13_nlhead (env := withDelim env [',']) ⟨by change '\n' ∉ [',']; decide, by simp [withDelim, hann]⟩ o hok
  obtain ⟨csv, _, h3, _, h4, _⟩ := C21_cells hann hw hp (d := [' ']) (by decide)
  refine ⟨h, csv, h1, ?_, h4⟩
  rw [h2, h3]; rfl

/-- Cases that meet the hypotheses of C21. -/
example : Ex.env.ann = none ∧ WsDelim Ex.env.delim ∧
    ∀ o ∈ [Obj.o1001 Ex.d1001, Obj.o1010 Ex.d1010, Obj.o1020 Ex.d1020, Obj.o2010 Ex.d2010, Obj.o2110 Ex.d2110,
        Obj.o2310 Ex.d2310],
      WellFormed some some o ∧ PlainRows (cellRows Ex.env.cd.ffmt o) ∧ 2 ≤ (cellRows Ex.env.cd.ffmt o).length ∧
      (o.write (withDelim Ex.env [',']) false).2.err = none := by
  refine ⟨rfl, by decide, ?_⟩
  intro o ho
  simp only [List.mem_cons, List.not_mem_nil, or_false] at ho
  rcases ho with rfl | rfl | rfl | rfl | rfl | rfl
  · exact ⟨Ex.wf1001, by decide +kernel, by decide +kernel, by decide +kernel⟩
  · exact ⟨Ex.wf1010, by decide +kernel, by decide +kernel, by decide +kernel⟩
  · exact ⟨Ex.wf1020, by decide +kernel, by decide +kernel, by decide +kernel⟩
  · exact ⟨Ex.wf2010, by decide +kernel, by decide +kernel, by decide +kernel⟩
  · exact ⟨Ex.wf2110, by decide +kernel, by decide +kernel, by decide +kernel⟩
  · exact ⟨Ex.wf2310, by decide +kernel, by decide +kernel, by decide +kernel⟩

end Nappy.Props
