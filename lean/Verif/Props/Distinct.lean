import Verif.Spec.Distinct
import Verif.Props.Copy
import Verif.ConvertFileLemmas

/-! C96. Different data sets are written to different files. -/

namespace Nappy.Props

open Nappy Nappy.Spec

variable {F : Type}

theorem content_readForm (q : F → F) (n : Int) (o : Obj F) : withNLHEAD 0 (readForm q n o) = content q o := by
  cases o <;> rfl

theorem readForm_content (q : F → F) (n : Int) (o : Obj F) : readForm q n o = withNLHEAD n (content q o) := by
  cases o <;> rfl

/-- C96. Two data sets that give the same file say the same, whatever delimiters were used. -/
theorem C96_same_content {cd : Codec F} {q : F → F} (hcd : cd.Lawful q) {delim delim' : Str} (hd : WsDelim delim)
    (hd' : WsDelim delim') {o o' : Obj F} (ho : Faithful cd q o) (ho' : Faithful cd q o')
    (hi : o.ignored.length = o'.ignored.length)
    (h : (o.write { cd := cd, delim := delim, ann := none } false).2.text =
      (o'.write { cd := cd, delim := delim', ann := none } false).2.text) :
    content q o = content q o' := by
  obtain ⟨-, n, h1⟩ := readFile_written (env := { cd := cd, delim := delim, ann := none }) hcd rfl hd ho
  obtain ⟨-, n', h2⟩ := readFile_written (env := { cd := cd, delim := delim', ann := none }) hcd rfl hd' ho'
  rw [h, hi] at h1
  have e := Except.ok.inj (h1.symm.trans h2)
  rw [← content_readForm q n o, e, content_readForm]

/-- C96. Which data sets give the same file: those that say the same. The assumption on the number format is that a
rounded number is printed like the number itself; comments have no white space at their ends. -/
theorem C96_iff {cd : Codec F} {q : F → F} (hcd : cd.Lawful q) (hq : ∀ x, cd.ffmt (q x) = cd.ffmt x) {delim : Str}
    (hd : WsDelim delim) {o o' : Obj F} (ho : Faithful cd q o) (ho' : Faithful cd q o')
    (hi : o.ignored.length = o'.ignored.length) (hc : trimComments o = o) (hc' : trimComments o' = o') :
    (o.write { cd := cd, delim := delim, ann := none } false).2.text =
      (o'.write { cd := cd, delim := delim, ann := none } false).2.text ↔ content q o = content q o' := by
  refine ⟨C96_same_content hcd hd hd ho ho' hi, fun h => ?_⟩
  have h1 := write_readForm (env := { cd := cd, delim := delim, ann := none }) hcd rfl hd hq 0 ho
  have h2 := write_readForm (env := { cd := cd, delim := delim, ann := none }) hcd rfl hd hq 0 ho'
  rw [hc, readForm_content, h, ← readForm_content, h2, hc'] at h1
  rw [h1]

/-- C96 for dictionaries: two dictionaries with different contents are written to different files. -/
theorem C96_dictionaries {cd : Codec F} {q : F → F} (hcd : cd.Lawful q) {delim delim' : Str} (hd : WsDelim delim)
    (hd' : WsDelim delim') {d d' : Dict (PyVal F)} {o o' : Obj F} (ho : Faithful cd q o) (ho' : Faithful cd q o')
    (h : Describes d o) (h' : Describes d' o')
    (hi : ∀ r, o = .o2160 r → dictGet? d "ignored_header_lines" = some (pyStrs r.ignored))
    (hi' : ∀ r, o' = .o2160 r → dictGet? d' "ignored_header_lines" = some (pyStrs r.ignored))
    (hl : o.ignored.length = o'.ignored.length) (hne : content q o ≠ content q o') :
    ∃ e e' out out', writeDict { cd := cd, delim := delim, ann := none } false d = .ok (e, out) ∧ out.err = none ∧
      writeDict { cd := cd, delim := delim', ann := none } false d' = .ok (e', out') ∧ out'.err = none ∧
      out.text ≠ out'.text := by
  obtain ⟨e, w, -⟩ := C72_written { cd := cd, delim := delim, ann := none } false ho h hi
  obtain ⟨e', w', -⟩ := C72_written { cd := cd, delim := delim', ann := none } false ho' h' hi'
  refine ⟨e, e', _, _, w, (readFile_written (env := { cd := cd, delim := delim, ann := none }) hcd rfl hd ho).1, w',
    (readFile_written (env := { cd := cd, delim := delim', ann := none }) hcd rfl hd' ho').1, fun ht => ?_⟩
  exact hne (C96_same_content hcd hd hd' ho ho' hl ht)

/-- C96, in a form that names what differs: data sets give different files if they differ in the format, in a value of a
main variable, an auxiliary variable or a mark that the number format tells apart, or in a number, name, missing value or
scale factor of the variables. -/
theorem C96_values {cd : Codec F} {q : F → F} (hcd : cd.Lawful q) {delim : Str} (hd : WsDelim delim) {o o' : Obj F}
    (ho : Faithful cd q o) (ho' : Faithful cd q o') (hi : o.ignored.length = o'.ignored.length)
    (hne : o.FFI ≠ o'.FFI ∨ (mainValues o).map (List.map q) ≠ (mainValues o').map (List.map q) ∨
      (auxValues o).map (List.map q) ≠ (auxValues o').map (List.map q) ∨
      (markValues o).map q ≠ (markValues o').map q ∨ varHeader o ≠ varHeader o' ∨ auxSection o ≠ auxSection o') :
    (o.write { cd := cd, delim := delim, ann := none } false).2.text ≠
      (o'.write { cd := cd, delim := delim, ann := none } false).2.text := by
  intro h
  have e : readForm q 0 o = readForm q 0 o' := C96_same_content hcd hd hd ho ho' hi h
  rcases hne with hn | hn | hn | hn | hn | hn
  · exact hn (by rw [← readForm_ffi q 0 o, e, readForm_ffi])
  · exact hn (by rw [← readForm_main q 0 o, e, readForm_main])
  · exact hn (by rw [← readForm_aux q 0 o, e, readForm_aux])
  · exact hn (by rw [← readForm_marks q 0 o, e, readForm_marks])
  · exact hn (by rw [← readForm_vars q 0 o, e, readForm_vars])
  · exact hn (by rw [← readForm_auxSection q 0 o, e, readForm_auxSection])

/-! ### Concrete cases -/

/-- Two data sets that differ in one value, also after rounding to tens, and a third one that differs in the last digit
only. -/
def Ex.other (k : Int) : NA1010 Int :=
  { Nappy.Ex.d1010 with X := Nappy.Ex.d1010.X.mapIdx (fun i x => if i = 0 then x + k else x) }

theorem Ex.other_wf (k : Int) : Wf1010 (Ex.other k) :=
  { Nappy.Ex.wf1010 with data := by have := Nappy.Ex.wf1010.data; simpa [Ex.other] using this
                         aux_data := by have := Nappy.Ex.wf1010.aux_data; simpa [Ex.other] using this }

example : ((Obj.o1010 (Ex.other 10)).write Ex.tens false).2.text ≠ ((Obj.o1010 Nappy.Ex.d1010).write Ex.tens false).2.text :=
  C96_values (cd := Ex.tensCodec) Ex.tens_lawful (delim := "    ".toList) (by decide) (o := .o1010 (Ex.other 10))
    (o' := .o1010 Nappy.Ex.d1010) (Ex.other_wf 10) Nappy.Ex.wf1010 rfl (.inr (.inr (.inr (.inl (by decide)))))

/-- What the number format drops makes no difference. -/
example : ∃ k, Ex.other k ≠ Nappy.Ex.d1010 ∧
    ((Obj.o1010 (Ex.other k)).write Ex.tens false).2.text = ((Obj.o1010 Nappy.Ex.d1010).write Ex.tens false).2.text := by
  refine ⟨1, ?_, ?_⟩
  · intro h
    have := congrArg NA1010.X h
    revert this
    decide
  · exact (C96_iff (cd := Ex.tensCodec) Ex.tens_lawful Ex.tens_round (delim := "    ".toList) (by decide)
      (o := .o1010 (Ex.other 1)) (o' := .o1010 Nappy.Ex.d1010) (Ex.other_wf 1) Nappy.Ex.wf1010 rfl rfl rfl).2 (by
        have h : mapValues (fun x => 10 * (x / 10)) (Obj.o1010 (Ex.other 1)) =
            mapValues (fun x => 10 * (x / 10)) (Obj.o1010 Nappy.Ex.d1010) := by
          have hx : (Ex.other 1).X.map (fun x => 10 * (x / 10)) = Nappy.Ex.d1010.X.map (fun x => 10 * (x / 10)) := by decide
          show Obj.o1010 { Ex.other 1 with X := _, A := _, V := _ } = Obj.o1010 _
          rw [hx]
          rfl
        unfold content
        rw [h])

end Nappy.Props
