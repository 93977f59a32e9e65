import Verif.Examples
import Verif.WriteSpec

/-!
Properties C13-C16, C18 and C19: the text a write leaves in the file. Unless a theorem says otherwise they
hold for every dictionary (well-formed or not), delimiter, float format and annotation table.
-/

namespace Nappy.Props

open Nappy Spec

variable {F : Type}

/-! ### C13 -/

/-- C13. A successful write with header leaves: the ignored lines (2160 only), a header whose first line
gives the number of lines of the header, and then exactly the data section, in whole lines. -/
theorem C13_nlhead {env : Env F} (hc : CleanTop env) (o : Obj F)
    (hok : (o.write env false).2.err = none) :
    ∃ h, CompleteHeader env o.FFI h ∧
      (o.write env false).2.text = asLines o.ignored ++ h ++ ((forNoHeader o).write env true).2.text ∧
      WholeLines ((forNoHeader o).write env true).2.text := by
  rcases o.write_cases hc with ⟨e, he⟩ | ⟨h, hs, he⟩
  · rw [he] at hok; cases hok
  · have hr := rows_after_header o (h := h) (by rw [he])
    refine ⟨h, completeHeader_of_shape hs, ?_, ?_⟩
    · rw [← hr, he]
      simp only [Out.text, concat_append, concat_cons, ignoredWrites_text, List.append_assoc]
    · rw [← hr]
      exact wholeLines_concat (ofRows_lines ((o.write env false).1.rows_end env))

/-- C13. The NLHEAD value the caller supplied has no influence on the file. -/
theorem C13_supplied_nlhead {env : Env F} (hc : CleanTop env) (o : Obj F) (n : Int) (noHeader : Bool) :
    ((withNLHEAD n o).write env noHeader).2 = (o.write env noHeader).2 := by
  have h := Obj.write_nlhead hc o n noHeader
  cases o <;> exact h

/-- C13. What the reader makes of it: if the file can be opened, the lines after the NLHEAD lines found in
it are the lines of the data section. There must be no carriage return in the file and no line break in
the ignored lines (see `C13_carriage_return_breaks`). -/
theorem C13_reader {env : Env F} (hann : env.ann = none) (hd : WsDelim env.delim) (o : Obj F)
    (hok : (o.write env false).2.err = none) (hign : ∀ l ∈ o.ignored, NoBreak l)
    (hcr : '\r' ∉ (o.write env false).2.text) {o' : Obj F}
    (hopen : openNA env.cd o.ignored.length (o.write env false).2.text = .ok o') :
    sliceFrom (fileLines (o.write env false).2.text) o'.common.NLHEAD
      = fileLines ((forNoHeader o).write env true).2.text := by
  have hc : CleanTop env := ⟨fun h => (hd.2 _ h).2.1 rfl, by simp [hann]⟩
  obtain ⟨h, hh, ht, _⟩ := C13_nlhead hc o hok
  have hh' := hh
  obtain ⟨rest, hr⟩ := hh
  unfold openNA at hopen
  obtain ⟨_, _, hopen⟩ := ok_of_bind hopen
  obtain ⟨_, _, hopen⟩ := ok_of_bind hopen
  obtain ⟨ign, more, hcm⟩ := readHeaderOf_common hopen
  obtain ⟨tl, hl⟩ := top_of_complete hann hd hign hh' ((forNoHeader o).write env true).2.text
  rw [← ht] at hl
  have h2 := readCommon_top hcm hl (twoInts_line hd _ _)
  have h3 := fileLines_data hign ⟨_, hr⟩ (fun hm => hcr (by rw [ht]; simp [hm]))
    ((forNoHeader o).write env true).2.text
  unfold sliceFrom
  rw [h2.1, if_pos (by omega), ht, ← h3]
  congr 1
  omega

/-- C13. A carriage return inside a comment makes the reader see one more line than the header declares:
the data it goes on to read start with the rest of that comment. -/
theorem C13_carriage_return_breaks :
    let r := { Ex.d1001 with com := { Ex.com with NCOM := ["normal".toList, "two\rlines".toList] } }
    let text := (write1001 Ex.env false r).text
    (write1001 Ex.env false r).err = none ∧
    (openNA intCodec 0 text).toOption.map (fun o => sliceFrom (fileLines text) o.common.NLHEAD)
      = some ("lines\n".toList :: fileLines (write1001 Ex.env true r).text) := by
  decide +kernel

example : CleanTop Ex.env ∧ Ex.env.ann = none ∧ WsDelim Ex.env.delim ∧
    ((Obj.o2160 Ex.d2160).write Ex.env false).2.err = none ∧
    (∀ l ∈ (Obj.o2160 Ex.d2160).ignored, NoBreak l) ∧
    '\r' ∉ ((Obj.o2160 Ex.d2160).write Ex.env false).2.text ∧
    (openNA Ex.env.cd 1 ((Obj.o2160 Ex.d2160).write Ex.env false).2.text).toOption.isSome :=
  ⟨⟨by decide, by simp [Ex.env]⟩, rfl, by decide, by decide +kernel, by decide, by decide +kernel,
    by decide +kernel⟩

/-- The NLHEAD of the examples is wrong before the write. -/
example : (Obj.o2010 Ex.d2010).common.NLHEAD = 0 ∧
    ((Obj.o2010 Ex.d2010).write Ex.env false).2.err = none ∧
    (readFFI ((Obj.o2010 Ex.d2010).write Ex.env false).2.text 0) = .ok 2010 := by
  decide +kernel

/-! ### C14 -/

/-- C14. The format index read from a written file is that of the dictionary, whatever the other header
items are. -/
theorem C14_ffi {env : Env F} (hann : env.ann = none) (hd : WsDelim env.delim) (o : Obj F)
    (hok : (o.write env false).2.err = none) (hign : ∀ l ∈ o.ignored, NoBreak l) :
    readFFI (o.write env false).2.text o.ignored.length = .ok o.FFI := by
  have hc : CleanTop env := ⟨fun h => (hd.2 _ h).2.1 rfl, by simp [hann]⟩
  obtain ⟨h, hh, ht, _⟩ := C13_nlhead hc o hok
  obtain ⟨tl, hl⟩ := top_of_complete hann hd hign hh ((forNoHeader o).write env true).2.text
  rw [← ht] at hl
  unfold readFFI
  simp only [hl, readline, twoInts_line hd, ok_bind]
  rfl

/-- C14. If the file can be opened, the class used is one for the format index of the dictionary, and the
object has that format index. -/
theorem C14_class {env : Env F} (hann : env.ann = none) (hd : WsDelim env.delim) (o : Obj F)
    (hok : (o.write env false).2.err = none) (hign : ∀ l ∈ o.ignored, NoBreak l) {o' : Obj F}
    (hopen : openNA env.cd o.ignored.length (o.write env false).2.text = .ok o') :
    o'.FFI = o.FFI ∧ o.FFI ∈ o'.classFFIs := by
  have hc : CleanTop env := ⟨fun h => (hd.2 _ h).2.1 rfl, by simp [hann]⟩
  obtain ⟨h, hh, ht, _⟩ := C13_nlhead hc o hok
  obtain ⟨tl, hl⟩ := top_of_complete hann hd hign hh ((forNoHeader o).write env true).2.text
  rw [← ht] at hl
  unfold openNA at hopen
  rw [C14_ffi hann hd o hok hign, ok_bind] at hopen
  obtain ⟨cls, hcls, hopen⟩ := ok_of_bind hopen
  obtain ⟨ign, more, hcm⟩ := readHeaderOf_common hopen
  refine ⟨(readCommon_top hcm hl (twoInts_line hd _ _)).2, ?_⟩
  unfold getNAFileClass at hcls
  split at hcls
  · rename_i hs
    injection hcls with hcls
    rw [← hcls] at hopen
    exact readHeaderOf_class hs hopen
  · cases hcls

/-- C14. A format index without a class is refused. -/
theorem C14_unknown {env : Env F} (hann : env.ann = none) (hd : WsDelim env.delim) (o : Obj F)
    (hok : (o.write env false).2.err = none) (hign : ∀ l ∈ o.ignored, NoBreak l)
    (hffi : o.FFI ∉ [1001, 1010, 1020, 2010, 2110, 2160, 2310, 3010, 4010]) :
    openNA env.cd o.ignored.length (o.write env false).2.text = .error .import := by
  unfold openNA
  rw [C14_ffi hann hd o hok hign, ok_bind, getNAFileClass, supportedFFIs, if_neg hffi]
  rfl

/-- C14. Opening a file and reading its data is what the class for its format index does. With C06-C12
this gives the round trips through `openNAFile`. -/
theorem C14_dispatch (cd : Codec F) (k : Nat) (text : Str) :
    (readFFI text k = .ok 1001 → (openNA cd k text >>= Obj.readData cd text)
      = read1001 cd k text >>= fun r => .ok (.o1001 r)) ∧
    (readFFI text k = .ok 1010 → (openNA cd k text >>= Obj.readData cd text)
      = read1010 cd k text >>= fun r => .ok (.o1010 r)) ∧
    (readFFI text k = .ok 1020 → (openNA cd k text >>= Obj.readData cd text)
      = read1020 cd k text >>= fun r => .ok (.o1020 r)) ∧
    (∀ ffi ∈ [2010, 3010, 4010], readFFI text k = .ok ffi →
      (openNA cd k text >>= Obj.readData cd text) = read2010 cd k text >>= fun r => .ok (.o2010 r)) ∧
    (readFFI text k = .ok 2110 → (openNA cd k text >>= Obj.readData cd text)
      = read2110 cd k text >>= fun r => .ok (.o2110 r)) ∧
    (readFFI text k = .ok 2160 → (openNA cd k text >>= Obj.readData cd text)
      = read2160 cd k text >>= fun r => .ok (.o2160 r)) ∧
    (readFFI text k = .ok 2310 → (openNA cd k text >>= Obj.readData cd text)
      = read2310 cd k text >>= fun r => .ok (.o2310 r)) := by
  refine ⟨?_, ?_, ?_, ?_, ?_, ?_, ?_⟩
  · intro h
    simp only [openNA, h, ok_bind, getNAFileClass, supportedFFIs, List.mem_cons, true_or, or_true,
      if_true, readHeaderOf, read1001]
    cases readHeader1001 cd k (fileLines text) <;> rfl
  · intro h
    simp only [openNA, h, ok_bind, getNAFileClass, supportedFFIs, List.mem_cons, true_or, or_true,
      if_true, readHeaderOf, read1010]
    cases readHeader1010 cd k (fileLines text) <;> rfl
  · intro h
    simp only [openNA, h, ok_bind, getNAFileClass, supportedFFIs, List.mem_cons, true_or, or_true,
      if_true, readHeaderOf, read1020]
    cases readHeader1020 cd k (fileLines text) <;> rfl
  · intro ffi hffi h
    simp only [List.mem_cons, List.not_mem_nil, or_false] at hffi
    rcases hffi with rfl | rfl | rfl <;>
    · simp only [openNA, h, ok_bind, getNAFileClass, supportedFFIs, List.mem_cons, true_or, or_true,
        if_true, readHeaderOf, read2010]
      cases readHeader2010 cd k (fileLines text) <;> rfl
  · intro h
    simp only [openNA, h, ok_bind, getNAFileClass, supportedFFIs, List.mem_cons, true_or, or_true,
      if_true, readHeaderOf, read2110]
    cases readHeader2110 cd k (fileLines text) <;> rfl
  · intro h
    simp only [openNA, h, ok_bind, getNAFileClass, supportedFFIs, List.mem_cons, true_or, or_true,
      if_true, readHeaderOf, read2160]
    cases readHeader2160 cd k (fileLines text) <;> rfl
  · intro h
    simp only [openNA, h, ok_bind, getNAFileClass, supportedFFIs, List.mem_cons, true_or, or_true,
      if_true, readHeaderOf, read2310]
    cases readHeader2310 cd k (fileLines text) <;> rfl

example : openNA intCodec 0 ((Obj.o1001 { Ex.d1001 with c := Ex.common 1234 }).write Ex.env false).2.text
      |>.toOption |>.isNone := by decide +kernel

/-! ### C15 -/

/-- C15 for one independent variable (1001, 1010, 1020): the caller's dictionary is unchanged, whatever
the outcome of the write. -/
theorem C15_one_variable {env : Env F} (noHeader : Bool) (o : Obj F) (h : OneVar o) :
    (o.write env noHeader).1 = o := by
  cases o <;> first | rfl | exact absurd h (by simp [OneVar])

/-- C15 for two or more independent variables, in part: whatever the outcome, a write changes nothing but
`DX`, `NX` and `XNAME`, and those at most by turning them round. The full property is false, see
`C15_fails`. -/
theorem C15_only_order_partial {env : Env F} (noHeader : Bool) (o : Obj F) :
    SameButTurned o (o.write env noHeader).1 := write_sameButTurned env noHeader o

/-- C15. A dictionary whose lists read the same from both ends is unchanged. -/
theorem C15_symmetric {env : Env F} (noHeader : Bool) (o : Obj F) (h : Symmetric o) :
    (o.write env noHeader).1 = o := sameButTurned_symmetric (write_sameButTurned env noHeader o) h

/-- C15. Exactly what a successful write leaves: with header, `DX` (2010 and its relatives, 2110, 2160) and
`XNAME` (2110, 2160, 2310) turned round; without header, `NX` of 2010 and its relatives turned round. -/
theorem C15_exact {env : Env F} (o : Obj F) :
    ((o.write env false).2.err = none → (o.write env false).1 = turned o) ∧
    (o.write env true).1 = forNoHeader o := by
  refine ⟨write_turned env o, ?_⟩
  cases o <;> rfl

/-- C15 does not hold for 2010, 2110, 2160 and 2310: after a successful write the lists are turned. -/
theorem C15_fails :
    ((write2010 Ex.env false Ex.d2010).2.err = none ∧
      Ex.d2010.DX = [1, 2] ∧ (write2010 Ex.env false Ex.d2010).1.DX = [2, 1]) ∧
    ((write2010 Ex.env true { Ex.d3010 with X0 := [] }).2.err = none ∧
      Ex.d3010.NX = [2, 3] ∧ (write2010 Ex.env true { Ex.d3010 with X0 := [] }).1.NX = [3, 2]) ∧
    ((write2110 Ex.env false Ex.d2110).2.err = none ∧ (write2110 Ex.env false Ex.d2110).1 ≠ Ex.d2110) ∧
    ((write2160 Ex.env false Ex.d2160).2.err = none ∧ (write2160 Ex.env false Ex.d2160).1 ≠ Ex.d2160) ∧
    ((write2310 Ex.env false Ex.d2310).2.err = none ∧ (write2310 Ex.env false Ex.d2310).1 ≠ Ex.d2310) := by
  decide +kernel

example : OneVar (.o1020 Ex.d1020) := trivial

example : Symmetric (.o2010 { Ex.d2010 with DX := [2, 2] }) := ⟨rfl, rfl⟩

/-! ### C16 -/

/-- C16 for dictionaries whose lists read the same from both ends, in particular for all of 1001, 1010
and 1020: `k` writes of the same dictionary have the same effect on their files, failed writes
included. The full property is false, see `C16_fails`. -/
theorem C16_identical_partial {env : Env F} (noHeader : Bool) (o : Obj F) (h : Symmetric o) (k : Nat) :
    repeatWrites env noHeader k o = List.replicate k (o.write env noHeader).2 := by
  induction k with
  | zero => rfl
  | succ k ih => rw [repeatWrites, C15_symmetric noHeader o h, ih, List.replicate_succ]

/-- The formats 1001, 1010 and 1020 are covered. -/
theorem C16_one_variable {env : Env F} (noHeader : Bool) (o : Obj F) (h : OneVar o) (k : Nat) :
    repeatWrites env noHeader k o = List.replicate k (o.write env noHeader).2 :=
  C16_identical_partial noHeader o (by cases o <;> first | trivial | exact absurd h (by simp [OneVar])) k

/-- C16. For every dictionary the files alternate: the first, third, ... are the same and the second,
fourth, ... are the same. -/
theorem C16_alternate {env : Env F} (noHeader : Bool) (o : Obj F) (k i : Nat) (hi : i < k) :
    (repeatWrites env noHeader k o)[i]? = some
      (if i % 2 = 0 then (o.write env noHeader).2
       else (((o.write env noHeader).1).write env noHeader).2) := by
  induction k using Nat.strongRecOn generalizing i with
  | ind k ih =>
    match k, i, hi with
    | k + 1, 0, _ => rfl
    | k + 2, 1, _ => rfl
    | k + 2, i + 2, hi =>
      simp only [repeatWrites, List.getElem?_cons_succ, o.write_twice env noHeader]
      rw [ih k (by omega) i (by omega)]
      simp

/-- C16. The data section is the same in all files: only the headers may differ. -/
theorem C16_same_data {env : Env F} (hc : CleanTop env) (o : Obj F)
    (hok : (o.write env false).2.err = none)
    (hok2 : ((o.write env false).1.write env false).2.err = none) :
    ∃ h1 h2 data, CompleteHeader env o.FFI h1 ∧ CompleteHeader env o.FFI h2 ∧
      (o.write env false).2.text = asLines o.ignored ++ h1 ++ data ∧
      ((o.write env false).1.write env false).2.text = asLines o.ignored ++ h2 ++ data := by
  obtain ⟨h1, hh1, ht1, _⟩ := C13_nlhead hc o hok
  obtain ⟨h2, hh2, ht2, _⟩ := C13_nlhead hc _ hok2
  have hw := write_turned env o hok
  have hf : (turned o).FFI = o.FFI := by cases o <;> rfl
  have hi : (turned o).ignored = o.ignored := by cases o <;> rfl
  have hd : ((forNoHeader (turned o)).write env true).2 = ((forNoHeader o).write env true).2 := by
    cases o <;> rfl
  rw [hw, hf] at hh2
  rw [hw, hi, hd] at ht2
  rw [hw]
  exact ⟨h1, h2, _, hh1, hh2, ht1, ht2⟩

/-- C16 does not hold for 2010, 2110, 2160 and 2310: the second file differs from the first, although both
writes succeed. -/
theorem C16_fails :
    (∃ a b, repeatWrites Ex.env false 2 (.o2010 Ex.d2010) = [a, b] ∧ a.err = none ∧ b.err = none ∧
      a.text ≠ b.text) ∧
    (∃ a b, repeatWrites Ex.env false 2 (.o2110 Ex.d2110) = [a, b] ∧ a.err = none ∧ b.err = none ∧
      a.text ≠ b.text) ∧
    (∃ a b, repeatWrites Ex.env false 2 (.o2160 Ex.d2160) = [a, b] ∧ a.err = none ∧ b.err = none ∧
      a.text ≠ b.text) ∧
    (∃ a b, repeatWrites Ex.env false 2 (.o2310 Ex.d2310) = [a, b] ∧ a.err = none ∧ b.err = none ∧
      a.text ≠ b.text) := by
  refine ⟨⟨_, _, rfl, ?_⟩, ⟨_, _, rfl, ?_⟩, ⟨_, _, rfl, ?_⟩, ⟨_, _, rfl, ?_⟩⟩ <;> decide +kernel

/-! ### C18 -/

/-- C18. A write is a sequence of file writes. Stopped after any number of them (by an exception, or because
the process stops), it leaves nothing, or one and the same complete header followed by whole lines from
the start of the data section. Without ignored lines (see `C18_fails_ignored_lines`). -/
theorem C18_whole_partial {env : Env F} (hc : CleanTop env) (o : Obj F) (hign : o.ignored = []) :
    (∀ k, concat ((o.write env false).2.writes.take k) = []) ∨
    ∃ h, CompleteHeader env o.FFI h ∧ ∀ k,
      concat ((o.write env false).2.writes.take k) = [] ∨
      ∃ lines, concat ((o.write env false).2.writes.take k) = h ++ lines ∧ WholeLines lines ∧
        lines <+: ((forNoHeader o).write env true).2.text := by
  rcases o.write_cases hc with ⟨e, he⟩ | ⟨h, hs, he⟩
  · left; intro k; rw [he, hign]; simp [ignoredWrites, concat]
  · right
    have hr := rows_after_header o (h := h) (by rw [he])
    have hl := ofRows_lines ((o.write env false).1.rows_end env)
    rw [hr] at he hl
    refine ⟨h, completeHeader_of_shape hs, ?_⟩
    intro k
    rw [he, hign]
    cases k with
    | zero => left; rfl
    | succ k =>
      right
      refine ⟨concat (((forNoHeader o).write env true).2.writes.take k), by
        simp [ignoredWrites, concat], wholeLines_concat fun l hm => hl l (List.mem_of_mem_take hm), ?_⟩
      refine ⟨concat (((forNoHeader o).write env true).2.writes.drop k), ?_⟩
      rw [← concat_append, List.take_append_drop, Out.text]

/-- C18. Without a header only whole data lines are written, at any stopping point. -/
theorem C18_no_header {env : Env F} (o : Obj F) (k : Nat) :
    WholeLines (concat ((o.write env true).2.writes.take k)) := by
  have : ∀ l ∈ (o.write env true).2.writes, ∃ t, l = t ++ ['\n'] := by
    cases o with
    | o2010 r => exact ofRows_lines ((Obj.o2010 { r with NX := r.NX.reverse }).rows_end env)
    | o1001 r => exact ofRows_lines ((Obj.o1001 r).rows_end env)
    | o1010 r => exact ofRows_lines ((Obj.o1010 r).rows_end env)
    | o1020 r => exact ofRows_lines ((Obj.o1020 r).rows_end env)
    | o2110 r => exact ofRows_lines ((Obj.o2110 r).rows_end env)
    | o2160 r => exact ofRows_lines ((Obj.o2160 r).rows_end env)
    | o2310 r => exact ofRows_lines ((Obj.o2310 r).rows_end env)
  exact wholeLines_concat fun l hm => this l (List.mem_of_mem_take hm)

/-- C18 does not hold for 2160 with ignored lines: they are written before the header is built, so a write
that fails in the header leaves a file without a header, and stopping between the first two writes leaves
half a line. -/
theorem C18_fails_ignored_lines :
    (write2160 Ex.env false { Ex.d2160 with c := { Ex.d2160.c with ONAME := [] } }).2
      = { writes := ["an extra line".toList, ['\n']], err := some .index } ∧
    concat ((write2160 Ex.env false Ex.d2160).2.writes.take 1) = "an extra line".toList := by
  decide +kernel

/-- A row that fails in the middle of the data: `V` of the second variable is one value short. -/
example : (write1001 Ex.env false { Ex.d1001 with V := [[1, 2, 3], [-4, 5]] }).err = some .index ∧
    (write1001 Ex.env false { Ex.d1001 with V := [[1, 2, 3], [-4, 5]] }).writes.length = 3 := by
  decide +kernel

/-! ### C19 -/

/-- C19. A write with header fails before the header is written, or it makes exactly the data writes, and
has the outcome, of a write without header - for 2010, 3010 and 4010 of the dictionary with `NX` turned
round. -/
theorem C19_data_section {env : Env F} (hc : CleanTop env) (o : Obj F) :
    ((o.write env false).2.err ≠ none ∧ (o.write env false).2.text = asLines o.ignored) ∨
    ∃ pre h, CompleteHeader env o.FFI h ∧ concat pre = asLines o.ignored ∧
      (o.write env false).2.writes = pre ++ h :: ((forNoHeader o).write env true).2.writes ∧
      (o.write env false).2.err = ((forNoHeader o).write env true).2.err := by
  rcases o.write_cases hc with ⟨e, he⟩ | ⟨h, hs, he⟩
  · left; rw [he]; exact ⟨by simp, ignoredWrites_text _⟩
  · right
    have hr := rows_after_header o (h := h) (by rw [he])
    rw [hr] at he
    exact ⟨_, h, completeHeader_of_shape hs, ignoredWrites_text _, by rw [he], by rw [he]⟩

/-- C19. For every format but 3010 and 4010 with uneven dimensions the two texts agree: the full text is the
ignored lines, the header and the text written without a header. -/
theorem C19_no_header_partial {env : Env F} (hc : CleanTop env) (o : Obj F)
    (hok : (o.write env false).2.err = none) (hnx : ∀ r, o = .o2010 r → Palindrome r.NX) :
    ∃ h, CompleteHeader env o.FFI h ∧ (o.write env true).2.err = none ∧
      (o.write env false).2.text = asLines o.ignored ++ h ++ (o.write env true).2.text := by
  have hf : forNoHeader o = o := by
    cases o with
    | o2010 r => have := hnx r rfl; unfold Palindrome at this; simp only [forNoHeader, this]
    | _ => rfl
  obtain ⟨h, h1, h2, _⟩ := C13_nlhead hc o hok
  rw [hf] at h2
  refine ⟨h, h1, ?_, h2⟩
  rcases o.write_cases hc with ⟨e, he⟩ | ⟨h', hs, he⟩
  · rw [he] at hok; cases hok
  · have hr := rows_after_header o (h := h') (by rw [he])
    rw [hf] at hr
    rw [he] at hok
    rw [← hr]; exact hok

/-- C19 covers 2010, which has one bounded dimension. -/
example (r : NA2010 F) (n : Int) (h : r.NX = [n]) : ∀ r', Obj.o2010 r = .o2010 r' → Palindrome r'.NX := by
  intro r' hr; cases hr; unfold Palindrome; rw [h]; rfl

/-- C19 does not hold for 3010: with dimensions 2 and 3 the file with header has two rows of three values;
without header the writer looks for three rows of two values and raises. -/
theorem C19_fails_3010 :
    (write2010 Ex.env false Ex.d3010).2.err = none ∧
    (write2010 Ex.env false Ex.d3010).2.writes.tail
      = ["0\n".toList, "1    2    3\n".toList, "4    5    6\n".toList] ∧
    (write2010 Ex.env true Ex.d3010).2 = { writes := ["0\n".toList], err := some .index } := by
  decide +kernel

example : CleanTop Ex.env ∧ ((Obj.o2010 Ex.d2010).write Ex.env false).2.err = none ∧
    Palindrome Ex.d2010.NX := ⟨⟨by decide, by simp [Ex.env]⟩, by decide +kernel, rfl⟩

end Nappy.Props
