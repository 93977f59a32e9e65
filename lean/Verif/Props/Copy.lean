import Verif.CopyLemmas
import Verif.Props.Read

/-!
Property C72: copying a file by writing the dictionary that was read from it.

`readFile` opens a file and reads its data, `dictOf` is `getNADict()`, `writeDict` is
`openNAFile(name, "w", na_dict)` followed by `write`, and `copyFile` puts them together.
-/

namespace Nappy.Props

open Nappy Spec

variable {F : Type}

/-- C72. A dictionary that holds the items of a well-formed object is written like the object; the dictionary of the
caller then holds the items of the object after its write (C15), and nothing but `XNAME`, `DX` and `NX` can have
changed in it. -/
theorem C72_written (env : Env F) (nh : Bool) {q : F → F} {d : Dict (PyVal F)} {o : Obj F} (ho : Faithful env.cd q o)
    (h : Describes d o) (hi : ∀ r, o = .o2160 r → dictGet? d "ignored_header_lines" = some (pyStrs r.ignored)) :
    ∃ d', writeDict env nh d = .ok (d', (o.write env nh).2) ∧ Describes d' (o.write env nh).1 ∧
      ∀ k ∉ ["XNAME", "DX", "NX"], dictGet? d' k = dictGet? d k :=
  ⟨_, writeDict_of env nh (faithful_class ho) (faithful_tidy ho) h hi,
    afterWrite_describes h (write_sameButTurned env nh o), fun k hk => afterWrite_get d _ k hk⟩

/-- C72. A dictionary without a format index is written in the format that is chosen for it, and the index is put into
the dictionary of the caller. -/
theorem C72_chosen (env : Env F) (nh : Bool) {q : F → F} {d : Dict (PyVal F)} {o : Obj F} (ho : Faithful env.cd q o)
    (hno : dictGet? d "FFI" = none) (hch : chooseFFI d = .ok o.FFI) (h : Describes (dictSet d "FFI" (.int o.FFI)) o)
    (hi : ∀ r, o = .o2160 r → dictGet? d "ignored_header_lines" = some (pyStrs r.ignored)) :
    ∃ d', writeDict env nh d = .ok (d', (o.write env nh).2) ∧ dictGet? d' "FFI" = some (.int o.FFI) := by
  obtain ⟨d', h1, _, h3⟩ := C72_written env nh ho h (fun r e => by rw [dictGet?_set, if_neg (by decide)]; exact hi r e)
  refine ⟨d', ?_, by rw [h3 _ (by decide), dictGet?_set, if_pos rfl]⟩
  rw [← h1]
  unfold writeDict openDict
  rw [hno]
  simp only [hch, ok_bind, dictGet?_set, if_true]

/-- C72. For every file that can be read, writing its dictionary does exactly what writing the object does: going
through the dictionary loses nothing. `ign` are the lines ignored when the file was read; only 2160 writes them. -/
theorem C72_dictionary (env : Env F) (nh : Bool) {k : Nat} {text : Str} {o : Obj F} {ign : List Str}
    (h : readFile env.cd k text = .ok o) (hi : ∀ r, o = .o2160 r → ign = r.ignored) :
    ∃ d', writeDict env nh (dictOf ign o) = .ok (d', (o.write env nh).2) := by
  obtain ⟨o0, h0, h1⟩ := ok_of_bind h
  have hs := C24_header_kept env.cd text o0 o h1
  exact ⟨_, writeDict_of env nh (sameHeader_class hs (openNA_class h0).1) (sameHeader_tidy hs (openNA_tidy h0))
    (dictOf_describes ign o) (fun r e => by rw [dictOf_ignored, hi r e])⟩

/-- C72, what holds: the copy of a file that nappy wrote for a well-formed dictionary is that file, apart from white
space at the ends of comment lines. `Faithful` leaves out the dictionaries that do not survive being read (C09, C11,
C12); `C72_fails` shows one. The assumption on the number format is that a rounded number is printed like the number
itself. -/
theorem C72_copy_partial {env : Env F} {q : F → F} (hcd : env.cd.Lawful q) (hann : env.ann = none)
    (hd : WsDelim env.delim) (hq : ∀ x, env.cd.ffmt (q x) = env.cd.ffmt x) {o : Obj F} (ho : Faithful env.cd q o) :
    copyFile env o.ignored.length (o.write env false).2.text = .ok ((trimComments o).write env false).2 := by
  obtain ⟨he, n, hr⟩ := readFile_written hcd hann hd ho
  obtain ⟨d', hw⟩ := C72_dictionary env false (ign := (readForm q n o).ignored) hr (by rintro r e; rw [e]; rfl)
  unfold copyFile
  rw [hr, ok_bind]
  rw [hw, ok_bind]
  exact congrArg Except.ok (write_readForm hcd hann hd hq n ho)

/-- C72. If no comment line has white space at its ends, the copy is the same text. -/
theorem C72_same_partial {env : Env F} {q : F → F} (hcd : env.cd.Lawful q) (hann : env.ann = none)
    (hd : WsDelim env.delim) (hq : ∀ x, env.cd.ffmt (q x) = env.cd.ffmt x) {o : Obj F} (ho : Faithful env.cd q o)
    (hc : trimComments o = o) :
    ∃ out, copyFile env o.ignored.length (o.write env false).2.text = .ok out ∧ out.err = none ∧
      out.text = (o.write env false).2.text := by
  refine ⟨_, C72_copy_partial hcd hann hd hq ho, ?_, ?_⟩
  · rw [hc]; exact (readFile_written hcd hann hd ho).1
  · rw [hc]

/-- C72. Copying the copy changes nothing, whatever the comments. -/
theorem C72_again_partial {env : Env F} {q : F → F} (hcd : env.cd.Lawful q) (hann : env.ann = none)
    (hd : WsDelim env.delim) (hq : ∀ x, env.cd.ffmt (q x) = env.cd.ffmt x) {o : Obj F} (ho : Faithful env.cd q o) :
    ∃ out out', copyFile env o.ignored.length (o.write env false).2.text = .ok out ∧ out.err = none ∧
      copyFile env o.ignored.length out.text = .ok out' ∧ out'.err = none ∧ out'.text = out.text := by
  have h2 := faithful_trim ho
  obtain ⟨out', e, h3, h4⟩ := C72_same_partial hcd hann hd hq h2 (trimComments_trimComments o)
  have hi : (trimComments o).ignored = o.ignored := by cases o <;> rfl
  rw [hi] at e
  exact ⟨_, out', C72_copy_partial hcd hann hd hq ho, (readFile_written hcd hann hd h2).1, e, h3, h4⟩

/-! ### Concrete cases -/

/-- Numbers printed with the last digit cut off to zero and a blank in front: printing rounds. -/
def Ex.tensCodec : Codec Int :=
  { sfmt := intStr, ffmt := fun x => ' ' :: intStr (10 * (x / 10)), parse := parseInt, trunc := some, ofInt := id }

theorem Ex.tens_lawful : Ex.tensCodec.Lawful (fun x => 10 * (x / 10)) where
  sfmt_token := Nappy.Ex.intCodec_lawful.sfmt_token
  sfmt_quote := Nappy.Ex.intCodec_lawful.sfmt_quote
  sfmt_parse := Nappy.Ex.intCodec_lawful.sfmt_parse
  ffmt_token x := ⟨[' '], intStr (10 * (x / 10)), [], by simp [Ex.tensCodec], by simp, by simp, token_intStr _,
    parseInt_intStr _⟩

theorem Ex.tens_round (x : Int) : Ex.tensCodec.ffmt (10 * (x / 10)) = Ex.tensCodec.ffmt x := by
  have : 10 * (10 * (x / 10) / 10) = 10 * (x / 10) := by omega
  simp only [Ex.tensCodec, this]

def Ex.tens : Env Int := { cd := Ex.tensCodec, delim := "    ".toList, ann := none }

/-- The hypotheses are met, also by a format that rounds. -/
example : ∃ out, copyFile Ex.tens 0 ((Obj.o1010 Nappy.Ex.d1010).write Ex.tens false).2.text = .ok out ∧
    out.err = none ∧ out.text = ((Obj.o1010 Nappy.Ex.d1010).write Ex.tens false).2.text :=
  C72_same_partial (env := Ex.tens) Ex.tens_lawful rfl (by decide) Ex.tens_round (o := .o1010 Nappy.Ex.d1010)
    Nappy.Ex.wf1010 rfl

example : ∃ out, copyFile Nappy.Ex.env 1 ((Obj.o2160 Nappy.Ex.d2160).write Nappy.Ex.env false).2.text = .ok out ∧
    out.err = none ∧ out.text = ((Obj.o2160 Nappy.Ex.d2160).write Nappy.Ex.env false).2.text :=
  C72_same_partial (env := Nappy.Ex.env) Nappy.Ex.intCodec_lawful rfl Nappy.Ex.env_delim (fun _ => rfl)
    (o := .o2160 Nappy.Ex.d2160) ⟨_, _, Nappy.Ex.wf2160⟩ rfl

/-- A dictionary without format index for `C72_chosen`. -/
def _root_.Nappy.Ex.unnamed : Dict (PyVal Int) :=
  (dictOf [] (Obj.o1001 Nappy.Ex.d1001)).filter (fun kv => kv.1 ≠ "FFI")

/-- It chooses 1001 and describes the example once the index is set. -/
example : dictGet? (Nappy.Ex.unnamed) "FFI" = none ∧ chooseFFI Nappy.Ex.unnamed = .ok (Obj.o1001 Nappy.Ex.d1001).FFI ∧
    Describes (dictSet Nappy.Ex.unnamed "FFI" (.int (Obj.o1001 Nappy.Ex.d1001).FFI)) (.o1001 Nappy.Ex.d1001) := by
  refine ⟨by decide +kernel, by decide +kernel, ?_⟩
  intro kv hkv
  revert kv
  have h : ∀ d : Dict (PyVal Int), ∀ l : Dict (PyVal Int), List.Forall (fun kv => dictGet? d kv.1 = some kv.2) l →
      ∀ kv ∈ l, kv.1 ≠ "ignored_header_lines" → dictGet? d kv.1 = some kv.2 :=
    fun d l hl kv hkv _ => List.forall_iff_forall_mem.mp hl kv hkv
  exact h _ _ (by repeat' (first | rfl | apply And.intro))

/-- C72, negation: the copy of a 2310 file with two variables and two values at a mark is another file. -/
theorem C72_fails : Wf2310 some some Nappy.Ex.d2310_two ∧
    ((Obj.o2310 Nappy.Ex.d2310_two).write Nappy.Ex.env false).2.err = none ∧
    ∃ out, copyFile Nappy.Ex.env 0 ((Obj.o2310 Nappy.Ex.d2310_two).write Nappy.Ex.env false).2.text = .ok out ∧
      out.err = none ∧ out.text ≠ ((Obj.o2310 Nappy.Ex.d2310_two).write Nappy.Ex.env false).2.text := by
  refine ⟨Nappy.Ex.wf2310_two, by decide +kernel, ?_⟩
  have h : (match copyFile Nappy.Ex.env 0 ((Obj.o2310 Nappy.Ex.d2310_two).write Nappy.Ex.env false).2.text with
      | .ok out => decide (out.err = none ∧
          out.text ≠ ((Obj.o2310 Nappy.Ex.d2310_two).write Nappy.Ex.env false).2.text)
      | .error _ => false) = true := by decide +kernel
  split at h
  · rename_i out e
    exact ⟨out, e, of_decide_eq_true h⟩
  · cases h

end Nappy.Props
