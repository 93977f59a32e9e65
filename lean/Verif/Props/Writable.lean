import Verif.RestoreLemmas
import Verif.Props.Copy
import Verif.Props.Header

/-!
Properties C90 and C91: when a dictionary can be written, and when a file that was read can be written again.

`HeaderFilled` and `DataFilled` (`Spec/Writable.lean`) compare counts with lengths of lists. They know nothing of the
text that is written.
-/

namespace Nappy.Props

open Nappy Spec

variable {F : Type}

/-! ### C90 -/

/-- C90. Writing a dictionary with its header ends without an exception exactly if the counts of the header fit the
lists of the header and the data. -/
theorem C90_write (env : Env F) (o : Obj F) :
    (o.write env false).2.err = none ↔ HeaderFilled o ∧ DataFilled o := write_header_ok env o

/-- C90. Without a header only the counts that describe the data matter. (The dictionary of 2010, 3010 and 4010 is
expected with `NX` reversed then, see C16.) -/
theorem C90_no_header (env : Env F) (o : Obj F) :
    (o.write env true).2.err = none ↔ DataFilled (forNoHeader o) := write_noHeader_ok env o

/-- C90. Whether a dictionary can be written does not depend on the delimiter, the number format or annotation. -/
theorem C90_independent (env env' : Env F) (nh : Bool) (o : Obj F) :
    (o.write env nh).2.err = none ↔ (o.write env' nh).2.err = none := by
  cases nh with
  | false => rw [C90_write, C90_write]
  | true => rw [C90_no_header, C90_no_header]

/-- C90. A write that fails raises an `IndexError` or a `TypeError`. -/
theorem C90_errors (env : Env F) (nh : Bool) (o : Obj F) {e : Err} (h : (o.write env nh).2.err = some e) :
    e = .index ∨ e = .type := write_twoErrs env nh o h

/-- C90. One list of the header with a length that its count does not give is enough to make the write fail. -/
theorem C90_one_wrong (env : Env F) (r : NA1001 F) (h : (r.v.VMISS.length : Int) ≠ max r.v.NV 1) :
    ∃ e, ((Obj.o1001 r).write env false).2.err = some e ∧ (e = .index ∨ e = .type) := by
  cases he : ((Obj.o1001 r).write env false).2.err with
  | none => exact absurd ((C90_write env _).1 he).1.2.2.2.1.2.1 h
  | some e => exact ⟨e, rfl, C90_errors env false _ he⟩

/-- The conditions are met by dictionaries of every format. -/
example : ∀ o ∈ [Obj.o1001 Ex.d1001, .o1010 Ex.d1010, .o1020 Ex.d1020, .o2010 Ex.d2010, .o2010 Ex.d3010,
    .o2110 Ex.d2110, .o2160 Ex.d2160, .o2310 Ex.d2310], HeaderFilled o ∧ DataFilled o := by
  intro o ho
  rw [← C90_write Ex.env]
  revert o
  decide +kernel

/-- And they are not met by these: a column too short, a scale factor too many, an institution without a name. -/
example : ∀ o ∈ [Obj.o1001 { Ex.d1001 with V := [[1, 2, 3], [-4, 5]] },
    .o1001 { Ex.d1001 with v := { Ex.vars with VSCAL := [1, 10, 1] } },
    .o1001 { Ex.d1001 with c := { Ex.common 1001 with ORG := [] } }], ¬ (HeaderFilled o ∧ DataFilled o) := by
  intro o ho
  rw [← C90_write Ex.env]
  revert o
  decide +kernel

/-- A column longer than the others is not noticed. -/
example : HeaderFilled (.o1001 { Ex.d1001 with V := [[1, 2, 3], [-4, 5, 60, 70]] }) ∧
    DataFilled (.o1001 { Ex.d1001 with V := [[1, 2, 3], [-4, 5, 60, 70]] }) := by
  rw [← C90_write Ex.env]
  decide +kernel

/-! ### C91 -/

/-- C91, what holds: a file that was read can be written again exactly if the texts of its first lines are neither
empty nor a lone quote, no list of its header took up surplus values (C03), no axis of 2010, 3010 or 4010 declares more
values than it holds, and a 2160 file without auxiliary variables has no records. Nothing else can go wrong: the counts
and the data of a file that was read always fit. The full claim, that every file that can be read can be written, is
false, see `C91_fails`. -/
theorem C91_partial (env : Env F) {cd : Codec F} (hcd : ∀ x, cd.float [] ≠ .ok x) {k : Nat} {text : Str} {o : Obj F}
    (h : readFile cd k text = .ok o) : (o.write env false).2.err = none ↔ Restorable o := write_read_iff hcd h

/-- C91. The same for a copy made through the dictionary. -/
theorem C91_copy_partial (env : Env F) (hcd : ∀ x, env.cd.float [] ≠ .ok x) {k : Nat} {text : Str} {o : Obj F}
    (h : readFile env.cd k text = .ok o) :
    (∃ out, copyFile env k text = .ok out ∧ out.err = none) ↔ Restorable o := by
  rw [← C91_partial env hcd h]
  obtain ⟨d', hw⟩ := C72_dictionary env false (ign := o.ignored) h (by rintro r e; rw [e]; rfl)
  have hc : copyFile env k text = .ok (o.write env false).2 := by
    unfold copyFile
    rw [h, ok_bind, hw, ok_bind]
  rw [hc]
  exact ⟨fun ⟨out, e, he⟩ => by injection e with e; rw [e]; exact he, fun he => ⟨_, rfl, he⟩⟩

/-- C91. Written without a header, a file that was read always comes out again, whatever its texts and lists; except
for 2160 without auxiliary variables, and for 3010 and 4010 with dimensions that are not the same in both orders
(C16). -/
theorem C91_no_header (env : Env F) {cd : Codec F} (hcd : ∀ x, cd.float [] ≠ .ok x) {k : Nat} {text : Str} {o : Obj F}
    (h : readFile cd k text = .ok o) (hp : ∀ r, o = .o2010 r → Palindrome r.NX) :
    (o.write env true).2.err = none ↔ ∀ r, o = .o2160 r → r.aux.NAUXV ≤ 0 → r.X = [] := by
  have e : forNoHeader o = o := by
    cases o with
    | o2010 r => show Obj.o2010 { r with NX := r.NX.reverse } = .o2010 r; rw [hp r rfl]
    | _ => rfl
  rw [C90_no_header, e, dataFilled_read hcd h]

/-- A file with an empty second line. -/
def _root_.Nappy.Ex.nameless : Str :=
  asLines (["15 1001", "De Rudder", "", "MERIS", "TOROS", "1 1", "1969 1 1 2002 10 31", "0", "Seconds", "1", "1", "99",
    "O3", "0", "0", "1 2", "3 4"].map String.toList)

/-- A file with the scale factors on two lines and one too many. -/
def _root_.Nappy.Ex.surplus : Str :=
  asLines (["17 1001", "De Rudder", "RAL", "MERIS", "TOROS", "1 1", "1969 1 1 2002 10 31", "0", "Seconds", "2", "1",
    "1 1", "99 99", "O3", "Temp", "0", "0", "1 2 3", "3 4 5"].map String.toList)

theorem _root_.Nappy.Ex.read_of {text : Str} {P : Obj Int → Bool}
    (h : (match readFile intCodec 0 text with | .ok o => P o | _ => false) = true) :
    ∃ o, readFile intCodec 0 text = .ok o ∧ P o = true := by
  cases e : readFile intCodec 0 text with
  | ok o => rw [e] at h; exact ⟨o, rfl, h⟩
  | error x => rw [e] at h; cases h

/-- C91, negation: there are files that are read without complaint and cannot be written again: one with an empty line
for the institution, one with a scale factor too many. The write raises an exception, the first leaving a file without
a single line. -/
theorem C91_fails :
    (∃ o, readFile intCodec 0 Ex.nameless = .ok o ∧ (o.write Ex.env false).2.err = some .index ∧
      (o.write Ex.env false).2.text = []) ∧
    (∃ o, readFile intCodec 0 Ex.surplus = .ok o ∧ (o.write Ex.env false).2.err = some .type) := by
  constructor
  · obtain ⟨o, h, hp⟩ := Ex.read_of (text := Ex.nameless)
      (P := fun o => decide ((o.write Ex.env false).2.err = some .index ∧ (o.write Ex.env false).2.text = []))
      (by decide +kernel)
    exact ⟨o, h, of_decide_eq_true hp⟩
  · obtain ⟨o, h, hp⟩ := Ex.read_of (text := Ex.surplus)
      (P := fun o => decide ((o.write Ex.env false).2.err = some .type)) (by decide +kernel)
    exact ⟨o, h, of_decide_eq_true hp⟩

/-- The hypotheses are met by a file with two records, which can be written again. -/
example : ∃ o, readFile intCodec 0 (exFile ["1 2", "3 4"]) = .ok o ∧ Restorable o := by
  obtain ⟨o, h, hp⟩ := Ex.read_of (text := (exFile ["1 2", "3 4"])) (P := fun o => decide ((o.write Ex.env false).2.err = none))
    (by decide +kernel)
  exact ⟨o, h, (C91_partial Ex.env intCodec_empty h).1 (of_decide_eq_true hp)⟩

/-- And the nameless file can be written without its header. -/
example : ∃ o, readFile intCodec 0 Ex.nameless = .ok o ∧ (o.write Ex.env true).2.err = none ∧
    (o.write Ex.env true).2.text ≠ [] := by
  obtain ⟨o, h, hp⟩ := Ex.read_of (text := Ex.nameless)
    (P := fun o => decide ((o.write Ex.env true).2.err = none ∧ (o.write Ex.env true).2.text ≠ [])) (by decide +kernel)
  exact ⟨o, h, of_decide_eq_true hp⟩

end Nappy.Props
