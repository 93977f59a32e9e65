import Verif.Examples
import Verif.RT1001
import Verif.RT2310
import Verif.RT2160

/-!
Properties C06-C12: writing a dictionary and reading the file back.

In every theorem `env` holds the delimiter and the number formats, annotation is off, the delimiter is
any non-empty white space within a line, and `q` is the rounding done by the float format of the data.
The equations also say that the returned dictionary keeps every field not mentioned.
-/

namespace Nappy.Props

open Nappy Spec

variable {F : Type}

/-- Number of header lines for the auxiliary variables section. -/
def auxSize (nauxv : Int) : Int := if nauxv = 0 then 1 else 3 + nauxv

theorem auxLines_length (cd : Codec F) (d : Str) {a : AuxHdr F} (ha : WfAux a) :
    ((auxLines cd d a).length : Int) = auxSize a.NAUXV := by
  have h1 := ha.nonneg
  have h2 := ha.aname
  unfold auxLines auxSize
  by_cases h : a.NAUXV > 0
  · rw [if_pos h, if_neg (by omega)]; simp; omega
  · rw [if_neg h, if_pos (by omega)]; simp

/-! ### C06 -/

/-- C06. A well-formed 1001 dictionary is written without an error; reading the file back gives the
same dictionary, with NLHEAD the number of header lines and data values rounded by the format. -/
theorem C06_roundtrip_1001 {env : Env F} {q : F → F} (hcd : env.cd.Lawful q) (hann : env.ann = none)
    (hd : WsDelim env.delim) {r : NA1001 F} (hr : Wf1001 r) :
    (write1001 env false r).err = none ∧
    read1001 env.cd 0 (write1001 env false r).text =
      .ok { r with com := trimCom r.com,
                   c := { r.c with NLHEAD := 14 + r.v.NV + r.com.NSCOML + r.com.NNCOML },
                   X := r.X.map q, V := r.V.map (fun col => col.map q) } := by
  refine ⟨by rw [write1001_text hcd hann hd hr], ?_⟩
  have h := hdrLines1001_length env 0 r
  have := hr.xname; have := hr.vars.vname; have := hr.com.nscoml; have := hr.com.nncoml
  have hN : ((hdrLines1001 env 0 r).length : Int)
      = 14 + r.v.NV + r.com.NSCOML + r.com.NNCOML := by omega
  rw [read1001_written hcd hann hd hr, hN]

example : (write1001 Ex.env false Ex.d1001).err = none ∧
    read1001 intCodec 0 (write1001 Ex.env false Ex.d1001).text
      = .ok { Ex.d1001 with c := { Ex.common 1001 with NLHEAD := 19 } } := by
  have h := C06_roundtrip_1001 Ex.intCodec_lawful (env := Ex.env) rfl Ex.env_delim Ex.wf1001
  exact h

/-! ### C07 -/

/-- C07. The same for 1010, with or without auxiliary variables. -/
theorem C07_roundtrip_1010 {env : Env F} {q : F → F} (hcd : env.cd.Lawful q) (hann : env.ann = none)
    (hd : WsDelim env.delim) {r : NA1010 F} (hr : Wf1010 r) :
    (write1010 env false r).err = none ∧
    read1010 env.cd 0 (write1010 env false r).text =
      .ok { r with com := trimCom r.com,
                   c := { r.c with NLHEAD :=
                            14 + r.v.NV + auxSize r.aux.NAUXV + r.com.NSCOML + r.com.NNCOML },
                   X := r.X.map q, A := r.A.map (fun col => col.map q),
                   V := r.V.map (fun col => col.map q) } := by
  refine ⟨by rw [write1010_text hcd hann hd hr], ?_⟩
  have h1 := auxLines_length env.cd env.delim hr.aux
  have h : (hdrLines1010 env 0 r).length = 13 + r.XNAME.length + r.v.VNAME.length +
      (auxLines env.cd env.delim r.aux).length + r.com.SCOM.length + r.com.NCOM.length := by
    simp [hdrLines1010, commonLines, varLines, comLines]; omega
  have := hr.xname; have := hr.vars.vname; have := hr.com.nscoml; have := hr.com.nncoml
  have hN : ((hdrLines1010 env 0 r).length : Int)
      = 14 + r.v.NV + auxSize r.aux.NAUXV + r.com.NSCOML + r.com.NNCOML := by omega
  rw [read1010_written hcd hann hd hr, hN]

example : Wf1010 Ex.d1010 := Ex.wf1010

/-! ### C08 -/

/-- C08. The same for 1020, with `NVPM` values of each variable per mark. -/
theorem C08_roundtrip_1020 {env : Env F} {q : F → F} (hcd : env.cd.Lawful q) (hann : env.ann = none)
    (hd : WsDelim env.delim) {r : NA1020 F} (hr : Wf1020 r) :
    (write1020 env false r).err = none ∧
    read1020 env.cd 0 (write1020 env false r).text =
      .ok { r with com := trimCom r.com,
                   c := { r.c with NLHEAD :=
                            15 + r.v.NV + auxSize r.aux.NAUXV + r.com.NSCOML + r.com.NNCOML },
                   X := r.X.map q, A := r.A.map (fun col => col.map q),
                   V := r.V.map (fun col => col.map q) } := by
  refine ⟨by rw [write1020_text hcd hann hd hr], ?_⟩
  have h1 := auxLines_length env.cd env.delim hr.aux
  have h : (hdrLines1020 env 0 r).length = 14 + r.XNAME.length + r.v.VNAME.length +
      (auxLines env.cd env.delim r.aux).length + r.com.SCOM.length + r.com.NCOM.length := by
    simp [hdrLines1020, commonLines, varLines, comLines]; omega
  have := hr.xname; have := hr.vars.vname; have := hr.com.nscoml; have := hr.com.nncoml
  have hN : ((hdrLines1020 env 0 r).length : Int)
      = 15 + r.v.NV + auxSize r.aux.NAUXV + r.com.NSCOML + r.com.NNCOML := by omega
  rw [read1020_written hcd hann hd hr, hN]

example : Wf1020 Ex.d1020 := Ex.wf1020

/-! ### C09 -/

/-- C09, what holds: a well-formed 2010, 3010 or 4010 dictionary whose list `NXDEF` reads the same
backwards comes back. Missing: other lists `NXDEF` (see `C09_needs_palindrome`); 2010 is not
restricted (see `C09_roundtrip_2010`). -/
theorem C09_roundtrip_partial {env : Env F} {q : F → F} (hcd : env.cd.Lawful q)
    (hann : env.ann = none) (hd : WsDelim env.delim) {r : NA2010 F} (hr : Wf2010 r)
    (hpal : r.NXDEF.reverse = r.NXDEF) :
    (write2010 env false r).2.err = none ∧
    read2010 env.cd 0 (write2010 env false r).2.text =
      .ok { r with com := trimCom r.com,
                   c := { r.c with NLHEAD :=
                            14 + 2 * r.NIV + r.v.NV + auxSize r.aux.NAUXV
                              + r.com.NSCOML + r.com.NNCOML },
                   X0 := r.X0.map q, XB := r.XB.map (fun x => x.map q),
                   A := r.A.map (fun col => col.map q),
                   V := r.V.map (fun col => col.map (mapTree q)) } := by
  refine ⟨by rw [write2010_text hcd hann hd hr], ?_⟩
  have h1 := auxLines_length env.cd env.delim hr.aux
  have h : (hdrLines2010 env 0 r).length = 15 + r.XB.length + r.XNAME.length + r.v.VNAME.length +
      (auxLines env.cd env.delim r.aux).length + r.com.SCOM.length + r.com.NCOM.length := by
    simp [hdrLines2010, commonLines, varLines, comLines, axesLines]; omega
  have h2 := congrArg List.length hr.axes
  rw [List.length_map] at h2
  have := hr.xname; have := hr.vars.vname; have := hr.com.nscoml; have := hr.com.nncoml
  have := hr.nxdef
  have hN : ((hdrLines2010 env 0 r).length : Int)
      = 14 + 2 * r.NIV + r.v.NV + auxSize r.aux.NAUXV
        + r.com.NSCOML + r.com.NNCOML := by omega
  rw [read2010_written hcd hann hd hr hpal, hN]

/-- C09 for 2010: every well-formed dictionary comes back. -/
theorem C09_roundtrip_2010 {env : Env F} {q : F → F} (hcd : env.cd.Lawful q)
    (hann : env.ann = none) (hd : WsDelim env.delim) {r : NA2010 F} (hr : Wf2010 r)
    (h2010 : r.c.FFI = 2010) :
    (write2010 env false r).2.err = none ∧
    read2010 env.cd 0 (write2010 env false r).2.text =
      .ok { r with com := trimCom r.com,
                   c := { r.c with NLHEAD :=
                            18 + r.v.NV + auxSize r.aux.NAUXV + r.com.NSCOML + r.com.NNCOML },
                   X0 := r.X0.map q, XB := r.XB.map (fun x => x.map q),
                   A := r.A.map (fun col => col.map q),
                   V := r.V.map (fun col => col.map (mapTree q)) } := by
  have hniv : r.NIV = 2 := by
    rcases hr.ffi with h | h | h
    · exact h.2
    · rw [h.1] at h2010; exact absurd h2010 (by decide)
    · rw [h.1] at h2010; exact absurd h2010 (by decide)
  have hl : r.NXDEF.length = 1 := by have := hr.nxdef; omega
  have hpal : r.NXDEF.reverse = r.NXDEF := by
    obtain ⟨x, hx⟩ := List.length_eq_one_iff.1 hl
    rw [hx]; rfl
  have h := C09_roundtrip_partial hcd hann hd hr hpal
  have e : 14 + 2 * r.NIV = 18 := by omega
  rw [e] at h
  exact h

example : Wf2010 Ex.d2010 ∧ Ex.d2010.c.FFI = 2010 := ⟨Ex.wf2010, rfl⟩
example : Wf2010 Ex.d3010 ∧ Ex.d3010.NXDEF.reverse = Ex.d3010.NXDEF := ⟨Ex.wf3010, rfl⟩

/-- Reading axis lines one by one gives the axes back only if the counts are the lengths of the lines in
the order of the lines. -/
theorem readAxes_counts {env : Env F} {q : F → F} (hcd : env.cd.Lawful q) (hd : WsDelim env.delim)
    (ns : List Int) (xs : List (List F)) (hne : ∀ x ∈ xs, x ≠ []) (rest rest' : List Str)
    (h : readAxes env.cd ns (nl (xs.map (axisRow env)) ++ rest)
      = .ok (xs.map (fun x => x.map q), rest')) :
    ns = xs.map (fun x => (x.length : Int)) := by
  induction xs generalizing ns with
  | nil =>
    cases ns with
    | nil => rfl
    | cons n ns =>
      simp only [readAxes] at h
      cases h1 : readUnkFile n env.cd.float (nl (([] : List (List F)).map (axisRow env)) ++ rest) with
      | error e => rw [h1] at h; cases h
      | ok v =>
        rw [h1] at h
        simp only [ok_bind] at h
        cases h2 : readAxes env.cd ns v.2 with
        | error e => rw [h2] at h; cases h
        | ok w => rw [h2] at h; cases h
  | cons a t ih =>
    cases ns with
    | nil => cases h
    | cons n ns =>
      simp only [readAxes, List.map_cons, nl_cons, List.cons_append] at h
      cases h1 : readUnkFile n env.cd.float
          ((axisRow env a ++ ['\n']) :: (nl (t.map (axisRow env)) ++ rest)) with
      | error e => rw [h1] at h; cases h
      | ok v =>
        rw [h1] at h
        obtain ⟨vals, ls⟩ := v
        simp only [ok_bind] at h
        cases h2 : readAxes env.cd ns ls with
        | error e => rw [h2] at h; cases h
        | ok w =>
          rw [h2] at h
          obtain ⟨ws, rest2⟩ := w
          simp only [ok_bind, Except.ok.injEq, Prod.mk.injEq, List.cons.injEq] at h
          obtain ⟨⟨hv, hw⟩, hrest⟩ := h
          rw [readUnkFile, readUnk_ok_iff] at h1
          obtain ⟨hn, pre, l, e, hlt, hle, hll, hm⟩ := h1
          have hal : 0 < a.length := List.length_pos_of_ne_nil (hne a (by simp))
          have hitems : (lineItems (axisRow env a ++ ['\n'])).length = a.length := by
            have h3 := readUnk_axis hcd hd .hang a (a.length : Int) rfl (by omega) []
            rw [readUnk_ok_iff] at h3
            obtain ⟨_, p3, l3, e3, h31, h32, _, hm3⟩ := h3
            have hp3 : p3 = [] := by
              cases p3 with
              | nil => rfl
              | cons x xs =>
                have := congrArg List.length e3
                simp at this
            subst hp3
            simp only [List.nil_append, List.cons.injEq, and_true] at e3
            rw [← e3] at hm3
            have := mapRes_ok_length _ _ _ hm3
            simpa using this.symm
          have hcount := mapRes_ok_length _ _ _ hm
          have hpre : pre = [] := by
            cases pre with
            | nil => rfl
            | cons p ps =>
              exfalso
              simp only [List.cons_append, List.cons.injEq] at e
              rw [← e.1] at hlt hle hcount
              simp only [List.cons_append, allItems_cons, List.length_append, hitems] at hlt hle hcount
              have : vals.length = a.length := by rw [hv]; simp
              omega
          subst hpre
          simp only [List.nil_append, List.cons.injEq] at e
          obtain ⟨el, els⟩ := e
          subst el
          simp only [List.nil_append, allItems_cons, allItems_nil, List.append_nil, hitems] at hle hll
          have hna : n = a.length := by omega
          subst els
          subst hw
          subst hrest
          rw [ih ns (fun x hx => hne x (List.mem_cons_of_mem _ hx)) h2, List.map_cons, hna]

/-- C09. The condition on `NXDEF` cannot be dropped: for every well-formed dictionary, if reading the
written file gives the same axes then `NXDEF` reads the same backwards. -/
theorem C09_needs_palindrome {env : Env F} {q : F → F} (hcd : env.cd.Lawful q)
    (hann : env.ann = none) (hd : WsDelim env.delim) {r r' : NA2010 F} (hr : Wf2010 r)
    (hread : read2010 env.cd 0 (write2010 env false r).2.text = .ok r')
    (hax : r'.XB = r.XB.map (fun x => x.map q)) : r.NXDEF.reverse = r.NXDEF := by
  obtain ⟨hniv, hge⟩ := wf2010_niv hr
  rw [write2010_text hcd hann hd hr] at hread
  generalize ((hdrLines2010 env 0 r).length : Int) = N at hread
  have hplain : ∀ s ∈ hdrLines2010 env N r ++ (dataLines2010 env r).flatten, Plain s := by
    intro s hs
    rw [List.mem_append] at hs
    rcases hs with hs | hs
    · exact plain_hdr2010 hcd hd hr _ s hs
    · simp only [dataLines2010, List.mem_flatten, List.mem_mapIdx] at hs
      obtain ⟨_, ⟨i, hi, rfl⟩, hs⟩ := hs
      rw [List.mem_cons, List.mem_map] at hs
      rcases hs with rfl | ⟨xs, _, rfl⟩
      · exact plain_rowText hcd hd _
      · exact plain_rowText hcd hd _
  rw [text_header_rows] at hread
  unfold read2010 at hread
  rw [fileLines_unlines _ hplain, nl_append] at hread
  generalize nl (dataLines2010 env r).flatten = rest at hread
  unfold readHeader2010 hdrLines2010 at hread
  rw [nl_append, List.append_assoc, readCommon_lines hd hr.common] at hread
  simp only [ok_bind, hniv, nl_cons, List.cons_append, readline] at hread
  rw [floats_line hcd hd _ _ (by simpa using hr.dx) (by omega)] at hread
  simp only [ok_bind] at hread
  rw [ints_line hd _ _ (by simpa using hr.nx) (by omega)] at hread
  simp only [ok_bind] at hread
  rw [ints_line hd _ _ (by simpa using hr.nxdef) (by omega)] at hread
  simp only [ok_bind, List.reverse_reverse, nl_append, List.append_assoc] at hread
  generalize nl r.XNAME.reverse ++ _ = rest2 at hread
  cases h1 : readAxes env.cd r.NXDEF (nl (axesLines env r.XB) ++ rest2) with
  | error e => rw [h1] at hread; cases hread
  | ok w =>
    obtain ⟨xs, ls⟩ := w
    rw [h1] at hread
    simp only [ok_bind] at hread
    have hxs : r'.XB = xs.reverse := by
      generalize readLinesN r.NIV.toNat ls = p3 at hread
      cases h3 : readVars env.cd p3.2 with
      | error e => rw [h3] at hread; cases hread
      | ok p4 =>
        rw [h3] at hread
        simp only [ok_bind] at hread
        cases h4 : readAux env.cd p4.2 with
        | error e => rw [h4] at hread; cases hread
        | ok p5 =>
          rw [h4] at hread
          simp only [ok_bind] at hread
          cases h5 : readComments p5.2 with
          | error e => rw [h5] at hread; cases hread
          | ok p6 =>
            rw [h5] at hread
            simp only [ok_bind, readData2010] at hread
            generalize readDataWith _ _ _ _ = res at hread
            cases res with
            | error e => cases hread
            | ok a =>
              simp only [ok_bind, Except.ok.injEq] at hread
              rw [← hread]
    have hxs' : xs = r.XB.reverse.map (fun x => x.map q) := by
      rw [List.map_reverse, ← hax, hxs, List.reverse_reverse]
    rw [hxs', axesLines] at h1
    have h2 := readAxes_counts hcd hd _ _
      (fun x hx => wf2010_axes_ne hr x (List.mem_reverse.1 hx)) _ _ h1
    rw [List.map_reverse, hr.axes] at h2
    exact h2.symm

/-- C09, negation: a well-formed 3010 dictionary that is written without an error and cannot be read
back. -/
theorem C09_not_3010 : Wf2010 Ex.d3010_uneven ∧
    (write2010 Ex.env false Ex.d3010_uneven).2.err = none ∧
    (match read2010 intCodec 0 (write2010 Ex.env false Ex.d3010_uneven).2.text with
      | .ok _ => none | .error e => some e) = some .exn :=
  ⟨Ex.wf3010_uneven, by decide +kernel, by decide +kernel⟩

/-! ### C10 -/

/-- C10. A well-formed 2110 dictionary comes back; `read` of a count in the first auxiliary variable is
`int(q a)`. -/
theorem C10_roundtrip_2110 {env : Env F} {q : F → F} (hcd : env.cd.Lawful q) (hann : env.ann = none)
    (hd : WsDelim env.delim) {r : NA2110 F} (hr : Wf2110 (fun a => env.cd.trunc (q a)) r) :
    (write2110 env false r).2.err = none ∧
    read2110 env.cd 0 (write2110 env false r).2.text =
      .ok { r with com := trimCom r.com,
                   c := { r.c with NLHEAD :=
                            15 + r.v.NV + auxSize r.aux.NAUXV + r.com.NSCOML + r.com.NNCOML },
                   X := r.X.map (fun x => (q x.1, x.2.map q)),
                   A := r.A.map (fun col => col.map q),
                   V := r.V.map (fun vn => vn.map (fun l => l.map q)) } := by
  refine ⟨by rw [write2110_text hcd hann hd hr], ?_⟩
  have h1 := auxLines_length env.cd env.delim hr.aux
  have h : (hdrLines2110 env 0 r.DX.reverse r).length = 13 + r.XNAME.length + r.v.VNAME.length +
      (auxLines env.cd env.delim r.aux).length + r.com.SCOM.length + r.com.NCOM.length := by
    simp [hdrLines2110, commonLines, varLines, comLines]; omega
  have := hr.xname; have := hr.vars.vname; have := hr.com.nscoml; have := hr.com.nncoml
  have hN : ((hdrLines2110 env 0 r.DX.reverse r).length : Int)
      = 15 + r.v.NV + auxSize r.aux.NAUXV + r.com.NSCOML + r.com.NNCOML := by omega
  rw [read2110_written hcd hann hd hr, hN]

example : Wf2110 (fun a => intCodec.trunc (id a)) Ex.d2110 := Ex.wf2110

/-! ### C11 -/

/-- C11, what holds: a well-formed 2160 dictionary comes back. `Wf2160` asks for marks that are single
words, text values that are not blank, and at least one auxiliary variable of each kind. Missing:
marks of several words (`C11_not_two_words`), no character auxiliary variable
(`C11_not_without_text`). -/
theorem C11_roundtrip_2160_partial {env : Env F} {q : F → F} (hcd : env.cd.Lawful q)
    (hann : env.ann = none) (hd : WsDelim env.delim) {r : NA2160 F} {N : List (List F)}
    {T : List (List Str)} (hr : Wf2160 (fun a => env.cd.trunc (q a)) r N T) :
    (write2160 env false r).2.err = none ∧
    read2160 env.cd r.ignored.length (write2160 env false r).2.text =
      .ok { r with com := trimCom r.com,
                   c := { r.c with NLHEAD :=
                            21 + r.v.NV + r.aux.NAUXV + r.aux.NAUXC + r.com.NSCOML + r.com.NNCOML
                              + r.ignored.length },
                   X := r.X.map (fun x => (x.1, x.2.map q)),
                   A := N.map (fun col => col.map (fun x => Cell.num (q x)))
                     ++ T.map (fun col => col.map Cell.str),
                   V := r.V.map (fun vn => vn.map (fun l => l.map q)) } := by
  refine ⟨by rw [write2160_text hcd hann hd hr], ?_⟩
  obtain ⟨k, ms, ss, ls, h1, h2, h3, h4, h5, h6, h7, h8, h9, h10⟩ := hr.aux.nums
  have h : (hdrLines2160 env 0 r).length = 14 + r.XNAME.length + r.v.VNAME.length +
      (charAuxLines env.cd env.delim r.aux).length + r.com.SCOM.length + r.com.NCOM.length := by
    simp [hdrLines2160, commonLines, varLines, comLines]; omega
  have ha : (charAuxLines env.cd env.delim r.aux).length = 5 + ss.length + r.aux.ANAME.length := by
    rw [charAuxLines_eq env.cd env.delim r.aux k ms ss ls (by omega) h6 h8 h10]
    simp; omega
  have := hr.xname; have := hr.vars.vname; have := hr.com.nscoml; have := hr.com.nncoml
  have := hr.aux.aname
  have hN : ((hdrLines2160 env 0 r).length : Int)
      = 21 + r.v.NV + r.aux.NAUXV + r.aux.NAUXC + r.com.NSCOML + r.com.NNCOML := by omega
  rw [read2160_written hcd hann hd hr, hN]

example : Wf2160 (fun a => intCodec.trunc (id a)) Ex.d2160 [[2, 1]]
    [["J. Smith".toList, "A. Jones".toList]] := Ex.wf2160

/-- C11, negation: a mark of two words is written without an error and cannot be read back. -/
theorem C11_not_two_words :
    let r := { Ex.d2160 with X := [("New York".toList, [10, 20]), ("Cosford".toList, [15])] }
    (write2160 Ex.env false r).2.err = none ∧
      read2160 intCodec 1 (write2160 Ex.env false r).2.text = .error .exn := by
  decide +kernel

/-- C11, negation: without a character auxiliary variable the header is not even written. -/
theorem C11_not_without_text :
    let r := { Ex.d2160 with aux := { NAUXV := 1, NAUXC := 0, ASCAL := [1], AMISS := [.num 99],
                                      LENA := [none], ANAME := ["count".toList] },
                             A := [[.num 2, .num 1]] }
    (write2160 Ex.env false r).2.err = some .type := by
  decide +kernel

/-! ### C12 -/

/-- Number of header lines of a 2310 file. -/
theorem hdr2310_size {env : Env F} {count : F → Option Int} {incr : F → Option F} {r : NA2110 F}
    (hr : Wf2310 count incr r) (d0 : F) :
    ((hdrLines2110 env 0 [d0] r).length : Int)
      = 15 + r.v.NV + auxSize r.aux.NAUXV + r.com.NSCOML + r.com.NNCOML := by
  have h1 := auxLines_length env.cd env.delim hr.aux
  have h : (hdrLines2110 env 0 [d0] r).length = 13 + r.XNAME.length + r.v.VNAME.length +
      (auxLines env.cd env.delim r.aux).length + r.com.SCOM.length + r.com.NCOM.length := by
    simp [hdrLines2110, commonLines, varLines, comLines]; omega
  have := hr.xname; have := hr.vars.vname; have := hr.com.nscoml; have := hr.com.nncoml
  omega

/-- C12, what holds: a well-formed 2310 dictionary with one variable, or with one value per mark, comes
back. Missing: several variables with several values at a mark (see `C12_read_back` for what is read
then, and `C12_not_two_variables`). -/
theorem C12_roundtrip_2310_partial {env : Env F} {q : F → F} (hcd : env.cd.Lawful q)
    (hann : env.ann = none) (hd : WsDelim env.delim) {r : NA2110 F}
    (hr : Wf2310 (fun a => env.cd.trunc (q a)) (fun a => (env.cd.trunc (q a)).map env.cd.ofInt) r)
    (hone : r.v.NV = 1 ∨ ∀ n ∈ r.NX, n = 1) :
    (write2310 env false r).2.err = none ∧
    read2310 env.cd 0 (write2310 env false r).2.text =
      .ok { r with com := trimCom r.com,
                   c := { r.c with NLHEAD :=
                            15 + r.v.NV + auxSize r.aux.NAUXV + r.com.NSCOML + r.com.NNCOML },
                   X := r.X.map (fun x => (q x.1, x.2.map q)),
                   A := r.A.map (fun col => col.map q),
                   V := r.V.map (fun vn => vn.map (fun l => l.map q)) } := by
  obtain ⟨_, _, _, _, _, _, _, d0, ds, hdx, _⟩ := hr.aux3
  refine ⟨by rw [write2310_text hcd hann hd hr d0 ds hdx], ?_⟩
  rw [read2310_same hcd hann hd hr hone d0 ds hdx, hdr2310_size hr]

example : Wf2310 (fun a => intCodec.trunc (id a)) (fun a => (intCodec.trunc (id a)).map intCodec.ofInt)
    Ex.d2310 ∧ Ex.d2310.v.NV = 1 := ⟨Ex.wf2310, rfl⟩

/-- C12. What is read back in general: all but the values of the variables comes back; the values at a
mark, written position by position, are dealt out again variable by variable (`readBack`). -/
theorem C12_read_back {env : Env F} {q : F → F} (hcd : env.cd.Lawful q)
    (hann : env.ann = none) (hd : WsDelim env.delim) {r : NA2110 F}
    (hr : Wf2310 (fun a => env.cd.trunc (q a)) (fun a => (env.cd.trunc (q a)).map env.cd.ofInt) r) :
    (write2310 env false r).2.err = none ∧
    read2310 env.cd 0 (write2310 env false r).2.text =
      .ok { r with com := trimCom r.com,
                   c := { r.c with NLHEAD :=
                            15 + r.v.NV + auxSize r.aux.NAUXV + r.com.NSCOML + r.com.NNCOML },
                   X := r.X.map (fun x => (q x.1, x.2.map q)),
                   A := r.A.map (fun col => col.map q),
                   V := (List.range r.V.length).map (fun n =>
                     (List.range r.X.length).map (fun m => (readBack r.NX r.V n m).map q)) } := by
  obtain ⟨_, _, _, _, _, _, _, d0, ds, hdx, _⟩ := hr.aux3
  refine ⟨by rw [write2310_text hcd hann hd hr d0 ds hdx], ?_⟩
  rw [read2310_written hcd hann hd hr d0 ds hdx, hdr2310_size hr]

/-- C12, negation: two variables with two values at a mark come back mixed up. -/
theorem C12_not_two_variables : Ex.d2310_two.V = [[[1, 2]], [[3, 4]]] ∧
    (read2310 intCodec 0 (write2310 Ex.env false Ex.d2310_two).2.text).map (fun r => r.V)
      = .ok [[[1, 3]], [[2, 4]]] :=
  ⟨rfl, by decide +kernel⟩

example : Wf2310 some some Ex.d2310_two := Ex.wf2310_two

end Nappy.Props
