import Verif.WriteLemmas
import Verif.Spec.File

/-! Lemmas linking the writers to the vocabulary of `Spec/File.lean`. -/

namespace Nappy

open Spec

variable {F : Type}

theorem completeHeader_of_shape {env : Env F} {ffi : Int} {h : Str} (hs : HeaderShape env ffi h) :
    CompleteHeader env ffi h := by
  obtain ⟨t, ht⟩ := hs
  refine ⟨t, ?_⟩
  conv => lhs; rw [ht]
  unfold topLine wrapLine prefixOf getAnnotation twoInts
  cases env.ann <;> simp

theorem ofRows_lines {rows : List (Res Str)} (h : RowsEnd rows) :
    ∀ l ∈ (Out.ofRows rows).writes, ∃ t, l = t ++ ['\n'] := by
  induction rows with
  | nil => simp [Out.ofRows]
  | cons a t ih =>
    intro l hl
    cases a with
    | error e => simp [Out.ofRows] at hl
    | ok s =>
      rcases List.mem_cons.1 (by simpa [Out.ofRows] using hl) with rfl | hl
      · exact h _ (by simp)
      · exact ih (fun r hr => h r (List.mem_cons_of_mem _ hr)) l hl

theorem wholeLines_concat {ls : List Str} (h : ∀ l ∈ ls, ∃ t, l = t ++ ['\n']) :
    WholeLines (concat ls) := by
  induction ls with
  | nil => exact Or.inl rfl
  | cons a t ih =>
    obtain ⟨u, hu⟩ := h a (by simp)
    rw [concat_cons, hu]
    rcases ih (fun l hl => h l (List.mem_cons_of_mem _ hl)) with h0 | ⟨v, hv⟩
    · rw [h0]; exact Or.inr ⟨u, by simp⟩
    · rw [hv]; exact Or.inr ⟨u ++ ['\n'] ++ v, by simp⟩

theorem join_nl (a : Str) (l : List Str) : join ['\n'] (a :: l) ++ ['\n'] = unlines (a :: l) := by
  induction l generalizing a with
  | nil => simp [join, unlines]
  | cons b t ih => rw [join, List.append_assoc, ih b]; simp [unlines]

theorem ignoredWrites_text (ign : List Str) : concat (ignoredWrites ign) = asLines ign := by
  cases ign with
  | nil => rfl
  | cons a l =>
    show join ['\n'] (a :: l) ++ (['\n'] ++ []) = _
    rw [List.append_nil, join_nl]; rfl

/-- The rows do not depend on the lists the header turned round, except `NX` of 2010. -/
theorem rows_after_header {env : Env F} (o : Obj F) {h : Str}
    (hw : (o.write env false).2.writes = ignoredWrites o.ignored ++
      h :: (Out.ofRows ((o.write env false).1.rows env)).writes) :
    Out.ofRows ((o.write env false).1.rows env) = ((forNoHeader o).write env true).2 := by
  have hign : ignoredWrites [] = [] := rfl
  cases o with
  | o1001 r => rfl
  | o1010 r => rfl
  | o1020 r => rfl
  | o2010 r =>
    simp only [Obj.write, write2010, Obj.ignored, hign, Bool.false_eq_true, if_false, if_true,
      forNoHeader, Obj.rows] at hw ⊢
    cases hh : header2010 env r with
    | mk r1 res =>
    rw [hh] at hw
    cases res with
    | error e => cases hw
    | ok t =>
      simp only
      unfold header2010 at hh
      cases h1 : writeCommon env r.c with
      | error e => rw [h1] at hh; cases hh
      | ok common =>
        simp only [h1] at hh
        cases h2 : tmplSep r.NIV env.delim (r.DX.reverse.map env.cd.sfmt) with
        | error e => rw [h2] at hh; cases hh
        | ok dx =>
          simp only [h2] at hh
          have := (Prod.mk.inj hh).1
          rw [← this]
          simp only [List.reverse_reverse]; rfl
  | o2110 r =>
    simp only [Obj.write, write2110, header2110, Bool.false_eq_true, if_false, if_true, forNoHeader,
      Obj.rows] at hw ⊢
    cases h1 : writeCommon env r.c with
    | error e => rfl
    | ok common =>
      simp only
      cases h2 : tmplSep r.NIV env.delim (r.DX.reverse.map env.cd.sfmt) with
      | error e => rfl
      | ok dx => simp only; split <;> rename_i he <;> have := (Prod.mk.inj he).1 <;> rw [← this] <;> rfl
  | o2160 r =>
    simp only [Obj.write, write2160, header2160, Bool.false_eq_true, if_false, if_true, forNoHeader,
      Obj.rows] at hw ⊢
    cases h1 : writeCommon env r.c with
    | error e => rfl
    | ok common =>
      simp only
      split <;> rename_i he <;> split at he <;> have := (Prod.mk.inj he).1 <;> rw [← this] <;> rfl
  | o2310 r =>
    simp only [Obj.write, write2310, header2310, Bool.false_eq_true, if_false, if_true, forNoHeader,
      Obj.rows] at hw ⊢
    cases h1 : writeCommon env r.c with
    | error e => rfl
    | ok common =>
      simp only
      cases h2 : idx r.DX 0 with
      | error e => rfl
      | ok dx => simp only; split <;> rename_i he <;> have := (Prod.mk.inj he).1 <;> rw [← this] <;> rfl

/-! ### what the reader sees -/

theorem readlines_asLines (ls : List Str) (rest : Str) (h : ∀ l ∈ ls, NoBreak l) :
    readlines (asLines ls ++ rest) = ls.map (fun l => l ++ ['\n']) ++ readlines rest :=
  readlines_unlines ls rest (fun l hl => (h l hl).1)

theorem univNL_append {a : Str} (b : Str) (h : '\r' ∉ a) : univNL (a ++ b) = a ++ univNL b := by
  induction a with
  | nil => rfl
  | cons c t ih =>
    have hc : c ≠ '\r' := by intro hc; exact h (by simp [hc])
    have ht : '\r' ∉ t := fun ht => h (List.mem_cons_of_mem _ ht)
    rw [List.cons_append, univNL]
    · rw [ih ht, List.cons_append]
    · intro _ hc'; exact absurd hc' hc
    · exact hc

theorem asLines_no_cr {ls : List Str} (h : ∀ l ∈ ls, NoBreak l) : '\r' ∉ asLines ls := by
  intro hm
  simp only [asLines, List.mem_flatten, List.mem_map] at hm
  obtain ⟨_, ⟨l, hl, rfl⟩, hm⟩ := hm
  rcases List.mem_append.1 hm with hm | hm
  · exact (h l hl).2 hm
  · simp at hm

/-- The line after the ignored ones is the first line of the header. -/
theorem fileLines_top {ls : List Str} (hls : ∀ l ∈ ls, NoBreak l) {top : Str} (ht : NoBreak top)
    (rest : Str) :
    (fileLines (asLines ls ++ (top ++ '\n' :: rest))).drop ls.length
      = (top ++ ['\n']) :: fileLines rest := by
  have h1 : '\r' ∉ top ++ ['\n'] := by
    intro hm
    rcases List.mem_append.1 hm with hm | hm
    · exact ht.2 hm
    · simp at hm
  unfold fileLines
  rw [univNL_append _ (asLines_no_cr hls), readlines_asLines _ _ hls]
  rw [show top ++ '\n' :: rest = (top ++ ['\n']) ++ rest by simp, univNL_append _ h1]
  rw [List.drop_append_of_le_length (by simp)]
  rw [List.drop_of_length_le (by simp), List.nil_append]
  rw [List.append_assoc, List.singleton_append, readlines_line _ _ ht.1]

theorem count_length_readlines {h : Str} (he : ∃ t, h = t ++ ['\n']) :
    (readlines h).length = h.count '\n' := readlines_length_count h (Or.inr he)

/-- The lines after the ignored ones and the header are the lines of the data. -/
theorem fileLines_data {ls : List Str} (hls : ∀ l ∈ ls, NoBreak l) {h : Str} (he : ∃ t, h = t ++ ['\n'])
    (hr : '\r' ∉ h) (data : Str) :
    (fileLines (asLines ls ++ h ++ data)).drop (ls.length + h.count '\n') = fileLines data := by
  unfold fileLines
  rw [List.append_assoc, univNL_append _ (asLines_no_cr hls), readlines_asLines _ _ hls,
    univNL_append _ hr, readlines_append _ _ (Or.inr he), ← count_length_readlines he]
  rw [← List.append_assoc, List.drop_append_of_le_length (by simp), List.drop_of_length_le (by simp)]
  rfl

/-- The first header line as the reader finds it. -/
theorem top_of_complete {env : Env F} (hann : env.ann = none) (hd : WsDelim env.delim) {ign : List Str}
    (hign : ∀ l ∈ ign, NoBreak l) {ffi : Int} {h : Str} (hh : CompleteHeader env ffi h) (data : Str) :
    ∃ more, (fileLines (asLines ign ++ h ++ data)).drop ign.length
      = (join env.delim [intStr (h.count '\n'), intStr ffi] ++ ['\n']) :: more := by
  obtain ⟨rest, hr⟩ := hh
  have hp : prefixOf env "NLHEAD_FFI" = [] := by unfold prefixOf; rw [hann]
  have htop : NoBreak (join env.delim [intStr (h.count '\n'), intStr ffi]) := by
    have := plain_delim hd
    simp only [join]
    refine ⟨?_, ?_⟩ <;>
    · simp only [List.mem_append, not_or]
      refine ⟨⟨fun hm => ?_, ?_⟩, fun hm => ?_⟩
      · exact absurd (intStr_not_space _ _ hm) (by decide)
      · first | exact this.1 | exact this.2
      · exact absurd (intStr_not_space _ _ hm) (by decide)
  refine ⟨fileLines (rest ++ ['\n'] ++ data), ?_⟩
  rw [← fileLines_top hign htop]
  have : h ++ data = join env.delim [intStr (h.count '\n'), intStr ffi] ++ '\n' :: (rest ++ ['\n'] ++ data) := by
    conv => lhs; rw [hr, hp]
    simp [join]
  rw [List.append_assoc, this]

theorem readIgnored_snd (k : Nat) (ls : List Str) : (readIgnored k ls).2 = ls.drop k := by
  induction k generalizing ls with
  | zero => rfl
  | succ k ih =>
    simp only [readIgnored]
    rw [ih]
    cases ls <;> simp [readline]

/-- What the reader of the common header makes of the first line. -/
theorem readCommon_top {k : Nat} {ls : List Str} {c : Common} {ign rest : List Str} {a b : Int}
    {line : Str} {more : List Str} (h : readCommon k ls = .ok (c, ign, rest))
    (hd : ls.drop k = line :: more) (hl : readItemsFromLine line 2 pyInt = .ok [a, b]) :
    c.NLHEAD = a + k ∧ c.FFI = b := by
  unfold readCommon at h
  simp only [readIgnored_snd, hd, readline, hl, ok_bind] at h
  obtain ⟨x, _, h⟩ := ok_of_bind h
  split at h
  · obtain ⟨y, _, h⟩ := ok_of_bind h
    injection h with h
    have := (Prod.mk.inj h).1
    rw [← this]; exact ⟨rfl, rfl⟩
  · cases h

theorem readHeaderOf_common {cd : Codec F} {ffi : Int} {k : Nat} {ls : List Str} {o : Obj F}
    (h : readHeaderOf cd ffi k ls = .ok o) : ∃ ign rest, readCommon k ls = .ok (o.common, ign, rest) := by
  unfold readHeaderOf at h
  repeat' split at h
  all_goals
    obtain ⟨⟨r, i1, l1⟩, hr, h⟩ := ok_of_bind h
    injection h with h
    subst h
    first
      | unfold readHeader1001 at hr
      | unfold readHeader1010 at hr
      | unfold readHeader1020 at hr
      | unfold readHeader2110 at hr
      | unfold readHeader2160 at hr
      | unfold readHeader2310 at hr
      | unfold readHeader2010 at hr
    obtain ⟨⟨c, ign, rest⟩, hc, hr⟩ := ok_of_bind hr
    refine ⟨ign, rest, ?_⟩
    rw [hc]
    repeat (obtain ⟨_, _, hr⟩ := ok_of_bind hr)
    injection hr with hr
    have := (Prod.mk.inj hr).1
    rw [← this]; rfl

theorem readHeaderOf_class {cd : Codec F} {ffi : Int} {k : Nat} {ls : List Str} {o : Obj F}
    (hs : ffi ∈ supportedFFIs) (h : readHeaderOf cd ffi k ls = .ok o) : ffi ∈ o.classFFIs := by
  unfold readHeaderOf at h
  repeat' split at h
  all_goals
    obtain ⟨⟨r, i1, l1⟩, hr, h⟩ := ok_of_bind h
    injection h with h
    subst h
    simp only [supportedFFIs, List.mem_cons, List.not_mem_nil, or_false] at hs
    simp only [Obj.classFFIs, List.mem_cons, List.not_mem_nil, or_false]
    omega

/-! ### the dictionary after a write -/

theorem fixHeaderLength_ok {env : Env F} {ffi : Int} {s : Str} (h : s ≠ []) :
    ∃ t, fixHeaderLength env ffi s = .ok t := by
  unfold fixHeaderLength
  cases hr : readlines s with
  | nil =>
    have := concat_readlines s
    rw [hr] at this
    exact absurd this.symm h
  | cons a l => exact ⟨_, rfl⟩

theorem writeCommon_ne {env : Env F} {c : Common} {s : Str} (h : writeCommon env c = .ok s) : s ≠ [] := by
  rw [writeCommon_eq] at h
  obtain ⟨t, _, h⟩ := ok_of_bind h
  injection h with h
  rw [← h]
  unfold topLine wrapLine twoInts
  cases env.ann <;> simp [intStr_ne_nil]

theorem tmplSep_length {n : Int} {d : Str} {l l' : List Str} (h : l'.length = l.length) :
    (∃ a b, tmplSep n d l = .ok a ∧ tmplSep n d l' = .ok b) ∨
    (tmplSep n d l = .error .type ∧ tmplSep n d l' = .error .type) := by
  unfold tmplSep
  rw [h]
  split
  · exact Or.inl ⟨_, _, rfl, rfl⟩
  · exact Or.inr ⟨rfl, rfl⟩

/-- Whether the rest of the header of 2010 can be built does not depend on `DX` and the order of `NX`. -/
theorem header2010Tail_fails {env : Env F} {c1 c2 dx1 dx2 : Str} {r : NA2010 F} {d1 d2 : List F}
    {n1 n2 : List Int} {e : Err} (h1 : c1 ≠ []) (hn : n2.length = n1.length)
    (h : header2010Tail env c1 dx1 { r with DX := d1, NX := n1 } = .error e) :
    header2010Tail env c2 dx2 { r with DX := d2, NX := n2 } = .error e := by
  have hx1 : axisLines env { r with DX := d1, NX := n1 } = axisLines env r := rfl
  have hx2 : axisLines env { r with DX := d2, NX := n2 } = axisLines env r := rfl
  simp only [header2010Tail, hx1, hx2] at h ⊢
  rcases tmplSep_length (n := r.NIV - 1) (d := env.delim) (l := n1.map intStr) (l' := n2.map intStr)
    (by simp [hn]) with ⟨a, b, ha, hb⟩ | ⟨ha, hb⟩
  · simp only [ha, hb, ok_bind] at h ⊢
    cases h2 : tmplSep (r.NIV - 1) env.delim (r.NXDEF.reverse.map intStr) with
    | error e2 => simp only [h2, error_bind] at h ⊢; exact h
    | ok nxdef =>
    simp only [h2, ok_bind] at h ⊢
    cases h3 : axisLines env r with
    | error e2 => simp only [h3, error_bind] at h ⊢; exact h
    | ok xs =>
    simp only [h3, ok_bind] at h ⊢
    cases h4 : tmplLines r.NIV r.XNAME.reverse with
    | error e2 => simp only [h4, error_bind] at h ⊢; exact h
    | ok xn =>
    simp only [h4, ok_bind] at h ⊢
    cases h5 : writeVars env r.v with
    | error e2 => simp only [h5, error_bind] at h ⊢; exact h
    | ok vs =>
    simp only [h5, ok_bind] at h ⊢
    cases h6 : writeAux env r.aux with
    | error e2 => simp only [h6, error_bind] at h ⊢; exact h
    | ok as =>
    simp only [h6, ok_bind] at h ⊢
    cases h7 : writeComments env r.com with
    | error e2 => simp only [h7, error_bind] at h ⊢; exact h
    | ok cs =>
    simp only [h7, ok_bind] at h ⊢
    exfalso
    obtain ⟨t, ht⟩ := fixHeaderLength_ok (env := env) (ffi := r.c.FFI) (s := c1 ++ wrapLine env "DX" dx1 none
      ++ wrapLine env "NX" a none ++ wrapLine env "NXDEF" nxdef none ++ xs ++ wrapLines env "XNAME" xn ++ vs
      ++ as ++ cs) (by simp [h1])
    simp only [ht] at h; cases h
  · simp only [ha, hb, error_bind] at h ⊢; exact h

theorem write2010_twice (env : Env F) (nh : Bool) (r : NA2010 F) :
    (write2010 env nh (write2010 env nh r).1).1 = r := by
  cases nh with
  | true => simp [write2010]
  | false =>
    cases h1 : writeCommon env r.c with
    | error e => simp [write2010, header2010, h1]
    | ok common =>
      have hcn := writeCommon_ne h1
      rcases tmplSep_length (n := r.NIV) (d := env.delim) (l := r.DX.reverse.map env.cd.sfmt)
        (l' := r.DX.map env.cd.sfmt) (by simp) with ⟨a, b, ha, hb⟩ | ⟨ha, hb⟩
      · cases h2 : header2010Tail env common a { r with DX := r.DX.reverse, NX := r.NX.reverse } with
        | error e =>
          have h3 := header2010Tail_fails (c2 := common) (dx2 := b) (d2 := r.DX) (n2 := r.NX) hcn (by simp) h2
          simp only [write2010, header2010, h1, ha, h2, Bool.false_eq_true, if_false,
            List.reverse_reverse, hb, h3]
        | ok t =>
          cases h3 : header2010Tail env common b { r with NX := r.NX.reverse } with
          | error e =>
            have h4 := header2010Tail_fails (c2 := common) (dx2 := a) (d2 := r.DX.reverse)
              (n2 := r.NX.reverse) hcn (by simp) h3
            rw [h4] at h2; cases h2
          | ok t' =>
            simp only [write2010, header2010, h1, ha, h2, Bool.false_eq_true, if_false,
              List.reverse_reverse, hb, h3]
      · simp only [write2010, header2010, h1, ha, hb, Bool.false_eq_true, if_false, List.reverse_reverse]

theorem write2110_twice (env : Env F) (nh : Bool) (r : NA2110 F) :
    (write2110 env nh (write2110 env nh r).1).1 = r := by
  cases nh with
  | true => simp [write2110]
  | false =>
    cases h1 : writeCommon env r.c with
    | error e => simp [write2110, header2110, h1]
    | ok common =>
      rcases tmplSep_length (n := r.NIV) (d := env.delim) (l := r.DX.reverse.map env.cd.sfmt)
        (l' := r.DX.map env.cd.sfmt) (by simp) with ⟨a, b, ha, hb⟩ | ⟨ha, hb⟩
      · simp only [write2110, header2110, h1, ha, hb, Bool.false_eq_true, if_false]
        cases header2110Tail env common a { r with DX := r.DX.reverse, XNAME := r.XNAME.reverse } <;>
        · simp only [h1, List.reverse_reverse, hb]
          cases header2110Tail env common b r <;> rfl
      · simp only [write2110, header2110, h1, ha, hb, Bool.false_eq_true, if_false, List.reverse_reverse]

theorem write2160_twice (env : Env F) (nh : Bool) (r : NA2160 F) :
    (write2160 env nh (write2160 env nh r).1).1 = r := by
  cases nh with
  | true => simp [write2160]
  | false =>
    cases h1 : writeCommon env r.c with
    | error e => simp only [write2160, header2160, h1, Bool.false_eq_true, if_false]
    | ok common =>
      simp only [write2160, header2160, h1, Bool.false_eq_true, if_false]
      cases hdx : r.DX.reverse with
      | nil =>
        have : r.DX = [] := by simpa using hdx
        cases r; simp_all
      | cons x l =>
      cases l with
      | cons y l =>
        have h2 : (x :: y :: l).reverse = r.DX := by rw [← hdx, List.reverse_reverse]
        simp only [h1, h2]
        cases hd : r.DX with
        | nil => simp [hd] at hdx
        | cons a m =>
        cases m with
        | nil => simp [hd] at hdx
        | cons b m => simp only [← hd]
      | nil =>
        have h2 : r.DX = [x] := by have := congrArg List.reverse hdx; simpa using this
        simp only
        cases header2160Tail env common (env.cd.sfmt x ++ ['\n'])
          { r with DX := [x], XNAME := r.XNAME.reverse } <;>
        · simp only [h1, List.reverse_reverse, List.reverse_singleton]
          cases header2160Tail env common (env.cd.sfmt x ++ ['\n']) { r with DX := [x] } <;>
          · simp only [← h2]

theorem write2310_twice (env : Env F) (nh : Bool) (r : NA2110 F) :
    (write2310 env nh (write2310 env nh r).1).1 = r := by
  cases nh with
  | true => simp [write2310]
  | false =>
    cases h1 : writeCommon env r.c with
    | error e => simp [write2310, header2310, h1]
    | ok common =>
      cases h2 : idx r.DX 0 with
      | error e => simp [write2310, header2310, h1, h2]
      | ok dx =>
        simp only [write2310, header2310, h1, h2, Bool.false_eq_true, if_false]
        cases header2110Tail env common (env.cd.sfmt dx ++ ['\n']) { r with XNAME := r.XNAME.reverse } <;>
        · simp only [h1, h2, List.reverse_reverse]
          cases header2110Tail env common (env.cd.sfmt dx ++ ['\n']) r <;> rfl

theorem Obj.write_twice (env : Env F) (nh : Bool) (o : Obj F) :
    (((o.write env nh).1).write env nh).1 = o := by
  cases o with
  | o1001 r => rfl
  | o1010 r => rfl
  | o1020 r => rfl
  | o2010 r => simp only [Obj.write, write2010_twice]
  | o2110 r => simp only [Obj.write, write2110_twice]
  | o2160 r => simp only [Obj.write, write2160_twice]
  | o2310 r => simp only [Obj.write, write2310_twice]

theorem header2010_state (env : Env F) (r : NA2010 F) : ∃ dx nx, MaybeTurned r.DX dx ∧
    MaybeTurned r.NX nx ∧ (header2010 env r).1 = { r with DX := dx, NX := nx } := by
  unfold header2010
  cases writeCommon env r.c with
  | error e => exact ⟨r.DX, r.NX, .inl rfl, .inl rfl, rfl⟩
  | ok common =>
    simp only
    cases tmplSep r.NIV env.delim (r.DX.reverse.map env.cd.sfmt) with
    | error e => exact ⟨_, r.NX, .inr rfl, .inl rfl, rfl⟩
    | ok dx => exact ⟨_, _, .inr rfl, .inr rfl, rfl⟩

theorem header2110_state (env : Env F) (r : NA2110 F) : ∃ dx xn, MaybeTurned r.DX dx ∧
    MaybeTurned r.XNAME xn ∧ (header2110 env r).1 = { r with DX := dx, XNAME := xn } := by
  unfold header2110
  cases writeCommon env r.c with
  | error e => exact ⟨r.DX, r.XNAME, .inl rfl, .inl rfl, rfl⟩
  | ok common =>
    simp only
    cases tmplSep r.NIV env.delim (r.DX.reverse.map env.cd.sfmt) with
    | error e => exact ⟨_, r.XNAME, .inr rfl, .inl rfl, rfl⟩
    | ok dx => exact ⟨_, _, .inr rfl, .inr rfl, rfl⟩

theorem header2160_state (env : Env F) (r : NA2160 F) : ∃ dx xn, MaybeTurned r.DX dx ∧
    MaybeTurned r.XNAME xn ∧ (header2160 env r).1 = { r with DX := dx, XNAME := xn } := by
  unfold header2160
  cases writeCommon env r.c with
  | error e => exact ⟨r.DX, r.XNAME, .inl rfl, .inl rfl, rfl⟩
  | ok common =>
    simp only
    split
    · exact ⟨_, _, .inr rfl, .inr rfl, rfl⟩
    · exact ⟨_, r.XNAME, .inr rfl, .inl rfl, rfl⟩

theorem header2310_state (env : Env F) (r : NA2110 F) : ∃ xn, MaybeTurned r.XNAME xn ∧
    (header2310 env r).1 = { r with XNAME := xn } := by
  unfold header2310
  cases writeCommon env r.c with
  | error e => exact ⟨r.XNAME, .inl rfl, rfl⟩
  | ok common =>
    simp only
    cases idx r.DX 0 with
    | error e => exact ⟨r.XNAME, .inl rfl, rfl⟩
    | ok dx => exact ⟨_, .inr rfl, rfl⟩

theorem maybeTurned_reverse {α : Type} {l l' : List α} (h : MaybeTurned l l') :
    MaybeTurned l l'.reverse := by
  rcases h with h | h
  · right; rw [h]
  · left; rw [h, List.reverse_reverse]

theorem write2010_state (env : Env F) (r : NA2010 F) : (write2010 env false r).1 = (header2010 env r).1 ∨
    (write2010 env false r).1 = { (header2010 env r).1 with NX := (header2010 env r).1.NX.reverse } := by
  unfold write2010
  simp only [Bool.false_eq_true, if_false]
  split
  · rename_i h; left; rw [h]
  · rename_i h; right; rw [h]

theorem write2110_state (env : Env F) (r : NA2110 F) :
    (write2110 env false r).1 = (header2110 env r).1 := by
  unfold write2110
  simp only [Bool.false_eq_true, if_false]
  split <;> rename_i h <;> rw [h]

theorem write2160_state (env : Env F) (r : NA2160 F) :
    (write2160 env false r).1 = (header2160 env r).1 := by
  unfold write2160
  simp only [Bool.false_eq_true, if_false]
  split <;> rename_i h <;> rw [h]

theorem write2310_state (env : Env F) (r : NA2110 F) :
    (write2310 env false r).1 = (header2310 env r).1 := by
  unfold write2310
  simp only [Bool.false_eq_true, if_false]
  split <;> rename_i h <;> rw [h]

theorem write_sameButTurned (env : Env F) (nh : Bool) (o : Obj F) :
    SameButTurned o (o.write env nh).1 := by
  cases nh with
  | true =>
    cases o with
    | o2010 r => exact ⟨r.DX, _, .inl rfl, .inr rfl, rfl⟩
    | o2110 r => exact ⟨r.DX, r.XNAME, .inl rfl, .inl rfl, rfl⟩
    | o2160 r => exact ⟨r.DX, r.XNAME, .inl rfl, .inl rfl, rfl⟩
    | o2310 r => exact ⟨r.XNAME, .inl rfl, rfl⟩
    | _ => rfl
  | false =>
    cases o with
    | o2010 r =>
      obtain ⟨dx, nx, h1, h2, h3⟩ := header2010_state env r
      rcases write2010_state env r with h | h
      · exact ⟨dx, nx, h1, h2, by rw [h, h3]⟩
      · exact ⟨dx, nx.reverse, h1, maybeTurned_reverse h2, by rw [h, h3]⟩
    | o2110 r =>
      obtain ⟨dx, nx, h1, h2, h3⟩ := header2110_state env r
      exact ⟨dx, nx, h1, h2, by rw [write2110_state, h3]⟩
    | o2160 r =>
      obtain ⟨dx, nx, h1, h2, h3⟩ := header2160_state env r
      exact ⟨dx, nx, h1, h2, by rw [write2160_state, h3]⟩
    | o2310 r =>
      obtain ⟨nx, h2, h3⟩ := header2310_state env r
      exact ⟨nx, h2, by rw [write2310_state, h3]⟩
    | _ => rfl

theorem maybeTurned_palindrome {α : Type} {l l' : List α} (h : MaybeTurned l l') (hp : Palindrome l) :
    l' = l := by
  rcases h with h | h
  · exact h
  · rw [h, hp]

theorem sameButTurned_symmetric {o o' : Obj F} (h : SameButTurned o o') (hs : Symmetric o) : o' = o := by
  cases o <;> cases o' <;> simp only [SameButTurned] at h
  case o1001.o1001 => rw [h]
  case o1010.o1010 => rw [h]
  case o1020.o1020 => rw [h]
  case o2010.o2010 =>
    obtain ⟨dx, nx, h1, h2, h3⟩ := h
    rw [h3, maybeTurned_palindrome h1 hs.1, maybeTurned_palindrome h2 hs.2]
  case o2110.o2110 =>
    obtain ⟨dx, nx, h1, h2, h3⟩ := h
    rw [h3, maybeTurned_palindrome h1 hs.1, maybeTurned_palindrome h2 hs.2]
  case o2160.o2160 =>
    obtain ⟨dx, nx, h1, h2, h3⟩ := h
    rw [h3, maybeTurned_palindrome h1 hs.1, maybeTurned_palindrome h2 hs.2]
  case o2310.o2310 =>
    obtain ⟨nx, h2, h3⟩ := h
    rw [h3, maybeTurned_palindrome h2 hs]

/-- The dictionary after a successful write with header. -/
theorem write_turned (env : Env F) (o : Obj F) (hok : (o.write env false).2.err = none) :
    (o.write env false).1 = turned o := by
  cases o with
  | o1001 r => rfl
  | o1010 r => rfl
  | o1020 r => rfl
  | o2010 r =>
    simp only [Obj.write, write2010, header2010, Bool.false_eq_true, if_false, turned] at hok ⊢
    cases h1 : writeCommon env r.c with
    | error e => rw [h1] at hok; cases hok
    | ok common =>
      simp only [h1] at hok ⊢
      cases h2 : tmplSep r.NIV env.delim (r.DX.reverse.map env.cd.sfmt) with
      | error e => rw [h2] at hok
      | ok dx =>
        simp only [h2] at hok ⊢
        cases h3 : header2010Tail env common dx { r with DX := r.DX.reverse, NX := r.NX.reverse } with
        | error e => rw [h3] at hok; cases hok
        | ok t => simp only [List.reverse_reverse]
  | o2110 r =>
    simp only [Obj.write, write2110_state, turned]
    simp only [Obj.write, write2110, header2110, Bool.false_eq_true, if_false] at hok
    unfold header2110
    cases h1 : writeCommon env r.c with
    | error e => rw [h1] at hok; cases hok
    | ok common =>
      simp only [h1] at hok ⊢
      cases h2 : tmplSep r.NIV env.delim (r.DX.reverse.map env.cd.sfmt) with
      | error e => rw [h2] at hok; cases hok
      | ok dx => rfl
  | o2160 r =>
    simp only [Obj.write, write2160_state, turned]
    simp only [Obj.write, write2160, header2160, Bool.false_eq_true, if_false] at hok
    unfold header2160
    cases h1 : writeCommon env r.c with
    | error e => rw [h1] at hok; cases hok
    | ok common =>
      simp only [h1] at hok ⊢
      cases hd : r.DX.reverse with
      | nil => rw [hd] at hok; cases hok
      | cons x l =>
      cases l with
      | cons y l => rw [hd] at hok; cases hok
      | nil => rfl
  | o2310 r =>
    simp only [Obj.write, write2310_state, turned]
    simp only [Obj.write, write2310, header2310, Bool.false_eq_true, if_false] at hok
    unfold header2310
    cases h1 : writeCommon env r.c with
    | error e => rw [h1] at hok; cases hok
    | ok common =>
      simp only [h1] at hok ⊢
      cases h2 : idx r.DX 0 with
      | error e => rw [h2] at hok; cases hok
      | ok dx => rfl

end Nappy
