import Verif.Open
import Verif.SectionLemmas
import Verif.DataLemmas

/-! Lemmas about what the writers put into a file, for any dictionary (not only well-formed ones). -/

namespace Nappy

variable {F : Type}

/-- Empty, or ending with a line feed. -/
def EndsNL (s : Str) : Prop := s = [] ∨ ∃ t, s = t ++ ['\n']

theorem endsNL_nil : EndsNL [] := Or.inl rfl

theorem endsNL_snoc (t : Str) : EndsNL (t ++ ['\n']) := Or.inr ⟨t, rfl⟩

theorem EndsNL.append {a b : Str} (ha : EndsNL a) (hb : EndsNL b) : EndsNL (a ++ b) := by
  rcases hb with rfl | ⟨t, rfl⟩
  · simpa using ha
  · exact Or.inr ⟨a ++ t, by simp⟩

theorem EndsNL.append' (a : Str) {t : Str} : EndsNL (a ++ (t ++ ['\n'])) := Or.inr ⟨a ++ t, by simp⟩

theorem endsNL_unlines (ls : List Str) : EndsNL (unlines ls) := by
  induction ls with
  | nil => exact endsNL_nil
  | cons a t ih => rw [unlines_cons]; simpa using (endsNL_snoc a).append ih

theorem endsNL_wrapLine {env : Env F} (item : String) {l : Str} (c : Option Nat)
    (h : ∃ t, l = t ++ ['\n']) : ∃ t, wrapLine env item l c = t ++ ['\n'] := by
  obtain ⟨t, rfl⟩ := h
  unfold wrapLine
  split
  · exact ⟨t, rfl⟩
  · exact ⟨getAnnotation env item c ++ t, by simp⟩

theorem splitlinesKeep_ne (s : Str) : ∀ l ∈ splitlinesKeep s, l ≠ [] := by
  fun_induction splitlinesKeep s with
  | case1 => simp
  | case2 cs ih => intro l hl; rcases List.mem_cons.1 hl with h | h; · rw [h]; simp
                   · exact ih l h
  | case3 c cs hn h ih => intro l hl; rcases List.mem_cons.1 hl with h | h; · rw [h]; simp
                          · exact ih l h
  | case4 => simp
  | case5 c cs hn h h' t' he ih =>
    intro l hl
    rcases List.mem_cons.1 hl with h | h
    · rw [h]; simp
    · exact ih l (by rw [he]; exact List.mem_cons_of_mem _ h)

theorem endsNL_concat_last {ls : List Str} (hne : ∀ l ∈ ls, l ≠ []) (h : EndsNL (concat ls)) :
    ls = [] ∨ ∃ pre t, ls = pre ++ [t ++ ['\n']] := by
  rcases List.eq_nil_or_concat ls with h0 | ⟨pre, l, h0⟩
  · exact Or.inl h0
  · right
    rw [h0] at h hne
    have hl : l ≠ [] := hne l (by simp)
    rcases List.eq_nil_or_concat l with h1 | ⟨l', c, h1⟩
    · exact absurd h1 hl
    · rw [h1] at h h0
      rcases h with h | ⟨t, h⟩
      · simp [concat] at h
      · have : c = '\n' := by
          have h2 := congrArg List.getLast? h
          simp [concat] at h2
          exact h2
        exact ⟨pre, l', by rw [h0, this]; simp⟩

theorem wrapLinesGo_append {env : Env F} (item : String) (c : Nat) (a b : List Str) :
    wrapLinesGo env item c (a ++ b) = wrapLinesGo env item c a ++ wrapLinesGo env item (c + a.length) b := by
  induction a generalizing c with
  | nil => simp [wrapLinesGo]
  | cons x t ih => simp [wrapLinesGo, ih, Nat.add_assoc, Nat.add_comm 1]

theorem endsNL_wrapLines {env : Env F} (item : String) {s : Str} (h : EndsNL s) :
    EndsNL (wrapLines env item s) := by
  unfold wrapLines
  rcases endsNL_concat_last (splitlinesKeep_ne s) (by rw [splitlinesKeep_concat]; exact h) with h0 | ⟨pre, t, h0⟩
  · rw [h0]; exact endsNL_nil
  · rw [h0, wrapLinesGo_append]
    simp only [wrapLinesGo, List.append_nil]
    obtain ⟨u, hu⟩ := endsNL_wrapLine (env := env) item (some (1 + pre.length)) ⟨t, rfl⟩
    rw [hu]; exact EndsNL.append' _

theorem ok_of_bind {α β : Type} {x : Res α} {f : α → Res β} {b : β} (h : (x >>= f) = .ok b) :
    ∃ a, x = .ok a ∧ f a = .ok b := by
  cases x with
  | error e => cases h
  | ok a => exact ⟨a, rfl, h⟩

theorem endsNL_tmplLines {n : Int} {items : List Str} {s : Str} (h : tmplLines n items = .ok s) :
    EndsNL s := by
  unfold tmplLines at h
  split at h
  · injection h with h; rw [← h]; exact endsNL_unlines _
  · cases h

/-- The comments section ends with a line feed. -/
theorem writeComments_snoc {env : Env F} {c : ComHdr} {s : Str} (h : writeComments env c = .ok s) :
    ∃ t, s = t ++ ['\n'] := by
  unfold writeComments at h
  obtain ⟨scom, _, h⟩ := ok_of_bind h
  obtain ⟨ncom, h2, h⟩ := ok_of_bind h
  injection h with h
  obtain ⟨t, ht⟩ := endsNL_wrapLine (env := env) "NNCOML" (l := intStr c.NNCOML ++ ['\n']) none ⟨_, rfl⟩
  rcases endsNL_wrapLines (env := env) "NCOM" (endsNL_tmplLines h2) with h3 | ⟨u, h3⟩
  · refine ⟨wrapLine env "NSCOML" (intStr c.NSCOML ++ ['\n']) none ++ wrapLines env "SCOM" scom ++ t, ?_⟩
    rw [← h, h3, ht]; simp
  · exact ⟨wrapLine env "NSCOML" (intStr c.NSCOML ++ ['\n']) none ++ wrapLines env "SCOM" scom
      ++ wrapLine env "NNCOML" (intStr c.NNCOML ++ ['\n']) none ++ u, by rw [← h, h3]; simp⟩

/-- The first header line for `n` header lines. -/
def topLine (env : Env F) (n : Int) (ffi : Int) : Str :=
  wrapLine env "NLHEAD_FFI" (twoInts env n ffi) none

/-- The common header starts with the first line. -/
theorem writeCommon_top {env : Env F} {c : Common} {s : Str} (h : writeCommon env c = .ok s) :
    ∃ t, s = topLine env c.NLHEAD c.FFI ++ t := by
  unfold writeCommon at h
  obtain ⟨oname, _, h⟩ := ok_of_bind h
  obtain ⟨org, _, h⟩ := ok_of_bind h
  obtain ⟨sname, _, h⟩ := ok_of_bind h
  obtain ⟨mname, _, h⟩ := ok_of_bind h
  split at h
  · injection h with h
    simp only [List.append_assoc] at h
    exact ⟨_, h.symm⟩
  · cases h

/-- Delimiter and annotation of the first line hold no line feed. -/
def TopClean (env : Env F) : Prop :=
  '\n' ∉ env.delim ∧ ∀ t, env.ann = some t → '\n' ∉ t "NLHEAD_FFI"

theorem intStr_no_nl (i : Int) : '\n' ∉ intStr i := by
  intro h
  have := intStr_not_space i _ h
  exact absurd this (by decide)

/-- The first line is one line. -/
theorem topLine_shape {env : Env F} (hc : TopClean env) (n ffi : Int) :
    ∃ t, topLine env n ffi = t ++ ['\n'] ∧ '\n' ∉ t := by
  have h1 : '\n' ∉ intStr n ++ env.delim ++ intStr ffi := by
    simp [intStr_no_nl, hc.1]
  unfold topLine wrapLine twoInts
  cases ha : env.ann with
  | none => exact ⟨_, rfl, h1⟩
  | some t =>
    refine ⟨t "NLHEAD_FFI" ++ env.delim ++ (intStr n ++ env.delim ++ intStr ffi), ?_, ?_⟩
    · simp [getAnnotation, ha]
    · have := hc.2 t ha
      simp [intStr_no_nl, hc.1, this]

/-- What `_fixHeaderLength` does to a buffer that starts with the first line. -/
theorem fixHeaderLength_top {env : Env F} (hc : TopClean env) (n ffi : Int) (rest : Str) :
    fixHeaderLength env ffi (topLine env n ffi ++ rest) =
      .ok (topLine env ((readlines rest).length + 1) ffi ++ rest) := by
  obtain ⟨t, ht, hn⟩ := topLine_shape hc n ffi
  unfold fixHeaderLength
  rw [ht, List.append_assoc, List.singleton_append, readlines_line _ _ hn]
  simp only [topLine, concat_cons, concat_readlines]

theorem readlines_length_count (s : Str) (h : EndsNL s) : (readlines s).length = s.count '\n' := by
  rcases h with rfl | ⟨t, rfl⟩
  · rfl
  · induction t with
    | nil => rfl
    | cons c t ih =>
      rw [List.cons_append, readlines]
      by_cases hc : c = '\n'
      · simp only [hc, if_true, List.length_cons, ih, List.count_cons_self]
      · rw [if_neg hc, List.count_cons_of_ne (by simpa [eq_comm] using hc), ← ih]
        cases hr : readlines (t ++ ['\n']) with
        | nil =>
          have h3 := concat_readlines (t ++ ['\n'])
          rw [hr] at h3; simp [concat] at h3
        | cons a b => rfl

/-- The shape of every written header: the first line with the number of header lines, then `rest`,
which ends with a line feed. -/
def HeaderShape (env : Env F) (ffi : Int) (h : Str) : Prop :=
  ∃ t, h = topLine env (h.count '\n') ffi ++ (t ++ ['\n'])

theorem headerShape_of_fix {env : Env F} (hc : TopClean env) {n ffi : Int} {rest h : Str}
    (hr : ∃ t, rest = t ++ ['\n'])
    (hh : fixHeaderLength env ffi (topLine env n ffi ++ rest) = .ok h) : HeaderShape env ffi h := by
  rw [fixHeaderLength_top hc] at hh
  injection hh with hh
  obtain ⟨t, rfl⟩ := hr
  refine ⟨t, ?_⟩
  rw [← hh]
  congr 2
  obtain ⟨u, hu, hn⟩ := topLine_shape hc (((readlines (t ++ ['\n'])).length : Int) + 1) ffi
  rw [List.count_append, hu, List.count_append, List.count_eq_zero.2 hn,
    readlines_length_count _ (endsNL_snoc t)]
  simp; omega

/-- The same for a buffer given as common header, middle part and comments. -/
theorem headerShape_of_parts {env : Env F} (hc : TopClean env) {c : Common} {com : ComHdr}
    {common coms h : Str} (mid : Str) (h1 : writeCommon env c = .ok common)
    (h2 : writeComments env com = .ok coms) {buf : Str} (hb : buf = common ++ (mid ++ coms))
    (hh : fixHeaderLength env c.FFI buf = .ok h) : HeaderShape env c.FFI h := by
  obtain ⟨t, rfl⟩ := writeCommon_top h1
  obtain ⟨u, rfl⟩ := writeComments_snoc h2
  subst hb
  rw [List.append_assoc] at hh
  exact headerShape_of_fix hc ⟨t ++ mid ++ u, by simp⟩ hh

theorem header1001_shape {env : Env F} (hc : TopClean env) {r : NA1001 F} {h : Str}
    (hh : header1001 env r = .ok h) : HeaderShape env r.c.FFI h := by
  unfold header1001 at hh
  obtain ⟨common, h1, hh⟩ := ok_of_bind hh
  obtain ⟨dx, _, hh⟩ := ok_of_bind hh
  obtain ⟨xname, _, hh⟩ := ok_of_bind hh
  obtain ⟨vars, _, hh⟩ := ok_of_bind hh
  obtain ⟨coms, h2, hh⟩ := ok_of_bind hh
  exact headerShape_of_parts hc
    ((getAnnotation env "DX" none ++ dx) ++ xname ++ vars)
    h1 h2 (by simp) hh

theorem header1010_shape {env : Env F} (hc : TopClean env) {r : NA1010 F} {h : Str}
    (hh : header1010 env r = .ok h) : HeaderShape env r.c.FFI h := by
  unfold header1010 at hh
  obtain ⟨common, h1, hh⟩ := ok_of_bind hh
  obtain ⟨dx, _, hh⟩ := ok_of_bind hh
  obtain ⟨xname, _, hh⟩ := ok_of_bind hh
  obtain ⟨vars, _, hh⟩ := ok_of_bind hh
  obtain ⟨aux, _, hh⟩ := ok_of_bind hh
  obtain ⟨coms, h2, hh⟩ := ok_of_bind hh
  exact headerShape_of_parts hc
    (wrapLine env "DX" dx none ++ wrapLines env "XNAME" xname ++ vars ++ aux)
    h1 h2 (by simp) hh

theorem header1020_shape {env : Env F} (hc : TopClean env) {r : NA1020 F} {h : Str}
    (hh : header1020 env r = .ok h) : HeaderShape env r.c.FFI h := by
  unfold header1020 at hh
  obtain ⟨common, h1, hh⟩ := ok_of_bind hh
  obtain ⟨dx, _, hh⟩ := ok_of_bind hh
  obtain ⟨xname, _, hh⟩ := ok_of_bind hh
  obtain ⟨vars, _, hh⟩ := ok_of_bind hh
  obtain ⟨aux, _, hh⟩ := ok_of_bind hh
  obtain ⟨coms, h2, hh⟩ := ok_of_bind hh
  exact headerShape_of_parts hc
    (wrapLine env "DX" dx none ++ wrapLine env "NVPM" (intStr r.NVPM ++ ['\n']) none
      ++ wrapLine env "XNAME" xname none ++ vars ++ aux)
    h1 h2 (by simp) hh

theorem header2010_shape {env : Env F} (hc : TopClean env) {r r1 : NA2010 F} {h : Str}
    (hh : header2010 env r = (r1, .ok h)) : HeaderShape env r.c.FFI h := by
  unfold header2010 at hh
  split at hh
  · cases hh
  rename_i common h1
  dsimp only at hh
  split at hh
  · cases hh
  rename_i dx _
  replace hh := (Prod.mk.inj hh).2
  unfold header2010Tail at hh
  obtain ⟨nx, _, hh⟩ := ok_of_bind hh
  obtain ⟨nxdef, _, hh⟩ := ok_of_bind hh
  obtain ⟨xs, _, hh⟩ := ok_of_bind hh
  obtain ⟨xname, _, hh⟩ := ok_of_bind hh
  obtain ⟨vars, _, hh⟩ := ok_of_bind hh
  obtain ⟨aux, _, hh⟩ := ok_of_bind hh
  obtain ⟨coms, h2, hh⟩ := ok_of_bind hh
  exact headerShape_of_parts hc
    (wrapLine env "DX" dx none ++ wrapLine env "NX" nx none
      ++ wrapLine env "NXDEF" nxdef none ++ xs ++ wrapLines env "XNAME" xname ++ vars ++ aux)
    h1 h2 (by simp) hh

theorem header2110Tail_shape {env : Env F} (hc : TopClean env) {r : NA2110 F} {common dx h : Str}
    (h1 : writeCommon env r.c = .ok common)
    (hh : header2110Tail env common dx r = .ok h) : HeaderShape env r.c.FFI h := by
  unfold header2110Tail at hh
  obtain ⟨xname, _, hh⟩ := ok_of_bind hh
  obtain ⟨vars, _, hh⟩ := ok_of_bind hh
  obtain ⟨aux, _, hh⟩ := ok_of_bind hh
  obtain ⟨coms, h2, hh⟩ := ok_of_bind hh
  exact headerShape_of_parts hc
    (wrapLine env "DX" dx none ++ wrapLines env "XNAME" xname ++ vars ++ aux) h1 h2 (by simp) hh

theorem header2110_shape {env : Env F} (hc : TopClean env) {r r1 : NA2110 F} {h : Str}
    (hh : header2110 env r = (r1, .ok h)) : HeaderShape env r.c.FFI h := by
  unfold header2110 at hh
  split at hh
  · cases hh
  rename_i common h1
  dsimp only at hh
  split at hh
  · cases hh
  replace hh := (Prod.mk.inj hh).2
  exact header2110Tail_shape hc (r := { r with DX := r.DX.reverse, XNAME := r.XNAME.reverse }) h1 hh

theorem header2310_shape {env : Env F} (hc : TopClean env) {r r1 : NA2110 F} {h : Str}
    (hh : header2310 env r = (r1, .ok h)) : HeaderShape env r.c.FFI h := by
  unfold header2310 at hh
  split at hh
  · cases hh
  rename_i common h1
  split at hh
  · cases hh
  replace hh := (Prod.mk.inj hh).2
  exact header2110Tail_shape hc (r := { r with XNAME := r.XNAME.reverse }) h1 hh

theorem header2160_shape {env : Env F} (hc : TopClean env) {r r1 : NA2160 F} {h : Str}
    (hh : header2160 env r = (r1, .ok h)) : HeaderShape env r.c.FFI h := by
  unfold header2160 at hh
  split at hh
  · cases hh
  rename_i common h1
  dsimp only at hh
  split at hh
  · rename_i x _
    replace hh := (Prod.mk.inj hh).2
    unfold header2160Tail at hh
    obtain ⟨xname, _, hh⟩ := ok_of_bind hh
    obtain ⟨vars, _, hh⟩ := ok_of_bind hh
    obtain ⟨aux, _, hh⟩ := ok_of_bind hh
    obtain ⟨coms, h2, hh⟩ := ok_of_bind hh
    exact headerShape_of_parts hc
      (wrapLine env "DX" (env.cd.sfmt x ++ ['\n']) none
        ++ wrapLine env "LENX" (env.cd.sfmt r.LENX ++ ['\n']) none
        ++ wrapLines env "XNAME" xname ++ vars ++ aux) h1 h2 (by simp) hh
  · cases hh

/-! ### the sequence of file writes -/

/-- Ends with a line feed. -/
def LineEnd (s : Str) : Prop := ∃ t, s = t ++ ['\n']

theorem lineEnd_dataLine {env : Env F} (s : Str) : LineEnd (dataLine env s) :=
  endsNL_wrapLine _ _ ⟨_, rfl⟩

/-- Every line computed by a list of rows ends with a line feed. -/
def RowsEnd (rows : List (Res Str)) : Prop := ∀ l, .ok l ∈ rows → LineEnd l

theorem ofRows_mem {rows : List (Res Str)} {l : Str} (h : l ∈ (Out.ofRows rows).writes) :
    .ok l ∈ rows := by
  induction rows with
  | nil => cases h
  | cons a t ih =>
    cases a with
    | error e => cases h
    | ok s =>
      simp only [Out.ofRows, List.mem_cons] at h
      rcases h with h | h
      · rw [h]; simp
      · exact List.mem_cons_of_mem _ (ih h)

theorem rowsEnd_append {a b : List (Res Str)} (ha : RowsEnd a) (hb : RowsEnd b) :
    RowsEnd (a ++ b) := by
  intro l hl
  rcases List.mem_append.1 hl with h | h
  · exact ha l h
  · exact hb l h

theorem rowsEnd_cons {a : Res Str} {b : List (Res Str)} (ha : ∀ l, a = .ok l → LineEnd l)
    (hb : RowsEnd b) : RowsEnd (a :: b) := by
  intro l hl
  rcases List.mem_cons.1 hl with h | h
  · exact ha l h.symm
  · exact hb l h

theorem rowsEnd_nil : RowsEnd [] := by intro l hl; cases hl

theorem rowsEnd_map {α : Type} (xs : List α) (f : α → Res Str)
    (h : ∀ a ∈ xs, ∀ l, f a = .ok l → LineEnd l) : RowsEnd (xs.map f) := by
  intro l hl
  obtain ⟨a, ha, hfa⟩ := List.mem_map.1 hl
  exact h a ha l hfa

theorem rowsEnd_flatten {bs : List (List (Res Str))} (h : ∀ b ∈ bs, RowsEnd b) :
    RowsEnd bs.flatten := by
  intro l hl
  obtain ⟨b, hb, hl⟩ := List.mem_flatten.1 hl
  exact h b hb l hl

theorem rowsEnd_mapIdx_flatten {α : Type} (xs : List α) (f : Nat → α → List (Res Str))
    (h : ∀ i a, RowsEnd (f i a)) : RowsEnd (xs.mapIdx f).flatten := by
  refine rowsEnd_flatten ?_
  intro b hb
  obtain ⟨i, hi, rfl⟩ := List.mem_mapIdx.1 hb
  exact h _ _

theorem markRow_end {env : Env F} {n : Int} {A : List (List F)} {x : F} {m : Nat} {l : Str}
    (h : markRow env n A x m = .ok l) : LineEnd l := by
  unfold markRow at h
  obtain ⟨_, _, h⟩ := ok_of_bind h
  obtain ⟨_, _, h⟩ := ok_of_bind h
  injection h with h; rw [← h]; exact lineEnd_dataLine _

theorem rows1001_end (env : Env F) (r : NA1001 F) : RowsEnd (rows1001 env r) := by
  intro l hl
  obtain ⟨i, hi, h⟩ := List.mem_mapIdx.1 hl
  unfold row1001 at h
  obtain ⟨_, _, h⟩ := ok_of_bind h
  obtain ⟨_, _, h⟩ := ok_of_bind h
  injection h with h; rw [← h]; exact lineEnd_dataLine _

theorem rows1010_end (env : Env F) (r : NA1010 F) : RowsEnd (rows1010 env r) := by
  refine rowsEnd_mapIdx_flatten _ _ ?_
  intro i a
  refine rowsEnd_cons (fun l h => markRow_end h) (rowsEnd_cons ?_ rowsEnd_nil)
  intro l h
  unfold varRow at h
  obtain ⟨_, _, h⟩ := ok_of_bind h
  obtain ⟨_, _, h⟩ := ok_of_bind h
  injection h with h; rw [← h]; exact lineEnd_dataLine _

theorem rows1020_end (env : Env F) (r : NA1020 F) : RowsEnd (rows1020 env r) := by
  refine rowsEnd_mapIdx_flatten _ _ ?_
  intro i a
  refine rowsEnd_cons (fun l h => markRow_end h) (rowsEnd_map _ _ ?_)
  intro n _ l h
  unfold blockRow at h
  obtain ⟨_, _, h⟩ := ok_of_bind h
  injection h with h; rw [← h]; exact lineEnd_dataLine _

theorem mapRes_mem {α β : Type} {f : α → Res β} {l : List α} {r : List β} (h : mapRes f l = .ok r)
    {b : β} (hb : b ∈ r) : ∃ a ∈ l, f a = .ok b := by
  induction l generalizing r with
  | nil => injection h with h; rw [← h] at hb; cases hb
  | cons a t ih =>
    rw [mapRes] at h
    obtain ⟨x, hx, h⟩ := ok_of_bind h
    obtain ⟨xs, hxs, h⟩ := ok_of_bind h
    injection h with h
    rw [← h] at hb
    rcases List.mem_cons.1 hb with h2 | h2
    · exact ⟨a, by simp, by rw [h2]; exact hx⟩
    · obtain ⟨a', ha', hfa⟩ := ih hxs h2
      exact ⟨a', by simp [ha'], hfa⟩

theorem writeLines_end (cd : Codec F) (delim : Str) (dims : List Nat) (t : Tree F) (ls : List Str)
    (h : writeLines cd delim dims t = .ok ls) : ∀ l ∈ ls, LineEnd l := by
  induction dims generalizing t ls with
  | nil => cases h
  | cons d ds ih =>
    cases ds with
    | nil =>
      rw [writeLines] at h
      obtain ⟨cs, _, h⟩ := ok_of_bind h
      injection h with h
      intro l hl
      rw [← h] at hl
      rw [List.mem_singleton.1 hl]
      exact ⟨_, rfl⟩
    | cons d2 ds =>
      rw [writeLines] at h
      obtain ⟨cs, hcs, h⟩ := ok_of_bind h
      injection h with h
      intro l hl
      rw [← h] at hl
      obtain ⟨b, hb, hl⟩ := List.mem_flatten.1 hl
      obtain ⟨i, _, hi⟩ := mapRes_mem hcs hb
      obtain ⟨x, _, hi⟩ := ok_of_bind hi
      exact ih x b hi l hl

theorem rows2010_end (env : Env F) (r : NA2010 F) : RowsEnd (rows2010 env r) := by
  refine rowsEnd_mapIdx_flatten _ _ ?_
  intro i a
  refine rowsEnd_cons (fun l h => markRow_end h) (rowsEnd_flatten ?_)
  intro b hb
  obtain ⟨n, _, rfl⟩ := List.mem_map.1 hb
  unfold varLines2010
  dsimp only
  split
  · intro l hl; cases hl with | tail _ h => cases h
  · rename_i ls hls
    obtain ⟨vn, _, hls⟩ := ok_of_bind hls
    obtain ⟨t, _, hls⟩ := ok_of_bind hls
    refine rowsEnd_map _ _ ?_
    intro l hl l' h
    injection h with h
    rw [← h]
    exact endsNL_wrapLine _ _ (writeLines_end _ _ _ _ _ hls l hl)

theorem raggedRows_end (env : Env F) (nv : Int) (NX : List Int) (V : List (List (List F)))
    (xs : List F) (m : Nat) : RowsEnd (raggedRows env nv NX V xs m) := by
  unfold raggedRows
  split
  · intro l hl; cases hl with | tail _ h => cases h
  · refine rowsEnd_map _ _ ?_
    intro p _ l h
    unfold raggedRow at h
    obtain ⟨_, _, h⟩ := ok_of_bind h
    obtain ⟨_, _, h⟩ := ok_of_bind h
    obtain ⟨_, _, h⟩ := ok_of_bind h
    injection h with h; rw [← h]; exact lineEnd_dataLine _

theorem rows2110_end (env : Env F) (r : NA2110 F) : RowsEnd (rows2110 env r) := by
  refine rowsEnd_mapIdx_flatten _ _ ?_
  intro i a
  exact rowsEnd_cons (fun l h => markRow_end h) (raggedRows_end _ _ _ _ _ _)

theorem rows2310_end (env : Env F) (r : NA2110 F) : RowsEnd (rows2310 env r) := by
  refine rowsEnd_mapIdx_flatten _ _ ?_
  intro i a
  refine rowsEnd_cons (fun l h => markRow_end h) (rowsEnd_cons ?_ rowsEnd_nil)
  intro l h
  unfold implRow at h
  obtain ⟨_, _, h⟩ := ok_of_bind h
  obtain ⟨_, _, h⟩ := ok_of_bind h
  injection h with h; rw [← h]; exact lineEnd_dataLine _

theorem rows2160_end (env : Env F) (r : NA2160 F) : RowsEnd (rows2160 env r) := by
  refine rowsEnd_mapIdx_flatten _ _ ?_
  intro i a
  refine rowsEnd_cons ?_ (rowsEnd_cons ?_ (rowsEnd_append (rowsEnd_map _ _ ?_)
    (raggedRows_end _ _ _ _ _ _)))
  · intro l h; injection h with h; rw [← h]; exact lineEnd_dataLine _
  · intro l h
    unfold numAuxRow at h
    obtain ⟨_, _, h⟩ := ok_of_bind h
    injection h with h; rw [← h]; exact lineEnd_dataLine _
  · intro n _ l h
    unfold charAuxRow at h
    obtain ⟨_, _, h⟩ := ok_of_bind h
    obtain ⟨_, _, h⟩ := ok_of_bind h
    injection h with h; rw [← h]; exact lineEnd_dataLine _

/-- The rows `writeData` goes through for the object `o'` it finds. -/
def Obj.rows (env : Env F) : Obj F → List (Res Str)
  | .o1001 r => rows1001 env r
  | .o1010 r => rows1010 env r
  | .o1020 r => rows1020 env r
  | .o2010 r => rows2010 env r
  | .o2110 r => rows2110 env r
  | .o2160 r => rows2160 env r
  | .o2310 r => rows2310 env r

theorem Obj.rows_end (env : Env F) (o : Obj F) : RowsEnd (o.rows env) := by
  cases o
  · exact rows1001_end _ _
  · exact rows1010_end _ _
  · exact rows1020_end _ _
  · exact rows2010_end _ _
  · exact rows2110_end _ _
  · exact rows2160_end _ _
  · exact rows2310_end _ _

/-- What a write with header does to the file: the header fails and only the ignored lines (2160) are
written; or the header is written in one call, followed by the rows. -/
theorem Obj.write_cases {env : Env F} (hc : TopClean env) (o : Obj F) :
    (∃ e, (o.write env false).2 = { writes := ignoredWrites o.ignored, err := some e }) ∨
    (∃ h, HeaderShape env o.FFI h ∧ (o.write env false).2 =
      { writes := ignoredWrites o.ignored ++ h :: (Out.ofRows ((o.write env false).1.rows env)).writes,
        err := (Out.ofRows ((o.write env false).1.rows env)).err }) := by
  have hign : ignoredWrites [] = [] := rfl
  cases o with
  | o1001 r =>
    simp only [Obj.write, write1001, Obj.ignored, hign, Obj.rows, Bool.false_eq_true, if_false]
    cases hh : header1001 env r with
    | error e => exact Or.inl ⟨e, rfl⟩
    | ok h => exact Or.inr ⟨h, header1001_shape hc hh, rfl⟩
  | o1010 r =>
    simp only [Obj.write, write1010, Obj.ignored, hign, Obj.rows, Bool.false_eq_true, if_false]
    cases hh : header1010 env r with
    | error e => exact Or.inl ⟨e, rfl⟩
    | ok h => exact Or.inr ⟨h, header1010_shape hc hh, rfl⟩
  | o1020 r =>
    simp only [Obj.write, write1020, Obj.ignored, hign, Obj.rows, Bool.false_eq_true, if_false]
    cases hh : header1020 env r with
    | error e => exact Or.inl ⟨e, rfl⟩
    | ok h => exact Or.inr ⟨h, header1020_shape hc hh, rfl⟩
  | o2010 r =>
    simp only [Obj.write, write2010, Obj.ignored, hign, Bool.false_eq_true, if_false]
    cases hh : header2010 env r with
    | mk r1 res =>
      cases res with
      | error e => exact Or.inl ⟨e, rfl⟩
      | ok h => exact Or.inr ⟨h, header2010_shape hc hh, rfl⟩
  | o2110 r =>
    simp only [Obj.write, write2110, Obj.ignored, hign, Bool.false_eq_true, if_false]
    cases hh : header2110 env r with
    | mk r1 res =>
      cases res with
      | error e => exact Or.inl ⟨e, rfl⟩
      | ok h => exact Or.inr ⟨h, header2110_shape hc hh, rfl⟩
  | o2160 r =>
    simp only [Obj.write, write2160, Obj.ignored, Bool.false_eq_true, if_false]
    cases hh : header2160 env r with
    | mk r1 res =>
      cases res with
      | error e => exact Or.inl ⟨e, by simp [Out.seq]⟩
      | ok h => exact Or.inr ⟨h, header2160_shape hc hh, by simp [Out.seq, Out.one, Obj.rows]⟩
  | o2310 r =>
    simp only [Obj.write, write2310, Obj.ignored, hign, Bool.false_eq_true, if_false]
    cases hh : header2310 env r with
    | mk r1 res =>
      cases res with
      | error e => exact Or.inl ⟨e, rfl⟩
      | ok h => exact Or.inr ⟨h, header2310_shape hc hh, rfl⟩

/-! ### the NLHEAD value of the dictionary does not matter -/

/-- The common header after its first line. -/
def commonRest (env : Env F) (c : Common) : Res Str := do
  let oname ← stripQuotes c.ONAME
  let org ← stripQuotes c.ORG
  let sname ← stripQuotes c.SNAME
  let mname ← stripQuotes c.MNAME
  match c.DATE, c.RDATE with
  | d0 :: d1 :: d2 :: _, r0 :: r1 :: r2 :: _ =>
    .ok ((getAnnotation env "ONAME" none ++ oname ++ ['\n'])
      ++ ((getAnnotation env "ORG" none ++ org ++ ['\n'])
      ++ ((getAnnotation env "SNAME" none ++ sname ++ ['\n'])
      ++ ((getAnnotation env "MNAME" none ++ mname ++ ['\n'])
      ++ (wrapLine env "IVOL_NVOL" (twoInts env c.IVOL c.NVOL) none
      ++ wrapLine env "DATE_RDATE"
          (intStr d0 ++ [' '] ++ intStr d1 ++ [' '] ++ intStr d2 ++ env.delim ++
           intStr r0 ++ [' '] ++ intStr r1 ++ [' '] ++ intStr r2 ++ ['\n']) none)))))
  | _, _ => .error .index

theorem writeCommon_eq (env : Env F) (c : Common) :
    writeCommon env c = commonRest env c >>= fun t => .ok (topLine env c.NLHEAD c.FFI ++ t) := by
  unfold writeCommon commonRest
  cases stripQuotes c.ONAME with
  | error e => rfl
  | ok a =>
  cases stripQuotes c.ORG with
  | error e => rfl
  | ok b =>
  cases stripQuotes c.SNAME with
  | error e => rfl
  | ok d =>
  cases stripQuotes c.MNAME with
  | error e => rfl
  | ok e =>
    simp only [ok_bind]
    split
    · rename_i hd hr
      rw [hd, hr]
      simp only [ok_bind, topLine, List.append_assoc]
    · rename_i h
      split
      · rename_i h1 h2; exact absurd h2 (h _ _ _ _ _ _ _ _ h1)
      · rfl

/-- The dictionary with another value of NLHEAD. -/
def Obj.setNLHEAD (n : Int) : Obj F → Obj F
  | .o1001 r => .o1001 { r with c := { r.c with NLHEAD := n } }
  | .o1010 r => .o1010 { r with c := { r.c with NLHEAD := n } }
  | .o1020 r => .o1020 { r with c := { r.c with NLHEAD := n } }
  | .o2010 r => .o2010 { r with c := { r.c with NLHEAD := n } }
  | .o2110 r => .o2110 { r with c := { r.c with NLHEAD := n } }
  | .o2160 r => .o2160 { r with c := { r.c with NLHEAD := n } }
  | .o2310 r => .o2310 { r with c := { r.c with NLHEAD := n } }

theorem header1001_nlhead {env : Env F} (hc : TopClean env) (r : NA1001 F) (n : Int) :
    header1001 env { r with c := { r.c with NLHEAD := n } } = header1001 env r := by
  unfold header1001
  have : commonRest env { r.c with NLHEAD := n } = commonRest env r.c := rfl
  simp only [writeCommon_eq, this]
  cases commonRest env r.c with
  | error e => rfl
  | ok t => simp only [ok_bind, List.append_assoc, fixHeaderLength_top hc]

theorem header1010_nlhead {env : Env F} (hc : TopClean env) (r : NA1010 F) (n : Int) :
    header1010 env { r with c := { r.c with NLHEAD := n } } = header1010 env r := by
  unfold header1010
  have : commonRest env { r.c with NLHEAD := n } = commonRest env r.c := rfl
  simp only [writeCommon_eq, this]
  cases commonRest env r.c with
  | error e => rfl
  | ok t => simp only [ok_bind, List.append_assoc, fixHeaderLength_top hc]

theorem header1020_nlhead {env : Env F} (hc : TopClean env) (r : NA1020 F) (n : Int) :
    header1020 env { r with c := { r.c with NLHEAD := n } } = header1020 env r := by
  unfold header1020
  have : commonRest env { r.c with NLHEAD := n } = commonRest env r.c := rfl
  simp only [writeCommon_eq, this]
  cases commonRest env r.c with
  | error e => rfl
  | ok t => simp only [ok_bind, List.append_assoc, fixHeaderLength_top hc]

theorem header2010Tail_nlhead {env : Env F} (hc : TopClean env) (r : NA2010 F) (n : Int) (t dx : Str) :
    header2010Tail env (topLine env n r.c.FFI ++ t) dx { r with c := { r.c with NLHEAD := n } }
      = header2010Tail env (topLine env r.c.NLHEAD r.c.FFI ++ t) dx r := by
  simp only [header2010Tail, List.append_assoc, fixHeaderLength_top hc]
  rfl

theorem header2110Tail_nlhead {env : Env F} (hc : TopClean env) (r : NA2110 F) (n : Int) (t dx : Str) :
    header2110Tail env (topLine env n r.c.FFI ++ t) dx { r with c := { r.c with NLHEAD := n } }
      = header2110Tail env (topLine env r.c.NLHEAD r.c.FFI ++ t) dx r := by
  simp only [header2110Tail, List.append_assoc, fixHeaderLength_top hc]

theorem header2160Tail_nlhead {env : Env F} (hc : TopClean env) (r : NA2160 F) (n : Int) (t dx : Str) :
    header2160Tail env (topLine env n r.c.FFI ++ t) dx { r with c := { r.c with NLHEAD := n } }
      = header2160Tail env (topLine env r.c.NLHEAD r.c.FFI ++ t) dx r := by
  simp only [header2160Tail, List.append_assoc, fixHeaderLength_top hc]

theorem Obj.write_nlhead {env : Env F} (hc : TopClean env) (o : Obj F) (n : Int) (nh : Bool) :
    ((o.setNLHEAD n).write env nh).2 = (o.write env nh).2 := by
  cases nh with
  | true => cases o <;> rfl
  | false =>
  cases o with
  | o1001 r =>
    simp only [Obj.setNLHEAD, Obj.write, write1001, header1001_nlhead hc]; rfl
  | o1010 r =>
    simp only [Obj.setNLHEAD, Obj.write, write1010, header1010_nlhead hc]; rfl
  | o1020 r =>
    simp only [Obj.setNLHEAD, Obj.write, write1020, header1020_nlhead hc]; rfl
  | o2010 r =>
    simp only [Obj.setNLHEAD, Obj.write, write2010, header2010, Bool.false_eq_true, if_false]
    have : commonRest env { r.c with NLHEAD := n } = commonRest env r.c := rfl
    simp only [writeCommon_eq, this]
    cases commonRest env r.c with
    | error e => rfl
    | ok t =>
      simp only [ok_bind]
      cases tmplSep r.NIV env.delim (r.DX.reverse.map env.cd.sfmt) with
      | error e => rfl
      | ok dx =>
        have ht := header2010Tail_nlhead hc { r with DX := r.DX.reverse, NX := r.NX.reverse } n t dx
        dsimp only at ht ⊢
        rw [ht]
        cases header2010Tail env (topLine env r.c.NLHEAD r.c.FFI ++ t) dx _ <;> rfl
  | o2110 r =>
    simp only [Obj.setNLHEAD, Obj.write, write2110, header2110, Bool.false_eq_true, if_false]
    have : commonRest env { r.c with NLHEAD := n } = commonRest env r.c := rfl
    simp only [writeCommon_eq, this]
    cases commonRest env r.c with
    | error e => rfl
    | ok t =>
      simp only [ok_bind]
      cases tmplSep r.NIV env.delim (r.DX.reverse.map env.cd.sfmt) with
      | error e => rfl
      | ok dx =>
        have ht := header2110Tail_nlhead hc { r with DX := r.DX.reverse, XNAME := r.XNAME.reverse } n t dx
        dsimp only at ht ⊢
        rw [ht]
        cases header2110Tail env (topLine env r.c.NLHEAD r.c.FFI ++ t) dx _ <;> rfl
  | o2160 r =>
    simp only [Obj.setNLHEAD, Obj.write, write2160, header2160, Bool.false_eq_true, if_false]
    have : commonRest env { r.c with NLHEAD := n } = commonRest env r.c := rfl
    simp only [writeCommon_eq, this]
    cases commonRest env r.c with
    | error e => rfl
    | ok t =>
      simp only [ok_bind]
      cases r.DX.reverse with
      | nil => rfl
      | cons x l =>
      cases l with
      | cons y l => rfl
      | nil =>
        have ht := header2160Tail_nlhead hc { r with DX := [x], XNAME := r.XNAME.reverse } n t (env.cd.sfmt x ++ ['\n'])
        dsimp only at ht ⊢
        rw [ht]
        cases header2160Tail env (topLine env r.c.NLHEAD r.c.FFI ++ t) (env.cd.sfmt x ++ ['\n']) _ <;> rfl
  | o2310 r =>
    simp only [Obj.setNLHEAD, Obj.write, write2310, header2310, Bool.false_eq_true, if_false]
    have : commonRest env { r.c with NLHEAD := n } = commonRest env r.c := rfl
    simp only [writeCommon_eq, this]
    cases commonRest env r.c with
    | error e => rfl
    | ok t =>
      simp only [ok_bind]
      cases idx r.DX 0 with
      | error e => rfl
      | ok dx =>
        have ht := header2110Tail_nlhead hc { r with XNAME := r.XNAME.reverse } n t (env.cd.sfmt dx ++ ['\n'])
        dsimp only at ht ⊢
        rw [ht]
        cases header2110Tail env (topLine env r.c.NLHEAD r.c.FFI ++ t) (env.cd.sfmt dx ++ ['\n']) _ <;> rfl

end Nappy
