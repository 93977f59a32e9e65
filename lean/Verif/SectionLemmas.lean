import Verif.TextLemmas
import Verif.Spec.Dict

/-! Each header section: the lines written without annotation, and that reading them gives the section
back. -/

namespace Nappy

open Spec

variable {F : Type}

/-- Lines as they are in a file: each followed by a line feed. -/
def nl (ls : List Str) : List Str := ls.map (fun l => l ++ ['\n'])

@[simp] theorem nl_nil : nl [] = [] := rfl
@[simp] theorem nl_cons (l : Str) (ls : List Str) : nl (l :: ls) = (l ++ ['\n']) :: nl ls := rfl
@[simp] theorem nl_append (a b : List Str) : nl (a ++ b) = nl a ++ nl b := by simp [nl]
@[simp] theorem nl_length (a : List Str) : (nl a).length = a.length := by simp [nl]

theorem concat_nl (ls : List Str) : concat (nl ls) = unlines ls := rfl

theorem isSpace_nl : isSpace '\n' = true := by decide

theorem blank_nl : Blank ['\n'] := by decide

/-! ### tokens -/

theorem token_intStr (i : Int) : Token (intStr i) := by
  refine ⟨intStr_ne_nil i, fun c hc => ⟨intStr_not_space i c hc, ?_⟩⟩
  have hd : ∀ d, d < 10 → digitChar d ≠ ',' ∧ digitChar d ≠ '{' ∧ digitChar d ≠ '}' := by decide
  rcases intStr_chars i c hc with rfl | ⟨d, hd', rfl⟩
  · decide
  · exact hd d hd'

theorem Token.word {t : Str} (h : Token t) : Word t := ⟨h.1, fun c hc => (h.2 c hc).1⟩

theorem words_join (d : Str) (hd : WsDelim d) (ts : List Str) (ht : ∀ t ∈ ts, Word t) (ws : Str)
    (hws : Blank ws) : words (join d ts ++ ws) = ts := by
  have hb : ∀ c ∈ d, isSpace c = true := fun c hc => (hd.2 c hc).1
  induction ts with
  | nil => simpa [join] using words_spaces ws hws
  | cons a t ih =>
    have ha := ht a (by simp)
    cases t with
    | nil =>
      rw [join, words_append_spaces _ _ hws, words_token _ ha.1 ha.2]
    | cons b t =>
      rw [join, List.append_assoc, List.append_assoc, words_sep _ _ _ hd.1 hb,
        words_token _ ha.1 ha.2, ih (fun x hx => ht x (List.mem_cons_of_mem _ hx))]
      rfl

theorem mem_join (d : Str) (ts : List Str) (c : Char) (h : c ∈ join d ts) :
    c ∈ d ∨ ∃ t ∈ ts, c ∈ t := by
  induction ts with
  | nil => simp [join] at h
  | cons a t ih =>
    cases t with
    | nil => right; exact ⟨a, by simp, by simpa [join] using h⟩
    | cons b t =>
      rw [join, List.append_assoc, List.mem_append, List.mem_append] at h
      rcases h with h | h | h
      · right; exact ⟨a, by simp, h⟩
      · left; exact h
      · rcases ih h with h | ⟨x, hx, hc⟩
        · left; exact h
        · right; exact ⟨x, List.mem_cons_of_mem _ hx, hc⟩

theorem wsDelim_no_brace {d : Str} (hd : WsDelim d) : '{' ∉ d ∧ '}' ∉ d ∧ ',' ∉ d := by
  refine ⟨fun h => ?_, fun h => ?_, fun h => ?_⟩ <;>
  exact absurd (hd.2 _ h).1 (by decide)

theorem join_no_brace {d : Str} (hd : WsDelim d) (ts : List Str) (ht : ∀ t ∈ ts, Token t) :
    '{' ∉ join d ts := by
  intro h
  rcases mem_join _ _ _ h with h | ⟨t, hm, h⟩
  · exact (wsDelim_no_brace hd).1 h
  · exact ((ht t hm).2 _ h).2.2.1 rfl

theorem lineItems_join {d : Str} (hd : WsDelim d) (ts : List Str) (ht : ∀ t ∈ ts, Token t) :
    lineItems (join d ts ++ ['\n']) = ts := by
  rw [lineItems_eq, rightStrip_id]
  · exact words_join d hd ts (fun t h => (ht t h).word) _ blank_nl
  · left
    intro h
    rw [List.mem_append] at h
    rcases h with h | h
    · exact join_no_brace hd ts ht h
    · simp at h

/-- A line of the header holding tokens can be read back as a fixed number of items. -/
theorem readItemsFromLine_of_items {β : Type} (line : Str) (ts : List Str) (conv : Str → Res β)
    (vals : List β) (n : Int) (h : lineItems line = ts) (hn : (ts.length : Int) = n) (hp : 1 ≤ n)
    (hc : mapRes conv ts = .ok vals) : readItemsFromLine line n conv = .ok vals := by
  rw [readItemsFromLine_eq, h]
  have : ts ≠ [] := by rintro rfl; simp at hn; omega
  simp only [if_neg this]
  rw [if_neg (by rintro ⟨_, h⟩; exact h hn), hc]

/-- A record on one line. -/
theorem readUnk_line {β : Type} (eof : Err) (line : Str) (ts : List Str) (conv : Str → Res β)
    (vals : List β) (n : Int) (rest : List Str) (h : lineItems line = ts)
    (hn : (ts.length : Int) = n) (hp : 1 ≤ n) (hc : mapRes conv ts = .ok vals) :
    readUnk eof n conv (line :: rest) = .ok (vals, rest) := by
  rw [readUnk_ok_iff]
  refine ⟨by omega, [], line, rfl, by simp; omega, ?_, ?_, ?_⟩
  · simp [h]; omega
  · rw [h]; omega
  · simpa [h] using hc

/-! ### names -/

theorem trim_trimmed {s : Str} (h : Trim s) : Trimmed s := by
  constructor
  · intro c t e; exact h.1 c (by simp [e])
  · intro a c e; exact h.2 c (by simp [e])

theorem strip_nl {s : Str} (h : Trim s) : strip (s ++ ['\n']) = s :=
  strip_append_spaces s _ (trim_trimmed h) blank_nl

theorem noBrace_rightStrip {s : Str} (ht : Trim s) (hbr : s.getLast? = some '}' → '{' ∉ s) (ws : Str)
    (hw : Blank ws) : rightStrip (s ++ ws) = s ++ ws := by
  rcases rightStrip_cases (s ++ ws) with ⟨b, w, e, hg, hn, hb, hw'⟩ | h'
  · exfalso
    -- the line ends in `}` before white space, so `s` ends in `}`
    have hst : strip (s ++ ws) = s := strip_append_spaces s _ (trim_trimmed ht) hw
    generalize rightStrip (s ++ ws) = g at e hg hn
    have h1 : s ++ ws = (g ++ '{' :: (b ++ ['}'])) ++ w := by rw [e]; simp
    -- both sides end in a non-space followed by blanks
    have h2 : rstrip (s ++ ws) = s := by
      unfold rstrip
      rw [rstripP_append_all _ _ _ hw, rstripP_eq_self _ _ (trim_trimmed ht).2]
    have h3 : rstrip (s ++ ws) = g ++ '{' :: (b ++ ['}']) := by
      rw [h1]; unfold rstrip
      rw [rstripP_append_all _ _ _ hw']
      apply rstripP_eq_self
      intro a c hac
      have hx : (g ++ '{' :: b) ++ ['}'] = a ++ [c] := by rw [← hac]; simp
      have := (List.append_inj' hx rfl).2
      injection this with this
      rw [← this]; decide
    have h4 : s = g ++ '{' :: (b ++ ['}']) := by rw [← h2, h3]
    have h5 := hbr (by
      rw [h4, show g ++ '{' :: (b ++ ['}']) = (g ++ '{' :: b) ++ ['}'] by simp]
      exact List.getLast?_append_of_ne_nil _ (by simp))
    exact h5 (by rw [h4]; simp)
  · exact h'

theorem name_rightStrip {s : Str} (h : Name s) (ws : Str) (hw : Blank ws) :
    rightStrip (s ++ ws) = s ++ ws := noBrace_rightStrip h.1.2 h.2.2 ws hw

theorem noQuotes_id {s : Str} (h : '\x01' ∉ s) : noQuotes s = s := by
  unfold noQuotes
  split
  · rfl
  · rename_i c r
    rw [if_neg]
    rintro ⟨_, h2, _⟩
    exact h (List.mem_cons_of_mem _ (List.mem_of_getLast? h2))

theorem readItem_name {s : Str} (h : Name s) (ws : Str) (hw : Blank ws) :
    readItem (s ++ ws) = s := by
  unfold readItem
  rw [name_rightStrip h ws hw, strip_append_spaces s _ (trim_trimmed h.1.2) hw, noQuotes_id h.2.1]

theorem readItemsFromLines_names (ls : List Str) (h : ∀ s ∈ ls, Name s) :
    readItemsFromLines ls = ls := by
  unfold readItemsFromLines
  conv => rhs; rw [← List.map_id ls]
  apply List.map_congr_left
  intro s hs
  have hb : Blank [] := by intro c hc; simp at hc
  have h1 : rightStrip s = s := by simpa using name_rightStrip (h s hs) [] hb
  rw [h1]
  simpa using readItem_name (h s hs) [] hb

theorem strip_end (s : Str) : strip (s ++ ['\n']) = strip s := by
  have hnl : isSpace '\n' = true := by decide
  unfold strip lstrip rstrip rstripP
  by_cases h : ∀ c ∈ s, isSpace c = true
  · have e1 : (s ++ ['\n']).dropWhile isSpace = [] := by
      refine dropWhile_all _ _ ?_
      intro c hc
      rcases List.mem_append.1 hc with hc | hc
      · exact h c hc
      · rw [List.mem_singleton.1 hc]; exact hnl
    have e2 : s.dropWhile isSpace = [] := dropWhile_all _ _ h
    rw [e1, e2]
  · have e1 : (s ++ ['\n']).dropWhile isSpace = s.dropWhile isSpace ++ ['\n'] := by
      clear hnl
      induction s with
      | nil => exact absurd (fun c hc => by cases hc) h
      | cons a t ih =>
        cases ha : isSpace a with
        | false => simp [List.dropWhile, ha]
        | true =>
          simp only [List.cons_append, List.dropWhile, ha]
          refine ih fun ht => h fun c hc => ?_
          rcases List.mem_cons.1 hc with rfl | hc
          · exact ha
          · exact ht c hc
    rw [e1]
    simp only [List.reverse_append, List.reverse_cons, List.reverse_nil, List.nil_append, List.singleton_append,
      List.dropWhile, hnl]

theorem readLinesN_nl (ls rest : List Str) (h : ∀ s ∈ ls, Trim s) :
    readLinesN ls.length (nl ls ++ rest) = (ls, rest) := by
  induction ls with
  | nil => rfl
  | cons a t ih =>
    simp only [List.length_cons, nl_cons, List.cons_append, readLinesN, readline]
    rw [ih (fun s hs => h s (List.mem_cons_of_mem _ hs)), strip_nl (h a (by simp))]

theorem name_intStr (i : Int) : Name (intStr i) := by
  have ht := token_intStr i
  have hsp : ∀ c ∈ intStr i, isSpace c = false := fun c hc => (ht.2 c hc).1
  refine ⟨⟨?_, ?_, ?_⟩, ?_, ?_⟩
  · intro c hc
    have := hsp c hc
    constructor
    · rintro rfl; exact absurd this (by decide)
    · rintro rfl; exact absurd this (by decide)
  · intro c hc; exact hsp c (List.mem_of_head? hc)
  · intro c hc; exact hsp c (List.mem_of_getLast? hc)
  · intro h
    rcases intStr_chars i _ h with h | ⟨d, hd, h⟩
    · exact absurd h (by decide)
    · have : ∀ d, d < 10 → '\x01' ≠ digitChar d := by decide
      exact this d hd h
  · intro _ h; exact (ht.2 _ h).2.2.1 rfl

theorem readIntLine_nl (i : Int) (rest : List Str) :
    readIntLine ((intStr i ++ ['\n']) :: rest) = .ok (i, rest) := by
  unfold readIntLine readItemInt
  simp only [readline, readItem_name (name_intStr i) _ blank_nl, pyInt_intStr, ok_bind]

/-! ### sections without annotation -/

theorem wrapLine_none {env : Env F} (h : env.ann = none) (item : String) (l : Str)
    (c : Option Nat) : wrapLine env item l c = l := by simp [wrapLine, h]

theorem getAnnotation_none {env : Env F} (h : env.ann = none) (item : String)
    (c : Option Nat) : getAnnotation env item c = [] := by simp [getAnnotation, h]

theorem wrapLines_none {env : Env F} (h : env.ann = none) (item : String) (s : Str) :
    wrapLines env item s = s := by
  have : ∀ (ls : List Str) (k : Nat), wrapLinesGo env item k ls = concat ls := by
    intro ls
    induction ls with
    | nil => intro k; rfl
    | cons a t ih => intro k; rw [wrapLinesGo, wrapLine_none h, ih]; rfl
  rw [wrapLines, this, splitlinesKeep_concat]

theorem stripQuotes_hdr {s : Str} (h : HdrName s) : stripQuotes s = .ok s := by
  obtain ⟨_, hne, h1, h2⟩ := h
  cases s with
  | nil => exact absurd rfl hne
  | cons c r =>
    have hc := h1 c (by simp)
    have hq : isQuote c = false := by simp [isQuote, hc.1, hc.2]
    unfold stripQuotes
    simp only [hq]
    cases hl : (c :: r).getLast? with
    | none => simp at hl
    | some e =>
      have he := h2 e hl
      have hq' : isQuote e = false := by simp [isQuote, he.1, he.2]
      simp [hl, hq']

/-- The lines of the common header. -/
def commonLines (d : Str) (nlhead : Int) (c : Common) : List Str :=
  [join d [intStr nlhead, intStr c.FFI], c.ONAME, c.ORG, c.SNAME, c.MNAME,
   join d [intStr c.IVOL, intStr c.NVOL],
   join d [join [' '] (c.DATE.map intStr), join [' '] (c.RDATE.map intStr)]]

theorem writeCommon_lines {env : Env F} (hann : env.ann = none) {c : Common} (hc : WfCommon c) :
    writeCommon env c = .ok (unlines (commonLines env.delim c.NLHEAD c)) := by
  unfold writeCommon
  simp only [stripQuotes_hdr hc.oname, stripQuotes_hdr hc.org, stripQuotes_hdr hc.sname,
    stripQuotes_hdr hc.mname, ok_bind]
  have h1 := hc.date
  have h2 := hc.rdate
  unfold commonLines
  match hd : c.DATE, hr : c.RDATE with
  | [d0, d1, d2], [r0, r1, r2] =>
    simp [wrapLine_none hann, getAnnotation_none hann, twoInts, join, unlines]
  | [], _ => simp [hd] at h1
  | [_], _ => simp [hd] at h1
  | [_, _], _ => simp [hd] at h1
  | _ :: _ :: _ :: _ :: _, _ => simp [hd] at h1
  | _, [] => simp [hr] at h2
  | _, [_] => simp [hr] at h2
  | _, [_, _] => simp [hr] at h2
  | _, _ :: _ :: _ :: _ :: _ => simp [hr] at h2

theorem mapRes_pyInt (is : List Int) : mapRes pyInt (is.map intStr) = .ok is := by
  have := mapRes_map_ok pyInt intStr id is (fun i _ => pyInt_intStr i)
  simpa using this

theorem token_intStr_list (is : List Int) : ∀ t ∈ is.map intStr, Token t := by
  intro t ht
  obtain ⟨i, _, rfl⟩ := List.mem_map.1 ht
  exact token_intStr i

theorem wsDelim_blank : WsDelim [' '] := by decide

theorem twoInts_line {d : Str} (hd : WsDelim d) (a b : Int) :
    readItemsFromLine (join d [intStr a, intStr b] ++ ['\n']) 2 pyInt = .ok [a, b] :=
  readItemsFromLine_of_items _ _ _ _ _
    (lineItems_join hd [intStr a, intStr b] (token_intStr_list [a, b])) (by simp) (by decide)
    (mapRes_pyInt [a, b])

theorem dates_line {d : Str} (hd : WsDelim d) (a b : List Int) (ha : a.length = 3)
    (hb : b.length = 3) :
    readItemsFromLine (join d [join [' '] (a.map intStr), join [' '] (b.map intStr)] ++ ['\n']) 6
      pyInt = .ok (a ++ b) := by
  have hw : ∀ (l : List Int) ws, Blank ws → words (join [' '] (l.map intStr) ++ ws) = l.map intStr :=
    fun l ws h => words_join _ wsDelim_blank _ (fun t ht => (token_intStr_list l t ht).word) ws h
  have hbr : ∀ (l : List Int), '{' ∉ join [' '] (l.map intStr) :=
    fun l => join_no_brace wsDelim_blank _ (token_intStr_list l)
  refine readItemsFromLine_of_items _ ((a ++ b).map intStr) _ _ _ ?_ (by simp [ha, hb]) (by decide)
    (mapRes_pyInt (a ++ b))
  rw [lineItems_eq, rightStrip_id]
  · simp only [join]
    have h1 : words (join [' '] (a.map intStr)) = a.map intStr := by
      simpa using hw a [] (by intro c hc; simp at hc)
    rw [List.append_assoc, List.append_assoc,
      words_sep _ _ _ hd.1 (fun c hc => (hd.2 c hc).1), h1, hw b _ blank_nl]
    simp
  · left
    simp only [join, List.mem_append, not_or]
    exact ⟨⟨⟨hbr a, (wsDelim_no_brace hd).1⟩, hbr b⟩, by decide⟩

theorem readCommon_lines {d : Str} (hd : WsDelim d) {c : Common} (hc : WfCommon c) (n : Int)
    (rest : List Str) :
    readCommon 0 (nl (commonLines d n c) ++ rest) = .ok ({ c with NLHEAD := n }, [], rest) := by
  have h1 := twoInts_line hd n c.FFI
  have h2 := twoInts_line hd c.IVOL c.NVOL
  have h3 := dates_line hd c.DATE c.RDATE hc.date hc.rdate
  unfold readCommon commonLines
  simp only [nl_cons, nl_nil, List.cons_append, List.nil_append, readIgnored, readline, h1, h2, h3,
    ok_bind]
  rw [readItem_name hc.oname.1 _ blank_nl, readItem_name hc.org.1 _ blank_nl,
    readItem_name hc.sname.1 _ blank_nl, readItem_name hc.mname.1 _ blank_nl]
  rw [List.take_append_of_le_length (by rw [hc.date]; exact Nat.le_refl _),
    List.take_of_length_le (by rw [hc.date]; exact Nat.le_refl _),
    List.drop_append_of_le_length (by rw [hc.date]; exact Nat.le_refl _),
    List.drop_eq_nil_of_le (by rw [hc.date]; exact Nat.le_refl _)]
  simp

theorem readIgnored_names (ign rest : List Str) (h : ∀ s ∈ ign, Name s) :
    readIgnored ign.length (nl ign ++ rest) = (ign, rest) := by
  induction ign with
  | nil => rfl
  | cons a t ih =>
    simp only [List.length_cons, nl_cons, List.cons_append, readIgnored, readline]
    rw [ih (fun s hs => h s (List.mem_cons_of_mem _ hs)), readItem_name (h a (by simp)) _ blank_nl]

theorem readCommon_ignored {d : Str} (hd : WsDelim d) {c : Common} (hc : WfCommon c) (n : Int)
    (ign rest : List Str) (hi : ∀ s ∈ ign, Name s) :
    readCommon ign.length (nl ign ++ (nl (commonLines d n c) ++ rest))
      = .ok ({ c with NLHEAD := n + ign.length }, ign, rest) := by
  have h1 := twoInts_line hd n c.FFI
  have h2 := twoInts_line hd c.IVOL c.NVOL
  have h3 := dates_line hd c.DATE c.RDATE hc.date hc.rdate
  unfold readCommon
  rw [readIgnored_names _ _ hi]
  unfold commonLines
  simp only [nl_cons, nl_nil, List.cons_append, List.nil_append, readline, h1, h2, h3, ok_bind]
  rw [readItem_name hc.oname.1 _ blank_nl, readItem_name hc.org.1 _ blank_nl,
    readItem_name hc.sname.1 _ blank_nl, readItem_name hc.mname.1 _ blank_nl]
  rw [List.take_append_of_le_length (by rw [hc.date]; exact Nat.le_refl _),
    List.take_of_length_le (by rw [hc.date]; exact Nat.le_refl _),
    List.drop_append_of_le_length (by rw [hc.date]; exact Nat.le_refl _),
    List.drop_eq_nil_of_le (by rw [hc.date]; exact Nat.le_refl _)]
  simp

theorem tmplSep_ok (n : Int) (d : Str) (items : List Str) (h : (items.length : Int) = n)
    (hn : 1 ≤ n) : tmplSep n d items = .ok (join d items ++ ['\n']) := by
  unfold tmplSep; rw [if_pos]; omega

theorem tmplLines_ok (n : Int) (items : List Str) (h : (items.length : Int) = n) :
    tmplLines n items = .ok (unlines items) := by
  unfold tmplLines; rw [if_pos]; omega

theorem mapRes_sfmt {cd : Codec F} {q : F → F} (hcd : cd.Lawful q) (xs : List F) :
    mapRes cd.float (xs.map cd.sfmt) = .ok xs := by
  have := mapRes_map_ok cd.float cd.sfmt id xs (fun x _ => by simp [Codec.float, hcd.sfmt_parse x])
  simpa using this

theorem token_sfmt {cd : Codec F} {q : F → F} (hcd : cd.Lawful q) (xs : List F) :
    ∀ t ∈ xs.map cd.sfmt, Token t := by
  intro t ht
  obtain ⟨x, _, rfl⟩ := List.mem_map.1 ht
  exact hcd.sfmt_token x

/-- The lines of the variables section. -/
def varLines (cd : Codec F) (d : Str) (v : VarHdr F) : List Str :=
  [intStr v.NV, join d (v.VSCAL.map cd.sfmt), join d (v.VMISS.map cd.sfmt)] ++ v.VNAME

theorem writeVars_lines {env : Env F} (hann : env.ann = none) {v : VarHdr F} (hv : WfVars v) :
    writeVars env v = .ok (unlines (varLines env.cd env.delim v)) := by
  unfold writeVars
  rw [tmplSep_ok _ _ _ (by simpa using hv.vscal) hv.pos,
    tmplSep_ok _ _ _ (by simpa using hv.vmiss) hv.pos, tmplLines_ok _ _ hv.vname]
  simp only [ok_bind, wrapLine_none hann, wrapLines_none hann]
  simp [varLines, unlines]

theorem readUnk_sfmt {cd : Codec F} {q : F → F} (hcd : cd.Lawful q) {d : Str} (hd : WsDelim d)
    (eof : Err) (xs : List F) (n : Int) (rest : List Str) (hn : (xs.length : Int) = n)
    (hp : 1 ≤ n) :
    readUnk eof n cd.float ((join d (xs.map cd.sfmt) ++ ['\n']) :: rest) = .ok (xs, rest) :=
  readUnk_line eof _ _ _ _ _ _ (lineItems_join hd _ (token_sfmt hcd xs)) (by simpa using hn) hp
    (mapRes_sfmt hcd xs)

theorem name_trim {ls : List Str} (h : ∀ s ∈ ls, Name s) : ∀ s ∈ ls, Trim s :=
  fun s hs => (h s hs).1.2

theorem readVars_lines {cd : Codec F} {q : F → F} (hcd : cd.Lawful q) {d : Str} (hd : WsDelim d)
    {v : VarHdr F} (hv : WfVars v) (rest : List Str) :
    readVars cd (nl (varLines cd d v) ++ rest) = .ok (v, rest) := by
  unfold readVars varLines
  simp only [nl_append, nl_cons, nl_nil, List.cons_append, List.nil_append, readIntLine_nl, ok_bind,
    readUnkFile]
  rw [readUnk_sfmt hcd hd _ _ _ _ hv.vscal hv.pos]
  simp only [ok_bind]
  rw [readUnk_sfmt hcd hd _ _ _ _ hv.vmiss hv.pos]
  simp only [ok_bind]
  have : v.NV.toNat = v.VNAME.length := by have := hv.vname; omega
  rw [this, readLinesN_nl _ _ (name_trim hv.names), readItemsFromLines_names _ hv.names]

/-- The lines of the auxiliary variables section. -/
def auxLines (cd : Codec F) (d : Str) (a : AuxHdr F) : List Str :=
  if a.NAUXV > 0 then
    [intStr a.NAUXV, join d (a.ASCAL.map cd.sfmt), join d (a.AMISS.map cd.sfmt)] ++ a.ANAME
  else [intStr a.NAUXV]

theorem writeAux_lines {env : Env F} (hann : env.ann = none) {a : AuxHdr F} (ha : WfAux a) :
    writeAux env a = .ok (unlines (auxLines env.cd env.delim a)) := by
  unfold writeAux auxLines
  by_cases h : a.NAUXV > 0
  · simp only [if_pos h]
    rw [tmplSep_ok _ _ _ (by simpa using ha.ascal) (by omega),
      tmplSep_ok _ _ _ (by simpa using ha.amiss) (by omega), tmplLines_ok _ _ ha.aname]
    simp only [ok_bind, wrapLine_none hann, wrapLines_none hann]
    simp [unlines]
  · simp only [if_neg h]
    simp [wrapLine_none hann, unlines]

theorem readAux_lines {cd : Codec F} {q : F → F} (hcd : cd.Lawful q) {d : Str} (hd : WsDelim d)
    {a : AuxHdr F} (ha : WfAux a) (rest : List Str) :
    readAux cd (nl (auxLines cd d a) ++ rest) = .ok (a, rest) := by
  unfold readAux auxLines
  by_cases h : a.NAUXV > 0
  · simp only [if_pos h, nl_append, nl_cons, nl_nil, List.cons_append, List.nil_append,
      readIntLine_nl, ok_bind, readUnkFile]
    rw [readUnk_sfmt hcd hd _ _ _ _ ha.ascal (by omega)]
    simp only [ok_bind]
    rw [readUnk_sfmt hcd hd _ _ _ _ ha.amiss (by omega)]
    simp only [ok_bind]
    have : a.NAUXV.toNat = a.ANAME.length := by have := ha.aname; omega
    rw [this, readLinesN_nl _ _ (name_trim ha.names), readItemsFromLines_names _ ha.names]
  · simp only [if_neg h, nl_cons, nl_nil, List.cons_append, List.nil_append, readIntLine_nl, ok_bind]
    have h1 := ha.nonneg
    have h2 := ha.ascal
    have h3 := ha.amiss
    have h4 := ha.aname
    have e1 : a.ASCAL = [] := List.length_eq_zero_iff.1 (by omega)
    have e2 : a.AMISS = [] := List.length_eq_zero_iff.1 (by omega)
    have e3 : a.ANAME = [] := List.length_eq_zero_iff.1 (by omega)
    obtain ⟨n, as, am, an⟩ := a
    simp only at e1 e2 e3
    subst e1 e2 e3; rfl

/-- The lines of the comments section. -/
def comLines (c : ComHdr) : List Str :=
  intStr c.NSCOML :: c.SCOM ++ intStr c.NNCOML :: c.NCOM

theorem writeComments_lines {env : Env F} (hann : env.ann = none) {c : ComHdr} (hc : WfCom c) :
    writeComments env c = .ok (unlines (comLines c)) := by
  unfold writeComments comLines
  rw [tmplLines_ok _ _ hc.nscoml, tmplLines_ok _ _ hc.nncoml]
  simp only [ok_bind, wrapLine_none hann, wrapLines_none hann]
  simp [unlines]

theorem readLinesN_strip (ls rest : List Str) :
    readLinesN ls.length (nl ls ++ rest) = (ls.map strip, rest) := by
  induction ls with
  | nil => rfl
  | cons a t ih =>
    simp only [List.length_cons, nl_cons, List.cons_append, readLinesN, readline]
    rw [ih, strip_end, List.map_cons]

theorem readComments_lines {c : ComHdr} (hc : WfCom c) (rest : List Str) :
    readComments (nl (comLines c) ++ rest) = .ok (trimCom c, rest) := by
  unfold readComments comLines
  simp only [nl_append, nl_cons, List.cons_append, List.append_assoc, readIntLine_nl, ok_bind]
  have h1 : c.NSCOML.toNat = c.SCOM.length := by have := hc.nscoml; omega
  have h2 : c.NNCOML.toNat = c.NCOM.length := by have := hc.nncoml; omega
  rw [h1, readLinesN_strip]
  simp only [readIntLine_nl, ok_bind, h2]
  rw [readLinesN_strip]
  rfl

/-- Axis names, one per line. -/
theorem readXName_lines (names : List Str) (n : Int) (hn : (names.length : Int) = n)
    (h : ∀ s ∈ names, Name s) (rest : List Str) :
    readLinesN n.toNat (nl names ++ rest) = (names, rest) := by
  have : n.toNat = names.length := by omega
  rw [this, readLinesN_nl _ _ (name_trim h)]

/-! ### header length -/

theorem fixHeaderLength_lines {env : Env F} (hann : env.ann = none) (ffi : Int) (l : Str)
    (ls : List Str) (h : ∀ s ∈ l :: ls, '\n' ∉ s) :
    fixHeaderLength env ffi (unlines (l :: ls)) =
      .ok (unlines (join env.delim [intStr ((ls.length : Int) + 1), intStr ffi] :: ls)) := by
  have hr := readlines_unlines (l :: ls) [] h
  simp only [List.append_nil] at hr
  unfold fixHeaderLength
  rw [hr]
  simp only [List.map_cons, readlines, List.append_nil, List.cons_append, wrapLine_none hann,
    List.length_map]
  simp [concat, unlines, twoInts, join]

/-! ### no line feeds or carriage returns inside lines -/

/-- No line feed and no carriage return. -/
def Plain (s : Str) : Prop := '\n' ∉ s ∧ '\r' ∉ s

theorem plain_token {t : Str} (h : Token t) : Plain t := by
  constructor
  · intro hc; exact absurd (h.2 _ hc).1 (by decide)
  · intro hc; exact absurd (h.2 _ hc).1 (by decide)

theorem plain_oneLine {s : Str} (h : OneLine s) : Plain s :=
  ⟨fun hc => (h.1 _ hc).1 rfl, fun hc => (h.1 _ hc).2 rfl⟩

theorem plain_delim {d : Str} (hd : WsDelim d) : Plain d :=
  ⟨fun hc => (hd.2 _ hc).2.1 rfl, fun hc => (hd.2 _ hc).2.2 rfl⟩

theorem plain_join {d : Str} (hd : Plain d) (ts : List Str) (ht : ∀ t ∈ ts, Plain t) :
    Plain (join d ts) := by
  constructor
  · intro h
    rcases mem_join _ _ _ h with h | ⟨t, hm, h⟩
    · exact hd.1 h
    · exact (ht t hm).1 h
  · intro h
    rcases mem_join _ _ _ h with h | ⟨t, hm, h⟩
    · exact hd.2 h
    · exact (ht t hm).2 h

theorem plain_tokens {d : Str} (hd : WsDelim d) (ts : List Str) (ht : ∀ t ∈ ts, Token t) :
    Plain (join d ts) := plain_join (plain_delim hd) ts (fun t h => plain_token (ht t h))

theorem plain_commonLines {d : Str} (hd : WsDelim d) {c : Common} (hc : WfCommon c) (n : Int) :
    ∀ s ∈ commonLines d n c, Plain s := by
  have hi : ∀ i, Plain (intStr i) := fun i => plain_token (token_intStr i)
  have hs : ∀ l : List Int, Plain (join [' '] (l.map intStr)) :=
    fun l => plain_tokens wsDelim_blank _ (token_intStr_list l)
  intro s hs'
  simp only [commonLines, List.mem_cons, List.not_mem_nil, or_false] at hs'
  rcases hs' with rfl | rfl | rfl | rfl | rfl | rfl | rfl
  · exact plain_tokens hd _ (token_intStr_list [n, c.FFI])
  · exact plain_oneLine hc.oname.1.1
  · exact plain_oneLine hc.org.1.1
  · exact plain_oneLine hc.sname.1.1
  · exact plain_oneLine hc.mname.1.1
  · exact plain_tokens hd _ (token_intStr_list [c.IVOL, c.NVOL])
  · exact plain_join (plain_delim hd) _ (by
      intro t ht; simp at ht; rcases ht with rfl | rfl; exact hs _; exact hs _)

theorem plain_varLines {cd : Codec F} {q : F → F} (hcd : cd.Lawful q) {d : Str} (hd : WsDelim d)
    {v : VarHdr F} (hv : WfVars v) : ∀ s ∈ varLines cd d v, Plain s := by
  intro s hs
  simp only [varLines, List.cons_append, List.nil_append, List.mem_cons] at hs
  rcases hs with rfl | rfl | rfl | hs
  · exact plain_token (token_intStr _)
  · exact plain_tokens hd _ (token_sfmt hcd _)
  · exact plain_tokens hd _ (token_sfmt hcd _)
  · exact plain_oneLine (hv.names s hs).1

theorem plain_auxLines {cd : Codec F} {q : F → F} (hcd : cd.Lawful q) {d : Str} (hd : WsDelim d)
    {a : AuxHdr F} (ha : WfAux a) : ∀ s ∈ auxLines cd d a, Plain s := by
  intro s hs
  unfold auxLines at hs
  split at hs
  · simp only [List.cons_append, List.nil_append, List.mem_cons] at hs
    rcases hs with rfl | rfl | rfl | hs
    · exact plain_token (token_intStr _)
    · exact plain_tokens hd _ (token_sfmt hcd _)
    · exact plain_tokens hd _ (token_sfmt hcd _)
    · exact plain_oneLine (ha.names s hs).1
  · simp at hs; subst hs; exact plain_token (token_intStr _)

theorem plain_comLines {c : ComHdr} (hc : WfCom c) : ∀ s ∈ comLines c, Plain s := by
  intro s hs
  simp only [comLines, List.cons_append, List.mem_cons, List.mem_append] at hs
  rcases hs with rfl | hs | rfl | hs
  · exact plain_token (token_intStr _)
  · exact ⟨fun h => (hc.scom s hs _ h).1 rfl, fun h => (hc.scom s hs _ h).2 rfl⟩
  · exact plain_token (token_intStr _)
  · exact ⟨fun h => (hc.ncom s hs _ h).1 rfl, fun h => (hc.ncom s hs _ h).2 rfl⟩

theorem fileLines_unlines (ls : List Str) (h : ∀ s ∈ ls, Plain s) :
    fileLines (unlines ls) = nl ls := by
  rw [fileLines_id]
  · have := readlines_unlines ls [] (fun s hs => (h s hs).1)
    simpa [readlines, nl] using this
  · intro hc
    simp only [unlines, List.mem_flatten, List.mem_map] at hc
    obtain ⟨_, ⟨s, hs, rfl⟩, hc⟩ := hc
    rw [List.mem_append] at hc
    rcases hc with hc | hc
    · exact (h s hs).2 hc
    · simp at hc

end Nappy
