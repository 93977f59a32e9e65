import Verif.RT2110

/-! FFI 2160: written text and reading it back. -/

namespace Nappy

open Spec

variable {F : Type}

/-! ### words and text values -/

theorem trim_of_word {s : Str} (h : Word s) : Trim s := by
  refine ⟨fun c hc => h.2 c (List.mem_of_mem_head? hc), fun c hc => h.2 c (List.mem_of_mem_getLast? hc)⟩

theorem plainWord_items {s : Str} (h : PlainWord s) : lineItems (s ++ ['\n']) = [s] := by
  rw [lineItems_eq, noBrace_rightStrip (trim_of_word h.1) h.2.2 _ blank_nl,
    words_append_spaces _ _ blank_nl, words_token _ h.1.1 h.1.2]

theorem plain_word {s : Str} (h : Word s) : Plain s :=
  ⟨fun hc => absurd (h.2 _ hc) (by decide), fun hc => absurd (h.2 _ hc) (by decide)⟩

theorem rstripSC_self {s : Str} (h1 : s.getLast? ≠ some ' ') (h2 : s.getLast? ≠ some ',') :
    rstripSC s = s := by
  unfold rstripSC
  apply rstripP_eq_self
  intro a c hac
  subst hac
  simp only [List.getLast?_append, List.getLast?_singleton, Option.some_or, ne_eq,
    Option.some.injEq] at h1 h2
  simp [h1, h2]

theorem plainWord_last {s : Str} (h : PlainWord s) : rstripSC s = s := by
  refine rstripSC_self ?_ h.2.1
  intro hc
  exact absurd (h.1.2 _ (List.mem_of_mem_getLast? hc)) (by decide)

/-- A text value followed by the delimiter keeps its text when blanks and commas at the end go. -/
theorem rstripSC_append {s d : Str} (hs : s ≠ []) (h1 : s.getLast? ≠ some ' ')
    (h2 : s.getLast? ≠ some ',') (hd : WsDelim d) :
    ∃ w, rstripSC (s ++ d) = s ++ w ∧ (∀ c ∈ w, c ∈ d) := by
  obtain ⟨suf, e, hsuf⟩ := rstripP_split (fun c => c == ' ' || c == ',') (s ++ d)
  change s ++ d = rstripSC (s ++ d) ++ suf at e
  generalize rstripSC (s ++ d) = g at e ⊢
  rcases List.append_eq_append_iff.1 e with ⟨a, ha, hb⟩ | ⟨a, ha, hb⟩
  · exact ⟨a, ha, fun c hc => by rw [hb]; exact List.mem_append_left _ hc⟩
  · rcases List.eq_nil_or_concat a with rfl | ⟨a, c, rfl⟩
    · exact ⟨[], by simp at ha; simp [ha], by simp⟩
    · exfalso
      have hc := hsuf c (by rw [hb]; simp)
      subst ha
      rw [List.concat_eq_append, ← List.append_assoc] at h1 h2
      simp only [List.getLast?_append, List.getLast?_singleton, Option.some_or, ne_eq,
        Option.some.injEq] at h1 h2
      simp [h1, h2] at hc

theorem textVal_row {s d : Str} (h : TextVal s) (hd : WsDelim d) :
    ∃ w, rstripSC (s ++ d) = s ++ w ∧ Blank w ∧ Plain w := by
  obtain ⟨w, h1, h2⟩ := rstripSC_append h.2.1 (by
    intro hc
    exact absurd (h.1.1.2.2 _ hc) (by decide)) h.2.2 hd
  exact ⟨w, h1, fun c hc => (hd.2 c (h2 c hc)).1, fun hc => (hd.2 _ (h2 _ hc)).2.1 rfl,
    fun hc => (hd.2 _ (h2 _ hc)).2.2 rfl⟩

/-- The line of one text value. -/
def textLine (d s : Str) : Str := rstripSC (s ++ d)

theorem plain_textLine {s d : Str} (h : TextVal s) (hd : WsDelim d) : Plain (textLine d s) := by
  obtain ⟨w, e, _, hp⟩ := textVal_row h hd
  rw [textLine, e]
  have := plain_oneLine h.1.1
  exact ⟨by simp [this.1, hp.1], by simp [this.2, hp.2]⟩

theorem textLine_read {s d : Str} (h : TextVal s) (hd : WsDelim d) :
    readItem (rightStrip (textLine d s ++ ['\n'])) = s := by
  obtain ⟨w, e, hb, _⟩ := textVal_row h hd
  have hbw : Blank (w ++ ['\n']) := by
    intro c hc
    rcases List.mem_append.1 hc with hc | hc
    · exact hb c hc
    · exact blank_nl c hc
  rw [textLine, e, List.append_assoc, name_rightStrip h.1 _ hbw, readItem_name h.1 _ hbw]

theorem textLine_not_blank {s d : Str} (h : TextVal s) (hd : WsDelim d) :
    strip (textLine d s ++ ['\n']) ≠ [] := by
  obtain ⟨w, e, hb, _⟩ := textVal_row h hd
  intro hc
  rw [strip_eq_nil_iff, textLine, e] at hc
  obtain ⟨c, t, hs⟩ := List.exists_cons_of_ne_nil h.2.1
  have h1 := h.1.1.2.1 c (by rw [hs]; rfl)
  rw [hc c (by rw [hs]; simp)] at h1
  exact absurd h1 (by decide)

/-! ### auxiliary variables section -/

/-- Lines of the auxiliary variables section of a 2160 file. -/
def charAuxLines (cd : Codec F) (d : Str) (a : CharAuxHdr F) : List Str :=
  let k := (a.NAUXV - a.NAUXC).toNat
  [intStr a.NAUXV, intStr a.NAUXC, join d (a.ASCAL.map cd.sfmt),
    join d ((a.AMISS.take k).map (cellStr cd)), join d ((a.LENA.drop k).map lenaStr)]
  ++ (a.AMISS.drop k).map (cellStr cd) ++ a.ANAME

theorem charAuxLines_eq (cd : Codec F) (d : Str) (a : CharAuxHdr F) (k : Nat) (ms : List F)
    (ss : List Str) (ls : List Int) (hk : (a.NAUXV - a.NAUXC).toNat = k) (hms : ms.length = k)
    (hA : a.AMISS = ms.map .num ++ ss.map .str)
    (hL : a.LENA = List.replicate k none ++ ls.map some) :
    charAuxLines cd d a = intStr a.NAUXV :: intStr a.NAUXC :: join d (a.ASCAL.map cd.sfmt) ::
      join d (ms.map cd.sfmt) :: join d (ls.map intStr) :: (ss ++ a.ANAME) := by
  have h1 : (a.AMISS.take k) = ms.map .num := by
    rw [hA, List.take_append_of_le_length (by simp [hms]), List.take_of_length_le (by simp [hms])]
  have h2 : (a.AMISS.drop k) = ss.map .str := by
    rw [hA, List.drop_append_of_le_length (by simp [hms]), List.drop_eq_nil_of_le (by simp [hms])]
    rfl
  have h3 : (a.LENA.drop k) = ls.map some := by
    rw [hL, List.drop_append_of_le_length (by simp), List.drop_eq_nil_of_le (by simp)]; rfl
  unfold charAuxLines
  simp only [hk, h1, h2, h3, List.map_map]
  have e2 : ss.map (cellStr cd ∘ Cell.str) = ss := by
    have : (cellStr cd ∘ Cell.str) = id := rfl
    rw [this, List.map_id]
  rw [e2]
  rfl

theorem sliceTo_nat {α : Type} (l : List α) (k : Int) (h : 0 ≤ k) : sliceTo l k = l.take k.toNat := by
  obtain ⟨n, rfl⟩ := Int.eq_ofNat_of_zero_le h
  simp [sliceTo]

theorem sliceFrom_nat {α : Type} (l : List α) (k : Int) (h : 0 ≤ k) :
    sliceFrom l k = l.drop k.toNat := by
  obtain ⟨n, rfl⟩ := Int.eq_ofNat_of_zero_le h
  simp [sliceFrom]

theorem writeCharAux_lines {env : Env F} (hann : env.ann = none) {a : CharAuxHdr F}
    (ha : WfCharAux a) : writeCharAux env a = .ok (unlines (charAuxLines env.cd env.delim a)) := by
  obtain ⟨k, ms, ss, ls, h1, h2, h3, h4, h5, h6, h7, h8, _, h10⟩ := ha.nums
  have hss : 1 ≤ ss.length := by
    have := List.length_pos_of_ne_nil h2; omega
  have hk : (a.NAUXV - a.NAUXC).toNat = k := by omega
  have hk0 : 0 ≤ a.NAUXV - a.NAUXC := by omega
  unfold writeCharAux
  rw [if_pos (by omega), sliceTo_nat _ _ hk0, sliceFrom_nat _ _ hk0, sliceFrom_nat _ _ hk0]
  rw [tmplSep_ok _ _ _ (by simp; omega) (by omega)]
  simp only [ok_bind]
  rw [tmplSep_ok _ _ _ (by simp [h8]; omega) (by omega)]
  simp only [ok_bind]
  rw [tmplSep_ok _ _ _ (by simp [h10]; omega) (by omega)]
  simp only [ok_bind]
  rw [tmplLines_ok _ _ (by simp [h8]; omega)]
  simp only [ok_bind]
  rw [tmplLines_ok _ _ ha.aname]
  simp only [ok_bind, wrapLine_none hann, wrapLines_none hann]
  simp [charAuxLines, unlines_append, unlines_cons]

theorem plain_charAuxLines {cd : Codec F} {q : F → F} (hcd : cd.Lawful q) {d : Str} (hd : WsDelim d)
    {a : CharAuxHdr F} (ha : WfCharAux a) : ∀ s ∈ charAuxLines cd d a, Plain s := by
  obtain ⟨k, ms, ss, ls, h1, h2, h3, h4, h5, h6, h7, h8, h9, h10⟩ := ha.nums
  rw [charAuxLines_eq cd d a k ms ss ls (by omega) h6 h8 h10]
  intro s hs
  simp only [List.mem_cons, List.mem_append] at hs
  rcases hs with rfl | rfl | rfl | rfl | rfl | hs | hs
  · exact plain_token (token_intStr _)
  · exact plain_token (token_intStr _)
  · exact plain_tokens hd _ (token_sfmt hcd _)
  · exact plain_tokens hd _ (token_sfmt hcd _)
  · exact plain_tokens hd _ (token_intStr_list _)
  · exact plain_word (h9 s hs).1
  · exact plain_oneLine (ha.names s hs).1

theorem readUnk_words (eof : Err) (ss rest : List Str) (hne : ss ≠ []) (h : ∀ s ∈ ss, PlainWord s) :
    readUnk eof ss.length (fun s => (.ok s : Res Str)) (nl ss ++ rest) = .ok (ss, rest) := by
  rw [readUnk_ok_iff]
  have hall : ∀ l : List Str, (∀ s ∈ l, PlainWord s) → allItems (nl l) = l := by
    intro l
    induction l with
    | nil => intro _; rfl
    | cons a t ih =>
      intro hl
      rw [nl_cons, allItems_cons, plainWord_items (hl a (by simp)),
        ih (fun s hs => hl s (List.mem_cons_of_mem _ hs))]
      rfl
  obtain ⟨ini, last, rfl⟩ : ∃ ini last, ss = ini ++ [last] := by
    exact ⟨ss.dropLast, ss.getLast hne, (List.dropLast_append_getLast hne).symm⟩
  refine ⟨by simp, nl ini, last ++ ['\n'], by simp, ?_, ?_, ?_, ?_⟩
  · rw [hall ini (fun s hs => h s (by simp [hs]))]; simp; omega
  · have := hall _ h
    rw [nl_append] at this
    simp only [nl_cons, nl_nil] at this
    rw [this]; exact Int.le_refl _
  · rw [plainWord_items (h last (by simp))]; simp; omega
  · have := hall _ h
    rw [nl_append] at this
    simp only [nl_cons, nl_nil] at this
    rw [this]
    have : ∀ l : List Str, mapRes (fun s => (.ok s : Res Str)) l = .ok l := by
      intro l
      induction l with
      | nil => rfl
      | cons a t ih => rw [mapRes, ih]; rfl
    exact this _

theorem readCharAux_lines {cd : Codec F} {q : F → F} (hcd : cd.Lawful q) {d : Str} (hd : WsDelim d)
    {a : CharAuxHdr F} (ha : WfCharAux a) (rest : List Str) :
    readCharAux cd (nl (charAuxLines cd d a) ++ rest) = .ok (a, rest) := by
  obtain ⟨k, ms, ss, ls, h1, h2, h3, h4, h5, h6, h7, h8, h9, h10⟩ := ha.nums
  have hss : 1 ≤ ss.length := by
    have := List.length_pos_of_ne_nil h2; omega
  rw [charAuxLines_eq cd d a k ms ss ls (by omega) h6 h8 h10]
  unfold readCharAux
  simp only [nl_cons, List.cons_append, readIntLine_nl, ok_bind]
  rw [if_pos (by omega)]
  rw [readUnkFile, readUnk_sfmt hcd hd _ _ _ _ (by omega) (by omega)]
  simp only [ok_bind]
  rw [readUnkFile, readUnk_sfmt hcd hd _ _ _ _ (by omega) (by omega)]
  simp only [ok_bind]
  rw [readUnkFile, readUnk_line _ _ (ls.map intStr) pyInt ls _ _
    (lineItems_join hd _ (token_intStr_list _)) (by simp; omega) (by omega) (mapRes_pyInt ls)]
  simp only [ok_bind]
  rw [nl_append, List.append_assoc, h3, readUnkFile, readUnk_words _ _ _ h2 h9]
  simp only [ok_bind]
  rw [readXName_lines a.ANAME _ ha.aname ha.names]
  simp only [readItemsFromLines_names _ ha.names]
  have hk : (a.NAUXV - (ss.length : Int)).toNat = k := by omega
  rw [hk, ← h8, ← h10, ← h3]

/-! ### header -/

/-- The header lines of a 2160 file, after the ignored ones. -/
def hdrLines2160 (env : Env F) (n : Int) (r : NA2160 F) : List Str :=
  commonLines env.delim n r.c ++
    (join env.delim (r.DX.map env.cd.sfmt) :: env.cd.sfmt r.LENX ::
     (r.XNAME.reverse ++ (varLines env.cd env.delim r.v ++
       (charAuxLines env.cd env.delim r.aux ++ comLines r.com))))

theorem hdrLines2160_length (env : Env F) (n n' : Int) (r : NA2160 F) :
    (hdrLines2160 env n r).length = (hdrLines2160 env n' r).length := by
  simp [hdrLines2160, commonLines]

theorem plain_hdr2160 {env : Env F} {q : F → F} (hcd : env.cd.Lawful q) (hd : WsDelim env.delim)
    {count : F → Option Int} {r : NA2160 F} {N : List (List F)} {T : List (List Str)}
    (hr : Wf2160 count r N T) (n : Int) : ∀ s ∈ hdrLines2160 env n r, Plain s := by
  intro s hs
  simp only [hdrLines2160, List.mem_append, List.mem_cons] at hs
  rcases hs with hs | rfl | rfl | hs | hs | hs | hs
  · exact plain_commonLines hd hr.common n s hs
  · exact plain_tokens hd _ (token_sfmt hcd _)
  · exact plain_token (hcd.sfmt_token _)
  · exact plain_oneLine (hr.xnames s (List.mem_reverse.1 hs)).1
  · exact plain_varLines hcd hd hr.vars s hs
  · exact plain_charAuxLines hcd hd hr.aux s hs
  · exact plain_comLines hr.com s hs

theorem header2160_eq {env : Env F} {q : F → F} (hcd : env.cd.Lawful q) (hann : env.ann = none)
    (hd : WsDelim env.delim) {count : F → Option Int} {r : NA2160 F} {N : List (List F)}
    {T : List (List Str)} (hr : Wf2160 count r N T) :
    header2160 env r
      = ({ r with XNAME := r.XNAME.reverse },
         .ok (unlines (hdrLines2160 env ((hdrLines2160 env 0 r).length : Int) r))) := by
  obtain ⟨x, hx⟩ := List.length_eq_one_iff.1 hr.dx
  unfold header2160
  rw [writeCommon_lines hann hr.common]
  simp only [hx, List.reverse_cons, List.reverse_nil, List.nil_append, Prod.mk.injEq, true_and]
  unfold header2160Tail
  simp only []
  rw [tmplLines_ok _ _ (by simp [hr.xname, hr.niv]), writeVars_lines hann hr.vars,
    writeCharAux_lines hann hr.aux, writeComments_lines hann hr.com]
  simp only [ok_bind, wrapLine_none hann, wrapLines_none hann]
  have e : unlines (commonLines env.delim r.c.NLHEAD r.c)
      ++ (env.cd.sfmt x ++ ['\n']) ++ (env.cd.sfmt r.LENX ++ ['\n']) ++ unlines r.XNAME.reverse
      ++ unlines (varLines env.cd env.delim r.v) ++ unlines (charAuxLines env.cd env.delim r.aux)
      ++ unlines (comLines r.com)
      = unlines (hdrLines2160 env r.c.NLHEAD r) := by
    simp [hdrLines2160, unlines_append, unlines_cons, -List.map_reverse, hx, join]
  rw [e]
  have hp := plain_hdr2160 hcd hd hr r.c.NLHEAD
  unfold hdrLines2160 at hp ⊢
  simp only [commonLines, List.cons_append] at hp ⊢
  rw [fixHeaderLength_lines hann _ _ _ (fun s hs => (hp s hs).1)]
  simp

theorem readHeader2160_lines {env : Env F} {q : F → F} (hcd : env.cd.Lawful q)
    (hd : WsDelim env.delim) {count : F → Option Int} {r : NA2160 F} {N : List (List F)}
    {T : List (List Str)} (hr : Wf2160 count r N T) (n : Int) (rest : List Str) :
    readHeader2160 env.cd r.ignored.length (nl (r.ignored ++ hdrLines2160 env n r) ++ rest)
      = .ok ({ r with com := trimCom r.com,
                      c := { r.c with NLHEAD := n + r.ignored.length }, NX := [], X := [], A := [],
                      V := [] }, r.ignored, rest) := by
  have hniv : nivOf r.c.FFI = 2 := by rw [hr.ffi]; decide
  have hnames : ∀ s ∈ r.XNAME.reverse, Name s := fun s hs => hr.xnames s (List.mem_reverse.1 hs)
  have hlenx : Name (env.cd.sfmt r.LENX) := by
    have ht := hcd.sfmt_token r.LENX
    refine ⟨⟨fun c hc => ⟨?_, ?_⟩, trim_of_word ht.word⟩, ?_, ?_⟩
    · rintro rfl; exact absurd (ht.2 _ hc).1 (by decide)
    · rintro rfl; exact absurd (ht.2 _ hc).1 (by decide)
    · exact hcd.sfmt_quote _
    · intro h; exact absurd rfl (ht.2 _ (List.mem_of_mem_getLast? h)).2.2.2
  unfold readHeader2160 hdrLines2160
  rw [nl_append, nl_append, List.append_assoc, List.append_assoc,
    readCommon_ignored hd hr.common _ _ _ hr.ignored]
  simp only [ok_bind, hniv, nl_cons, List.cons_append, readline]
  rw [floats_line hcd hd _ _ (by simp [hr.dx]) (by decide)]
  simp only [ok_bind]
  rw [readItem_name hlenx _ blank_nl, Codec.float, hcd.sfmt_parse]
  simp only [ok_bind, nl_append, List.append_assoc]
  rw [readXName_lines r.XNAME.reverse _ (by simp [hr.xname]) hnames]
  simp only []
  rw [readVars_lines hcd hd hr.vars]
  simp only [ok_bind]
  rw [readCharAux_lines hcd hd hr.aux]
  simp only [ok_bind]
  rw [readComments_lines hr.com]
  simp only [ok_bind, readItemsFromLines_names _ hnames, List.reverse_reverse]
  rw [← hr.niv]

/-! ### data -/

/-- The data lines of a 2160 file. -/
def dataLines2160 (env : Env F) (r : NA2160 F) (N : List (List F)) (T : List (List Str)) :
    List (List Str) :=
  r.X.mapIdx (fun m x => x.1 :: rowText env (rowAt N m) ::
    ((rowAt T m).map (textLine env.delim) ++ (raggedVals x.2 (rowAt r.V m)).map (rowText env)))

theorem range_map_idx {α β : Type} (l : List α) (n : Nat) (hn : n = l.length) (f : Nat → β)
    (g : α → β) (h : ∀ i (hi : i < l.length), f i = g l[i]) : (List.range n).map f = l.map g := by
  subst hn
  apply List.ext_getElem
  · simp
  · intro i h1 h2
    simp only [List.length_map, List.length_range] at h1
    simp [h i h1]

theorem mapRes_range_idx {α : Type} (l : List α) (n : Nat) (hn : n = l.length)
    (f : Nat → Res Str) (g : α → Str) (h : ∀ i (hi : i < l.length), f i = .ok (g l[i])) :
    mapRes f (List.range n) = .ok (l.map g) := by
  have h1 : mapRes f (List.range n) = mapRes (fun r => r) ((List.range n).map f) := by
    generalize List.range n = ns
    induction ns with
    | nil => rfl
    | cons a t ih => rw [mapRes, ih, List.map_cons, mapRes]
  have h2 : ∀ l : List Str, mapRes (fun r => r) (l.map .ok) = (.ok l : Res (List Str)) := by
    intro l
    induction l with
    | nil => rfl
    | cons a t ih => rw [List.map_cons, mapRes, ih]; rfl
  rw [h1, range_map_idx l n hn f (fun a => .ok (g a)) h, ← h2, List.map_map]
  rfl

theorem wf2160_k {count : F → Option Int} {r : NA2160 F} {N : List (List F)} {T : List (List Str)}
    (hr : Wf2160 count r N T) : r.aux.NAUXV - r.aux.NAUXC = N.length ∧ r.aux.NAUXC = T.length ∧
      1 ≤ N.length ∧ 1 ≤ T.length := by
  obtain ⟨k, ms, ss, ls, h1, h2, h3, h4, _⟩ := hr.aux.nums
  have := hr.num_data.1
  have := hr.text_data.1
  have := List.length_pos_of_ne_nil h2
  omega

theorem numAuxRow_eq {env : Env F} (hann : env.ann = none) {count : F → Option Int} {r : NA2160 F}
    {N : List (List F)} {T : List (List Str)} (hr : Wf2160 count r N T) (m : Nat)
    (hm : m < r.X.length) :
    numAuxRow env (r.aux.NAUXV - r.aux.NAUXC) r.A m = .ok (rowText env (rowAt N m) ++ ['\n']) := by
  obtain ⟨hk, _⟩ := wf2160_k hr
  have hN : ∀ col ∈ N, m < col.length := fun col hc => by rw [hr.num_data.2 col hc]; exact hm
  have hlen := rowAt_length N m hN
  unfold numAuxRow
  rw [hk]
  simp only [Int.toNat_natCast]
  rw [mapRes_range_idx (rowAt N m) N.length hlen.symm _ (cell env)]
  · simp only [ok_bind]
    rw [dataLine_rowText hann]
  · intro i hi
    have hi' : i < N.length := by omega
    have h1 : r.A[i]? = some ((N[i]).map Cell.num) := by
      rw [hr.aux_data, List.getElem?_append_left (by simpa using hi')]
      simp [hi']
    have h2 : idx r.A i = .ok ((N[i]).map Cell.num) := by rw [idx, h1]
    rw [h2]
    simp only [ok_bind]
    rw [idx_lt _ _ (by simpa using hN _ (List.getElem_mem hi'))]
    simp only [ok_bind, List.getElem_map, numCell]
    rw [rowAt_getElem N m hN i hi']

theorem charAuxRow_eq {env : Env F} (hann : env.ann = none) {count : F → Option Int} {r : NA2160 F}
    {N : List (List F)} {T : List (List Str)} (hr : Wf2160 count r N T) (m : Nat)
    (hm : m < r.X.length) (a : Nat) (ha : a < T.length) :
    charAuxRow env (r.aux.NAUXV - r.aux.NAUXC) r.A a m
      = .ok (textLine env.delim ((T[a])[m]'(by rw [hr.text_data.2 _ (List.getElem_mem ha)]; exact hm))
          ++ ['\n']) := by
  obtain ⟨hk, _⟩ := wf2160_k hr
  have hT := hr.text_data.2 _ (List.getElem_mem ha)
  have h1 : r.A[N.length + a]? = some ((T[a]).map Cell.str) := by
    rw [hr.aux_data, List.getElem?_append_right (by simp)]
    simp [ha]
  unfold charAuxRow idxI
  rw [hk, if_pos (by omega)]
  have h2 : ((N.length : Int) + a).toNat = N.length + a := by omega
  rw [h2, idx, h1]
  simp only [ok_bind]
  rw [idx_lt _ _ (by simp [hT, hm])]
  simp only [ok_bind, List.getElem_map, cellStr, dataLine, wrapLine_none hann, textLine]

theorem rows2160_eq {env : Env F} (hann : env.ann = none) {count : F → Option Int} {r : NA2160 F}
    {N : List (List F)} {T : List (List Str)} (hr : Wf2160 count r N T) :
    rows2160 env r = (nl (dataLines2160 env r N T).flatten).map .ok := by
  obtain ⟨hlen, hmk⟩ := marks_len hr.marks
  obtain ⟨_, hk2, _⟩ := wf2160_k hr
  apply rows_flatten
  intro m hm
  have hT : ∀ col ∈ T, m < col.length := fun col hc => by rw [hr.text_data.2 col hc]; exact hm
  rw [numAuxRow_eq hann hr m hm, raggedRows_eq hann _ _ _ hr.data _ m (by omega)
    (hmk m hm (by omega)), nl_cons, nl_cons, nl_append]
  simp only [List.map_cons, List.map_append]
  rw [dataLine, wrapLine_none hann, plainWord_last (hr.words _ (List.getElem_mem hm))]
  congr 3
  rw [range_map_idx (rowAt T m) _ (by rw [rowAt_length T m hT]; omega) _
    (fun s => .ok (textLine env.delim s ++ ['\n']))]
  · simp [nl]
  · intro i hi
    rw [rowAt_length T m hT] at hi
    rw [charAuxRow_eq hann hr m hm i hi, rowAt_getElem T m hT i hi]

theorem ignored_text (ign : List Str) : concat (ignoredWrites ign) = unlines ign := by
  unfold ignoredWrites
  cases ign with
  | nil => rfl
  | cons a t =>
    simp only [List.isEmpty_cons, Bool.false_eq_true, if_false, concat_cons]
    have : ∀ (a : Str) (t : List Str), join ['\n'] (a :: t) ++ ['\n'] = unlines (a :: t) := by
      intro a t
      induction t generalizing a with
      | nil => simp [join, unlines_cons, unlines]
      | cons b t ih => rw [unlines_cons, ← ih b]; simp [join]
    simpa [concat] using this a t

theorem write2160_text {env : Env F} {q : F → F} (hcd : env.cd.Lawful q) (hann : env.ann = none)
    (hd : WsDelim env.delim) {count : F → Option Int} {r : NA2160 F} {N : List (List F)}
    {T : List (List Str)} (hr : Wf2160 count r N T) :
    write2160 env false r =
      ({ r with XNAME := r.XNAME.reverse },
       Out.mk (ignoredWrites r.ignored ++
          unlines (hdrLines2160 env ((hdrLines2160 env 0 r).length : Int) r)
          :: nl (dataLines2160 env r N T).flatten) none) := by
  rw [write2160, if_neg (by simp), header2160_eq hcd hann hd hr]
  simp only []
  have : rows2160 env { r with XNAME := r.XNAME.reverse } = rows2160 env r := rfl
  rw [this, rows2160_eq hann hr, ofRows_ok]
  rfl

theorem sliceTo_append {α : Type} (a b : List α) (k : Int) (h : k = a.length) : sliceTo (a ++ b) k = a := by
  rw [sliceTo_nat _ _ (by omega)]
  have : k.toNat = a.length := by omega
  rw [this]; simp

theorem sliceFrom_append' {α : Type} (a b : List α) (k : Int) (h : k = a.length) :
    sliceFrom (a ++ b) k = b := by
  rw [sliceFrom_nat _ _ (by omega)]
  have : k.toNat = a.length := by omega
  rw [this]; simp

theorem step2160_row {env : Env F} {q : F → F} (hcd : env.cd.Lawful q) (hd : WsDelim env.delim)
    {r : NA2160 F} {N : List (List F)} {T : List (List Str)}
    (hr : Wf2160 (fun a => env.cd.trunc (q a)) r N T) (j : Nat) (hj : j < r.X.length)
    (rest : List Str) :
    step2160 env.cd r.aux.NAUXV r.aux.NAUXC r.v.NV
      (Arr2160.mk (r.NX.take j) ((r.X.take j).map (fun x => (x.1, x.2.map q)))
        (cut (fun x => Cell.num (q x)) N j ++ cut Cell.str T j) (cut (fun l => l.map q) r.V j))
      (nl ((r.X[j]).1 :: rowText env (rowAt N j) :: ((rowAt T j).map (textLine env.delim)
        ++ (raggedVals (r.X[j]).2 (rowAt r.V j)).map (rowText env))) ++ rest)
    = .ok (Arr2160.mk (r.NX.take (j + 1)) ((r.X.take (j + 1)).map (fun x => (x.1, x.2.map q)))
        (cut (fun x => Cell.num (q x)) N (j + 1) ++ cut Cell.str T (j + 1))
        (cut (fun l => l.map q) r.V (j + 1)), rest) := by
  obtain ⟨hnx, hmk⟩ := marks_len hr.marks
  obtain ⟨hk1, hk2, hk3, hk4⟩ := wf2160_k hr
  have hjn : j < r.NX.length := by omega
  have hN : ∀ col ∈ N, j < col.length := fun col hc => by rw [hr.num_data.2 col hc]; exact hj
  have hT : ∀ col ∈ T, j < col.length := fun col hc => by rw [hr.text_data.2 col hc]; exact hj
  obtain ⟨h1, h2, h3⟩ := ragged_cols hr.data j hjn
  obtain ⟨a, as, ha, hcnt⟩ := counts_at hr.counts j hjn hN
  have htv : ∀ s ∈ rowAt T j, TextVal s := by
    intro s hs
    simp only [rowAt, List.mem_filterMap] at hs
    obtain ⟨col, hcol, hs⟩ := hs
    exact hr.texts col hcol s (List.mem_of_getElem? hs)
  have hw := hr.words _ (List.getElem_mem hj)
  have hread : readItemsFromLines (nl ((rowAt T j).map (textLine env.delim))) = rowAt T j := by
    generalize rowAt T j = l at htv
    induction l with
    | nil => rfl
    | cons s t ih =>
      simp only [List.map_cons, nl_cons, readItemsFromLines]
      rw [textLine_read (htv s (by simp)) hd]
      congr 1
      exact ih (fun s hs => htv s (List.mem_cons_of_mem _ hs))
  rw [step2160, data1_2160]
  simp only [nl_cons, List.cons_append, nl_append, List.append_assoc]
  rw [readUnkList, readUnk_line _ _ [(r.X[j]).1] _ [(r.X[j]).1] 1 _ (plainWord_items hw) (by simp)
    (by decide) rfl]
  simp only [ok_bind, idx, List.getElem?_cons_zero]
  rw [readUnkList, readUnk_row hcd hd _ _ _ (by rw [rowAt_length N j hN, hk1]) (by omega)]
  simp only [ok_bind]
  have hlcut : r.aux.NAUXV - r.aux.NAUXC = ((cut (fun x => Cell.num (q x)) N j).length : Int) := by
    simp [cut, hk1]
  rw [sliceTo_append _ _ _ hlcut, sliceFrom_append' _ _ _ hlcut]
  have hltx : r.aux.NAUXC = ((nl ((rowAt T j).map (textLine env.delim))).length : Int) := by
    simp [rowAt_length T j hT, hk2]
  rw [sliceTo_append _ _ _ hltx, sliceFrom_append' _ _ _ hltx, hread]
  have e1 : ((rowAt N j).map q).map Cell.num = (rowAt N j).map (fun x => Cell.num (q x)) := by
    simp [Function.comp_def]
  rw [e1, appendCols_cut _ N j hN, appendCols_cut _ T j hT, ha]
  simp only [List.map_cons, List.getElem?_cons_zero, ok_bind, Codec.int, hcnt]
  have hnat : (r.NX[j]).toNat = (r.X[j]).2.length := by
    have := hmk j hj hjn; omega
  rw [data2_2160, hnat, readRagged_rows hcd hd r.v.NV (rowAt r.V j) (by rw [h2]; exact hr.data.1)
    (r.X[j]).2 (fun col hc => by have := h3 col hc; have := hmk j hj hjn; omega)]
  simp only [ok_bind]
  rw [zipWith_cut (fun l : List F => l.map q) r.V j h1, take_succ_map _ _ _ hj]
  rw [← List.take_append_getElem hjn]

theorem read2160_written {env : Env F} {q : F → F} (hcd : env.cd.Lawful q) (hann : env.ann = none)
    (hd : WsDelim env.delim) {r : NA2160 F} {N : List (List F)} {T : List (List Str)}
    (hr : Wf2160 (fun a => env.cd.trunc (q a)) r N T) :
    read2160 env.cd r.ignored.length (write2160 env false r).2.text =
      .ok { r with com := trimCom r.com,
                   c := { r.c with NLHEAD :=
                            ((hdrLines2160 env 0 r).length : Int) + r.ignored.length },
                   X := r.X.map (fun x => (x.1, x.2.map q)),
                   A := N.map (fun col => col.map (fun x => Cell.num (q x)))
                     ++ T.map (fun col => col.map Cell.str),
                   V := r.V.map (fun vn => vn.map (fun l => l.map q)) } := by
  have hlen : ∀ n, (hdrLines2160 env n r).length = (hdrLines2160 env 0 r).length :=
    fun n => hdrLines2160_length env n 0 r
  obtain ⟨hnx, hmk⟩ := marks_len hr.marks
  obtain ⟨hk1, hk2, hk3, hk4⟩ := wf2160_k hr
  rw [write2160_text hcd hann hd hr]
  generalize hN : (hdrLines2160 env 0 r).length = n
  have htext : Out.text (Out.mk (ignoredWrites r.ignored ++ unlines (hdrLines2160 env (n : Int) r)
      :: nl (dataLines2160 env r N T).flatten) none)
      = unlines ((r.ignored ++ hdrLines2160 env (n : Int) r) ++ (dataLines2160 env r N T).flatten) := by
    rw [Out.text, concat_append, concat_cons, concat_nl, ignored_text, unlines_append,
      unlines_append]
    simp
  rw [htext]
  have hplain : ∀ s ∈ (r.ignored ++ hdrLines2160 env (n : Int) r)
      ++ (dataLines2160 env r N T).flatten, Plain s := by
    intro s hs
    rw [List.mem_append, List.mem_append] at hs
    rcases hs with (hs | hs) | hs
    · exact plain_oneLine (hr.ignored s hs).1
    · exact plain_hdr2160 hcd hd hr _ s hs
    · simp only [dataLines2160, List.mem_flatten, List.mem_mapIdx] at hs
      obtain ⟨_, ⟨i, hi, rfl⟩, hs⟩ := hs
      simp only [List.mem_cons, List.mem_append, List.mem_map] at hs
      rcases hs with rfl | rfl | ⟨t, ht, rfl⟩ | ⟨xs, _, rfl⟩
      · exact plain_word (hr.words _ (List.getElem_mem hi)).1
      · exact plain_rowText hcd hd _
      · simp only [rowAt, List.mem_filterMap] at ht
        obtain ⟨col, hcol, ht⟩ := ht
        exact plain_textLine (hr.texts col hcol t (List.mem_of_getElem? ht)) hd
      · exact plain_rowText hcd hd _
  unfold read2160
  rw [fileLines_unlines _ hplain, nl_append, readHeader2160_lines hcd hd hr]
  simp only [ok_bind]
  unfold readData2160
  have key := readDataWith_blocks (step2160 env.cd r.aux.NAUXV r.aux.NAUXC r.v.NV)
    (fun m => Arr2160.mk (r.NX.take m) ((r.X.take m).map (fun x => (x.1, x.2.map q)))
      (cut (fun x => Cell.num (q x)) N m ++ cut Cell.str T m) (cut (fun l => l.map q) r.V m))
    (r.ignored ++ hdrLines2160 env (n : Int) r) (dataLines2160 env r N T) hplain ?_ ?_ ?_
  · have hA0 : cut (fun x => Cell.num (q x)) N 0 ++ cut Cell.str T 0 = emptyCols r.aux.NAUXV := by
      rw [cut_zero _ N N.length rfl, cut_zero _ T T.length rfl]
      have : r.aux.NAUXV.toNat = N.length + T.length := by omega
      simp [emptyCols, this]
    have hl2 : (((r.ignored ++ hdrLines2160 env (n : Int) r).length : Nat) : Int)
        = (n : Int) + r.ignored.length := by
      rw [List.length_append, hlen, hN]; omega
    simp only [hl2, List.take_zero, List.map_nil, hA0,
      cut_zero (fun l : List F => l.map q) r.V r.v.NV hr.data.1] at key
    simp only []
    rw [key]
    simp only [ok_bind]
    have hl : (dataLines2160 env r N T).length = r.X.length := by simp [dataLines2160]
    rw [hl, cut_all (fun l : List F => l.map q) r.V, cut_all _ N _ hr.num_data.2,
      cut_all _ T _ hr.text_data.2, List.take_length, ← hnx, List.take_length]
    intro vn hvn
    have := congrArg List.length (hr.data.2 vn hvn)
    rw [List.length_map] at this; omega
  · intro b hb
    simp only [dataLines2160, List.mem_mapIdx] at hb
    obtain ⟨i, hi, rfl⟩ := hb
    simp
  · intro b hb l hl
    simp only [dataLines2160, List.mem_mapIdx] at hb
    obtain ⟨i, hi, rfl⟩ := hb
    simp only [List.mem_cons, List.mem_append, List.mem_map] at hl
    rcases hl with rfl | rfl | ⟨t, ht, rfl⟩ | ⟨xs, hx, rfl⟩
    · have hw := hr.words _ (List.getElem_mem hi)
      rw [strip_nl (trim_of_word hw.1)]
      exact hw.1.1
    · refine row_not_blank hcd hd _ ?_
      intro h
      have := rowAt_length N i (fun col hc => by rw [hr.num_data.2 col hc]; exact hi)
      rw [h] at this
      simp only [List.length_nil] at this; omega
    · simp only [rowAt, List.mem_filterMap] at ht
      obtain ⟨col, hcol, ht⟩ := ht
      exact textLine_not_blank (hr.texts col hcol t (List.mem_of_getElem? ht)) hd
    · refine row_not_blank hcd hd _ ?_
      simp only [raggedVals, List.mem_mapIdx] at hx
      obtain ⟨p, hp, rfl⟩ := hx
      simp
  · intro j hj rest
    have hj' : j < r.X.length := by simpa [dataLines2160] using hj
    have e : (dataLines2160 env r N T)[j] = (r.X[j]).1 :: rowText env (rowAt N j) ::
        ((rowAt T j).map (textLine env.delim)
          ++ (raggedVals (r.X[j]).2 (rowAt r.V j)).map (rowText env)) := by simp [dataLines2160]
    rw [e]
    exact step2160_row hcd hd hr j hj' rest

end Nappy
