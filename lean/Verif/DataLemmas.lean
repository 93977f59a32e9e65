import Verif.SectionLemmas

/-! Data rows: what is written, and that the read loop gives the values back. -/

namespace Nappy

open Spec

variable {F : Type}

/-! ### rows of numbers -/

/-- A data row of numbers without its line feed. -/
def rowText (env : Env F) (xs : List F) : Str := rstripSC (concat (xs.map (cell env)))

theorem concat_cons (a : Str) (l : List Str) : concat (a :: l) = a ++ concat l := rfl
theorem concat_append (a b : List Str) : concat (a ++ b) = concat a ++ concat b := by simp [concat]

theorem cell_chars {env : Env F} {q : F → F} (hcd : env.cd.Lawful q) (hd : WsDelim env.delim) (x : F) :
    ∀ c ∈ cell env x, Plain [c] ∧ c ≠ ',' ∧ c ≠ '{' ∧ c ≠ '}' := by
  intro c hc
  obtain ⟨l, t, r, e, hl, hr, ht, _⟩ := hcd.ffmt_token x
  have hsp : Plain [' '] ∧ ' ' ≠ ',' ∧ ' ' ≠ '{' ∧ ' ' ≠ '}' := ⟨⟨by decide, by decide⟩, by decide⟩
  have htok : c ∈ t → Plain [c] ∧ c ≠ ',' ∧ c ≠ '{' ∧ c ≠ '}' := by
    intro h
    have hp := plain_token ht
    refine ⟨⟨?_, ?_⟩, (ht.2 c h).2⟩
    · intro h'; simp at h'; subst h'; exact hp.1 h
    · intro h'; simp at h'; subst h'; exact hp.2 h
  rw [cell, e, List.mem_append, List.mem_append, List.mem_append] at hc
  rcases hc with ((hc | hc) | hc) | hc
  · rw [hl c hc]; exact hsp
  · exact htok hc
  · rw [hr c hc]; exact hsp
  · have hp := plain_delim hd
    have hb := wsDelim_no_brace hd
    refine ⟨⟨?_, ?_⟩, ?_, ?_, ?_⟩
    · intro h'; simp at h'; subst h'; exact hp.1 hc
    · intro h'; simp at h'; subst h'; exact hp.2 hc
    · rintro rfl; exact hb.2.2 hc
    · rintro rfl; exact hb.1 hc
    · rintro rfl; exact hb.2.1 hc

theorem cells_words {env : Env F} {q : F → F} (hcd : env.cd.Lawful q) (hd : WsDelim env.delim)
    (xs : List F) :
    ∃ ts, words (concat (xs.map (cell env))) = ts ∧ ts.length = xs.length ∧
      mapRes env.cd.float ts = .ok (xs.map q) := by
  induction xs with
  | nil => exact ⟨[], rfl, rfl, rfl⟩
  | cons x xs ih =>
    obtain ⟨ts, h1, h2, h3⟩ := ih
    obtain ⟨l, t, r, e, hl, hr, ht, hp⟩ := hcd.ffmt_token x
    refine ⟨t :: ts, ?_, by simp [h2], ?_⟩
    · rw [List.map_cons, concat_cons, cell, e]
      rw [List.append_assoc, List.append_assoc, List.append_assoc,
        words_spaces_append _ _ (by intro c hc; rw [hl c hc]; decide)]
      rw [show t ++ (r ++ (env.delim ++ concat (xs.map (cell env))))
        = t ++ ((r ++ env.delim) ++ concat (xs.map (cell env))) by simp]
      rw [words_sep t _ (r ++ env.delim) (by simp [hd.1]) (by
        intro c hc; rw [List.mem_append] at hc
        rcases hc with hc | hc
        · rw [hr c hc]; decide
        · exact (hd.2 c hc).1)]
      rw [words_token _ ht.1 (fun c hc => (ht.2 c hc).1), h1]; rfl
    · simp [mapRes, Codec.float, hp, h3]

theorem mem_concat_cells {env : Env F} {xs : List F} {c : Char}
    (h : c ∈ concat (xs.map (cell env))) : ∃ x, c ∈ cell env x := by
  simp only [concat, List.mem_flatten, List.mem_map] at h
  obtain ⟨_, ⟨x, _, rfl⟩, h⟩ := h
  exact ⟨x, h⟩

theorem mem_rstripSC {s : Str} {c : Char} (h : c ∈ rstripSC s) : c ∈ s := by
  obtain ⟨suf, e, _⟩ := rstripP_split (fun c => c == ' ' || c == ',') s
  rw [e]; exact List.mem_append_left _ h

theorem words_rstripSC (s ws : Str) (h : ',' ∉ s) (hw : Blank ws) : words (rstripSC s ++ ws) = words s := by
  obtain ⟨suf, e, hs⟩ := rstripP_split (fun c => c == ' ' || c == ',') s
  rw [words_append_spaces _ _ hw]
  conv => rhs; rw [e]
  rw [words_append_spaces]; rfl
  intro c hc
  have h1 := hs c hc
  have h2 : c ∈ s := by rw [e]; exact List.mem_append_right _ hc
  simp only [Bool.or_eq_true, beq_iff_eq] at h1
  rcases h1 with rfl | rfl
  · decide
  · exact absurd h2 h

theorem rowText_chars {env : Env F} {q : F → F} (hcd : env.cd.Lawful q) (hd : WsDelim env.delim)
    (xs : List F) : ∀ c ∈ rowText env xs, Plain [c] ∧ c ≠ ',' ∧ c ≠ '{' ∧ c ≠ '}' := by
  intro c hc
  obtain ⟨x, hx⟩ := mem_concat_cells (mem_rstripSC hc)
  exact cell_chars hcd hd x c hx

theorem plain_rowText {env : Env F} {q : F → F} (hcd : env.cd.Lawful q) (hd : WsDelim env.delim)
    (xs : List F) : Plain (rowText env xs) := by
  constructor
  · intro h; exact (rowText_chars hcd hd xs _ h).1.1 (by simp)
  · intro h; exact (rowText_chars hcd hd xs _ h).1.2 (by simp)

theorem row_items {env : Env F} {q : F → F} (hcd : env.cd.Lawful q) (hd : WsDelim env.delim)
    (xs : List F) :
    ∃ ts, lineItems (rowText env xs ++ ['\n']) = ts ∧ ts.length = xs.length ∧
      mapRes env.cd.float ts = .ok (xs.map q) := by
  obtain ⟨ts, h1, h2, h3⟩ := cells_words hcd hd xs
  refine ⟨ts, ?_, h2, h3⟩
  rw [lineItems_eq, rightStrip_id]
  · rw [rowText, words_rstripSC _ _ _ blank_nl, h1]
    intro h
    obtain ⟨x, hx⟩ := mem_concat_cells h
    exact (cell_chars hcd hd x _ hx).2.1 rfl
  · left
    rw [List.mem_append, not_or]
    exact ⟨fun h => (rowText_chars hcd hd xs _ h).2.2.1 rfl, by decide⟩

theorem readUnk_row {env : Env F} {q : F → F} (hcd : env.cd.Lawful q) (hd : WsDelim env.delim)
    (eof : Err) (xs : List F) (n : Int) (hn : (xs.length : Int) = n) (hp : 1 ≤ n)
    (rest : List Str) :
    readUnk eof n env.cd.float ((rowText env xs ++ ['\n']) :: rest) = .ok (xs.map q, rest) := by
  obtain ⟨ts, h1, h2, h3⟩ := row_items hcd hd xs
  exact readUnk_line eof _ ts _ _ _ _ h1 (by omega) hp h3

theorem row_not_blank {env : Env F} {q : F → F} (hcd : env.cd.Lawful q) (hd : WsDelim env.delim)
    (xs : List F) (hne : xs ≠ []) : strip (rowText env xs ++ ['\n']) ≠ [] := by
  intro h
  obtain ⟨ts, h1, h2, h3⟩ := row_items hcd hd xs
  rw [lineItems, rightStrip_id _ (Or.inl (by
    rw [List.mem_append, not_or]
    exact ⟨fun h => (rowText_chars hcd hd xs _ h).2.2.1 rfl, by decide⟩)), h] at h1
  rw [← h1] at h2
  cases xs with
  | nil => exact hne rfl
  | cons => simp [words, splitP] at h2

theorem dataLine_rowText {env : Env F} (hann : env.ann = none) (xs : List F) :
    dataLine env (concat (xs.map (cell env))) = rowText env xs ++ ['\n'] := by
  rw [dataLine, wrapLine_none hann]; rfl

theorem allItems_rows {env : Env F} {q : F → F} (hcd : env.cd.Lawful q) (hd : WsDelim env.delim)
    (xss : List (List F)) :
    (allItems (nl (xss.map (rowText env)))).length = xss.flatten.length ∧
      mapRes env.cd.float (allItems (nl (xss.map (rowText env)))) = .ok (xss.flatten.map q) := by
  induction xss with
  | nil => exact ⟨rfl, rfl⟩
  | cons xs xss ih =>
    obtain ⟨ts, h1, h2, h3⟩ := row_items hcd hd xs
    rw [List.map_cons, nl_cons, allItems_cons, h1]
    refine ⟨by simp [ih.1, h2], ?_⟩
    rw [mapRes_append _ _ _ _ _ h3 ih.2]; simp

/-- A record laid out as several rows. -/
theorem readUnk_rows {env : Env F} {q : F → F} (hcd : env.cd.Lawful q) (hd : WsDelim env.delim)
    (eof : Err) (xss : List (List F)) (n : Int) (hn : (xss.flatten.length : Int) = n)
    (hne : xss ≠ []) (hp : ∀ xs ∈ xss, xs ≠ []) (rest : List Str) :
    readUnk eof n env.cd.float (nl (xss.map (rowText env)) ++ rest)
      = .ok (xss.flatten.map q, rest) := by
  obtain ⟨init, last, rfl⟩ : ∃ init last, xss = init ++ [last] :=
    ⟨xss.dropLast, xss.getLast hne, (List.dropLast_append_getLast hne).symm⟩
  have hlast : last ≠ [] := hp last (by simp)
  have hl : 0 < last.length := by cases last with
    | nil => exact absurd rfl hlast
    | cons => simp
  obtain ⟨h1, h2⟩ := allItems_rows hcd hd init
  obtain ⟨h3, h4⟩ := allItems_rows hcd hd (init ++ [last])
  have h5 := allItems_rows hcd hd [last]
  have h5l : (lineItems (rowText env last ++ ['\n'])).length = last.length := by
    have := h5.1; simpa using this
  have hn' : ((init.flatten.length : Int)) + last.length = n := by
    rw [List.flatten_append, List.length_append] at hn
    simp only [List.flatten_cons, List.flatten_nil, List.append_nil] at hn
    omega
  rw [readUnk_ok_iff]
  refine ⟨by omega, nl (init.map (rowText env)), rowText env last ++ ['\n'], by simp, by omega, ?_,
    by omega, ?_⟩
  · have : nl (init.map (rowText env)) ++ [rowText env last ++ ['\n']]
        = nl ((init ++ [last]).map (rowText env)) := by simp
    rw [this, h3]; omega
  · have : nl (init.map (rowText env)) ++ [rowText env last ++ ['\n']]
        = nl ((init ++ [last]).map (rowText env)) := by simp
    rw [this, h4]

/-! ### columns -/

/-- Row `m` of a list of columns. -/
def rowAt {α : Type} (cols : List (List α)) (m : Nat) : List α := cols.filterMap (fun col => col[m]?)

theorem rowAt_cons {α : Type} (col : List α) (cols : List (List α)) (m : Nat) (h : m < col.length) :
    rowAt (col :: cols) m = col[m] :: rowAt cols m := by
  simp [rowAt, h]

theorem rowAt_length {α : Type} (cols : List (List α)) (m : Nat) (h : ∀ col ∈ cols, m < col.length) :
    (rowAt cols m).length = cols.length := by
  induction cols with
  | nil => rfl
  | cons c cs ih =>
    rw [rowAt_cons _ _ _ (h c (by simp))]
    simp [ih (fun x hx => h x (List.mem_cons_of_mem _ hx))]

theorem idx_lt {α : Type} (l : List α) (m : Nat) (h : m < l.length) : idx l m = .ok l[m] := by
  simp [idx, h]

theorem cells_rowAt {env : Env F} (cols : List (List F)) (m : Nat) (h : ∀ col ∈ cols, m < col.length) :
    cells env cols m = .ok (concat ((rowAt cols m).map (cell env))) := by
  have : mapRes (fun (col : List F) => do
      let x ← idx col m
      (.ok (cell env x) : Res Str)) cols = .ok ((rowAt cols m).map (cell env)) := by
    induction cols with
    | nil => rfl
    | cons c cs ih =>
      rw [rowAt_cons _ _ _ (h c (by simp)), mapRes, idx_lt _ _ (h c (by simp)),
        ih (fun x hx => h x (List.mem_cons_of_mem _ hx))]
      rfl
  rw [cells, this]; rfl

theorem firstN_all {α : Type} (l : List α) (n : Int) (h : (l.length : Int) = n) :
    firstN l n = .ok l := by
  have hn : n.toNat = l.length := by omega
  rw [firstN, hn]
  have : ∀ (k : Nat), k ≤ l.length → mapRes (idx l) (List.range' (l.length - k) k) = .ok (l.drop (l.length - k)) := by
    intro k
    induction k with
    | zero => intro _; simp [mapRes]
    | succ k ih =>
      intro hk
      rw [List.range'_succ, mapRes, idx_lt _ _ (by omega)]
      rw [show l.length - (k + 1) + 1 = l.length - k by omega, ih (by omega)]
      simp only [ok_bind]
      rw [List.drop_eq_getElem_cons (i := l.length - (k+1)) (by omega)]
      rw [show l.length - (k + 1) + 1 = l.length - k by omega]
  have := this l.length (Nat.le_refl _)
  rw [Nat.sub_self] at this
  rw [List.range_eq_range']
  simpa using this

/-- Columns cut to their first `m` values, each value through `q`. -/
def cut {α β : Type} (q : α → β) (cols : List (List α)) (m : Nat) : List (List β) :=
  cols.map (fun col => (col.take m).map q)

theorem cut_zero {α β : Type} (q : α → β) (cols : List (List α)) (n : Int) (h : (cols.length : Int) = n) :
    cut q cols 0 = emptyCols n := by
  have hn : n.toNat = cols.length := by omega
  rw [cut, emptyCols, hn]
  simp only [List.take_zero, List.map_nil]
  induction cols generalizing n with
  | nil => rfl
  | cons c cs ih =>
    rw [List.map_cons, List.length_cons, List.replicate_succ, ih cs.length rfl (by omega)]

theorem cut_all {α β : Type} (q : α → β) (cols : List (List α)) (m : Nat) (h : ∀ col ∈ cols, col.length = m) :
    cut q cols m = cols.map (fun col => col.map q) := by
  apply List.map_congr_left
  intro col hc
  rw [List.take_of_length_le (by rw [h col hc]; exact Nat.le_refl _)]

theorem take_succ_map {α β : Type} (q : α → β) (l : List α) (m : Nat) (h : m < l.length) :
    (l.take (m + 1)).map q = (l.take m).map q ++ [q l[m]] := by
  rw [← List.take_append_getElem h, List.map_append]; rfl

theorem appendCols_cut {α β : Type} (q : α → β) (cols : List (List α)) (m : Nat)
    (h : ∀ col ∈ cols, m < col.length) :
    appendCols (cut q cols m) ((rowAt cols m).map q) = .ok (cut q cols (m + 1)) := by
  induction cols with
  | nil => rfl
  | cons c cs ih =>
    rw [rowAt_cons _ _ _ (h c (by simp)), cut, List.map_cons, List.map_cons, appendCols]
    have := ih (fun x hx => h x (List.mem_cons_of_mem _ hx))
    rw [cut] at this; rw [this]
    simp only [ok_bind, cut, List.map_cons]
    rw [take_succ_map _ _ _ (h c (by simp))]

/-! ### the read loop -/

theorem ofRows_ok (ls : List Str) : Out.ofRows (ls.map .ok) = { writes := ls, err := none } := by
  induction ls with
  | nil => rfl
  | cons a t ih => rw [List.map_cons, Out.ofRows, ih]

theorem checkBlank_ok (ls : List Str) (h : ∀ l ∈ ls, strip l ≠ []) : checkBlank false ls = .ok ls := by
  induction ls with
  | nil => rfl
  | cons a t ih =>
    rw [checkBlank, if_neg (h a (by simp)), if_neg (by simp),
      ih (fun l hl => h l (List.mem_cons_of_mem _ hl))]
    rfl

theorem readLoop_blocks {σ : Type} (step : σ → List Str → Res (σ × List Str)) (st : Nat → σ)
    (blocks : List (List Str)) (i fuel : Nat)
    (hne : ∀ b ∈ blocks, b ≠ [])
    (hstep : ∀ j (h : j < blocks.length) (rest : List Str),
      step (st (i + j)) (blocks[j] ++ rest) = .ok (st (i + j + 1), rest))
    (hfuel : blocks.flatten.length ≤ fuel) :
    readLoop step fuel (st i) blocks.flatten = .ok (st (i + blocks.length)) := by
  induction blocks generalizing i fuel with
  | nil => cases fuel <;> rfl
  | cons b bs ih =>
    have hb := hne b (by simp)
    cases b with
    | nil => exact absurd rfl hb
    | cons l ls =>
      cases fuel with
      | zero => simp at hfuel
      | succ fuel =>
        have h0 := hstep 0 (by simp) bs.flatten
        simp only [List.getElem_cons_zero, Nat.add_zero] at h0
        rw [List.flatten_cons, List.cons_append, readLoop]
        rw [List.cons_append] at h0
        rw [h0]
        simp only [ok_bind]
        rw [ih (i + 1) fuel (fun x hx => hne x (List.mem_cons_of_mem _ hx)) ?_ ?_]
        · rw [List.length_cons, show i + 1 + bs.length = i + (bs.length + 1) by omega]
        · intro j hj rest
          have := hstep (j + 1) (by simp; omega) rest
          simp only [List.getElem_cons_succ] at this
          rw [show i + 1 + j = i + (j + 1) by omega]; exact this
        · simp at hfuel ⊢; omega

theorem sliceFrom_append {α : Type} (a b : List α) : sliceFrom (a ++ b) (a.length : Int) = b := by
  rw [sliceFrom, if_pos (by omega)]; simp

theorem nl_flatten (bs : List (List Str)) : nl bs.flatten = (bs.map nl).flatten := by
  induction bs with
  | nil => rfl
  | cons b bs ih => simp [ih]

theorem mapIdx_singleton {α β : Type} (l : List α) (f : Nat → α → β) :
    (l.mapIdx (fun m x => [f m x])).flatten = l.mapIdx f := by
  induction l generalizing f with
  | nil => rfl
  | cons a t ih => rw [List.mapIdx_cons, List.mapIdx_cons, List.flatten_cons, ih]; rfl

theorem rows_flatten {α : Type} (X : List α) (f : Nat → α → List (Res Str)) (g : Nat → α → List Str)
    (h : ∀ m (hm : m < X.length), f m X[m] = (nl (g m X[m])).map .ok) :
    (X.mapIdx f).flatten = (nl (X.mapIdx g).flatten).map .ok := by
  induction X generalizing f g with
  | nil => rfl
  | cons a t ih =>
    rw [List.mapIdx_cons, List.mapIdx_cons, List.flatten_cons, List.flatten_cons, nl_append,
      List.map_append]
    have h0 := h 0 (by simp)
    rw [List.getElem_cons_zero] at h0
    rw [h0, ih _ _ (fun m hm => by
      have := h (m + 1) (by simp; omega)
      rwa [List.getElem_cons_succ] at this)]

/-- Reading the data section of a file made of a header of `hdr.length` lines and blocks of data lines. -/
theorem readDataWith_blocks {σ : Type} (step : σ → List Str → Res (σ × List Str)) (st : Nat → σ)
    (hdr : List Str) (blocks : List (List Str))
    (hplain : ∀ s ∈ hdr ++ blocks.flatten, Plain s)
    (hne : ∀ b ∈ blocks, b ≠ []) (hnb : ∀ b ∈ blocks, ∀ l ∈ b, strip (l ++ ['\n']) ≠ [])
    (hstep : ∀ j (h : j < blocks.length) (rest : List Str),
      step (st j) (nl blocks[j] ++ rest) = .ok (st (j + 1), rest)) :
    readDataWith step (st 0) (unlines (hdr ++ blocks.flatten)) hdr.length
      = .ok (st blocks.length) := by
  rw [readDataWith, fileLines_unlines _ hplain, nl_append]
  have : sliceFrom (nl hdr ++ nl blocks.flatten) (hdr.length : Int) = nl blocks.flatten := by
    have := sliceFrom_append (nl hdr) (nl blocks.flatten)
    rwa [nl_length] at this
  rw [this, checkBlank_ok]
  · simp only [ok_bind]
    have := readLoop_blocks step st (blocks.map nl) 0 (nl blocks.flatten).length ?_ ?_ ?_
    · rw [nl_flatten] at this ⊢
      simpa using this
    · intro b hb
      obtain ⟨b', hb', rfl⟩ := List.mem_map.1 hb
      intro h
      have := congrArg List.length h
      rw [nl_length] at this
      exact hne b' hb' (List.length_eq_zero_iff.1 this)
    · intro j hj rest
      have hj' : j < blocks.length := by simpa using hj
      have := hstep j hj' rest
      simpa using this
    · rw [nl_flatten]; exact Nat.le_refl _
  · intro l hl
    simp only [nl, List.mem_map, List.mem_flatten] at hl
    obtain ⟨s, ⟨b, hb, hs⟩, rfl⟩ := hl
    exact hnb b hb s hs

end Nappy
