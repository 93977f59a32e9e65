import Verif.TreeLemmas
import Verif.RT1010

/-! FFI 2010, 3010 and 4010: written text and reading it back. -/

namespace Nappy

open Spec

variable {F : Type}

/-- A line without leading white space, as the axis values are written. -/
def axisText (env : Env F) (xs : List F) : Str := lstrip (rowText env xs ++ ['\n'])

theorem lstrip_split (s : Str) : ∃ pre, s = pre ++ lstrip s ∧ Blank pre := by
  refine ⟨s.takeWhile isSpace, ?_, ?_⟩
  · rw [lstrip, List.takeWhile_append_dropWhile]
  · intro c hc
    induction s with
    | nil => simp at hc
    | cons a t ih =>
      rw [List.takeWhile_cons] at hc
      split at hc
      · rcases List.mem_cons.1 hc with rfl | hc
        · assumption
        · exact ih hc
      · simp at hc

theorem lstrip_of_nonblank (s ws : Str) (h : strip s ≠ []) : lstrip (s ++ ws) = lstrip s ++ ws := by
  have h' : lstrip s ≠ [] := by
    intro h'; apply h; rw [strip, h']; rfl
  unfold lstrip at h' ⊢
  induction s with
  | nil => exact absurd rfl h'
  | cons a t ih =>
    rw [List.cons_append]
    by_cases ha : isSpace a = true
    · rw [List.dropWhile_cons_of_pos ha] at h' ⊢
      rw [List.dropWhile_cons_of_pos ha]
      refine ih ?_ h'
      intro h2; apply h
      rw [strip, lstrip, List.dropWhile_cons_of_pos ha]; exact h2
    · rw [List.dropWhile_cons_of_neg ha, List.dropWhile_cons_of_neg ha]; rfl

theorem row_strip_ne {env : Env F} {q : F → F} (hcd : env.cd.Lawful q) (hd : WsDelim env.delim)
    (xs : List F) (hne : xs ≠ []) : strip (rowText env xs) ≠ [] := by
  intro h
  obtain ⟨ts, h1, h2, h3⟩ := row_items hcd hd xs
  rw [lineItems_eq, rightStrip_id _ (Or.inl (by
    rw [List.mem_append, not_or]
    exact ⟨fun h => (rowText_chars hcd hd xs _ h).2.2.1 rfl, by decide⟩)),
    words_append_spaces _ _ blank_nl, ← words_strip, h] at h1
  rw [← h1] at h2
  cases xs with
  | nil => exact hne rfl
  | cons => simp [words, splitP] at h2

/-- The line of an axis without its line feed. -/
def axisRow (env : Env F) (xs : List F) : Str := lstrip (rowText env xs)

theorem axisText_eq {env : Env F} {q : F → F} (hcd : env.cd.Lawful q) (hd : WsDelim env.delim)
    (xs : List F) (hne : xs ≠ []) : axisText env xs = axisRow env xs ++ ['\n'] :=
  lstrip_of_nonblank _ _ (row_strip_ne hcd hd xs hne)

theorem mem_axisRow {env : Env F} {xs : List F} {c : Char} (h : c ∈ axisRow env xs) :
    c ∈ rowText env xs := by
  obtain ⟨pre, e, _⟩ := lstrip_split (rowText env xs)
  rw [e]; exact List.mem_append_right _ h

theorem plain_axisRow {env : Env F} {q : F → F} (hcd : env.cd.Lawful q) (hd : WsDelim env.delim)
    (xs : List F) : Plain (axisRow env xs) :=
  ⟨fun h => (plain_rowText hcd hd xs).1 (mem_axisRow h),
   fun h => (plain_rowText hcd hd xs).2 (mem_axisRow h)⟩

theorem readUnk_axis {env : Env F} {q : F → F} (hcd : env.cd.Lawful q) (hd : WsDelim env.delim)
    (eof : Err) (xs : List F) (n : Int) (hn : (xs.length : Int) = n) (hp : 1 ≤ n)
    (rest : List Str) :
    readUnk eof n env.cd.float ((axisRow env xs ++ ['\n']) :: rest) = .ok (xs.map q, rest) := by
  obtain ⟨ts, h1, h2, h3⟩ := row_items hcd hd xs
  refine readUnk_line eof _ ts _ _ _ _ ?_ (by omega) hp h3
  have hnb : ∀ s : Str, (∀ c ∈ s, c ∈ rowText env xs) → '{' ∉ s ++ ['\n'] := by
    intro s hs
    rw [List.mem_append, not_or]
    exact ⟨fun h => (rowText_chars hcd hd xs _ (hs _ h)).2.2.1 rfl, by decide⟩
  rw [lineItems_eq, rightStrip_id _ (Or.inl (hnb _ (fun c h => h)))] at h1
  rw [lineItems_eq, rightStrip_id _ (Or.inl (hnb _ (fun c h => mem_axisRow h)))]
  obtain ⟨pre, e, hb⟩ := lstrip_split (rowText env xs)
  rw [e, List.append_assoc, words_spaces_append _ _ hb] at h1
  exact h1

/-! ### header -/

/-- The axis lines of the header, in the order they are written. -/
def axesLines (env : Env F) (XB : List (List F)) : List Str := (XB.reverse.map (axisRow env))

/-- The header lines of a 2010 file. -/
def hdrLines2010 (env : Env F) (n : Int) (r : NA2010 F) : List Str :=
  commonLines env.delim n r.c ++
    (join env.delim (r.DX.reverse.map env.cd.sfmt) ::
     join env.delim (r.NX.reverse.map intStr) ::
     join env.delim (r.NXDEF.reverse.map intStr) ::
     (axesLines env r.XB ++ (r.XNAME.reverse ++ (varLines env.cd env.delim r.v ++
       (auxLines env.cd env.delim r.aux ++ comLines r.com)))))

theorem hdrLines2010_length (env : Env F) (n n' : Int) (r : NA2010 F) :
    (hdrLines2010 env n r).length = (hdrLines2010 env n' r).length := by
  simp [hdrLines2010, commonLines]

theorem wf2010_niv {r : NA2010 F} (hr : Wf2010 r) : nivOf r.c.FFI = r.NIV ∧ 2 ≤ r.NIV := by
  rcases hr.ffi with ⟨h1, h2⟩ | ⟨h1, h2⟩ | ⟨h1, h2⟩ <;> rw [h1, h2] <;> decide

theorem wf2010_axes_ne {r : NA2010 F} (hr : Wf2010 r) : ∀ x ∈ r.XB, x ≠ [] := by
  intro x hx h
  have : (x.length : Int) ∈ r.NXDEF := by
    rw [← hr.axes]; exact List.mem_map_of_mem hx
  have := hr.nxdef_pos _ this
  rw [h] at this; simp at this

theorem plain_hdr2010 {env : Env F} {q : F → F} (hcd : env.cd.Lawful q) (hd : WsDelim env.delim)
    {r : NA2010 F} (hr : Wf2010 r) (n : Int) : ∀ s ∈ hdrLines2010 env n r, Plain s := by
  intro s hs
  simp only [hdrLines2010, List.mem_append, List.mem_cons] at hs
  rcases hs with hs | rfl | rfl | rfl | hs | hs | hs | hs | hs
  · exact plain_commonLines hd hr.common n s hs
  · exact plain_tokens hd _ (token_sfmt hcd _)
  · exact plain_tokens hd _ (token_intStr_list _)
  · exact plain_tokens hd _ (token_intStr_list _)
  · obtain ⟨x, _, rfl⟩ := List.mem_map.1 hs
    exact plain_axisRow hcd hd x
  · exact plain_oneLine (hr.xnames s (List.mem_reverse.1 hs)).1
  · exact plain_varLines hcd hd hr.vars s hs
  · exact plain_auxLines hcd hd hr.aux s hs
  · exact plain_comLines hr.com s hs

theorem sliceTo_length {α : Type} (l : List α) : sliceTo l (l.length : Int) = l := by
  rw [sliceTo, if_pos (by omega)]; simp

theorem axisLine_eq {env : Env F} (x : List F) :
    axisLine env (x.length : Int) x = .ok (axisText env x) := by
  rw [axisLine, sliceTo_length]
  simp only [Int.toNat_natCast, if_true]
  rfl

theorem axisLines_eq {env : Env F} {q : F → F} (hcd : env.cd.Lawful q) (hann : env.ann = none)
    (hd : WsDelim env.delim) (r : NA2010 F) (hax : r.XB.map (fun x => (x.length : Int)) = r.NXDEF)
    (hl : (r.NXDEF.length : Int) = r.NIV - 1) (hne : ∀ x ∈ r.XB, x ≠ []) :
    axisLines env r = .ok (unlines (axesLines env r.XB)) := by
  have hk : (r.NIV - 1).toNat = r.XB.length := by
    rw [← hax, List.length_map] at hl; omega
  have key : mapRes (fun i => do
      let n ← idx r.NXDEF i
      let x ← idx r.XB i
      axisLine env n x) (List.range r.XB.length) = .ok (r.XB.map (axisText env)) := by
    have h1 : mapRes (fun i => do
        let n ← idx r.NXDEF i
        let x ← idx r.XB i
        axisLine env n x) (List.range r.XB.length)
        = mapRes (fun i => do let x ← idx r.XB i; (.ok (axisText env x) : Res Str))
            (List.range r.XB.length) := by
      apply mapRes_congr
      intro i hi
      have hi' : i < r.XB.length := List.mem_range.1 hi
      rw [← hax, idx_lt _ _ (by simpa using hi'), idx_lt _ _ hi']
      simp only [ok_bind, List.getElem_map]
      exact axisLine_eq _
    rw [h1, mapRes_range r.XB (fun x => (.ok (axisText env x) : Res Str))]
    exact mapRes_ok_map _ _ _ (fun _ _ => rfl)
  rw [axisLines, hk, key]
  simp only [ok_bind, wrapLine_none hann]
  congr 1
  rw [← List.map_reverse, List.map_map]
  show concat _ = concat (nl _)
  rw [axesLines, nl, List.map_map]
  congr 1
  apply List.map_congr_left
  intro x hx
  exact axisText_eq hcd hd x (hne x (List.mem_reverse.1 hx))

theorem header2010_eq {env : Env F} {q : F → F} (hcd : env.cd.Lawful q) (hann : env.ann = none)
    (hd : WsDelim env.delim) {r : NA2010 F} (hr : Wf2010 r) :
    header2010 env r
      = ({ r with DX := r.DX.reverse, NX := r.NX.reverse },
         .ok (unlines (hdrLines2010 env ((hdrLines2010 env 0 r).length : Int) r))) := by
  obtain ⟨_, hniv⟩ := wf2010_niv hr
  have hne := wf2010_axes_ne hr
  unfold header2010
  rw [writeCommon_lines hann hr.common]
  simp only []
  rw [tmplSep_ok _ _ _ (by simpa using hr.dx) (by omega)]
  simp only [Prod.mk.injEq, true_and]
  unfold header2010Tail
  simp only []
  rw [tmplSep_ok _ _ _ (by simpa using hr.nx) (by omega),
    tmplSep_ok _ _ _ (by simpa using hr.nxdef) (by omega)]
  rw [axisLines_eq hcd hann hd { r with DX := r.DX.reverse, NX := r.NX.reverse } hr.axes hr.nxdef hne]
  rw [tmplLines_ok _ _ (by simpa using hr.xname),
    writeVars_lines hann hr.vars, writeAux_lines hann hr.aux, writeComments_lines hann hr.com]
  simp only [ok_bind, wrapLine_none hann, wrapLines_none hann]
  have e : unlines (commonLines env.delim r.c.NLHEAD r.c)
      ++ (join env.delim (r.DX.reverse.map env.cd.sfmt) ++ ['\n'])
      ++ (join env.delim (r.NX.reverse.map intStr) ++ ['\n'])
      ++ (join env.delim (r.NXDEF.reverse.map intStr) ++ ['\n'])
      ++ unlines (axesLines env r.XB) ++ unlines r.XNAME.reverse
      ++ unlines (varLines env.cd env.delim r.v) ++ unlines (auxLines env.cd env.delim r.aux)
      ++ unlines (comLines r.com)
      = unlines (hdrLines2010 env r.c.NLHEAD r) := by
    simp [hdrLines2010, unlines_append, unlines_cons, -List.map_reverse]
  rw [e]
  have hp := plain_hdr2010 hcd hd hr r.c.NLHEAD
  unfold hdrLines2010 at hp ⊢
  simp only [commonLines, List.cons_append] at hp ⊢
  rw [fixHeaderLength_lines hann _ _ _ (fun s hs => (hp s hs).1)]
  simp

theorem ints_line {d : Str} (hd : WsDelim d) (is : List Int) (n : Int)
    (hn : (is.length : Int) = n) (hp : 1 ≤ n) :
    readItemsFromLine (join d (is.map intStr) ++ ['\n']) n pyInt = .ok is :=
  readItemsFromLine_of_items _ _ _ _ _
    (lineItems_join hd _ (token_intStr_list is)) (by simpa using hn) hp (mapRes_pyInt is)

theorem floats_line {cd : Codec F} {q : F → F} (hcd : cd.Lawful q) {d : Str} (hd : WsDelim d)
    (xs : List F) (n : Int) (hn : (xs.length : Int) = n) (hp : 1 ≤ n) :
    readItemsFromLine (join d (xs.map cd.sfmt) ++ ['\n']) n cd.float = .ok xs :=
  readItemsFromLine_of_items _ _ _ _ _
    (lineItems_join hd _ (token_sfmt hcd xs)) (by simpa using hn) hp (mapRes_sfmt hcd xs)

/-- Reading axes whose lengths are the counts, in the order of the lines. -/
theorem readAxes_lines {env : Env F} {q : F → F} (hcd : env.cd.Lawful q) (hd : WsDelim env.delim)
    (xs : List (List F)) (hne : ∀ x ∈ xs, x ≠ []) (rest : List Str) :
    readAxes env.cd (xs.map (fun x => (x.length : Int))) (nl (xs.map (axisRow env)) ++ rest)
      = .ok (xs.map (fun x => x.map q), rest) := by
  induction xs with
  | nil => rfl
  | cons a t ih =>
    have ha : a ≠ [] := hne a (by simp)
    have hl : 0 < a.length := by cases a with
      | nil => exact absurd rfl ha
      | cons => simp
    simp only [List.map_cons, nl_cons, List.cons_append, readAxes, readUnkFile]
    rw [readUnk_axis hcd hd _ _ _ rfl (by omega)]
    simp only [ok_bind]
    rw [ih (fun x hx => hne x (List.mem_cons_of_mem _ hx))]
    rfl

theorem readHeader2010_lines {env : Env F} {q : F → F} (hcd : env.cd.Lawful q)
    (hd : WsDelim env.delim) {r : NA2010 F} (hr : Wf2010 r) (hpal : r.NXDEF.reverse = r.NXDEF)
    (n : Int) (rest : List Str) :
    readHeader2010 env.cd 0 (nl (hdrLines2010 env n r) ++ rest)
      = .ok ({ r with com := trimCom r.com,
                      c := { r.c with NLHEAD := n }, XB := r.XB.map (fun x => x.map q), X0 := [],
                      A := [], V := [] }, [], rest) := by
  obtain ⟨hniv, hge⟩ := wf2010_niv hr
  have hnames : ∀ s ∈ r.XNAME.reverse, Name s := fun s hs => hr.xnames s (List.mem_reverse.1 hs)
  unfold readHeader2010 hdrLines2010
  rw [nl_append, List.append_assoc, readCommon_lines hd hr.common]
  simp only [ok_bind, hniv, nl_cons, List.cons_append, readline]
  rw [floats_line hcd hd _ _ (by simpa using hr.dx) (by omega)]
  simp only [ok_bind]
  rw [ints_line hd _ _ (by simpa using hr.nx) (by omega)]
  simp only [ok_bind]
  rw [ints_line hd _ _ (by simpa using hr.nxdef) (by omega)]
  simp only [ok_bind, List.reverse_reverse, nl_append, List.append_assoc]
  have hrev : r.NXDEF = r.XB.reverse.map (fun x => (x.length : Int)) := by
    rw [List.map_reverse, hr.axes, hpal]
  have hax := readAxes_lines hcd hd r.XB.reverse
    (fun x hx => wf2010_axes_ne hr x (List.mem_reverse.1 hx))
    (nl r.XNAME.reverse ++ (nl (varLines env.cd env.delim r.v) ++
      (nl (auxLines env.cd env.delim r.aux) ++ (nl (comLines r.com) ++ rest))))
  rw [← hrev] at hax
  rw [axesLines, hax]
  simp only [ok_bind]
  rw [readXName_lines r.XNAME.reverse _ (by simpa using hr.xname) hnames]
  simp only []
  rw [readVars_lines hcd hd hr.vars]
  simp only [ok_bind]
  rw [readAux_lines hcd hd hr.aux]
  simp only [ok_bind]
  rw [readComments_lines hr.com]
  simp only [ok_bind, readItemsFromLines_names _ hnames, List.reverse_reverse, List.map_reverse]

/-! ### data -/

/-- The rows of every variable at mark `m`. -/
def treeRows (dims : List Nat) (V : List (List (Tree F))) (m : Nat) : List (List F) :=
  ((rowAt V m).map (rowsOf dims)).flatten

/-- The data lines of a 2010 file. -/
def dataLines2010 (env : Env F) (r : NA2010 F) : List (List Str) :=
  r.X0.mapIdx (fun m x => rowText env (x :: rowAt r.A m) ::
    (treeRows (r.NX.map Int.toNat) r.V m).map (rowText env))

theorem mem_rowAt {α : Type} {cols : List (List α)} {m : Nat} {x : α} (h : x ∈ rowAt cols m) :
    ∃ col ∈ cols, x ∈ col := by
  simp only [rowAt, List.mem_filterMap] at h
  obtain ⟨col, hc, h⟩ := h
  exact ⟨col, hc, List.mem_of_getElem? h⟩

theorem rowAt_getElem {α : Type} (cols : List (List α)) (m : Nat)
    (h : ∀ col ∈ cols, m < col.length) (n : Nat) (hn : n < cols.length) :
    (rowAt cols m)[n]'(by rw [rowAt_length _ _ h]; exact hn)
      = (cols[n])[m]'(h _ (List.getElem_mem hn)) := by
  induction cols generalizing n with
  | nil => simp at hn
  | cons c cs ih =>
    have e := rowAt_cons c cs m (h c (by simp))
    cases n with
    | zero => simp [e]
    | succ n =>
      have := ih (fun x hx => h x (List.mem_cons_of_mem _ hx)) n (by simpa using hn)
      simp only [e, List.getElem_cons_succ]
      exact this

theorem varLines2010_eq {env : Env F} (hann : env.ann = none) (nx : List Int) (hne : nx ≠ [])
    (hp : ∀ n ∈ nx, 1 ≤ n) (V : List (List (Tree F))) (n m : Nat) (hn : n < V.length)
    (hm : m < (V[n]).length) (hs : Shaped (nx.map Int.toNat) ((V[n])[m])) :
    varLines2010 env nx V n m
      = (nl ((rowsOf (nx.map Int.toNat) ((V[n])[m])).map (rowText env))).map .ok := by
  unfold varLines2010
  simp only [idx_lt V n hn, ok_bind, idx_lt _ _ hm, natDims]
  rw [writeLines_ok _ (by simpa using hne) _ hs]
  simp only [wrapLine_none hann]

theorem range_map_getElem {α β : Type} (l : List α) (f : Nat → β) (g : α → β)
    (h : ∀ i (hi : i < l.length), f i = g l[i]) : (List.range l.length).map f = l.map g := by
  apply List.ext_getElem
  · simp
  · intro i h1 h2
    simp at h1
    simp [h i h1]

theorem rows2010_eq {env : Env F} (hann : env.ann = none) {r : NA2010 F} (hr : Wf2010 r) :
    rows2010 env r = (nl (dataLines2010 env r).flatten).map .ok := by
  have hne : r.NX ≠ [] := by
    intro h
    have h1 := hr.nx
    have h2 := (wf2010_niv hr).2
    rw [h] at h1; simp at h1; omega
  apply rows_flatten
  intro m hm
  have hca : ∀ col ∈ r.A, m < col.length := fun col hc => by rw [hr.aux_data.2 col hc]; exact hm
  have hcv : ∀ col ∈ r.V, m < col.length := fun col hc => by rw [hr.data.2 col hc]; exact hm
  have hnv : r.v.NV.toNat = (rowAt r.V m).length := by
    have := hr.data.1
    rw [rowAt_length _ _ hcv]; omega
  rw [markRow_eq hann _ _ hr.aux_data.1 _ _ hca, nl_cons, List.map_cons, hnv]
  congr 1
  rw [range_map_getElem (rowAt r.V m) _
    (fun t => (nl ((rowsOf (r.NX.map Int.toNat) t).map (rowText env))).map .ok)]
  · rw [treeRows]
    generalize rowAt r.V m = ts
    induction ts with
    | nil => rfl
    | cons t ts ih =>
      simp only [List.map_cons, List.flatten_cons, ih, List.map_append, nl_append]
  · intro n hn
    have hn' : n < r.V.length := by rwa [rowAt_length _ _ hcv] at hn
    have hg := rowAt_getElem r.V m hcv n hn'
    rw [hg]
    exact varLines2010_eq hann r.NX hne hr.nx_pos r.V n m hn' (hcv _ (List.getElem_mem hn'))
      (hr.shape _ (List.getElem_mem hn') _ (List.getElem_mem _))

theorem write2010_text {env : Env F} {q : F → F} (hcd : env.cd.Lawful q) (hann : env.ann = none)
    (hd : WsDelim env.delim) {r : NA2010 F} (hr : Wf2010 r) :
    write2010 env false r =
      ({ r with DX := r.DX.reverse },
       Out.mk (unlines (hdrLines2010 env ((hdrLines2010 env 0 r).length : Int) r) ::
          nl (dataLines2010 env r).flatten) none) := by
  rw [write2010, if_neg (by simp), header2010_eq hcd hann hd hr]
  simp only [List.reverse_reverse]
  have : rows2010 env { r with DX := r.DX.reverse } = rows2010 env r := rfl
  rw [this, rows2010_eq hann hr, ofRows_ok]
  rfl

theorem arraySize_prod (nx : List Int) (h : ∀ n ∈ nx, 1 ≤ n) :
    arraySize nx = (prod (nx.map Int.toNat) : Nat) := by
  have : ∀ (l : List Int) (a : Int), (∀ n ∈ l, 1 ≤ n) →
      l.foldl (fun a i => a * i) a = a * (prod (l.map Int.toNat) : Nat) := by
    intro l
    induction l with
    | nil => intro a _; simp
    | cons i l ih =>
      intro a h
      have hi := h i (by simp)
      rw [List.foldl_cons, ih _ (fun x hx => h x (List.mem_cons_of_mem _ hx)), List.map_cons,
        prod_cons]
      have : ((i.toNat : Nat) : Int) = i := by omega
      rw [Int.natCast_mul, this, Int.mul_assoc]
  rw [arraySize, this nx 1 h, Int.one_mul]

theorem popVars_rows {env : Env F} {q : F → F} (hcd : env.cd.Lawful q) (hd : WsDelim env.delim)
    (dims : List Nat) (hne : dims ≠ []) (hp : ∀ d ∈ dims, 1 ≤ d) (V : List (List (Tree F))) (m : Nat)
    (hm : ∀ col ∈ V, m < col.length) (hs : ∀ col ∈ V, ∀ t ∈ col, Shaped dims t) (rest : List Str) :
    popVars env.cd (prod dims : Nat) dims (cut (mapTree q) V m)
        (nl ((treeRows dims V m).map (rowText env)) ++ rest)
      = .ok (cut (mapTree q) V (m + 1), rest) := by
  induction V with
  | nil => rfl
  | cons col V ih =>
    have hc := hm col (by simp)
    have hsh := hs col (by simp) col[m] (List.getElem_mem hc)
    have hrows := rowsOf_pos dims hne _ hsh hp
    have hflat := rowsOf_flatten dims _ hsh
    have hlen := leaves_shaped dims _ hsh
    have ih' := ih (fun x hx => hm x (List.mem_cons_of_mem _ hx))
      (fun x hx => hs x (List.mem_cons_of_mem _ hx))
    rw [treeRows, rowAt_cons _ _ _ hc, List.map_cons, List.flatten_cons, List.map_append, nl_append,
      List.append_assoc, cut, List.map_cons, popVars, readUnkList]
    rw [readUnk_rows hcd hd _ _ _ (by rw [hflat, hlen]) hrows.1 hrows.2]
    simp only [ok_bind]
    obtain ⟨l, e, hshl, hv⟩ := populate_ok dims hne ((rowsOf dims col[m]).flatten.map q) 0 (by
      rw [hflat]; simp [hlen])
    rw [e]
    simp only [ok_bind]
    have ht : (.lst l : Tree F) = mapTree q col[m] := by
      refine shaped_ext dims _ _ hshl (shaped_map q dims _ hsh) ?_
      rw [hv, leaves_map q dims _ hsh, hflat, List.drop_zero, List.take_of_length_le]
      simp [hlen]
    rw [treeRows, cut] at ih'
    rw [ih', ht]
    simp only [ok_bind, cut, List.map_cons]
    rw [take_succ_map _ _ _ hc]

/-- Reading back a written 2010 file gives the same dictionary, when the axis lengths given in the file
read the same in both directions. -/
theorem read2010_written {env : Env F} {q : F → F} (hcd : env.cd.Lawful q) (hann : env.ann = none)
    (hd : WsDelim env.delim) {r : NA2010 F} (hr : Wf2010 r) (hpal : r.NXDEF.reverse = r.NXDEF) :
    read2010 env.cd 0 (write2010 env false r).2.text =
      .ok { r with com := trimCom r.com,
                   c := { r.c with NLHEAD := ((hdrLines2010 env 0 r).length : Int) },
                   X0 := r.X0.map q, XB := r.XB.map (fun x => x.map q),
                   A := r.A.map (fun col => col.map q),
                   V := r.V.map (fun col => col.map (mapTree q)) } := by
  have hlen : ∀ n, (hdrLines2010 env n r).length = (hdrLines2010 env 0 r).length :=
    fun n => hdrLines2010_length env n 0 r
  have hne : r.NX ≠ [] := by
    intro h
    have h1 := hr.nx
    have h2 := (wf2010_niv hr).2
    rw [h] at h1; simp at h1; omega
  have hdims : ∀ d ∈ r.NX.map Int.toNat, 1 ≤ d := by
    intro d hd'
    obtain ⟨n, hn, rfl⟩ := List.mem_map.1 hd'
    have := hr.nx_pos n hn; omega
  rw [write2010_text hcd hann hd hr]
  generalize hN : (hdrLines2010 env 0 r).length = N
  rw [text_header_rows]
  have hplain : ∀ s ∈ hdrLines2010 env (N : Int) r ++ (dataLines2010 env r).flatten, Plain s := by
    intro s hs
    rw [List.mem_append] at hs
    rcases hs with hs | hs
    · exact plain_hdr2010 hcd hd hr _ s hs
    · simp only [dataLines2010, List.mem_flatten, List.mem_mapIdx] at hs
      obtain ⟨_, ⟨i, hi, rfl⟩, hs⟩ := hs
      rw [List.mem_cons, List.mem_map] at hs
      rcases hs with rfl | ⟨xs, _, rfl⟩
      · exact plain_rowText hcd hd _
      · exact plain_rowText hcd hd _
  unfold read2010
  rw [fileLines_unlines _ hplain, nl_append, readHeader2010_lines hcd hd hr hpal]
  simp only [ok_bind]
  unfold readData2010
  have key := readDataWith_blocks (step2010 env.cd r.aux.NAUXV r.NX)
    (fun m => Arr2010.mk ((r.X0.take m).map q) (cut q r.A m) (cut (mapTree q) r.V m))
    (hdrLines2010 env (N : Int) r) (dataLines2010 env r) hplain ?_ ?_ ?_
  · simp only [hlen, hN, List.take_zero, List.map_nil, cut_zero (mapTree q) r.V r.v.NV hr.data.1,
      cut_zero q r.A r.aux.NAUXV hr.aux_data.1] at key
    simp only []
    rw [key]
    simp only [ok_bind]
    have hl : (dataLines2010 env r).length = r.X0.length := by simp [dataLines2010]
    rw [hl, cut_all (mapTree q) r.V _ hr.data.2, cut_all q r.A _ hr.aux_data.2, List.take_length]
  · intro b hb
    simp only [dataLines2010, List.mem_mapIdx] at hb
    obtain ⟨i, hi, rfl⟩ := hb
    simp
  · intro b hb l hl
    simp only [dataLines2010, List.mem_mapIdx] at hb
    obtain ⟨i, hi, rfl⟩ := hb
    rw [List.mem_cons, List.mem_map] at hl
    rcases hl with rfl | ⟨xs, hx, rfl⟩
    · exact row_not_blank hcd hd _ (by simp)
    · refine row_not_blank hcd hd _ ?_
      simp only [treeRows, List.mem_flatten, List.mem_map] at hx
      obtain ⟨_, ⟨t, ht, rfl⟩, hx⟩ := hx
      obtain ⟨col, hc, ht⟩ := mem_rowAt ht
      exact (rowsOf_pos _ (by simpa using hne) t (hr.shape col hc t ht) hdims).2 xs hx
  · intro j hj rest
    have hj' : j < r.X0.length := by simpa [dataLines2010] using hj
    have hca : ∀ col ∈ r.A, j < col.length := fun col hc => by rw [hr.aux_data.2 col hc]; exact hj'
    have hcv : ∀ col ∈ r.V, j < col.length := fun col hc => by rw [hr.data.2 col hc]; exact hj'
    have hlena : (((r.X0[j] :: rowAt r.A j).length : Nat) : Int) = 1 + r.aux.NAUXV := by
      rw [List.length_cons, rowAt_length _ _ hca]
      have := hr.aux_data.1
      omega
    have hpos : (1 : Int) ≤ 1 + r.aux.NAUXV := by have := hr.aux_data.1; omega
    have hVne : (cut (mapTree q) r.V j).isEmpty = false := by
      have h1 := hr.data.1
      have h2 := hr.vars.pos
      cases hV : r.V with
      | nil => rw [hV] at h1; simp at h1; omega
      | cons => rfl
    simp only [dataLines2010, List.getElem_mapIdx, nl_cons, List.cons_append, step2010]
    rw [data1_2010, readUnkList, readUnk_row hcd hd _ _ _ hlena hpos]
    simp only [ok_bind, List.map_cons]
    rw [appendCols_cut q r.A j hca]
    simp only [ok_bind]
    rw [data2_2010]
    simp only [hVne, Bool.false_eq_true, if_false, natDims, ok_bind,
      arraySize_prod _ hr.nx_pos]
    rw [popVars_rows hcd hd _ (by simpa using hne) hdims r.V j hcv hr.shape]
    simp only [ok_bind]
    rw [take_succ_map _ _ _ hj']

end Nappy
