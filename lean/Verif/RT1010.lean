import Verif.DataLemmas

/-! FFI 1010 and 1020: written text and reading it back. -/

namespace Nappy

open Spec

variable {F : Type}

/-- The DX line of 1010 and 1020 files ends in a blank. -/
def dxLine (env : Env F) (dx : List F) : Str := join env.delim (dx.map env.cd.sfmt) ++ [' ']

theorem tmplRow_dx {env : Env F} (niv : Int) (dx : List F) (hn : niv = 1) (h : dx.length = 1) :
    tmplRow niv [' '] (dx.map env.cd.sfmt) = .ok (dxLine env dx ++ ['\n']) := by
  match hx : dx with
  | [x] => simp [tmplRow, hn, join, dxLine]
  | [] => simp at h
  | _ :: _ :: _ => simp at h

theorem plain_dxLine {env : Env F} {q : F → F} (hcd : env.cd.Lawful q) (hd : WsDelim env.delim)
    (dx : List F) : Plain (dxLine env dx) := by
  have := plain_tokens hd _ (token_sfmt hcd dx)
  constructor
  · intro h; rw [dxLine, List.mem_append] at h
    rcases h with h | h
    · exact this.1 h
    · simp at h
  · intro h; rw [dxLine, List.mem_append] at h
    rcases h with h | h
    · exact this.2 h
    · simp at h

theorem read_dxLine {env : Env F} {q : F → F} (hcd : env.cd.Lawful q) (hd : WsDelim env.delim)
    (dx : List F) (h : dx.length = 1) :
    readItemsFromLine (dxLine env dx ++ ['\n']) 1 env.cd.float = .ok dx := by
  refine readItemsFromLine_of_items _ (dx.map env.cd.sfmt) _ _ _ ?_ (by simp [h]) (by decide)
    (mapRes_sfmt hcd dx)
  rw [dxLine, List.append_assoc, lineItems_eq, rightStrip_id]
  · exact words_join _ hd _ (fun t ht => (token_sfmt hcd dx t ht).word) _ (by decide)
  · left
    intro h
    rw [List.mem_append] at h
    rcases h with h | h
    · exact join_no_brace hd _ (token_sfmt hcd dx) h
    · simp at h

theorem markRow_eq {env : Env F} (hann : env.ann = none) (nauxv : Int) (A : List (List F))
    (hA : (A.length : Int) = nauxv) (x : F) (m : Nat) (h : ∀ col ∈ A, m < col.length) :
    markRow env nauxv A x m = .ok (rowText env (x :: rowAt A m) ++ ['\n']) := by
  rw [markRow, firstN_all _ _ hA]
  simp only [ok_bind]
  rw [cells_rowAt _ _ h]
  simp only [ok_bind]
  rw [← concat_cons, ← List.map_cons, dataLine_rowText hann]

theorem varRow_eq {env : Env F} (hann : env.ann = none) (nv : Int) (V : List (List F))
    (hV : (V.length : Int) = nv) (m : Nat) (h : ∀ col ∈ V, m < col.length) :
    varRow env nv V m = .ok (rowText env (rowAt V m) ++ ['\n']) := by
  rw [varRow, firstN_all _ _ hV]
  simp only [ok_bind]
  rw [cells_rowAt _ _ h]
  simp only [ok_bind]
  rw [dataLine_rowText hann]

/-! ### 1010 -/

/-- The header lines of a 1010 file. -/
def hdrLines1010 (env : Env F) (n : Int) (r : NA1010 F) : List Str :=
  commonLines env.delim n r.c ++ (dxLine env r.DX ::
    (r.XNAME ++ (varLines env.cd env.delim r.v ++ (auxLines env.cd env.delim r.aux
      ++ comLines r.com))))

theorem hdrLines1010_length (env : Env F) (n n' : Int) (r : NA1010 F) :
    (hdrLines1010 env n r).length = (hdrLines1010 env n' r).length := by
  simp [hdrLines1010, commonLines]

theorem plain_hdr1010 {env : Env F} {q : F → F} (hcd : env.cd.Lawful q) (hd : WsDelim env.delim)
    {r : NA1010 F} (hr : Wf1010 r) (n : Int) : ∀ s ∈ hdrLines1010 env n r, Plain s := by
  intro s hs
  simp only [hdrLines1010, List.mem_append, List.mem_cons] at hs
  rcases hs with hs | rfl | hs | hs | hs | hs
  · exact plain_commonLines hd hr.common n s hs
  · exact plain_dxLine hcd hd _
  · exact plain_oneLine (hr.xnames s hs).1
  · exact plain_varLines hcd hd hr.vars s hs
  · exact plain_auxLines hcd hd hr.aux s hs
  · exact plain_comLines hr.com s hs

theorem header1010_eq {env : Env F} {q : F → F} (hcd : env.cd.Lawful q) (hann : env.ann = none)
    (hd : WsDelim env.delim) {r : NA1010 F} (hr : Wf1010 r) :
    header1010 env r
      = .ok (unlines (hdrLines1010 env ((hdrLines1010 env 0 r).length : Int) r)) := by
  unfold header1010
  rw [writeCommon_lines hann hr.common, tmplRow_dx _ _ hr.niv hr.dx,
    tmplLines_ok _ _ (by rw [hr.niv, hr.xname]; rfl),
    writeVars_lines hann hr.vars, writeAux_lines hann hr.aux, writeComments_lines hann hr.com]
  simp only [ok_bind, wrapLine_none hann, wrapLines_none hann]
  have e : unlines (commonLines env.delim r.c.NLHEAD r.c)
      ++ (dxLine env r.DX ++ ['\n']) ++ unlines r.XNAME
      ++ unlines (varLines env.cd env.delim r.v) ++ unlines (auxLines env.cd env.delim r.aux)
      ++ unlines (comLines r.com)
      = unlines (hdrLines1010 env r.c.NLHEAD r) := by
    simp [hdrLines1010, unlines_append, unlines_cons]
  rw [e]
  have hp := plain_hdr1010 hcd hd hr r.c.NLHEAD
  unfold hdrLines1010 at hp ⊢
  simp only [commonLines, List.cons_append] at hp ⊢
  rw [fixHeaderLength_lines hann _ _ _ (fun s hs => (hp s hs).1)]
  simp

theorem readHeader1010_lines {env : Env F} {q : F → F} (hcd : env.cd.Lawful q)
    (hd : WsDelim env.delim) {r : NA1010 F} (hr : Wf1010 r) (n : Int) (rest : List Str) :
    readHeader1010 env.cd 0 (nl (hdrLines1010 env n r) ++ rest)
      = .ok ({ r with com := trimCom r.com,
                      c := { r.c with NLHEAD := n }, X := [], A := [], V := [] }, [], rest) := by
  have hniv : nivOf r.c.FFI = 1 := by rw [hr.ffi]; decide
  unfold readHeader1010 hdrLines1010
  rw [nl_append, List.append_assoc, readCommon_lines hd hr.common]
  simp only [ok_bind, hniv, nl_cons, List.cons_append, readline]
  rw [read_dxLine hcd hd _ hr.dx]
  simp only [ok_bind, nl_append, List.append_assoc]
  rw [readXName_lines r.XNAME 1 (by simp [hr.xname]) hr.xnames]
  simp only []
  rw [readVars_lines hcd hd hr.vars]
  simp only [ok_bind]
  rw [readAux_lines hcd hd hr.aux]
  simp only [ok_bind]
  rw [readComments_lines hr.com]
  simp only [ok_bind, readItemsFromLines_names _ hr.xnames]
  rw [← hr.niv]

/-- The data lines of a 1010 file. -/
def dataLines1010 (env : Env F) (r : NA1010 F) : List (List Str) :=
  r.X.mapIdx (fun m x => [rowText env (x :: rowAt r.A m), rowText env (rowAt r.V m)])

theorem rows1010_eq {env : Env F} (hann : env.ann = none) {r : NA1010 F}
    (ha : Rect r.A r.aux.NAUXV r.X.length) (hv : Rect r.V r.v.NV r.X.length) :
    rows1010 env r = (nl (dataLines1010 env r).flatten).map .ok := by
  apply rows_flatten
  intro m hm
  have hca : ∀ col ∈ r.A, m < col.length := fun col hc => by rw [ha.2 col hc]; exact hm
  have hcv : ∀ col ∈ r.V, m < col.length := fun col hc => by rw [hv.2 col hc]; exact hm
  rw [markRow_eq hann _ _ ha.1 _ _ hca, varRow_eq hann _ _ hv.1 _ hcv]
  rfl

/-- State of the arrays after `m` records. -/
def arrAt (q : F → F) (X : List F) (A V : List (List F)) (k m : Nat) : Arr1010 F :=
  { X := (X.take m).map q, A := cut q A m, V := cut q V (m * k) }

theorem data1_1010_row {env : Env F} {q : F → F} (hcd : env.cd.Lawful q) (hd : WsDelim env.delim)
    (X : List F) (A V : List (List F)) (nauxv : Int) (hA : Rect A nauxv X.length)
    (Vs : List (List F)) (m : Nat) (hm : m < X.length) (rest : List Str) :
    data1_1010 env.cd nauxv { X := (X.take m).map q, A := cut q A m, V := Vs }
        ((rowText env (X[m] :: rowAt A m) ++ ['\n']) :: rest)
      = .ok ({ X := (X.take (m + 1)).map q, A := cut q A (m + 1), V := Vs }, rest) := by
  have hc : ∀ col ∈ A, m < col.length := fun col hc => by rw [hA.2 col hc]; exact hm
  have hlen : (((X[m] :: rowAt A m).length : Nat) : Int) = 1 + nauxv := by
    rw [List.length_cons, rowAt_length _ _ hc]
    have := hA.1
    omega
  have : (1 : Int) ≤ 1 + nauxv := by have := hA.1; omega
  rw [data1_1010, readUnkList, readUnk_row hcd hd _ _ _ hlen this]
  simp only [ok_bind, List.map_cons]
  rw [appendCols_cut q A m hc]
  simp only [ok_bind]
  rw [take_succ_map _ _ _ hm]

theorem write1010_text {env : Env F} {q : F → F} (hcd : env.cd.Lawful q) (hann : env.ann = none)
    (hd : WsDelim env.delim) {r : NA1010 F} (hr : Wf1010 r) :
    write1010 env false r =
      { writes := unlines (hdrLines1010 env ((hdrLines1010 env 0 r).length : Int) r) ::
          nl (dataLines1010 env r).flatten,
        err := none } := by
  rw [write1010, header1010_eq hcd hann hd hr, rows1010_eq hann hr.aux_data hr.data, ofRows_ok]
  rfl

theorem text_header_rows (h : List Str) (rows : List Str) :
    Out.text (Out.mk (unlines h :: nl rows) none) = unlines (h ++ rows) := by
  rw [Out.text, concat_cons, concat_nl, unlines_append]

theorem read1010_written {env : Env F} {q : F → F} (hcd : env.cd.Lawful q) (hann : env.ann = none)
    (hd : WsDelim env.delim) {r : NA1010 F} (hr : Wf1010 r) :
    read1010 env.cd 0 (write1010 env false r).text =
      .ok { r with com := trimCom r.com,
                   c := { r.c with NLHEAD := ((hdrLines1010 env 0 r).length : Int) },
                   X := r.X.map q, A := r.A.map (fun col => col.map q),
                   V := r.V.map (fun col => col.map q) } := by
  have hlen : ∀ n, (hdrLines1010 env n r).length = (hdrLines1010 env 0 r).length :=
    fun n => hdrLines1010_length env n 0 r
  rw [write1010_text hcd hann hd hr]
  generalize hN : (hdrLines1010 env 0 r).length = N
  rw [text_header_rows]
  have hplain : ∀ s ∈ hdrLines1010 env (N : Int) r ++ (dataLines1010 env r).flatten, Plain s := by
    intro s hs
    rw [List.mem_append] at hs
    rcases hs with hs | hs
    · exact plain_hdr1010 hcd hd hr _ s hs
    · simp only [dataLines1010, List.mem_flatten, List.mem_mapIdx] at hs
      obtain ⟨_, ⟨i, hi, rfl⟩, hs⟩ := hs
      simp at hs
      rcases hs with rfl | rfl
      · exact plain_rowText hcd hd _
      · exact plain_rowText hcd hd _
  unfold read1010
  rw [fileLines_unlines _ hplain, nl_append, readHeader1010_lines hcd hd hr]
  simp only [ok_bind]
  unfold readData1010
  have key := readDataWith_blocks (step1010 env.cd r.aux.NAUXV r.v.NV)
    (fun m => arrAt q r.X r.A r.V 1 m) (hdrLines1010 env (N : Int) r)
    (dataLines1010 env r) hplain ?_ ?_ ?_
  · simp only [hlen, hN, arrAt, List.take_zero, List.map_nil, cut_zero q r.V r.v.NV hr.data.1,
      cut_zero q r.A r.aux.NAUXV hr.aux_data.1, Nat.zero_mul] at key
    simp only []
    rw [key]
    simp only [ok_bind, Nat.mul_one]
    have hl : (dataLines1010 env r).length = r.X.length := by simp [dataLines1010]
    rw [hl, cut_all q r.V _ hr.data.2, cut_all q r.A _ hr.aux_data.2, List.take_length]
  · intro b hb
    simp only [dataLines1010, List.mem_mapIdx] at hb
    obtain ⟨i, hi, rfl⟩ := hb
    simp
  · intro b hb l hl
    simp only [dataLines1010, List.mem_mapIdx] at hb
    obtain ⟨i, hi, rfl⟩ := hb
    have hcv : ∀ col ∈ r.V, i < col.length := fun col hc => by rw [hr.data.2 col hc]; exact hi
    simp at hl
    rcases hl with rfl | rfl
    · exact row_not_blank hcd hd _ (by simp)
    · refine row_not_blank hcd hd _ ?_
      intro h
      have h1 := rowAt_length r.V i hcv
      rw [h] at h1
      have h2 := hr.data.1
      have h3 := hr.vars.pos
      simp at h1; omega
  · intro j hj rest
    have hj' : j < r.X.length := by simpa [dataLines1010] using hj
    have hcv : ∀ col ∈ r.V, j < col.length := fun col hc => by rw [hr.data.2 col hc]; exact hj'
    have hlenv : (((rowAt r.V j).length : Nat) : Int) = r.v.NV := by
      rw [rowAt_length _ _ hcv]; exact hr.data.1
    simp only [dataLines1010, List.getElem_mapIdx, nl_cons, nl_nil, List.cons_append,
      List.nil_append, step1010, arrAt]
    rw [data1_1010_row hcd hd r.X r.A r.V _ hr.aux_data _ j hj']
    simp only [ok_bind]
    rw [data2_1010, readUnkList, readUnk_row hcd hd _ _ _ hlenv hr.vars.pos]
    simp only [ok_bind, Nat.mul_one]
    rw [appendCols_cut q r.V j hcv]
    rfl

/-! ### 1020 -/

/-- The header lines of a 1020 file. -/
def hdrLines1020 (env : Env F) (n : Int) (r : NA1020 F) : List Str :=
  commonLines env.delim n r.c ++ (dxLine env r.DX :: intStr r.NVPM ::
    (r.XNAME ++ (varLines env.cd env.delim r.v ++ (auxLines env.cd env.delim r.aux
      ++ comLines r.com))))

theorem hdrLines1020_length (env : Env F) (n n' : Int) (r : NA1020 F) :
    (hdrLines1020 env n r).length = (hdrLines1020 env n' r).length := by
  simp [hdrLines1020, commonLines]

theorem plain_hdr1020 {env : Env F} {q : F → F} (hcd : env.cd.Lawful q) (hd : WsDelim env.delim)
    {r : NA1020 F} (hr : Wf1020 r) (n : Int) : ∀ s ∈ hdrLines1020 env n r, Plain s := by
  intro s hs
  simp only [hdrLines1020, List.mem_append, List.mem_cons] at hs
  rcases hs with hs | rfl | rfl | hs | hs | hs | hs
  · exact plain_commonLines hd hr.common n s hs
  · exact plain_dxLine hcd hd _
  · exact plain_token (token_intStr _)
  · exact plain_oneLine (hr.xnames s hs).1
  · exact plain_varLines hcd hd hr.vars s hs
  · exact plain_auxLines hcd hd hr.aux s hs
  · exact plain_comLines hr.com s hs

theorem header1020_eq {env : Env F} {q : F → F} (hcd : env.cd.Lawful q) (hann : env.ann = none)
    (hd : WsDelim env.delim) {r : NA1020 F} (hr : Wf1020 r) :
    header1020 env r
      = .ok (unlines (hdrLines1020 env ((hdrLines1020 env 0 r).length : Int) r)) := by
  unfold header1020
  rw [writeCommon_lines hann hr.common, tmplRow_dx _ _ hr.niv hr.dx,
    tmplLines_ok _ _ (by rw [hr.niv, hr.xname]; rfl),
    writeVars_lines hann hr.vars, writeAux_lines hann hr.aux, writeComments_lines hann hr.com]
  simp only [ok_bind, wrapLine_none hann]
  have e : unlines (commonLines env.delim r.c.NLHEAD r.c)
      ++ (dxLine env r.DX ++ ['\n']) ++ (intStr r.NVPM ++ ['\n']) ++ unlines r.XNAME
      ++ unlines (varLines env.cd env.delim r.v) ++ unlines (auxLines env.cd env.delim r.aux)
      ++ unlines (comLines r.com)
      = unlines (hdrLines1020 env r.c.NLHEAD r) := by
    simp [hdrLines1020, unlines_append, unlines_cons]
  rw [e]
  have hp := plain_hdr1020 hcd hd hr r.c.NLHEAD
  unfold hdrLines1020 at hp ⊢
  simp only [commonLines, List.cons_append] at hp ⊢
  rw [fixHeaderLength_lines hann _ _ _ (fun s hs => (hp s hs).1)]
  simp

theorem readHeader1020_lines {env : Env F} {q : F → F} (hcd : env.cd.Lawful q)
    (hd : WsDelim env.delim) {r : NA1020 F} (hr : Wf1020 r) (n : Int) (rest : List Str) :
    readHeader1020 env.cd 0 (nl (hdrLines1020 env n r) ++ rest)
      = .ok ({ r with com := trimCom r.com,
                      c := { r.c with NLHEAD := n }, X := [], A := [], V := [] }, [], rest) := by
  have hniv : nivOf r.c.FFI = 1 := by rw [hr.ffi]; decide
  unfold readHeader1020 hdrLines1020
  rw [nl_append, List.append_assoc, readCommon_lines hd hr.common]
  simp only [ok_bind, hniv, nl_cons, List.cons_append, readline]
  rw [read_dxLine hcd hd _ hr.dx]
  simp only [ok_bind, nl_append, List.append_assoc, readIntLine_nl]
  rw [readXName_lines r.XNAME 1 (by simp [hr.xname]) hr.xnames]
  simp only []
  rw [readVars_lines hcd hd hr.vars]
  simp only [ok_bind]
  rw [readAux_lines hcd hd hr.aux]
  simp only [ok_bind]
  rw [readComments_lines hr.com]
  simp only [ok_bind, readItemsFromLines_names _ hr.xnames]
  rw [← hr.niv]

/-- Values `m*k .. m*k+k-1` of a column. -/
def block {α : Type} (k m : Nat) (col : List α) : List α := (col.drop (m * k)).take k

theorem block_length {α : Type} (k m : Nat) (col : List α) (h : (m + 1) * k ≤ col.length) :
    (block k m col).length = k := by
  have : (m + 1) * k = m * k + k := Nat.succ_mul m k
  simp [block]; omega

theorem block_getElem {α : Type} (k m : Nat) (col : List α) (h : (m + 1) * k ≤ col.length) :
    mapRes (fun p => idx col (m * k + p)) (List.range k) = .ok (block k m col) := by
  have e : (m + 1) * k = m * k + k := Nat.succ_mul m k
  have h1 : mapRes (fun p => idx col (m * k + p)) (List.range k)
      = firstN (block k m col) (k : Int) := by
    rw [firstN, Int.toNat_natCast]
    apply mapRes_congr
    intro p hp
    have hp' : p < k := List.mem_range.1 hp
    rw [idx_lt _ _ (by omega), idx_lt _ _ (by rw [block_length _ _ _ h]; exact hp')]
    simp [block]
  rw [h1, firstN_all]
  rw [block_length _ _ _ h]

theorem mapRes_cells {env : Env F} {α : Type} (f : α → Res F) (l : List α) (xs : List F)
    (h : mapRes f l = .ok xs) :
    mapRes (fun a => do let x ← f a; (.ok (cell env x) : Res Str)) l = .ok (xs.map (cell env)) := by
  induction l generalizing xs with
  | nil => simp only [mapRes] at h; injection h with h; subst h; rfl
  | cons a l ih =>
    simp only [mapRes] at h ⊢
    cases h1 : f a with
    | error e => rw [h1] at h; cases h
    | ok b =>
      rw [h1] at h; simp only [ok_bind] at h ⊢
      cases h2 : mapRes f l with
      | error e => rw [h2] at h; cases h
      | ok bs =>
        rw [h2] at h; simp only [ok_bind] at h
        injection h with h; subst h
        rw [ih bs h2]; rfl

theorem blockRow_eq {env : Env F} (hann : env.ann = none) (nvpm : Int) (V : List (List F))
    (n m : Nat) (hn : n < V.length) (h : (m + 1) * nvpm.toNat ≤ V[n].length) :
    blockRow env nvpm V n m = .ok (rowText env (block nvpm.toNat m V[n]) ++ ['\n']) := by
  have h1 := mapRes_cells (env := env) _ _ _ (block_getElem nvpm.toNat m V[n] h)
  rw [blockRow]
  simp only [idx_lt V n hn, ok_bind]
  rw [h1]
  simp only [ok_bind]
  rw [dataLine_rowText hann]

/-- The data lines of a 1020 file. -/
def dataLines1020 (env : Env F) (r : NA1020 F) : List (List Str) :=
  r.X.mapIdx (fun m x => rowText env (x :: rowAt r.A m) ::
    (r.V.map (fun col => rowText env (block r.NVPM.toNat m col))))

theorem rows1020_eq {env : Env F} (hann : env.ann = none) {r : NA1020 F}
    (ha : Rect r.A r.aux.NAUXV r.X.length)
    (hv : Rect r.V r.v.NV (r.X.length * r.NVPM.toNat)) :
    rows1020 env r = (nl (dataLines1020 env r).flatten).map .ok := by
  apply rows_flatten
  intro m hm
  have hca : ∀ col ∈ r.A, m < col.length := fun col hc => by rw [ha.2 col hc]; exact hm
  have hcv : ∀ col ∈ r.V, (m + 1) * r.NVPM.toNat ≤ col.length := fun col hc => by
    rw [hv.2 col hc]; exact Nat.mul_le_mul_right _ hm
  have hnv : r.v.NV.toNat = r.V.length := by have := hv.1; omega
  rw [markRow_eq hann _ _ ha.1 _ _ hca, nl_cons, List.map_cons, hnv]
  congr 1
  apply List.ext_getElem
  · simp [nl]
  · intro i h1 h2
    have hi : i < r.V.length := by simpa using h1
    simp [nl, blockRow_eq hann r.NVPM r.V i m hi (hcv _ (List.getElem_mem hi))]

theorem appendBlocks_cut {α β : Type} (q : α → β) (k : Nat) (cols : List (List α)) (m : Nat)
    (h : ∀ col ∈ cols, (m + 1) * k ≤ col.length) :
    appendBlocks k (cut q cols (m * k)) (((cols.map (block k m)).flatten).map q)
      = .ok (cut q cols ((m + 1) * k)) := by
  induction cols with
  | nil => rfl
  | cons c cs ih =>
    have hb := block_length k m c (h c (by simp))
    have e : (m + 1) * k = m * k + k := Nat.succ_mul m k
    simp only [cut, List.map_cons, List.flatten_cons, List.map_append, appendBlocks]
    rw [if_neg (by simp [hb])]
    have h1 : ∀ t : List β, ((block k m c).map q ++ t).drop k = t := fun t => by
      rw [List.drop_append_of_le_length (by simp [hb]), List.drop_eq_nil_of_le (by simp [hb]),
        List.nil_append]
    have h2 : ∀ t : List β, ((block k m c).map q ++ t).take k = (block k m c).map q := fun t => by
      rw [List.take_append_of_le_length (by simp [hb]), List.take_of_length_le (by simp [hb])]
    have := ih (fun x hx => h x (List.mem_cons_of_mem _ hx))
    rw [cut] at this
    rw [h1, h2, this]
    simp only [ok_bind, cut]
    rw [← List.map_append, e, List.take_add, block]

theorem write1020_text {env : Env F} {q : F → F} (hcd : env.cd.Lawful q) (hann : env.ann = none)
    (hd : WsDelim env.delim) {r : NA1020 F} (hr : Wf1020 r) :
    write1020 env false r =
      { writes := unlines (hdrLines1020 env ((hdrLines1020 env 0 r).length : Int) r) ::
          nl (dataLines1020 env r).flatten,
        err := none } := by
  rw [write1020, header1020_eq hcd hann hd hr, rows1020_eq hann hr.aux_data hr.data, ofRows_ok]
  rfl

theorem flatten_length_const {α : Type} (k : Nat) (ls : List (List α)) (h : ∀ l ∈ ls, l.length = k) :
    ls.flatten.length = ls.length * k := by
  induction ls with
  | nil => simp
  | cons a t ih =>
    rw [List.flatten_cons, List.length_append, h a (by simp),
      ih (fun l hl => h l (List.mem_cons_of_mem _ hl)), List.length_cons, Nat.succ_mul]
    omega

theorem read1020_written {env : Env F} {q : F → F} (hcd : env.cd.Lawful q) (hann : env.ann = none)
    (hd : WsDelim env.delim) {r : NA1020 F} (hr : Wf1020 r) :
    read1020 env.cd 0 (write1020 env false r).text =
      .ok { r with com := trimCom r.com,
                   c := { r.c with NLHEAD := ((hdrLines1020 env 0 r).length : Int) },
                   X := r.X.map q, A := r.A.map (fun col => col.map q),
                   V := r.V.map (fun col => col.map q) } := by
  have hlen : ∀ n, (hdrLines1020 env n r).length = (hdrLines1020 env 0 r).length :=
    fun n => hdrLines1020_length env n 0 r
  have hk : 1 ≤ r.NVPM.toNat := by have := hr.nvpm; omega
  have hVne : r.V ≠ [] := by
    intro h
    have h1 := hr.data.1
    have h2 := hr.vars.pos
    rw [h] at h1; simp at h1; omega
  rw [write1020_text hcd hann hd hr]
  generalize hN : (hdrLines1020 env 0 r).length = N
  rw [text_header_rows]
  have hplain : ∀ s ∈ hdrLines1020 env (N : Int) r ++ (dataLines1020 env r).flatten, Plain s := by
    intro s hs
    rw [List.mem_append] at hs
    rcases hs with hs | hs
    · exact plain_hdr1020 hcd hd hr _ s hs
    · simp only [dataLines1020, List.mem_flatten, List.mem_mapIdx] at hs
      obtain ⟨_, ⟨i, hi, rfl⟩, hs⟩ := hs
      rw [List.mem_cons, List.mem_map] at hs
      rcases hs with rfl | ⟨col, _, rfl⟩
      · exact plain_rowText hcd hd _
      · exact plain_rowText hcd hd _
  unfold read1020
  rw [fileLines_unlines _ hplain, nl_append, readHeader1020_lines hcd hd hr]
  simp only [ok_bind]
  unfold readData1020
  have key := readDataWith_blocks (step1020 env.cd r.aux.NAUXV r.v.NV r.NVPM)
    (fun m => arrAt q r.X r.A r.V r.NVPM.toNat m) (hdrLines1020 env (N : Int) r)
    (dataLines1020 env r) hplain ?_ ?_ ?_
  · simp only [hlen, hN, arrAt, List.take_zero, List.map_nil, cut_zero q r.V r.v.NV hr.data.1,
      cut_zero q r.A r.aux.NAUXV hr.aux_data.1, Nat.zero_mul] at key
    simp only []
    rw [key]
    simp only [ok_bind]
    have hl : (dataLines1020 env r).length = r.X.length := by simp [dataLines1020]
    rw [hl, cut_all q r.V _ hr.data.2, cut_all q r.A _ hr.aux_data.2, List.take_length]
  · intro b hb
    simp only [dataLines1020, List.mem_mapIdx] at hb
    obtain ⟨i, hi, rfl⟩ := hb
    simp
  · intro b hb l hl
    simp only [dataLines1020, List.mem_mapIdx] at hb
    obtain ⟨i, hi, rfl⟩ := hb
    rw [List.mem_cons, List.mem_map] at hl
    rcases hl with rfl | ⟨col, hc, rfl⟩
    · exact row_not_blank hcd hd _ (by simp)
    · refine row_not_blank hcd hd _ ?_
      intro h
      have h1 := block_length r.NVPM.toNat i col (by
        rw [hr.data.2 col hc]; exact Nat.mul_le_mul_right _ hi)
      rw [h] at h1; simp at h1; omega
  · intro j hj rest
    have hj' : j < r.X.length := by simpa [dataLines1020] using hj
    have hcv : ∀ col ∈ r.V, (j + 1) * r.NVPM.toNat ≤ col.length := fun col hc => by
      rw [hr.data.2 col hc]; exact Nat.mul_le_mul_right _ hj'
    simp only [dataLines1020, List.getElem_mapIdx, nl_cons, List.cons_append, step1020, arrAt]
    rw [data1_1010_row hcd hd r.X r.A r.V _ hr.aux_data _ j hj']
    simp only [ok_bind]
    have hmap : r.V.map (fun col => rowText env (block r.NVPM.toNat j col))
        = (r.V.map (block r.NVPM.toNat j)).map (rowText env) := by simp
    have hbl : ∀ xs ∈ r.V.map (block r.NVPM.toNat j), xs.length = r.NVPM.toNat := by
      intro xs hxs
      obtain ⟨col, hc, rfl⟩ := List.mem_map.1 hxs
      exact block_length _ _ _ (hcv col hc)
    rw [data2_1020, readUnkList, hmap, readUnk_rows hcd hd _ _ (r.v.NV * r.NVPM) ?_ ?_ ?_]
    · simp only [ok_bind]
      rw [appendBlocks_cut q _ r.V j hcv]
      rfl
    · rw [flatten_length_const _ _ hbl, List.length_map]
      have := hr.data.1
      have h2 : ((r.NVPM.toNat : Nat) : Int) = r.NVPM := by omega
      rw [← this, ← h2]; simp
    · simpa using hVne
    · intro xs hxs h
      have := hbl xs hxs
      rw [h] at this; simp at this; omega

end Nappy
