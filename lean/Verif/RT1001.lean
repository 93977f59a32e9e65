import Verif.DataLemmas

/-! FFI 1001: written text and reading it back. -/

namespace Nappy

open Spec

variable {F : Type}

/-- The header lines of a 1001 file. -/
def hdrLines1001 (env : Env F) (n : Int) (r : NA1001 F) : List Str :=
  commonLines env.delim n r.c ++ (join env.delim (r.DX.map env.cd.sfmt) ::
    (r.XNAME ++ (varLines env.cd env.delim r.v ++ comLines r.com)))

theorem hdrLines1001_length (env : Env F) (n : Int) (r : NA1001 F) :
    (hdrLines1001 env n r).length
      = 13 + r.XNAME.length + r.v.VNAME.length + r.com.SCOM.length + r.com.NCOM.length := by
  simp [hdrLines1001, commonLines, varLines, comLines]; omega

theorem plain_hdr1001 {env : Env F} {q : F → F} (hcd : env.cd.Lawful q) (hd : WsDelim env.delim)
    {r : NA1001 F} (hr : Wf1001 r) (n : Int) : ∀ s ∈ hdrLines1001 env n r, Plain s := by
  intro s hs
  simp only [hdrLines1001, List.mem_append, List.mem_cons] at hs
  rcases hs with hs | rfl | hs | hs | hs
  · exact plain_commonLines hd hr.common n s hs
  · exact plain_tokens hd _ (token_sfmt hcd _)
  · exact plain_oneLine (hr.xnames s hs).1
  · exact plain_varLines hcd hd hr.vars s hs
  · exact plain_comLines hr.com s hs

theorem header1001_eq {env : Env F} {q : F → F} (hcd : env.cd.Lawful q) (hann : env.ann = none)
    (hd : WsDelim env.delim) {r : NA1001 F} (hr : Wf1001 r) :
    header1001 env r
      = .ok (unlines (hdrLines1001 env ((hdrLines1001 env 0 r).length : Int) r)) := by
  unfold header1001
  have hdx : tmplRow r.NIV [] (r.DX.map env.cd.sfmt)
      = .ok (join env.delim (r.DX.map env.cd.sfmt) ++ ['\n']) := by
    have h := hr.dx
    match hx : r.DX with
    | [x] => simp [tmplRow, hr.niv, join]
    | [] => simp [hx] at h
    | _ :: _ :: _ => simp [hx] at h
  have hxn : tmplAnnLines r.NIV (getAnnotation env "XNAME" none) r.XNAME = .ok (unlines r.XNAME) := by
    simp [tmplAnnLines, hr.niv, hr.xname, getAnnotation_none hann]
  rw [writeCommon_lines hann hr.common, hdx, hxn, writeVars_lines hann hr.vars,
    writeComments_lines hann hr.com]
  simp only [ok_bind, getAnnotation_none hann, List.nil_append]
  have e : unlines (commonLines env.delim r.c.NLHEAD r.c)
      ++ (join env.delim (r.DX.map env.cd.sfmt) ++ ['\n']) ++ unlines r.XNAME
      ++ unlines (varLines env.cd env.delim r.v) ++ unlines (comLines r.com)
      = unlines (hdrLines1001 env r.c.NLHEAD r) := by
    simp [hdrLines1001, unlines_append, unlines_cons]
  rw [e]
  have hp := plain_hdr1001 hcd hd hr r.c.NLHEAD
  unfold hdrLines1001 at hp ⊢
  simp only [commonLines, List.cons_append] at hp ⊢
  rw [fixHeaderLength_lines hann _ _ _ (fun s hs => (hp s hs).1)]
  simp

theorem readHeader1001_lines {env : Env F} {q : F → F} (hcd : env.cd.Lawful q)
    (hd : WsDelim env.delim) {r : NA1001 F} (hr : Wf1001 r) (n : Int) (rest : List Str) :
    readHeader1001 env.cd 0 (nl (hdrLines1001 env n r) ++ rest)
      = .ok ({ r with com := trimCom r.com,
                      c := { r.c with NLHEAD := n }, X := [], V := [] }, [], rest) := by
  have hniv : nivOf r.c.FFI = 1 := by rw [hr.ffi]; decide
  unfold readHeader1001 hdrLines1001
  rw [nl_append, List.append_assoc, readCommon_lines hd hr.common]
  simp only [ok_bind, hniv, nl_cons, List.cons_append, readline]
  rw [readItemsFromLine_of_items _ _ _ _ _ (lineItems_join hd _ (token_sfmt hcd r.DX))
    (by simp [hr.dx]) (by decide) (mapRes_sfmt hcd r.DX)]
  simp only [ok_bind, nl_append, List.append_assoc]
  rw [readXName_lines r.XNAME 1 (by simp [hr.xname]) hr.xnames]
  simp only []
  rw [readVars_lines hcd hd hr.vars]
  simp only [ok_bind]
  rw [readComments_lines hr.com]
  simp only [ok_bind, readItemsFromLines_names _ hr.xnames]
  rw [← hr.niv]

/-- The data lines of a 1001 file. -/
def dataLines1001 (env : Env F) (r : NA1001 F) : List (List Str) :=
  r.X.mapIdx (fun m x => [rowText env (x :: rowAt r.V m)])

theorem rows1001_eq {env : Env F} (hann : env.ann = none) {r : NA1001 F} (hv : Rect r.V r.v.NV r.X.length) :
    rows1001 env r = (nl (dataLines1001 env r).flatten).map .ok := by
  have h : ∀ m (x : F), m < r.X.length →
      row1001 env r.v.NV r.V x m = .ok (rowText env (x :: rowAt r.V m) ++ ['\n']) := by
    intro m x hm
    have hc : ∀ col ∈ r.V, m < col.length := fun col hc => by rw [hv.2 col hc]; exact hm
    rw [row1001, firstN_all _ _ hv.1]
    simp only [ok_bind]
    rw [cells_rowAt _ _ hc]
    simp only [ok_bind]
    rw [← concat_cons, ← List.map_cons, dataLine_rowText hann]
  rw [rows1001, dataLines1001, ← mapIdx_singleton]
  apply rows_flatten
  intro m hm
  rw [h m _ hm]; rfl

theorem step1001_row {env : Env F} {q : F → F} (hcd : env.cd.Lawful q) (hd : WsDelim env.delim)
    {r : NA1001 F} (hr : Wf1001 r) (m : Nat) (hm : m < r.X.length) (rest : List Str) :
    step1001 env.cd r.v.NV ((r.X.take m).map q, cut q r.V m)
        ((rowText env (r.X[m] :: rowAt r.V m) ++ ['\n']) :: rest)
      = .ok (((r.X.take (m + 1)).map q, cut q r.V (m + 1)), rest) := by
  have hc : ∀ col ∈ r.V, m < col.length := fun col hc => by rw [hr.data.2 col hc]; exact hm
  have hlen : (((r.X[m] :: rowAt r.V m).length : Nat) : Int) = 1 + r.v.NV := by
    rw [List.length_cons, rowAt_length _ _ hc]
    have := hr.data.1
    omega
  have hnv := hr.vars.pos
  rw [step1001, readUnkList, readUnk_row hcd hd _ _ _ hlen (by omega)]
  simp only [ok_bind, List.map_cons]
  rw [appendCols_cut q r.V m hc]
  simp only [ok_bind]
  rw [take_succ_map _ _ _ hm]

/-- The text of a written 1001 file. -/
theorem write1001_text {env : Env F} {q : F → F} (hcd : env.cd.Lawful q) (hann : env.ann = none)
    (hd : WsDelim env.delim) {r : NA1001 F} (hr : Wf1001 r) :
    write1001 env false r =
      { writes := unlines (hdrLines1001 env ((hdrLines1001 env 0 r).length : Int) r) ::
          nl (dataLines1001 env r).flatten,
        err := none } := by
  rw [write1001, header1001_eq hcd hann hd hr, rows1001_eq hann hr.data, ofRows_ok]
  rfl

theorem read1001_written {env : Env F} {q : F → F} (hcd : env.cd.Lawful q) (hann : env.ann = none)
    (hd : WsDelim env.delim) {r : NA1001 F} (hr : Wf1001 r) :
    read1001 env.cd 0 (write1001 env false r).text =
      .ok { r with com := trimCom r.com,
                   c := { r.c with NLHEAD := ((hdrLines1001 env 0 r).length : Int) },
                   X := r.X.map q, V := r.V.map (fun col => col.map q) } := by
  have hlen : ∀ n, (hdrLines1001 env n r).length = (hdrLines1001 env 0 r).length := by
    intro n; rw [hdrLines1001_length, hdrLines1001_length]
  rw [write1001_text hcd hann hd hr]
  generalize hN : (hdrLines1001 env 0 r).length = N
  have htext : Out.text (Out.mk (unlines (hdrLines1001 env (N : Int) r) ::
        nl (dataLines1001 env r).flatten) none)
      = unlines (hdrLines1001 env (N : Int) r ++ (dataLines1001 env r).flatten) := by
    rw [Out.text, concat_cons, concat_nl, unlines_append]
  rw [htext]
  have hplain : ∀ s ∈ hdrLines1001 env (N : Int) r ++ (dataLines1001 env r).flatten, Plain s := by
    intro s hs
    rw [List.mem_append] at hs
    rcases hs with hs | hs
    · exact plain_hdr1001 hcd hd hr _ s hs
    · simp only [dataLines1001, List.mem_flatten, List.mem_mapIdx] at hs
      obtain ⟨_, ⟨i, hi, rfl⟩, hs⟩ := hs
      simp at hs; subst hs
      exact plain_rowText hcd hd _
  unfold read1001
  rw [fileLines_unlines _ hplain, nl_append, readHeader1001_lines hcd hd hr]
  simp only [ok_bind]
  unfold readData1001
  have key := readDataWith_blocks (step1001 env.cd r.v.NV)
    (fun m => ((r.X.take m).map q, cut q r.V m)) (hdrLines1001 env (N : Int) r)
    (dataLines1001 env r) hplain ?_ ?_ ?_
  · simp only [hlen, hN, List.take_zero, List.map_nil, cut_zero q r.V r.v.NV hr.data.1] at key
    simp only []
    rw [key]
    simp only [ok_bind]
    have hl : (dataLines1001 env r).length = r.X.length := by simp [dataLines1001]
    rw [hl, cut_all q r.V _ hr.data.2, List.take_length]
  · intro b hb
    simp only [dataLines1001, List.mem_mapIdx] at hb
    obtain ⟨i, hi, rfl⟩ := hb
    simp
  · intro b hb l hl
    simp only [dataLines1001, List.mem_mapIdx] at hb
    obtain ⟨i, hi, rfl⟩ := hb
    simp at hl; subst hl
    exact row_not_blank hcd hd _ (by simp)
  · intro j hj rest
    have hj' : j < r.X.length := by simpa [dataLines1001] using hj
    simp only [dataLines1001, List.getElem_mapIdx]
    exact step1001_row hcd hd hr j hj' rest

end Nappy
