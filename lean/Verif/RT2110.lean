import Verif.RT2010

/-! FFI 2110: written text and reading it back. The lemmas on ragged rows are also used for 2160. -/

namespace Nappy

open Spec

variable {F : Type}

/-- The header lines of a 2110 file, also of a 2310 file with `dx` the first value of `DX`. -/
def hdrLines2110 (env : Env F) (n : Int) (dx : List F) (r : NA2110 F) : List Str :=
  commonLines env.delim n r.c ++
    (join env.delim (dx.map env.cd.sfmt) ::
     (r.XNAME.reverse ++ (varLines env.cd env.delim r.v ++
       (auxLines env.cd env.delim r.aux ++ comLines r.com))))

theorem hdrLines2110_length (env : Env F) (n n' : Int) (dx : List F) (r : NA2110 F) :
    (hdrLines2110 env n dx r).length = (hdrLines2110 env n' dx r).length := by
  simp [hdrLines2110, commonLines]

theorem plain_hdr2110 {env : Env F} {q : F → F} (hcd : env.cd.Lawful q) (hd : WsDelim env.delim)
    {r : NA2110 F} (hc : WfCommon r.c) (hx : ∀ s ∈ r.XNAME, Name s) (hv : WfVars r.v)
    (ha : WfAux r.aux) (hcom : WfCom r.com) (n : Int) (dx : List F) :
    ∀ s ∈ hdrLines2110 env n dx r, Plain s := by
  intro s hs
  simp only [hdrLines2110, List.mem_append, List.mem_cons] at hs
  rcases hs with hs | rfl | hs | hs | hs | hs
  · exact plain_commonLines hd hc n s hs
  · exact plain_tokens hd _ (token_sfmt hcd _)
  · exact plain_oneLine (hx s (List.mem_reverse.1 hs)).1
  · exact plain_varLines hcd hd hv s hs
  · exact plain_auxLines hcd hd ha s hs
  · exact plain_comLines hcom s hs

theorem header2110Tail_eq {env : Env F} {q : F → F} (hcd : env.cd.Lawful q) (hann : env.ann = none)
    (hd : WsDelim env.delim) {r : NA2110 F} (hc : WfCommon r.c) (hx : ∀ s ∈ r.XNAME, Name s)
    (hv : WfVars r.v) (ha : WfAux r.aux) (hcom : WfCom r.com)
    (hn : (r.XNAME.length : Int) = r.NIV) (DX dx : List F) :
    header2110Tail env (unlines (commonLines env.delim r.c.NLHEAD r.c))
      (join env.delim (dx.map env.cd.sfmt) ++ ['\n'])
      { r with DX := DX, XNAME := r.XNAME.reverse }
      = .ok (unlines (hdrLines2110 env ((hdrLines2110 env 0 dx r).length : Int) dx r)) := by
  unfold header2110Tail
  simp only []
  rw [tmplLines_ok _ _ (by simpa using hn),
    writeVars_lines hann hv, writeAux_lines hann ha, writeComments_lines hann hcom]
  simp only [ok_bind, wrapLine_none hann, wrapLines_none hann]
  have e : unlines (commonLines env.delim r.c.NLHEAD r.c)
      ++ (join env.delim (dx.map env.cd.sfmt) ++ ['\n']) ++ unlines r.XNAME.reverse
      ++ unlines (varLines env.cd env.delim r.v) ++ unlines (auxLines env.cd env.delim r.aux)
      ++ unlines (comLines r.com)
      = unlines (hdrLines2110 env r.c.NLHEAD dx r) := by
    simp [hdrLines2110, unlines_append, unlines_cons, -List.map_reverse]
  rw [e]
  have hp := plain_hdr2110 hcd hd hc hx hv ha hcom r.c.NLHEAD dx
  unfold hdrLines2110 at hp ⊢
  simp only [commonLines, List.cons_append] at hp ⊢
  rw [fixHeaderLength_lines hann _ _ _ (fun s hs => (hp s hs).1)]
  simp

theorem header2110_eq {env : Env F} {q : F → F} (hcd : env.cd.Lawful q) (hann : env.ann = none)
    (hd : WsDelim env.delim) {count : F → Option Int} {r : NA2110 F} (hr : Wf2110 count r) :
    header2110 env r
      = ({ r with DX := r.DX.reverse, XNAME := r.XNAME.reverse },
         .ok (unlines (hdrLines2110 env ((hdrLines2110 env 0 r.DX.reverse r).length : Int)
            r.DX.reverse r))) := by
  unfold header2110
  rw [writeCommon_lines hann hr.common]
  simp only []
  rw [tmplSep_ok _ _ _ (by simp [hr.dx, hr.niv]) (by simp [hr.niv])]
  simp only [Prod.mk.injEq, true_and]
  exact header2110Tail_eq hcd hann hd hr.common hr.xnames hr.vars hr.aux hr.com
    (by rw [hr.xname, hr.niv]; rfl) _ _

theorem readHeader2110_lines {env : Env F} {q : F → F} (hcd : env.cd.Lawful q)
    (hd : WsDelim env.delim) {count : F → Option Int} {r : NA2110 F} (hr : Wf2110 count r)
    (n : Int) (rest : List Str) :
    readHeader2110 env.cd 0 (nl (hdrLines2110 env n r.DX.reverse r) ++ rest)
      = .ok ({ r with com := trimCom r.com,
                      c := { r.c with NLHEAD := n }, NX := [], X := [], A := [], V := [] },
             [], rest) := by
  have hniv : nivOf r.c.FFI = 2 := by rw [hr.ffi]; decide
  have hnames : ∀ s ∈ r.XNAME.reverse, Name s := fun s hs => hr.xnames s (List.mem_reverse.1 hs)
  unfold readHeader2110 hdrLines2110
  rw [nl_append, List.append_assoc, readCommon_lines hd hr.common]
  simp only [ok_bind, hniv, nl_cons, List.cons_append, readline]
  rw [floats_line hcd hd _ _ (by simp [hr.dx]) (by decide)]
  simp only [ok_bind, List.reverse_reverse, nl_append, List.append_assoc]
  rw [readXName_lines r.XNAME.reverse _ (by simp [hr.xname]) hnames]
  simp only []
  rw [readVars_lines hcd hd hr.vars]
  simp only [ok_bind]
  rw [readAux_lines hcd hd hr.aux]
  simp only [ok_bind]
  rw [readComments_lines hr.com]
  simp only [ok_bind, readItemsFromLines_names _ hnames, List.reverse_reverse]
  rw [← hr.niv]

/-! ### ragged rows -/

/-- The rows of one mark: bounded value `p` and the `p`-th value of every variable. -/
def raggedVals (xs : List F) (cols : List (List F)) : List (List F) :=
  xs.mapIdx (fun p x => x :: rowAt cols p)

theorem ragged_cols {V : List (List (List F))} {nv : Int} {NX : List Int} (h : Ragged V nv NX)
    (m : Nat) (hm : m < NX.length) :
    (∀ vn ∈ V, m < vn.length) ∧ (rowAt V m).length = V.length ∧
      ∀ col ∈ rowAt V m, (col.length : Int) = NX[m] := by
  have h1 : ∀ vn ∈ V, m < vn.length := by
    intro vn hvn
    have := congrArg List.length (h.2 vn hvn)
    rw [List.length_map] at this; omega
  refine ⟨h1, rowAt_length _ _ h1, ?_⟩
  intro col hcol
  simp only [rowAt, List.mem_filterMap] at hcol
  obtain ⟨vn, hvn, hcol⟩ := hcol
  have h2 := h.2 vn hvn
  have h3 : (vn.map (fun l => (l.length : Int)))[m]? = some (col.length : Int) := by simp [hcol]
  rw [h2, List.getElem?_eq_getElem hm] at h3
  injection h3 with h3
  exact h3.symm

theorem raggedRow_eq {env : Env F} (hann : env.ann = none) (nv : Int) (V : List (List (List F)))
    (hV : (V.length : Int) = nv) (xs : List F) (m p : Nat) (hp : p < xs.length)
    (hm : ∀ vn ∈ V, m < vn.length) (hc : ∀ col ∈ rowAt V m, p < col.length) :
    raggedRow env nv V xs m p = .ok (rowText env (xs[p] :: rowAt (rowAt V m) p) ++ ['\n']) := by
  have key : mapRes (fun (vn : List (List F)) => do
      let vnm ← idx vn m
      let y ← idx vnm p
      (.ok (cell env y) : Res Str)) V = .ok ((rowAt (rowAt V m) p).map (cell env)) := by
    clear hV
    induction V with
    | nil => rfl
    | cons vn V ih =>
      have h1 := hm vn (by simp)
      rw [rowAt_cons _ _ _ h1] at hc ⊢
      have h2 := hc vn[m] (by simp)
      rw [rowAt_cons _ _ _ h2, mapRes, idx_lt _ _ h1]
      simp only [ok_bind]
      rw [idx_lt _ _ h2, ih (fun x hx => hm x (List.mem_cons_of_mem _ hx))
        (fun x hx => hc x (List.mem_cons_of_mem _ hx))]
      rfl
  rw [raggedRow, idx_lt _ _ hp, firstN_all _ _ hV]
  simp only [ok_bind]
  rw [key]
  simp only [ok_bind]
  rw [← concat_cons, ← List.map_cons, dataLine_rowText hann]

theorem range_map_mapIdx {α β : Type} (l : List α) (f : Nat → β) (g : Nat → α → β)
    (h : ∀ i (hi : i < l.length), f i = g i l[i]) : (List.range l.length).map f = l.mapIdx g := by
  apply List.ext_getElem
  · simp
  · intro i h1 h2
    simp at h1
    simp [h i h1]

theorem raggedRows_eq {env : Env F} (hann : env.ann = none) (nv : Int) (NX : List Int)
    (V : List (List (List F))) (hV : Ragged V nv NX) (xs : List F) (m : Nat) (hm : m < NX.length)
    (hx : (xs.length : Int) = NX[m]) :
    raggedRows env nv NX V xs m
      = (nl ((raggedVals xs (rowAt V m)).map (rowText env))).map .ok := by
  obtain ⟨h1, h2, h3⟩ := ragged_cols hV m hm
  have hn : NX[m].toNat = xs.length := by omega
  rw [raggedRows, idx_lt _ _ hm]
  simp only [hn]
  rw [range_map_mapIdx xs _ (fun p x => .ok (rowText env (x :: rowAt (rowAt V m) p) ++ ['\n']))]
  · apply List.ext_getElem
    · simp [raggedVals, nl]
    · intro i _ _; simp [raggedVals, nl]
  · intro p hp
    exact raggedRow_eq hann nv V hV.1 xs m p hp h1 (fun col hc => by
      have := h3 col hc; omega)

theorem readRagged_rows {env : Env F} {q : F → F} (hcd : env.cd.Lawful q) (hd : WsDelim env.delim)
    (nv : Int) (cols : List (List F)) (hcols : (cols.length : Int) = nv) (xs : List F)
    (hlen : ∀ col ∈ cols, col.length = xs.length) (rest : List Str) :
    readRagged env.cd nv xs.length [] (emptyCols nv)
        (nl ((raggedVals xs cols).map (rowText env)) ++ rest)
      = .ok (xs.map q, cols.map (fun col => col.map q), rest) := by
  have key : ∀ k p, p + k = xs.length →
      readRagged env.cd nv k ((xs.take p).map q) (cut q cols p)
        (nl (((raggedVals xs cols).drop p).map (rowText env)) ++ rest)
      = .ok (xs.map q, cols.map (fun col => col.map q), rest) := by
    intro k
    induction k with
    | zero =>
      intro p hp
      have hp' : p = xs.length := by omega
      subst hp'
      rw [readRagged, List.take_length, cut_all q cols _ hlen, List.drop_eq_nil_of_le]
      · rfl
      · simp [raggedVals]
    | succ k ih =>
      intro p hp
      have hp' : p < xs.length := by omega
      have hcp : ∀ col ∈ cols, p < col.length := fun col hc => by rw [hlen col hc]; exact hp'
      rw [List.drop_eq_getElem_cons (by simpa [raggedVals] using hp'), List.map_cons, nl_cons,
        List.cons_append, readRagged, readUnkList]
      have hl : (((raggedVals xs cols)[p]'(by simpa [raggedVals] using hp')).length : Int) = nv + 1 := by
        simp only [raggedVals, List.getElem_mapIdx, List.length_cons]
        rw [rowAt_length _ _ hcp]; omega
      rw [readUnk_row hcd hd _ _ _ hl (by omega)]
      simp only [ok_bind, raggedVals, List.getElem_mapIdx, List.map_cons]
      rw [appendCols_cut q cols p hcp]
      simp only [ok_bind]
      have := ih (p + 1) (by omega)
      rw [take_succ_map _ _ _ hp'] at this
      exact this
  have := key xs.length 0 (by omega)
  rw [cut_zero q cols nv hcols] at this
  simpa using this

theorem zipWith_cut {α β : Type} (Q : α → β) (V : List (List α)) (m : Nat)
    (h : ∀ vn ∈ V, m < vn.length) :
    List.zipWith (fun vn c => vn ++ [c]) (cut Q V m) ((rowAt V m).map Q) = cut Q V (m + 1) := by
  induction V with
  | nil => rfl
  | cons vn V ih =>
    have h1 := h vn (by simp)
    rw [rowAt_cons _ _ _ h1]
    simp only [cut, List.map_cons, List.zipWith_cons_cons]
    rw [take_succ_map _ _ _ h1]
    have := ih (fun x hx => h x (List.mem_cons_of_mem _ hx))
    rw [cut] at this
    rw [this]; rfl

/-! ### data -/

/-- The data lines of a 2110 file. -/
def dataLines2110 (env : Env F) (r : NA2110 F) : List (List Str) :=
  r.X.mapIdx (fun m x => rowText env (x.1 :: rowAt r.A m) ::
    (raggedVals x.2 (rowAt r.V m)).map (rowText env))

theorem marks_len {α : Type} {X : List (α × List F)} {NX : List Int}
    (h : X.map (fun x => (x.2.length : Int)) = NX) :
    NX.length = X.length ∧ ∀ m (hm : m < X.length) (hn : m < NX.length),
      ((X[m]).2.length : Int) = NX[m] := by
  subst h
  exact ⟨by simp, fun m hm hn => by simp⟩

theorem rows2110_eq {env : Env F} (hann : env.ann = none) {count : F → Option Int} {r : NA2110 F}
    (hr : Wf2110 count r) : rows2110 env r = (nl (dataLines2110 env r).flatten).map .ok := by
  obtain ⟨hlen, hmk⟩ := marks_len hr.marks
  apply rows_flatten
  intro m hm
  have hca : ∀ col ∈ r.A, m < col.length := fun col hc => by rw [hr.aux_data.2 col hc]; exact hm
  rw [markRow_eq hann _ _ hr.aux_data.1 _ _ hca, nl_cons, List.map_cons]
  congr 1
  exact raggedRows_eq hann _ _ _ hr.data _ m (by omega) (hmk m hm (by omega))

theorem write2110_text {env : Env F} {q : F → F} (hcd : env.cd.Lawful q) (hann : env.ann = none)
    (hd : WsDelim env.delim) {count : F → Option Int} {r : NA2110 F} (hr : Wf2110 count r) :
    write2110 env false r =
      ({ r with DX := r.DX.reverse, XNAME := r.XNAME.reverse },
       Out.mk (unlines (hdrLines2110 env ((hdrLines2110 env 0 r.DX.reverse r).length : Int)
          r.DX.reverse r) :: nl (dataLines2110 env r).flatten) none) := by
  rw [write2110, if_neg (by simp), header2110_eq hcd hann hd hr]
  simp only []
  have : rows2110 env { r with DX := r.DX.reverse, XNAME := r.XNAME.reverse } = rows2110 env r := rfl
  rw [this, rows2110_eq hann hr, ofRows_ok]
  rfl

theorem counts_at {count : F → Option Int} {A : List (List F)} {NX : List Int}
    (h : (A.head?).map (fun a => a.map count) = some (NX.map some)) (m : Nat) (hm : m < NX.length)
    (hA : ∀ col ∈ A, m < col.length) :
    ∃ a rest, rowAt A m = a :: rest ∧ count a = some NX[m] := by
  cases A with
  | nil => cases h
  | cons a0 as =>
    have ha := hA a0 (by simp)
    refine ⟨a0[m], rowAt as m, rowAt_cons _ _ _ ha, ?_⟩
    simp only [List.head?_cons, Option.map_some] at h
    injection h with h
    have h1 : (a0.map count)[m]? = some (count a0[m]) := by simp [ha]
    rw [h] at h1
    simp [hm] at h1
    exact h1.symm

theorem read2110_written {env : Env F} {q : F → F} (hcd : env.cd.Lawful q) (hann : env.ann = none)
    (hd : WsDelim env.delim) {r : NA2110 F} (hr : Wf2110 (fun a => env.cd.trunc (q a)) r) :
    read2110 env.cd 0 (write2110 env false r).2.text =
      .ok { r with com := trimCom r.com,
                   c := { r.c with NLHEAD := ((hdrLines2110 env 0 r.DX.reverse r).length : Int) },
                   X := r.X.map (fun x => (q x.1, x.2.map q)),
                   A := r.A.map (fun col => col.map q),
                   V := r.V.map (fun vn => vn.map (fun l => l.map q)) } := by
  have hlen : ∀ n, (hdrLines2110 env n r.DX.reverse r).length
      = (hdrLines2110 env 0 r.DX.reverse r).length := fun n => hdrLines2110_length env n 0 _ r
  obtain ⟨hnx, hmk⟩ := marks_len hr.marks
  rw [write2110_text hcd hann hd hr]
  generalize hN : (hdrLines2110 env 0 r.DX.reverse r).length = N
  rw [text_header_rows]
  have hplain : ∀ s ∈ hdrLines2110 env (N : Int) r.DX.reverse r ++ (dataLines2110 env r).flatten,
      Plain s := by
    intro s hs
    rw [List.mem_append] at hs
    rcases hs with hs | hs
    · exact plain_hdr2110 hcd hd hr.common hr.xnames hr.vars hr.aux hr.com _ _ s hs
    · simp only [dataLines2110, List.mem_flatten, List.mem_mapIdx] at hs
      obtain ⟨_, ⟨i, hi, rfl⟩, hs⟩ := hs
      rw [List.mem_cons, List.mem_map] at hs
      rcases hs with rfl | ⟨xs, _, rfl⟩
      · exact plain_rowText hcd hd _
      · exact plain_rowText hcd hd _
  unfold read2110
  rw [fileLines_unlines _ hplain, nl_append, readHeader2110_lines hcd hd hr]
  simp only [ok_bind]
  unfold readData2110
  have key := readDataWith_blocks (step2110 env.cd r.aux.NAUXV r.v.NV)
    (fun m => Arr2110.mk (r.NX.take m) ((r.X.take m).map (fun x => (q x.1, x.2.map q)))
      (cut q r.A m) (cut (fun l => l.map q) r.V m) r.DX)
    (hdrLines2110 env (N : Int) r.DX.reverse r) (dataLines2110 env r) hplain ?_ ?_ ?_
  · simp only [hlen, hN, List.take_zero, List.map_nil, cut_zero (fun l : List F => l.map q) r.V r.v.NV hr.data.1,
      cut_zero q r.A r.aux.NAUXV hr.aux_data.1] at key
    simp only []
    rw [key]
    simp only [ok_bind]
    have hl : (dataLines2110 env r).length = r.X.length := by simp [dataLines2110]
    rw [hl, cut_all (fun l : List F => l.map q) r.V, cut_all q r.A _ hr.aux_data.2, List.take_length,
      ← hnx, List.take_length]
    intro vn hvn
    have := congrArg List.length (hr.data.2 vn hvn)
    rw [List.length_map] at this; omega
  · intro b hb
    simp only [dataLines2110, List.mem_mapIdx] at hb
    obtain ⟨i, hi, rfl⟩ := hb
    simp
  · intro b hb l hl
    simp only [dataLines2110, List.mem_mapIdx] at hb
    obtain ⟨i, hi, rfl⟩ := hb
    rw [List.mem_cons, List.mem_map] at hl
    rcases hl with rfl | ⟨xs, hx, rfl⟩
    · exact row_not_blank hcd hd _ (by simp)
    · refine row_not_blank hcd hd _ ?_
      simp only [raggedVals, List.mem_mapIdx] at hx
      obtain ⟨p, hp, rfl⟩ := hx
      simp
  · intro j hj rest
    have hj' : j < r.X.length := by simpa [dataLines2110] using hj
    have hjn : j < r.NX.length := by omega
    have hca : ∀ col ∈ r.A, j < col.length := fun col hc => by rw [hr.aux_data.2 col hc]; exact hj'
    have hlena : ((((r.X[j]).1 :: rowAt r.A j).length : Nat) : Int) = r.aux.NAUXV + 1 := by
      rw [List.length_cons, rowAt_length _ _ hca]
      have := hr.aux_data.1
      omega
    have hpos : (1 : Int) ≤ r.aux.NAUXV + 1 := by have := hr.aux_data.1; omega
    obtain ⟨h1, h2, h3⟩ := ragged_cols hr.data j hjn
    obtain ⟨a, as, ha, hcnt⟩ := counts_at hr.counts j hjn hca
    simp only [dataLines2110, List.getElem_mapIdx, nl_cons, List.cons_append, step2110]
    rw [data1_2110, readUnkList, readUnk_row hcd hd _ _ _ hlena hpos]
    simp only [ok_bind, List.map_cons]
    rw [appendCols_cut q r.A j hca]
    simp only [ok_bind]
    rw [ha]
    simp only [List.map_cons, idx, List.getElem?_cons_zero, ok_bind, Codec.int, hcnt]
    have hnat : (r.NX[j]).toNat = (r.X[j]).2.length := by
      have := hmk j hj' hjn; omega
    rw [data2_2110, hnat, readRagged_rows hcd hd r.v.NV (rowAt r.V j) (by rw [h2]; exact hr.data.1)
      (r.X[j]).2 (fun col hc => by have := h3 col hc; have := hmk j hj' hjn; omega)]
    simp only [ok_bind]
    rw [zipWith_cut (fun l : List F => l.map q) r.V j h1, take_succ_map _ _ _ hj']
    rw [← List.take_append_getElem hjn]

end Nappy
