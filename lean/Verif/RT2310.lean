import Verif.RT2110

/-! FFI 2310: written text and reading it back. -/

namespace Nappy

open Spec

variable {F : Type}

theorem join_singleton (d a : Str) : join d [a] = a := rfl

theorem header2310_eq {env : Env F} {q : F → F} (hcd : env.cd.Lawful q) (hann : env.ann = none)
    (hd : WsDelim env.delim) {count : F → Option Int} {incr : F → Option F} {r : NA2110 F}
    (hr : Wf2310 count incr r) (d0 : F) (ds : List F) (hdx : r.DX = d0 :: ds) :
    header2310 env r
      = ({ r with XNAME := r.XNAME.reverse },
         .ok (unlines (hdrLines2110 env ((hdrLines2110 env 0 [d0] r).length : Int) [d0] r))) := by
  unfold header2310
  rw [writeCommon_lines hann hr.common]
  have h0 : idx r.DX 0 = .ok d0 := by rw [hdx]; simp [idx]
  simp only [h0, Prod.mk.injEq, true_and]
  have := header2110Tail_eq hcd hann hd hr.common hr.xnames hr.vars hr.aux hr.com
    (by rw [hr.xname, hr.niv]; rfl) r.DX [d0]
  simpa [join] using this

theorem readHeader2310_lines {env : Env F} {q : F → F} (hcd : env.cd.Lawful q)
    (hd : WsDelim env.delim) {count : F → Option Int} {incr : F → Option F} {r : NA2110 F}
    (hr : Wf2310 count incr r) (d0 : F) (n : Int) (rest : List Str) :
    readHeader2310 env.cd 0 (nl (hdrLines2110 env n [d0] r) ++ rest)
      = .ok ({ r with com := trimCom r.com,
                      c := { r.c with NLHEAD := n }, DX := [d0], NX := [], X := [], A := [],
                      V := [] }, [], rest) := by
  have hniv : nivOf r.c.FFI = 2 := by rw [hr.ffi]; decide
  have hnames : ∀ s ∈ r.XNAME.reverse, Name s := fun s hs => hr.xnames s (List.mem_reverse.1 hs)
  unfold readHeader2310 hdrLines2110
  rw [nl_append, List.append_assoc, readCommon_lines hd hr.common]
  simp only [ok_bind, hniv, nl_cons, List.cons_append, readline]
  rw [floats_line hcd hd _ _ (by simp) (by decide)]
  simp only [ok_bind, nl_append, List.append_assoc]
  rw [readXName_lines r.XNAME.reverse _ (by simp [hr.xname]) hnames]
  simp only []
  rw [readVars_lines hcd hd hr.vars]
  simp only [ok_bind]
  rw [readAux_lines hcd hd hr.aux]
  simp only [ok_bind]
  rw [readComments_lines hr.com]
  simp only [ok_bind, readItemsFromLines_names _ hnames, List.reverse_reverse]
  rw [← hr.niv]

/-- The values of one mark in the order they are written: position by position, and within a position
variable by variable. -/
def implVals (k : Nat) (cols : List (List F)) : List F :=
  ((List.range k).map (fun p => rowAt cols p)).flatten

theorem implVals_length (k : Nat) (cols : List (List F)) (h : ∀ col ∈ cols, k ≤ col.length) :
    (implVals k cols).length = k * cols.length := by
  rw [implVals, flatten_length_const cols.length]
  · simp
  · intro l hl
    obtain ⟨p, hp, rfl⟩ := List.mem_map.1 hl
    exact rowAt_length _ _ (fun col hc => by have := h col hc; have := List.mem_range.1 hp; omega)

theorem implRow_eq {env : Env F} (hann : env.ann = none) (nv : Int) (NX : List Int)
    (V : List (List (List F))) (hV : Ragged V nv NX) (m : Nat) (hm : m < NX.length) :
    implRow env nv NX V m = .ok (rowText env (implVals NX[m].toNat (rowAt V m)) ++ ['\n']) := by
  obtain ⟨h1, h2, h3⟩ := ragged_cols hV m hm
  have key : ∀ p, p < NX[m].toNat → mapRes (fun (vn : List (List F)) => do
      let vnm ← idx vn m
      let y ← idx vnm p
      (.ok (cell env y) : Res Str)) V = .ok ((rowAt (rowAt V m) p).map (cell env)) := by
    intro p hp
    have hc : ∀ col ∈ rowAt V m, p < col.length := fun col hc => by have := h3 col hc; omega
    clear hV h2 h3
    induction V with
    | nil => rfl
    | cons vn V ih =>
      have e1 := h1 vn (by simp)
      rw [rowAt_cons _ _ _ e1] at hc ⊢
      have e2 := hc vn[m] (by simp)
      rw [rowAt_cons _ _ _ e2, mapRes, idx_lt _ _ e1]
      simp only [ok_bind]
      rw [idx_lt _ _ e2, ih (fun x hx => h1 x (List.mem_cons_of_mem _ hx))
        (fun x hx => hc x (List.mem_cons_of_mem _ hx))]
      rfl
  rw [implRow, idx_lt _ _ hm]
  simp only [ok_bind, firstN_all _ _ hV.1]
  rw [mapRes_ok_map _ (fun p => concat ((rowAt (rowAt V m) p).map (cell env)))]
  · simp only [ok_bind]
    rw [← dataLine_rowText hann]
    congr 2
    rw [implVals]
    generalize List.range NX[m].toNat = l
    induction l with
    | nil => rfl
    | cons p l ih =>
      rw [List.map_cons, concat_cons, ih]
      simp only [List.map_cons, List.flatten_cons, List.map_append, concat_append]
  · intro p hp
    rw [key p (List.mem_range.1 hp)]
    rfl

/-- The number of values at mark `m`. -/
def nxAt (NX : List Int) (m : Nat) : Nat := (NX.getD m 0).toNat

theorem getD_lt (l : List Int) (m : Nat) (h : m < l.length) : l.getD m 0 = l[m] := by
  simp [h]

theorem nxAt_lt (NX : List Int) (m : Nat) (h : m < NX.length) : nxAt NX m = NX[m].toNat := by
  simp [nxAt, h]

/-- The data lines of a 2310 file. -/
def dataLines2310 (env : Env F) (r : NA2110 F) : List (List Str) :=
  r.X.mapIdx (fun m x => [rowText env (x.1 :: rowAt r.A m),
    rowText env (implVals (nxAt r.NX m) (rowAt r.V m))])

theorem wf2310_len {count : F → Option Int} {incr : F → Option F} {r : NA2110 F}
    (hr : Wf2310 count incr r) : r.NX.length = r.X.length := by
  obtain ⟨a0, a1, a2, as, hA, h0, _⟩ := hr.aux3
  have h := congrArg List.length h0
  rw [List.length_map, List.length_map] at h
  rw [← h]
  exact hr.aux_data.2 a0 (by rw [hA]; simp)

theorem rows2310_eq {env : Env F} (hann : env.ann = none) {count : F → Option Int}
    {incr : F → Option F} {r : NA2110 F} (hr : Wf2310 count incr r) :
    rows2310 env r = (nl (dataLines2310 env r).flatten).map .ok := by
  have hlen := wf2310_len hr
  apply rows_flatten
  intro m hm
  have hca : ∀ col ∈ r.A, m < col.length := fun col hc => by rw [hr.aux_data.2 col hc]; exact hm
  rw [markRow_eq hann _ _ hr.aux_data.1 _ _ hca, implRow_eq hann _ _ _ hr.data m (by omega),
    nxAt_lt _ _ (by omega)]
  rfl

theorem write2310_text {env : Env F} {q : F → F} (hcd : env.cd.Lawful q) (hann : env.ann = none)
    (hd : WsDelim env.delim) {count : F → Option Int} {incr : F → Option F} {r : NA2110 F}
    (hr : Wf2310 count incr r) (d0 : F) (ds : List F) (hdx : r.DX = d0 :: ds) :
    write2310 env false r =
      ({ r with XNAME := r.XNAME.reverse },
       Out.mk (unlines (hdrLines2110 env ((hdrLines2110 env 0 [d0] r).length : Int) [d0] r)
          :: nl (dataLines2310 env r).flatten) none) := by
  rw [write2310, if_neg (by simp), header2310_eq hcd hann hd hr d0 ds hdx]
  simp only []
  have : rows2310 env { r with XNAME := r.XNAME.reverse } = rows2310 env r := rfl
  rw [this, rows2310_eq hann hr, ofRows_ok]
  rfl

theorem appendBlocks_empty {α : Type} (k n : Nat) (v : List α) (h : v.length = n * k) :
    appendBlocks k (List.replicate n []) v = .ok ((List.range n).map (fun i => block k i v)) := by
  induction n generalizing v with
  | zero => rfl
  | succ n ih =>
    rw [Nat.succ_mul] at h
    rw [List.replicate_succ, appendBlocks, if_neg (by omega), ih (v.drop k) (by simp; omega)]
    simp only [ok_bind, List.range_succ_eq_map, List.map_cons, List.map_map, List.nil_append]
    congr 2
    · simp [block]
    · apply List.map_congr_left
      intro i _
      simp only [block, List.drop_drop, Function.comp_def, Nat.succ_mul]
      rw [Nat.add_comm k]

/-- The values of variable `n` at mark `m` as they are read back from a written 2310 file: consecutive
pieces of the position-major sequence. -/
def readBack (NX : List Int) (V : List (List (List F))) (n m : Nat) : List F :=
  block (nxAt NX m) n (implVals (nxAt NX m) (rowAt V m))

theorem impl_lengths {count : F → Option Int} {incr : F → Option F} {r : NA2110 F}
    (hr : Wf2310 count incr r) :
    ∀ j, j < r.X.length → (implVals (nxAt r.NX j) (rowAt r.V j)).length
      = nxAt r.NX j * r.V.length ∧ 1 ≤ nxAt r.NX j ∧ (nxAt r.NX j : Int) = r.NX.getD j 0 := by
  have hnx := wf2310_len hr
  intro j hj
  have hjn : j < r.NX.length := by omega
  obtain ⟨h1, h2, h3⟩ := ragged_cols hr.data j hjn
  have hp := hr.nx_pos _ (List.getElem_mem hjn)
  refine ⟨?_, ?_, ?_⟩
  · rw [implVals_length, h2]
    intro col hc
    rw [nxAt_lt _ _ hjn]
    have := h3 col hc; omega
  · rw [nxAt_lt _ _ hjn]; omega
  · rw [nxAt_lt _ _ hjn, getD_lt _ _ hjn]; omega

theorem step2310_row {env : Env F} {q : F → F} (hcd : env.cd.Lawful q)
    (hd : WsDelim env.delim) {r : NA2110 F}
    (hr : Wf2310 (fun a => env.cd.trunc (q a)) (fun a => (env.cd.trunc (q a)).map env.cd.ofInt) r)
    (d0 : F) (ds : List F) (hdx : r.DX = d0 :: ds) (j : Nat) (hj' : j < r.X.length)
    (rest : List Str) :
    step2310 env.cd r.aux.NAUXV r.v.NV
      (Arr2110.mk (r.NX.take j) ((r.X.take j).map (fun x => (q x.1, x.2.map q)))
        (cut q r.A j) ((List.range r.V.length).map (fun n =>
          (List.range j).map (fun m => (readBack r.NX r.V n m).map q))) (d0 :: ds.take j))
      (nl [rowText env ((r.X[j]).1 :: rowAt r.A j),
        rowText env (implVals (nxAt r.NX j) (rowAt r.V j))] ++ rest) =
      .ok (Arr2110.mk (r.NX.take (j + 1)) ((r.X.take (j + 1)).map (fun x => (q x.1, x.2.map q)))
        (cut q r.A (j + 1)) ((List.range r.V.length).map (fun n =>
          (List.range (j + 1)).map (fun m => (readBack r.NX r.V n m).map q)))
          (d0 :: ds.take (j + 1)), rest) := by
  have hnx := wf2310_len hr
  obtain ⟨a0, a1, a2, as, hA, hc0, hc1, d0', ds', hdx', hc2⟩ := hr.aux3
  rw [hdx] at hdx'
  have h1 := (List.cons.inj hdx').1
  have h2 := (List.cons.inj hdx').2
  subst h1 h2
  have hl0 : a0.length = r.X.length := hr.aux_data.2 a0 (by rw [hA]; simp)
  have hl1 : a1.length = r.X.length := hr.aux_data.2 a1 (by rw [hA]; simp)
  have hl2 : a2.length = r.X.length := hr.aux_data.2 a2 (by rw [hA]; simp)
  have hlds : ds.length = r.X.length := by
    have := congrArg List.length hc2
    simpa [hl2] using this.symm
  have hvl := impl_lengths hr
  have hVpos : 1 ≤ r.V.length := by have := hr.data.1; have := hr.vars.pos; omega
  have hjn : j < r.NX.length := by omega
  have hca : ∀ col ∈ r.A, j < col.length := fun col hc => by rw [hr.aux_data.2 col hc]; exact hj'
  have hlena : ((((r.X[j]).1 :: rowAt r.A j).length : Nat) : Int) = r.aux.NAUXV + 1 := by
    rw [List.length_cons, rowAt_length _ _ hca]
    have := hr.aux_data.1
    omega
  have hpos : (1 : Int) ≤ r.aux.NAUXV + 1 := by have := hr.aux_data.1; omega
  obtain ⟨hv1, hv2, hv3⟩ := hvl j hj'
  have hrow : rowAt r.A j = a0[j] :: a1[j] :: a2[j] :: rowAt as j := by
    rw [hA, rowAt_cons _ _ _ (by omega), rowAt_cons _ _ _ (by omega), rowAt_cons _ _ _ (by omega)]
  have hcnt : env.cd.trunc (q a0[j]) = some r.NX[j] := by
    have h1 : (a0.map (fun a => env.cd.trunc (q a)))[j]? = some (env.cd.trunc (q a0[j])) := by
      simp [show j < a0.length by omega]
    rw [hc0] at h1
    simp [hjn] at h1
    exact h1.symm
  obtain ⟨d, hd1, hd2⟩ : ∃ d, env.cd.trunc (q a2[j]) = some d ∧ env.cd.ofInt d = ds[j] := by
    have h1 : (a2.map (fun a => (env.cd.trunc (q a)).map env.cd.ofInt))[j]?
        = some ((env.cd.trunc (q a2[j])).map env.cd.ofInt) := by
      simp [show j < a2.length by omega]
    rw [hc2] at h1
    simp [show j < ds.length by omega] at h1
    cases h3 : env.cd.trunc (q a2[j]) with
    | none => rw [h3] at h1; simp at h1
    | some d => rw [h3] at h1; exact ⟨d, rfl, by simpa using h1.symm⟩
  have hx2 : (r.X[j]).2 = [a1[j]] := by
    have h1 : (r.X.map (fun x => x.2))[j]? = some (r.X[j]).2 := by simp [hj']
    rw [hc1] at h1
    simp [show j < a1.length by omega] at h1
    exact h1.symm
  simp only [nl_cons, nl_nil, List.cons_append,
    List.nil_append, step2310]
  rw [data1_2310, readUnkList, readUnk_row hcd hd _ _ _ hlena hpos]
  simp only [ok_bind, List.map_cons]
  rw [appendCols_cut q r.A j hca]
  simp only [ok_bind]
  rw [hrow]
  simp only [List.map_cons, idx, List.getElem?_cons_zero, List.getElem?_cons_succ, ok_bind,
    Codec.int, hcnt, hd1]
  have hsize : ((implVals (nxAt r.NX j) (rowAt r.V j)).length : Int) = r.v.NV * r.NX[j] := by
    rw [hv1, Int.natCast_mul, hv3, hr.data.1, getD_lt _ _ hjn, Int.mul_comm]
  have hsz1 : (1 : Int) ≤ r.v.NV * r.NX[j] := by
    rw [← hsize, hv1]
    have : 1 * 1 ≤ nxAt r.NX j * r.V.length := Nat.mul_le_mul hv2 hVpos
    omega
  rw [data2_2310, readUnkList, readUnk_row hcd hd _ _ _ hsize hsz1]
  simp only [ok_bind]
  have hnv : r.v.NV.toNat = r.V.length := by have := hr.data.1; omega
  rw [emptyCols, hnv, ← nxAt_lt _ _ hjn, appendBlocks_empty _ _ _ (by
    rw [List.length_map, hv1, Nat.mul_comm])]
  simp only [ok_bind]
  rw [take_succ_map _ _ _ hj', ← List.take_append_getElem hjn, hx2, hd2,
    ← List.take_append_getElem (show j < ds.length by omega)]
  simp only [Except.ok.injEq, Prod.mk.injEq, Arr2110.mk.injEq, true_and, List.map_cons,
    List.map_nil, and_true, List.cons_append]
  apply List.ext_getElem
  · simp
  · intro i h1 h2
    simp [List.range_succ, readBack, block, List.map_drop, List.map_take]

/-- Reading back a written 2310 file: everything but the values comes back; the values of each mark come
back regrouped. -/
theorem read2310_written {env : Env F} {q : F → F} (hcd : env.cd.Lawful q) (hann : env.ann = none)
    (hd : WsDelim env.delim) {r : NA2110 F}
    (hr : Wf2310 (fun a => env.cd.trunc (q a)) (fun a => (env.cd.trunc (q a)).map env.cd.ofInt) r)
    (d0 : F) (ds : List F) (hdx : r.DX = d0 :: ds) :
    read2310 env.cd 0 (write2310 env false r).2.text =
      .ok { r with com := trimCom r.com,
                   c := { r.c with NLHEAD := ((hdrLines2110 env 0 [d0] r).length : Int) },
                   X := r.X.map (fun x => (q x.1, x.2.map q)),
                   A := r.A.map (fun col => col.map q),
                   V := (List.range r.V.length).map (fun n =>
                     (List.range r.X.length).map (fun m => (readBack r.NX r.V n m).map q)) } := by
  have hlen : ∀ n, (hdrLines2110 env n [d0] r).length
      = (hdrLines2110 env 0 [d0] r).length := fun n => hdrLines2110_length env n 0 _ r
  have hnx := wf2310_len hr
  obtain ⟨a0, a1, a2, as, hA, hc0, hc1, d0', ds', hdx', hc2⟩ := hr.aux3
  rw [hdx] at hdx'
  have h1 := (List.cons.inj hdx').1
  have h2 := (List.cons.inj hdx').2
  subst h1 h2
  have hl0 : a0.length = r.X.length := hr.aux_data.2 a0 (by rw [hA]; simp)
  have hl1 : a1.length = r.X.length := hr.aux_data.2 a1 (by rw [hA]; simp)
  have hl2 : a2.length = r.X.length := hr.aux_data.2 a2 (by rw [hA]; simp)
  have hlds : ds.length = r.X.length := by
    have := congrArg List.length hc2
    simpa [hl2] using this.symm
  rw [write2310_text hcd hann hd hr d0 ds hdx]
  generalize hN : (hdrLines2110 env 0 [d0] r).length = N
  rw [text_header_rows]
  have hplain : ∀ s ∈ hdrLines2110 env (N : Int) [d0] r ++ (dataLines2310 env r).flatten,
      Plain s := by
    intro s hs
    rw [List.mem_append] at hs
    rcases hs with hs | hs
    · exact plain_hdr2110 hcd hd hr.common hr.xnames hr.vars hr.aux hr.com _ _ s hs
    · simp only [dataLines2310, List.mem_flatten, List.mem_mapIdx] at hs
      obtain ⟨_, ⟨i, hi, rfl⟩, hs⟩ := hs
      simp only [List.mem_cons, List.not_mem_nil, or_false] at hs
      rcases hs with rfl | rfl
      · exact plain_rowText hcd hd _
      · exact plain_rowText hcd hd _
  have hvl := impl_lengths hr
  have hVpos : 1 ≤ r.V.length := by have := hr.data.1; have := hr.vars.pos; omega
  unfold read2310
  rw [fileLines_unlines _ hplain, nl_append, readHeader2310_lines hcd hd hr]
  simp only [ok_bind]
  unfold readData2310
  have key := readDataWith_blocks (step2310 env.cd r.aux.NAUXV r.v.NV)
    (fun m => Arr2110.mk (r.NX.take m) ((r.X.take m).map (fun x => (q x.1, x.2.map q)))
      (cut q r.A m) ((List.range r.V.length).map (fun n =>
        (List.range m).map (fun m => (readBack r.NX r.V n m).map q))) (d0 :: ds.take m))
    (hdrLines2110 env (N : Int) [d0] r) (dataLines2310 env r) hplain ?_ ?_ ?_
  · have hempty : (List.range r.V.length).map (fun _ => ([] : List (List F))) = emptyCols r.v.NV := by
      rw [emptyCols]
      have : r.v.NV.toNat = r.V.length := by have := hr.data.1; omega
      rw [this]
      simp
    simp only [hlen, hN, List.take_zero, List.map_nil, List.range_zero, hempty,
      cut_zero q r.A r.aux.NAUXV hr.aux_data.1] at key
    simp only []
    rw [key]
    simp only [ok_bind]
    have hl : (dataLines2310 env r).length = r.X.length := by simp [dataLines2310]
    rw [hl, cut_all q r.A _ hr.aux_data.2, List.take_length, ← hnx, List.take_length, hnx, ← hlds,
      List.take_length, hdx]
  · intro b hb
    simp only [dataLines2310, List.mem_mapIdx] at hb
    obtain ⟨i, hi, rfl⟩ := hb
    simp
  · intro b hb l hl
    simp only [dataLines2310, List.mem_mapIdx] at hb
    obtain ⟨i, hi, rfl⟩ := hb
    simp only [List.mem_cons, List.not_mem_nil, or_false] at hl
    rcases hl with rfl | rfl
    · exact row_not_blank hcd hd _ (by simp)
    · refine row_not_blank hcd hd _ ?_
      intro h
      obtain ⟨h1, h2, _⟩ := hvl i hi
      rw [h] at h1
      have : 1 * 1 ≤ nxAt r.NX i * r.V.length := Nat.mul_le_mul h2 hVpos
      simp only [List.length_nil] at h1; omega
  · intro j hj rest
    have hj' : j < r.X.length := by simpa [dataLines2310] using hj
    have e : (dataLines2310 env r)[j] = [rowText env ((r.X[j]).1 :: rowAt r.A j),
        rowText env (implVals (nxAt r.NX j) (rowAt r.V j))] := by simp [dataLines2310]
    rw [e]
    exact step2310_row hcd hd hr d0 ds hdx j hj' rest

/-- The regrouping does nothing with a single variable. -/
theorem readBack_one (NX : List Int) (vn : List (List F)) (m : Nat) (hm : m < vn.length)
    (hn : nxAt NX m = (vn[m]).length) : readBack NX [vn] 0 m = vn[m] := by
  rw [readBack, rowAt_cons _ _ _ hm, hn]
  have : implVals (vn[m]).length [vn[m]] = vn[m] := by
    rw [implVals]
    rw [range_map_getElem vn[m] _ (fun x => [x])]
    · generalize vn[m] = l
      induction l with
      | nil => rfl
      | cons a t ih => simp only [List.map_cons, List.flatten_cons, ih]; rfl
    · intro i hi
      simp [rowAt, hi]
  rw [show rowAt ([] : List (List (List F))) m = [] from rfl, this]
  simp [block]

theorem list_one {α : Type} (l : List α) (h : l.length = 1) : l = [l[0]] := by
  match l, h with
  | [a], _ => rfl

/-- The regrouping does nothing at a mark with a single value. -/
theorem readBack_single (NX : List Int) (V : List (List (List F))) (n m : Nat) (hn : n < V.length)
    (hV : ∀ vn ∈ V, m < vn.length) (h1 : nxAt NX m = 1)
    (hl : ∀ col ∈ rowAt V m, col.length = 1) :
    readBack NX V n m = (V[n])[m]'(hV _ (List.getElem_mem hn)) := by
  rw [readBack, h1]
  have hc : ∀ col ∈ rowAt V m, 0 < col.length := fun col h => by rw [hl col h]; decide
  have hlen := rowAt_length V m hV
  have hlen2 := rowAt_length (rowAt V m) 0 hc
  have e : implVals 1 (rowAt V m) = rowAt (rowAt V m) 0 := by simp [implVals]
  rw [e]
  have hn2 : n < (rowAt V m).length := by omega
  have hg := rowAt_getElem (rowAt V m) 0 hc n hn2
  have hg2 := rowAt_getElem V m hV n hn
  have hone := hl _ (List.getElem_mem hn2)
  simp only [block, Nat.mul_one]
  rw [List.drop_eq_getElem_cons (by omega), List.take_succ_cons, List.take_zero, hg]
  rw [← hg2]
  exact (list_one _ hone).symm

/-- Reading back a written 2310 file gives the same dictionary when there is one variable, or one value
per mark. -/
theorem read2310_same {env : Env F} {q : F → F} (hcd : env.cd.Lawful q) (hann : env.ann = none)
    (hd : WsDelim env.delim) {r : NA2110 F}
    (hr : Wf2310 (fun a => env.cd.trunc (q a)) (fun a => (env.cd.trunc (q a)).map env.cd.ofInt) r)
    (hone : r.v.NV = 1 ∨ ∀ n ∈ r.NX, n = 1)
    (d0 : F) (ds : List F) (hdx : r.DX = d0 :: ds) :
    read2310 env.cd 0 (write2310 env false r).2.text =
      .ok { r with com := trimCom r.com,
                   c := { r.c with NLHEAD := ((hdrLines2110 env 0 [d0] r).length : Int) },
                   X := r.X.map (fun x => (q x.1, x.2.map q)),
                   A := r.A.map (fun col => col.map q),
                   V := r.V.map (fun vn => vn.map (fun l => l.map q)) } := by
  rw [read2310_written hcd hann hd hr d0 ds hdx]
  have hnx := wf2310_len hr
  have hVlen : ∀ vn ∈ r.V, vn.length = r.X.length := by
    intro vn hvn
    have := congrArg List.length (hr.data.2 vn hvn)
    rw [List.length_map] at this; omega
  congr 2
  apply range_map_getElem r.V
  intro n hn
  rw [← hVlen _ (List.getElem_mem hn)]
  apply range_map_getElem (r.V[n])
  intro m hm
  congr 1
  have hmX : m < r.X.length := by rw [← hVlen _ (List.getElem_mem hn)]; exact hm
  have hmn : m < r.NX.length := by omega
  obtain ⟨h1, h2, h3⟩ := ragged_cols hr.data m hmn
  rcases hone with hone | hone
  · have hl : r.V.length = 1 := by have := hr.data.1; omega
    have hn0 : n = 0 := by omega
    subst hn0
    have hV := list_one _ hl
    have h4 := h3 (r.V[0])[m] (by
      have e := rowAt_cons (r.V[0]) [] m hm
      rw [← hV] at e
      rw [e]; simp)
    have h5 := readBack_one r.NX (r.V[0]) m hm (by rw [nxAt_lt _ _ hmn]; omega)
    rw [← hV] at h5
    exact h5
  · have h1' := hone _ (List.getElem_mem hmn)
    exact readBack_single r.NX r.V n m hn h1 (by rw [nxAt_lt _ _ hmn, h1']; rfl)
      (fun col hc => by have := h3 col hc; omega)

end Nappy
