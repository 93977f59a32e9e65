import Verif.Spec.Copy
import Verif.DictFileLemmas
import Verif.RT1001
import Verif.RT2310
import Verif.RT2160
import Verif.Props.RoundTrip
import Verif.Props.Write

/-! Lemmas about copying: rounded values are printed alike, rounded objects are well formed. -/

namespace Nappy

open Spec Props

variable {F : Type}

/-! ### Words and rounding -/

theorem blank_token_unique {l t r l' t' r' : Str} (hl : ∀ c ∈ l, c = ' ') (hr : ∀ c ∈ r, c = ' ')
    (hl' : ∀ c ∈ l', c = ' ') (hr' : ∀ c ∈ r', c = ' ') (ht : Token t) (ht' : Token t')
    (h : l ++ t ++ r = l' ++ t' ++ r') : t = t' := by
  have e : ∀ {l t r : Str}, (∀ c ∈ l, c = ' ') → (∀ c ∈ r, c = ' ') → Token t → strip (l ++ t ++ r) = t := by
    intro l t r hl hr ht
    rw [strip_spaces (fun c hc => by rw [hl c hc]; rfl) (fun c hc => by rw [hr c hc]; rfl)]
    apply strip_eq_self
    constructor
    · intro c u e; exact (ht.2 c (by rw [e]; simp)).1
    · intro a c e; exact (ht.2 c (by rw [e]; simp)).1
  rw [← e hl hr ht, h, e hl' hr' ht']

/-- If printing does not see the rounding, rounding twice is rounding once. -/
theorem round_idem {cd : Codec F} {q : F → F} (hcd : cd.Lawful q) (hq : ∀ x, cd.ffmt (q x) = cd.ffmt x) (x : F) :
    q (q x) = q x := by
  obtain ⟨l, t, r, e, hl, hr, ht, hp⟩ := hcd.ffmt_token x
  obtain ⟨l', t', r', e', hl', hr', ht', hp'⟩ := hcd.ffmt_token (q x)
  have := blank_token_unique hl hr hl' hr' ht ht' (by rw [← e, ← e', hq])
  rw [this, hp'] at hp
  injection hp

/-! ### Lines of rounded values -/

theorem cell_round {env : Env F} {q : F → F} (hq : ∀ x, env.cd.ffmt (q x) = env.cd.ffmt x) (x : F) :
    cell env (q x) = cell env x := by
  unfold cell; rw [hq]

theorem rowText_map {env : Env F} {q : F → F} (hq : ∀ x, env.cd.ffmt (q x) = env.cd.ffmt x) (xs : List F) :
    rowText env (xs.map q) = rowText env xs := by
  unfold rowText
  rw [List.map_map]
  congr 2
  exact List.map_congr_left (fun x _ => cell_round hq x)

theorem rowText_cons {env : Env F} {q : F → F} (hq : ∀ x, env.cd.ffmt (q x) = env.cd.ffmt x) (x : F) (xs : List F) :
    rowText env (q x :: xs.map q) = rowText env (x :: xs) := rowText_map hq (x :: xs)

theorem rowAt_map {α β : Type} (g : α → β) (cols : List (List α)) (m : Nat) :
    rowAt (cols.map (fun col => col.map g)) m = (rowAt cols m).map g := by
  unfold rowAt
  rw [List.filterMap_map, List.map_filterMap]
  congr 1
  funext col
  simp

theorem block_map {α β : Type} (g : α → β) (k m : Nat) (col : List α) : block k m (col.map g) = (block k m col).map g := by
  simp [block, List.map_take, List.map_drop]

theorem raggedVals_map (g : F → F) (xs : List F) (cols : List (List F)) :
    raggedVals (xs.map g) (cols.map (fun c => c.map g)) = (raggedVals xs cols).map (fun r => r.map g) := by
  unfold raggedVals
  apply List.ext_getElem
  · simp
  · intro i h1 h2
    simp [rowAt_map]

theorem implVals_map (g : F → F) (k : Nat) (cols : List (List F)) :
    implVals k (cols.map (fun c => c.map g)) = (implVals k cols).map g := by
  unfold implVals
  rw [List.map_flatten, List.map_map]
  congr 2
  funext p
  exact rowAt_map g cols p

mutual
theorem leaves_mapTree (g : F → F) : (t : Tree F) → leaves (mapTree g t) = (leaves t).map g
  | .val x => rfl
  | .lst l => by rw [mapTree, leaves, leaves, leavesList_mapTrees g l]
theorem leavesList_mapTrees (g : F → F) : (l : List (Tree F)) → leavesList (mapTrees g l) = (leavesList l).map g
  | [] => rfl
  | t :: ts => by rw [mapTrees, leavesList, leavesList, leaves_mapTree g t, leavesList_mapTrees g ts, List.map_append]
end

theorem mapTrees_map (g : F → F) (l : List (Tree F)) : mapTrees g l = l.map (mapTree g) := by
  induction l with
  | nil => rfl
  | cons t ts ih => rw [mapTrees, ih]; rfl

theorem rowsOf_mapTree (g : F → F) (dims : List Nat) (t : Tree F) :
    rowsOf dims (mapTree g t) = (rowsOf dims t).map (fun r => r.map g) := by
  induction dims generalizing t with
  | nil => simp [rowsOf, leaves_mapTree]
  | cons d ds ih =>
    cases ds with
    | nil => simp [rowsOf, leaves_mapTree]
    | cons d2 ds =>
      cases t with
      | val x => simp [rowsOf, mapTree, leaves]
      | lst l =>
        simp only [mapTree, rowsOf, mapTrees_map, List.map_map, List.map_flatten]
        congr 1
        apply List.map_congr_left
        intro t _
        exact ih t

theorem treeRows_map (g : F → F) (dims : List Nat) (V : List (List (Tree F))) (m : Nat) :
    treeRows dims (V.map (fun col => col.map (mapTree g))) m = (treeRows dims V m).map (fun r => r.map g) := by
  unfold treeRows
  rw [rowAt_map, List.map_map, List.map_flatten, List.map_map]
  congr 1
  apply List.map_congr_left
  intro t _
  exact rowsOf_mapTree g dims t

theorem shaped_mapTree (g : F → F) (dims : List Nat) (t : Tree F) (h : Shaped dims t) : Shaped dims (mapTree g t) := by
  induction dims generalizing t with
  | nil => cases t with
    | val x => trivial
    | lst l => exact h.elim
  | cons d ds ih => cases t with
    | val x => exact h.elim
    | lst l =>
      simp only [Shaped, mapTree, mapTrees_map] at h ⊢
      refine ⟨by simpa using h.1, ?_⟩
      intro t ht
      obtain ⟨t0, h0, rfl⟩ := List.mem_map.1 ht
      exact ih t0 (h.2 t0 h0)

theorem rect_map {α β : Type} (g : α → β) {cols : List (List α)} {n : Int} {m m' : Nat} (h : Rect cols n m)
    (hm : m' = m) : Rect (cols.map (fun col => col.map g)) n m' := by
  subst hm
  refine ⟨by simpa using h.1, ?_⟩
  intro col hc
  obtain ⟨c0, h0, rfl⟩ := List.mem_map.1 hc
  simpa using h.2 c0 h0

theorem ragged_map (g : F → F) {V : List (List (List F))} {nv : Int} {NX : List Int} (h : Ragged V nv NX) :
    Ragged (V.map (fun vn => vn.map (fun l => l.map g))) nv NX := by
  refine ⟨by simpa using h.1, ?_⟩
  intro vn hvn
  obtain ⟨v0, h0, rfl⟩ := List.mem_map.1 hvn
  rw [← h.2 v0 h0, List.map_map]
  apply List.map_congr_left
  intro l _
  simp

/-! ### Trimmed comments -/

theorem trimCom_trimCom (c : ComHdr) : trimCom (trimCom c) = trimCom c := by
  simp [trimCom, strip_strip]

theorem wfCom_trim {c : ComHdr} (h : WfCom c) : WfCom (trimCom c) := by
  refine ⟨by simpa [trimCom] using h.nscoml, by simpa [trimCom] using h.nncoml, ?_, ?_⟩
  · intro s hs ch hc
    obtain ⟨s0, h0, rfl⟩ := List.mem_map.1 hs
    exact h.scom s0 h0 ch (mem_strip _ _ hc)
  · intro s hs ch hc
    obtain ⟨s0, h0, rfl⟩ := List.mem_map.1 hs
    exact h.ncom s0 h0 ch (mem_strip _ _ hc)

theorem trimComments_trimComments (o : Obj F) : trimComments (trimComments o) = trimComments o := by
  cases o <;> simp only [trimComments, trimCom_trimCom]

/-! ### What is read of a written file -/

/-- What reading the file written for an object gives. -/
def readForm (q : F → F) (n : Int) (o : Obj F) : Obj F := withNLHEAD n (trimComments (mapValues q o))

theorem mapIdx_map_of {α β γ : Type} (f : Nat → β → γ) (f' : Nat → α → γ) (g : α → β) (l : List α)
    (h : ∀ i a, f i (g a) = f' i a) : (l.map g).mapIdx f = l.mapIdx f' := by
  apply List.ext_getElem
  · simp
  · intro i h1 h2
    simp [h]

theorem dataLines1001_round {env : Env F} {q : F → F} (hq : ∀ x, env.cd.ffmt (q x) = env.cd.ffmt x)
    (r r' : NA1001 F) (hx : r'.X = r.X.map q) (hv : r'.V = r.V.map (fun col => col.map q)) :
    dataLines1001 env r' = dataLines1001 env r := by
  unfold dataLines1001
  rw [hx, hv]
  apply mapIdx_map_of
  intro m x
  rw [rowAt_map, rowText_cons hq]

theorem dataLines1010_round {env : Env F} {q : F → F} (hq : ∀ x, env.cd.ffmt (q x) = env.cd.ffmt x)
    (r r' : NA1010 F) (hx : r'.X = r.X.map q) (ha : r'.A = r.A.map (fun col => col.map q))
    (hv : r'.V = r.V.map (fun col => col.map q)) :
    dataLines1010 env r' = dataLines1010 env r := by
  unfold dataLines1010
  rw [hx, ha, hv]
  apply mapIdx_map_of
  intro m x
  rw [rowAt_map, rowAt_map, rowText_cons hq, rowText_map hq]

theorem dataLines1020_round {env : Env F} {q : F → F} (hq : ∀ x, env.cd.ffmt (q x) = env.cd.ffmt x)
    (r r' : NA1020 F) (hx : r'.X = r.X.map q) (ha : r'.A = r.A.map (fun col => col.map q))
    (hv : r'.V = r.V.map (fun col => col.map q)) (hn : r'.NVPM = r.NVPM) :
    dataLines1020 env r' = dataLines1020 env r := by
  unfold dataLines1020
  rw [hx, ha, hv, hn]
  apply mapIdx_map_of
  intro m x
  rw [rowAt_map, rowText_cons hq, List.map_map]
  congr 1
  apply List.map_congr_left
  intro col _
  simp only [Function.comp, block_map, rowText_map hq]

theorem dataLines2010_round {env : Env F} {q : F → F} (hq : ∀ x, env.cd.ffmt (q x) = env.cd.ffmt x)
    (r r' : NA2010 F) (hx : r'.X0 = r.X0.map q) (ha : r'.A = r.A.map (fun col => col.map q))
    (hv : r'.V = r.V.map (fun col => col.map (mapTree q))) (hn : r'.NX = r.NX) :
    dataLines2010 env r' = dataLines2010 env r := by
  unfold dataLines2010
  rw [hx, ha, hv, hn]
  apply mapIdx_map_of
  intro m x
  rw [rowAt_map, rowText_cons hq, treeRows_map, List.map_map]
  congr 1
  apply List.map_congr_left
  intro row _
  exact rowText_map hq row

theorem dataLines2110_round {env : Env F} {q : F → F} (hq : ∀ x, env.cd.ffmt (q x) = env.cd.ffmt x)
    (r r' : NA2110 F) (hx : r'.X = r.X.map (fun x => (q x.1, x.2.map q))) (ha : r'.A = r.A.map (fun col => col.map q))
    (hv : r'.V = r.V.map (fun vn => vn.map (fun l => l.map q))) :
    dataLines2110 env r' = dataLines2110 env r := by
  unfold dataLines2110
  rw [hx, ha, hv]
  apply mapIdx_map_of
  intro m x
  rw [rowAt_map, rowAt_map, rowText_cons hq, raggedVals_map, List.map_map]
  congr 1
  apply List.map_congr_left
  intro row _
  exact rowText_map hq row

theorem dataLines2310_round {env : Env F} {q : F → F} (hq : ∀ x, env.cd.ffmt (q x) = env.cd.ffmt x)
    (r r' : NA2110 F) (hx : r'.X = r.X.map (fun x => (q x.1, x.2.map q))) (ha : r'.A = r.A.map (fun col => col.map q))
    (hv : r'.V = r.V.map (fun vn => vn.map (fun l => l.map q))) (hn : r'.NX = r.NX) :
    dataLines2310 env r' = dataLines2310 env r := by
  unfold dataLines2310
  rw [hx, ha, hv, hn]
  apply mapIdx_map_of
  intro m x
  rw [rowAt_map, rowAt_map, rowText_cons hq, implVals_map, rowText_map hq]

theorem dataLines2160_round {env : Env F} {q : F → F} (hq : ∀ x, env.cd.ffmt (q x) = env.cd.ffmt x)
    (r r' : NA2160 F) (N : List (List F)) (T : List (List Str)) (hx : r'.X = r.X.map (fun x => (x.1, x.2.map q)))
    (hv : r'.V = r.V.map (fun vn => vn.map (fun l => l.map q))) :
    dataLines2160 env r' (N.map (fun col => col.map q)) T = dataLines2160 env r N T := by
  unfold dataLines2160
  rw [hx, hv]
  apply mapIdx_map_of
  intro m x
  rw [rowAt_map, rowAt_map, rowText_map hq, raggedVals_map, List.map_map]
  congr 3
  apply List.map_congr_left
  intro row _
  exact rowText_map hq row

/-! ### Well-formedness -/

theorem wfCommon_nlhead {c : Common} (h : WfCommon c) (n : Int) : WfCommon { c with NLHEAD := n } := by
  constructor
  all_goals first | exact h.oname | exact h.org | exact h.sname | exact h.mname | exact h.date | exact h.rdate

theorem counts_round {cd : Codec F} {q : F → F} (hi : ∀ x, q (q x) = q x) {A : List (List F)} {NX : List Int}
    (h : (A.head?).map (fun a => a.map (fun a => cd.trunc (q a))) = some (NX.map some)) :
    ((A.map (fun col => col.map q)).head?).map (fun a => a.map (fun a => cd.trunc (q a))) = some (NX.map some) := by
  rw [← h]
  cases A with
  | nil => rfl
  | cons a as => simp [hi]

theorem wf2160_round {cd : Codec F} {q : F → F} (hi : ∀ x, q (q x) = q x) (n : Int) {r : NA2160 F}
    {N : List (List F)} {T : List (List Str)} (h : Wf2160 (fun a => cd.trunc (q a)) r N T) :
    Wf2160 (fun a => cd.trunc (q a))
      { r with com := trimCom r.com, c := { r.c with NLHEAD := n }, X := r.X.map (fun x => (x.1, x.2.map q)),
               A := r.A.map (fun col => col.map (mapCell q)), V := r.V.map (fun vn => vn.map (fun l => l.map q)) }
      (N.map (fun col => col.map q)) T := by
  refine { h with
      common := wfCommon_nlhead h.common n, com := wfCom_trim h.com, marks := ?_, words := ?_, aux_data := ?_
      num_data := rect_map q h.num_data (by simp), text_data := by simpa using h.text_data
      counts := counts_round hi h.counts, data := ragged_map q h.data }
  · rw [← h.marks]; simp
  · intro x hx
    obtain ⟨x0, h0, rfl⟩ := List.mem_map.1 hx
    exact h.words x0 h0
  · show List.map (fun col => List.map (mapCell q) col) r.A = _
    rw [h.aux_data]
    simp [List.map_map, Function.comp_def, mapCell]

/-- For some formats the object read is well-formed whatever the rounding. -/
theorem wf1001_readForm (q : F → F) (n : Int) {r : NA1001 F} (h : Wf1001 r) :
    ∃ r', readForm q n (.o1001 r) = .o1001 r' ∧ Wf1001 r' :=
  ⟨_, rfl, { h with common := wfCommon_nlhead h.common n, com := wfCom_trim h.com, data := rect_map q h.data (by simp) }⟩

theorem wf2010_readForm (q : F → F) (n : Int) {r : NA2010 F} (h : Wf2010 r) :
    ∃ r', readForm q n (.o2010 r) = .o2010 r' ∧ Wf2010 r' ∧ r'.NXDEF = r.NXDEF := by
  refine ⟨_, rfl, { h with common := wfCommon_nlhead h.common n, com := wfCom_trim h.com
                           axes := ?_, aux_data := rect_map q h.aux_data (by simp)
                           data := rect_map _ h.data (by simp), shape := ?_ }, rfl⟩
  · rw [← h.axes]; simp
  · intro col hc t ht
    obtain ⟨c0, h0, rfl⟩ := List.mem_map.1 hc
    obtain ⟨t0, h1, rfl⟩ := List.mem_map.1 ht
    exact shaped_mapTree q _ _ (h.shape c0 h0 t0 h1)

theorem faithful_readForm {cd : Codec F} {q : F → F} (hi : ∀ x, q (q x) = q x) (n : Int) {o : Obj F}
    (h : Faithful cd q o) : Faithful cd q (readForm q n o) := by
  cases o with
  | o1001 r =>
    obtain ⟨r', e, w⟩ := wf1001_readForm q n h
    rw [e]
    exact w
  | o1010 r =>
    exact { h with common := wfCommon_nlhead h.common n, com := wfCom_trim h.com
                   aux_data := rect_map q h.aux_data (by simp), data := rect_map q h.data (by simp) }
  | o1020 r =>
    exact { h with common := wfCommon_nlhead h.common n, com := wfCom_trim h.com
                   aux_data := rect_map q h.aux_data (by simp), data := rect_map q h.data (by simp) }
  | o2010 r =>
    obtain ⟨r', e, w, hx⟩ := wf2010_readForm q n h.1
    rw [e]
    exact ⟨w, by rw [hx]; exact h.2⟩
  | o2110 r =>
    refine { h with common := wfCommon_nlhead h.common n, com := wfCom_trim h.com
                    marks := ?_, aux_data := rect_map q h.aux_data (by simp), counts := counts_round hi h.counts
                    data := ragged_map q h.data }
    · rw [← h.marks]; simp
  | o2310 r =>
    obtain ⟨h, hp⟩ := h
    refine ⟨{ h with common := wfCommon_nlhead h.common n, com := wfCom_trim h.com
                     aux_data := rect_map q h.aux_data (by simp), aux3 := ?_, data := ragged_map q h.data }, hp⟩
    obtain ⟨a0, a1, a2, as, hA, h0, h1, d0, ds, hd, h2⟩ := h.aux3
    refine ⟨a0.map q, a1.map q, a2.map q, as.map (fun c => c.map q), by simp [hA], ?_, ?_, d0, ds, hd, ?_⟩
    · rw [← h0]; simp [hi]
    · have := congrArg (List.map (List.map q)) h1
      simpa [List.map_map, Function.comp_def] using this
    · rw [← h2]; simp [hi]
  | o2160 r =>
    obtain ⟨N, T, h⟩ := h
    exact ⟨N.map (fun col => col.map q), T, wf2160_round hi n h⟩

theorem faithful_trim {cd : Codec F} {q : F → F} {o : Obj F} (h : Faithful cd q o) :
    Faithful cd q (trimComments o) := by
  cases o with
  | o1001 r => exact { h with com := wfCom_trim h.com }
  | o1010 r => exact { h with com := wfCom_trim h.com }
  | o1020 r => exact { h with com := wfCom_trim h.com }
  | o2010 r => exact ⟨{ h.1 with com := wfCom_trim h.1.com }, h.2⟩
  | o2110 r => exact { h with com := wfCom_trim h.com }
  | o2310 r => exact ⟨{ h.1 with com := wfCom_trim h.1.com }, h.2⟩
  | o2160 r =>
    obtain ⟨N, T, h⟩ := h
    exact ⟨N, T, { h with com := wfCom_trim h.com }⟩

/-! ### The text of a copy -/

theorem axesLines_round {env : Env F} {q : F → F} (hq : ∀ x, env.cd.ffmt (q x) = env.cd.ffmt x) (XB : List (List F)) :
    axesLines env (XB.map (fun x => x.map q)) = axesLines env XB := by
  unfold axesLines
  rw [← List.map_reverse, List.map_map]
  apply List.map_congr_left
  intro x _
  simp only [Function.comp, axisRow, rowText_map hq]

/-- The object read back is written like the first one with its comments trimmed. -/
theorem write_readForm {env : Env F} {q : F → F} (hcd : env.cd.Lawful q) (hann : env.ann = none)
    (hd : WsDelim env.delim) (hq : ∀ x, env.cd.ffmt (q x) = env.cd.ffmt x) (n : Int) {o : Obj F}
    (h : Faithful env.cd q o) :
    ((readForm q n o).write env false).2 = ((trimComments o).write env false).2 := by
  have h1 := faithful_readForm (round_idem hcd hq) n h
  have h2 := faithful_trim h
  cases o with
  | o1001 r =>
    dsimp only [readForm, trimComments, mapValues, withNLHEAD, Faithful, Obj.write] at h1 h2 ⊢
    rw [write1001_text hcd hann hd h1, write1001_text hcd hann hd h2]
    rw [dataLines1001_round hq { r with com := trimCom r.com } _ rfl rfl]
    rfl
  | o1010 r =>
    dsimp only [readForm, trimComments, mapValues, withNLHEAD, Faithful, Obj.write] at h1 h2 ⊢
    rw [write1010_text hcd hann hd h1, write1010_text hcd hann hd h2]
    rw [dataLines1010_round hq { r with com := trimCom r.com } _ rfl rfl rfl]
    rfl
  | o1020 r =>
    dsimp only [readForm, trimComments, mapValues, withNLHEAD, Faithful, Obj.write] at h1 h2 ⊢
    rw [write1020_text hcd hann hd h1, write1020_text hcd hann hd h2]
    rw [dataLines1020_round hq { r with com := trimCom r.com }
      { r with
        com := trimCom r.com, c := { r.c with NLHEAD := n }, X := r.X.map q, A := r.A.map (fun col => col.map q),
        V := r.V.map (fun col => col.map q) } rfl rfl rfl rfl]
    rfl
  | o2010 r =>
    dsimp only [readForm, trimComments, mapValues, withNLHEAD, Faithful, Obj.write] at h1 h2 ⊢
    rw [write2010_text hcd hann hd h1.1, write2010_text hcd hann hd h2.1]
    rw [dataLines2010_round hq { r with com := trimCom r.com }
      { r with
        com := trimCom r.com, c := { r.c with NLHEAD := n }, X0 := r.X0.map q,
        XB := r.XB.map (fun x => x.map q), A := r.A.map (fun col => col.map q),
        V := r.V.map (fun col => col.map (mapTree q)) } rfl rfl rfl rfl]
    simp only [hdrLines2010, axesLines_round hq]
    rfl
  | o2110 r =>
    dsimp only [readForm, trimComments, mapValues, withNLHEAD, Faithful, Obj.write] at h1 h2 ⊢
    rw [write2110_text hcd hann hd h1, write2110_text hcd hann hd h2]
    rw [dataLines2110_round hq { r with com := trimCom r.com } _ rfl rfl rfl]
    rfl
  | o2310 r =>
    dsimp only [readForm, trimComments, mapValues, withNLHEAD, Faithful, Obj.write] at h1 h2 ⊢
    obtain ⟨_, _, _, _, _, _, _, d0, ds, hdx, _⟩ := h2.1.aux3
    rw [write2310_text hcd hann hd h1.1 d0 ds hdx, write2310_text hcd hann hd h2.1 d0 ds hdx]
    rw [dataLines2310_round hq { r with com := trimCom r.com }
      { r with
        com := trimCom r.com, c := { r.c with NLHEAD := n }, X := r.X.map (fun x => (q x.1, x.2.map q)),
        A := r.A.map (fun col => col.map q), V := r.V.map (fun vn => vn.map (fun l => l.map q)) } rfl rfl rfl rfl]
    rfl
  | o2160 r =>
    obtain ⟨N, T, h⟩ := h
    have h1 : Wf2160 (fun a => env.cd.trunc (q a)) _ (N.map (fun col => col.map q)) T := wf2160_round (round_idem hcd hq) n h
    have h2 : Wf2160 (fun a => env.cd.trunc (q a)) { r with com := trimCom r.com } N T :=
      { h with com := wfCom_trim h.com }
    dsimp only [readForm, trimComments, mapValues, withNLHEAD, Obj.write]
    rw [write2160_text hcd hann hd h1, write2160_text hcd hann hd h2]
    rw [dataLines2160_round hq { r with com := trimCom r.com } _ N T rfl rfl]
    rfl

/-! ### Reading back through `openNAFile` -/

theorem faithful_class {cd : Codec F} {q : F → F} {o : Obj F} (h : Faithful cd q o) : o.FFI ∈ o.classFFIs := by
  cases o with
  | o1001 r => simp [Obj.FFI, Obj.common, Obj.classFFIs, h.ffi]
  | o1010 r => simp [Obj.FFI, Obj.common, Obj.classFFIs, h.ffi]
  | o1020 r => simp [Obj.FFI, Obj.common, Obj.classFFIs, h.ffi]
  | o2010 r => rcases h.1.ffi with e | e | e <;> simp [Obj.FFI, Obj.common, Obj.classFFIs, e.1]
  | o2110 r => simp [Obj.FFI, Obj.common, Obj.classFFIs, h.ffi]
  | o2310 r => simp [Obj.FFI, Obj.common, Obj.classFFIs, h.1.ffi]
  | o2160 r => obtain ⟨_, _, h⟩ := h; simp [Obj.FFI, Obj.common, Obj.classFFIs, h.ffi]

theorem readFile_written {env : Env F} {q : F → F} (hcd : env.cd.Lawful q) (hann : env.ann = none)
    (hd : WsDelim env.delim) {o : Obj F} (h : Faithful env.cd q o) :
    (o.write env false).2.err = none ∧
    ∃ n, readFile env.cd o.ignored.length (o.write env false).2.text = .ok (readForm q n o) := by
  have hign : ∀ l ∈ o.ignored, NoBreak l := by
    cases o with
    | o2160 r =>
      obtain ⟨_, _, h⟩ := h
      intro l hl
      have := (h.ignored l hl).1
      have := plain_oneLine this
      exact ⟨this.1, this.2⟩
    | _ => intro l hl; cases hl
  have hdisp := C14_dispatch env.cd o.ignored.length (o.write env false).2.text
  cases o with
  | o1001 r =>
    obtain ⟨he, hr⟩ := C06_roundtrip_1001 hcd hann hd h
    have hf := C14_ffi hann hd (.o1001 r) he hign
    have hx := hdisp.1 (by rw [hf]; exact congrArg _ h.ffi)
    erw [hr] at hx
    exact ⟨he, _, hx⟩
  | o1010 r =>
    obtain ⟨he, hr⟩ := C07_roundtrip_1010 hcd hann hd h
    have hf := C14_ffi hann hd (.o1010 r) he hign
    have hx := hdisp.2.1 (by rw [hf]; exact congrArg _ h.ffi)
    erw [hr] at hx
    exact ⟨he, _, hx⟩
  | o1020 r =>
    obtain ⟨he, hr⟩ := C08_roundtrip_1020 hcd hann hd h
    have hf := C14_ffi hann hd (.o1020 r) he hign
    have hx := hdisp.2.2.1 (by rw [hf]; exact congrArg _ h.ffi)
    erw [hr] at hx
    exact ⟨he, _, hx⟩
  | o2010 r =>
    obtain ⟨he, hr⟩ := C09_roundtrip_partial hcd hann hd h.1 h.2
    have hf := C14_ffi hann hd (.o2010 r) he hign
    have hx := hdisp.2.2.2.1 r.c.FFI (by rcases h.1.ffi with e | e | e <;> simp [e.1]) hf
    erw [hr] at hx
    exact ⟨he, _, hx⟩
  | o2110 r =>
    obtain ⟨he, hr⟩ := C10_roundtrip_2110 hcd hann hd h
    have hf := C14_ffi hann hd (.o2110 r) he hign
    have hx := hdisp.2.2.2.2.1 (by rw [hf]; exact congrArg _ h.ffi)
    erw [hr] at hx
    exact ⟨he, _, hx⟩
  | o2160 r =>
    obtain ⟨N, T, h⟩ := h
    obtain ⟨he, hr⟩ := C11_roundtrip_2160_partial hcd hann hd h
    have hf := C14_ffi hann hd (.o2160 r) he hign
    have e : r.A.map (fun col => col.map (mapCell q)) = N.map (fun col => col.map (fun x => Cell.num (q x)))
                     ++ T.map (fun col => col.map Cell.str) := by
      rw [h.aux_data]
      simp [List.map_map, Function.comp_def, mapCell]
    rw [← e] at hr
    have hx := hdisp.2.2.2.2.2.1 (by rw [hf]; exact congrArg _ h.ffi)
    erw [hr] at hx
    exact ⟨he, _, hx⟩
  | o2310 r =>
    obtain ⟨he, hr⟩ := C12_roundtrip_2310_partial hcd hann hd h.1 h.2
    have hf := C14_ffi hann hd (.o2310 r) he hign
    have hx := hdisp.2.2.2.2.2.2 (by rw [hf]; exact congrArg _ h.1.ffi)
    erw [hr] at hx
    exact ⟨he, _, hx⟩

/-! ### The dictionary of the caller after a write -/

theorem updateAll_get {α : Type} (l d : Dict α) (k : String) (hn : (l.map Prod.fst).Nodup) :
    dictGet? (l.foldl (fun d kv => dictSet d kv.1 kv.2) d) k = (dictGet? l k).or (dictGet? d k) := by
  induction l generalizing d with
  | nil => simp [dictGet?]
  | cons a t ih =>
    rw [List.map_cons, List.nodup_cons] at hn
    rw [List.foldl_cons, ih _ hn.2, dictGet?_set]
    obtain ⟨k', v⟩ := a
    simp only [dictGet?]
    by_cases h : k' = k
    · subst h
      have : dictGet? t k' = none := by
        cases e : dictGet? t k' with
        | none => rfl
        | some v => exact absurd (List.mem_map.2 ⟨(k', v), dictGet?_mem e, rfl⟩) hn.1
      simp [this]
    · simp [h, Ne.symm h]

theorem sameButTurned_attrs {o o' : Obj F} (h : SameButTurned o o') {kv : String × PyVal F}
    (hm : kv ∈ o'.attrs []) (hk : kv.1 ∉ ["XNAME", "DX", "NX"]) : kv ∈ o.attrs [] := by
  obtain ⟨k, v⟩ := kv
  simp only [List.mem_cons, List.not_mem_nil, or_false, not_or] at hk
  obtain ⟨h1, h2, h3⟩ := hk
  cases o <;> cases o' <;> simp only [SameButTurned] at h <;> first | exact h.elim | skip
  · subst h; exact hm
  · subst h; exact hm
  · subst h; exact hm
  · obtain ⟨dx, nx, _, _, rfl⟩ := h
    simp [Obj.attrs, h1, h2, h3] at hm ⊢
    exact hm
  · obtain ⟨dx, nx, _, _, rfl⟩ := h
    simp [Obj.attrs, attrs2110, h1, h2, h3] at hm ⊢
    exact hm
  · obtain ⟨dx, nx, _, _, rfl⟩ := h
    simp [Obj.attrs, h1, h2, h3] at hm ⊢
    exact hm
  · obtain ⟨xn, _, rfl⟩ := h
    simp [Obj.attrs, attrs2110, h1, h2, h3] at hm ⊢
    exact hm

theorem afterWrite_get (d : Dict (PyVal F)) (o : Obj F) (k : String) (hk : k ∉ ["XNAME", "DX", "NX"]) :
    dictGet? (afterWrite d o) k = dictGet? d k := by
  unfold afterWrite
  rw [updateAll_get _ _ _ (((List.filter_sublist).map _).nodup (attrs_nodup [] o))]
  cases e : dictGet? ((o.attrs []).filter (fun kv => decide (kv.1 ∈ ["XNAME", "DX", "NX"]))) k with
  | none => simp
  | some v =>
    have := (List.mem_filter.1 (dictGet?_mem e)).2
    exact absurd (of_decide_eq_true this) hk

theorem afterWrite_describes {d : Dict (PyVal F)} {o o' : Obj F} (h : Describes d o) (hs : SameButTurned o o') :
    Describes (afterWrite d o') o' := by
  intro kv hm hk
  by_cases hx : kv.1 ∈ ["XNAME", "DX", "NX"]
  · unfold afterWrite
    rw [updateAll_get _ _ _ (((List.filter_sublist).map _).nodup (attrs_nodup [] o'))]
    rw [dictGet?_nodup (v := kv.2) (((List.filter_sublist).map _).nodup (attrs_nodup [] o'))
      (List.mem_filter.2 ⟨hm, by simpa using hx⟩)]
    rfl
  · rw [afterWrite_get _ _ _ hx]
    exact h kv (sameButTurned_attrs hs hm hx) hk

theorem sameButTurned_tidy {o o' : Obj F} (h : SameButTurned o o') (ht : o.Tidy) : o'.Tidy := by
  cases o <;> cases o' <;> simp only [SameButTurned] at h <;> first | exact h.elim | skip
  · trivial
  · subst h; exact ht
  · subst h; exact ht
  · obtain ⟨_, _, _, _, rfl⟩ := h; exact ht
  · obtain ⟨_, _, _, _, rfl⟩ := h; exact ht
  · obtain ⟨_, _, _, _, rfl⟩ := h; exact ht
  · obtain ⟨_, _, rfl⟩ := h; exact ht

theorem wfAux_tidy {a : AuxHdr F} (h : WfAux a) : a.Tidy := by
  intro hn
  have h1 := h.nonneg
  have h2 := h.aname
  have h3 := h.ascal
  have h4 := h.amiss
  exact ⟨List.eq_nil_of_length_eq_zero (by omega), List.eq_nil_of_length_eq_zero (by omega),
    List.eq_nil_of_length_eq_zero (by omega)⟩

theorem faithful_tidy {cd : Codec F} {q : F → F} {o : Obj F} (h : Faithful cd q o) : o.Tidy := by
  cases o with
  | o1001 r => trivial
  | o1010 r => exact wfAux_tidy h.aux
  | o1020 r => exact wfAux_tidy h.aux
  | o2010 r => exact wfAux_tidy h.1.aux
  | o2110 r => exact wfAux_tidy h.aux
  | o2310 r => exact wfAux_tidy h.1.aux
  | o2160 r =>
    obtain ⟨_, _, h⟩ := h
    intro hn
    obtain ⟨k, ms, ss, ls, h1, h2, h3, h4, _⟩ := h.aux.nums
    omega

end Nappy
