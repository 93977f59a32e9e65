import Verif.WriteSpec
import Verif.RT2160
import Verif.RT2310
import Verif.RT2010
import Verif.RT1001
import Verif.UtilLemmas
import Verif.Spec.Rows

/-! The data section as rows of cells. -/

namespace Nappy

open Nappy.Spec

variable {F : Type}

/-- A data line made of cells with a separator after each, trimmed at the end; or a single cell alone. -/
def IsRow (d line : Str) (cs : List Str) : Prop :=
  line = rstripSC (concat (cs.map (· ++ d))) ∨ ∃ c, cs = [c] ∧ line = rstripSC c

theorem plainCell_last {c : Str} (h : PlainCell c) : c.getLast? ≠ some ' ' ∧ c.getLast? ≠ some ',' := by
  constructor
  · intro hc
    exact absurd (h.2 _ (List.mem_of_mem_getLast? hc)).2 (by decide)
  · intro hc
    exact absurd (h.2 _ (List.mem_of_mem_getLast? hc)).1 (by decide)

theorem concat_comma (cs : List Str) (hne : cs ≠ []) :
    concat (cs.map (· ++ [','])) = join [','] cs ++ [','] := by
  induction cs with
  | nil => exact absurd rfl hne
  | cons c t ih =>
    cases t with
    | nil => simp [concat, join]
    | cons b t =>
      rw [List.map_cons, concat_cons, ih (by simp)]
      simp [join]

theorem join_last (d : Str) (cs : List Str) (hne : cs ≠ []) (h : ∀ c ∈ cs, c ≠ []) :
    (join d cs).getLast? = (cs.getLast hne).getLast? ∧ join d cs ≠ [] := by
  induction cs with
  | nil => exact absurd rfl hne
  | cons c t ih =>
    cases t with
    | nil => simp [join]; exact h c (by simp)
    | cons b t =>
      have h2 := ih (by simp) (fun x hx => h x (by simp [hx]))
      rw [join]
      constructor
      · rw [List.getLast?_append, h2.1, List.getLast_cons (List.cons_ne_nil b t)]
        cases hh : ((b :: t).getLast (List.cons_ne_nil b t)).getLast? with
        | none =>
          exact absurd (List.getLast?_eq_none_iff.1 hh) (h _ (List.mem_cons_of_mem _ (List.getLast_mem _)))
        | some x => rfl
      · intro e
        exact h c (by simp) (List.append_eq_nil_iff.1 (List.append_eq_nil_iff.1 e).1).1

theorem rstripSC_comma {s : Str} (h1 : s.getLast? ≠ some ' ') (h2 : s.getLast? ≠ some ',') :
    rstripSC (s ++ [',']) = s := by
  have := rstripSC_self h1 h2
  unfold rstripSC rstripP at *
  simpa [List.dropWhile] using this

theorem isRow_comma {line : Str} {cs : List Str} (h : IsRow [','] line cs) (hne : cs ≠ [])
    (hc : ∀ c ∈ cs, PlainCell c) : splitComma line = cs := by
  have hj : line = join [','] cs := by
    rcases h with h | ⟨c, rfl, h⟩
    · have hl := join_last [','] cs hne (fun c h => (hc c h).1)
      have hp := plainCell_last (hc _ (List.getLast_mem hne))
      rw [h, concat_comma cs hne, rstripSC_comma (by rw [hl.1]; exact hp.1) (by rw [hl.1]; exact hp.2)]
    · have hp := plainCell_last (hc c (by simp))
      rw [h, rstripSC_self hp.1 hp.2]; simp [join]
  rw [hj]
  exact splitComma_join cs hne (fun c h hm => ((hc c h).2 _ hm).1 rfl)

theorem isRow_words {d line : Str} {cs : List Str} (hd : WsDelim d) (h : IsRow d line cs)
    (hc : ∀ c ∈ cs, PlainCell c) : words line = cs := by
  rcases h with h | ⟨c, rfl, h⟩
  · have hw : words (concat (cs.map (· ++ d))) = cs := by
      clear h
      induction cs with
      | nil => rfl
      | cons c t ih =>
        have hp := hc c (by simp)
        rw [List.map_cons, concat_cons, List.append_assoc,
          words_sep _ _ _ hd.1 (fun x hx => (hd.2 x hx).1),
          words_token _ hp.1 (fun x hx => (hp.2 x hx).2), ih (fun x hx => hc x (by simp [hx]))]
        rfl
    have hn : ',' ∉ concat (cs.map (· ++ d)) := by
      intro hm
      simp only [concat, List.mem_flatten, List.mem_map] at hm
      obtain ⟨_, ⟨c, hcm, rfl⟩, hm⟩ := hm
      rcases List.mem_append.1 hm with hm | hm
      · exact ((hc c hcm).2 _ hm).1 rfl
      · exact (wsDelim_no_brace hd).2.2 hm
    have := words_rstripSC (concat (cs.map (· ++ d))) [] hn (by intro c hc; cases hc)
    rw [h, ← hw]; simpa [hw] using this
  · have hp := plainCell_last (hc c (by simp))
    rw [h, rstripSC_self hp.1 hp.2, words_token _ (hc c (by simp)).1 (fun x hx => ((hc c (by simp)).2 x hx).2)]

theorem rows_comma {csv : List Str} {rows : List (List Str)} (h : List.Forall₂ (IsRow [',']) csv rows)
    (hp : PlainRows rows) : csv.map splitComma = rows := by
  induction h with
  | nil => rfl
  | cons hr _ ih =>
    rw [List.map_cons, ih (fun row hm => hp row (by simp [hm])),
      isRow_comma hr (hp _ (by simp)).1 (hp _ (by simp)).2]

theorem rows_words {d : Str} (hd : WsDelim d) {na : List Str} {rows : List (List Str)}
    (h : List.Forall₂ (IsRow d) na rows) (hp : PlainRows rows) : na.map words = rows := by
  induction h with
  | nil => rfl
  | cons hr _ ih =>
    rw [List.map_cons, ih (fun row hm => hp row (by simp [hm])), isRow_words hd hr (hp _ (by simp)).2]

theorem isRow_rowText (env : Env F) (xs : List F) : IsRow env.delim (rowText env xs) (xs.map env.cd.ffmt) := by
  left
  simp only [rowText, List.map_map]
  rfl

/-- Line by line. -/
abbrev AreRows (d : Str) (lines : List Str) (rows : List (List Str)) : Prop := List.Forall₂ (IsRow d) lines rows

theorem areRows_append {d : Str} {l1 l2 : List Str} {r1 r2 : List (List Str)} (h1 : AreRows d l1 r1)
    (h2 : AreRows d l2 r2) : AreRows d (l1 ++ l2) (r1 ++ r2) := by
  induction h1 with
  | nil => exact h2
  | cons h _ ih => exact List.Forall₂.cons h ih

theorem areRows_map {α : Type} {d : Str} (l : List α) (f : α → Str) (g : α → List Str)
    (h : ∀ a ∈ l, IsRow d (f a) (g a)) : AreRows d (l.map f) (l.map g) := by
  induction l with
  | nil => exact List.Forall₂.nil
  | cons a t ih => exact List.Forall₂.cons (h a (by simp)) (ih (fun b hb => h b (by simp [hb])))

theorem areRows_rowTexts (env : Env F) (xss : List (List F)) :
    AreRows env.delim (xss.map (rowText env)) (xss.map (List.map env.cd.ffmt)) :=
  areRows_map _ _ _ (fun xs _ => isRow_rowText env xs)

theorem areRows_blocks {α : Type} {d : Str} (l : List α) (f : Nat → α → List Str) (g : Nat → α → List (List Str))
    (h : ∀ m (hm : m < l.length), AreRows d (f m l[m]) (g m l[m])) :
    AreRows d (l.mapIdx f).flatten (l.mapIdx g).flatten := by
  induction l generalizing f g with
  | nil => exact List.Forall₂.nil
  | cons a t ih =>
    rw [List.mapIdx_cons, List.mapIdx_cons, List.flatten_cons, List.flatten_cons]
    refine areRows_append (h 0 (by simp)) (ih _ _ (fun m hm => ?_))
    exact h (m + 1) (by simpa using hm)

theorem innerRows_rowsOf (dims : List Nat) (t : Tree F) :
    innerRows (dims.length - 1) t = rowsOf dims t := by
  induction dims generalizing t with
  | nil => cases t <;> simp [innerRows, rowsOf]
  | cons d ds ih =>
    cases ds with
    | nil => cases t <;> simp [innerRows, rowsOf]
    | cons d2 ds =>
      cases t with
      | val x => simp [innerRows, rowsOf]
      | lst l =>
        have e : (d :: d2 :: ds).length - 1 = ((d2 :: ds).length - 1) + 1 := by simp
        rw [e, innerRows, rowsOf]
        congr 1
        apply List.map_congr_left
        intro t _
        exact ih t

theorem atMark_rowAt {α : Type} (cols : List (List α)) (m : Nat) : atMark cols m = rowAt cols m := rfl

theorem raggedVals_mapIdx {β : Type} (xs : List F) (cols : List (List F)) (f : List F → β) :
    (raggedVals xs cols).map f = xs.mapIdx (fun p y => f (y :: rowAt cols p)) := by
  rw [raggedVals]
  apply List.ext_getElem
  · simp
  · intro i h1 h2; simp

theorem cells_at (N : List (List F)) (T : List (List Str)) (m : Nat) :
    cellNums (atMark (N.map (fun col => col.map Cell.num) ++ T.map (fun col => col.map Cell.str)) m) = rowAt N m ∧
    cellStrs (atMark (N.map (fun col => col.map (Cell.num (F := F))) ++ T.map (fun col => col.map Cell.str)) m)
      = rowAt T m := by
  constructor
  · simp only [cellNums, atMark, rowAt, List.filterMap_append, List.filterMap_map, List.filterMap_filterMap]
    rw [← List.append_nil (List.filterMap (fun col => col[m]?) N)]
    congr 1
    · congr 1; funext col; simp only [Function.comp, List.getElem?_map]; cases col[m]? <;> rfl
    · rw [List.filterMap_eq_nil_iff]; intro col _
      simp only [Function.comp, List.getElem?_map]; cases col[m]? <;> rfl
  · simp only [cellStrs, atMark, rowAt, List.filterMap_append, List.filterMap_map, List.filterMap_filterMap]
    rw [← List.nil_append (List.filterMap (fun col => col[m]?) T)]
    congr 1
    · rw [List.filterMap_eq_nil_iff]; intro col _
      simp only [Function.comp, List.getElem?_map]; cases col[m]? <;> rfl
    · congr 1; funext col; simp only [Function.comp, List.getElem?_map]; cases col[m]? <;> rfl

/-- The data section is, line by line, the rows of cells. -/
theorem rows_cells {env : Env F} (hann : env.ann = none) {count : F → Option Int} {incr : F → Option F} {o : Obj F}
    (h : WellFormed count incr o) :
    ∃ lines, o.rows env = (nl lines).map .ok ∧ AreRows env.delim lines (cellRows env.cd.ffmt o) := by
  cases o with
  | o1001 r =>
    have h : Wf1001 r := h
    refine ⟨_, rows1001_eq hann h.data, ?_⟩
    have := areRows_blocks (d := env.delim) r.X (fun m x => [rowText env (x :: rowAt r.V m)])
      (fun m x => [(x :: atMark r.V m).map env.cd.ffmt])
      (fun m hm => List.Forall₂.cons (isRow_rowText _ _) List.Forall₂.nil)
    have e : ∀ (l : List F) (g : Nat → F → List Str), (l.mapIdx (fun m x => [g m x])).flatten = l.mapIdx g := by
      intro l
      induction l with
      | nil => intro g; rfl
      | cons a t ih => intro g; simp only [List.mapIdx_cons, List.flatten_cons]; rw [ih (fun i => g (i + 1))]; rfl
    rw [e] at this
    exact this
  | o1010 r =>
    have h : Wf1010 r := h
    refine ⟨_, rows1010_eq hann h.aux_data h.data, ?_⟩
    exact areRows_blocks _ _ _ (fun m hm =>
      .cons (isRow_rowText _ _) (.cons (isRow_rowText _ _) .nil))
  | o1020 r =>
    have h : Wf1020 r := h
    refine ⟨_, rows1020_eq hann h.aux_data h.data, ?_⟩
    exact areRows_blocks _ _ _ (fun m hm =>
      .cons (isRow_rowText _ _) (areRows_map _ _ _ (fun _ _ => isRow_rowText _ _)))
  | o2010 r =>
    have h : Wf2010 r := h
    refine ⟨_, rows2010_eq hann h, ?_⟩
    refine areRows_blocks _ _ _ (fun m hm => .cons (isRow_rowText _ _) ?_)
    have := areRows_rowTexts env (treeRows (r.NX.map Int.toNat) r.V m)
    convert this using 1
    rw [treeRows, List.map_flatten, List.map_map]
    congr 1
    apply List.map_congr_left
    intro t _
    have := innerRows_rowsOf (r.NX.map Int.toNat) t
    rw [List.length_map] at this
    rw [this]; rfl
  | o2110 r =>
    have h : Wf2110 count r := h
    refine ⟨_, rows2110_eq hann h, ?_⟩
    refine areRows_blocks _ _ _ (fun m hm => .cons (isRow_rowText _ _) ?_)
    have := areRows_rowTexts env (raggedVals r.X[m].2 (rowAt r.V m))
    rw [raggedVals_mapIdx _ _ (List.map env.cd.ffmt)] at this
    exact this
  | o2160 r =>
    obtain ⟨N, T, h⟩ : ∃ N T, Wf2160 count r N T := h
    refine ⟨_, rows2160_eq hann h, ?_⟩
    refine areRows_blocks _ _ _ (fun m hm => .cons (Or.inr ⟨_, rfl, ?_⟩) ?_)
    · exact (plainWord_last (h.words _ (List.getElem_mem hm))).symm
    · rw [h.aux_data, (cells_at N T m).1, (cells_at N T m).2]
      refine .cons (isRow_rowText _ _) (areRows_append (areRows_map _ _ _ (fun s _ => Or.inl ?_)) ?_)
      · simp [textLine, concat]
      · have := areRows_rowTexts env (raggedVals r.X[m].2 (rowAt r.V m))
        rw [raggedVals_mapIdx _ _ (List.map env.cd.ffmt)] at this
        exact this
  | o2310 r =>
    have h : Wf2310 count incr r := h
    refine ⟨_, rows2310_eq hann h, ?_⟩
    exact areRows_blocks _ _ _ (fun m hm =>
      .cons (isRow_rowText _ _) (.cons (isRow_rowText _ _) .nil))

/-- Without a header the text is that of the rows. -/
theorem write_rows (env : Env F) (o : Obj F) :
    ((forNoHeader o).write env true).2 = Out.ofRows (o.rows env) := by
  cases o with
  | o2010 r =>
    simp [forNoHeader, Obj.write, write2010, Obj.rows]
  | _ => rfl

end Nappy
