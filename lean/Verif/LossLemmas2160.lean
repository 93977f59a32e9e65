import Verif.LossLemmas

/-! Which values of the data section of a 2160 file are kept. -/

namespace Nappy

open Spec

variable {F : Type}

/-- Some lines give some values: these are among what the lines can be read as, in order. -/
def GivesL (cd : Codec F) (ls : List Str) (new : List (Cell F)) : Prop :=
  ∃ toks, List.Forall₂ (LineReads cd) ls toks ∧ new.Sublist toks.flatten

theorem GivesL.append {cd : Codec F} {a b : List Str} {x y : List (Cell F)} (h1 : GivesL cd a x) (h2 : GivesL cd b y) :
    GivesL cd (a ++ b) (x ++ y) := by
  obtain ⟨u, hu, su⟩ := h1
  obtain ⟨v, hv, sv⟩ := h2
  exact ⟨u ++ v, List.rel_append hu hv, by rw [List.flatten_append]; exact su.append sv⟩

theorem givesL_nil (cd : Codec F) : GivesL cd [] [] := ⟨[], .nil, .refl _⟩

theorem mapRes_append_inv {α β : Type} {f : α → Res β} {a b : List α} {ys : List β}
    (h : mapRes f (a ++ b) = .ok ys) : ∃ u v, ys = u ++ v ∧ mapRes f a = .ok u ∧ mapRes f b = .ok v := by
  induction a generalizing ys with
  | nil => exact ⟨[], ys, rfl, rfl, h⟩
  | cons x a ih =>
    rw [List.cons_append] at h
    unfold mapRes at h
    obtain ⟨y, hy, h⟩ := ok_of_bind h
    obtain ⟨r, hr, h⟩ := ok_of_bind h
    injection h with h
    obtain ⟨u, v, e, hu, hv⟩ := ih hr
    refine ⟨y :: u, v, by rw [← h, e]; rfl, ?_, hv⟩
    unfold mapRes
    rw [hy, hu]
    rfl

theorem reads_numbers {cd : Codec F} {ls : List Str} {vals : List F} (h : mapRes cd.float (allItems ls) = .ok vals) :
    ∃ toks, List.Forall₂ (LineReads cd) ls toks ∧ toks.flatten = vals.map Cell.num := by
  induction ls generalizing vals with
  | nil => injection h with h; subst h; exact ⟨[], .nil, rfl⟩
  | cons l ls ih =>
    rw [allItems_cons] at h
    obtain ⟨u, v, e, hu, hv⟩ := mapRes_append_inv h
    obtain ⟨toks, k1, k2⟩ := ih hv
    refine ⟨u.map Cell.num :: toks, .cons (.numbers _ u ((lineWords_iff _ _).2 rfl) (mapRes_forall₂ hu)) k1, ?_⟩
    rw [List.flatten_cons, k2, e, List.map_append]

theorem Gives.lines {cd : Codec F} {ls : List Str} {new : List F} (h : Gives cd (allItems ls) new) :
    GivesL cd ls (new.map .num) := by
  obtain ⟨vals, h1, h2⟩ := h
  obtain ⟨toks, k1, k2⟩ := reads_numbers h1
  exact ⟨toks, k1, by rw [k2]; exact h2.map _⟩

theorem reads_words {cd : Codec F} (ls : List Str) : ∃ toks, List.Forall₂ (LineReads cd) ls toks ∧
    toks.flatten = (allItems ls).map Cell.str := by
  induction ls with
  | nil => exact ⟨[], .nil, rfl⟩
  | cons l ls ih =>
    obtain ⟨toks, k1, k2⟩ := ih
    exact ⟨(lineItems l).map Cell.str :: toks, .cons (.words _ ((lineWords_iff _ _).2 rfl)) k1, by simp [k2]⟩

theorem noQuotes_cases (s : Str) : noQuotes s = s ∨ (noQuotes s = [] ∧ '\x01' ∈ s) := by
  by_cases h : '\x01' ∈ s
  · cases s with
    | nil => exact .inl rfl
    | cons c r =>
      show (if _ then _ else _) = _ ∨ ((if _ then _ else _) = _ ∧ _)
      by_cases hc : (c = '"' ∨ c = '\'') ∧ r.getLast? = some '\x01' ∧ '\n' ∉ r
      · exact .inr ⟨if_pos hc, h⟩
      · exact .inl (if_neg hc)
  · exact .inl (noQuotes_id h)

theorem lineText_item (l : Str) : LineText l (readItem (rightStrip l)) := by
  refine ⟨_, _, (bare_iff _ _).2 rfl, (bare_iff _ _).2 rfl, ?_⟩
  obtain ⟨a, b, h1, h2, h3⟩ := strip_split (rightStrip (rightStrip l))
  have hsub : ∀ s : Str, ∃ suf, s = rightStrip s ++ suf := fun s => by
    rcases rightStrip_cases s with ⟨b, w, e, _⟩ | h
    · exact ⟨_, e⟩
    · exact ⟨[], by rw [h]; simp⟩
  unfold readItem
  rcases noQuotes_cases (strip (rightStrip (rightStrip l))) with e | ⟨e, hm⟩
  · rw [e]; exact .inl ⟨a, b, h1, h2, h3⟩
  · refine .inr ⟨e, ?_⟩
    obtain ⟨s1, e1⟩ := hsub l
    obtain ⟨s2, e2⟩ := hsub (rightStrip l)
    rw [e1, e2]
    simp [mem_strip _ _ hm]

theorem reads_texts {cd : Codec F} (ls : List Str) : ∃ toks, List.Forall₂ (LineReads cd) ls toks ∧
    toks.flatten = (readItemsFromLines ls).map Cell.str := by
  induction ls with
  | nil => exact ⟨[], .nil, rfl⟩
  | cons l ls ih =>
    obtain ⟨toks, k1, k2⟩ := ih
    exact ⟨[.str (readItem (rightStrip l))] :: toks, .cons (.text _ (lineText_item l)) k1, by
      rw [List.flatten_cons, k2]; rfl⟩

theorem checkBlank_gives {cd : Codec F} {b : Bool} {ls ls' : List Str} {new : List (Cell F)}
    (h : checkBlank b ls = .ok ls') (hg : GivesL cd ls' new) : GivesL cd ls new := by
  induction ls generalizing b ls' new with
  | nil => injection h with h; rw [h]; exact hg
  | cons l ls ih =>
    unfold checkBlank at h
    split at h
    · rename_i hb
      have h1 : GivesL cd [l] [] :=
        ⟨[[]], .cons (.words [] ((lineWords_iff _ _).2 (lineItems_blank hb))) .nil, .refl _⟩
      exact h1.append (ih h hg)
    · split at h
      · cases h
      · obtain ⟨rest, h1, h⟩ := ok_of_bind h
        injection h with h
        subst h
        obtain ⟨toks, k1, k2⟩ := hg
        cases k1 with
        | cons r1 r2 =>
          rename_i t ts
          obtain ⟨toks2, m1, m2⟩ := ih h1 ⟨ts, r2, .refl _⟩
          exact ⟨t :: toks2, .cons r1 m1, k2.trans (by rw [List.flatten_cons, List.flatten_cons]; exact (List.Sublist.refl _).append m2)⟩

/-- As `Keeps`, for values that may be texts. -/
def KeepsL {σ : Type} (cd : Codec F) (step : σ → List Str → Res (σ × List Str)) (I : σ → Prop)
    (held : σ → List (Cell F)) : Prop :=
  ∀ st ls st' ls', I st → step st ls = .ok (st', ls') → I st' ∧ ∃ pre new, ls = pre ++ ls' ∧
    held st' = held st ++ new ∧ GivesL cd pre new

theorem readLoop_keepsL {σ : Type} {cd : Codec F} {step : σ → List Str → Res (σ × List Str)}
    {I : σ → Prop} {held : σ → List (Cell F)} (hs : KeepsL cd step I held) {k : Nat} {st st' : σ}
    {ls : List Str} (h : readLoop step k st ls = .ok st') (hi : I st) :
    ∃ new, held st' = held st ++ new ∧ GivesL cd ls new := by
  induction k generalizing st ls with
  | zero =>
    cases ls with
    | nil => injection h with h; subst h; exact ⟨[], by simp, givesL_nil cd⟩
    | cons l ls => cases h
  | succ k ih =>
    cases ls with
    | nil => injection h with h; subst h; exact ⟨[], by simp, givesL_nil cd⟩
    | cons l ls =>
      unfold readLoop at h
      obtain ⟨⟨s1, l1⟩, h1, h⟩ := ok_of_bind h
      obtain ⟨i1, pre, new, e, hh, hg⟩ := hs _ _ _ _ hi h1
      obtain ⟨new2, hh2, hg2⟩ := ih h i1
      refine ⟨new ++ new2, by rw [hh2, hh, List.append_assoc], ?_⟩
      rw [e]
      exact hg.append hg2

def held2160 (st : Arr2160 F) : List (Cell F) :=
  (st.X.mapIdx fun m x => .str x.1 :: (atMark st.A m ++ (points x.2 (atMark st.V m)).map .num)).flatten

theorem idx_mem2160 {α : Type} {l : List α} {i : Nat} {a : α} (h : idx l i = .ok a) : a ∈ l := by
  unfold idx at h
  split at h
  · rename_i b hb
    injection h with h
    exact h ▸ List.mem_of_getElem? hb
  · cases h

theorem atMark_append {α : Type} (a b : List (List α)) (m : Nat) : atMark (a ++ b) m = atMark a m ++ atMark b m := by
  unfold atMark; rw [List.filterMap_append]

theorem keeps_2160 (cd : Codec F) (na nc nv : Int) :
    KeepsL cd (step2160 cd na nc nv) (Inv2160 na nv) held2160 := by
  intro st ls st' ls' hi hs
  refine ⟨inv_2160 hi hs, ?_⟩
  unfold step2160 at hs
  obtain ⟨⟨st1, nx, x, ls1⟩, hd, hs⟩ := ok_of_bind hs
  unfold data1_2160 at hd
  obtain ⟨⟨x1, rest⟩, hx, hd⟩ := ok_of_bind hd
  obtain ⟨x', hx', hd⟩ := ok_of_bind hd
  obtain ⟨⟨aux, rest2⟩, hu, hd⟩ := ok_of_bind hd
  obtain ⟨a0, _, hd⟩ := ok_of_bind hd
  obtain ⟨nx', _, hd⟩ := ok_of_bind hd
  obtain ⟨ncs, hn, hd⟩ := ok_of_bind hd
  obtain ⟨cc, hc, hd⟩ := ok_of_bind hd
  injection hd with hd
  obtain ⟨e1, hd⟩ := Prod.mk.inj hd
  obtain ⟨e2, hd⟩ := Prod.mk.inj hd
  obtain ⟨e3, e4⟩ := Prod.mk.inj hd
  subst e1 e2 e3 e4
  unfold data2_2160 at hs
  obtain ⟨⟨xs, cs, ls2⟩, hr, hs⟩ := ok_of_bind hs
  injection hs with hs
  obtain ⟨e6, e7⟩ := Prod.mk.inj hs
  subst e6 e7
  obtain ⟨i1, i2, i3, i4⟩ := hi
  obtain ⟨j1, j2⟩ := readRagged_shape hr (emptyCols_rect nv)
  obtain ⟨p4, new, f4, g4, hp⟩ := readRagged_gives hr (emptyCols_rect nv)
  have hlen : st.V.length = cs.length := by have := j2.1; omega
  have hX : st.X.length = st.NX.length := by simpa using congrArg List.length i2
  have hVl : ∀ vn ∈ st.V, vn.length = st.X.length := fun vn h => by
    rw [hX]; simpa using congrArg List.length (i4 vn h)
  have hsp := slice_split st.A (na - nc)
  have m1 : ∀ c ∈ sliceTo st.A (na - nc), c.length = st.X.length := fun c hc =>
    i1.2 c (by rw [← hsp]; exact List.mem_append_left _ hc)
  have m2 : ∀ c ∈ sliceFrom st.A (na - nc), c.length = st.X.length := fun c hc =>
    i1.2 c (by rw [← hsp]; exact List.mem_append_right _ hc)
  -- the mark
  obtain ⟨_, q1, l1, f1, _, _, _, hm1⟩ := (readUnk_ok_iff _ _ _ _ _ _).1 hx
  have hm1' : x1 = allItems (q1 ++ [l1]) := by
    have : ∀ l : List Str, mapRes (fun s => (.ok s : Res Str)) l = .ok l := by
      intro l; induction l with
      | nil => rfl
      | cons a l ih => unfold mapRes; rw [ih]; rfl
    rw [this] at hm1
    exact (Except.ok.inj hm1).symm
  have g1 : GivesL cd (q1 ++ [l1]) [Cell.str x'] := by
    obtain ⟨toks, k1, k2⟩ := reads_words (cd := cd) (q1 ++ [l1])
    refine ⟨toks, k1, ?_⟩
    rw [k2, List.singleton_sublist]
    exact List.mem_map.2 ⟨x', by rw [← hm1']; exact idx_mem2160 hx', rfl⟩
  -- the numbers
  obtain ⟨p2, f2, _, hg2⟩ := readUnkList_gives hu
  have g2 := (hg2 (aux.take (sliceTo st.A (na - nc)).length) (List.take_sublist _ _)).lines
  -- the texts
  have g3 : GivesL cd (sliceTo rest2 nc)
      (((readItemsFromLines (sliceTo rest2 nc)).map Cell.str).take (sliceFrom st.A (na - nc)).length) := by
    obtain ⟨toks, k1, k2⟩ := reads_texts (cd := cd) (sliceTo rest2 nc)
    exact ⟨toks, k1, by rw [k2]; exact List.take_sublist _ _⟩
  have hg := (g1.append g2).append (g3.append g4.lines)
  refine ⟨_, _, ?_, ?_, hg⟩
  · rw [f1, f2]
    simp only [List.append_assoc, List.cons_append, List.nil_append]
    rw [← f4, slice_split]
  · unfold held2160
    dsimp only
    rw [marks_snoc st.X (x', xs) _ (fun m x => .str x.1 :: (atMark st.A m ++ (points x.2 (atMark st.V m)).map .num))]
    · rw [atMark_append, atMark_append_new hn m1, atMark_append_new hc m2, atMark_zip_new hlen hVl, hp]
      simp [points, List.map_take]
    · intro m y hm
      rw [atMark_append, atMark_append_old hn m1 hm, atMark_append_old hc m2 hm, atMark_zip_old hlen hVl hm,
        ← atMark_append, hsp]

theorem readData_gives_2160 {cd : Codec F} {text : Str} {r r' : NA2160 F}
    (h : readData2160 cd text r = .ok r') : GivesL cd (dataLines text (.o2160 r)) (heldCells r') := by
  unfold readData2160 at h
  obtain ⟨a, h1, h⟩ := ok_of_bind h
  injection h with h
  subst h
  unfold readDataWith at h1
  obtain ⟨ls, hb, h1⟩ := ok_of_bind h1
  obtain ⟨new, hh, hg⟩ := readLoop_keepsL (keeps_2160 cd _ _ _) h1
    ⟨emptyCols_rect _, rfl, by simp [emptyCols], by simp [emptyCols]⟩
  refine checkBlank_gives hb ?_
  rw [show heldCells { r with NX := a.NX, X := a.X, A := a.A, V := a.V } = held2160 a from rfl, hh]
  exact hg

end Nappy
