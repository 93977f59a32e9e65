import Verif.ShapeLemmas

/-! Lemmas about which values of the data section are kept. -/

namespace Nappy

open Spec

variable {F : Type}

/-- Some words give some values: the words can be converted, and the values are among the results, in
order. -/
def Gives (cd : Codec F) (ws : List Str) (new : List F) : Prop :=
  ∃ vals, mapRes cd.float ws = .ok vals ∧ new.Sublist vals

theorem Gives.append {cd : Codec F} {a b : List Str} {x y : List F} (h1 : Gives cd a x)
    (h2 : Gives cd b y) : Gives cd (a ++ b) (x ++ y) := by
  obtain ⟨u, hu, su⟩ := h1
  obtain ⟨v, hv, sv⟩ := h2
  exact ⟨u ++ v, mapRes_append _ _ _ _ _ hu hv, su.append sv⟩

theorem mapRes_forall₂ {α β : Type} {f : α → Res β} {l : List α} {m : List β}
    (h : mapRes f l = .ok m) : List.Forall₂ (fun a b => f a = .ok b) l m := by
  induction l generalizing m with
  | nil => injection h with h; subst h; exact .nil
  | cons a l ih =>
    unfold mapRes at h
    obtain ⟨b, hb, h⟩ := ok_of_bind h
    obtain ⟨bs, hbs, h⟩ := ok_of_bind h
    injection h with h
    subst h
    exact .cons hb (ih hbs)

theorem gives_nil (cd : Codec F) : Gives cd [] [] := ⟨[], rfl, List.Sublist.refl _⟩

theorem readUnkList_gives {cd : Codec F} {n : Int} {ls rest : List Str} {vals : List F}
    (h : readUnkList n cd.float ls = .ok (vals, rest)) :
    ∃ pre, ls = pre ++ rest ∧ n.toNat ≤ vals.length ∧
      ∀ new, new.Sublist vals → Gives cd (allItems pre) new := by
  obtain ⟨hn, pre, l, e, _, h2, _, hm⟩ := (readUnk_ok_iff _ _ _ _ _ _).1 h
  refine ⟨pre ++ [l], by simp [e], ?_, fun new hs => ⟨vals, hm, hs⟩⟩
  rw [mapRes_ok_length _ _ _ hm]; omega

theorem atMark_append_old {α : Type} {cols cols' : List (List α)} {v : List α} {m n : Nat}
    (h : appendCols cols v = .ok cols') (hr : ∀ c ∈ cols, c.length = n) (hm : m < n) :
    atMark cols' m = atMark cols m := by
  induction cols generalizing v cols' with
  | nil => injection h with h; rw [← h]
  | cons c cs ih =>
    cases v with
    | nil => cases h
    | cons x v =>
      unfold appendCols at h
      obtain ⟨rest, h3, h⟩ := ok_of_bind h
      injection h with h
      subst h
      have := ih h3 fun c hc => hr c (by simp [hc])
      unfold atMark at this ⊢
      rw [List.filterMap_cons, List.filterMap_cons, this,
        List.getElem?_append_left (by rw [hr c (by simp)]; exact hm)]

theorem atMark_append_new {α : Type} {cols cols' : List (List α)} {v : List α} {n : Nat}
    (h : appendCols cols v = .ok cols') (hr : ∀ c ∈ cols, c.length = n) :
    atMark cols' n = v.take cols.length := by
  induction cols generalizing v cols' with
  | nil => injection h with h; rw [← h]; simp [atMark]
  | cons c cs ih =>
    cases v with
    | nil => cases h
    | cons x v =>
      unfold appendCols at h
      obtain ⟨rest, h3, h⟩ := ok_of_bind h
      injection h with h
      subst h
      have := ih h3 fun c hc => hr c (by simp [hc])
      unfold atMark at this ⊢
      rw [List.filterMap_cons, this]
      simp [hr c (by simp)]

/-- Adding one mark to data listed mark by mark. -/
theorem marks_snoc {α β : Type} (X : List α) (x : α) (f g : Nat → α → List β)
    (h : ∀ m (y : α), m < X.length → f m y = g m y) :
    ((X ++ [x]).mapIdx f).flatten = (X.mapIdx g).flatten ++ f X.length x := by
  rw [List.mapIdx_append, List.flatten_append]
  congr 1
  · congr 1
    apply List.ext_getElem
    · simp
    · intro i h1 h2
      simp only [List.length_mapIdx] at h1
      simp [h i _ h1]
  · simp

/-- One pass of the read loop keeps the invariant, and what it adds to the held values comes from the words
of the lines it uses. -/
def Keeps {σ : Type} (cd : Codec F) (step : σ → List Str → Res (σ × List Str)) (I : σ → Prop)
    (held : σ → List F) : Prop :=
  ∀ st ls st' ls', I st → step st ls = .ok (st', ls') → I st' ∧ ∃ pre new, ls = pre ++ ls' ∧
    held st' = held st ++ new ∧ Gives cd (allItems pre) new

theorem readLoop_keeps {σ : Type} {cd : Codec F} {step : σ → List Str → Res (σ × List Str)}
    {I : σ → Prop} {held : σ → List F} (hs : Keeps cd step I held) {k : Nat} {st st' : σ}
    {ls : List Str} (h : readLoop step k st ls = .ok st') (hi : I st) :
    ∃ new, held st' = held st ++ new ∧ Gives cd (allItems ls) new := by
  induction k generalizing st ls with
  | zero =>
    cases ls with
    | nil => injection h with h; subst h; exact ⟨[], by simp, gives_nil cd⟩
    | cons l ls => cases h
  | succ k ih =>
    cases ls with
    | nil => injection h with h; subst h; exact ⟨[], by simp, gives_nil cd⟩
    | cons l ls =>
      unfold readLoop at h
      obtain ⟨⟨s1, l1⟩, h1, h⟩ := ok_of_bind h
      obtain ⟨i1, pre, new, e, hh, hg⟩ := hs _ _ _ _ hi h1
      obtain ⟨new2, hh2, hg2⟩ := ih h i1
      refine ⟨new ++ new2, by rw [hh2, hh, List.append_assoc], ?_⟩
      rw [e, allItems_append]
      exact hg.append hg2

theorem lineItems_blank {l : Str} (h : strip l = []) : lineItems l = [] := by
  rw [lineItems_eq]
  have hb : ∀ c ∈ l, isSpace c = true := (strip_eq_nil_iff l).1 h
  have hn : '}' ∉ l := by
    intro hm
    have := hb _ hm
    revert this; decide
  rw [rightStrip_id l (Or.inr hn)]
  exact words_spaces l hb

theorem checkBlank_items {b : Bool} {ls ls' : List Str} (h : checkBlank b ls = .ok ls') :
    allItems ls' = allItems ls := by
  induction ls generalizing b ls' with
  | nil => injection h with h; rw [← h]
  | cons l ls ih =>
    unfold checkBlank at h
    split at h
    · rename_i hb
      rw [ih h, allItems_cons, lineItems_blank hb]; rfl
    · split at h
      · cases h
      · obtain ⟨rest, h1, h⟩ := ok_of_bind h
        injection h with h
        subst h
        simp [ih h1]

theorem readDataWith_keeps {σ : Type} {cd : Codec F} {step : σ → List Str → Res (σ × List Str)}
    {I : σ → Prop} {held : σ → List F} (hs : Keeps cd step I held) {st st' : σ} {text : Str} {n : Int}
    (h : readDataWith step st text n = .ok st') (hi : I st) (h0 : held st = []) :
    Gives cd (allItems (sliceFrom (fileLines text) n)) (held st') := by
  unfold readDataWith at h
  obtain ⟨ls, hb, h⟩ := ok_of_bind h
  obtain ⟨new, hh, hg⟩ := readLoop_keeps hs h hi
  rw [hh, h0, List.nil_append, ← checkBlank_items hb]
  exact hg

def held1001 (st : List F × List (List F)) : List F :=
  (st.1.mapIdx fun m x => x :: atMark st.2 m).flatten

theorem keeps_1001 (cd : Codec F) (nv : Int) : Keeps cd (step1001 cd nv) (Inv1001 nv) held1001 := by
  intro st ls st' ls' hi hs
  refine ⟨inv_1001 hi hs, ?_⟩
  unfold step1001 at hs
  obtain ⟨⟨xv, rest⟩, hu, hs⟩ := ok_of_bind hs
  obtain ⟨pre, e, _, hg⟩ := readUnkList_gives hu
  cases xv with
  | nil => cases hs
  | cons x v =>
    obtain ⟨cols, hc, hs⟩ := ok_of_bind hs
    injection hs with hs
    obtain ⟨e1, e2⟩ := Prod.mk.inj hs
    subst e1 e2
    refine ⟨pre, x :: v.take st.2.length, e, ?_, hg _ ?_⟩
    · unfold held1001
      dsimp only
      rw [marks_snoc st.1 x _ (fun m x => x :: atMark st.2 m)]
      · rw [atMark_append_new hc hi.2]
      · intro m y hm
        rw [atMark_append_old hc hi.2 hm]
    · exact List.Sublist.cons_cons _ (List.take_sublist _ _)

def held1010 (st : Arr1010 F) : List F :=
  (st.X.mapIdx fun m x => x :: (atMark st.A m ++ atMark st.V m)).flatten

theorem gives_two {cd : Codec F} {ls1 ls2 ls3 p1 p2 : List Str} {a b : List F}
    (e1 : ls1 = p1 ++ ls2) (e2 : ls2 = p2 ++ ls3) (g1 : Gives cd (allItems p1) a)
    (g2 : Gives cd (allItems p2) b) : ls1 = (p1 ++ p2) ++ ls3 ∧ Gives cd (allItems (p1 ++ p2)) (a ++ b) :=
  ⟨by rw [e1, e2, List.append_assoc], by rw [allItems_append]; exact g1.append g2⟩

theorem data1_1010_gives {cd : Codec F} {n : Int} {st st' : Arr1010 F} {ls ls' : List Str} {na : Int}
    (h : data1_1010 cd n st ls = .ok (st', ls')) (hi : Rect st.A na st.X.length) :
    ∃ pre x a, ls = pre ++ ls' ∧ Gives cd (allItems pre) (x :: a) ∧ st'.X = st.X ++ [x] ∧
      st'.V = st.V ∧ (∀ m, m < st.X.length → atMark st'.A m = atMark st.A m) ∧
      atMark st'.A st.X.length = a := by
  unfold data1_1010 at h
  obtain ⟨⟨xv, rest⟩, hu, h⟩ := ok_of_bind h
  obtain ⟨pre, e, _, hg⟩ := readUnkList_gives hu
  cases xv with
  | nil => cases h
  | cons x v =>
    obtain ⟨cols, hc, h⟩ := ok_of_bind h
    injection h with h
    obtain ⟨e1, e2⟩ := Prod.mk.inj h
    subst e1 e2
    exact ⟨pre, x, v.take st.A.length, e,
      hg _ (List.Sublist.cons_cons _ (List.take_sublist _ _)), rfl, rfl,
      fun m hm => atMark_append_old hc hi.2 hm, atMark_append_new hc hi.2⟩

theorem keeps_1010 (cd : Codec F) (na nv : Int) :
    Keeps cd (step1010 cd na nv) (Inv1010 na nv) held1010 := by
  intro st ls st' ls' hi hs
  refine ⟨inv_1010 hi hs, ?_⟩
  unfold step1010 at hs
  obtain ⟨⟨st1, ls1⟩, hd, hs⟩ := ok_of_bind hs
  obtain ⟨p1, x, a, e1, g1, hX, hV, ho, hn⟩ := data1_1010_gives hd hi.1
  unfold data2_1010 at hs
  obtain ⟨⟨v, rest⟩, hu, hs⟩ := ok_of_bind hs
  obtain ⟨p2, e2, _, hg⟩ := readUnkList_gives hu
  obtain ⟨cols, hc, hs⟩ := ok_of_bind hs
  injection hs with hs
  obtain ⟨e3, e4⟩ := Prod.mk.inj hs
  subst e3 e4
  rw [hV] at hc
  obtain ⟨e5, g5⟩ := gives_two e1 e2 g1 (hg _ (List.take_sublist st.V.length _))
  refine ⟨_, _, e5, ?_, g5⟩
  unfold held1010
  dsimp only
  rw [hX, marks_snoc st.X x _ (fun m x => x :: (atMark st.A m ++ atMark st.V m))]
  · rw [atMark_append_new hc hi.2.2, hn]; simp
  · intro m y hm
    rw [atMark_append_old hc hi.2.2 hm, ho m hm]

/-- Block number `m` of `k` values of each column. -/
def blocksAt {α : Type} (cols : List (List α)) (k m : Nat) : List α :=
  (cols.map fun col => (col.drop (m * k)).take k).flatten

theorem blocksAt_old {α : Type} {k : Nat} {cols cols' : List (List α)} {v : List α} {m n : Nat}
    (h : appendBlocks k cols v = .ok cols') (hr : ∀ c ∈ cols, c.length = n * k) (hm : m < n) :
    blocksAt cols' k m = blocksAt cols k m := by
  induction cols generalizing v cols' with
  | nil => injection h with h; rw [← h]
  | cons c cs ih =>
    unfold appendBlocks at h
    split at h
    · cases h
    · obtain ⟨rest, h3, h⟩ := ok_of_bind h
      injection h with h
      subst h
      have := ih h3 fun c hc => hr c (by simp [hc])
      unfold blocksAt at this ⊢
      rw [List.map_cons, List.map_cons, List.flatten_cons, List.flatten_cons, this]
      congr 1
      have hl := hr c (by simp)
      have hk : m * k + k ≤ n * k := by
        rw [← Nat.succ_mul]; exact Nat.mul_le_mul_right k hm
      rw [List.drop_append_of_le_length (by omega), List.take_append_of_le_length (by simp; omega)]

theorem blocksAt_new {α : Type} {k : Nat} {cols cols' : List (List α)} {v : List α} {n : Nat}
    (h : appendBlocks k cols v = .ok cols') (hr : ∀ c ∈ cols, c.length = n * k) :
    blocksAt cols' k n = v.take (cols.length * k) := by
  induction cols generalizing v cols' with
  | nil => injection h with h; rw [← h]; simp [blocksAt]
  | cons c cs ih =>
    unfold appendBlocks at h
    split at h
    · cases h
    · rename_i hk
      obtain ⟨rest, h3, h⟩ := ok_of_bind h
      injection h with h
      subst h
      have := ih h3 fun c hc => hr c (by simp [hc])
      unfold blocksAt at this ⊢
      rw [List.map_cons, List.flatten_cons, this, List.length_cons, Nat.succ_mul,
        Nat.add_comm (cs.length * k), List.take_add]
      congr 1
      have hl := hr c (by simp)
      rw [← hl, List.drop_left, List.take_take, Nat.min_self]

def held1020 (k : Nat) (st : Arr1010 F) : List F :=
  (st.X.mapIdx fun m x => x :: (atMark st.A m ++ blocksAt st.V k m)).flatten

theorem keeps_1020 (cd : Codec F) (na nv nvpm : Int) :
    Keeps cd (step1020 cd na nv nvpm) (Inv1020 na nv nvpm) (held1020 nvpm.toNat) := by
  intro st ls st' ls' hi hs
  refine ⟨inv_1020 hi hs, ?_⟩
  unfold step1020 at hs
  obtain ⟨⟨st1, ls1⟩, hd, hs⟩ := ok_of_bind hs
  obtain ⟨p1, x, a, e1, g1, hX, hV, ho, hn⟩ := data1_1010_gives hd hi.1
  unfold data2_1020 at hs
  obtain ⟨⟨v, rest⟩, hu, hs⟩ := ok_of_bind hs
  obtain ⟨p2, e2, _, hg⟩ := readUnkList_gives hu
  obtain ⟨cols, hc, hs⟩ := ok_of_bind hs
  injection hs with hs
  obtain ⟨e3, e4⟩ := Prod.mk.inj hs
  subst e3 e4
  rw [hV] at hc
  obtain ⟨e5, g5⟩ := gives_two e1 e2 g1 (hg _ (List.take_sublist (st.V.length * nvpm.toNat) _))
  refine ⟨_, _, e5, ?_, g5⟩
  unfold held1020
  dsimp only
  rw [hX, marks_snoc st.X x _ (fun m x => x :: (atMark st.A m ++ blocksAt st.V nvpm.toNat m))]
  · rw [blocksAt_new hc hi.2.2, hn]; simp
  · intro m y hm
    rw [blocksAt_old hc hi.2.2 hm, ho m hm]

def held2010 (st : Arr2010 F) : List F :=
  (st.X0.mapIdx fun m x => x :: (atMark st.A m ++ ((atMark st.V m).map leaves).flatten)).flatten

theorem mapRes_idx {arr : List F} {c d : Nat} {xs : List F}
    (h1 : mapRes (idx arr) (List.range' c d) = .ok xs) : xs = (arr.drop c).take d := by
  induction d generalizing c xs with
  | zero => injection h1 with h1; rw [← h1]; simp
  | succ d ihd =>
    rw [List.range'_succ] at h1
    unfold mapRes at h1
    obtain ⟨b, hb, h1⟩ := ok_of_bind h1
    obtain ⟨bs, hbs, h1⟩ := ok_of_bind h1
    injection h1 with h1
    subst h1
    rw [ihd hbs]
    unfold idx at hb
    split at hb
    · rename_i y hy
      injection hb with hb
      subst hb
      obtain ⟨hlt, he⟩ := List.getElem?_eq_some_iff.1 hy
      rw [List.drop_eq_getElem_cons hlt, List.take_succ_cons, he]
    · cases hb

theorem populate_leaves {dims : List Nat} {arr : List F} {c : Nat} {r : List (Tree F) × Nat}
    (h : populate dims arr c = .ok r) :
    ∃ k, leaves (.lst r.1) = (arr.drop c).take k ∧ r.2 = c + k := by
  induction dims generalizing c r with
  | nil => cases h
  | cons d ds ih =>
    cases ds with
    | nil =>
      unfold populate at h
      obtain ⟨xs, h1, h⟩ := ok_of_bind h
      injection h with h
      subst h
      refine ⟨d, ?_, rfl⟩
      have hx := mapRes_idx h1
      rw [leaves_lst, hx]
      generalize (arr.drop c).take d = ys
      induction ys with
      | nil => rfl
      | cons y ys ih' => simp only [List.map_cons, List.flatten_cons, ih']; simp [leaves]
    | cons d2 ds =>
      unfold populate at h
      clear * - h ih
      induction d generalizing c r with
      | zero => injection h with h; subst h; exact ⟨0, by simp [leaves_lst], rfl⟩
      | succ d ihd =>
        unfold popN at h
        obtain ⟨⟨t, c1⟩, h1, h⟩ := ok_of_bind h
        obtain ⟨⟨ts, c2⟩, h2, h⟩ := ok_of_bind h
        injection h with h
        subst h
        obtain ⟨k1, e1, f1⟩ := ih h1
        obtain ⟨k2, e2, f2⟩ := ihd h2
        dsimp only at e1 f1 e2 f2 ⊢
        refine ⟨k1 + k2, ?_, by omega⟩
        rw [leaves_lst] at e2 ⊢
        rw [List.map_cons, List.flatten_cons, e1, e2, f1, List.take_add, List.drop_drop]

theorem popVars_gives {cd : Codec F} {size : Int} {dims : List Nat} {V V' : List (List (Tree F))}
    {ls ls' : List Str} {n : Nat} (h : popVars cd size dims V ls = .ok (V', ls'))
    (hn : ∀ col ∈ V, col.length = n) :
    ∃ pre, ls = pre ++ ls' ∧ Gives cd (allItems pre) ((atMark V' n).map leaves).flatten ∧
      ∀ m, m < n → atMark V' m = atMark V m := by
  induction V generalizing V' ls ls' with
  | nil =>
    injection h with h
    obtain ⟨e1, e2⟩ := Prod.mk.inj h
    subst e1 e2
    exact ⟨[], rfl, by simpa [atMark] using gives_nil cd, fun _ _ => rfl⟩
  | cons c cs ih =>
    unfold popVars at h
    obtain ⟨⟨v, rest⟩, hu, h⟩ := ok_of_bind h
    obtain ⟨p1, e1, _, hg⟩ := readUnkList_gives hu
    obtain ⟨⟨t, c1⟩, hp, h⟩ := ok_of_bind h
    obtain ⟨⟨cols', ls2⟩, h2, h⟩ := ok_of_bind h
    injection h with h
    obtain ⟨e2, e3⟩ := Prod.mk.inj h
    subst e2 e3
    obtain ⟨p2, e4, g4, ho⟩ := ih h2 fun c hc => hn c (by simp [hc])
    obtain ⟨k, hl, _⟩ := populate_leaves hp
    have g1 := hg (leaves (.lst t)) (by rw [hl]; exact (List.take_sublist _ _).trans (List.drop_sublist _ _))
    obtain ⟨e5, g5⟩ := gives_two e1 e4 g1 g4
    have hc := hn c (by simp)
    refine ⟨_, e5, ?_, ?_⟩
    · have : atMark ((c ++ [.lst t]) :: cols') n = .lst t :: atMark cols' n := by
        unfold atMark; rw [List.filterMap_cons]; simp [← hc]
      rw [this, List.map_cons, List.flatten_cons]
      exact g5
    · intro m hm
      have := ho m hm
      unfold atMark at this ⊢
      rw [List.filterMap_cons, List.filterMap_cons, this,
        List.getElem?_append_left (by omega)]

theorem keeps_2010 (cd : Codec F) (na nv : Int) (nx : List Int) :
    Keeps cd (step2010 cd na nx) (Inv2010 na nv nx) held2010 := by
  intro st ls st' ls' hi hs
  refine ⟨inv_2010 hi hs, ?_⟩
  unfold step2010 at hs
  obtain ⟨⟨st1, ls1⟩, hd, hs⟩ := ok_of_bind hs
  unfold data1_2010 at hd
  obtain ⟨⟨xv, rest⟩, hu, hd⟩ := ok_of_bind hd
  obtain ⟨p1, e1, _, hg⟩ := readUnkList_gives hu
  cases xv with
  | nil => cases hd
  | cons x v =>
    obtain ⟨cols, hc, hd⟩ := ok_of_bind hd
    injection hd with hd
    obtain ⟨e2, e3⟩ := Prod.mk.inj hd
    subst e2 e3
    unfold data2_2010 at hs
    dsimp only at hs
    split at hs
    · cases hs
    · obtain ⟨⟨V', rest2⟩, hp, hs⟩ := ok_of_bind hs
      injection hs with hs
      obtain ⟨e4, e5⟩ := Prod.mk.inj hs
      subst e4 e5
      obtain ⟨p2, e6, g6, ho⟩ := popVars_gives hp hi.2.1.2
      have g1 : Gives cd (allItems p1) (x :: v.take st.A.length) :=
        hg _ (List.Sublist.cons_cons _ (List.take_sublist _ _))
      obtain ⟨e7, g7⟩ := gives_two e1 e6 g1 g6
      refine ⟨_, _, e7, ?_, g7⟩
      unfold held2010
      dsimp only
      rw [marks_snoc st.X0 x _ (fun m x => x :: (atMark st.A m ++ ((atMark st.V m).map leaves).flatten))]
      · rw [atMark_append_new hc hi.1.2]; simp
      · intro m y hm
        rw [atMark_append_old hc hi.1.2 hm, ho m hm]

/-- Values of one mark given point by point. -/
def points (xs : List F) (cols : List (List F)) : List F :=
  (xs.mapIdx fun p y => y :: atMark cols p).flatten

theorem readRagged_gives {cd : Codec F} {nv : Int} {k : Nat} {xs xs' : List F}
    {cols cols' : List (List F)} {ls ls' : List Str} {n : Int}
    (h : readRagged cd nv k xs cols ls = .ok (xs', cols', ls')) (hr : Rect cols n xs.length) :
    ∃ pre new, ls = pre ++ ls' ∧ Gives cd (allItems pre) new ∧ points xs' cols' = points xs cols ++ new := by
  induction k generalizing xs cols ls with
  | zero =>
    injection h with h
    obtain ⟨e1, h⟩ := Prod.mk.inj h
    obtain ⟨e2, e3⟩ := Prod.mk.inj h
    subst e1 e2 e3
    exact ⟨[], [], rfl, gives_nil cd, by simp⟩
  | succ k ih =>
    unfold readRagged at h
    obtain ⟨⟨xv, rest⟩, hu, h⟩ := ok_of_bind h
    obtain ⟨p1, e1, _, hg⟩ := readUnkList_gives hu
    cases xv with
    | nil => cases h
    | cons x v =>
      obtain ⟨c2, hc, h⟩ := ok_of_bind h
      obtain ⟨p2, new, e2, g2, hp⟩ := ih h (by simpa using appendCols_rect hc hr)
      have g1 : Gives cd (allItems p1) (x :: v.take cols.length) :=
        hg _ (List.Sublist.cons_cons _ (List.take_sublist _ _))
      obtain ⟨e3, g3⟩ := gives_two e1 e2 g1 g2
      refine ⟨_, _, e3, g3, ?_⟩
      rw [hp]
      unfold points
      rw [marks_snoc xs x _ (fun p y => y :: atMark cols p)]
      · rw [atMark_append_new hc hr.2]; simp
      · intro m y hm
        rw [atMark_append_old hc hr.2 hm]

theorem atMark_zip_old {α : Type} {V : List (List α)} {cols : List α} {m n : Nat}
    (hl : V.length = cols.length) (hV : ∀ vn ∈ V, vn.length = n) (hm : m < n) :
    atMark (List.zipWith (fun vn c => vn ++ [c]) V cols) m = atMark V m := by
  induction V generalizing cols with
  | nil => simp
  | cons v V ih =>
    cases cols with
    | nil => simp at hl
    | cons c cols =>
      have := ih (by simpa using hl) fun x hx => hV x (by simp [hx])
      unfold atMark at this ⊢
      rw [List.zipWith_cons_cons, List.filterMap_cons, List.filterMap_cons, this,
        List.getElem?_append_left (by rw [hV v (by simp)]; exact hm)]

theorem atMark_zip_new {α : Type} {V : List (List α)} {cols : List α} {n : Nat}
    (hl : V.length = cols.length) (hV : ∀ vn ∈ V, vn.length = n) :
    atMark (List.zipWith (fun vn c => vn ++ [c]) V cols) n = cols := by
  induction V generalizing cols with
  | nil => cases cols <;> [rfl; simp at hl]
  | cons v V ih =>
    cases cols with
    | nil => simp at hl
    | cons c cols =>
      have := ih (by simpa using hl) fun x hx => hV x (by simp [hx])
      unfold atMark at this ⊢
      rw [List.zipWith_cons_cons, List.filterMap_cons, this]
      simp [← hV v (by simp)]

def held2110 (st : Arr2110 F) : List F :=
  (st.X.mapIdx fun m x => x.1 :: (atMark st.A m ++ points x.2 (atMark st.V m))).flatten

theorem keeps_2110 (cd : Codec F) (na nv : Int) :
    Keeps cd (step2110 cd na nv) (Inv2110 na nv) held2110 := by
  intro st ls st' ls' hi hs
  refine ⟨inv_2110 hi hs, ?_⟩
  unfold step2110 at hs
  obtain ⟨⟨st1, nx, x, ls1⟩, hd, hs⟩ := ok_of_bind hs
  unfold data1_2110 at hd
  obtain ⟨⟨xv, rest⟩, hu, hd⟩ := ok_of_bind hd
  obtain ⟨p1, e1, _, hg⟩ := readUnkList_gives hu
  cases xv with
  | nil => cases hd
  | cons x v =>
    obtain ⟨cols, hc, hd⟩ := ok_of_bind hd
    obtain ⟨a0, _, hd⟩ := ok_of_bind hd
    obtain ⟨nx', _, hd⟩ := ok_of_bind hd
    injection hd with hd
    obtain ⟨e2, hd⟩ := Prod.mk.inj hd
    obtain ⟨e3, hd⟩ := Prod.mk.inj hd
    obtain ⟨e4, e5⟩ := Prod.mk.inj hd
    subst e2 e3 e4 e5
    unfold data2_2110 at hs
    obtain ⟨⟨xs, cs, ls2⟩, hr, hs⟩ := ok_of_bind hs
    injection hs with hs
    obtain ⟨e6, e7⟩ := Prod.mk.inj hs
    subst e6 e7
    obtain ⟨i1, i2, i3, i4⟩ := hi
    obtain ⟨j1, j2⟩ := readRagged_shape hr (emptyCols_rect nv)
    obtain ⟨p2, new, e8, g8, hp⟩ := readRagged_gives hr (emptyCols_rect nv)
    have hlen : st.V.length = cs.length := by have := j2.1; omega
    have hX : st.X.length = st.NX.length := by simpa using congrArg List.length i2
    have hVl : ∀ vn ∈ st.V, vn.length = st.X.length := fun vn h => by
      rw [hX]; simpa using congrArg List.length (i4 vn h)
    have g1 : Gives cd (allItems p1) (x :: v.take st.A.length) :=
      hg _ (List.Sublist.cons_cons _ (List.take_sublist _ _))
    obtain ⟨e9, g9⟩ := gives_two e1 e8 g1 g8
    refine ⟨_, _, e9, ?_, g9⟩
    unfold held2110
    dsimp only
    rw [marks_snoc st.X (x, xs) _ (fun m x => x.1 :: (atMark st.A m ++ points x.2 (atMark st.V m)))]
    · rw [atMark_append_new hc i1.2, atMark_zip_new hlen hVl, hp]; simp [points]
    · intro m y hm
      rw [atMark_append_old hc i1.2 hm, atMark_zip_old hlen hVl hm]

def held2310 (st : Arr2110 F) : List F :=
  (st.X.mapIdx fun m x => x.1 :: (atMark st.A m ++ (atMark st.V m).flatten)).flatten

theorem appendBlocks_flat {α : Type} {k : Nat} {cols cols' : List (List α)} {v : List α}
    (h : appendBlocks k cols v = .ok cols') (he : ∀ c ∈ cols, c = []) :
    cols'.flatten.Sublist v := by
  induction cols generalizing v cols' with
  | nil => injection h with h; rw [← h]; exact List.nil_sublist _
  | cons c cs ih =>
    unfold appendBlocks at h
    split at h
    · cases h
    · obtain ⟨rest, h3, h⟩ := ok_of_bind h
      injection h with h
      subst h
      have := ih h3 fun c hc => he c (by simp [hc])
      rw [he c (by simp), List.nil_append, List.flatten_cons]
      conv => rhs; rw [← List.take_append_drop k v]
      exact (List.Sublist.refl _).append this

theorem keeps_2310 (cd : Codec F) (na nv : Int) :
    Keeps cd (step2310 cd na nv) (Inv2310 na nv) held2310 := by
  intro st ls st' ls' hi hs
  refine ⟨inv_2310 hi hs, ?_⟩
  unfold step2310 at hs
  obtain ⟨⟨st1, nx, ls1⟩, hd, hs⟩ := ok_of_bind hs
  unfold data1_2310 at hd
  obtain ⟨⟨xv, rest⟩, hu, hd⟩ := ok_of_bind hd
  obtain ⟨p1, e1, _, hg⟩ := readUnkList_gives hu
  cases xv with
  | nil => cases hd
  | cons x v =>
    obtain ⟨cols, hc, hd⟩ := ok_of_bind hd
    obtain ⟨a1, _, hd⟩ := ok_of_bind hd
    obtain ⟨a0, _, hd⟩ := ok_of_bind hd
    obtain ⟨nx', _, hd⟩ := ok_of_bind hd
    obtain ⟨a2, _, hd⟩ := ok_of_bind hd
    obtain ⟨d, _, hd⟩ := ok_of_bind hd
    injection hd with hd
    obtain ⟨e2, hd⟩ := Prod.mk.inj hd
    obtain ⟨e3, e4⟩ := Prod.mk.inj hd
    subst e2 e3 e4
    unfold data2_2310 at hs
    obtain ⟨⟨vs, ls2⟩, hu2, hs⟩ := ok_of_bind hs
    obtain ⟨p2, e5, _, hg2⟩ := readUnkList_gives hu2
    obtain ⟨cs, hb, hs⟩ := ok_of_bind hs
    injection hs with hs
    obtain ⟨e6, e7⟩ := Prod.mk.inj hs
    subst e6 e7
    obtain ⟨i1, i2, i3, i4⟩ := hi
    have hb' := appendBlocks_rect hb (emptyCols_rect nv)
    have hlen : st.V.length = cs.length := by have := hb'.1; omega
    have hX : st.X.length = st.NX.length := by simpa using congrArg List.length i2
    have hVl : ∀ vn ∈ st.V, vn.length = st.X.length := fun vn h => by
      rw [hX]; simpa using congrArg List.length (i4 vn h)
    have g1 : Gives cd (allItems p1) (x :: v.take st.A.length) :=
      hg _ (List.Sublist.cons_cons _ (List.take_sublist _ _))
    have g2 : Gives cd (allItems p2) cs.flatten := hg2 _ (appendBlocks_flat hb (by
      intro c hc; rw [emptyCols, List.mem_replicate] at hc; exact hc.2))
    obtain ⟨e9, g9⟩ := gives_two e1 e5 g1 g2
    refine ⟨_, _, e9, ?_, g9⟩
    unfold held2310
    dsimp only
    rw [marks_snoc st.X (x, [a1]) _ (fun m x => x.1 :: (atMark st.A m ++ (atMark st.V m).flatten))]
    · rw [atMark_append_new hc i1.2, atMark_zip_new hlen hVl]; simp
    · intro m y hm
      rw [atMark_append_old hc i1.2 hm, atMark_zip_old hlen hVl hm]

theorem readData_gives {cd : Codec F} {text : Str} {o o' : Obj F} (hf : FreshObj o)
    (h : o.readData cd text = .ok o') (hn : NumFormat o') :
    Gives cd (allItems (dataLines text o)) (heldValues o') := by
  unfold dataLines
  cases o with
  | o1001 r =>
    obtain ⟨r', h1, h⟩ := ok_of_bind h
    injection h with h; subst h
    unfold readData1001 at h1
    obtain ⟨⟨x, v⟩, h2, h1⟩ := ok_of_bind h1
    injection h1 with h1; subst h1
    exact readDataWith_keeps (keeps_1001 cd _) h2 (emptyCols_rect _) rfl
  | o1010 r =>
    obtain ⟨r', h1, h⟩ := ok_of_bind h
    injection h with h; subst h
    unfold readData1010 at h1
    obtain ⟨a, h2, h1⟩ := ok_of_bind h1
    injection h1 with h1; subst h1
    exact readDataWith_keeps (keeps_1010 cd _ _) h2 ⟨emptyCols_rect _, emptyCols_rect _⟩ rfl
  | o1020 r =>
    obtain ⟨r', h1, h⟩ := ok_of_bind h
    injection h with h; subst h
    unfold readData1020 at h1
    obtain ⟨a, h2, h1⟩ := ok_of_bind h1
    injection h1 with h1; subst h1
    exact readDataWith_keeps (keeps_1020 cd _ _ _) h2
      ⟨emptyCols_rect _, by simpa using emptyCols_rect _⟩ rfl
  | o2010 r =>
    obtain ⟨r', h1, h⟩ := ok_of_bind h
    injection h with h; subst h
    unfold readData2010 at h1
    obtain ⟨a, h2, h1⟩ := ok_of_bind h1
    injection h1 with h1; subst h1
    have h0 : r.X0 = [] := hf
    rw [h0] at h2
    exact readDataWith_keeps (keeps_2010 cd _ r.v.NV _) h2
      ⟨by simpa using emptyCols_rect _, by simpa using emptyCols_rect _, by simp [emptyCols]⟩ rfl
  | o2110 r =>
    obtain ⟨r', h1, h⟩ := ok_of_bind h
    injection h with h; subst h
    unfold readData2110 at h1
    obtain ⟨a, h2, h1⟩ := ok_of_bind h1
    injection h1 with h1; subst h1
    exact readDataWith_keeps (keeps_2110 cd _ _) h2
      ⟨emptyCols_rect _, rfl, by simp [emptyCols], by simp [emptyCols]⟩ rfl
  | o2160 r =>
    obtain ⟨r', h1, h⟩ := ok_of_bind h
    injection h with h; subst h
    exact hn.elim
  | o2310 r =>
    obtain ⟨r', h1, h⟩ := ok_of_bind h
    injection h with h; subst h
    unfold readData2310 at h1
    obtain ⟨a, h2, h1⟩ := ok_of_bind h1
    injection h1 with h1; subst h1
    exact readDataWith_keeps (keeps_2310 cd _ _) h2
      ⟨emptyCols_rect _, rfl, by simp [emptyCols], by simp [emptyCols]⟩ rfl

end Nappy
