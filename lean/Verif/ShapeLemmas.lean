import Verif.ReadLemmas
import Verif.TreeLemmas
import Verif.Spec.Data

/-! Lemmas about the shape of the data that were read. -/

namespace Nappy

open Spec

variable {F : Type}

theorem readLoop_inv {σ : Type} {step : σ → List Str → Res (σ × List Str)} {I : σ → Prop}
    (hs : ∀ st ls st' ls', I st → step st ls = .ok (st', ls') → I st') {k : Nat} {st st' : σ}
    {ls : List Str} (h : readLoop step k st ls = .ok st') (hi : I st) : I st' := by
  induction k generalizing st ls with
  | zero =>
    cases ls with
    | nil => injection h with h; rw [← h]; exact hi
    | cons l ls => cases h
  | succ k ih =>
    cases ls with
    | nil => injection h with h; rw [← h]; exact hi
    | cons l ls =>
      unfold readLoop at h
      obtain ⟨⟨s1, l1⟩, h1, h⟩ := ok_of_bind h
      exact ih h (hs _ _ _ _ hi h1)

theorem readDataWith_inv {σ : Type} {step : σ → List Str → Res (σ × List Str)} {I : σ → Prop}
    (hs : ∀ st ls st' ls', I st → step st ls = .ok (st', ls') → I st') {st st' : σ}
    {text : Str} {n : Int} (h : readDataWith step st text n = .ok st') (hi : I st) : I st' := by
  unfold readDataWith at h
  obtain ⟨ls, _, h⟩ := ok_of_bind h
  exact readLoop_inv hs h hi

theorem appendCols_rect {α : Type} {cols cols' : List (List α)} {v : List α} {n : Int} {m : Nat}
    (h : appendCols cols v = .ok cols') (hr : Rect cols n m) : Rect cols' n (m + 1) := by
  obtain ⟨h1, h2⟩ := hr
  suffices hh : cols'.length = cols.length ∧ ∀ c ∈ cols', c.length = m + 1 from
    ⟨by rw [hh.1]; exact h1, hh.2⟩
  clear h1
  induction cols generalizing v cols' with
  | nil => injection h with h; subst h; simp
  | cons c cs ih =>
    cases v with
    | nil => cases h
    | cons x v =>
      unfold appendCols at h
      obtain ⟨rest, h3, h⟩ := ok_of_bind h
      injection h with h
      subst h
      obtain ⟨i1, i2⟩ := ih h3 fun c hc => h2 c (by simp [hc])
      refine ⟨by simp [i1], ?_⟩
      intro c' hc'
      rcases List.mem_cons.1 hc' with rfl | hc'
      · simp [h2 c (by simp)]
      · exact i2 c' hc'

theorem appendBlocks_rect {α : Type} {k : Nat} {cols cols' : List (List α)} {v : List α} {n : Int}
    {m : Nat} (h : appendBlocks k cols v = .ok cols') (hr : Rect cols n m) : Rect cols' n (m + k) := by
  obtain ⟨h1, h2⟩ := hr
  suffices hh : cols'.length = cols.length ∧ ∀ c ∈ cols', c.length = m + k from
    ⟨by rw [hh.1]; exact h1, hh.2⟩
  clear h1
  induction cols generalizing v cols' with
  | nil => injection h with h; subst h; simp
  | cons c cs ih =>
    unfold appendBlocks at h
    split at h
    · cases h
    · rename_i hk
      obtain ⟨rest, h3, h⟩ := ok_of_bind h
      injection h with h
      subst h
      obtain ⟨i1, i2⟩ := ih h3 fun c hc => h2 c (by simp [hc])
      refine ⟨by simp [i1], ?_⟩
      intro c' hc'
      rcases List.mem_cons.1 hc' with rfl | hc'
      · simp [h2 c (by simp)]; omega
      · exact i2 c' hc'

theorem emptyCols_rect {α : Type} (n : Int) : Rect (emptyCols (α := α) n) n.toNat 0 := by
  refine ⟨by simp [emptyCols], ?_⟩
  intro c hc
  rw [emptyCols, List.mem_replicate] at hc
  rw [hc.2]; rfl

/-- Shape of the arrays while a 1001 file is read. -/
def Inv1001 (nv : Int) (st : List F × List (List F)) : Prop :=
  Rect st.2 nv.toNat st.1.length

theorem inv_1001 {cd : Codec F} {nv : Int} {st st' : List F × List (List F)} {ls ls' : List Str}
    (hi : Inv1001 nv st) (hs : step1001 cd nv st ls = .ok (st', ls')) :
    Inv1001 nv st' := by
  unfold step1001 at hs
  obtain ⟨⟨xv, rest⟩, _, hs⟩ := ok_of_bind hs
  cases xv with
  | nil => cases hs
  | cons x v =>
    obtain ⟨cols, hc, hs⟩ := ok_of_bind hs
    injection hs with hs
    rw [← (Prod.mk.inj hs).1]
    simpa [Inv1001] using appendCols_rect hc hi

theorem shape_1001 {cd : Codec F} {text : Str} {r r' : NA1001 F}
    (h : readData1001 cd text r = .ok r') : DataShape (.o1001 r') := by
  unfold readData1001 at h
  obtain ⟨⟨x, v⟩, h1, h⟩ := ok_of_bind h
  injection h with h
  subst h
  refine readDataWith_inv (I := Inv1001 r.v.NV) ?_ h1 (emptyCols_rect _)
  intro st ls st' ls' hi hs
  exact inv_1001 hi hs

theorem inv_data1_1010 {cd : Codec F} {n : Int} {st st' : Arr1010 F} {ls ls' : List Str} {na : Int}
    (h : data1_1010 cd n st ls = .ok (st', ls')) (hi : Rect st.A na st.X.length) :
    Rect st'.A na st'.X.length ∧ st'.V = st.V ∧ st'.X.length = st.X.length + 1 := by
  unfold data1_1010 at h
  obtain ⟨⟨xv, rest⟩, _, h⟩ := ok_of_bind h
  cases xv with
  | nil => cases h
  | cons x v =>
    obtain ⟨cols, hc, h⟩ := ok_of_bind h
    injection h with h
    rw [← (Prod.mk.inj h).1]
    exact ⟨by simpa using appendCols_rect hc hi, rfl, by simp⟩

/-- Shape of the arrays while a 1010 file is read. -/
def Inv1010 (na nv : Int) (st : Arr1010 F) : Prop :=
  Rect st.A na.toNat st.X.length ∧
    Rect st.V nv.toNat st.X.length

theorem inv_1010 {cd : Codec F} {na nv : Int} {st st' : Arr1010 F} {ls ls' : List Str}
    (hi : Inv1010 na nv st) (hs : step1010 cd na nv st ls = .ok (st', ls')) :
    Inv1010 na nv st' := by
  unfold step1010 at hs
  obtain ⟨⟨st1, ls1⟩, hd, hs⟩ := ok_of_bind hs
  obtain ⟨i1, i2, i3⟩ := inv_data1_1010 hd hi.1
  unfold data2_1010 at hs
  obtain ⟨⟨v, rest⟩, _, hs⟩ := ok_of_bind hs
  obtain ⟨cols, hc, hs⟩ := ok_of_bind hs
  injection hs with hs
  rw [← (Prod.mk.inj hs).1]
  refine ⟨i1, ?_⟩
  rw [i2] at hc
  simpa [i3] using appendCols_rect hc hi.2

theorem shape_1010 {cd : Codec F} {text : Str} {r r' : NA1010 F}
    (h : readData1010 cd text r = .ok r') : DataShape (.o1010 r') := by
  unfold readData1010 at h
  obtain ⟨a, h1, h⟩ := ok_of_bind h
  injection h with h
  subst h
  refine readDataWith_inv (I := Inv1010 r.aux.NAUXV r.v.NV) ?_ h1 ⟨emptyCols_rect _, emptyCols_rect _⟩
  intro st ls st' ls' hi hs
  exact inv_1010 hi hs

/-- Shape of the arrays while a 1020 file is read. -/
def Inv1020 (na nv nvpm : Int) (st : Arr1010 F) : Prop :=
  Rect st.A na.toNat st.X.length ∧
    Rect st.V nv.toNat (st.X.length * nvpm.toNat)

theorem inv_1020 {cd : Codec F} {na nv nvpm : Int} {st st' : Arr1010 F} {ls ls' : List Str}
    (hi : Inv1020 na nv nvpm st) (hs : step1020 cd na nv nvpm st ls = .ok (st', ls')) :
    Inv1020 na nv nvpm st' := by
  unfold step1020 at hs
  obtain ⟨⟨st1, ls1⟩, hd, hs⟩ := ok_of_bind hs
  obtain ⟨i1, i2, i3⟩ := inv_data1_1010 hd hi.1
  unfold data2_1020 at hs
  obtain ⟨⟨v, rest⟩, _, hs⟩ := ok_of_bind hs
  obtain ⟨cols, hc, hs⟩ := ok_of_bind hs
  injection hs with hs
  rw [← (Prod.mk.inj hs).1]
  refine ⟨i1, ?_⟩
  rw [i2] at hc
  have := appendBlocks_rect hc hi.2
  simp only [i3, Nat.succ_mul]
  exact this

theorem shape_1020 {cd : Codec F} {text : Str} {r r' : NA1020 F}
    (h : readData1020 cd text r = .ok r') : DataShape (.o1020 r') := by
  unfold readData1020 at h
  obtain ⟨a, h1, h⟩ := ok_of_bind h
  injection h with h
  subst h
  refine readDataWith_inv (I := Inv1020 r.aux.NAUXV r.v.NV r.NVPM) ?_ h1
    ⟨emptyCols_rect _, by simpa using emptyCols_rect _⟩
  intro st ls st' ls' hi hs
  exact inv_1020 hi hs

theorem popN_shaped {f : Nat → Res (List (Tree F) × Nat)} {dims : List Nat}
    (hf : ∀ c r, f c = .ok r → Shaped dims (.lst r.1)) {k c : Nat} {r : List (Tree F) × Nat}
    (h : popN f k c = .ok r) : r.1.length = k ∧ ∀ t ∈ r.1, Shaped dims t := by
  induction k generalizing c r with
  | zero => injection h with h; subst h; simp
  | succ k ih =>
    unfold popN at h
    obtain ⟨⟨t, c1⟩, h1, h⟩ := ok_of_bind h
    obtain ⟨⟨ts, c2⟩, h2, h⟩ := ok_of_bind h
    injection h with h
    subst h
    obtain ⟨i1, i2⟩ := ih h2
    refine ⟨by simpa using i1, ?_⟩
    intro t' ht'
    rcases List.mem_cons.1 ht' with rfl | ht'
    · exact hf _ _ h1
    · exact i2 t' ht'

theorem populate_shaped {dims : List Nat} {arr : List F} {c : Nat} {r : List (Tree F) × Nat}
    (h : populate dims arr c = .ok r) : Shaped dims (.lst r.1) := by
  induction dims generalizing c r with
  | nil => cases h
  | cons d ds ih =>
    cases ds with
    | nil =>
      unfold populate at h
      obtain ⟨xs, h1, h⟩ := ok_of_bind h
      injection h with h
      subst h
      have := mapRes_ok_length _ _ _ h1
      refine ⟨by simpa using this, ?_⟩
      intro t ht
      obtain ⟨x, _, rfl⟩ := List.mem_map.1 ht
      trivial
    | cons d2 ds =>
      unfold populate at h
      exact popN_shaped (fun c r hc => ih hc) h

theorem popVars_shape {cd : Codec F} {size : Int} {dims : List Nat} {V V' : List (List (Tree F))}
    {ls ls' : List Str} {m : Nat} (h : popVars cd size dims V ls = .ok (V', ls'))
    (hm : ∀ col ∈ V, col.length = m) (hs : ∀ col ∈ V, ∀ t ∈ col, Shaped dims t) :
    V'.length = V.length ∧ (∀ col ∈ V', col.length = m + 1) ∧ ∀ col ∈ V', ∀ t ∈ col, Shaped dims t := by
  induction V generalizing V' ls ls' with
  | nil => injection h with h; have := (Prod.mk.inj h).1; subst this; simp
  | cons c cs ih =>
    unfold popVars at h
    obtain ⟨⟨v, rest⟩, _, h⟩ := ok_of_bind h
    obtain ⟨⟨t, c1⟩, hp, h⟩ := ok_of_bind h
    obtain ⟨⟨cols', ls2⟩, h2, h⟩ := ok_of_bind h
    injection h with h
    have := (Prod.mk.inj h).1
    subst this
    obtain ⟨i1, i2, i3⟩ := ih h2 (fun c hc => hm c (by simp [hc])) (fun c hc => hs c (by simp [hc]))
    refine ⟨by simp [i1], ?_, ?_⟩
    · intro col hc
      rcases List.mem_cons.1 hc with rfl | hc
      · simp [hm c (by simp)]
      · exact i2 col hc
    · intro col hc
      rcases List.mem_cons.1 hc with rfl | hc
      · intro u hu
        rcases List.mem_append.1 hu with hu | hu
        · exact hs c (by simp) u hu
        · rw [List.mem_singleton] at hu; subst hu; exact populate_shaped hp
      · exact i3 col hc

/-- Shape of the arrays while a 2010 file is read. -/
def Inv2010 (na nv : Int) (nx : List Int) (st : Arr2010 F) : Prop :=
  Rect st.A na.toNat st.X0.length ∧
    Rect st.V nv.toNat st.X0.length ∧ ∀ col ∈ st.V, ∀ t ∈ col, Shaped (natDims nx) t

theorem inv_2010 {cd : Codec F} {na nv : Int} {nx : List Int} {st st' : Arr2010 F} {ls ls' : List Str}
    (hi : Inv2010 na nv nx st) (hs : step2010 cd na nx st ls = .ok (st', ls')) :
    Inv2010 na nv nx st' := by
  unfold step2010 at hs
  obtain ⟨⟨st1, ls1⟩, hd, hs⟩ := ok_of_bind hs
  have hd' : Rect st1.A na.toNat st1.X0.length ∧ st1.V = st.V ∧
      st1.X0.length = st.X0.length + 1 := by
    unfold data1_2010 at hd
    obtain ⟨⟨xv, rest⟩, _, hd⟩ := ok_of_bind hd
    cases xv with
    | nil => cases hd
    | cons x v =>
      obtain ⟨cols, hc, hd⟩ := ok_of_bind hd
      injection hd with hd
      rw [← (Prod.mk.inj hd).1]
      exact ⟨by simpa using appendCols_rect hc hi.1, rfl, by simp⟩
  obtain ⟨i1, i2, i3⟩ := hd'
  unfold data2_2010 at hs
  dsimp only at hs
  split at hs
  · cases hs
  · obtain ⟨⟨cols, rest⟩, hc, hs⟩ := ok_of_bind hs
    injection hs with hs
    rw [← (Prod.mk.inj hs).1]
    rw [i2] at hc
    obtain ⟨j1, j2, j3⟩ := popVars_shape hc hi.2.1.2 hi.2.2
    refine ⟨i1, ⟨?_, ?_⟩, j3⟩
    · rw [j1]; exact hi.2.1.1
    · rw [i3]; exact j2

theorem shape_2010 {cd : Codec F} {text : Str} {r r' : NA2010 F} (h0 : r.X0 = [])
    (h : readData2010 cd text r = .ok r') : DataShape (.o2010 r') := by
  unfold readData2010 at h
  obtain ⟨a, h1, h⟩ := ok_of_bind h
  injection h with h
  subst h
  refine readDataWith_inv (I := Inv2010 r.aux.NAUXV r.v.NV r.NX) ?_ h1
    ⟨by simpa [h0] using emptyCols_rect _, by simpa [h0] using emptyCols_rect _, by simp [emptyCols]⟩
  intro st ls st' ls' hi hs
  exact inv_2010 hi hs

theorem readRagged_shape {cd : Codec F} {nv : Int} {k : Nat} {xs xs' : List F}
    {cols cols' : List (List F)} {ls ls' : List Str} {n : Int}
    (h : readRagged cd nv k xs cols ls = .ok (xs', cols', ls')) (hr : Rect cols n xs.length) :
    xs'.length = xs.length + k ∧ Rect cols' n xs'.length := by
  induction k generalizing xs cols ls with
  | zero =>
    injection h with h
    have e1 := (Prod.mk.inj h).1
    have e2 := (Prod.mk.inj (Prod.mk.inj h).2).1
    subst e1 e2
    exact ⟨rfl, hr⟩
  | succ k ih =>
    unfold readRagged at h
    obtain ⟨⟨xv, rest⟩, _, h⟩ := ok_of_bind h
    cases xv with
    | nil => cases h
    | cons x v =>
      obtain ⟨c2, hc, h⟩ := ok_of_bind h
      obtain ⟨i1, i2⟩ := ih h (by simpa using appendCols_rect hc hr)
      refine ⟨?_, i2⟩
      rw [i1]; simp; omega

theorem zipWith_shape {V : List (List (List F))} {cols : List (List F)} {NX : List Int} {nx : Int}
    {n : Nat} (hV : V.length = n) (hc : Rect cols n nx.toNat)
    (hm : ∀ vn ∈ V, vn.map List.length = NX.map Int.toNat) :
    (List.zipWith (fun vn c => vn ++ [c]) V cols).length = n ∧
    ∀ vn ∈ List.zipWith (fun vn c => vn ++ [c]) V cols,
      vn.map List.length = (NX ++ [nx]).map Int.toNat := by
  obtain ⟨h1, h2⟩ := hc
  refine ⟨by rw [List.length_zipWith]; omega, ?_⟩
  intro vn hvn
  rw [List.mem_iff_getElem] at hvn
  obtain ⟨i, hi, rfl⟩ := hvn
  rw [List.length_zipWith] at hi
  rw [List.getElem_zipWith, List.map_append, hm _ (List.getElem_mem _), List.map_append]
  simp [h2 _ (List.getElem_mem _)]

/-- Shape of the arrays while a 2110 file is read. -/
def Inv2110 (na nv : Int) (st : Arr2110 F) : Prop :=
  Rect st.A na.toNat st.X.length ∧
      st.X.map (fun x => x.2.length) = st.NX.map Int.toNat ∧
      st.V.length = nv.toNat ∧ ∀ vn ∈ st.V, vn.map List.length = st.NX.map Int.toNat

theorem inv_2110 {cd : Codec F} {na nv : Int} {st st' : Arr2110 F} {ls ls' : List Str}
    (hi : Inv2110 na nv st) (hs : step2110 cd na nv st ls = .ok (st', ls')) :
    Inv2110 na nv st' := by
  unfold step2110 at hs
  obtain ⟨⟨st1, nx, x, ls1⟩, hd, hs⟩ := ok_of_bind hs
  unfold data1_2110 at hd
  obtain ⟨⟨xv, rest⟩, _, hd⟩ := ok_of_bind hd
  cases xv with
  | nil => cases hd
  | cons x v =>
    obtain ⟨cols, hc, hd⟩ := ok_of_bind hd
    obtain ⟨a0, _, hd⟩ := ok_of_bind hd
    obtain ⟨nx', _, hd⟩ := ok_of_bind hd
    injection hd with hd
    have e1 := (Prod.mk.inj hd).1
    have e2 := (Prod.mk.inj (Prod.mk.inj hd).2).1
    subst e1 e2
    unfold data2_2110 at hs
    obtain ⟨⟨xs, cs, ls2⟩, hr, hs⟩ := ok_of_bind hs
    injection hs with hs
    rw [← (Prod.mk.inj hs).1]
    obtain ⟨j1, j2⟩ := readRagged_shape hr (emptyCols_rect nv)
    obtain ⟨i1, i2, i3, i4⟩ := hi
    have j3 : xs.length = nx'.toNat := by simpa using j1
    obtain ⟨z1, z2⟩ := zipWith_shape i3 (by rw [← j3]; exact j2) i4
    refine ⟨by simpa using appendCols_rect hc i1, ?_, z1, z2⟩
    simp [i2, j3]

theorem shape_2110 {cd : Codec F} {text : Str} {r r' : NA2110 F}
    (h : readData2110 cd text r = .ok r') : DataShape (.o2110 r') := by
  unfold readData2110 at h
  obtain ⟨a, h1, h⟩ := ok_of_bind h
  injection h with h
  subst h
  refine readDataWith_inv (I := Inv2110 r.aux.NAUXV r.v.NV) ?_ h1
    ⟨emptyCols_rect _, rfl, by simp [emptyCols], by simp [emptyCols]⟩
  intro st ls st' ls' hi hs
  exact inv_2110 hi hs

/-- Shape of the arrays while a 2310 file is read. -/
def Inv2310 (na nv : Int) (st : Arr2110 F) : Prop :=
  Rect st.A na.toNat st.X.length ∧
      st.X.map (fun x => x.2.length) = st.NX.map (fun _ => 1) ∧
      st.V.length = nv.toNat ∧ ∀ vn ∈ st.V, vn.map List.length = st.NX.map Int.toNat

theorem inv_2310 {cd : Codec F} {na nv : Int} {st st' : Arr2110 F} {ls ls' : List Str}
    (hi : Inv2310 na nv st) (hs : step2310 cd na nv st ls = .ok (st', ls')) :
    Inv2310 na nv st' := by
  unfold step2310 at hs
  obtain ⟨⟨st1, nx, ls1⟩, hd, hs⟩ := ok_of_bind hs
  unfold data1_2310 at hd
  obtain ⟨⟨xv, rest⟩, _, hd⟩ := ok_of_bind hd
  cases xv with
  | nil => cases hd
  | cons x v =>
    obtain ⟨cols, hc, hd⟩ := ok_of_bind hd
    obtain ⟨a1, _, hd⟩ := ok_of_bind hd
    obtain ⟨a0, _, hd⟩ := ok_of_bind hd
    obtain ⟨nx', _, hd⟩ := ok_of_bind hd
    obtain ⟨a2, _, hd⟩ := ok_of_bind hd
    obtain ⟨d, _, hd⟩ := ok_of_bind hd
    injection hd with hd
    have e1 := (Prod.mk.inj hd).1
    have e2 := (Prod.mk.inj (Prod.mk.inj hd).2).1
    subst e1 e2
    unfold data2_2310 at hs
    obtain ⟨⟨vs, ls2⟩, _, hs⟩ := ok_of_bind hs
    obtain ⟨cs, hb, hs⟩ := ok_of_bind hs
    injection hs with hs
    rw [← (Prod.mk.inj hs).1]
    obtain ⟨i1, i2, i3, i4⟩ := hi
    have hb' := appendBlocks_rect hb (emptyCols_rect nv)
    rw [Nat.zero_add] at hb'
    obtain ⟨z1, z2⟩ := zipWith_shape i3 hb' i4
    refine ⟨by simpa using appendCols_rect hc i1, ?_, z1, z2⟩
    simp [i2]

theorem shape_2310 {cd : Codec F} {text : Str} {r r' : NA2110 F}
    (h : readData2310 cd text r = .ok r') : DataShape (.o2310 r') := by
  unfold readData2310 at h
  obtain ⟨a, h1, h⟩ := ok_of_bind h
  injection h with h
  subst h
  refine readDataWith_inv (I := Inv2310 r.aux.NAUXV r.v.NV) ?_ h1
    ⟨emptyCols_rect _, rfl, by simp [emptyCols], by simp [emptyCols]⟩
  intro st ls st' ls' hi hs
  exact inv_2310 hi hs

theorem slice_split {α : Type} (l : List α) (k : Int) : sliceTo l k ++ sliceFrom l k = l := by
  unfold sliceTo sliceFrom; split <;> simp

theorem rect_append {α : Type} {a b : List (List α)} {m : Nat} (n1 n2 : Nat)
    (h1 : Rect a n1 m) (h2 : Rect b n2 m) : Rect (a ++ b) (n1 + n2 : Nat) m := by
  obtain ⟨a1, a2⟩ := h1
  obtain ⟨b1, b2⟩ := h2
  refine ⟨by simp; omega, ?_⟩
  intro c hc
  rcases List.mem_append.1 hc with hc | hc
  · exact a2 c hc
  · exact b2 c hc

/-- Shape of the arrays while a 2160 file is read. -/
def Inv2160 (na nv : Int) (st : Arr2160 F) : Prop :=
  Rect st.A na.toNat st.X.length ∧
      st.X.map (fun x => x.2.length) = st.NX.map Int.toNat ∧
      st.V.length = nv.toNat ∧ ∀ vn ∈ st.V, vn.map List.length = st.NX.map Int.toNat

theorem inv_2160 {cd : Codec F} {na nc nv : Int} {st st' : Arr2160 F} {ls ls' : List Str}
    (hi : Inv2160 na nv st) (hs : step2160 cd na nc nv st ls = .ok (st', ls')) :
    Inv2160 na nv st' := by
  unfold step2160 at hs
  obtain ⟨⟨st1, nx, x, ls1⟩, hd, hs⟩ := ok_of_bind hs
  unfold data1_2160 at hd
  obtain ⟨⟨x1, rest⟩, _, hd⟩ := ok_of_bind hd
  obtain ⟨x', _, hd⟩ := ok_of_bind hd
  obtain ⟨⟨aux, rest2⟩, _, hd⟩ := ok_of_bind hd
  obtain ⟨a0, _, hd⟩ := ok_of_bind hd
  obtain ⟨nx', _, hd⟩ := ok_of_bind hd
  obtain ⟨ncs, hn, hd⟩ := ok_of_bind hd
  obtain ⟨cc, hc, hd⟩ := ok_of_bind hd
  injection hd with hd
  have e1 := (Prod.mk.inj hd).1
  have e2 := (Prod.mk.inj (Prod.mk.inj hd).2).1
  subst e1 e2
  unfold data2_2160 at hs
  obtain ⟨⟨xs, cs, ls2⟩, hr, hs⟩ := ok_of_bind hs
  injection hs with hs
  rw [← (Prod.mk.inj hs).1]
  obtain ⟨j1, j2⟩ := readRagged_shape hr (emptyCols_rect nv)
  obtain ⟨i1, i2, i3, i4⟩ := hi
  have j3 : xs.length = nx'.toNat := by simpa using j1
  obtain ⟨z1, z2⟩ := zipWith_shape i3 (by rw [← j3]; exact j2) i4
  have hsp := slice_split st.A (na - nc)
  have hA : Rect (ncs ++ cc) na.toNat (st.X.length + 1) := by
    have m1 : Rect (sliceTo st.A (na - nc))
        (sliceTo st.A (na - nc)).length st.X.length :=
      ⟨rfl, fun c hc => i1.2 c (by rw [← hsp]; exact List.mem_append_left _ hc)⟩
    have m2 : Rect (sliceFrom st.A (na - nc))
        (sliceFrom st.A (na - nc)).length st.X.length :=
      ⟨rfl, fun c hc => i1.2 c (by rw [← hsp]; exact List.mem_append_right _ hc)⟩
    have := rect_append _ _ (appendCols_rect hn m1) (appendCols_rect hc m2)
    rw [← List.length_append, hsp] at this
    have hl := i1.1
    rw [hl] at this
    exact this
  refine ⟨by simpa using hA, ?_, z1, z2⟩
  simp [i2, j3]

theorem shape_2160 {cd : Codec F} {text : Str} {r r' : NA2160 F}
    (h : readData2160 cd text r = .ok r') : DataShape (.o2160 r') := by
  unfold readData2160 at h
  obtain ⟨a, h1, h⟩ := ok_of_bind h
  injection h with h
  subst h
  refine readDataWith_inv (I := Inv2160 r.aux.NAUXV r.v.NV) ?_ h1
    ⟨emptyCols_rect _, rfl, by simp [emptyCols], by simp [emptyCols]⟩
  intro st ls st' ls' hi hs
  exact inv_2160 hi hs

end Nappy
