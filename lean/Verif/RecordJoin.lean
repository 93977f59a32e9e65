import Verif.RecordLemmas

/-! Lemmas about data sections put together or cut (C84, C85). -/

namespace Nappy

open Spec

variable {F : Type}

theorem blocks_append {ρ : Type} {R : List Str → ρ → Prop} {a b : List Str} {p q : List ρ} (h1 : Blocks R a p)
    (h2 : Blocks R b q) : Blocks R (a ++ b) (p ++ q) := by
  obtain ⟨H1, rfl, f1⟩ := h1
  obtain ⟨H2, rfl, f2⟩ := h2
  exact ⟨H1 ++ H2, by simp, List.rel_append f1 f2⟩

theorem columns_append {α : Type} (n : Nat) (a b : List (List α)) :
    columns n (a ++ b) = List.zipWith (· ++ ·) (columns n a) (columns n b) := by
  apply List.ext_getElem
  · simp [columns]
  · intro i h1 h2; simp [columns]

theorem range_append {α : Type} (n : Nat) (f g : Nat → List α) :
    ((List.range n).map fun j => f j ++ g j) = List.zipWith (· ++ ·) ((List.range n).map f) ((List.range n).map g) := by
  apply List.ext_getElem
  · simp
  · intro i h1 h2; simp

theorem dataOn_append {cd : Codec F} {a b : List Str} {o oa ob : Obj F} (h1 : DataOn cd a o oa)
    (h2 : DataOn cd b o ob) : DataOn cd (a ++ b) o (joined o oa ob) := by
  cases o <;> cases oa <;> first | exact h1.elim | skip
  all_goals (cases ob <;> first | exact h2.elim | skip)
  all_goals
    obtain ⟨p, b1, rfl⟩ := h1
    obtain ⟨q, b2, rfl⟩ := h2
    refine ⟨p ++ q, blocks_append b1 b2, ?_⟩
    simp only [List.map_append, columns_append, List.flatten_append, range_append, List.drop_left, List.append_assoc]

/-! ### Cut sections -/

/-- `L` is the beginning of `H`, not all of it. -/
def Cut (L H : List Str) : Prop := L <+: H ∧ L ≠ H

theorem cut_append {L A B : List Str} (h : Cut L (A ++ B)) : Cut L A ∨ ∃ M, L = A ++ M ∧ Cut M B := by
  obtain ⟨h1, h2⟩ := h
  by_cases hl : L.length < A.length
  · left
    refine ⟨List.prefix_of_prefix_length_le h1 (List.prefix_append A B) (by omega), ?_⟩
    rintro rfl; omega
  · right
    obtain ⟨M, rfl⟩ := List.prefix_of_prefix_length_le (List.prefix_append A B) h1 (by omega)
    refine ⟨M, rfl, (List.prefix_append_right_inj A).1 h1, ?_⟩
    rintro rfl; exact h2 rfl

theorem unkGo_short (n : Nat) (ls acc : List Str) (h : acc.length + (allItems ls).length < n) :
    unkGo .index n ls acc = .error .index := by
  induction ls generalizing acc with
  | nil => rfl
  | cons l ls ih =>
    rw [allItems_cons, List.length_append] at h
    unfold unkGo
    have ht : (lineItems l).take n = lineItems l := List.take_of_length_le (by omega)
    dsimp only
    rw [ht, if_pos (by rw [List.length_append]; omega)]
    exact ih _ (by rw [List.length_append]; omega)

theorem allItems_prefix {L H : List Str} (h : L <+: H) : (allItems L).length ≤ (allItems H).length := by
  obtain ⟨M, rfl⟩ := h
  simp [allItems]

theorem readUnkList_cut {β : Type} {conv : Str → Res β} {n : Int} {H L : List Str} {xs : List β}
    (h : ListOn conv n H xs) (hc : Cut L H) : readUnkList n conv L = .error .index := by
  obtain ⟨pre, l, rfl, h1, h2, h3, h4⟩ := (listOn_iff _ _ _ _).1 h
  have hp : L <+: pre := by
    rcases cut_append hc with h | ⟨M, rfl, h5, h6⟩
    · exact h.1
    · cases M with
      | nil => simp
      | cons m ms =>
        obtain ⟨k, hk⟩ := h5
        simp only [List.cons_append, List.cons.injEq, List.append_eq_nil_iff] at hk
        obtain ⟨rfl, rfl, _⟩ := hk
        exact absurd rfl h6
  have := allItems_prefix hp
  unfold readUnkList readUnk
  rw [if_neg (by omega), unkGo_short n.toNat L [] (by simp; omega)]
  rfl

theorem bind_error {α β : Type} {x : Res α} {f : α → Res β} {e : Err} (h : x = .error e) : (x >>= f) = .error e := by
  rw [h]; rfl

theorem bind_ok {α β : Type} {x : Res α} {f : α → Res β} {a : α} {r : Res β} (h : x = .ok a) (h2 : f a = r) :
    (x >>= f) = r := by
  rw [h]; exact h2

/-- A pass over the beginning of a record runs out of lines. -/
def CutOn {σ ρ : Type} (step : σ → List Str → Res (σ × List Str)) (R : List Str → ρ → Prop)
    (built : List ρ → σ) : Prop :=
  ∀ recs H p L, R H p → Cut L H → step (built recs) L = .error .index

theorem cutOn_1001 (cd : Codec F) (nv : Int) (b : List (F × List F) → List F × List (List F)) :
    CutOn (step1001 cd nv) (fun H p => ListOn cd.float (1 + nv) H (p.1 :: p.2)) b :=
  fun _ _ _ _ h hc => bind_error (readUnkList_cut h hc)

theorem cutOn_1010 (cd : Codec F) (na nv : Int) :
    CutOn (step1010 cd na nv) (RecOn cd na nv)
      (fun recs => { X := recs.map (·.x), A := columns na.toNat (recs.map (·.aux)),
                     V := columns nv.toNat (recs.map (·.vals)) }) := by
  rintro recs H p L ⟨H1, H2, rfl, l1, l2⟩ hc
  rcases cut_append hc with hc | ⟨M, rfl, hd'⟩
  · exact bind_error (bind_error (readUnkList_cut l1 hc))
  · exact bind_ok ((data1_1010_on cd na _ _ _ rfl _ _).2 ⟨H1, p.x, p.aux, rfl, l1, rfl⟩)
      (bind_error (readUnkList_cut l2 hd'))

theorem cutOn_1020 (cd : Codec F) (na nv nvpm : Int) :
    CutOn (step1020 cd na nv nvpm) (RecOn cd na (nv * nvpm))
      (fun recs => { X := recs.map (·.x), A := columns na.toNat (recs.map (·.aux)),
                     V := (List.range nv.toNat).map fun j =>
                       (recs.map fun p => part nvpm.toNat j p.vals).flatten }) := by
  rintro recs H p L ⟨H1, H2, rfl, l1, l2⟩ hc
  rcases cut_append hc with hc | ⟨M, rfl, hd'⟩
  · exact bind_error (bind_error (readUnkList_cut l1 hc))
  · exact bind_ok ((data1_1010_on cd na _ _ _ rfl _ _).2 ⟨H1, p.x, p.aux, rfl, l1, rfl⟩)
      (bind_error (readUnkList_cut l2 hd'))

theorem popVars_cut (cd : Codec F) (nx : List Int) (hne : nx ≠ []) (cols : List (List (Tree F)))
    {H L : List Str} {ts : List (Tree F)} (hb : Blocks (ArrayOn cd nx) H ts) (hl : ts.length = cols.length)
    (hc : Cut L H) : popVars cd (arraySize nx) (natDims nx) cols L = .error .index := by
  have hd : natDims nx ≠ [] := by simpa [natDims] using hne
  induction cols generalizing H L ts with
  | nil =>
    have : ts = [] := by simpa using hl
    subst this
    obtain ⟨Hs, rfl, hf⟩ := hb
    cases hf
    exact absurd (List.prefix_nil.1 hc.1) hc.2
  | cons c cs ih =>
    cases ts with
    | nil => simp at hl
    | cons t ts =>
      obtain ⟨H1, H2, rfl, ⟨v, l1, s1, s2⟩, hb2⟩ := (blocks_cons _ _ _).1 hb
      unfold popVars
      rcases cut_append hc with hc | ⟨M, rfl, hd'⟩
      · exact bind_error (readUnkList_cut l1 hc)
      · obtain ⟨l, rfl⟩ := shaped_lst hd s1
        have hn := listOn_length l1
        obtain ⟨c1, hp⟩ := (populate_iff nx hne v hn.1 hn.2.1 l).2 ⟨s1, s2⟩
        exact bind_ok ((readUnkList_on _ _ _ _ _).2 ⟨H1, rfl, l1⟩)
          (bind_ok hp (bind_error (ih hb2 (by simpa using hl) hd')))

theorem cutOn_2010 (cd : Codec F) (na nv : Int) (nx : List Int) (x0 : List F) :
    CutOn (step2010 cd na nx) (RecOn2010 cd na nv nx)
      (fun recs => { X0 := x0 ++ recs.map (·.x), A := columns na.toNat (recs.map (·.aux)),
                     V := columns nv.toNat (recs.map (·.vals)) }) := by
  rintro recs H p L ⟨H1, H2, rfl, l1, hb, hl, hv, hne⟩ hc
  rcases cut_append hc with hc | ⟨M, rfl, hd'⟩
  · exact bind_error (bind_error (readUnkList_cut l1 hc))
  · refine bind_ok ((data1_2010_on cd na _ _ _ rfl _ _).2 ⟨H1, p.x, p.aux, rfl, l1, rfl⟩) ?_
    unfold data2_2010
    dsimp only
    rw [if_neg (by rw [List.isEmpty_iff_length_eq_zero, columns_length]; omega)]
    exact bind_error (popVars_cut cd nx hne _ hb (by rw [columns_length]; exact hl) hd')

theorem readRagged_cut (cd : Codec F) (nv : Int) (k : Nat) (xs : List F) (rows : List (List F))
    {H L : List Str} {pts : List (F × List F)}
    (hb : Blocks (fun H (p : F × List F) => ListOn cd.float (nv + 1) H (p.1 :: p.2)) H pts) (hl : pts.length = k)
    (hc : Cut L H) : readRagged cd nv k xs (columns nv.toNat rows) L = .error .index := by
  induction k generalizing xs rows H L pts with
  | zero =>
    have : pts = [] := by simpa using hl
    subst this
    obtain ⟨Hs, rfl, hf⟩ := hb
    cases hf
    exact absurd (List.prefix_nil.1 hc.1) hc.2
  | succ k ih =>
    cases pts with
    | nil => simp at hl
    | cons p pts =>
      obtain ⟨x, v⟩ := p
      obtain ⟨H1, H2, rfl, l1, hb2⟩ := (blocks_cons _ _ _).1 hb
      unfold readRagged
      rcases cut_append hc with hc | ⟨M, rfl, hd'⟩
      · exact bind_error (readUnkList_cut l1 hc)
      · have hn := listOn_length l1
        rw [List.length_cons] at hn
        dsimp only at hn
        have hcc := (appendCols_columns nv.toNat rows v _).2 ⟨by omega, rfl⟩
        exact bind_ok ((readUnkList_on _ _ _ _ _).2 ⟨H1, rfl, l1⟩)
          (bind_ok hcc (ih _ _ hb2 (by simpa using hl) hd'))

theorem cutOn_2110 (cd : Codec F) (na nv : Int) (dx : List F) :
    CutOn (step2110 cd na nv) (RecOn2110 cd na nv)
      (fun recs => { NX := recs.map (·.nx), X := recs.map fun p => (p.x, p.vals.map (·.1)),
                     A := columns na.toNat (recs.map (·.aux)),
                     V := (List.range nv.toNat).map fun j => recs.map fun p => p.vals.filterMap (·.2[j]?),
                     DX := dx }) := by
  rintro recs H p L ⟨H1, H2, a0, rfl, l1, ha, hn, hb, hl⟩ hc
  rcases cut_append hc with hc | ⟨M, rfl, hd'⟩
  · exact bind_error (bind_error (readUnkList_cut l1 hc))
  · have hc1 := listOn_length l1
    rw [List.length_cons] at hc1
    have hcc := (appendCols_columns na.toNat (recs.map (·.aux)) p.aux _).2 ⟨by omega, rfl⟩
    have h2 := readRagged_cut cd nv p.nx.toNat [] [] hb hl hd'
    rw [columns_nil] at h2
    exact bind_ok (bind_ok ((readUnkList_on _ _ _ _ _).2 ⟨H1, rfl, l1⟩)
      (bind_ok hcc (bind_ok ((idx_iff _ _ _).2 ha) (bind_ok hn rfl)))) (bind_error h2)

theorem cutOn_2310 (cd : Codec F) (na nv : Int) (dx : List F) :
    CutOn (step2310 cd na nv) (RecOn2310 cd na nv)
      (fun recs => { NX := recs.map (·.nx), X := recs.map fun p => (p.x, p.aux[1]?.toList),
                     A := columns na.toNat (recs.map (·.aux)),
                     V := (List.range nv.toNat).map fun j => recs.map fun p => part p.nx.toNat j p.vals,
                     DX := dx ++ recs.map fun p => cd.ofInt p.step }) := by
  rintro recs H p L ⟨H1, H2, a0, a1, a2, rfl, l1, ha0, ha1, ha2, hn, hd, l2⟩ hc
  rcases cut_append hc with hc | ⟨M, rfl, hd'⟩
  · exact bind_error (bind_error (readUnkList_cut l1 hc))
  · have hc1 := listOn_length l1
    rw [List.length_cons] at hc1
    have hcc := (appendCols_columns na.toNat (recs.map (·.aux)) p.aux _).2 ⟨by omega, rfl⟩
    exact bind_ok (bind_ok ((readUnkList_on _ _ _ _ _).2 ⟨H1, rfl, l1⟩)
      (bind_ok hcc (bind_ok ((idx_iff _ _ _).2 ha1) (bind_ok ((idx_iff _ _ _).2 ha0) (bind_ok hn
        (bind_ok ((idx_iff _ _ _).2 ha2) (bind_ok hd rfl)))))))
      (bind_error (readUnkList_cut l2 hd'))

theorem appendCols_short {α : Type} (cols : List (List α)) (v : List α) (h : v.length < cols.length) :
    appendCols cols v = .error .index := by
  induction cols generalizing v with
  | nil => simp at h
  | cons c cs ih =>
    cases v with
    | nil => rfl
    | cons x v => exact bind_error (ih v (by simpa using h))

theorem cutOn_2160 (cd : Codec F) (na nc nv : Int) (hnc : 0 ≤ nc) :
    CutOn (step2160 cd na nc nv) (RecOn2160 cd na nc nv)
      (fun recs => { NX := recs.map (·.nx), X := recs.map fun p => (p.x, p.vals.map (·.1)),
                     A := columns na.toNat (recs.map fun p =>
                       (p.aux.take (na - nc).toNat).map .num ++ p.texts.map .str),
                     V := (List.range nv.toNat).map fun j => recs.map fun p => p.vals.filterMap (·.2[j]?) }) := by
  rintro recs H p L ⟨H0, H1, T, H2, a0, rfl, l0, l1, ha, hn, hT, ht, hb, hl⟩ hc
  have hx : idx [p.x] 0 = .ok p.x := rfl
  have hk := listOn_length l1
  rcases cut_append hc with hc | ⟨M1, rfl, hc1⟩
  · exact bind_error (bind_error (readUnkList_cut l0 hc))
  · rcases cut_append hc1 with hc | ⟨M2, rfl, hc2⟩
    · exact bind_error (bind_ok ((readUnkList_on _ _ _ _ _).2 ⟨H0, rfl, l0⟩) (bind_ok hx
        (bind_error (readUnkList_cut l1 hc))))
    · rcases cut_append hc2 with hc | ⟨M3, rfl, hc3⟩
      · have hM : M2.length < nc.toNat := by
          have h1 := hc.1.length_le
          have h2 : M2.length ≠ T.length := fun h => hc.2 (hc.1.eq_of_length h)
          omega
        refine bind_error (bind_ok ((readUnkList_on _ _ _ _ _).2 ⟨H0, rfl, l0⟩) (bind_ok hx
          (bind_ok ((readUnkList_on _ _ _ _ _).2 ⟨H1, rfl, l1⟩) (bind_ok ((idx_iff _ _ _).2 ha) (bind_ok hn
            (bind_ok ((appendCols_iff _ _ _).2 ⟨?_, rfl⟩) (bind_error (appendCols_short _ _ ?_))))))))
        · simp only [sliceTo, if_pos (show 0 ≤ na - nc by omega), List.length_take, columns_length, List.length_map]
          omega
        · simp only [sliceFrom, sliceTo, if_pos (show 0 ≤ na - nc by omega), if_pos hnc, List.length_drop, columns_length,
            List.length_map, readItemsFromLines, List.length_take]
          omega
      · have h2 := readRagged_cut cd nv p.nx.toNat [] [] hb hl hc3
        rw [columns_nil] at h2
        exact bind_ok ((data1_2160_on cd na nc hnc _ _ _ rfl _ _ _ _).2
          ⟨H0, H1, T, p.aux, p.texts, a0, rfl, l0, l1, ha, hn, hT, ht, rfl⟩) (bind_error h2)

theorem readLoop_cut {σ ρ : Type} {step : σ → List Str → Res (σ × List Str)} {R : List Str → ρ → Prop}
    {built : List ρ → σ} (hs : StepOn step R built) (hcut : CutOn step R built) (hR : ∀ H p, R H p → H ≠ []) (k : Nat)
    (recs more : List ρ) (U L : List Str) (hk : L.length ≤ k) (hb : Blocks R U more) (hc : L <+: U) :
    readLoop step k (built recs) L = .error .index ∨
      ∃ M p q, U = L ++ M ∧ Blocks R L p ∧ Blocks R M q ∧ more = p ++ q := by
  induction more generalizing k recs U L with
  | nil =>
    obtain ⟨Hs, rfl, hf⟩ := hb
    cases hf
    have : L = [] := List.prefix_nil.1 hc
    subst this
    exact .inr ⟨[], [], [], rfl, ⟨[], rfl, .nil⟩, ⟨[], rfl, .nil⟩, rfl⟩
  | cons p more ih =>
    obtain ⟨H, W, rfl, hp, hb2⟩ := (blocks_cons _ _ _).1 hb
    cases L with
    | nil => exact .inr ⟨H ++ W, [], p :: more, rfl, ⟨[], rfl, .nil⟩, hb, rfl⟩
    | cons l ls =>
      cases k with
      | zero => simp at hk
      | succ k =>
        by_cases hlen : (l :: ls).length < H.length
        · left
          unfold readLoop
          refine bind_error (hcut _ _ _ _ hp ⟨List.prefix_of_prefix_length_le hc (List.prefix_append H W) (by omega), ?_⟩)
          intro h; rw [h] at hlen; omega
        · obtain ⟨N, hN⟩ := List.prefix_of_prefix_length_le (List.prefix_append H W) hc (by omega)
          rw [← hN] at hc
          have hcN : N <+: W := (List.prefix_append_right_inj H).1 hc
          have hH := List.length_pos_iff.2 (hR _ _ hp)
          have hNk : N.length ≤ k := by
            have := congrArg List.length hN
            simp only [List.length_append, List.length_cons] at this hk
            omega
          rcases ih k (recs ++ [p]) W N hNk hb2 hcN with h | ⟨M, p', q, e, b1, b2, e2⟩
          · left
            unfold readLoop
            exact bind_ok ((hs _ _ _ _).2 ⟨H, p, hN.symm, hp, rfl⟩) h
          · right
            refine ⟨M, p :: p', q, by rw [e, ← hN, List.append_assoc], ?_, b2, by rw [e2]; rfl⟩
            rw [← hN]
            exact (blocks_cons _ _ _).2 ⟨H, N, rfl, hp, b1⟩

theorem readDataWith_cut {σ ρ : Type} {step : σ → List Str → Res (σ × List Str)} {R : List Str → ρ → Prop}
    {built : List ρ → σ} (hs : StepOn step R built) (hcut : CutOn step R built) (hR : ∀ H p, R H p → H ≠ [])
    (text text' : Str) (n : Int) (used : List Str) (recs : List ρ) (hu : Upper (sliceFrom (fileLines text) n) used)
    (hb : Blocks R used recs) (hp : sliceFrom (fileLines text') n <+: sliceFrom (fileLines text) n) :
    readDataWith step (built []) text' n = .error .index ∨
      ∃ used1 used2 p q, Upper (sliceFrom (fileLines text') n) used1 ∧ used = used1 ++ used2 ∧ Blocks R used1 p ∧
        Blocks R used2 q ∧ recs = p ++ q := by
  generalize sliceFrom (fileLines text) n = U at hu hp
  unfold readDataWith
  generalize sliceFrom (fileLines text') n = L at hp
  obtain ⟨blanks, rfl, h1, h2⟩ := hu
  by_cases hl : L.length ≤ used.length
  · have hL : L <+: used := List.prefix_of_prefix_length_le hp (List.prefix_append _ _) hl
    have hu : Upper L L := ⟨[], by simp, fun l hl => h1 l (hL.subset hl), by simp⟩
    rcases readLoop_cut hs hcut hR L.length [] recs used L (Nat.le_refl _) hb hL with h | ⟨M, p, q, e, b1, b2, e2⟩
    · exact .inl (bind_ok ((checkBlank_iff _ _).2 hu) h)
    · exact .inr ⟨L, M, p, q, hu, e, b1, b2, e2⟩
  · obtain ⟨B, rfl⟩ := List.prefix_of_prefix_length_le (List.prefix_append used blanks) hp (by omega)
    have hB : B <+: blanks := (List.prefix_append_right_inj used).1 hp
    exact .inr ⟨used, [], recs, [], ⟨B, rfl, h1, fun l hl => h2 l (hB.subset hl)⟩, by simp, hb, ⟨[], rfl, .nil⟩, by simp⟩

theorem readData_cut {cd : Codec F} {text text' : Str} {o o' : Obj F} (hc : CharCount o)
    (h : o.readData cd text = .ok o') (hp : dataLines text' o <+: dataLines text o) :
    o.readData cd text' = .error .index ∨ ∃ used1 used2 oa ob, Upper (dataLines text' o) used1 ∧
      Upper (dataLines text o) (used1 ++ used2) ∧ DataOn cd used1 o oa ∧ DataOn cd used2 o ob ∧ o' = joined o oa ob := by
  have two : ∀ {A B : List Str}, A ≠ [] → A ++ B ≠ [] := fun h e => h (List.append_eq_nil_iff.1 e).1
  suffices hh : o.readData cd text' = .error .index ∨ ∃ used1 used2 oa ob, Upper (dataLines text' o) used1 ∧
      Upper (dataLines text o) (used1 ++ used2) ∧ DataOn cd used1 o oa ∧ DataOn cd used2 o ob by
    rcases hh with hh | ⟨u1, u2, oa, ob, h1, h2, h3, h4⟩
    · exact .inl hh
    · refine .inr ⟨u1, u2, oa, ob, h1, h2, h3, h4, ?_⟩
      have := (readData_on hc).2 ⟨_, h2, dataOn_append h3 h4⟩
      rw [h] at this
      injection this
  obtain ⟨used, hu, hd⟩ := (readData_on hc).1 h
  cases o with
  | o1001 r =>
    cases o' with
    | o1001 r' =>
      obtain ⟨recs, hb, rfl⟩ := hd
      have key := readDataWith_cut (stepOn_1001 cd r.v.NV) (cutOn_1001 cd r.v.NV _)
        (fun _ _ h => (listOn_length h).2.2) text text' r.c.NLHEAD used recs hu hb hp
      simp only [List.map_nil, columns_nil, List.append_nil, List.flatten_nil, range_empty] at key
      rcases key with key | ⟨u1, u2, p, q, g1, rfl, g3, g4, _⟩
      · exact .inl (bind_error (bind_error key))
      · exact .inr ⟨u1, u2, .o1001 _, .o1001 _, g1, hu, ⟨p, g3, rfl⟩, ⟨q, g4, rfl⟩⟩
    | _ => exact hd.elim
  | o1010 r =>
    cases o' with
    | o1010 r' =>
      obtain ⟨recs, hb, rfl⟩ := hd
      have key := readDataWith_cut (stepOn_1010 cd r.aux.NAUXV r.v.NV) (cutOn_1010 cd r.aux.NAUXV r.v.NV)
        (fun _ _ ⟨_, _, e, h, _⟩ => e ▸ two (listOn_length h).2.2) text text' r.c.NLHEAD used recs hu hb hp
      simp only [List.map_nil, columns_nil, List.append_nil, List.flatten_nil, range_empty] at key
      rcases key with key | ⟨u1, u2, p, q, g1, rfl, g3, g4, _⟩
      · exact .inl (bind_error (bind_error key))
      · exact .inr ⟨u1, u2, .o1010 _, .o1010 _, g1, hu, ⟨p, g3, rfl⟩, ⟨q, g4, rfl⟩⟩
    | _ => exact hd.elim
  | o1020 r =>
    cases o' with
    | o1020 r' =>
      obtain ⟨recs, hb, rfl⟩ := hd
      have key := readDataWith_cut (stepOn_1020 cd r.aux.NAUXV r.v.NV r.NVPM) (cutOn_1020 cd r.aux.NAUXV r.v.NV r.NVPM)
        (fun _ _ ⟨_, _, e, h, _⟩ => e ▸ two (listOn_length h).2.2) text text' r.c.NLHEAD used recs hu hb hp
      simp only [List.map_nil, columns_nil, List.append_nil, List.flatten_nil, range_empty] at key
      rcases key with key | ⟨u1, u2, p, q, g1, rfl, g3, g4, _⟩
      · exact .inl (bind_error (bind_error key))
      · exact .inr ⟨u1, u2, .o1020 _, .o1020 _, g1, hu, ⟨p, g3, rfl⟩, ⟨q, g4, rfl⟩⟩
    | _ => exact hd.elim
  | o2010 r =>
    cases o' with
    | o2010 r' =>
      obtain ⟨recs, hb, rfl⟩ := hd
      have key := readDataWith_cut (stepOn_2010 cd r.aux.NAUXV r.v.NV r.NX r.X0) (cutOn_2010 cd r.aux.NAUXV r.v.NV r.NX r.X0)
        (fun _ _ ⟨_, _, e, h, _⟩ => e ▸ two (listOn_length h).2.2) text text' r.c.NLHEAD used recs hu hb hp
      simp only [List.map_nil, columns_nil, List.append_nil, List.flatten_nil, range_empty] at key
      rcases key with key | ⟨u1, u2, p, q, g1, rfl, g3, g4, _⟩
      · exact .inl (bind_error (bind_error key))
      · exact .inr ⟨u1, u2, .o2010 _, .o2010 _, g1, hu, ⟨p, g3, rfl⟩, ⟨q, g4, rfl⟩⟩
    | _ => exact hd.elim
  | o2110 r =>
    cases o' with
    | o2110 r' =>
      obtain ⟨recs, hb, rfl⟩ := hd
      have key := readDataWith_cut (stepOn_2110 cd r.aux.NAUXV r.v.NV r.DX) (cutOn_2110 cd r.aux.NAUXV r.v.NV r.DX)
        (fun _ _ ⟨_, _, _, e, h, _⟩ => e ▸ two (listOn_length h).2.2) text text' r.c.NLHEAD used recs hu hb hp
      simp only [List.map_nil, columns_nil, List.append_nil, List.flatten_nil, range_empty] at key
      rcases key with key | ⟨u1, u2, p, q, g1, rfl, g3, g4, _⟩
      · exact .inl (bind_error (bind_error key))
      · exact .inr ⟨u1, u2, .o2110 _, .o2110 _, g1, hu, ⟨p, g3, rfl⟩, ⟨q, g4, rfl⟩⟩
    | _ => exact hd.elim
  | o2160 r =>
    cases o' with
    | o2160 r' =>
      obtain ⟨recs, hb, rfl⟩ := hd
      have key := readDataWith_cut (stepOn_2160 cd r.aux.NAUXV r.aux.NAUXC r.v.NV hc) (cutOn_2160 cd r.aux.NAUXV r.aux.NAUXC r.v.NV hc)
        (fun _ _ ⟨_, _, _, _, _, e, h, _⟩ => e ▸ two (listOn_length h).2.2) text text' r.c.NLHEAD used recs hu hb hp
      simp only [List.map_nil, columns_nil, List.append_nil, List.flatten_nil, range_empty] at key
      rcases key with key | ⟨u1, u2, p, q, g1, rfl, g3, g4, _⟩
      · exact .inl (bind_error (bind_error key))
      · exact .inr ⟨u1, u2, .o2160 _, .o2160 _, g1, hu, ⟨p, g3, rfl⟩, ⟨q, g4, rfl⟩⟩
    | _ => exact hd.elim
  | o2310 r =>
    cases o' with
    | o2310 r' =>
      obtain ⟨recs, hb, rfl⟩ := hd
      have key := readDataWith_cut (stepOn_2310 cd r.aux.NAUXV r.v.NV r.DX) (cutOn_2310 cd r.aux.NAUXV r.v.NV r.DX)
        (fun _ _ ⟨_, _, _, _, _, e, h, _⟩ => e ▸ two (listOn_length h).2.2) text text' r.c.NLHEAD used recs hu hb hp
      simp only [List.map_nil, columns_nil, List.append_nil, List.flatten_nil, range_empty] at key
      rcases key with key | ⟨u1, u2, p, q, g1, rfl, g3, g4, _⟩
      · exact .inl (bind_error (bind_error key))
      · exact .inr ⟨u1, u2, .o2310 _, .o2310 _, g1, hu, ⟨p, g3, rfl⟩, ⟨q, g4, rfl⟩⟩
    | _ => exact hd.elim

end Nappy
