import Verif.Spec.Accessors
import Verif.CoreLemmas
import Verif.UtilLemmas

/-! Lemmas on the metadata accessors. -/

namespace Nappy

open Spec

variable {F : Type}

theorem idx_of_get? {α : Type} {l : List α} {i : Nat} {a : α} (h : l[i]? = some a) : idx l i = .ok a := by
  unfold idx; rw [h]

theorem core_VNAME (ign : List Str) (o : Obj F) :
    (o.core ign).attr "VNAME" = pyStrs (varHeader o).VNAME ∧
    (o.core ign).attr "VMISS" = pyNums (varHeader o).VMISS ∧
    (o.core ign).attr "VSCAL" = pyNums (varHeader o).VSCAL ∧
    (o.core ign).attr "NV" = .int (varHeader o).NV ∧
    (o.core ign).attr "NIV" = .int (axisHeader o).1 ∧
    (o.core ign).attr "XNAME" = pyStrs (axisHeader o).2 := by
  simp only [core_get]
  cases o <;>
    simp [Obj.attrs, attrs2110, commonAttrs, varAttrs, auxAttrs, comAttrs, dictGet?, dictGet?_append,
      varHeader, axisHeader] <;> split <;> simp [dictGet?]


theorem mapRes_range_get {β : Type} (f : Nat → Res β) (P : Nat → β → Prop) (n : Nat)
    (h : ∀ i, i < n → ∃ b, f i = .ok b ∧ P i b) :
    ∃ l, mapRes f (List.range n) = .ok l ∧ l.length = n ∧
      ∀ (i : Nat), i < n → ∃ b, l[i]? = some b ∧ P i b := by
  have h' : ∀ i, ∃ b : Option β, i < n → ∃ c, b = some c ∧ f i = .ok c ∧ P i c := by
    intro i
    by_cases hi : i < n
    · obtain ⟨b, h1, h2⟩ := h i hi; exact ⟨some b, fun _ => ⟨b, rfl, h1, h2⟩⟩
    · exact ⟨none, fun hc => absurd hc hi⟩
  clear h
  have key : ∀ m, m ≤ n → ∃ l, mapRes f (List.range m) = .ok l ∧ l.length = m ∧
      ∀ (i : Nat), i < m → ∃ b, l[i]? = some b ∧ P i b := by
    intro m
    induction m with
    | zero => intro _; exact ⟨[], rfl, rfl, fun i hi => absurd hi (by omega)⟩
    | succ m ih =>
      intro hm
      obtain ⟨l, h1, h2, h3⟩ := ih (by omega)
      obtain ⟨b, hb⟩ := h' m
      obtain ⟨c, _, hc, hp⟩ := hb (by omega)
      refine ⟨l ++ [c], ?_, by simp [h2], ?_⟩
      · rw [List.range_succ]
        exact mapRes_append f _ _ _ _ h1 (by simp [mapRes, hc])
      · intro i hi
        by_cases him : i < m
        · obtain ⟨b, hb1, hb2⟩ := h3 i him
          exact ⟨b, by rw [List.getElem?_append_left (by omega)]; exact hb1, hb2⟩
        · have : i = m := by omega
          subst this
          exact ⟨c, by rw [List.getElem?_append_right (by omega)]; simp [h2], hp⟩
  exact key n (Nat.le_refl n)

theorem pyNums_item {l : List F} {i : Nat} {x : F} (h : l[i]? = some x) :
    (pyNums l).item i = .ok (.num x) := by
  simp only [pyNums, PyVal.item]; exact idx_of_get? (by simp [h])

theorem pyStrs_item {l : List Str} {i : Nat} {x : Str} (h : l[i]? = some x) :
    (pyStrs l : PyVal F).item i = .ok (.str x) := by
  simp only [pyStrs, PyVal.item]; exact idx_of_get? (by simp [h])

theorem getVariable_declared (cb : UnitsCallback) (ign : List Str) (o : Obj F) (i : Nat) {name : Str}
    {miss scale : F} (h : DeclaresVar o i name miss scale) :
    (o.core ign).getVariable cb i
      = .ok ((varAndUnits cb name).1, (varAndUnits cb name).2, .num miss, .num scale) := by
  obtain ⟨h1, h2, h3⟩ := h
  obtain ⟨e1, e2, e3, _⟩ := core_VNAME ign o
  simp only [NACore.getVariable, NACore.getMissingValue, NACore.getScaleFactor, e1, e2, e3,
    pyStrs_item h1, pyNums_item h2, pyNums_item h3, ok_bind, namedUnits]

theorem core_aux (ign : List Str) (o : Obj F) :
    (o.core ign).attr "NAUXV" = match o with
      | .o1001 _ => .none
      | _ => .int (auxCount o) := by
  simp only [core_get]
  cases o <;>
    simp [Obj.attrs, attrs2110, commonAttrs, varAttrs, auxAttrs, comAttrs, dictGet?, dictGet?_append,
      auxCount] <;> split <;> simp [dictGet?]

theorem core_NAUXC (ign : List Str) (o : Obj F) :
    (o.core ign).attr "NAUXC" = match o with
      | .o2160 r => .int r.aux.NAUXC
      | _ => .none := by
  simp only [core_get]
  cases o <;>
    simp [Obj.attrs, attrs2110, commonAttrs, varAttrs, auxAttrs, comAttrs, dictGet?, dictGet?_append] <;>
    split <;> simp [dictGet?]

/-- The auxiliary section of the formats with numbers only. -/
def plainAux : Obj F → Option (AuxHdr F)
  | .o1010 r => some r.aux
  | .o1020 r => some r.aux
  | .o2010 r => some r.aux
  | .o2110 r => some r.aux
  | .o2310 r => some r.aux
  | _ => none

theorem core_plain (ign : List Str) (o : Obj F) (a : AuxHdr F) (h : plainAux o = some a)
    (hp : 0 < a.NAUXV) :
    (o.core ign).attr "ANAME" = pyStrs a.ANAME ∧ (o.core ign).attr "AMISS" = pyNums a.AMISS ∧
      (o.core ign).attr "ASCAL" = pyNums a.ASCAL := by
  simp only [core_get]
  cases o <;> simp only [plainAux] at h <;> cases h <;>
    simp [Obj.attrs, attrs2110, commonAttrs, varAttrs, auxAttrs, comAttrs, dictGet?, dictGet?_append, hp]

theorem core_char (ign : List Str) (r : NA2160 F) (hp : 0 < r.aux.NAUXV) :
    ((Obj.o2160 r).core ign).attr "ANAME" = pyStrs r.aux.ANAME ∧
    ((Obj.o2160 r).core ign).attr "AMISS" = .list (r.aux.AMISS.map pyCell) ∧
    ((Obj.o2160 r).core ign).attr "ASCAL" = pyNums r.aux.ASCAL := by
  simp only [core_get]
  simp [Obj.attrs, attrs2110, commonAttrs, varAttrs, auxAttrs, comAttrs, dictGet?, dictGet?_append, hp]

theorem getAux_plain (cb : UnitsCallback) (ign : List Str) (o : Obj F) (a : AuxHdr F)
    (h : plainAux o = some a) (hp : 0 < a.NAUXV) (i : Nat) {name : Str} {miss : Cell F} {scale : Option F}
    (hd : DeclaresAux.Plain a i name miss scale) :
    (o.core ign).getAuxVariable cb i
      = .ok ((varAndUnits cb name).1, (varAndUnits cb name).2, cellVal miss, scaleVal scale) := by
  obtain ⟨h1, ⟨m, h2, rfl⟩, h3, h4⟩ := hd
  obtain ⟨e1, e2, e3⟩ := core_plain ign o a h hp
  have e4 : (o.core ign).attr "NAUXC" = .none := by
    rw [core_NAUXC]; cases o <;> simp_all [plainAux]
  obtain ⟨s, rfl⟩ := Option.isSome_iff_exists.1 h3
  simp only [NACore.getAuxVariable, NACore.getAuxMissingValue, NACore.auxScale, NACore.getAuxScaleFactor,
    e1, e2, e3, e4, pyStrs_item h1, pyNums_item h2, pyNums_item h4, ok_bind, namedUnits, cellVal, scaleVal]

theorem getAux_char (cb : UnitsCallback) (ign : List Str) (r : NA2160 F) (hp : 0 < r.aux.NAUXV) (i : Nat)
    {name : Str} {miss : Cell F} {scale : Option F} (hd : DeclaresAux (.o2160 r) i name miss scale) :
    ((Obj.o2160 r).core ign).getAuxVariable cb i
      = .ok ((varAndUnits cb name).1, (varAndUnits cb name).2, cellVal miss, scaleVal scale) := by
  obtain ⟨h1, h2, h3⟩ := hd
  obtain ⟨e1, e2, e3⟩ := core_char ign r hp
  have e4 : ((Obj.o2160 r).core ign).attr "NAUXC" = .int r.aux.NAUXC := by rw [core_NAUXC]
  have e5 : ((Obj.o2160 r).core ign).attr "NAUXV" = .int r.aux.NAUXV := by rw [core_aux]; rfl
  have e6 : (PyVal.list (r.aux.AMISS.map pyCell)).item i = .ok (cellVal miss) := by
    simp only [PyVal.item]
    refine idx_of_get? ?_
    rw [List.getElem?_map, h2]
    cases miss <;> rfl
  have e7 : NACore.auxScale ((Obj.o2160 r).core ign) i = .ok (scaleVal scale) := by
    simp only [NACore.auxScale, e4, e5, NACore.getAuxScaleFactor, e3]
    split
    · rename_i hc
      rw [if_pos hc] at h3
      obtain ⟨h3, h4⟩ := h3
      obtain ⟨s, rfl⟩ := Option.isSome_iff_exists.1 h3
      rw [pyNums_item h4]; rfl
    · rename_i hc
      rw [if_neg hc] at h3
      subst h3; rfl
  simp only [NACore.getAuxVariable, NACore.getAuxMissingValue, e1, e2, e6, e7, pyStrs_item h1, ok_bind,
    namedUnits]

theorem getAux_declared (cb : UnitsCallback) (ign : List Str) (o : Obj F) (hp : 0 < auxCount o) (i : Nat)
    {name : Str} {miss : Cell F} {scale : Option F} (hd : DeclaresAux o i name miss scale) :
    (o.core ign).getAuxVariable cb i
      = .ok ((varAndUnits cb name).1, (varAndUnits cb name).2, cellVal miss, scaleVal scale) := by
  cases o with
  | o1001 r => exact absurd hd (by simp [DeclaresAux])
  | o2160 r => exact getAux_char cb ign r hp i hd
  | _ => exact getAux_plain cb ign _ _ rfl hp i hd

theorem declares_plain {a : AuxHdr F} (h : AuxCounts a) {i : Nat} (hi : i < a.NAUXV.toNat) :
    ∃ name miss scale, DeclaresAux.Plain a i name miss scale := by
  obtain ⟨h1, h2, h3⟩ := h (by omega)
  refine ⟨a.ANAME[i], .num a.AMISS[i], some a.ASCAL[i], ?_, ⟨a.AMISS[i], ?_, rfl⟩, rfl, ?_⟩ <;> simp

theorem declares_aux {o : Obj F} (h : HeaderCounts o) {i : Nat} (hi : i < (auxCount o).toNat) :
    ∃ name miss scale, DeclaresAux o i name miss scale := by
  obtain ⟨_, _, _, _, h⟩ := h
  cases o with
  | o1001 r => simp [auxCount] at hi
  | o2160 r =>
    have hi' : i < r.aux.NAUXV.toNat := hi
    obtain ⟨h1, h2, h3⟩ := h (by omega)
    by_cases hc : (i : Int) < r.aux.NAUXV - r.aux.NAUXC
    · refine ⟨r.aux.ANAME[i], r.aux.AMISS[i], some r.aux.ASCAL[i], ?_, ?_, ?_⟩
      · simp
      · simp
      · rw [if_pos hc]; simp
    · refine ⟨r.aux.ANAME[i], r.aux.AMISS[i], none, ?_, ?_, ?_⟩
      · simp
      · simp
      · rw [if_neg hc]
  | o1010 r => exact declares_plain h hi
  | o1020 r => exact declares_plain h hi
  | o2010 r => exact declares_plain h hi
  | o2110 r => exact declares_plain h hi
  | o2310 r => exact declares_plain h hi

/-! ### The counts of a file that was opened -/

theorem readUnk_length {β : Type} {n : Int} {conv : Str → Res β} {ls rest : List Str} {vals : List β}
    (h : readUnkFile n conv ls = .ok (vals, rest)) : 0 < n ∧ n.toNat ≤ vals.length := by
  obtain ⟨h0, pre, l, _, _, h1, _, h2⟩ := (readUnk_ok_iff _ _ _ _ _ _).1 h
  have := mapRes_ok_length _ _ _ h2
  exact ⟨h0, by omega⟩

theorem readLinesN_len (n : Nat) (ls : List Str) : (readLinesN n ls).1.length = n := by
  induction n generalizing ls with
  | zero => rfl
  | succ n ih => simp only [readLinesN, List.length_cons, ih]

theorem readItems_len (ls : List Str) : (readItemsFromLines ls).length = ls.length := by
  simp [readItemsFromLines]

theorem readVars_counts {cd : Codec F} {ls rest : List Str} {v : VarHdr F}
    (h : readVars cd ls = .ok (v, rest)) :
    v.VNAME.length = v.NV.toNat ∧ v.NV.toNat ≤ v.VMISS.length ∧ v.NV.toNat ≤ v.VSCAL.length := by
  unfold readVars at h
  obtain ⟨⟨nv, l1⟩, _, h2⟩ := ok_of_bind h
  obtain ⟨⟨vs, l2⟩, hs, h3⟩ := ok_of_bind h2
  obtain ⟨⟨vm, l3⟩, hm, h4⟩ := ok_of_bind h3
  injection h4 with h4
  have := (Prod.mk.inj h4).1
  subst this
  exact ⟨by simp only [readItems_len, readLinesN_len], (readUnk_length hm).2, (readUnk_length hs).2⟩

theorem readAux_counts {cd : Codec F} {ls rest : List Str} {a : AuxHdr F}
    (h : readAux cd ls = .ok (a, rest)) : AuxCounts a := by
  unfold readAux at h
  obtain ⟨⟨nv, l1⟩, _, h2⟩ := ok_of_bind h
  dsimp only at h2
  split at h2
  · obtain ⟨⟨vs, l2⟩, hs, h3⟩ := ok_of_bind h2
    obtain ⟨⟨vm, l3⟩, hm, h4⟩ := ok_of_bind h3
    injection h4 with h4
    have := (Prod.mk.inj h4).1
    subst this
    exact fun _ => ⟨by simp only [readItems_len, readLinesN_len], (readUnk_length hm).2,
      (readUnk_length hs).2⟩
  · rename_i hn
    injection h2 with h2
    have := (Prod.mk.inj h2).1
    subst this
    exact fun hp => absurd hp hn

theorem readCharAux_counts {cd : Codec F} {ls rest : List Str} {a : CharAuxHdr F}
    (h : readCharAux cd ls = .ok (a, rest)) (hp : 0 < a.NAUXV) :
    a.ANAME.length = a.NAUXV.toNat ∧ a.NAUXV.toNat ≤ a.AMISS.length ∧
        (a.NAUXV - a.NAUXC).toNat ≤ a.ASCAL.length := by
  unfold readCharAux at h
  obtain ⟨⟨nv, l1⟩, _, h2⟩ := ok_of_bind h
  obtain ⟨⟨nc, l2⟩, _, h3⟩ := ok_of_bind h2
  dsimp only at h3
  split at h3
  · obtain ⟨⟨vs, l2⟩, hs, h4⟩ := ok_of_bind h3
    obtain ⟨⟨vm, l3⟩, hm, h5⟩ := ok_of_bind h4
    obtain ⟨⟨la, l4⟩, hl, h6⟩ := ok_of_bind h5
    obtain ⟨⟨mc, l5⟩, hc, h7⟩ := ok_of_bind h6
    injection h7 with h7
    have := (Prod.mk.inj h7).1
    subst this
    have e1 := readUnk_length hs
    have e2 := readUnk_length hm
    have e3 := readUnk_length hc
    refine ⟨by simp only [readItems_len, readLinesN_len], ?_, e1.2⟩
    simp only [List.length_append, List.length_map]
    omega
  · rename_i hn
    injection h3 with h3
    have := (Prod.mk.inj h3).1
    subst this
    exact absurd hp hn

theorem readHeader1001_counts {cd : Codec F} {k : Nat} {ls i1 l1 : List Str} {r : NA1001 F}
    (h : readHeader1001 cd k ls = .ok (r, i1, l1)) : HeaderCounts (.o1001 r) := by
  unfold readHeader1001 at h
  obtain ⟨⟨c, ign, rest⟩, _, hr⟩ := ok_of_bind h
  clear h
  obtain ⟨dx0, _, hr0⟩ := ok_of_bind hr
  obtain ⟨⟨v, l1⟩, hv, hr1⟩ := ok_of_bind hr0
  obtain ⟨⟨m, l2⟩, _, hr2⟩ := ok_of_bind hr1
  injection hr2 with hr2
  have e := (Prod.mk.inj hr2).1
  subst e
  have e := readVars_counts hv
  refine ⟨e.1, e.2.1, e.2.2, ?_, trivial⟩
  simp only [axisHeader, List.length_reverse, readItems_len, readLinesN_len]

theorem readHeader1010_counts {cd : Codec F} {k : Nat} {ls i1 l1 : List Str} {r : NA1010 F}
    (h : readHeader1010 cd k ls = .ok (r, i1, l1)) : HeaderCounts (.o1010 r) := by
  unfold readHeader1010 at h
  obtain ⟨⟨c, ign, rest⟩, _, hr⟩ := ok_of_bind h
  clear h
  obtain ⟨dx0, _, hr0⟩ := ok_of_bind hr
  obtain ⟨⟨v, l1⟩, hv, hr1⟩ := ok_of_bind hr0
  obtain ⟨⟨a, l2⟩, ha, hr2⟩ := ok_of_bind hr1
  obtain ⟨⟨m, l3⟩, _, hr3⟩ := ok_of_bind hr2
  injection hr3 with hr3
  have e := (Prod.mk.inj hr3).1
  subst e
  have e := readVars_counts hv
  refine ⟨e.1, e.2.1, e.2.2, ?_, readAux_counts ha⟩
  simp only [axisHeader, List.length_reverse, readItems_len, readLinesN_len]

theorem readHeader1020_counts {cd : Codec F} {k : Nat} {ls i1 l1 : List Str} {r : NA1020 F}
    (h : readHeader1020 cd k ls = .ok (r, i1, l1)) : HeaderCounts (.o1020 r) := by
  unfold readHeader1020 at h
  obtain ⟨⟨c, ign, rest⟩, _, hr⟩ := ok_of_bind h
  clear h
  obtain ⟨dx0, _, hr0⟩ := ok_of_bind hr
  obtain ⟨⟨n1, l1⟩, _, hr1⟩ := ok_of_bind hr0
  obtain ⟨⟨v, l2⟩, hv, hr2⟩ := ok_of_bind hr1
  obtain ⟨⟨a, l3⟩, ha, hr3⟩ := ok_of_bind hr2
  obtain ⟨⟨m, l4⟩, _, hr4⟩ := ok_of_bind hr3
  injection hr4 with hr4
  have e := (Prod.mk.inj hr4).1
  subst e
  have e := readVars_counts hv
  refine ⟨e.1, e.2.1, e.2.2, ?_, readAux_counts ha⟩
  simp only [axisHeader, List.length_reverse, readItems_len, readLinesN_len]

theorem readHeader2010_counts {cd : Codec F} {k : Nat} {ls i1 l1 : List Str} {r : NA2010 F}
    (h : readHeader2010 cd k ls = .ok (r, i1, l1)) : HeaderCounts (.o2010 r) := by
  unfold readHeader2010 at h
  obtain ⟨⟨c, ign, rest⟩, _, hr⟩ := ok_of_bind h
  clear h
  obtain ⟨dx0, _, hr0⟩ := ok_of_bind hr
  obtain ⟨dx1, _, hr1⟩ := ok_of_bind hr0
  obtain ⟨dx2, _, hr2⟩ := ok_of_bind hr1
  obtain ⟨⟨n3, l3⟩, _, hr3⟩ := ok_of_bind hr2
  obtain ⟨⟨v, l4⟩, hv, hr4⟩ := ok_of_bind hr3
  obtain ⟨⟨a, l5⟩, ha, hr5⟩ := ok_of_bind hr4
  obtain ⟨⟨m, l6⟩, _, hr6⟩ := ok_of_bind hr5
  injection hr6 with hr6
  have e := (Prod.mk.inj hr6).1
  subst e
  have e := readVars_counts hv
  refine ⟨e.1, e.2.1, e.2.2, ?_, readAux_counts ha⟩
  simp only [axisHeader, List.length_reverse, readItems_len, readLinesN_len]

theorem readHeader2110_counts {cd : Codec F} {k : Nat} {ls i1 l1 : List Str} {r : NA2110 F}
    (h : readHeader2110 cd k ls = .ok (r, i1, l1)) : HeaderCounts (.o2110 r) := by
  unfold readHeader2110 at h
  obtain ⟨⟨c, ign, rest⟩, _, hr⟩ := ok_of_bind h
  clear h
  obtain ⟨dx0, _, hr0⟩ := ok_of_bind hr
  obtain ⟨⟨v, l1⟩, hv, hr1⟩ := ok_of_bind hr0
  obtain ⟨⟨a, l2⟩, ha, hr2⟩ := ok_of_bind hr1
  obtain ⟨⟨m, l3⟩, _, hr3⟩ := ok_of_bind hr2
  injection hr3 with hr3
  have e := (Prod.mk.inj hr3).1
  subst e
  have e := readVars_counts hv
  refine ⟨e.1, e.2.1, e.2.2, ?_, readAux_counts ha⟩
  simp only [axisHeader, List.length_reverse, readItems_len, readLinesN_len]

theorem readHeader2310_counts {cd : Codec F} {k : Nat} {ls i1 l1 : List Str} {r : NA2110 F}
    (h : readHeader2310 cd k ls = .ok (r, i1, l1)) : HeaderCounts (.o2310 r) := by
  unfold readHeader2310 at h
  obtain ⟨⟨c, ign, rest⟩, _, hr⟩ := ok_of_bind h
  clear h
  obtain ⟨dx0, _, hr0⟩ := ok_of_bind hr
  obtain ⟨⟨v, l1⟩, hv, hr1⟩ := ok_of_bind hr0
  obtain ⟨⟨a, l2⟩, ha, hr2⟩ := ok_of_bind hr1
  obtain ⟨⟨m, l3⟩, _, hr3⟩ := ok_of_bind hr2
  injection hr3 with hr3
  have e := (Prod.mk.inj hr3).1
  subst e
  have e := readVars_counts hv
  refine ⟨e.1, e.2.1, e.2.2, ?_, readAux_counts ha⟩
  simp only [axisHeader, List.length_reverse, readItems_len, readLinesN_len]

theorem readHeader2160_counts {cd : Codec F} {k : Nat} {ls i1 l1 : List Str} {r : NA2160 F}
    (h : readHeader2160 cd k ls = .ok (r, i1, l1)) : HeaderCounts (.o2160 r) := by
  unfold readHeader2160 at h
  obtain ⟨⟨c, ign, rest⟩, _, hr⟩ := ok_of_bind h
  clear h
  obtain ⟨dx0, _, hr0⟩ := ok_of_bind hr
  obtain ⟨dx1, _, hr1⟩ := ok_of_bind hr0
  obtain ⟨⟨v, l2⟩, hv, hr2⟩ := ok_of_bind hr1
  obtain ⟨⟨a, l3⟩, ha, hr3⟩ := ok_of_bind hr2
  obtain ⟨⟨m, l4⟩, _, hr4⟩ := ok_of_bind hr3
  injection hr4 with hr4
  have e := (Prod.mk.inj hr4).1
  subst e
  have e := readVars_counts hv
  refine ⟨e.1, e.2.1, e.2.2, ?_, readCharAux_counts ha⟩
  simp only [axisHeader, List.length_reverse, readItems_len, readLinesN_len]

theorem openNA_counts {cd : Codec F} {k : Nat} {text : Str} {o : Obj F} (h : openNA cd k text = .ok o) :
    HeaderCounts o := by
  unfold openNA at h
  obtain ⟨ffi, hf, h1⟩ := ok_of_bind h
  obtain ⟨cls, hcls, h2⟩ := ok_of_bind h1
  clear h h1 hf hcls
  unfold readHeaderOf at h2
  repeat' split at h2
  all_goals
    obtain ⟨⟨r, i1, l1⟩, hr, h3⟩ := ok_of_bind h2
    injection h3 with h3
    subst h3
  · exact readHeader1001_counts hr
  · exact readHeader1010_counts hr
  · exact readHeader1020_counts hr
  · exact readHeader2110_counts hr
  · exact readHeader2160_counts hr
  · exact readHeader2310_counts hr
  · exact readHeader2010_counts hr

theorem sameHeader_counts {o o' : Obj F} (h : SameHeader o o') (hc : HeaderCounts o) : HeaderCounts o' := by
  cases o <;> cases o' <;> simp only [SameHeader] at h <;> first | exact h.elim | (rw [h]; exact hc)

end Nappy
