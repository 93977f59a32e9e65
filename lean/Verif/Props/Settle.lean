import Verif.Spec.Settle
import Verif.Props.AxisBack
import Verif.Props.CommentGrowth

/-! Property C110: names when a file is converted to NetCDF and back again and again. -/

namespace Nappy.Props

open Nappy Spec

variable {F : Type}

theorem good_plain {id : Str} (hg : GoodId id) : strip id = id ∧ '(' ∉ id ∧ '\n' ∉ id :=
  ⟨strip_eq_self id ⟨fun c t e => (hg c (by rw [e]; simp)).1, fun a c e => (hg c (by rw [e]; simp)).1⟩,
    fun hm => (hg _ hm).2.1 (by decide), fun hm => by simpa [isSpace] using (hg _ hm).1⟩

/-- A good name without units comes back as it is. -/
theorem C108_kept_plain {renames : Renames} {names names' : List Str} (h : NamesBack none renames names names') {i : Nat}
    {n : Str} (hn : names[i]? = some n) (hg : GoodId n) (hl : n.length < 64) (hw : NotWanted renames n) :
    names'[i]? = names[i]? := by
  obtain ⟨g1, g2, g3⟩ := good_plain hg
  have e := C47_plain n (.inl g2)
  rw [g1] at e
  obtain ⟨h1, h2⟩ := h
  have hi := (List.getElem?_eq_some_iff.1 hn).1
  have hx : names'[i]? = some (names'[i]'(by omega)) := List.getElem?_eq_getElem _
  obtain ⟨id, k1, k2, _⟩ := h2 i _ _ hn hx (by rw [e]; exact hl) (fun v hv => by rw [e] at hv; cases hv)
  rw [e] at k1 k2
  have := cleaned_good k1.1 hg
  subst this
  rcases k2 hw with ⟨_, k⟩ | ⟨k, _⟩
  · rw [hx, k, hn]
  · exact absurd rfl k

/-- Names of variables settle: what comes back from the first trip comes back from every later one unchanged. -/
theorem names_settle {l : Nat → List Str} {m : Nat} (htrip : ∀ k < m, NamesBack none [] (l k) (l (k + 1))) {i : Nat}
    {name : Str} (hn : (l 0)[i]? = some name) (hl : (varAndUnits none name).1.length < 64)
    (hu : ∀ u, (varAndUnits none name).2 = some u → ∀ c ∈ u, c ≠ '(' ∧ c ≠ ')' ∧ c ≠ '\n') :
    ∀ k < m, (l (k + 1))[i]? = (l 1)[i]? := by
  rcases Nat.eq_zero_or_pos m with rfl | h0
  · intro k hk
    omega
  have hi := (List.getElem?_eq_some_iff.1 hn).1
  have hlen : (l 1).length = (l 0).length := (htrip 0 h0).1
  obtain ⟨first, hx⟩ : ∃ y, (l 1)[i]? = some y := ⟨_, List.getElem?_eq_getElem (by omega)⟩
  obtain ⟨id, k1, k2, _⟩ := (htrip 0 h0).2 i _ _ hn hx hl (fun u h hm => (hu u h _ hm).1 rfl)
  have hw : NotWanted [] id := by simp [NotWanted]
  have hl' : id.length < 64 := by have := k1.2.2.1; omega
  intro k hk
  induction k with
  | zero => rfl
  | succ k ih =>
    have ih := ih (by omega)
    rw [← ih]
    rcases k2 hw with ⟨_, e⟩ | ⟨hne, e⟩
    · exact C108_kept_plain (htrip (k + 1) hk) (by rw [ih, hx, e]) k1.2.1 hl' hw
    · cases hv : (varAndUnits none name).2 with
      | none => rw [hv] at hne; exact absurd rfl hne
      | some u =>
        rw [hv, Option.getD_some] at e hne
        exact C108_kept (htrip (k + 1) hk) (by rw [ih, hx, e]) k1.2.1 hl' hne (strip_strip u)
          (fun c hc => hu u hv c (mem_strip u c hc)) hw

theorem trip_facts {fmt : Str → Codec F} {table : String → Str} {hp : Headings} {add : F → F → F} {x : XEnv F} {q : F → F} {o o' : Obj F}
    (h : Trip fmt table hp add x q o o') :
    SameNumbers add x q o o' ∧ NamesBack none [] (varHeader o).VNAME (varHeader o').VNAME ∧
      NamesBack none [] (auxNames o) (auxNames o') := by
  cases h with
  | go hread hto hopen hback hcalls hfile hread' hadd hx hcb hren hmain haux hattrs hcount hret hfree hids hexc hreq hloc
      huni hcd hdel ho hh hsz hnames hfit hover hhp =>
    obtain ⟨c1, out1, o1, _, a2, a3, _, a5, a6⟩ := C97_partial fmt table hto hmain haux hattrs hread hcount _ _ hret hfree
      hopen hback hids hexc hreq hloc huni hcd hdel ho hh hsz hnames hfit
    obtain ⟨c2, out2, o2, b2, b3, b5, b6, b7⟩ := C108_names fmt table hto hmain haux hattrs hread hcount _ _ hret hfree
      hopen hback hids hexc hreq hloc huni hcd hdel ho hh hsz hnames hfit (fun k hk => ⟨(hover k hk).1, (hover k hk).2.1⟩)
    rw [hcalls] at a2 b2
    injection a2 with a2
    injection b2 with b2
    subst a2 b2
    rw [hfile] at a3 b3
    injection a3 with a3
    injection b3 with b3
    subst a3 b3
    rw [hread'] at a5 b5
    injection a5 with a5
    injection b5 with b5
    subst a5 b5
    rw [hadd, hx] at a6
    rw [hcb, hren] at b6 b7
    exact ⟨a6, b6, b7⟩

theorem mapTree_twice {q : F → F} (hq : ∀ y, q (q y) = q y) (t : Option (Tree F)) :
    (t.map (mapTree q)).map (mapTree q) = t.map (mapTree q) := by
  cases t with
  | none => rfl
  | some t =>
    rw [Option.map_some, Option.map_some, mapTree_comp]
    simp only [hq]

/-- C110, in part: later trips keep all numbers. What is missing: the names of axes (`C110_axes_fails`) and the comments
(C52) grow. -/
theorem C110_numbers_partial {fmt : Str → Codec F} {table : String → Str} {hp : Headings} {add : F → F → F} {x : XEnv F} {q : F → F}
    (hq : ∀ y, q (q y) = q y) {o : Nat → Obj F} {m : Nat} (htrip : ∀ k < m, Trip fmt table hp add x q (o k) (o (k + 1))) :
    ∀ k < m, SameNumbers add x q (o 0) (o (k + 1)) ∧ (o (k + 1)).FFI = (o 1).FFI ∧
      (varHeader (o (k + 1))).NV = (varHeader (o 1)).NV ∧
      (∀ i, mainArray (o (k + 1)) i = mainArray (o 1) i) ∧
      (varHeader (o (k + 1))).VMISS = (varHeader (o 1)).VMISS ∧
      auxValues (o (k + 1)) = auxValues (o 1) ∧ markValues (o (k + 1)) = markValues (o 1) := by
  have hmm : ∀ l : List F, (l.map q).map q = l.map q := fun l => by
    rw [List.map_map]
    exact List.map_congr_left (fun y _ => hq y)
  intro k hk
  have h0 := (trip_facts (htrip 0 (by omega))).1
  induction k with
  | zero => exact ⟨h0, rfl, rfl, fun _ => rfl, rfl, rfl, rfl⟩
  | succ k ih =>
    obtain ⟨s, e1, e2, e3, e4, e5, e6⟩ := ih (by omega)
    have h := (trip_facts (htrip (k + 1) hk)).1
    have f3 : ∀ i, mainArray (o (k + 1 + 1)) i = mainArray (o 1) i := fun i => by
      rw [h.arrays i, e3, h0.arrays i, mapTree_twice hq]
    have f5 : auxValues (o (k + 1 + 1)) = auxValues (o 1) := by
      rw [h.aux, e5, h0.aux, List.map_map]
      exact List.map_congr_left (fun l _ => hmm l)
    have f6 : markValues (o (k + 1 + 1)) = markValues (o 1) := by rw [h.marks, e6, h0.marks, hmm]
    refine ⟨⟨h.format.trans s.format, h.count.trans s.count, fun i => by rw [f3, h0.arrays],
      h.missing.trans s.missing, h.scales, h.auxCount.trans s.auxCount, by rw [f5, h0.aux],
      h.auxMissing.trans s.auxMissing, by rw [f6, h0.marks], fun hs l hl hy => h.axes hs l (s.axes hs l hl hy) hy⟩,
      h.format.trans e1, h.count.trans e2, f3, h.missing.trans e4, f5, f6⟩

/-- C110, in part: later trips keep the names of variables. -/
theorem C110_names_partial {fmt : Str → Codec F} {table : String → Str} {hp : Headings} {add : F → F → F} {x : XEnv F} {q : F → F}
    {o : Nat → Obj F} {m : Nat} (htrip : ∀ k < m, Trip fmt table hp add x q (o k) (o (k + 1))) {names : Obj F → List Str}
    (hnames : names = (fun o => (varHeader o).VNAME) ∨ names = auxNames) {i : Nat} {name : Str}
    (hn : (names (o 0))[i]? = some name) (hl : (varAndUnits none name).1.length < 64)
    (hu : ∀ u, (varAndUnits none name).2 = some u → ∀ c ∈ u, c ≠ '(' ∧ c ≠ ')' ∧ c ≠ '\n') :
    ∀ k < m, (names (o (k + 1)))[i]? = (names (o 1))[i]? := by
  refine names_settle (l := fun k => names (o k)) (fun k hk => ?_) hn hl hu
  obtain ⟨_, h1, h2⟩ := trip_facts (htrip k hk)
  rcases hnames with rfl | rfl
  · exact h1
  · exact h2

/-- C110 fails for axes: with every trip there is another blank in front of the units. -/
theorem C110_axes_fails (l : Nat → Str) (htrip : ∀ k, AxisNamedBack none (l k) (l (k + 1))) {n u : Str}
    (h0 : l 0 = n ++ " (".toList ++ u ++ ")".toList) (hn : '\n' ∉ n ∧ '(' ∉ n) (hu : u ≠ []) (hs : strip u = u)
    (hp : ∀ c ∈ u, c ≠ '(' ∧ c ≠ ')' ∧ c ≠ '\n') :
    ∀ k, l k = n ++ List.replicate (k + 1) ' ' ++ "(".toList ++ u ++ ")".toList
  | 0 => by rw [h0]; simp
  | k + 1 => by
    have ih := C110_axes_fails l htrip h0 hn hu hs hp k
    have e : l k = (n ++ List.replicate k ' ') ++ " (".toList ++ u ++ ")".toList := by
      rw [ih, List.replicate_succ']
      simp
    have h := htrip k
    rw [e] at h
    rw [C109_blank h ⟨by simp [hn.1], by simp [hn.2]⟩ hu hs hp, List.replicate_succ', List.replicate_succ']
    simp

/-- C110 fails for axes: a name without units gets units once, and then a blank with every trip. -/
theorem C110_no_units_fails (l : Nat → Str) (htrip : ∀ k, AxisNamedBack none (l k) (l (k + 1)))
    (hn : '\n' ∉ l 0 ∧ '(' ∉ l 0) (k : Nat) :
    l (k + 1) = l 0 ++ List.replicate (k + 1) ' ' ++ "(Not known)".toList := by
  have h1 := C109_not_known (htrip 0) (by rw [C47_plain _ (.inl hn.2)]) hn.2
  have := C110_axes_fails (fun k => l (k + 1)) (fun k => htrip (k + 1)) (n := l 0) (u := "Not known".toList)
    (by rw [h1]; simp) hn (by decide) (by decide) (by decide) k
  rw [this]
  simp

theorem dictGet?_reopened {attrs globals : Dict (PyVal F)}
    (hg : List.Forall₂ AttrReopened (attrs.map (fun kv => (kv.1, fixInts kv.2))) globals) :
    globals.map Prod.fst = attrs.map Prod.fst ∧
      ∀ (k : String) (c : Char) (t : Str), dictGet? attrs k = some (.str (c :: t)) →
        dictGet? globals k = some (.str (c :: t)) := by
  induction attrs generalizing globals with
  | nil =>
    cases hg
    exact ⟨rfl, fun _ _ _ h => by cases h⟩
  | cons kv l ih =>
    cases hg with
    | cons h1 h2 =>
      rename_i kv' l'
      obtain ⟨k1, v1⟩ := kv
      obtain ⟨k2, v2⟩ := kv'
      obtain ⟨i1, i2⟩ := ih h2
      obtain ⟨e, h1⟩ := h1
      have e : k2 = k1 := e
      subst e
      refine ⟨by simp [i1], fun k c t h => ?_⟩
      by_cases hk : k2 = k
      · simp only [dictGet?, if_pos hk, Option.some.injEq] at h ⊢
        subst h
        rcases h1 with h1 | ⟨⟨n, h1⟩, _⟩
        · exact h1
        · cases h1
      · simp only [dictGet?, if_neg hk] at h ⊢
        exact i2 k c t h

theorem ownSpecial_strip (hp : Headings) {com com' : ComHdr} (h : com.SCOM.map strip = com'.SCOM.map strip) :
    (ownSpecial hp com).length = (ownSpecial hp com').length := by
  have e : ∀ l : List Str, (l.filter (fun s => decide (strip s ∉
      [[], hp.sc_start, hp.sc_end, hp.addl_vatts, hp.addl_globals]))).length
        = ((l.map strip).filter (fun s => decide (s ∉
          [[], hp.sc_start, hp.sc_end, hp.addl_vatts, hp.addl_globals]))).length := by
    intro l
    rw [List.filter_map, List.length_map]
    rfl
  unfold ownSpecial
  rw [e, e, h]

/-- C110 fails for the comments, and C52 for whole files: a trip adds at least three lines of special comments for every
main variable. -/
theorem C110_trip_comments {fmt : Str → Codec F} {table : String → Str} {hp : Headings} {add : F → F → F} {x : XEnv F}
    {q : F → F} {o o' : Obj F} (h : Trip fmt table hp add x q o o') (hapart : HeadingsApart hp)
    (hmarked : HeadingsMarked hp) (hplain : PlainComments hp o) :
    0 < (varHeader o).NV ∧ (varHeader o').NV = (varHeader o).NV ∧
      (ownSpecial hp (comHeader o)).length + 3 * (varHeader o).NV.toNat ≤ (ownSpecial hp (comHeader o')).length := by
  cases h with
  | go hread hto hopen hback hcalls hfile hread' hadd hx hcb hren hmain haux hattrs hcount hret hfree hids hexc hreq hloc
      huni hcd hdel ho hh hsz hnames hfit hover hhp =>
    obtain ⟨c1, out1, o1, _, a2, a3, _, a5, a6, te, user, r, a, d, _, _, _, k3, k4, _, k6, k7, k8, k9, k10, k11, _⟩ :=
      trip_core fmt table hto hmain haux hattrs hread hcount _ _ hret hfree hopen hback hids hexc hreq hloc huni hcd hdel ho
        hh hsz hnames hfit
    rw [hcalls] at a2
    injection a2 with a2
    subst a2
    rw [hfile] at a3
    injection a3 with a3
    subst a3
    rw [hread'] at a5
    injection a5 with a5
    subst a5
    have hte : te.hp = hp := k9.trans hhp.1
    obtain ⟨gn, hcom⟩ := toXarray_comment k3 k10
    obtain ⟨n1, n2⟩ := dictGet?_reopened k11
    have hw : WfCom (comHeader o) := by
      cases hret.regular with
      | one f hw => exact hw.com
      | more f hw => exact hw.com
    rw [hte] at hcom
    obtain ⟨s0, S, s1, s2⟩ := collected_growth (com := comHeader o) k6 (by rw [n1]; exact gn)
      (fun hne => by
        cases hc : commentAttr hp (comHeader o) with
        | nil => exact absurd hc hne
        | cons c t => rw [hc] at hcom; exact n2 _ _ _ hcom)
      hhp.2 hapart hmarked hw hplain.1 hplain.2
      (fun w hw => by
        obtain ⟨v, hv, hr⟩ := forall₂_mem_right k4 hw
        rw [(reopened_same hr).2.2.1]
        exact toXarray_titles k3 v (List.mem_append_left _ hv))
    have s3 := (prepareDict_name k7 (k := "SCOM") (by decide) (fun hm => (hover _ (List.mem_append_left _ hm)).2.2.1 rfl)
      (fun hm => (hover _ (List.mem_append_right _ hm)).2.2.1 rfl)).trans s1
    have s4 := ownSpecial_strip hp (com := comHeader o') (com' := { comHeader o with SCOM := S })
      ((k8.comments S).1 s3)
    have s5 : (varHeader o).NV.toNat = a.main.length := by rw [← (C64_values k3).1, k4.length_eq]
    have s6 := List.length_pos_iff.2 s0
    refine ⟨by omega, a6.count, ?_⟩
    rw [s4, s5]
    exact s2

theorem sublist_strip {P : Str → Bool} {l m : List Str} (h : (l.filter (fun s => P (strip s))).Sublist m) {l' : List Str}
    (he : l'.map strip = m.map strip) :
    ((l.filter (fun s => P (strip s))).map strip).Sublist ((l'.filter (fun s => P (strip s))).map strip) := by
  have e : ∀ l : List Str, (l.filter (fun s => P (strip s))).map strip = (l.map strip).filter P := by
    intro l
    rw [List.filter_map]
    rfl
  have h1 := (h.map strip).filter P
  rw [← he, e, List.filter_filter] at h1
  rw [e, e]
  simpa using h1

/-- No trip loses a comment. -/
theorem C110_trip_kept {fmt : Str → Codec F} {table : String → Str} {hp : Headings} {add : F → F → F} {x : XEnv F}
    {q : F → F} {o o' : Obj F} (h : Trip fmt table hp add x q o o') (hapart : HeadingsApart hp)
    (hplain : PlainComments hp o) :
    ((ownSpecial hp (comHeader o)).map strip).Sublist ((ownSpecial hp (comHeader o')).map strip) ∧
      ((ownNormal hp (comHeader o)).map strip).Sublist ((ownNormal hp (comHeader o')).map strip) := by
  cases h with
  | go hread hto hopen hback hcalls hfile hread' hadd hx hcb hren hmain haux hattrs hcount hret hfree hids hexc hreq hloc
      huni hcd hdel ho hh hsz hnames hfit hover hhp =>
    obtain ⟨c1, out1, o1, _, a2, a3, _, a5, a6, te, user, r, a, d, _, _, _, k3, k4, _, k6, k7, k8, k9, k10, k11, _⟩ :=
      trip_core fmt table hto hmain haux hattrs hread hcount _ _ hret hfree hopen hback hids hexc hreq hloc huni hcd hdel ho
        hh hsz hnames hfit
    rw [hcalls] at a2
    injection a2 with a2
    subst a2
    rw [hfile] at a3
    injection a3 with a3
    subst a3
    rw [hread'] at a5
    injection a5 with a5
    subst a5
    have hte : te.hp = hp := k9.trans hhp.1
    obtain ⟨gn, hcom⟩ := toXarray_comment k3 k10
    obtain ⟨n1, n2⟩ := dictGet?_reopened k11
    have hw : WfCom (comHeader o) := by
      cases hret.regular with
      | one f hw => exact hw.com
      | more f hw => exact hw.com
    rw [hte] at hcom
    obtain ⟨S, N, s1, s2, s3, s4⟩ := collected_comments (com := comHeader o) k6 (by rw [n1]; exact gn)
      (fun hne => by
        cases hc : commentAttr hp (comHeader o) with
        | nil => exact absurd hc hne
        | cons c t => rw [hc] at hcom; exact n2 _ _ _ hcom)
      hhp.2 hapart hw hplain.1 hplain.2
    have t1 := (prepareDict_name k7 (k := "SCOM") (by decide) (fun hm => (hover _ (List.mem_append_left _ hm)).2.2.1 rfl)
      (fun hm => (hover _ (List.mem_append_right _ hm)).2.2.1 rfl)).trans s1
    obtain ⟨more, t2⟩ := prepareDict_normal k7 s2 (fun hm => (hover _ (List.mem_append_left _ hm)).2.2.2.1 rfl)
      (fun hm => (hover _ (List.mem_append_right _ hm)).2.2.2.1 rfl)
    exact ⟨sublist_strip (P := fun s => decide (s ∉ [[], hp.sc_start, hp.sc_end, hp.addl_vatts, hp.addl_globals])) s3
        ((k8.comments S).1 t1),
      sublist_strip (P := fun s => decide (s ∉ [[], hp.nc_start, hp.nc_end, hp.data_next, hp.addl_vatts,
        hp.addl_globals])) (s4.trans (List.sublist_append_left N more)) ((k8.comments _).2 t2)⟩

/-- C110, in part: however often a file is converted, its comments are all there, in order. -/
theorem C110_comments_partial {fmt : Str → Codec F} {table : String → Str} {hp : Headings} {add : F → F → F} {x : XEnv F}
    {q : F → F} {o : Nat → Obj F} {m : Nat} (htrip : ∀ k < m, Trip fmt table hp add x q (o k) (o (k + 1)))
    (hapart : HeadingsApart hp) (hplain : ∀ k < m, PlainComments hp (o k)) :
    ∀ k ≤ m, ((ownSpecial hp (comHeader (o 0))).map strip).Sublist ((comHeader (o k)).SCOM.map strip) ∧
      ((ownNormal hp (comHeader (o 0))).map strip).Sublist ((comHeader (o k)).NCOM.map strip) := by
  have go : ∀ k ≤ m, ((ownSpecial hp (comHeader (o 0))).map strip).Sublist ((ownSpecial hp (comHeader (o k))).map strip) ∧
      ((ownNormal hp (comHeader (o 0))).map strip).Sublist ((ownNormal hp (comHeader (o k))).map strip) := by
    intro k hk
    induction k with
    | zero => exact ⟨List.Sublist.refl _, List.Sublist.refl _⟩
    | succ k ih =>
      obtain ⟨i1, i2⟩ := ih (by omega)
      obtain ⟨h1, h2⟩ := C110_trip_kept (htrip k (by omega)) hapart (hplain k (by omega))
      exact ⟨i1.trans h1, i2.trans h2⟩
  intro k hk
  obtain ⟨h1, h2⟩ := go k hk
  exact ⟨h1.trans (List.filter_sublist.map strip), h2.trans (List.filter_sublist.map strip)⟩

/-- C110 fails for the comments: they grow with every trip, without bound. -/
theorem C110_comments_fails {fmt : Str → Codec F} {table : String → Str} {hp : Headings} {add : F → F → F} {x : XEnv F}
    {q : F → F} {o : Nat → Obj F} {m : Nat} (htrip : ∀ k < m, Trip fmt table hp add x q (o k) (o (k + 1)))
    (hapart : HeadingsApart hp) (hmarked : HeadingsMarked hp) (hplain : ∀ k < m, PlainComments hp (o k)) :
    ∀ k ≤ m, (varHeader (o k)).NV = (varHeader (o 0)).NV ∧
      (ownSpecial hp (comHeader (o 0))).length + 3 * (varHeader (o 0)).NV.toNat * k
        ≤ (ownSpecial hp (comHeader (o k))).length := by
  intro k hk
  induction k with
  | zero => exact ⟨rfl, Nat.le_refl _⟩
  | succ k ih =>
    obtain ⟨i1, i2⟩ := ih (by omega)
    obtain ⟨_, h2, h3⟩ := C110_trip_comments (htrip k (by omega)) hapart hmarked (hplain k (by omega))
    rw [i1] at h2 h3
    refine ⟨h2, ?_⟩
    rw [Nat.mul_succ]
    omega

/-! ### Concrete cases -/

theorem Ex.trip_of {o o1 : Obj Int} {count : Nat} (ht : Ex.tripTest o count = true)
    (hr : readFile intCodec 0 (Ex.tripText o) = .ok o1)
    (hc : count = (varHeader o1).NV.toNat + (Spec.auxCount o1).toNat) (h10 : o1.FFI = 1001 ∨ o1.FFI = 2010)
    (hret : Returnable Nappy.Ex.toXEnv [] Ex.gapX o1) :
    ∃ c out o', (convertNCToNA (emitFile (fun _ => intCodec) exTable) (Ex.tripApi o) exArgs).calls = [c] ∧
      fileOf (fun _ => intCodec) exTable c = .ok out ∧ readFile intCodec 0 out.text = .ok o' ∧
      Trip (fun _ => intCodec) exTable iniHeadings Nappy.Ex.toXEnv.add Ex.gapX id o1 o' := by
  obtain ⟨c, out, o', r1, r2, r3, _⟩ := Ex.trip_names ht hr hc h10 hret
  unfold Ex.tripTest at ht
  split at ht
  · rename_i name nc hnc
    simp only [Bool.and_eq_true, decide_eq_true_eq] at ht
    obtain ⟨⟨⟨t1, t2⟩, t3⟩, t4⟩ := ht
    have hopen : (Ex.tripApi o).openNC exArgs.ncFile = .ok (Ex.reopen nc) := by
      simp only [Ex.tripApi, hnc]
    exact ⟨c, out, o', r1, r2, r3, .go hr hnc hopen (Ex.reopen_file nc t3) r1 r2 r3 rfl rfl rfl rfl rfl rfl List.nodup_nil (by omega) hret
      (Ex.namesFree_of t2) rfl rfl rfl (by intro k h; cases h) (fun _ _ => ⟨true, rfl⟩) Nappy.Ex.intCodec_lawful
      (by decide) rfl rfl rfl rfl (fun d hd => by
        rw [hd] at t4
        simp only [Bool.and_eq_true] at t4
        have hs := Ex.textsFit_of t4.1
        refine ⟨⟨hs.dates, hs.names, hs.comments⟩, ?_, fun e => by omega⟩
        have t5 := t4.2
        split at t5
        · exact ⟨_, by assumption, Ex.header_of t5⟩
        · cases t5)
      (show ∀ k ∈ ["ORG"], k ≠ "VNAME" ∧ k ≠ "ANAME" ∧ k ≠ "SCOM" ∧ k ≠ "NCOM" ∧ k ≠ "ONAME" ∧ k ≠ "SNAME" ∧
        k ≠ "MNAME" by decide) ⟨rfl, rfl⟩⟩
  · cases ht

/-- There are trips: a file with two axes and an auxiliary variable. -/
example : ∃ o1 o', readFile intCodec 0 (Ex.tripText (.o2010 Ex.gapGrid)) = .ok o1 ∧
    Trip (fun _ => intCodec) exTable iniHeadings Nappy.Ex.toXEnv.add Ex.gapX id o1 o' := by
  obtain ⟨o1, h1, h2, h3, _, _, _, h6⟩ := Ex.gapGrid_read
  obtain ⟨_, _, o', _, _, _, h⟩ := Ex.trip_of (by decide +kernel) h1 h2 (.inr h3) h6
  exact ⟨o1, o', h1, h⟩

instance (hp : Headings) (o : Obj F) : Decidable (PlainComments hp o) := by unfold PlainComments; infer_instance

/-- What has to be computed for the next example: the comments of the file that comes back. -/
def Ex.backTest (o : Obj Int) (P : Obj Int → Bool) : Bool :=
  match (convertNCToNA (emitFile (fun _ => intCodec) exTable) (Ex.tripApi o) exArgs).calls with
  | [c] => (match fileOf (fun _ => intCodec) exTable c with
    | .ok out => (match readFile intCodec 0 out.text with
      | .ok o' => P o'
      | .error _ => false)
    | .error _ => false)
  | _ => false

/-- The hypotheses on comments are met by the file of this trip, and by the file that comes back from it. -/
example : HeadingsApart iniHeadings ∧ HeadingsMarked iniHeadings ∧
    ∃ o1 o', readFile intCodec 0 (Ex.tripText (.o2010 Ex.gapGrid)) = .ok o1 ∧ PlainComments iniHeadings o1 ∧
      (comHeader o1).SCOM ≠ [] ∧ PlainComments iniHeadings o' ∧
      Trip (fun _ => intCodec) exTable iniHeadings Nappy.Ex.toXEnv.add Ex.gapX id o1 o' := by
  refine ⟨by decide +kernel, by unfold HeadingsMarked; decide, ?_⟩
  obtain ⟨o1, h1, h2, h3, _, _, _, h6⟩ := Ex.gapGrid_read
  obtain ⟨c, out, o', r1, r2, r3, h⟩ := Ex.trip_of (by decide +kernel) h1 h2 (.inr h3) h6
  have hp : (match readFile intCodec 0 (Ex.tripText (.o2010 Ex.gapGrid)) with
      | .ok o => decide (PlainComments iniHeadings o ∧ (comHeader o).SCOM ≠ [])
      | .error _ => false) = true := by decide +kernel
  have hb : Ex.backTest (.o2010 Ex.gapGrid) (fun o => decide (PlainComments iniHeadings o)) = true := by decide +kernel
  rw [h1] at hp
  simp only [decide_eq_true_eq] at hp
  unfold Ex.backTest at hb
  rw [r1] at hb
  simp only [r2, r3, decide_eq_true_eq] at hb
  exact ⟨o1, o', h1, hp.1, hp.2, hb, h⟩

/-- The hypotheses are met: a name that changes once, and one of an axis that grows. -/
example : ∃ l : Nat → List Str, (∀ k, NamesBack none [] (l k) (l (k + 1))) ∧ l 0 = ["Wind Speed (m s-1)".toList] ∧
    l 1 = ["wind_speed (m s-1)".toList] := by
  have go : ∀ {a b id u : Str}, varAndUnits none a = (id, some u) → strip u = u → u ≠ [] →
      b = lower (safeId id) ++ " (".toList ++ u ++ ")".toList → NamesBack none [] [a] [b] := by
    intro a b id u h1 h2 h3 h4
    refine ⟨rfl, fun i x y hx hy _ _ => ?_⟩
    match i with
    | 0 =>
      injection hx with hx
      injection hy with hy
      subst hx hy
      rw [h1]
      refine ⟨_, idFor_safeId id, fun _ => .inr ?_, fun new ⟨p, k, q, e, _⟩ => by simp at e⟩
      rw [Option.getD_some, h2]
      exact ⟨h3, h4⟩
    | i + 1 => simp at hx
  refine ⟨fun k => if k = 0 then ["Wind Speed (m s-1)".toList] else ["wind_speed (m s-1)".toList], fun k => ?_, rfl, rfl⟩
  cases k with
  | zero =>
    exact go (a := "Wind Speed (m s-1)".toList) (id := "Wind Speed".toList) (u := "m s-1".toList) (by decide +kernel)
      (by decide) (by decide) (by decide +kernel)
  | succ k =>
    exact go (a := "wind_speed (m s-1)".toList) (id := "wind_speed".toList) (u := "m s-1".toList) (by decide +kernel)
      (by decide) (by decide) (by decide +kernel)

example : AxisNamedBack none "Height (km)".toList "Height  (km)".toList := by
  let ax : XAxis Int :=
    { name := "height".toList, attrs := [("long_name", "Height (km)".toList), ("units", "km".toList)], encUnits := none,
      cf := [], values := [] }
  have hx : ax.bestName = .ok "Height  (km)".toList := by decide +kernel
  exact axis_bestName (by decide) rfl (by decide +kernel) hx

end Nappy.Props
