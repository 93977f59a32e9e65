import Verif.ConvertFileLemmas
import Verif.Props.Collect
import Verif.Props.Copy
import Verif.Props.Api

/-! Property C75: the files that a conversion writes, read back. -/

namespace Nappy.Props

open Nappy Spec

variable {F : Type}

theorem leaves_rows {n : Nat} {ns : List Nat} {t : Tree F} (h : Shaped (n :: ns) t) : leavesList (rows t) = leaves t := by
  cases t with
  | val x => simp [Shaped] at h
  | lst l => rfl

section
variable {env : CollectEnv F} {globals : Dict (PyVal F)} {a : Analysis F} {d : Dict (PyVal F)}
  {requested : Option Int} {vars : List (XVar F)}

theorem pyInts_inj {l l' : List Int} (h : (pyInts l : PyVal F) = pyInts l') : l = l' := by
  injection h with h
  exact List.map_injective_iff.2 (fun x y e => by injection e) h

theorem pyStrs_inj {l l' : List Str} (h : (pyStrs l : PyVal F) = pyStrs l') : l = l' := by
  injection h with h
  exact List.map_injective_iff.2 (fun x y e => by injection e) h

/-- The object that a dictionary describes, the one of the same file that is well formed, and what this one holds. -/
theorem collected_obj (cd : Codec F) (q : F → F)
    (hcount : MarksRead env.x cd q a)
    (ha : analyse env.x requested vars = .ok (some a)) (h : collectDict env globals a = .ok d) (hkept : Kept a d)
    (hdata : ∀ v ∈ a.main ++ a.aux, DataFits v) (hfull : ∀ v ∈ a.main, ∀ ax ∈ v.axes, ax.values ≠ [])
    (ht : TextsFit d) (hk : TopLineKept d a.ffi) :
    ∃ o o' : Obj F, (∀ r, o ≠ .o2160 r) ∧ Describes d o ∧ SameFile o o' ∧ Faithful cd q o' ∧ Holds env.x id a d o' := by
  obtain ⟨n, ns, hniv, hmain, haux⟩ := analyse_shapes ha
  have hrows : ∀ v ∈ a.main, leavesList (rows (written env.x v)) = leaves (written env.x v) := by
    intro v hv
    refine leaves_rows (n := n) (ns := ns) ?_
    rw [← hmain v hv]
    exact written_shaped env.x (hdata v (List.mem_append_left _ hv))
  have hflat : a.main.map (fun v => ((rows (written env.x v)).map leaves).flatten)
      = a.main.map (fun v => (leaves (written env.x v)).map id) := by
    refine List.map_congr_left fun v hv => ?_
    rw [← leavesList_eq, hrows v hv, List.map_id]
  have hname : ∀ o : Obj F, Describes d o → dictGet? d "VNAME" = some (pyStrs (varHeader o).VNAME) := by
    intro o ho
    refine ho ("VNAME", pyStrs (varHeader o).VNAME) ?_ (by simp)
    cases o <;> simp [Obj.attrs, attrs2110, varAttrs, varHeader]
  have hcom : ∀ o o' : Obj F, Describes d o → comHeader o' = comHeader o → ∀ S,
      (dictGet? d "SCOM" = some (pyStrs S) → (comHeader o').SCOM.map strip = S.map strip) ∧
      (dictGet? d "NCOM" = some (pyStrs S) → (comHeader o').NCOM.map strip = S.map strip) := by
    intro o o' ho e S
    have e1 := ho ("SCOM", pyStrs (comHeader o).SCOM) (by cases o <;> simp [Obj.attrs, attrs2110, comAttrs, comHeader])
      (by simp)
    have e2 := ho ("NCOM", pyStrs (comHeader o).NCOM) (by cases o <;> simp [Obj.attrs, attrs2110, comAttrs, comHeader])
      (by simp)
    rw [e]
    refine ⟨fun h => ?_, fun h => ?_⟩
    · rw [e1] at h
      rw [pyStrs_inj (Option.some.inj h)]
    · rw [e2] at h
      rw [pyStrs_inj (Option.some.inj h)]
  have haname : ∀ (o : Obj F) h, Describes d o → auxSection o = some h → 0 < h.NAUXV →
      dictGet? d "ANAME" = some (pyStrs h.ANAME) := by
    intro o h ho hh h0
    have h0' : ¬ h.NAUXV = 0 := by omega
    refine ho ("ANAME", pyStrs h.ANAME) ?_ (by simp)
    cases o with
    | o1001 r => cases hh
    | o2160 r => cases hh
    | _ => injection hh with hh; subst hh; simp [Obj.attrs, attrs2110, auxAttrs, h0, h0']
  rcases hkept with hf | ⟨hf, h1⟩ | hf | ⟨hf, h1⟩ | hf
  · obtain ⟨r, r1, r2, ⟨v, r3, r4, rx⟩, r5, r6, r7, _⟩ := C59_1001 ha hf h
      (fun v hv => hdata v (List.mem_append_left _ hv)) ht (hf ▸ hk)
    refine ⟨.o1001 r, .o1001 r, by simp, r1, .inl rfl, r2, by rw [hf]; exact r2.ffi, by simpa [mainValues] using r5, r6, r7, hname _ r1,
      ⟨v, r3, rx⟩, hcom _ _ r1 rfl, header_described r1, fun h => absurd hf h, fun _ => ?_, fun h => by omega, fun h => by omega, fun _ i => ?_, fun _ => ⟨r, rfl, r2⟩,
      fun h => by omega⟩
    rotate_left
    · show r.V[i]?.map _ = _
      rw [r5, List.getElem?_map, Option.map_map]
      cases hi : a.main[i]? with
      | none => rfl
      | some v =>
        have hv := List.mem_of_getElem? hi
        have hs1 : ns = [] := List.length_eq_zero_iff.1 (by
          have := analyse_dims ha (by rw [hf]; decide)
          rw [hf] at this
          simp [formatDims] at this; omega)
        have := written_shaped env.x (hdata v (List.mem_append_left _ hv))
        rw [hmain v hv, hs1] at this
        simp only [Option.map_some, Function.comp_apply]
        rw [mapTree_id (f := id) (fun _ => rfl)]
        exact congrArg some (col_leaves this)
    cases hax : v.axes with
    | nil => rw [hax] at r4; cases r4
    | cons ax0 more =>
      rw [hax] at r4
      exact ⟨v, ax0, r3, by rw [hax]; rfl, by rw [List.map_id]; exact ((List.cons.inj r4).1).symm⟩
  · obtain ⟨r, r1, r2, ⟨v, _, r3, _, rx, _⟩, r5, r6, r7, _⟩ := C59_1020_partial ha hf h1 h
      (fun v hv => hdata v (List.mem_append_left _ hv)) ht (hf ▸ hk)
    exact ⟨.o1020 r, .o1020 r, by simp, r1, .inl rfl, r2, by rw [hf]; exact r2.ffi, by simpa [mainValues] using r5, r6, r7, hname _ r1,
      ⟨v, r3, rx⟩, hcom _ _ r1 rfl, header_described r1, fun _ h => absurd hf h, fun h => absurd hf h, fun h => by omega, fun h => by omega, fun h => by omega,
      fun h => by omega, fun h => by omega⟩
  · obtain ⟨r, r1, r2, ⟨v, ax0, ax1, r3, r4, rx, r5, r6⟩, r7, r8, r9, r10, r11, _⟩ :=
      C59_2110 (fun a => cd.trunc (q a)) (fun v hv ax hax => (hcount (.inl hf) v hv ax hax).1) ha hf h hdata ht (hf ▸ hk)
    refine ⟨.o2110 r, .o2110 r, by simp, r1, .inl rfl, r2, by rw [hf]; exact r2.ffi, ?_, r8, r9, hname _ r1,
      ⟨v, r3, rx⟩, hcom _ _ r1 rfl, header_described r1, fun _ _ => ?_, fun _ => ?_, fun _ => ⟨v, ax0, ax1, r3, r4, ?_⟩, fun h => by omega, fun h => by omega,
      fun h => by omega, fun h => by omega⟩
    · show r.V.map List.flatten = _
      rw [r7, List.map_map]
      exact hflat
    · refine ⟨[_], r.aux, by simp [ownAux, hf], rfl, by show r.A = _; rw [r6]; simp; rfl, ?_, ?_, haname _ _ r1 rfl⟩
      · rw [r10]; simp [ownAux, hf]
      · rw [r11]; simp [ownAux, hf]
    · refine ⟨v, ax0, r3, by rw [r4]; rfl, ?_⟩
      show r.X.map Prod.fst = _
      rw [r5, List.map_map]
      simp [Function.comp_def]
    · show r.X.map Prod.snd = _
      rw [r5, List.map_map]
      simp [Function.comp_def]
  · obtain ⟨r, r', r1, r2, r3, _, ⟨v, ax0, ax1, first, inc, r4, r5, rx, r6, _, _, r7⟩, r8, r9, r10, r11, r12, r13, _⟩ :=
      C59_2310_partial (fun a => cd.trunc (q a)) (fun a => (cd.trunc (q a)).map cd.ofInt)
        (fun v hv ax hax => (hcount (.inr hf) v hv ax hax).1)
        (fun v hv ax hax i hi => by
          have := (hcount (.inr hf) v hv ax hax).2 hf i hi
          simpa using this) ha hf h hdata hfull ht (hf ▸ hk)
    have hv : r'.v = r.v := by rw [r3.1]
    refine ⟨.o2310 r, .o2310 r', by simp, r1, .inr ⟨r, r', rfl, rfl, r3⟩, ⟨r2, .inl ?_⟩, by rw [hf]; exact r2.ffi, ?_,
      r10, r11, ?_, ⟨v, r4, rx⟩, hcom _ _ r1 (by rw [r3.1]; rfl),
      (by have := header_described r1; rw [show (Obj.o2310 r').common = (Obj.o2310 r).common by show r'.c = r.c; rw [r3.1]]; exact this), fun _ _ => ?_, fun _ => ?_, fun h => by omega, fun h => by omega, fun h => by omega,
      fun h => by omega, fun h => by omega⟩
    · rw [r9, h1]; rfl
    · show r'.V.map List.flatten = _
      rw [r8, List.map_map]
      exact hflat
    · rw [hname _ r1]
      show some (pyStrs r.v.VNAME) = some (pyStrs r'.v.VNAME)
      rw [hv]
    · have hv2 : r'.aux = r.aux := by rw [r3.1]
      refine ⟨[_, _, _], r'.aux, by simp [ownAux, hf], rfl, by show r'.A = _; rw [r7]; simp; exact ⟨rfl, rfl, rfl⟩, ?_, ?_,
        ?_⟩
      · rw [r12]; simp [ownAux, hf]
      · rw [r13]; simp [ownAux, hf]
      · rw [hv2]; exact haname _ _ r1 rfl
    · exact ⟨v, ax0, r4, by rw [r5]; rfl, by rw [List.map_id]; exact r6⟩
  · have hf' : a.ffi = 2010 ∨ a.ffi = 3010 ∨ a.ffi = 4010 := by
      rcases hf with hf | hf
      · exact .inl hf
      · exact .inr hf.1
    obtain ⟨r, r1, r2, r3, ⟨v, ax0, more, r4, r5, r6, rx, r11, r12, r13⟩, r7, r8, r9, r10, r14, r15, _⟩ := C59_2010 ha hf' h hdata hfull ht hk
    refine ⟨.o2010 r, .o2010 r, by simp, r1, .inl rfl, ⟨r2, ?_⟩, r3, ?_, r9, r10, hname _ r1,
      ⟨v, r4, rx⟩, hcom _ _ r1 rfl, header_described r1, fun _ _ => ⟨[], r.aux, by simp [ownAux, show a.ffi ≠ 2110 by omega, show a.ffi ≠ 2310 by omega], rfl,
        by simpa [auxValues] using r8, ?_, ?_, haname _ _ r1 rfl⟩,
      fun _ => ⟨v, ax0, r4, by rw [r5]; rfl, by simpa [markValues] using r6⟩, fun h => by omega,
      fun _ => ⟨v, ax0, more, r4, r5, ?_, ?_, ?_⟩, fun _ i => ?_, fun h => by omega, fun _ => ⟨r, rfl, r2⟩⟩
    · rcases hf with hf | ⟨_, l, e1, e2⟩
      · have hl := r2.nxdef
        have : r.NIV = 2 := by
          have := r2.ffi
          omega
        obtain ⟨x, hx⟩ := List.length_eq_one_iff.1 (show r.NXDEF.length = 1 by omega)
        rw [hx]; rfl
      · have := r1 ("NXDEF", pyInts r.NXDEF) (by simp [Obj.attrs]) (by simp)
        rw [e1] at this
        injection this with this
        rw [← pyInts_inj this]
        exact e2
    · show r.V.map leavesList = _
      rw [r7, List.map_map]
      exact List.map_congr_left fun v hv => by rw [List.map_id]; exact hrows v hv
    · rw [r14]; simp [ownAux, show a.ffi ≠ 2110 by omega, show a.ffi ≠ 2310 by omega]
    · rw [r15]; simp [ownAux, show a.ffi ≠ 2110 by omega, show a.ffi ≠ 2310 by omega]
    · show r.XB.length = _
      have e1 := congrArg List.length r2.axes
      have e2 := congrArg List.length r11
      have e3 := r2.nx
      have e4 := r2.nxdef
      simp at e1 e2
      omega
    · intro i ax x h1 h2
      rw [List.map_id]
      exact r12 i ax x h1 h2
    · intro add hx _
      refine ⟨_, r13 add hx, ?_⟩
      rw [r5, List.map_cons, ← r6]
    · show r.V[i]?.map _ = _
      rw [r7, List.getElem?_map, Option.map_map]
      cases hi : a.main[i]? with
      | none => rfl
      | some v =>
        have hv := List.mem_of_getElem? hi
        have := written_shaped env.x (hdata v (List.mem_append_left _ hv))
        rw [hmain v hv] at this
        simp only [Option.map_some, Function.comp_apply]
        rw [mapTree_id (f := id) (fun _ => rfl)]
        generalize written env.x v = t at this
        cases t with
        | val x => simp [Shaped] at this
        | lst l => rfl

theorem setTexts_axes (t : Texts) (o : Obj F) : axisHeader (setTexts t o) = axisHeader o := by cases o <;> rfl

theorem readForm_axisHeader (q : F → F) (n : Int) (o : Obj F) : axisHeader (readForm q n o) = axisHeader o := by cases o <;> rfl

theorem readForm_comments (q : F → F) (n : Int) (o : Obj F) :
    (comHeader (readForm q n o)).SCOM.map strip = (comHeader o).SCOM.map strip ∧
      (comHeader (readForm q n o)).NCOM.map strip = (comHeader o).NCOM.map strip := by
  cases o <;> simp [readForm, withNLHEAD, trimComments, mapValues, comHeader, trimCom, strip_strip]

theorem readForm_header (q : F → F) (n : Int) (o : Obj F) {d : Dict (PyVal F)} (h : HeaderHeld d o.common) :
    HeaderHeld d (readForm q n o).common := by
  cases o <;> exact h

/-- A file that holds the variables still does with other texts. -/
theorem holds_setTexts {x : XEnv F} {d' : Dict (PyVal F)} {o : Obj F} {cd : Codec F} {q : F → F} (t : Texts)
    (h : Holds x id a d o)
    (hn : dictGet? d' "VNAME" = some (pyStrs (varHeader (setTexts t o)).VNAME))
    (hc : dictGet? d' "SCOM" = some (pyStrs (comHeader (setTexts t o)).SCOM) ∧
      dictGet? d' "NCOM" = some (pyStrs (comHeader (setTexts t o)).NCOM))
    (hh : HeaderHeld d' (setTexts t o).common)
    (ha : ∀ h, auxSection (setTexts t o) = some h → dictGet? d' "ANAME" = some (pyStrs h.ANAME))
    (hw : Faithful cd q (setTexts t o)) : Holds x id a d' (setTexts t o) := by
  obtain ⟨s1, s2, s3, s4, s5, s6, _⟩ := setTexts_same t o
  obtain ⟨u1, u2, u3, u4⟩ := setTexts_more t o
  refine ⟨by rw [s6, h.format], by rw [s1, h.values], by rw [s4, h.missing], by rw [s5, h.scale], hn,
    by rw [setTexts_axes]; exact h.axisNames, fun S => ⟨fun h => ?_, fun h => ?_⟩, hh, ?_,
    by rw [s3]; exact h.axis, by rw [u1]; exact h.second, ?_, by rw [u2]; exact h.arrays, ?_, ?_⟩
  · rw [hc.1] at h
    rw [pyStrs_inj (Option.some.inj h)]
  · rw [hc.2] at h
    rw [pyStrs_inj (Option.some.inj h)]
  · intro h1 h2
    obtain ⟨pre, hd, e1, e2, e3, e4, e5, e6⟩ := h.aux h1 h2
    obtain ⟨hd', g1, g2, g3, g4⟩ := u4 hd e2
    exact ⟨pre, hd', e1, g1, by rw [s2, e3], by rw [g3, e4], by rw [g4, e5], fun _ => ha hd' g1⟩
  · intro hf
    obtain ⟨v, ax0, more, e1, e2, e3, e4, e5⟩ := h.axes hf
    exact ⟨v, ax0, more, e1, e2, by rw [u1, e3], by rw [u1]; exact e4, fun add h1 h2 => u3 _ _ (e5 add h1 h2)⟩
  · intro hf
    obtain ⟨r, rfl, _⟩ := h.wf1001 hf
    exact ⟨_, rfl, hw⟩
  · intro hf
    obtain ⟨r, rfl, _⟩ := h.wf2010 hf
    exact ⟨_, rfl, hw.1⟩

theorem holds_read {x : XEnv F} {o : Obj F} (q : F → F) (n : Int) (h : Holds x id a d o) :
    Holds x q a d (readForm q n o) := by
  refine ⟨by rw [readForm_ffi, h.format], ?_, by rw [readForm_vars, h.missing],
    by rw [readForm_vars, h.scale], by rw [readForm_vars, h.names],
    by rw [readForm_axisHeader]; exact h.axisNames, fun S => ?_, readForm_header q n o h.header, ?_, ?_, ?_, ?_, ?_, ?_, ?_⟩
  · rw [readForm_main, h.values, List.map_map]
    simp
  · obtain ⟨e1, e2⟩ := readForm_comments q n o
    rw [e1, e2]
    exact h.comments S
  · intro h1 h2
    obtain ⟨pre, hd, e1, e2, e3, e4⟩ := h.aux h1 h2
    refine ⟨pre.map (List.map q), hd, by simpa using e1, by rw [readForm_auxSection, e2], ?_, e4⟩
    rw [readForm_aux, e3]
    simp
  · intro h1
    obtain ⟨v, ax0, e1, e2, e3⟩ := h.axis h1
    refine ⟨v, ax0, e1, e2, ?_⟩
    rw [readForm_marks, e3]
    simp
  · intro h1
    obtain ⟨v, ax0, ax1, e1, e2, e3⟩ := h.second h1
    refine ⟨v, ax0, ax1, e1, e2, ?_⟩
    rw [readForm_given, e3]
    simp
  · intro h1
    obtain ⟨v, ax0, more, e1, e2, e3, e4, e5⟩ := h.axes h1
    refine ⟨v, ax0, more, e1, e2, by rw [readForm_given, List.length_map, e3], ?_, ?_⟩
    · intro i ax y h2 h3
      rw [readForm_given, List.getElem?_map] at h3
      obtain ⟨z, h4, rfl⟩ := Option.map_eq_some_iff.1 h3
      have := e4 i ax z h2 h4
      rw [List.map_id] at this
      rw [List.length_map, ← this]
    · intro add h2 h3
      refine readForm_axes (e5 add h2 (fun _ _ _ _ => rfl)) ?_ ?_
      · obtain ⟨v', ax', g1, g2, g3⟩ := h.axis (by omega)
        rw [e1] at g1
        injection g1 with g1
        subst g1
        rw [g3, List.map_id]
        conv_rhs => rw [← List.map_id ax'.values]
        exact List.map_congr_left fun y hy => h3 ax' (List.mem_of_mem_head? (by rw [g2]; rfl)) y hy
      · conv_rhs => rw [← List.map_id (givenAxes o)]
        refine List.map_congr_left fun y hy => ?_
        obtain ⟨i, hi, rfl⟩ := List.mem_iff_getElem.1 hy
        have hm : i < more.length := by omega
        have := e4 i more[i] _ (List.getElem?_eq_getElem hm) (List.getElem?_eq_getElem hi)
        rw [List.map_id] at this
        show _ = (givenAxes o)[i]
        conv_rhs => rw [← List.map_id (givenAxes o)[i]]
        refine List.map_congr_left fun z hz => ?_
        rw [this] at hz
        exact h3 more[i] (by rw [e2]; exact List.mem_cons_of_mem _ (List.getElem_mem hm)) z (List.mem_of_mem_take hz)
  · intro h1 i
    rw [readForm_array, h.arrays h1 i, Option.map_map]
    cases a.main[i]? with
    | none => rfl
    | some v =>
      simp only [Option.map_some, Function.comp_apply]
      rw [mapTree_id (f := id) (fun _ => rfl)]
  · intro hf
    obtain ⟨r, rfl, w⟩ := h.wf1001 hf
    exact wf1001_readForm q n w
  · intro hf
    obtain ⟨r, rfl, w⟩ := h.wf2010 hf
    obtain ⟨r', e, w', _⟩ := wf2010_readForm q n w
    exact ⟨r', e, w'⟩

/-- C75 for one file. The dictionary made from variables, prepared for writing, is written without an error, and the
file holds the variables: format, values, missing values, names, auxiliary variables, first axis. -/
theorem C75_pass (fe : Env F) {q : F → F} (hcd : fe.cd.Lawful q) (hann : fe.ann = none) (hdel : WsDelim fe.delim)
    (hcount : MarksRead env.x fe.cd q a)
    {cfg : WriteConfig F} {items : Dict (PyVal F)} {delimiter : Str} {d' : Dict (PyVal F)}
    (ha : analyse env.x requested vars = .ok (some a)) (h : collectDict env globals a = .ok d) (hkept : Kept a d)
    (hdata : ∀ v ∈ a.main ++ a.aux, DataFits v) (hfull : ∀ v ∈ a.main, ∀ ax ∈ v.axes, ax.values ≠ [])
    (hs : SourceFits d) (hk : TopLineKept d a.ffi)
    (hp : prepareDict cfg items delimiter d = .ok d') (hf : HeaderFits d') :
    ∃ dd out o, writeDict fe false d' = .ok (dd, out) ∧ out.err = none ∧ readFile fe.cd 0 out.text = .ok o ∧
      Holds env.x q a d' o := by
  obtain ⟨d2, h2, hs2⟩ := collectDict_more h
  have hsame : ∀ k, k ∉ textKeys → dictGet? d2 k = dictGet? d k := by
    intro k hk
    refine hs2.1 k (fun hm => hk ?_)
    simp only [headKeys, textKeys, List.mem_cons, List.not_mem_nil, or_false] at hm ⊢
    tauto
  have hk2 : TopLineKept d2 a.ffi :=
    ⟨by rw [hsame _ (by decide)]; exact hk.1, by rw [hsame _ (by decide)]; exact hk.2⟩
  have hkept2 : Kept a d2 := by
    unfold Kept
    rw [hsame "NXDEF" (by decide)]
    exact hkept
  obtain ⟨o, o', h6, ho, hsf, hw, hh⟩ :=
    collected_obj fe.cd q hcount ha h2 hkept2 hdata hfull (supplied_texts hs2 hs) hk2
  obtain ⟨t, ht, hsf', hw', hn, hcm, hhd, hna⟩ := retexted h6 ho hsf hw
    (fun k hk => (prepareDict_frame hp k hk).trans (hsame k hk).symm) hf
  have h6' : ∀ r, setTexts t o ≠ .o2160 r := fun r e => h6 r ((setTexts_same t o).2.2.2.2.2.2 r e)
  obtain ⟨dd, hwr⟩ := sameFile_written hsf' h6' hw' ht fe false
  obtain ⟨he, n, hr⟩ := readFile_written hcd hann hdel hw'
  refine ⟨dd, _, _, hwr, he, ?_, holds_read q n (holds_setTexts t hh hn hcm hhd hna hw')⟩
  rw [← hr]
  congr 1
  cases hx : setTexts t o' with
  | o2160 r =>
    obtain ⟨r', e⟩ := (sameFile_parts hsf').2.2.2.2.2.2 ⟨r, hx⟩
    exact absurd e (h6' r')
  | _ => rfl

/-- C75 for one file, if nothing is overridden: only the texts of the source have to fit. -/
theorem C75_plain (fe : Env F) {q : F → F} (hcd : fe.cd.Lawful q) (hann : fe.ann = none) (hdel : WsDelim fe.delim)
    (hcount : MarksRead env.x fe.cd q a)
    (cfg : WriteConfig F) (hcfg : cfg.localAtts = []) (delimiter : Str)
    (ha : analyse env.x requested vars = .ok (some a)) (h : collectDict env globals a = .ok d) (hkept : Kept a d)
    (hdata : ∀ v ∈ a.main ++ a.aux, DataFits v) (hfull : ∀ v ∈ a.main, ∀ ax ∈ v.axes, ax.values ≠ [])
    (ht : TextsFit d) (hk : TopLineKept d a.ffi) :
    ∃ d' dd out o, prepareDict cfg [] delimiter d = .ok d' ∧ writeDict fe false d' = .ok (dd, out) ∧ out.err = none ∧
      readFile fe.cd 0 out.text = .ok o ∧ Holds env.x q a d' o ∧
      mapRes XVar.bestName a.main = .ok (varHeader o).VNAME := by
  obtain ⟨d', h1, h2⟩ := prepareDict_plain h ht hk cfg hcfg delimiter
  obtain ⟨dd, out, o, h3, h4, h5, h6⟩ := C75_pass fe hcd hann hdel hcount ha h hkept hdata hfull
    ⟨ht.dates, ht.names, ht.comments⟩ hk h1 h2
  refine ⟨d', dd, out, o, h1, h3, h4, h5, h6, ?_⟩
  have hv : dictGet? d' "VNAME" = dictGet? d "VNAME" := by
    unfold prepareDict at h1
    rw [hcfg] at h1
    obtain ⟨d1, h7, h8⟩ := ok_of_bind h1
    have e : d1 = d := (Except.ok.inj h7).symm
    rw [e] at h8
    split at h8
    · obtain rfl | ⟨ncom, line, -, rfl⟩ := columnHeaders_cases h8
      · rfl
      · rw [dictGet?_set, dictGet?_set, if_neg (by decide), if_neg (by decide)]
    · rw [← Except.ok.inj h8]
  have e1 := h6.names
  rw [hv] at e1
  obtain ⟨p⟩ := collectDict_parts h
  obtain ⟨vh, _, _, _, _, v4, v5⟩ := p.varHdr ht
  have e2 := v5 ("VNAME", pyStrs vh.VNAME) (by simp [varAttrs])
  rw [e1] at e2
  injection e2 with e2
  injection e2 with e2
  rw [List.map_injective_iff.2 (fun x y e => by injection e) e2]
  exact v4

end

/-- What a call of `convertNCToNA` without a size limit writes, with the dictionaries that are written. -/
theorem run_holds (fmt : Str → Codec F) (table : String → Str) (env : ApiEnv F) (args : NCToNAArgs F) {q : F → F}
    (hcd : (fmt args.opts.floatFormat).Lawful q) (hdel : WsDelim args.opts.delimiter)
    (ho : args.opts.annotation = false) (hh : args.opts.noHeader = false) (hsz : args.opts.sizeLimit = none)
    (hnames : args.onlyNames = false)
    {nc : NCFile F} (hnc : env.openNC args.ncFile = .ok nc) {passes : List (Analysis F)} {ds : List (Dict (PyVal F))}
    (hp : convert env.collect.x env.showTree args.requestedFFI
      (readXarrayFile nc.vars args.varIds args.excludeVars).length
      (readXarrayFile nc.vars args.varIds args.excludeVars) = .ok (some passes))
    (hds : mapRes (collectDict env.collect nc.attrs) passes = .ok ds)
    (hcount : ∀ a ∈ passes, MarksRead env.collect.x (fmt args.opts.floatFormat) q a)
    (hfit : ∀ (i : Nat) a d, passes[i]? = some a → ds[i]? = some d →
      PassFits env args.naItems args.opts.delimiter a d) :
    ∃ names, (convertNCToNA (emitFile fmt table) env args).result = .ok names ∧ names.length = passes.length ∧
      names.Nodup ∧ (convertNCToNA (emitFile fmt table) env args).calls.map WriteCall.name = names ∧
      ∀ (i : Nat) a c, passes[i]? = some a → (convertNCToNA (emitFile fmt table) env args).calls[i]? = some c →
        ∃ out o, fileOf fmt table c = .ok out ∧ out.err = none ∧
          readFile (fmt args.opts.floatFormat) 0 out.text = .ok o ∧ Holds env.collect.x q a c.dict o ∧
          ∃ d, ds[i]? = some d ∧ prepareDict env.cfg args.naItems args.opts.delimiter d = .ok c.dict := by
  have hlen := mapRes_ok_length _ _ _ hds
  have hdicts : ncDicts env args = .ok ds := by
    unfold ncDicts
    rw [hnc]
    simp only [ok_bind]
    unfold convertDicts
    rw [hp]
    simp only [ok_bind]
    rw [hds]
    rfl
  obtain ⟨names, hn⟩ : ∃ names, constructNAFileNames (some args.ncFile) ds.length
      (some (args.naFile.getD (getFileNameWithNewExtension args.ncFile "na".toList))) = .ok names := by
    unfold constructNAFileNames
    simp only [baseNAFile, ok_bind]
    split <;> exact ⟨_, rfl⟩
  obtain ⟨hnl, hnd⟩ := construct_length hn
  -- one pass
  have hpass : ∀ (i : Nat) a d, passes[i]? = some a → ds[i]? = some d → ∀ name,
      ∃ d' out o, prepareDict env.cfg args.naItems args.opts.delimiter d = .ok d' ∧
        fileOf fmt table (wholeCall args.opts name d') = .ok out ∧ out.err = none ∧
        readFile (fmt args.opts.floatFormat) 0 out.text = .ok o ∧ Holds env.collect.x q a d' o := by
    intro i a d hi hd name
    obtain ⟨k1, k2, k3, k4, k5, d', k6, k7⟩ := hfit i a d hi hd
    obtain ⟨vars', ha⟩ := convert_analysed hp a (List.mem_of_getElem? hi)
    obtain ⟨dd, out, o, e1, e2, e3, e4⟩ := C75_pass
      { cd := fmt args.opts.floatFormat, delim := args.opts.delimiter, ann := none } hcd rfl hdel
      (hcount a (List.mem_of_getElem? hi)) ha (mapRes_get hds hi hd) k1 k2 k3 k4 k5 k6 k7
    refine ⟨d', out, o, k6, ?_, e2, e3, e4⟩
    unfold fileOf wholeCall
    simp only [ho, hh, e1, ok_bind, Bool.false_eq_true, if_false]
  obtain ⟨r', calls, w1, w2, w3, w4⟩ := writeNAFilesGo_ok (emitFile fmt table) env.cfg args.naItems args.opts hsz
    (names.zip ds) { fileList := [], written := [], dicts := [] } (by
      intro nd hnd
      obtain ⟨i, hi⟩ := List.mem_iff_getElem?.1 hnd
      rw [List.getElem?_zip_eq_some] at hi
      have hlt := (List.getElem?_eq_some_iff.1 hi.2).1
      obtain ⟨d', out, o, e1, e2, e3, _⟩ := hpass i (passes[i]'(by omega)) nd.2 (List.getElem?_eq_getElem _) hi.2 nd.1
      refine ⟨d', e1, ?_⟩
      unfold emitFile
      simp only [e2, ok_bind, e3])
  have hrun : convertNCToNA (emitFile fmt table) env args = { calls := r'.written, result := .ok r'.fileList } := by
    unfold convertNCToNA
    simp only [hdicts, hnames, Bool.false_eq_true, if_false]
    unfold writeNAFiles
    simp only [hn, w1]
  have hzip : (names.zip ds).map Prod.fst = names := List.map_fst_zip (by omega)
  rw [List.nil_append] at w2 w3
  rw [hrun]
  refine ⟨names, by rw [w3, hzip], by omega, hnd, ?_, ?_⟩
  · rw [w2, ← hzip]
    clear hrun w1 w2 w3 hzip
    generalize names.zip ds = l at w4
    show calls.map WriteCall.name = _
    induction w4 with
    | nil => rfl
    | cons h _ ih =>
      obtain ⟨d', _, rfl⟩ := h
      rw [List.map_cons, List.map_cons, ih]
      rfl
  · intro i a c hi hc
    rw [w2] at hc
    obtain ⟨hlt, hci⟩ := List.getElem?_eq_some_iff.1 hc
    have hl := w4.length_eq
    have hlt' : i < calls.length := hlt
    obtain ⟨d', e1, e2⟩ := (List.forall₂_iff_get.1 w4).2 i (by omega) hlt'
    simp only [List.get_eq_getElem] at e1 e2
    have hci' : calls[i] = c := hci
    rw [hci'] at e2
    rw [List.length_zip] at hl
    have hz : ds[i]? = some ((names.zip ds)[i]'(by rw [List.length_zip]; omega)).2 := by
      rw [List.getElem_zip]; exact List.getElem?_eq_getElem (by omega)
    obtain ⟨d'', out, o, g1, g2, g3, g4, g5⟩ := hpass i a _ hi hz ((names.zip ds)[i]'(by rw [List.length_zip]; omega)).1
    have : d'' = d' := Except.ok.inj (g1.symm.trans e1)
    subst this
    rw [← e2] at g2
    refine ⟨out, o, g2, g3, g4, ?_, _, hz, ?_⟩
    · rw [e2]
      exact g5
    · rw [e2]
      exact g1

/-- C75. A call of `convertNCToNA` without a size limit writes one file for each pass, returns their names, and each
file holds the variables of its pass. -/
theorem C75_run (fmt : Str → Codec F) (table : String → Str) (env : ApiEnv F) (args : NCToNAArgs F) {q : F → F}
    (hcd : (fmt args.opts.floatFormat).Lawful q) (hdel : WsDelim args.opts.delimiter)
    (ho : args.opts.annotation = false) (hh : args.opts.noHeader = false) (hsz : args.opts.sizeLimit = none)
    (hnames : args.onlyNames = false)
    {nc : NCFile F} (hnc : env.openNC args.ncFile = .ok nc) {passes : List (Analysis F)} {ds : List (Dict (PyVal F))}
    (hp : convert env.collect.x env.showTree args.requestedFFI
      (readXarrayFile nc.vars args.varIds args.excludeVars).length
      (readXarrayFile nc.vars args.varIds args.excludeVars) = .ok (some passes))
    (hds : mapRes (collectDict env.collect nc.attrs) passes = .ok ds)
    (hcount : ∀ a ∈ passes, MarksRead env.collect.x (fmt args.opts.floatFormat) q a)
    (hfit : ∀ (i : Nat) a d, passes[i]? = some a → ds[i]? = some d →
      PassFits env args.naItems args.opts.delimiter a d) :
    ∃ names, (convertNCToNA (emitFile fmt table) env args).result = .ok names ∧ names.length = passes.length ∧
      names.Nodup ∧ (convertNCToNA (emitFile fmt table) env args).calls.map WriteCall.name = names ∧
      ∀ (i : Nat) a c, passes[i]? = some a → (convertNCToNA (emitFile fmt table) env args).calls[i]? = some c →
        ∃ out o, fileOf fmt table c = .ok out ∧ out.err = none ∧
          readFile (fmt args.opts.floatFormat) 0 out.text = .ok o ∧ Holds env.collect.x q a c.dict o := by
  obtain ⟨names, e1, e2, e3, e4, e5⟩ := run_holds fmt table env args hcd hdel ho hh hsz hnames hnc hp hds hcount hfit
  refine ⟨names, e1, e2, e3, e4, fun i a c hi hc => ?_⟩
  obtain ⟨out, o, g1, g2, g3, g4, _⟩ := e5 i a c hi hc
  exact ⟨out, o, g1, g2, g3, g4⟩

/-! ### Concrete cases -/

/-- The hypotheses of `C75_plain` are met by four formats; the numbers are printed without their last digit. -/
example : ∃ a d, Ex.Collected Ex.collectEnv none Ex.globals
    [Ex.dataVar "temp" [exTime] none none, Ex.dataVar "pressure" [exTime] none none] 1001 a d ∧ Kept a d := by
  obtain ⟨a, d, h, _⟩ := Ex.collected_of (env := Ex.collectEnv) (requested := none) (globals := Ex.globals)
    (vars := [Ex.dataVar "temp" [exTime] none none, Ex.dataVar "pressure" [exTime] none none]) (ffi := 1001)
    (P := fun _ _ => true) (by decide +kernel)
  exact ⟨a, d, h, .inl h.format⟩

example : ∃ a d, Ex.Collected Ex.collectEnv (some 2110) Ex.globals
    [Ex.dataVar "temp" [exTime, exHeight] none none, Ex.dataVar "pressure" [exTime] none none] 2110 a d ∧ Kept a d ∧
    MarksRead Ex.collectEnv.x intCodec id a := by
  obtain ⟨a, d, h, _⟩ := Ex.collected_of (env := Ex.collectEnv) (requested := some 2110) (globals := Ex.globals)
    (vars := [Ex.dataVar "temp" [exTime, exHeight] none none, Ex.dataVar "pressure" [exTime] none none]) (ffi := 2110)
    (P := fun _ _ => true) (by decide +kernel)
  exact ⟨a, d, h, .inr (.inr (.inl h.format)), fun _ v _ ax _ => ⟨rfl, fun _ i _ => rfl⟩⟩

/-- One main variable in 2310, and an auxiliary one. -/
example : ∃ a d, Ex.Collected Ex.collectEnv (some 2310) Ex.globals
    [Ex.dataVar "temp" [exTime, exHeight] none none, Ex.dataVar "pressure" [exTime] none none] 2310 a d ∧ Kept a d ∧
    MarksRead Ex.collectEnv.x intCodec id a := by
  obtain ⟨a, d, h, hp⟩ := Ex.collected_of (env := Ex.collectEnv) (requested := some 2310) (globals := Ex.globals)
    (vars := [Ex.dataVar "temp" [exTime, exHeight] none none, Ex.dataVar "pressure" [exTime] none none]) (ffi := 2310)
    (P := fun a _ => decide (a.main.length = 1)) (by decide +kernel)
  exact ⟨a, d, h, .inr (.inr (.inr (.inl ⟨h.format, of_decide_eq_true hp⟩))), fun _ v _ ax _ => ⟨rfl, fun _ i _ => rfl⟩⟩

/-- A variable on three axes, for two of which as many values are given. -/
example : ∃ a d, Ex.Collected Ex.collectEnv none Ex.globals
    [Ex.dataVar "temp" [exTime, exAxis "height" [10, 20, 30, 40], exAxis "level" [1, 3, 4]] none none] 3010 a d ∧
    Kept a d := by
  obtain ⟨a, d, h, hp⟩ := Ex.collected_of (env := Ex.collectEnv) (requested := none) (globals := Ex.globals)
    (vars := [Ex.dataVar "temp" [exTime, exAxis "height" [10, 20, 30, 40], exAxis "level" [1, 3, 4]] none none])
    (ffi := 3010) (P := fun _ d => decide ((dictGet? d "NXDEF").bind Ex.ints = some [3, 3])) (by decide +kernel)
  refine ⟨a, d, h, .inr (.inr (.inr (.inr (.inr ⟨.inl h.format, [3, 3], ?_, rfl⟩))))⟩
  obtain ⟨p⟩ := collectDict_parts h.collected
  have e := p.axisItems.2.2.2.2
  rw [e] at hp ⊢
  simp only [pyNats, Option.bind_some, Ex.ints_pyInts, decide_eq_true_eq, Option.some.injEq] at hp ⊢
  rw [hp]

/-- What `fitsB` tests, and the numbers of lines and names. -/
def Ex.headerB (d : Dict (PyVal F)) : Bool :=
  Ex.fitsB d && [("SCOM", "NSCOML"), ("NCOM", "NNCOML"), ("VNAME", "NV"), ("ANAME", "NAUXV")].all (fun k =>
    match dictGet? d k.1 with
    | some (.list l) => (asStrs l).isSome && Ex.intB (dictGet? d k.2) == some (l.length : Int)
    | _ => false)

theorem Ex.asStrs_some : ∀ {l : List (PyVal F)} {s : List Str}, asStrs l = some s → l = s.map PyVal.str
  | [], s, h => by injection h with h; subst h; rfl
  | .str x :: t, s, h => by
    rw [asStrs, Option.map_eq_some_iff] at h
    obtain ⟨s', h1, rfl⟩ := h
    rw [Ex.asStrs_some h1]
    rfl
  | .int _ :: _, _, h => by cases h
  | .num _ :: _, _, h => by cases h
  | .list _ :: _, _, h => by cases h
  | .none :: _, _, h => by cases h

theorem Ex.header_of {d : Dict (PyVal F)} (h : Ex.headerB d = true) : HeaderFits d := by
  simp only [Ex.headerB, Bool.and_eq_true, List.all_eq_true] at h
  refine ⟨Ex.textsFit_of h.1, fun k hk => ?_⟩
  have := h.2 k hk
  split at this
  · rename_i l e
    simp only [Bool.and_eq_true, beq_iff_eq] at this
    obtain ⟨s, hs⟩ := Option.isSome_iff_exists.1 this.1
    have e2 := Ex.asStrs_some hs
    refine ⟨s, by rw [e, e2]; rfl, ?_⟩
    rw [Ex.intB_some this.2, e2, List.length_map]
  · cases this

/-- The hypotheses of `C75_run` are met by a source with two files, with overriding items and a format that rounds. -/
def Ex.passB (env : ApiEnv Int) (items : Dict (PyVal Int)) (delimiter : Str) (a : Analysis Int) (d : Dict (PyVal Int)) :
    Bool :=
  (a.ffi == 1001 || a.ffi == 2010) && (a.main ++ a.aux).all (fun v => Ex.shapedB v.shape v.data)
    && a.main.all (fun v => v.axes.all (fun ax => !ax.values.isEmpty)) && Ex.fitsB d && Ex.topB d a.ffi
    && (match prepareDict env.cfg items delimiter d with | .ok d' => Ex.headerB d' | _ => false)

theorem Ex.pass_of {env : ApiEnv Int} {items : Dict (PyVal Int)} {delimiter : Str} {a : Analysis Int}
    {d : Dict (PyVal Int)} (h : Ex.passB env items delimiter a d = true) : PassFits env items delimiter a d := by
  simp only [Ex.passB, Bool.and_eq_true, Bool.or_eq_true, beq_iff_eq, List.all_eq_true, Bool.not_eq_true',
    List.isEmpty_eq_false_iff] at h
  obtain ⟨⟨⟨⟨⟨h1, h2⟩, h3⟩, h4⟩, h5⟩, h6⟩ := h
  have ht := Ex.textsFit_of h4
  refine ⟨h1.elim .inl (fun h => .inr (.inr (.inr (.inr (.inl h))))), fun v hv => Ex.shaped_of (h2 v hv), h3,
    ⟨ht.dates, ht.names, ht.comments⟩, Ex.top_of h5, ?_⟩
  split at h6
  · exact ⟨_, by assumption, Ex.header_of h6⟩
  · cases h6

/-- A source with a variable on two axes, one on the first of them, and one on another axis. -/
def Ex.source : NCFile Int :=
  { vars := [Ex.dataVar "temp" [exTime, exHeight] none none, Ex.dataVar "wind" [exTime] none none,
      Ex.dataVar "depth" [exAxis "level" [1, 2, 3]] none none],
    attrs := Ex.globals }

def Ex.sourceApi : ApiEnv Int := { exApi with openNC := fun _ => .ok Ex.source }

def Ex.sourceArgs : NCToNAArgs Int :=
  { exArgs with naItems := [("ONAME", .str "Another Person".toList), ("NCOM", .list [.str "checked".toList])] }

theorem Ex.run_of {env : ApiEnv Int} {args : NCToNAArgs Int} {nc : NCFile Int} {n : Nat}
    (h : (match convert env.collect.x env.showTree args.requestedFFI
        (readXarrayFile nc.vars args.varIds args.excludeVars).length
        (readXarrayFile nc.vars args.varIds args.excludeVars) with
      | .ok (some passes) => (match mapRes (collectDict env.collect nc.attrs) passes with
        | .ok ds => decide (passes.length = n) && passes.all (fun a => a.ffi != 2110 && a.ffi != 2310) &&
            (passes.zip ds).all (fun p => Ex.passB env args.naItems args.opts.delimiter p.1 p.2)
        | _ => false)
      | _ => false) = true) :
    ∃ passes ds, convert env.collect.x env.showTree args.requestedFFI
        (readXarrayFile nc.vars args.varIds args.excludeVars).length
        (readXarrayFile nc.vars args.varIds args.excludeVars) = .ok (some passes) ∧
      mapRes (collectDict env.collect nc.attrs) passes = .ok ds ∧ passes.length = n ∧ (∀ a ∈ passes, a.ffi ≠ 2110 ∧ a.ffi ≠ 2310) ∧
      ∀ (i : Nat) a d, passes[i]? = some a → ds[i]? = some d → PassFits env args.naItems args.opts.delimiter a d := by
  split at h
  · rename_i passes hp
    split at h
    · rename_i ds hds
      simp only [Bool.and_eq_true, decide_eq_true_eq, List.all_eq_true, bne_iff_ne] at h
      refine ⟨passes, ds, hp, hds, h.1.1, h.1.2, fun i a d h1 h2 => Ex.pass_of (h.2 (a, d) ?_)⟩
      exact List.mem_of_getElem? (List.getElem?_zip_eq_some.2 ⟨h1, h2⟩)
    · cases h
  · cases h

/-- The whole run: two files, each read back. -/
example : ∃ names, (convertNCToNA (emitFile (fun _ => Ex.tensCodec) exTable) Ex.sourceApi Ex.sourceArgs).result
    = .ok names ∧ names.length = 2 := by
  obtain ⟨passes, ds, h1, h2, h3, h4, h5⟩ := Ex.run_of (env := Ex.sourceApi) (args := Ex.sourceArgs) (nc := Ex.source)
    (n := 2) (by decide +kernel)
  obtain ⟨names, e1, e2, _⟩ := C75_run (fun _ => Ex.tensCodec) exTable Ex.sourceApi Ex.sourceArgs Ex.tens_lawful
    (by decide) rfl rfl rfl rfl (nc := Ex.source) rfl h1 h2 (fun a ha hf => absurd hf (not_or.2 (h4 a ha))) h5
  exact ⟨names, e1, by omega⟩

/-- C75, negation: a variable on three axes, for which different numbers of values are given, becomes a file that
cannot be read. -/
theorem C75_3010_fails : ∃ a d d' dd out, Ex.Collected Ex.collectEnv none Ex.globals
    [Ex.dataVar "temp" [exTime, exHeight, exAxis "level" [1, 3, 4]] none none] 3010 a d ∧
    prepareDict exConfig [] "    ".toList d = .ok d' ∧ HeaderFits d' ∧ writeDict Nappy.Ex.env false d' = .ok (dd, out) ∧
    out.err = none ∧ readFile Nappy.Ex.env.cd 0 out.text = .error .exn := by
  obtain ⟨a, d, h, hp⟩ := Ex.collected_of (env := Ex.collectEnv) (requested := none) (globals := Ex.globals)
    (vars := [Ex.dataVar "temp" [exTime, exHeight, exAxis "level" [1, 3, 4]] none none])
    (ffi := 3010) (P := fun _ d => match prepareDict exConfig [] "    ".toList d with
      | .ok d' => Ex.headerB d' && (match writeDict Nappy.Ex.env false d' with
        | .ok (_, out) => decide (out.err = none) && (match readFile Nappy.Ex.env.cd 0 out.text with
          | .error x => decide (x = .exn)
          | .ok _ => false)
        | _ => false)
      | _ => false) (by decide +kernel)
  split at hp
  · rename_i d' hd'
    rw [Bool.and_eq_true] at hp
    obtain ⟨hp1, hp⟩ := hp
    split at hp
    · rename_i dd out hw
      rw [Bool.and_eq_true, decide_eq_true_eq] at hp
      obtain ⟨hp2, hp⟩ := hp
      split at hp
      · rename_i x hx
        rw [decide_eq_true_eq] at hp
        exact ⟨a, d, d', dd, out, h, hd', Ex.header_of hp1, hw, hp2, by rw [hx, hp]⟩
      · cases hp
    · cases hp
  · cases hp

/-- C75, negation: two variables in format 2310 are written without an error, and what is read are other values. -/
theorem C75_2310_fails : ∃ a d d' dd out o, Ex.Collected Ex.collectEnv (some 2310) Ex.globals
    [Ex.dataVar "temp" [exTime, exHeight] none none, Ex.dataVar "wind" [exTime, exHeight] (some (-1)) none] 2310 a d ∧
    prepareDict exConfig [] "    ".toList d = .ok d' ∧ HeaderFits d' ∧ writeDict Nappy.Ex.env false d' = .ok (dd, out) ∧
    out.err = none ∧ readFile Nappy.Ex.env.cd 0 out.text = .ok o ∧
    mainValues o ≠ a.main.map (fun v => leaves (written Ex.collectEnv.x v)) := by
  obtain ⟨a, d, h, hp⟩ := Ex.collected_of (env := Ex.collectEnv) (requested := some 2310) (globals := Ex.globals)
    (vars := [Ex.dataVar "temp" [exTime, exHeight] none none, Ex.dataVar "wind" [exTime, exHeight] (some (-1)) none])
    (ffi := 2310) (P := fun a d => match prepareDict exConfig [] "    ".toList d with
      | .ok d' => Ex.headerB d' && (match writeDict Nappy.Ex.env false d' with
        | .ok (_, out) => decide (out.err = none) && (match readFile Nappy.Ex.env.cd 0 out.text with
          | .error _ => false
          | .ok o => decide (mainValues o ≠ a.main.map (fun v => leaves (written Ex.collectEnv.x v))))
        | _ => false)
      | _ => false) (by decide +kernel)
  split at hp
  · rename_i d' hd'
    rw [Bool.and_eq_true] at hp
    obtain ⟨hp1, hp⟩ := hp
    split at hp
    · rename_i dd out hw
      rw [Bool.and_eq_true, decide_eq_true_eq] at hp
      obtain ⟨hp2, hp⟩ := hp
      split at hp
      · cases hp
      · rename_i o hx
        exact ⟨a, d, d', dd, out, o, h, hd', Ex.header_of hp1, hw, hp2, hx, of_decide_eq_true hp⟩
    · cases hp
  · cases hp

end Nappy.Props
