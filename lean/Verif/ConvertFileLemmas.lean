import Verif.Spec.ConvertFile
import Verif.CopyLemmas
import Verif.ConvertLemmas
import Verif.CollectObj

/-! Lemmas about the files that a conversion writes: texts of the header replaced in an object. -/

namespace Nappy

open Spec

variable {F : Type}

/-- The texts that a conversion may replace. -/
structure Texts where
  ONAME : Str
  ORG : Str
  SNAME : Str
  MNAME : Str
  DATE : List Int
  RDATE : List Int
  VNAME : List Str
  ANAME : List Str
  SCOM : List Str
  NCOM : List Str

def Texts.common (t : Texts) (c : Common) : Common :=
  { c with
    ONAME := t.ONAME, ORG := t.ORG, SNAME := t.SNAME, MNAME := t.MNAME, DATE := t.DATE, RDATE := t.RDATE }

def Texts.vars (t : Texts) (v : VarHdr F) : VarHdr F := { v with VNAME := t.VNAME }

def Texts.aux (t : Texts) (a : AuxHdr F) : AuxHdr F := { a with ANAME := t.ANAME }

def Texts.com (t : Texts) : ComHdr :=
  { NSCOML := t.SCOM.length, SCOM := t.SCOM, NNCOML := t.NCOM.length, NCOM := t.NCOM }

/-- The object with other texts. -/
def setTexts (t : Texts) : Obj F → Obj F
  | .o1001 r => .o1001 { r with c := t.common r.c, v := t.vars r.v, com := t.com }
  | .o1010 r => .o1010 { r with c := t.common r.c, v := t.vars r.v, aux := t.aux r.aux, com := t.com }
  | .o1020 r => .o1020 { r with c := t.common r.c, v := t.vars r.v, aux := t.aux r.aux, com := t.com }
  | .o2010 r => .o2010 { r with c := t.common r.c, v := t.vars r.v, aux := t.aux r.aux, com := t.com }
  | .o2110 r => .o2110 { r with c := t.common r.c, v := t.vars r.v, aux := t.aux r.aux, com := t.com }
  | .o2310 r => .o2310 { r with c := t.common r.c, v := t.vars r.v, aux := t.aux r.aux, com := t.com }
  | .o2160 r => .o2160 r

/-- The items that hold these texts. -/
def Texts.items (t : Texts) : Dict (PyVal F) :=
  [("ONAME", .str t.ONAME), ("ORG", .str t.ORG), ("SNAME", .str t.SNAME), ("MNAME", .str t.MNAME),
   ("DATE", pyInts t.DATE), ("RDATE", pyInts t.RDATE), ("VNAME", pyStrs t.VNAME), ("ANAME", pyStrs t.ANAME),
   ("NSCOML", .int t.SCOM.length), ("SCOM", pyStrs t.SCOM), ("NNCOML", .int t.NCOM.length),
   ("NCOM", pyStrs t.NCOM)]

/-- The keys of these items. -/
def textKeys : List String :=
  ["ONAME", "ORG", "SNAME", "MNAME", "DATE", "RDATE", "VNAME", "ANAME", "NSCOML", "SCOM", "NNCOML", "NCOM"]

/-- Every item of the second list is a text, or is in the first list. -/
def Rest (t : Texts) (l l' : Dict (PyVal F)) : Prop :=
  ∀ kv ∈ l', kv ∈ Texts.items t ∨ (kv ∈ l ∧ kv.1 ∉ textKeys)

theorem rest_append {t : Texts} {l m l' m' : Dict (PyVal F)} (h1 : Rest t l l') (h2 : Rest t m m') :
    Rest t (l ++ m) (l' ++ m') := by
  intro kv h
  rcases List.mem_append.1 h with h | h
  · exact (h1 kv h).imp id (fun h => ⟨List.mem_append_left _ h.1, h.2⟩)
  · exact (h2 kv h).imp id (fun h => ⟨List.mem_append_right _ h.1, h.2⟩)

theorem rest_same {t : Texts} {l : Dict (PyVal F)} (h : ∀ k ∈ l.map Prod.fst, k ∉ textKeys) : Rest t l l :=
  fun kv hk => .inr ⟨hk, h _ (List.mem_map_of_mem hk)⟩

theorem rest_common (t : Texts) (c : Common) (n : Int) :
    Rest (F := F) t (commonAttrs c n) (commonAttrs (t.common c) n) := by
  intro kv h
  simp only [commonAttrs, Texts.common, Texts.items, List.mem_cons, List.not_mem_nil, or_false] at h ⊢
  rcases h with rfl | rfl | rfl | rfl | rfl | rfl | rfl | rfl | rfl | rfl | rfl <;> simp [textKeys]

theorem rest_vars (t : Texts) (v : VarHdr F) : Rest t (varAttrs v) (varAttrs (t.vars v)) := by
  intro kv h
  simp only [varAttrs, Texts.vars, Texts.items, List.mem_cons, List.not_mem_nil, or_false] at h ⊢
  rcases h with rfl | rfl | rfl | rfl <;> simp [textKeys]

theorem rest_com (t : Texts) (c : ComHdr) : Rest (F := F) t (comAttrs c) (comAttrs t.com) := by
  intro kv h
  simp only [comAttrs, Texts.com, Texts.items, List.mem_cons, List.not_mem_nil, or_false] at h ⊢
  rcases h with rfl | rfl | rfl | rfl <;> simp

theorem rest_aux (t : Texts) (a : AuxHdr F) : Rest t (auxAttrs a) (auxAttrs (t.aux a)) := by
  intro kv h
  unfold auxAttrs at h ⊢
  show _ ∨ _
  rcases List.mem_cons.1 h with h | h
  · exact .inr ⟨List.mem_cons.2 (.inl h), by rw [h]; simp [textKeys]⟩
  · have e : (t.aux a).NAUXV = a.NAUXV := rfl
    rw [e] at h
    by_cases hp : a.NAUXV > 0
    · rw [if_pos hp] at h ⊢
      simp only [Texts.aux, Texts.items, List.mem_cons, List.not_mem_nil, or_false] at h ⊢
      rcases h with rfl | rfl | rfl <;> simp [textKeys]
    · rw [if_neg hp] at h; cases h

/-- The items of the object with other texts. -/
theorem rest_setTexts (t : Texts) (o : Obj F) (h6 : ∀ r, o ≠ .o2160 r) :
    Rest t (o.attrs []) ((setTexts t o).attrs []) := by
  have lit : ∀ l : Dict (PyVal F), (∀ k ∈ l.map Prod.fst, k ∉ textKeys) → Rest t l l := fun l => rest_same
  cases o with
  | o2160 r => exact absurd rfl (h6 r)
  | o1001 r =>
    exact rest_append (rest_append (rest_append (rest_append (rest_common t r.c r.NIV) (lit _ (by simp [textKeys])))
      (rest_vars t r.v)) (rest_com t r.com)) (lit _ (by simp [textKeys]))
  | o1010 r =>
    exact rest_append (rest_append (rest_append (rest_append (rest_append (rest_common t r.c r.NIV)
      (lit _ (by simp [textKeys]))) (rest_vars t r.v)) (rest_aux t r.aux)) (rest_com t r.com))
      (lit _ (by simp [textKeys]))
  | o1020 r =>
    exact rest_append (rest_append (rest_append (rest_append (rest_append (rest_common t r.c r.NIV)
      (lit _ (by simp [textKeys]))) (rest_vars t r.v)) (rest_aux t r.aux)) (rest_com t r.com))
      (lit _ (by simp [textKeys]))
  | o2010 r =>
    exact rest_append (rest_append (rest_append (rest_append (rest_append (rest_common t r.c r.NIV)
      (lit _ (by simp [textKeys]))) (rest_vars t r.v)) (rest_aux t r.aux)) (rest_com t r.com))
      (lit _ (by simp [textKeys]))
  | o2110 r =>
    exact rest_append (rest_append (rest_append (rest_append (rest_append (rest_append (rest_common t r.c r.NIV)
      (lit _ (by simp [textKeys]))) (rest_vars t r.v)) (rest_aux t r.aux)) (rest_com t r.com))
      (lit _ (by simp [textKeys]))) (lit _ (by simp [textKeys]))
  | o2310 r =>
    exact rest_append (rest_append (rest_append (rest_append (rest_append (rest_append (rest_common t r.c r.NIV)
      (lit _ (by simp [textKeys]))) (rest_vars t r.v)) (rest_aux t r.aux)) (rest_com t r.com))
      (lit _ (by simp [textKeys]))) (lit _ (by simp [textKeys]))

/-- What the texts have to be. -/
structure Texts.Fit (t : Texts) (nv na : Int) : Prop where
  oname : HdrName t.ONAME
  org : HdrName t.ORG
  sname : HdrName t.SNAME
  mname : HdrName t.MNAME
  date : t.DATE.length = 3
  rdate : t.RDATE.length = 3
  vname : (t.VNAME.length : Int) = nv ∧ ∀ s ∈ t.VNAME, Name s
  aname : (t.ANAME.length : Int) = na ∧ ∀ s ∈ t.ANAME, Name s
  scom : ∀ s ∈ t.SCOM, ∀ c ∈ s, c ≠ '\n' ∧ c ≠ '\r'
  ncom : ∀ s ∈ t.NCOM, ∀ c ∈ s, c ≠ '\n' ∧ c ≠ '\r'

theorem Texts.Fit.wfCommon {t : Texts} {nv na : Int} (h : t.Fit nv na) (c : Common) : WfCommon (t.common c) :=
  ⟨h.oname, h.org, h.sname, h.mname, h.date, h.rdate⟩

theorem Texts.Fit.wfVars {t : Texts} {na : Int} {v : VarHdr F} (h : t.Fit v.NV na) (w : WfVars v) :
    WfVars (t.vars v) := ⟨w.pos, w.vscal, w.vmiss, h.vname.1, h.vname.2⟩

theorem Texts.Fit.wfAux {t : Texts} {nv : Int} {a : AuxHdr F} (h : t.Fit nv a.NAUXV) (w : WfAux a) :
    WfAux (t.aux a) := ⟨w.nonneg, w.ascal, w.amiss, h.aname.1, h.aname.2⟩

theorem Texts.Fit.wfCom {t : Texts} {nv na : Int} (h : t.Fit nv na) : WfCom t.com :=
  ⟨rfl, rfl, h.scom, h.ncom⟩

/-- The number of auxiliary variables; for 1001 there is no such item. -/
def auxTotal : Obj F → Option Int
  | .o1001 _ => none
  | .o1010 r => some r.aux.NAUXV
  | .o1020 r => some r.aux.NAUXV
  | .o2010 r => some r.aux.NAUXV
  | .o2110 r => some r.aux.NAUXV
  | .o2310 r => some r.aux.NAUXV
  | .o2160 r => some r.aux.NAUXV

theorem faithful_setTexts {cd : Codec F} {q : F → F} {t : Texts} {na : Int} {o : Obj F}
    (h6 : ∀ r, o ≠ .o2160 r) (hw : Faithful cd q o) (hn : ∀ n, auxTotal o = some n → n = na)
    (h : t.Fit (varHeader o).NV na) : Faithful cd q (setTexts t o) := by
  cases o with
  | o2160 r => exact absurd rfl (h6 r)
  | o1001 r =>
    have w : Wf1001 r := hw
    exact ({ w with common := h.wfCommon r.c, vars := h.wfVars w.vars, com := h.wfCom } :
      Wf1001 { r with c := t.common r.c, v := t.vars r.v, com := t.com })
  | o1010 r =>
    have w : Wf1010 r := hw
    have h' : t.Fit r.v.NV r.aux.NAUXV := hn _ rfl ▸ h
    exact ({ w with common := h.wfCommon r.c, vars := h.wfVars w.vars, com := h.wfCom, aux := h'.wfAux w.aux } :
      Wf1010 { r with c := t.common r.c, v := t.vars r.v, aux := t.aux r.aux, com := t.com })
  | o1020 r =>
    have w : Wf1020 r := hw
    have h' : t.Fit r.v.NV r.aux.NAUXV := hn _ rfl ▸ h
    exact ({ w with common := h.wfCommon r.c, vars := h.wfVars w.vars, com := h.wfCom, aux := h'.wfAux w.aux } :
      Wf1020 { r with c := t.common r.c, v := t.vars r.v, aux := t.aux r.aux, com := t.com })
  | o2010 r =>
    obtain ⟨w, hx⟩ : Wf2010 r ∧ _ := hw
    have h' : t.Fit r.v.NV r.aux.NAUXV := hn _ rfl ▸ h
    exact ⟨({ w with common := h.wfCommon r.c, vars := h.wfVars w.vars, com := h.wfCom, aux := h'.wfAux w.aux } :
      Wf2010 { r with c := t.common r.c, v := t.vars r.v, aux := t.aux r.aux, com := t.com }), hx⟩
  | o2110 r =>
    have w : Wf2110 _ r := hw
    have h' : t.Fit r.v.NV r.aux.NAUXV := hn _ rfl ▸ h
    exact ({ w with common := h.wfCommon r.c, vars := h.wfVars w.vars, com := h.wfCom, aux := h'.wfAux w.aux } :
      Wf2110 _ { r with c := t.common r.c, v := t.vars r.v, aux := t.aux r.aux, com := t.com })
  | o2310 r =>
    obtain ⟨w, hx⟩ : Wf2310 _ _ r ∧ _ := hw
    have h' : t.Fit r.v.NV r.aux.NAUXV := hn _ rfl ▸ h
    exact ⟨({ w with common := h.wfCommon r.c, vars := h.wfVars w.vars, com := h.wfCom, aux := h'.wfAux w.aux } :
      Wf2310 _ _ { r with c := t.common r.c, v := t.vars r.v, aux := t.aux r.aux, com := t.com }), hx⟩

/-- The texts of a dictionary that fits. -/
theorem headerFits_texts {d : Dict (PyVal F)} (h : HeaderFits d) : ∃ (t : Texts) (nv na : Nat),
    t.Fit nv na ∧ (∀ kv ∈ Texts.items (F := F) t, dictGet? d kv.1 = some kv.2) ∧
      dictGet? d "NV" = some (.int nv) ∧ dictGet? d "NAUXV" = some (.int na) := by
  obtain ⟨o1, h1, w1⟩ := h.texts.head "ONAME" (by simp)
  obtain ⟨o2, h2, w2⟩ := h.texts.head "ORG" (by simp)
  obtain ⟨o3, h3, w3⟩ := h.texts.head "SNAME" (by simp)
  obtain ⟨o4, h4, w4⟩ := h.texts.head "MNAME" (by simp)
  obtain ⟨l1, h5, w5⟩ := h.texts.dates "DATE" (by simp)
  obtain ⟨l2, h6, w6⟩ := h.texts.dates "RDATE" (by simp)
  obtain ⟨s1, h7, h8⟩ := h.counts ("SCOM", "NSCOML") (by simp)
  obtain ⟨s2, h9, h10⟩ := h.counts ("NCOM", "NNCOML") (by simp)
  obtain ⟨s3, h11, h12⟩ := h.counts ("VNAME", "NV") (by simp)
  obtain ⟨s4, h13, h14⟩ := h.counts ("ANAME", "NAUXV") (by simp)
  refine ⟨⟨o1, o2, o3, o4, l1, l2, s3, s4, s1, s2⟩, s3.length, s4.length,
    ⟨w1, w2, w3, w4, w5, w6, ⟨rfl, h.texts.names "VNAME" (by simp) _ h11⟩, ⟨rfl, h.texts.names "ANAME" (by simp) _ h13⟩,
      h.texts.comments "SCOM" (by simp) _ h7, h.texts.comments "NCOM" (by simp) _ h9⟩, ?_, h12, h14⟩
  intro kv hkv
  simp only [Texts.items, List.mem_cons, List.not_mem_nil, or_false] at hkv
  rcases hkv with rfl | rfl | rfl | rfl | rfl | rfl | rfl | rfl | rfl | rfl | rfl | rfl <;> assumption

theorem header_described {d : Dict (PyVal F)} {o : Obj F} (h : Describes d o) : HeaderHeld d o.common := by
  intro kv hkv
  have hne : kv.1 ≠ "ignored_header_lines" := by
    simp only [List.mem_cons, List.not_mem_nil, or_false] at hkv
    rcases hkv with rfl | rfl | rfl | rfl | rfl | rfl | rfl | rfl <;> simp
  have hsub : ∀ n, kv ∈ commonAttrs o.common n := by
    intro n
    simp only [List.mem_cons, List.not_mem_nil, or_false] at hkv
    rcases hkv with rfl | rfl | rfl | rfl | rfl | rfl | rfl | rfl <;> simp [commonAttrs]
  refine h kv ?_ hne
  cases o <;> simp only [Obj.attrs, attrs2110, List.mem_append] <;> simp only [Obj.common] at hsub <;> simp [hsub]

theorem attrs_nv (o : Obj F) : ("NV", PyVal.int (varHeader o).NV) ∈ o.attrs [] := by
  cases o <;> simp [Obj.attrs, attrs2110, varAttrs, varHeader]

theorem attrs_naux (o : Obj F) {n : Int} (h : auxTotal o = some n) : ("NAUXV", PyVal.int n) ∈ o.attrs [] := by
  cases o with
  | o1001 r => cases h
  | _ => injection h with h; subst h; simp [Obj.attrs, attrs2110, auxAttrs]

/-- The same object or, for 2310, one that differs only in what is never written. -/
def SameFile (o o' : Obj F) : Prop :=
  o' = o ∨ ∃ r r', o = .o2310 r ∧ o' = .o2310 r' ∧ r' = { r with X := r'.X, DX := r'.DX } ∧
    r'.X.map Prod.fst = r.X.map Prod.fst ∧ r'.DX.head? = r.DX.head?

theorem sameFile_write {o o' : Obj F} (h : SameFile o o') (fe : Env F) (nh : Bool) :
    (o'.write fe nh).2 = (o.write fe nh).2 := by
  rcases h with rfl | ⟨r, r', rfl, rfl, h1, h2, h3⟩
  · rfl
  · exact write2310_same fe nh h1 h2 h3

theorem sameFile_setTexts {o o' : Obj F} (h : SameFile o o') (t : Texts) :
    SameFile (setTexts t o) (setTexts t o') := by
  rcases h with rfl | ⟨r, r', rfl, rfl, h1, h2, h3⟩
  · exact .inl rfl
  · refine .inr ⟨_, _, rfl, rfl, ?_, h2, h3⟩
    rw [h1]

theorem sameFile_parts {o o' : Obj F} (h : SameFile o o') :
    o'.common = o.common ∧ varHeader o' = varHeader o ∧ auxTotal o' = auxTotal o ∧ o'.classFFIs = o.classFFIs ∧
      (o'.Tidy ↔ o.Tidy) ∧ ((∃ r, o = .o2160 r) ↔ ∃ r, o' = .o2160 r) := by
  rcases h with rfl | ⟨r, r', rfl, rfl, h1, h2, h3⟩
  · exact ⟨rfl, rfl, rfl, rfl, Iff.rfl, Iff.rfl⟩
  · rw [h1]
    exact ⟨rfl, rfl, rfl, rfl, Iff.rfl, by simp⟩

/-- What is written for a dictionary. -/
theorem sameFile_written {cd : Codec F} {q : F → F} {d : Dict (PyVal F)} {o o' : Obj F} (h : SameFile o o')
    (h6 : ∀ r, o ≠ .o2160 r) (hw : Faithful cd q o') (hd : Describes d o) (fe : Env F) (nh : Bool) :
    ∃ dd, writeDict fe nh d = .ok (dd, (o'.write fe nh).2) := by
  obtain ⟨e1, _, _, e4, e5, _⟩ := sameFile_parts h
  have hf := faithful_class hw
  rw [e4] at hf
  unfold Obj.FFI at hf
  rw [e1] at hf
  rw [sameFile_write h]
  exact ⟨_, writeDict_of fe nh hf (e5.1 (faithful_tidy hw)) hd (fun r e => absurd e (h6 r))⟩

/-- A dictionary with other texts describes the object with these texts. -/
theorem retexted {cd : Codec F} {q : F → F} {d d' : Dict (PyVal F)} {o o' : Obj F} (h6 : ∀ r, o ≠ .o2160 r)
    (hd : Describes d o) (hs : SameFile o o') (hw : Faithful cd q o')
    (hk : ∀ k, k ∉ textKeys → dictGet? d' k = dictGet? d k) (hf : HeaderFits d') :
    ∃ t, Describes d' (setTexts t o) ∧ SameFile (setTexts t o) (setTexts t o') ∧ Faithful cd q (setTexts t o') ∧
      dictGet? d' "VNAME" = some (pyStrs (varHeader (setTexts t o')).VNAME) ∧
      (dictGet? d' "SCOM" = some (pyStrs (comHeader (setTexts t o')).SCOM) ∧
        dictGet? d' "NCOM" = some (pyStrs (comHeader (setTexts t o')).NCOM)) ∧
      HeaderHeld d' (setTexts t o').common ∧
      ∀ h, auxSection (setTexts t o') = some h → dictGet? d' "ANAME" = some (pyStrs h.ANAME) := by
  obtain ⟨t, nv, na, ht, hi, h1, h2⟩ := headerFits_texts hf
  obtain ⟨_, s2, s3, _, _, s6⟩ := sameFile_parts hs
  have h6' : ∀ r, o' ≠ .o2160 r := fun r e => by
    obtain ⟨r', e'⟩ := s6.2 ⟨r, e⟩
    exact h6 r' e'
  have e1 : (varHeader o').NV = nv := by
    have := hd _ (attrs_nv o) (by simp)
    rw [← hk _ (by simp [textKeys]), h1] at this
    injection this with this
    injection this with this
    rw [s2]
    exact this.symm
  refine ⟨t, ?_, sameFile_setTexts hs t, faithful_setTexts h6' hw (na := na) ?_ (e1 ▸ ht), ?_, ?_, ?_, ?_⟩
  · intro kv hkv hne
    rcases rest_setTexts t o h6 kv hkv with h | ⟨h, hn⟩
    · exact hi kv h
    · rw [hk _ hn]; exact hd kv h hne
  · intro n hn
    rw [s3] at hn
    have := hd _ (attrs_naux o hn) (by simp)
    rw [← hk _ (by simp [textKeys]), h2] at this
    injection this with this
    injection this with this
    exact this.symm
  · have : (varHeader (setTexts t o')).VNAME = t.VNAME := by
      cases o' with
      | o2160 r => exact absurd rfl (h6' r)
      | _ => rfl
    rw [this]
    exact hi ("VNAME", pyStrs t.VNAME) (by simp [Texts.items, pyStrs])
  · have : comHeader (setTexts t o') = t.com := by
      cases o' with
      | o2160 r => exact absurd rfl (h6' r)
      | _ => rfl
    rw [this]
    exact ⟨hi ("SCOM", pyStrs t.SCOM) (by simp [Texts.items, pyStrs]), hi ("NCOM", pyStrs t.NCOM) (by simp [Texts.items, pyStrs])⟩
  · have e2 : o'.common = o.common := by
      rcases hs with rfl | ⟨r, r', rfl, rfl, h1, _⟩
      · rfl
      · show r'.c = r.c
        rw [h1]
    have : (setTexts t o').common = t.common o.common := by
      rw [← e2]
      cases o' with
      | o2160 r => exact absurd rfl (h6' r)
      | _ => rfl
    rw [this]
    have hold := header_described hd
    intro kv hkv
    simp only [List.mem_cons, List.not_mem_nil, or_false] at hkv
    rcases hkv with rfl | rfl | rfl | rfl | rfl | rfl | rfl | rfl
    · exact hi ("ONAME", .str t.ONAME) (by simp [Texts.items])
    · exact hi ("ORG", .str t.ORG) (by simp [Texts.items])
    · exact hi ("SNAME", .str t.SNAME) (by simp [Texts.items])
    · exact hi ("MNAME", .str t.MNAME) (by simp [Texts.items])
    · exact (hk "IVOL" (by decide)).trans (hold ("IVOL", .int o.common.IVOL) (by simp))
    · exact (hk "NVOL" (by decide)).trans (hold ("NVOL", .int o.common.NVOL) (by simp))
    · exact hi ("DATE", pyInts t.DATE) (by simp [Texts.items, pyInts])
    · exact hi ("RDATE", pyInts t.RDATE) (by simp [Texts.items, pyInts])
  · intro h hh
    have : h.ANAME = t.ANAME := by
      cases o' with
      | o2160 r => exact absurd rfl (h6' r)
      | o1001 r => cases hh
      | _ => injection hh with hh; rw [← hh]; rfl
    rw [this]
    exact hi ("ANAME", pyStrs t.ANAME) (by simp [Texts.items, pyStrs])

/-! ### What is read -/

theorem readForm_main (q : F → F) (n : Int) (o : Obj F) :
    mainValues (readForm q n o) = (mainValues o).map (List.map q) := by
  have hf : ∀ V : List (List (List F)), (V.map (fun vn => vn.map (fun l => l.map q))).map List.flatten
      = (V.map List.flatten).map (List.map q) := by
    intro V
    rw [List.map_map, List.map_map]
    refine List.map_congr_left fun vn _ => ?_
    simp [List.map_flatten]
  cases o with
  | o2010 r =>
    show (r.V.map (fun col => col.map (mapTree q))).map leavesList = (r.V.map leavesList).map (List.map q)
    rw [List.map_map, List.map_map]
    refine List.map_congr_left fun col _ => ?_
    show leavesList (col.map (mapTree q)) = (leavesList col).map q
    rw [leavesList_eq, leavesList_eq, List.map_map, List.map_flatten, List.map_map]
    congr 1
    exact List.map_congr_left fun t _ => leaves_mapTree q t
  | o2110 r => exact hf r.V
  | o2310 r => exact hf r.V
  | o2160 r => exact hf r.V
  | o1001 r => rfl
  | o1010 r => rfl
  | o1020 r => rfl

theorem readForm_aux (q : F → F) (n : Int) (o : Obj F) :
    auxValues (readForm q n o) = (auxValues o).map (List.map q) := by
  cases o <;> rfl

theorem readForm_marks (q : F → F) (n : Int) (o : Obj F) :
    markValues (readForm q n o) = (markValues o).map q := by
  cases o <;> simp [readForm, withNLHEAD, trimComments, mapValues, markValues]

theorem readForm_vars (q : F → F) (n : Int) (o : Obj F) : varHeader (readForm q n o) = varHeader o := by
  cases o <;> rfl

theorem readForm_ffi (q : F → F) (n : Int) (o : Obj F) : (readForm q n o).FFI = o.FFI := by
  cases o <;> rfl

theorem setTexts_same (t : Texts) (o : Obj F) : mainValues (setTexts t o) = mainValues o ∧
    auxValues (setTexts t o) = auxValues o ∧ markValues (setTexts t o) = markValues o ∧
    (varHeader (setTexts t o)).VMISS = (varHeader o).VMISS ∧
    (varHeader (setTexts t o)).VSCAL = (varHeader o).VSCAL ∧ (setTexts t o).FFI = o.FFI ∧
    (∀ r, setTexts t o = .o2160 r → o = .o2160 r) := by
  cases o <;> refine ⟨rfl, rfl, rfl, rfl, rfl, rfl, ?_⟩ <;> intro r h <;> first | exact h | cases h

theorem readForm_auxSection (q : F → F) (n : Int) (o : Obj F) : auxSection (readForm q n o) = auxSection o := by
  cases o <;> rfl

theorem readForm_given (q : F → F) (n : Int) (o : Obj F) :
    givenAxes (readForm q n o) = (givenAxes o).map (List.map q) := by
  cases o <;> simp [readForm, withNLHEAD, trimComments, mapValues, givenAxes]

theorem readForm_array (q : F → F) (n : Int) (o : Obj F) (i : Nat) :
    mainArray (readForm q n o) i = (mainArray o i).map (mapTree q) := by
  cases o with
  | o2010 r =>
    show (r.V.map (fun col => col.map (mapTree q)))[i]?.map Tree.lst = _
    simp only [mainArray, List.getElem?_map, Option.map_map]
    cases r.V[i]? with
    | none => rfl
    | some col => simp [mapTree, mapTrees_eq]
  | o1001 r =>
    show (r.V.map (fun col => col.map q))[i]?.map _ = _
    simp only [mainArray, List.getElem?_map, Option.map_map]
    cases r.V[i]? with
    | none => rfl
    | some col => simp [mapTree, mapTrees_eq, Function.comp_def]
  | o1010 r =>
    show (r.V.map (fun col => col.map q))[i]?.map _ = _
    simp only [mainArray, List.getElem?_map, Option.map_map]
    cases r.V[i]? with
    | none => rfl
    | some col => simp [mapTree, mapTrees_eq, Function.comp_def]
  | o1020 r => rfl
  | o2110 r => rfl
  | o2310 r => rfl
  | o2160 r => rfl

theorem setTexts_more (t : Texts) (o : Obj F) : givenAxes (setTexts t o) = givenAxes o ∧
    mainArray (setTexts t o) = mainArray o ∧
    (∀ add l, AxisValues add o l → AxisValues add (setTexts t o) l) ∧
    (∀ h, auxSection o = some h → ∃ h', auxSection (setTexts t o) = some h' ∧ h'.NAUXV = h.NAUXV ∧
      h'.AMISS = h.AMISS ∧ h'.ASCAL = h.ASCAL) := by
  cases o with
  | o2010 r =>
    refine ⟨rfl, rfl, fun add l => ?_, fun h hh => ⟨_, rfl, by injection hh with hh; rw [← hh]; exact ⟨rfl, rfl, rfl⟩⟩⟩
    rintro ⟨s, h1, h2⟩
    refine ⟨{ s with c := t.common r.c, v := t.vars r.v, aux := t.aux r.aux, com := t.com }, ?_, h2⟩
    unfold normalizeIndVars at h1 ⊢
    obtain ⟨ys, g1, g2⟩ := ok_of_bind h1
    simp only [g1, ok_bind]
    injection g2 with g2
    rw [← g2]
  | o1001 r => exact ⟨rfl, rfl, fun add l h => h, fun h hh => by cases hh⟩
  | o2160 r => exact ⟨rfl, rfl, fun add l h => h, fun h hh => by cases hh⟩
  | o1010 r => exact ⟨rfl, rfl, fun add l h => h, fun h hh => ⟨_, rfl, by injection hh with hh; rw [← hh]; exact ⟨rfl, rfl, rfl⟩⟩⟩
  | _ => exact ⟨rfl, rfl, fun add l h => h.elim, fun h hh => ⟨_, rfl, by injection hh with hh; rw [← hh]; exact ⟨rfl, rfl, rfl⟩⟩⟩

/-- If rounding leaves the values given for the axes, it leaves the axes. -/
theorem readForm_axes {q : F → F} {n : Int} {o : Obj F} {add : F → F → F} {l : List (List F)}
    (h : AxisValues add o l) (h1 : (markValues o).map q = markValues o)
    (h2 : (givenAxes o).map (List.map q) = givenAxes o) : AxisValues add (readForm q n o) l := by
  cases o with
  | o1001 r => exact h.trans (congrArg (fun x => [x]) h1.symm)
  | o1010 r => exact h.trans (congrArg (fun x => [x]) h1.symm)
  | o2010 r =>
    obtain ⟨s, g1, g2⟩ := h
    unfold normalizeIndVars at g1
    obtain ⟨ys, g3, g4⟩ := ok_of_bind g1
    injection g4 with g4
    have e : r.XB.map (fun x => x.map q) = r.XB := h2
    refine ⟨{ r with
      c := { r.c with NLHEAD := n }, com := trimCom r.com, X0 := r.X0.map q, A := r.A.map (fun col => col.map q),
      V := r.V.map (fun col => col.map (mapTree q)),
      XB := ys ++ (r.XB.map (fun x => x.map q)).drop (r.NIV - 1).toNat }, ?_, ?_⟩
    · unfold normalizeIndVars
      simp only [e, g3, ok_bind]
    · rw [g2, ← g4]
      show r.X0 :: (ys ++ r.XB.drop _) = r.X0.map q :: (ys ++ (r.XB.map (fun x => x.map q)).drop _)
      rw [e, show r.X0.map q = r.X0 from h1]
  | _ => exact h.elim

/-! ### Supplying the header names -/

/-- Attributes that supply the four header names. -/
def suppliers : Dict (PyVal F) :=
  [("institution", .str ['a']), ("source", .str ['a']), ("title", .str ['a'])]

def headKeys : List String := ["ONAME", "ORG", "SNAME", "MNAME"]

/-- The second dictionary has the header names and otherwise the same items. -/
def Supplied (d d2 : Dict (PyVal F)) : Prop :=
  (∀ k ∉ headKeys, dictGet? d2 k = dictGet? d k) ∧ ∀ k ∈ headKeys, dictGet? d2 k = some (.str ['a'])

theorem supplied_set {d d2 : Dict (PyVal F)} (h : Supplied d d2) {k : String} (hk : k ∉ headKeys) (v : PyVal F) :
    Supplied (dictSet d k v) (dictSet d2 k v) := by
  refine ⟨fun k' hk' => ?_, fun k' hk' => ?_⟩
  · rw [dictGet?_set, dictGet?_set, h.1 k' hk']
  · rw [dictGet?_set, if_neg (by rintro rfl; exact hk hk'), h.2 k' hk']

theorem globGo_append (env : CollectEnv F) (l m : Dict (PyVal F)) (s : GlobState F) :
    globGo env s (l ++ m) = (globGo env s l).bind (fun s => globGo env s m) := by
  induction l generalizing s with
  | nil => rfl
  | cons kv t ih =>
    obtain ⟨k, v⟩ := kv
    simp only [List.cons_append, globGo]
    cases globStep env s k v with
    | error x => rfl
    | ok s' => exact ih s'

theorem globGo_suppliers (env : CollectEnv F) (s : GlobState F) :
    ∃ d2, globGo env s suppliers = .ok { s with dict := d2 } ∧ Supplied s.dict d2 := by
  refine ⟨dictSet (dictSet (dictSet (dictSet s.dict "ONAME" (.str ['a'])) "ORG" (.str ['a'])) "SNAME" (.str ['a']))
    "MNAME" (.str ['a']), ?_, ?_, ?_⟩
  · have : splitInstitution ['a'] = (['a'], ['a']) := by decide
    simp [suppliers, globGo, globStep, PyVal.plain, this, plainMap, dictGet?]
  · intro k hk
    simp only [headKeys, List.mem_cons, List.not_mem_nil, or_false, not_or] at hk
    rw [dictGet?_set, dictGet?_set, dictGet?_set, dictGet?_set, if_neg (Ne.symm hk.2.2.2), if_neg (Ne.symm hk.2.2.1),
      if_neg (Ne.symm hk.2.1), if_neg (Ne.symm hk.1)]
  · intro k hk
    simp only [headKeys, List.mem_cons, List.not_mem_nil, or_false] at hk
    rcases hk with rfl | rfl | rfl | rfl <;> simp [dictGet?_set]

theorem dictHas_get {α : Type} (d : Dict α) (k : String) : dictHas d k = (dictGet? d k).isSome := rfl

theorem generalHeader_supplied (env : CollectEnv F) (ax0 : XAxis F) (x : PyVal F) {d d2 : Dict (PyVal F)}
    (h : Supplied d d2) : Supplied (generalHeader env ax0 x d) (generalHeader env ax0 x d2) := by
  unfold generalHeader
  have h1 : dictHas d2 "RDATE" = dictHas d "RDATE" := by rw [dictHas_get, dictHas_get, h.1 _ (by decide)]
  dsimp only
  rw [h1]
  have h2 : Supplied (if dictHas d "RDATE" then d else dictSet d "RDATE" (.list (env.today.map .int)))
      (if dictHas d "RDATE" then d2 else dictSet d2 "RDATE" (.list (env.today.map .int))) := by
    split
    · exact h
    · exact supplied_set h (by decide) _
  rw [h2.1 "DATE" (by decide)]
  exact supplied_set (supplied_set (supplied_set h2 (by decide) _) (by decide) _) (by decide) _

/-- With further attributes that supply the header names, the dictionary is the same but for these names. -/
theorem collectDict_more {env : CollectEnv F} {globals : Dict (PyVal F)} {a : Analysis F} {d : Dict (PyVal F)}
    (h : collectDict env globals a = .ok d) :
    ∃ d2, collectDict env (globals ++ suppliers) a = .ok d2 ∧ Supplied d d2 := by
  unfold collectDict at h ⊢
  obtain ⟨s, h1, h⟩ := ok_of_bind h
  obtain ⟨g, h2, h⟩ := ok_of_bind h
  obtain ⟨d1, h3, h⟩ := ok_of_bind h
  obtain ⟨gd, hg, hgs⟩ := globGo_suppliers env g
  have h2' : defineGlobals env (varsDict a s) (globals ++ suppliers) = .ok { g with dict := gd } := by
    unfold defineGlobals at h2 ⊢
    split at h2
    · rename_i hl
      rw [if_pos hl, globGo_append, h2]; exact hg
    · cases h2
  unfold defineComments at h3
  obtain ⟨scom, h4, h3⟩ := ok_of_bind h3
  injection h3 with h3
  have h3' : ∃ d1', defineComments env a { g with dict := gd } = .ok d1' ∧ Supplied d1 d1' := by
    unfold defineComments
    refine ⟨_, by rw [h4]; rfl, ?_⟩
    rw [← h3]
    exact supplied_set (supplied_set (supplied_set (supplied_set hgs (by decide) _) (by decide) _) (by decide) _)
      (by decide) _
  obtain ⟨d1', h5, h6⟩ := h3'
  rw [h1]
  simp only [ok_bind]
  rw [h2']
  simp only [ok_bind]
  rw [h5]
  simp only [ok_bind]
  split at h
  · cases h
  · obtain ⟨ax0, h7, h⟩ := ok_of_bind h
    injection h with h
    rw [h7]
    exact ⟨_, rfl, h ▸ generalHeader_supplied env ax0 s.ind.X h6⟩

theorem supplied_texts {d d2 : Dict (PyVal F)} (h : Supplied d d2) (hs : SourceFits d) : TextsFit d2 where
  head := fun k hk => ⟨_, h.2 k hk, by decide⟩
  dates := fun k hk => by
    rw [h.1 k (by simp only [List.mem_cons, List.not_mem_nil, or_false] at hk; rcases hk with rfl | rfl <;> decide)]
    exact hs.dates k hk
  names := fun k hk => by
    rw [h.1 k (by simp only [List.mem_cons, List.not_mem_nil, or_false] at hk; rcases hk with rfl | rfl | rfl <;> decide)]
    exact hs.names k hk
  comments := fun k hk => by
    rw [h.1 k (by simp only [List.mem_cons, List.not_mem_nil, or_false] at hk; rcases hk with rfl | rfl <;> decide)]
    exact hs.comments k hk

/-! ### What is written -/

/-- Preparing a dictionary changes texts only. -/
theorem prepareDict_frame {cfg : WriteConfig F} {items : Dict (PyVal F)} {delimiter : Str} {d d' : Dict (PyVal F)}
    (h : prepareDict cfg items delimiter d = .ok d') (k : String) (hk : k ∉ textKeys) :
    dictGet? d' k = dictGet? d k := by
  unfold prepareDict at h
  obtain ⟨d1, h1, h2⟩ := ok_of_bind h
  have e1 : dictGet? d1 k = dictGet? d k := by
    refine applyOverrides_frame h1 k ?_
    rintro key _ ⟨hper, rfl | ⟨rfl, rfl⟩ | ⟨rfl, rfl⟩⟩
    · refine hk ?_
      simp only [permittedOverwrite, textKeys, List.mem_cons, List.not_mem_nil, or_false] at hper ⊢
      tauto
    · exact hk (by decide)
    · exact hk (by decide)
  rw [← e1]
  split at h2
  · obtain rfl | ⟨ncom, line, -, rfl⟩ := columnHeaders_cases h2
    · rfl
    · rw [dictGet?_set, dictGet?_set, if_neg (by rintro rfl; exact hk (by decide)),
        if_neg (by rintro rfl; exact hk (by decide))]
  · rw [← Except.ok.inj h2]

/-! ### All files -/

/-- The call that writes one dictionary as a whole. -/
def wholeCall (opts : WriteOpts) (name : Str) (d : Dict (PyVal F)) : WriteCall F :=
  { name := name, dict := d, delimiter := opts.delimiter, floatFormat := opts.floatFormat,
    noHeader := opts.noHeader, annotation := opts.annotation }

theorem writeNAFilesGo_ok (emit : WriteCall F → Res Unit) (cfg : WriteConfig F) (items : Dict (PyVal F))
    (opts : WriteOpts) (hs : opts.sizeLimit = none) :
    ∀ (l : List (Str × Dict (PyVal F))) (r : WriteResult F),
    (∀ nd ∈ l, ∃ d', prepareDict cfg items opts.delimiter nd.2 = .ok d' ∧ emit (wholeCall opts nd.1 d') = .ok ()) →
    ∃ r' calls, writeNAFilesGo emit cfg items opts l r = (r', none) ∧ r'.written = r.written ++ calls ∧
      r'.fileList = r.fileList ++ l.map Prod.fst ∧
      List.Forall₂ (fun nd c => ∃ d', prepareDict cfg items opts.delimiter nd.2 = .ok d' ∧ c = wholeCall opts nd.1 d')
        l calls
  | [], r, _ => ⟨r, [], rfl, by simp, by simp, .nil⟩
  | (name, d) :: t, r, h => by
    obtain ⟨d', h1, h2⟩ := h (name, d) List.mem_cons_self
    obtain ⟨r', calls, e1, e2, e3, e4⟩ := writeNAFilesGo_ok emit cfg items opts hs t
      { fileList := r.fileList ++ [name], written := r.written ++ [wholeCall opts name d'], dicts := r.dicts ++ [d'] }
      (fun nd hnd => h nd (List.mem_cons_of_mem _ hnd))
    have hw : writeOne emit opts name d' = ([name], [wholeCall opts name d'], none) := by
      unfold writeOne
      rw [hs]
      simp only [mustSplit]
      have h2' : emit { name := name, dict := d', delimiter := opts.delimiter, floatFormat := opts.floatFormat,
                        noHeader := opts.noHeader, annotation := opts.annotation } = .ok () := h2
      simp only [h2']
      rfl
    refine ⟨r', wholeCall opts name d' :: calls, ?_, ?_, ?_, .cons ⟨d', h1, rfl⟩ e4⟩
    · rw [writeNAFilesGo]
      simp only [h1, hw]
      exact e1
    · rw [e2]; simp
    · rw [e3]; simp

theorem convertLoop_analysed {env : XEnv F} {requested : Option Int} :
    ∀ (fuel : Nat) (vars : List (XVar F)) (l : List (Analysis F)),
      convertLoop (analysePass env requested) fuel vars = .ok l →
      ∀ a ∈ l, ∃ vars', analyse env requested vars' = .ok (some a)
  | _, [], l, h, a, ha => by
    rw [convertLoop] at h
    · rw [← Except.ok.inj h] at ha; cases ha
  | 0, _ :: _, l, h, a, ha => by cases h
  | n + 1, v :: vs, l, h, a, ha => by
    rw [convertLoop] at h
    obtain ⟨r, h1, h⟩ := ok_of_bind h
    unfold analysePass at h1
    obtain ⟨a', h2, h1⟩ := ok_of_bind h1
    cases a' with
    | none =>
      rw [← Except.ok.inj h1] at h
      rw [← Except.ok.inj h] at ha
      cases ha
    | some a' =>
      rw [← Except.ok.inj h1] at h
      obtain ⟨rest, h3, h⟩ := ok_of_bind h
      rw [← Except.ok.inj h] at ha
      rcases List.mem_cons.1 ha with rfl | ha
      · exact ⟨_, h2⟩
      · exact convertLoop_analysed n _ rest h3 a ha

theorem convert_analysed {env : XEnv F} {show_ : Tree F → Str} {requested : Option Int} {fuel : Nat}
    {vars : List (XVar F)} {l : List (Analysis F)} (h : convert env show_ requested fuel vars = .ok (some l)) :
    ∀ a ∈ l, ∃ vars', analyse env requested vars' = .ok (some a) := by
  unfold convert at h
  obtain ⟨v1, h1, h⟩ := ok_of_bind h
  obtain ⟨v2, h2, h⟩ := ok_of_bind h
  obtain ⟨a', h3, h⟩ := ok_of_bind h
  cases a' with
  | none => cases Except.ok.inj h
  | some a' =>
    obtain ⟨rest, h4, h⟩ := ok_of_bind h
    have := Except.ok.inj h
    injection this with this
    intro a ha
    rw [← this] at ha
    rcases List.mem_cons.1 ha with rfl | ha
    · exact ⟨_, h3⟩
    · exact convertLoop_analysed _ _ _ h4 a ha

/-! ### Without overriding items -/

theorem asStrs_map (l : List Str) : asStrs (l.map (PyVal.str (F := F))) = some l := by
  induction l with
  | nil => rfl
  | cons s t ih => simp [asStrs, ih]

theorem CollectParts.headerFits {env : CollectEnv F} {globals : Dict (PyVal F)} {a : Analysis F} {d : Dict (PyVal F)}
    (p : CollectParts env globals a d) (ht : TextsFit d) : HeaderFits d := by
  refine ⟨ht, fun k hk => ?_⟩
  simp only [List.mem_cons, List.not_mem_nil, or_false] at hk
  rcases hk with rfl | rfl | rfl | rfl
  · exact ⟨_, p.scomIs, p.nscoml⟩
  · exact ⟨_, p.ncom, p.nncoml⟩
  · refine ⟨p.s.vars.map VarItem.name, p.get "VNAME" (by simp [varItems]) (by decide) (by decide) (by simp [dictGet?]), ?_⟩
    rw [List.length_map]
    exact p.get "NV" (by simp [varItems]) (by decide) (by decide) (by simp [dictGet?])
  · refine ⟨p.s.aux.map VarItem.name, p.get "ANAME" (by simp [varItems]) (by decide) (by decide) (by simp [dictGet?]), ?_⟩
    rw [List.length_map]
    exact p.get "NAUXV" (by simp [varItems]) (by decide) (by decide) (by simp [dictGet?])

theorem dictGet_of {α : Type} {d : Dict α} {k : String} {v : α} (h : dictGet? d k = some v) : dictGet d k = .ok v := by
  unfold dictGet
  rw [h]

/-- The line with the column names fits. -/
theorem columns_fit {d : Dict (PyVal F)} (delimiter : Str) (hf : HeaderFits d) {ffi : Int}
    (hffi : dictGet? d "FFI" = some (.int ffi)) {x : Str} {xs : List Str}
    (hx : dictGet? d "XNAME" = some (pyStrs (x :: xs))) :
    ∃ d', updateWithColumnHeaders d delimiter = .ok d' ∧ HeaderFits d' := by
  obtain ⟨nc, n1, n2⟩ := hf.counts ("NCOM", "NNCOML") (by simp)
  obtain ⟨vn, v1, v2⟩ := hf.counts ("VNAME", "NV") (by simp)
  obtain ⟨an, a1, a2⟩ := hf.counts ("ANAME", "NAUXV") (by simp)
  unfold updateWithColumnHeaders
  rw [dictGet_of hffi]
  simp only [ok_bind]
  split
  swap
  · exact ⟨d, rfl, hf⟩
  rw [dictGet_of a2]
  simp only [ok_bind]
  split
  · exact ⟨d, rfl, hf⟩
  have hfirst : ∃ first : List Str, firstColumn d ffi = .ok (first.map PyVal.str) ∧ ∀ s ∈ first, Name s := by
    unfold firstColumn
    split
    · rw [dictGet_of hx]
      exact ⟨[x], rfl, fun s hs => hf.texts.names "XNAME" (by simp) _ hx s (by simp at hs; simp [hs])⟩
    · exact ⟨[], rfl, by simp⟩
  obtain ⟨first, f1, f2⟩ := hfirst
  rw [f1, dictGet_of v1, dictGet_of n1]
  simp only [ok_bind, pyStrs, ← List.map_append, asStrs_map]
  have hline : ∀ c ∈ join [','] (first ++ vn), c ≠ '\n' ∧ c ≠ '\r' := by
    intro c hc
    rcases mem_join _ _ _ hc with hc | ⟨s, hs, hc⟩
    · simp at hc; subst hc; decide
    · rcases List.mem_append.1 hs with hs | hs
      · exact (f2 s hs).1.1 c hc
      · exact (hf.texts.names "VNAME" (by simp) _ v1 s hs).1.1 c hc
  have eL : (nc.map PyVal.str ++ [PyVal.str (join [','] (first ++ vn))] : List (PyVal F))
      = (nc ++ [join [','] (first ++ vn)]).map PyVal.str := by simp
  rw [eL]
  have hn : ∀ k, k ≠ "NCOM" → k ≠ "NNCOML" → dictGet? (dictSet (dictSet d "NCOM"
      (PyVal.list ((nc ++ [join [','] (first ++ vn)]).map PyVal.str))) "NNCOML"
      (.int ((nc ++ [join [','] (first ++ vn)]).map (PyVal.str (F := F))).length)) k = dictGet? d k := by
    intro k h1 h2
    rw [dictGet?_set, dictGet?_set, if_neg h2.symm, if_neg h1.symm]
  refine ⟨_, rfl, ⟨⟨fun k hk => ?_, fun k hk => ?_, fun k hk => ?_, fun k hk => ?_⟩, fun k hk => ?_⟩⟩ <;>
    simp only [List.mem_cons, List.not_mem_nil, or_false] at hk
  · rw [hn k (by rintro rfl; simp at hk) (by rintro rfl; simp at hk)]
    exact hf.texts.head k (by simpa using hk)
  · rw [hn k (by rintro rfl; simp at hk) (by rintro rfl; simp at hk)]
    exact hf.texts.dates k (by simpa using hk)
  · rw [hn k (by rintro rfl; simp at hk) (by rintro rfl; simp at hk)]
    exact hf.texts.names k (by simpa using hk)
  · rcases hk with rfl | rfl
    · rw [hn _ (by decide) (by decide)]
      exact hf.texts.comments "SCOM" (by simp)
    · rw [dictGet?_set, if_neg (by decide), dictGet?_set, if_pos rfl]
      intro l hl s hs
      injection hl with hl
      injection hl with hl
      rw [← List.map_injective_iff.2 (fun x y e => by injection e) hl] at hs
      rcases List.mem_append.1 hs with hs | hs
      · exact hf.texts.comments "NCOM" (by simp) _ n1 s hs
      · rw [List.mem_singleton.1 hs]; exact hline
  · rcases hk with rfl | rfl | rfl | rfl
    · rw [hn _ (by decide) (by decide), hn _ (by decide) (by decide)]
      exact hf.counts ("SCOM", "NSCOML") (by simp)
    · refine ⟨nc ++ [join [','] (first ++ vn)], ?_, ?_⟩
      · rw [dictGet?_set, if_neg (by decide), dictGet?_set, if_pos rfl]; rfl
      · rw [dictGet?_set, if_pos rfl, List.length_map]
    · rw [hn _ (by decide) (by decide), hn _ (by decide) (by decide)]
      exact hf.counts ("VNAME", "NV") (by simp)
    · rw [hn _ (by decide) (by decide), hn _ (by decide) (by decide)]
      exact hf.counts ("ANAME", "NAUXV") (by simp)

/-- If nothing is overridden, a dictionary whose texts fit can be prepared and then fits. -/
theorem prepareDict_plain {env : CollectEnv F} {globals : Dict (PyVal F)} {a : Analysis F} {d : Dict (PyVal F)}
    (h : collectDict env globals a = .ok d) (ht : TextsFit d) (hk : TopLineKept d a.ffi) (cfg : WriteConfig F)
    (hc : cfg.localAtts = []) (delimiter : Str) :
    ∃ d', prepareDict cfg [] delimiter d = .ok d' ∧ HeaderFits d' := by
  obtain ⟨p⟩ := collectDict_parts h
  have hf := p.headerFits ht
  unfold prepareDict
  rw [hc]
  show ∃ d', (if cfg.addColumnHeaders then updateWithColumnHeaders d delimiter else .ok d) = .ok d' ∧ HeaderFits d'
  split
  · obtain ⟨_, hind, _⟩ := p.vars_ok
    obtain ⟨q, q1, _⟩ := indSection_parts hind
    obtain ⟨_, x2, _⟩ := p.axisItems
    rw [q1] at x2
    exact columns_fit delimiter hf hk.1 x2
  · exact ⟨d, rfl, hf⟩

end Nappy
