import Verif.CollectShape

/-! The parts of a file object that a collected dictionary describes. -/

namespace Nappy

open Spec

variable {F : Type}

theorem mapRes_project {α β γ : Type} {f : α → Res β} {g : β → γ} {k : α → γ} {l : List α} {r : List β}
    (h : mapRes f l = .ok r) (hk : ∀ x ∈ l, ∀ y, f x = .ok y → g y = k x) : r.map g = l.map k := by
  induction l generalizing r with
  | nil => injection h with h; subst h; rfl
  | cons a l ih =>
    obtain ⟨b, h1, h2⟩ := ok_of_bind h
    obtain ⟨bs, h3, h4⟩ := ok_of_bind h2
    injection h4 with h4
    subst h4
    rw [List.map_cons, List.map_cons, hk a (by simp) b h1,
      ih h3 (fun x hx => hk x (List.mem_cons_of_mem _ hx))]

theorem mapRes_project_ok {α β γ : Type} {f : α → Res β} {g : β → γ} {k : α → Res γ} {l : List α} {r : List β}
    (h : mapRes f l = .ok r) (hk : ∀ x ∈ l, ∀ y, f x = .ok y → k x = .ok (g y)) :
    mapRes k l = .ok (r.map g) := by
  induction l generalizing r with
  | nil => injection h with h; subst h; rfl
  | cons a l ih =>
    obtain ⟨b, h1, h2⟩ := ok_of_bind h
    obtain ⟨bs, h3, h4⟩ := ok_of_bind h2
    injection h4 with h4
    subst h4
    rw [mapRes, hk a (by simp) b h1, ih h3 (fun x hx => hk x (List.mem_cons_of_mem _ hx))]
    rfl

theorem mapRes_get {α β : Type} {f : α → Res β} {l : List α} {r : List β} (h : mapRes f l = .ok r) {i : Nat}
    {x : α} {y : β} (hx : l[i]? = some x) (hy : r[i]? = some y) : f x = .ok y := by
  induction l generalizing r i with
  | nil => cases hx
  | cons a l ih =>
    obtain ⟨b, h1, h2⟩ := ok_of_bind h
    obtain ⟨bs, h3, h4⟩ := ok_of_bind h2
    injection h4 with h4
    subst h4
    cases i with
    | zero =>
      simp only [List.getElem?_cons_zero, Option.some.injEq] at hx hy
      rw [← hx, ← hy]; exact h1
    | succ i =>
      rw [List.getElem?_cons_succ] at hx hy
      exact ih h3 hx hy

/-- The format has as many independent variables as the data have axes, unless it is 1020. -/
theorem analyse_dims {env : XEnv F} {requested : Option Int} {vars : List (XVar F)} {a : Analysis F}
    (h : analyse env requested vars = .ok (some a)) (hf : a.ffi ≠ 1020) : formatDims a.ffi = a.niv := by
  obtain ⟨p⟩ := analyse_parts h
  obtain ⟨hb1, hb2, hb3⟩ := best_some p.best
  rw [p.niv]
  rcases sortGo_ffis p.sorted (p := fun l => ∀ f ∈ l, formatDims f = p.b.rank) (ffis_dims p.first) with
    ⟨e1, _⟩ | ⟨e1, n, e2⟩
  · exact decide_dims p.decided (by omega) (fun l hl => e1 l hl)
  · have hd := p.decided
    unfold decideFFI at hd
    rw [e1] at hd
    split at hd
    · rename_i hl
      injection hl with hl
      subst hl
      split at hd
      · rename_i hr
        injection hd with hd
        exact absurd (hd ▸ List.mem_singleton.1 hr) hf
      · cases hd
    · refine decide_dims (ffis := none) (requested := requested) (naux := a.aux.length) ?_ (by omega)
        (fun l hl => by cases hl)
      rename_i req _ hno
      unfold decideFFI
      rw [← hd]
      cases hq : requested.filter (· != 0) with
      | some r => exact absurd rfl (hno r [1020] hq)
      | none => simp only

/-! ### Header -/

/-- A part of the object is in the dictionary. -/
def PartOf (d : Dict (PyVal F)) (l : Dict (PyVal F)) : Prop := ∀ kv ∈ l, dictGet? d kv.1 = some kv.2

theorem partOf_nil (d : Dict (PyVal F)) : PartOf d [] := by intro kv h; cases h

theorem partOf_cons {d l : Dict (PyVal F)} {k : String} {v : PyVal F} (h1 : dictGet? d k = some v)
    (h2 : PartOf d l) : PartOf d ((k, v) :: l) := by
  intro kv h
  rcases List.mem_cons.1 h with rfl | h
  · exact h1
  · exact h2 kv h

theorem partOf_append {d l l' : Dict (PyVal F)} (h1 : PartOf d l) (h2 : PartOf d l') : PartOf d (l ++ l') := by
  intro kv h
  rcases List.mem_append.1 h with h | h
  · exact h1 kv h
  · exact h2 kv h

theorem describes_of {d : Dict (PyVal F)} {o : Obj F} {l : Dict (PyVal F)}
    (e : o.attrs [] = l ++ [("ignored_header_lines", pyStrs [])]) (h : PartOf d l) : Describes d o := by
  intro kv hkv hne
  rw [e] at hkv
  rcases List.mem_append.1 hkv with h1 | h1
  · exact h kv h1
  · rw [List.mem_singleton] at h1
    subst h1
    exact absurd rfl hne

section
variable {env : CollectEnv F} {globals : Dict (PyVal F)} {a : Analysis F} {d : Dict (PyVal F)}

theorem varsDict_niv (a : Analysis F) (s : Sections F) : dictGet? (varsDict a s) "NIV" = some (.int a.niv) := by
  simp [varsDict, dictGet?]

theorem varsDict_nvpm (a : Analysis F) (s : Sections F) :
    dictGet? (varsDict a s) "NVPM" = a.nvpm.map (fun n => .int n) := by
  cases h : a.nvpm <;> simp [varsDict, dictGet?, h]

theorem varsDict_get (a : Analysis F) (s : Sections F) (k : String) (h1 : k ≠ "NIV") (h2 : k ≠ "NVPM") :
    dictGet? (varsDict a s) k = dictGet? (
  [("FFI", .int a.ffi), ("NLHEAD", .int (-999)), ("NV", .int s.vars.length),
   ("VNAME", pyStrs (s.vars.map VarItem.name)), ("VMISS", pyNums (s.vars.map VarItem.miss)),
   ("VSCAL", pyNums (s.vars.map VarItem.scal)), ("V", .list (s.vars.map VarItem.data)),
   ("NXDEF", pyNats s.ind.NXDEF), ("NX", pyNats s.ind.NX), ("X", s.ind.X), ("XNAME", pyStrs s.ind.XNAME),
   ("DX", pyNums s.ind.DX), ("A", .list (s.aux.map VarItem.data)),
   ("ANAME", pyStrs (s.aux.map VarItem.name)), ("AMISS", pyNums (s.aux.map VarItem.miss)),
   ("ASCAL", pyNums (s.aux.map VarItem.scal)), ("NAUXV", .int s.aux.length)]) k := by
  unfold varsDict
  cases a.nvpm <;> simp [dictGet?, Ne.symm h1, Ne.symm h2]

/-- An item set from the variables. -/
theorem CollectParts.get (p : CollectParts env globals a d) (k : String) (h0 : k ∈ varItems) (h1 : k ≠ "NIV")
    (h2 : k ≠ "NVPM") {v : PyVal F} (h : dictGet? (
  [("FFI", .int a.ffi), ("NLHEAD", .int (-999)), ("NV", .int p.s.vars.length),
   ("VNAME", pyStrs (p.s.vars.map VarItem.name)), ("VMISS", pyNums (p.s.vars.map VarItem.miss)),
   ("VSCAL", pyNums (p.s.vars.map VarItem.scal)), ("V", .list (p.s.vars.map VarItem.data)),
   ("NXDEF", pyNats p.s.ind.NXDEF), ("NX", pyNats p.s.ind.NX), ("X", p.s.ind.X),
   ("XNAME", pyStrs p.s.ind.XNAME),
   ("DX", pyNums p.s.ind.DX), ("A", .list (p.s.aux.map VarItem.data)),
   ("ANAME", pyStrs (p.s.aux.map VarItem.name)), ("AMISS", pyNums (p.s.aux.map VarItem.miss)),
   ("ASCAL", pyNums (p.s.aux.map VarItem.scal)), ("NAUXV", .int p.s.aux.length)] : Dict (PyVal F)) k = some v) :
    dictGet? d k = some v := by
  rw [p.items k h0, varsDict_get _ _ k h1 h2, h]

theorem CollectParts.common (p : CollectParts env globals a d) (ht : TextsFit d) (hf : TopLineKept d a.ffi) :
    ∃ c : Common, WfCommon c ∧ c.FFI = a.ffi ∧ c.IVOL = 1 ∧ c.NVOL = 1 ∧
      PartOf d (commonAttrs c a.niv) := by
  obtain ⟨hffi, n, hn⟩ := hf
  obtain ⟨o1, h1, w1⟩ := ht.head "ONAME" (by simp)
  obtain ⟨o2, h2, w2⟩ := ht.head "ORG" (by simp)
  obtain ⟨o3, h3, w3⟩ := ht.head "SNAME" (by simp)
  obtain ⟨o4, h4, w4⟩ := ht.head "MNAME" (by simp)
  obtain ⟨l1, h5, w5⟩ := ht.dates "DATE" (by simp)
  obtain ⟨l2, h6, w6⟩ := ht.dates "RDATE" (by simp)
  refine ⟨{ NLHEAD := n, FFI := a.ffi, ONAME := o1, ORG := o2, SNAME := o3, MNAME := o4, IVOL := 1, NVOL := 1,
            DATE := l1, RDATE := l2 }, ⟨w1, w2, w3, w4, w5, w6⟩, rfl, rfl, rfl, ?_⟩
  refine partOf_cons hn (partOf_cons hffi (partOf_cons ?_ (partOf_cons h1 (partOf_cons h2 (partOf_cons h3
    (partOf_cons h4 (partOf_cons p.ivol (partOf_cons p.nvol (partOf_cons h5 (partOf_cons h6 (partOf_nil d)))))))))))
  rw [p.items "NIV" (by simp [varItems]), varsDict_niv]

/-- The sections of variables. -/
theorem CollectParts.vars_ok (p : CollectParts env globals a d) :
    mapRes (varItem env.x) a.main = .ok p.s.vars ∧
      indSection env.x env.auxMiss a.ffi a.nvpm p.v = .ok p.s.ind ∧
      ∃ x, mapRes (varItem env.x) a.aux = .ok x ∧ p.s.aux = p.s.ind.aux ++ x := by
  have h := p.sections
  unfold defineVars at h
  rw [p.main] at h ⊢
  dsimp only at h
  obtain ⟨i, h1, h2⟩ := ok_of_bind h
  obtain ⟨ind, h3, h4⟩ := ok_of_bind h2
  obtain ⟨is, h5, h6⟩ := ok_of_bind h4
  obtain ⟨x, h7, h8⟩ := ok_of_bind h6
  injection h8 with h8
  rw [← h8]
  refine ⟨?_, h3, x, h7, rfl⟩
  rw [mapRes, h1, h5]
  rfl

theorem CollectParts.varHdr (p : CollectParts env globals a d) (ht : TextsFit d) :
    ∃ v : VarHdr F, WfVars v ∧ v.NV = a.main.length ∧
      v.VMISS = a.main.map (fun w => w.miss.getD env.x.defaultMiss) ∧ v.VSCAL = a.main.map (fun _ => env.x.one) ∧
      mapRes XVar.bestName a.main = .ok v.VNAME ∧ PartOf d (varAttrs v) := by
  obtain ⟨h1, _, _⟩ := p.vars_ok
  have hl := mapRes_ok_length _ _ _ h1
  have hname : dictGet? d "VNAME" = some (pyStrs (p.s.vars.map VarItem.name)) :=
    p.get "VNAME" (by simp [varItems]) (by decide) (by decide) (by simp [dictGet?])
  refine ⟨{ NV := p.s.vars.length, VSCAL := p.s.vars.map VarItem.scal, VMISS := p.s.vars.map VarItem.miss,
            VNAME := p.s.vars.map VarItem.name }, ⟨?_, by simp, by simp, by simp, ?_⟩, ?_, ?_, ?_, ?_, ?_⟩
  · simp only [hl, p.main, List.length_cons]; omega
  · exact ht.names "VNAME" (by simp) _ hname
  · simp [hl]
  · exact mapRes_project h1 (fun x _ y hy => (varItem_ok hy).2.1)
  · exact mapRes_project h1 (fun x _ y hy => (varItem_ok hy).2.2.1)
  · exact mapRes_project_ok h1 (fun x _ y hy => (varItem_ok hy).1)
  · refine partOf_cons ?_ (partOf_cons ?_ (partOf_cons ?_ (partOf_cons ?_ (partOf_nil d))))
    · exact p.get "NV" (by simp [varItems]) (by decide) (by decide) (by simp [dictGet?])
    · exact p.get "VSCAL" (by simp [varItems]) (by decide) (by decide) (by simp [dictGet?])
    · exact p.get "VMISS" (by simp [varItems]) (by decide) (by decide) (by simp [dictGet?])
    · exact hname

theorem CollectParts.comHdr (p : CollectParts env globals a d) (ht : TextsFit d) :
    ∃ c : ComHdr, WfCom c ∧ PartOf d (comAttrs c) := by
  refine ⟨{ NSCOML := (cleanComments p.scom).length, SCOM := cleanComments p.scom,
            NNCOML := (cleanComments (rawNormal env.hp p.g)).length,
            NCOM := cleanComments (rawNormal env.hp p.g) },
    ⟨rfl, rfl, ht.comments "SCOM" (by simp) _ p.scomIs, ht.comments "NCOM" (by simp) _ p.ncom⟩, ?_⟩
  exact partOf_cons p.nscoml (partOf_cons p.scomIs (partOf_cons p.nncoml (partOf_cons p.ncom (partOf_nil d))))

/-- The auxiliary variables section; `pre` are the ones made from the axes. -/
theorem CollectParts.auxHdr (p : CollectParts env globals a d) (ht : TextsFit d) :
    ∃ h : AuxHdr F, WfAux h ∧ h.NAUXV = p.s.ind.aux.length + a.aux.length ∧
      h.AMISS = p.s.ind.aux.map VarItem.miss ++ a.aux.map (fun w => w.miss.getD env.x.defaultMiss) ∧
      h.ASCAL = p.s.ind.aux.map VarItem.scal ++ a.aux.map (fun _ => env.x.one) ∧
      (∃ names, mapRes XVar.bestName a.aux = .ok names ∧ h.ANAME = p.s.ind.aux.map VarItem.name ++ names) ∧
      PartOf d (auxAttrs h) := by
  obtain ⟨_, _, x, h1, h2⟩ := p.vars_ok
  have hl := mapRes_ok_length _ _ _ h1
  have hname : dictGet? d "ANAME" = some (pyStrs (p.s.aux.map VarItem.name)) :=
    p.get "ANAME" (by simp [varItems]) (by decide) (by decide) (by simp [dictGet?])
  refine ⟨{ NAUXV := p.s.aux.length, ASCAL := p.s.aux.map VarItem.scal, AMISS := p.s.aux.map VarItem.miss,
            ANAME := p.s.aux.map VarItem.name }, ⟨by simp, by simp, by simp, by simp, ?_⟩, ?_, ?_, ?_, ?_, ?_⟩
  · exact ht.names "ANAME" (by simp) _ hname
  · simp [h2, hl]
  · show p.s.aux.map VarItem.miss = _
    rw [h2, List.map_append]
    exact congrArg _ (mapRes_project h1 (fun x _ y hy => (varItem_ok hy).2.1))
  · show p.s.aux.map VarItem.scal = _
    rw [h2, List.map_append]
    exact congrArg _ (mapRes_project h1 (fun x _ y hy => (varItem_ok hy).2.2.1))
  · refine ⟨_, mapRes_project_ok h1 (fun x _ y hy => (varItem_ok hy).1), ?_⟩
    show p.s.aux.map VarItem.name = _
    rw [h2, List.map_append]
  · unfold auxAttrs
    refine partOf_cons ?_ ?_
    · exact p.get "NAUXV" (by simp [varItems]) (by decide) (by decide) (by simp [dictGet?])
    · split
      · refine partOf_cons ?_ (partOf_cons ?_ (partOf_cons ?_ (partOf_nil d)))
        · exact p.get "ASCAL" (by simp [varItems]) (by decide) (by decide) (by simp [dictGet?])
        · exact p.get "AMISS" (by simp [varItems]) (by decide) (by decide) (by simp [dictGet?])
        · exact hname
      · exact partOf_nil d

/-- The values of the variables. -/
theorem CollectParts.data (p : CollectParts env globals a d) :
    dictGet? d "V" = some (.list (a.main.map (fun v => pyTree (written env.x v)))) := by
  obtain ⟨h1, _, _⟩ := p.vars_ok
  rw [← mapRes_project h1 (g := VarItem.data) (fun x _ y hy => (varItem_ok hy).2.2.2)]
  exact p.get "V" (by simp [varItems]) (by decide) (by decide) (by simp [dictGet?])

/-- The values of the auxiliary variables. -/
theorem CollectParts.auxData (p : CollectParts env globals a d) :
    dictGet? d "A" = some (.list (p.s.ind.aux.map VarItem.data
      ++ a.aux.map (fun v => pyTree (written env.x v)))) := by
  obtain ⟨_, _, x, h1, h2⟩ := p.vars_ok
  rw [← mapRes_project h1 (g := VarItem.data) (fun x _ y hy => (varItem_ok hy).2.2.2), ← List.map_append, ← h2]
  exact p.get "A" (by simp [varItems]) (by decide) (by decide) (by simp [dictGet?])

end

/-! ### Axes -/

/-- What the axes of the first variable give. -/
structure IndParts (env : XEnv F) (v : XVar F) (ffi : Int) (nvpm : Option Nat) where
  ax0 : XAxis F
  more : List (XAxis F)
  name0 : Str
  dx0 : F
  rest : List (AxisDef F)
  step : Nat
  axes : v.axes = ax0 :: more
  name : ax0.bestName = .ok name0
  dx : firstStep env ax0.values = .ok dx0
  defs : mapRes (axisDef env) more = .ok rest
  stepIs : ffi = 1020 → nvpm = some step

theorem indSection_parts {env : XEnv F} {auxMiss : F} {ffi : Int} {nvpm : Option Nat} {v : XVar F}
    {s : IndSection F} (h : indSection env auxMiss ffi nvpm v = .ok s) :
    ∃ p : IndParts env v ffi nvpm, s.XNAME = p.name0 :: p.rest.map AxisDef.XNAME ∧
      (ffi ≠ 2310 → s.DX = p.dx0 :: p.rest.map AxisDef.DX) ∧
      (ffi ≠ 2110 → ffi ≠ 2310 → s.aux = [] ∧ s.NX = p.rest.map AxisDef.NX ∧
        s.NXDEF = p.rest.map AxisDef.NXDEF ∧
        (ffi = 1001 ∨ ffi = 1010 → s.X = .list ((everyGo 1 0 p.ax0.values).map .num
          ++ p.rest.map (fun d => pyNums d.X))) ∧
        (ffi = 1020 → s.X = .list ((everyGo p.step 0 p.ax0.values).map .num
          ++ p.rest.map (fun d => pyNums d.X))) ∧
        (ffi ≠ 1001 → ffi ≠ 1010 → ffi ≠ 1020 → s.X = pyCols (p.ax0.values :: p.rest.map AxisDef.X))) ∧
      (ffi = 2110 → ∃ ax1 more1, p.more = ax1 :: more1 ∧
        s.NX = p.ax0.values.map (fun _ => ax1.values.length) ∧
        s.X = pyPairs (p.ax0.values.map (fun x => (x, ax1.values))) ∧ s.NXDEF = p.rest.map AxisDef.NXDEF ∧
        s.aux = [{ name := markName p.name0, miss := auxMiss, scal := env.one,
                   data := pyNums (s.NX.map env.ofNat) }]) ∧
      (ffi = 2310 → ∃ ax1 more1 incr first, p.more = ax1 :: more1 ∧
        getInterval env.sub ax1.values 0 1 = .ok incr ∧ (p.ax0.values ≠ [] → idx ax1.values 0 = .ok first) ∧
        s.NX = p.ax0.values.map (fun _ => ax1.values.length) ∧
        s.X = pyPairs (p.ax0.values.map (fun x => (x, ax1.values))) ∧
        s.DX = p.ax0.values.map (fun _ => incr) ∧
        s.aux = [{ name := markName p.name0, miss := auxMiss, scal := env.one,
                   data := pyNums (s.NX.map env.ofNat) },
                 { name := startName p.name0, miss := auxMiss, scal := env.one,
                   data := pyNums (p.ax0.values.map (fun _ => first)) },
                 { name := stepName p.name0, miss := auxMiss, scal := env.one, data := pyNums s.DX }]) := by
  unfold indSection at h
  obtain ⟨ax0, h1, h2⟩ := ok_of_bind h
  obtain ⟨name0, h3, h4⟩ := ok_of_bind h2
  obtain ⟨dx0, h5, h6⟩ := ok_of_bind h4
  obtain ⟨step, h7, h8⟩ := ok_of_bind h6
  obtain ⟨rest, h9, h10⟩ := ok_of_bind h8
  clear h h2 h4 h6 h8
  obtain ⟨more, hax⟩ := coordByIndex_zero h1
  have hstep : ffi = 1020 → nvpm = some step := by
    intro e
    rw [if_pos e] at h7
    cases nvpm with
    | none => cases h7
    | some n => injection h7 with h7; rw [h7]
  have hstep1 : ffi ≠ 1020 → step = 1 := by
    intro e
    rw [if_neg e] at h7
    injection h7 with h7; exact h7.symm
  have hdrop : v.axes.drop 1 = more := by rw [hax]; rfl
  rw [hdrop] at h9
  refine ⟨{ ax0 := ax0, more := more, name0 := name0, dx0 := dx0, rest := rest, step := step, axes := hax,
            name := h3, dx := h5, defs := h9, stepIs := hstep }, ?_⟩
  dsimp only at h10 ⊢
  split at h10
  · rename_i e
    subst e
    obtain ⟨ax1, h11, h12⟩ := ok_of_bind h10
    injection h12 with h12
    subst h12
    refine ⟨rfl, fun _ => rfl, fun h => absurd rfl h, fun _ => ?_, fun h => absurd h (by decide)⟩
    unfold coordByIndex at h11
    rw [hax] at h11
    cases more with
    | nil => cases h11
    | cons b t =>
      cases h11
      refine ⟨ax1, t, rfl, rfl, ?_, rfl, rfl⟩
      simp only [pyPairs, List.map_map]
      rfl
  · split at h10
    · rename_i e
      subst e
      obtain ⟨ax1, h11, h12⟩ := ok_of_bind h10
      obtain ⟨incr, h13, h14⟩ := ok_of_bind h12
      obtain ⟨x0, h15, h16⟩ := ok_of_bind h14
      injection h16 with h16
      subst h16
      refine ⟨rfl, fun h => absurd rfl h, fun _ h => absurd rfl h, fun h => absurd h (by decide), fun _ => ?_⟩
      unfold coordByIndex at h11
      rw [hax] at h11
      cases more with
      | nil => cases h11
      | cons b t =>
        cases h11
        have hb : ∃ first, idx ax1.values 0 = .ok first := by
          unfold getInterval at h13
          obtain ⟨y, hy, hz⟩ := ok_of_bind h13
          obtain ⟨x, hx, hw⟩ := ok_of_bind hz
          exact ⟨x, hx⟩
        obtain ⟨first, hf⟩ := hb
        refine ⟨ax1, t, incr, first, rfl, h13, fun _ => hf, rfl, ?_, rfl, ?_⟩
        · simp only [pyPairs, List.map_map]
          rfl
        · have : x0 = ax0.values.map (fun _ => first) := by
            rw [mapRes_ok_map _ (fun _ => first) _ (fun _ _ => hf)] at h15
            injection h15 with h15; exact h15.symm
          rw [this]
    · rename_i e1 e2
      injection h10 with h10
      subst h10
      refine ⟨rfl, fun _ => rfl, fun _ _ => ⟨rfl, rfl, rfl, ?_, ?_, ?_⟩, fun h => absurd h e1,
        fun h => absurd h e2⟩
      · intro hf
        rw [if_pos (by omega), hstep1 (by omega)]
      · intro hf
        rw [if_pos (by omega)]
      · intro f1 f2 f3
        rw [if_neg (by omega)]
        simp only [pyCols, List.map_cons, List.map_map]
        rfl

/-! ### Every n-th value -/

theorem everyGo_one {α : Type} (l : List α) : everyGo 1 0 l = l := by
  induction l with
  | nil => rfl
  | cons x t ih => rw [everyGo, ih]

theorem everyGo_skip {α : Type} (n k : Nat) (l : List α) : everyGo n k l = everyGo n 0 (l.drop k) := by
  induction k generalizing l with
  | zero => simp
  | succ k ih =>
    cases l with
    | nil => simp [everyGo]
    | cons x t => rw [everyGo, ih, List.drop_succ_cons]

theorem everyGo_get {α : Type} (n : Nat) (hn : 0 < n) (l : List α) (i : Nat) :
    (everyGo n 0 l)[i]? = l[n * i]? := by
  induction i generalizing l with
  | zero => cases l <;> simp [everyGo]
  | succ i ih =>
    cases l with
    | nil => simp [everyGo]
    | cons x t =>
      rw [everyGo, everyGo_skip, List.getElem?_cons_succ, ih, List.getElem?_drop,
        show n * (i + 1) = (n - 1 + n * i) + 1 by rw [Nat.mul_succ]; omega, List.getElem?_cons_succ]

theorem everyGo_length {α : Type} (n : Nat) (hn : 0 < n) (k : Nat) (l : List α) (h : l.length = n * k) :
    (everyGo n 0 l).length = k := by
  induction k generalizing l with
  | zero =>
    have : l = [] := List.length_eq_zero_iff.1 (by simpa using h)
    subst this; rfl
  | succ k ih =>
    cases l with
    | nil => rw [Nat.mul_succ] at h; simp at h; omega
    | cons x t =>
      rw [everyGo, everyGo_skip, List.length_cons, ih]
      rw [List.length_drop]
      rw [Nat.mul_succ, List.length_cons] at h
      omega

/-- The factor found in the second loop divides the length of the first axis. -/
theorem sortStep_factor {env : XEnv F} {b : XVar F} {zeroIds : List Str} {s s' : SortState F} {v : XVar F}
    (h : sortStep env b zeroIds s v = .ok s')
    (hs : ∀ n, s.nvpm = some n → 0 < n ∧ ∃ k more, b.shape = n * k :: more) :
    ∀ n, s'.nvpm = some n → 0 < n ∧ ∃ k more, b.shape = n * k :: more := by
  unfold sortStep at h
  split at h
  · injection h with h; subst h; exact hs
  · split at h
    · split at h
      · rename_i first hv
        obtain ⟨ax0, hax, h3⟩ := ok_of_bind h
        unfold sortOneDim at h3
        split at h3
        · split at h3 <;> (injection h3 with h3; subst h3; exact hs)
        · split at h3
          · cases h3
          · injection h3 with h3; subst h3; exact hs
          · injection h3 with h3; subst h3; exact hs
          · rename_i m hm0 hm
            injection h3 with h3
            subst h3
            intro n hn
            injection hn with hn
            subst hn
            obtain ⟨more, hmore⟩ := coordByIndex_zero hax
            refine ⟨Nat.pos_of_ne_zero (fun e => ?_), ?_⟩
            · subst e; exact hm0 rfl
            · unfold subsetFactor at hm
              split at hm
              · cases hm
              split at hm
              · cases hm
              split at hm
              · cases hm
              · rename_i hmod
                obtain ⟨ok, _, h5⟩ := ok_of_bind hm
                injection h5 with h5
                split at h5
                · injection h5 with h5
                  subst h5
                  refine ⟨first.values.length, more.map (fun x => x.values.length), ?_⟩
                  simp only [XVar.shape, hmore, List.map_cons]
                  have : ax0.values.length % first.values.length = 0 := by simpa using hmod
                  rw [Nat.div_mul_cancel (Nat.dvd_of_mod_eq_zero this)]
                · cases h5
      · injection h with h; subst h; exact hs
    · split at h <;> (injection h with h; subst h; exact hs)

theorem sortGo_factor {env : XEnv F} {b : XVar F} {zeroIds : List Str} {s s' : SortState F}
    {vs : List (XVar F)} (h : sortGo env b zeroIds s vs = .ok s')
    (hs : ∀ n, s.nvpm = some n → 0 < n ∧ ∃ k more, b.shape = n * k :: more) :
    ∀ n, s'.nvpm = some n → 0 < n ∧ ∃ k more, b.shape = n * k :: more := by
  induction vs generalizing s with
  | nil => injection h with h; subst h; exact hs
  | cons v vs ih =>
    obtain ⟨s1, h1, h2⟩ := ok_of_bind h
    exact ih h2 (sortStep_factor h1 hs)

theorem analyse_factor {env : XEnv F} {requested : Option Int} {vars : List (XVar F)} {a : Analysis F}
    (h : analyse env requested vars = .ok (some a)) {n : Nat} (hn : a.nvpm = some n) :
    0 < n ∧ ∃ k more, ∀ v ∈ a.main, v.shape = n * k :: more := by
  obtain ⟨p⟩ := analyse_parts h
  rw [p.nvpm] at hn
  obtain ⟨h1, k, more, h2⟩ := sortGo_factor p.sorted (by intro m hm; cases hm) n hn
  refine ⟨h1, k, more, fun v hv => ?_⟩
  have hg := sortGo_good p.sorted ⟨by intro v hv; simp at hv; rw [hv], by intro v hv; cases hv⟩
  rw [hg.1 v (reorderBy_mem p.orderM v hv), h2]

/-! ### The items of the axes in the dictionary -/

section
variable {env : CollectEnv F} {globals : Dict (PyVal F)} {a : Analysis F} {d : Dict (PyVal F)}

theorem CollectParts.axisItems (p : CollectParts env globals a d) :
    dictGet? d "X" = some p.s.ind.X ∧ dictGet? d "XNAME" = some (pyStrs p.s.ind.XNAME) ∧
      dictGet? d "DX" = some (pyNums p.s.ind.DX) ∧ dictGet? d "NX" = some (pyNats p.s.ind.NX) ∧
      dictGet? d "NXDEF" = some (pyNats p.s.ind.NXDEF) := by
  refine ⟨?_, ?_, ?_, ?_, ?_⟩
  · exact p.get "X" (by simp [varItems]) (by decide) (by decide) (by simp [dictGet?])
  · exact p.get "XNAME" (by simp [varItems]) (by decide) (by decide) (by simp [dictGet?])
  · exact p.get "DX" (by simp [varItems]) (by decide) (by decide) (by simp [dictGet?])
  · exact p.get "NX" (by simp [varItems]) (by decide) (by decide) (by simp [dictGet?])
  · exact p.get "NXDEF" (by simp [varItems]) (by decide) (by decide) (by simp [dictGet?])

/-- The items of the only axis. -/
theorem CollectParts.oneAxis (p : CollectParts env globals a d) {n : Nat}
    (hmain : ∀ v ∈ a.main, v.shape = [n]) (h1 : a.ffi ≠ 2110) (h2 : a.ffi ≠ 2310) :
    ∃ ax0 name0 dx0, p.v.axes = [ax0] ∧ ax0.values.length = n ∧ p.s.ind.aux = [] ∧
      ax0.bestName = .ok name0 ∧ firstStep env.x ax0.values = .ok dx0 ∧
      dictGet? d "XNAME" = some (pyStrs [name0]) ∧ dictGet? d "DX" = some (pyNums [dx0]) ∧
      (a.ffi = 1001 ∨ a.ffi = 1010 → dictGet? d "X" = some (pyNums ax0.values)) ∧
      (a.ffi = 1020 → ∃ step, a.nvpm = some step ∧ dictGet? d "X" = some (pyNums (everyGo step 0 ax0.values))) := by
  obtain ⟨_, hind, _⟩ := p.vars_ok
  obtain ⟨q, q1, q2, q3, _, _⟩ := indSection_parts hind
  obtain ⟨q3, q4, q5, q6, q7, _⟩ := q3 h1 h2
  have hsh := hmain p.v (by rw [p.main]; simp)
  rw [XVar.shape, q.axes, List.map_cons] at hsh
  injection hsh with hlen hmore
  have hmore := List.map_eq_nil_iff.1 hmore
  have hrest : q.rest = [] := by
    have := q.defs
    rw [hmore] at this
    injection this with this; exact this.symm
  rw [hrest] at q1 q2 q6 q7
  obtain ⟨x1, x2, x3, _, _⟩ := p.axisItems
  refine ⟨q.ax0, q.name0, q.dx0, by rw [q.axes, hmore], hlen, q3, q.name, q.dx, by rw [x2, q1]; rfl,
    by rw [x3, q2 h2]; rfl, ?_, ?_⟩
  · intro h
    rw [x1, q6 h, everyGo_one]
    simp [pyNums]
  · intro h
    refine ⟨q.step, q.stepIs h, ?_⟩
    rw [x1, q7 h]
    simp [pyNums]

end

/-- Writing 2310 looks at the first number of `DX` and at the marks only. -/
theorem write2310_same (fe : Env F) (nh : Bool) {r r' : NA2110 F} (h : r' = { r with X := r'.X, DX := r'.DX })
    (hX : r'.X.map Prod.fst = r.X.map Prod.fst) (hD : r'.DX.head? = r.DX.head?) :
    (write2310 fe nh r').2 = (write2310 fe nh r).2 := by
  revert hX hD
  rw [h]
  generalize r'.X = X'
  generalize r'.DX = D'
  clear h r'
  intro hX hD
  have hrows : ∀ s : NA2110 F, s.X = r.X → rows2310 fe { s with X := X', DX := D' } = rows2310 fe s := by
    intro s hs
    have key : ∀ t : NA2110 F, rows2310 fe t = ((t.X.map Prod.fst).mapIdx (fun m x =>
        [markRow fe t.aux.NAUXV t.A x m, implRow fe t.v.NV t.NX t.V m])).flatten := by
      intro t
      unfold rows2310
      congr 1
      exact List.ext_getElem (by simp) (fun i h1 h2 => by simp)
    rw [key, key]
    simp only [hX, hs]
  have hd : idx D' 0 = idx r.DX 0 := by
    unfold idx
    rw [← List.head?_eq_getElem?, ← List.head?_eq_getElem?, hD]
  unfold write2310
  split
  · rw [hrows r rfl]
  · unfold header2310
    simp only [hd]
    cases writeCommon fe r.c with
    | error x => rfl
    | ok common =>
      cases idx r.DX 0 with
      | error x => rfl
      | ok dx0 =>
        have ht : header2110Tail fe common (fe.cd.sfmt dx0 ++ ['\n'])
              { r with X := X', DX := D', XNAME := r.XNAME.reverse }
            = header2110Tail fe common (fe.cd.sfmt dx0 ++ ['\n']) { r with XNAME := r.XNAME.reverse } := rfl
        have hr := hrows { r with XNAME := r.XNAME.reverse } rfl
        simp only [ht]
        cases header2110Tail fe common (fe.cd.sfmt dx0 ++ ['\n']) { r with XNAME := r.XNAME.reverse } with
        | error x => rfl
        | ok hd' => exact congrArg (fun rows => (Out.one (Except.ok hd')).seq (Out.ofRows rows)) hr

end Nappy
