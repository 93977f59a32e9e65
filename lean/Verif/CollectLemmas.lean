import Verif.Spec.Collect
import Verif.CollectorLemmas
import Verif.CoreLemmas

/-! Facts about the dictionaries made from variables. -/

namespace Nappy

open Spec

variable {F : Type}

/-! ### Axes -/

theorem extendAxis_steps {env : XEnv F} {add : F → F → F} (he : ExactSteps env add) (d : F) :
    ∀ (x : F) (t : List F), allSteps env d (x :: t) = true → extendAxis add d t.length x = x :: t := by
  intro x t
  induction t generalizing x with
  | nil => intro _; rfl
  | cons y t ih =>
    intro h
    simp only [allSteps, Bool.and_eq_true] at h
    simp only [List.length_cons, extendAxis]
    rw [he x y d h.1, ih y h.2]

theorem axisDef_facts {env : XEnv F} {a : XAxis F} {d : AxisDef F} (h : axisDef env a = .ok d) :
    d.NX = a.values.length ∧ d.X.length = d.NXDEF ∧ a.bestName = .ok d.XNAME ∧ d.X = a.values.take d.NXDEF ∧
      (a.values ≠ [] → 1 ≤ d.NXDEF) := by
  unfold axisDef at h
  obtain ⟨name, hn, h1⟩ := ok_of_bind h
  clear h
  split at h1
  · rename_i x y t hv
    split at h1
    · rename_i hs
      injection h1 with h1
      subst h1
      simp only [hv, List.length_cons] at hs ⊢
      refine ⟨trivial, ?_, hn, ?_, ?_⟩
      · simp; omega
      · refine List.ext_getElem? fun i => ?_
        simp only [List.getElem?_take]
        by_cases h1 : i < 3 <;> by_cases h2 : i < min (t.length + 1 + 1) 3
        · rw [if_pos h1, if_pos h2]
        · rw [if_pos h1, if_neg h2, List.getElem?_eq_none]
          simp only [List.length_cons]; omega
        · omega
        · rw [if_neg h1, if_neg h2]
      · intro _; omega
    · injection h1 with h1
      subst h1
      refine ⟨rfl, rfl, hn, by simp, ?_⟩
      intro _; rw [hv]; simp
  · injection h1 with h1
    subst h1
    refine ⟨rfl, rfl, hn, by simp, ?_⟩
    intro h
    exact List.length_pos_iff.2 h

theorem axisDef_normalize {env : XEnv F} {add : F → F → F} (he : ExactSteps env add) {a : XAxis F}
    {d : AxisDef F} (h : axisDef env a = .ok d) :
    normalizeAxis add d.NXDEF d.NX d.DX d.X = .ok a.values := by
  unfold axisDef at h
  obtain ⟨name, hn, h1⟩ := ok_of_bind h
  clear h
  split at h1
  · rename_i x y t hv
    split at h1
    · rename_i hs
      injection h1 with h1
      subst h1
      simp only [hv, List.length_cons] at hs ⊢
      unfold normalizeAxis
      split
      · rename_i e
        rw [List.take_of_length_le]
        simp only [List.length_cons]
        omega
      · simp only [List.take_succ_cons]
        rw [show ((((t.length + 1 + 1 : Nat) : Int)).toNat - 1) = (y :: t).length by simp; omega,
          extendAxis_steps he _ _ _ hs]
    · injection h1 with h1
      subst h1
      simp [normalizeAxis]
  · injection h1 with h1
    subst h1
    simp [normalizeAxis]

/-- An axis that is not empty is rebuilt from its first values. -/
theorem normalizeAxis_eq_ne {add : F → F → F} {n nx : Int} {dx : F} {x : List F} (h : n = nx) :
    normalizeAxis add n nx dx x = .ok x := if_pos h

/-- All axes together. -/
theorem axisDefs_normalize {env : XEnv F} {add : F → F → F} (he : ExactSteps env add) {more : List (XAxis F)}
    {rest : List (AxisDef F)} (h : mapRes (axisDef env) more = .ok rest) {r : NA2010 F} {d0 : F}
    (h1 : r.NXDEF = rest.map (fun d => (d.NXDEF : Int))) (h2 : r.NX = rest.map (fun d => (d.NX : Int)))
    (h3 : r.XB = rest.map AxisDef.X) (h4 : r.DX = d0 :: rest.map AxisDef.DX) (h5 : r.NIV = more.length + 1) :
    normalizeIndVars add r = .ok { r with XB := more.map XAxis.values } := by
  have hl := mapRes_ok_length _ _ _ h
  have hn : (r.NIV - 1).toNat = more.length := by omega
  unfold normalizeIndVars
  rw [hn]
  have key : mapRes (fun i => do
      let n ← idx r.NXDEF i
      let nx ← idx r.NX i
      let x ← idx r.XB i
      if n = nx then .ok x
      else do
        let dx ← idx r.DX (i + 1)
        normalizeAxis add n nx dx x) (List.range more.length) = .ok (more.map XAxis.values) := by
    have : List.range more.length = List.range rest.length := by rw [hl]
    have e : ∀ i, i < more.length → ∃ ax d, more[i]? = some ax ∧ rest[i]? = some d ∧ axisDef env ax = .ok d := by
      intro i hi
      have hi2 : i < rest.length := by omega
      refine ⟨more[i], rest[i], List.getElem?_eq_getElem hi, List.getElem?_eq_getElem hi2, ?_⟩
      clear * - h
      induction more generalizing rest i with
      | nil => exact absurd hi (by simp)
      | cons a t ih =>
        obtain ⟨b, g1, g2⟩ := ok_of_bind h
        obtain ⟨bs, g3, g4⟩ := ok_of_bind g2
        injection g4 with g4
        subst g4
        cases i with
        | zero => exact g1
        | succ i => exact ih g3 i _ _
    rw [mapRes_ok_map _ (fun i => ((more[i]?).map XAxis.values).getD []) _ ?_]
    · congr 1
      refine List.ext_getElem? fun i => ?_
      rw [List.getElem?_map, List.getElem?_map]
      by_cases hi : i < more.length
      · rw [List.getElem?_range hi, List.getElem?_eq_getElem hi]; simp [List.getElem?_eq_getElem hi]
      · rw [List.getElem?_eq_none (by simp; omega), List.getElem?_eq_none (by omega)]; rfl
    · intro i hi
      rw [List.mem_range] at hi
      obtain ⟨ax, d, g1, g2, g3⟩ := e i hi
      have i1 : idx r.NXDEF i = .ok (d.NXDEF : Int) := by rw [h1]; unfold idx; simp [g2]
      have i2 : idx r.NX i = .ok (d.NX : Int) := by rw [h2]; unfold idx; simp [g2]
      have i3 : idx r.XB i = .ok d.X := by rw [h3]; unfold idx; simp [g2]
      have i4 : idx r.DX (i + 1) = .ok d.DX := by rw [h4]; unfold idx; simp [g2]
      have hnorm := axisDef_normalize he g3
      rw [i1, i2, i3]
      simp only [ok_bind, g1, Option.map_some, Option.getD_some]
      split
      · rename_i e
        rw [← hnorm, normalizeAxis_eq_ne e]
      · rw [i4, ok_bind, hnorm]
  rw [key]
  simp only [ok_bind]
  have : r.XB.drop more.length = [] := by
    rw [List.drop_eq_nil_iff, h3, List.length_map, hl]
  rw [this, List.append_nil]

/-! ### The dictionary -/

/-- The items that `_defineNAGlobals` may set. -/
def globItems : List String := ["ONAME", "ORG", "DATE", "SNAME", "MNAME", "FFI", "NLHEAD", "NVOL", "IVOL"]

theorem plainMap_items {k item : String} (h : dictGet? plainMap k = some item) :
    (k, item) ∈ plainMap := dictGet?_mem h

theorem globStep_keeps {env : CollectEnv F} {s s' : GlobState F} {key : String} {v : PyVal F}
    (h : globStep env s key v = .ok s') (k : String) (hk : k ∉ globItems) :
    dictGet? s'.dict k = dictGet? s.dict k := by
  simp only [globItems, List.mem_cons, List.not_mem_nil, or_false, not_or] at hk
  obtain ⟨k1, k2, k3, k4, k5, k6, k7, k8, k9⟩ := hk
  unfold globStep at h
  split at h
  · injection h with h; subst h; rfl
  split at h
  · injection h with h; subst h; rfl
  split at h
  · split at h
    · injection h with h
      subst h
      simp only [dictGet?_set]
      rw [if_neg (Ne.symm k2), if_neg (Ne.symm k1)]
    · cases h
  split at h
  · split at h
    · injection h with h; subst h; rfl
    · cases h
  split at h
  · injection h with h
    subst h
    simp only [dictGet?_set]
    rw [if_neg (Ne.symm k3)]
  split at h
  · rename_i item hi
    injection h with h
    subst h
    simp only [dictGet?_set]
    rw [if_neg]
    rintro rfl
    have := plainMap_items hi
    simp only [plainMap, List.mem_cons, Prod.mk.injEq, List.not_mem_nil, or_false] at this
    rcases this with ⟨_, rfl⟩ | ⟨_, rfl⟩ | ⟨_, rfl⟩ | ⟨_, rfl⟩ | ⟨_, rfl⟩ | ⟨_, rfl⟩ <;> simp_all
  · injection h with h; subst h; rfl


/-- The attribute that sets an item. -/
def setters : Dict String :=
  [("SNAME", "source"), ("MNAME", "title"), ("FFI", "file_format_index"),
   ("NLHEAD", "no_of_nasa_ames_header_lines"), ("NVOL", "total_files_in_set"),
   ("IVOL", "file_number_in_set"), ("ONAME", "institution"), ("ORG", "institution"),
   ("DATE", "first_valid_date_of_data")]

theorem globStep_other {env : CollectEnv F} {s s' : GlobState F} {key : String} {v : PyVal F}
    (h : globStep env s key v = .ok s') (it : String) (hk : (it, key) ∉ setters) :
    dictGet? s'.dict it = dictGet? s.dict it := by
  unfold globStep at h
  split at h
  · injection h with h; subst h; rfl
  split at h
  · injection h with h; subst h; rfl
  split at h
  · rename_i hi
    split at h
    · injection h with h
      subst h
      simp only [dictGet?_set]
      rw [if_neg, if_neg]
      · rintro rfl; exact hk (by simp [setters, hi])
      · rintro rfl; exact hk (by simp [setters, hi])
    · cases h
  split at h
  · split at h
    · injection h with h; subst h; rfl
    · cases h
  split at h
  · rename_i hi
    injection h with h
    subst h
    simp only [dictGet?_set]
    rw [if_neg]
    rintro rfl; exact hk (by simp [setters, hi])
  split at h
  · rename_i item hi
    injection h with h
    subst h
    simp only [dictGet?_set]
    rw [if_neg]
    rintro rfl
    have := plainMap_items hi
    simp only [plainMap, List.mem_cons, Prod.mk.injEq, List.not_mem_nil, or_false] at this
    refine hk ?_
    rcases this with ⟨rfl, rfl⟩ | ⟨rfl, rfl⟩ | ⟨rfl, rfl⟩ | ⟨rfl, rfl⟩ | ⟨rfl, rfl⟩ | ⟨rfl, rfl⟩ <;>
      simp [setters]
  · injection h with h; subst h; rfl

/-- An attribute that goes straight into an item. -/
theorem globStep_plain {env : CollectEnv F} {s s' : GlobState F} {key it : String} {v : PyVal F}
    (h : globStep env s key v = .ok s') (hm : (key, it) ∈ plainMap) (hv : v.plain = true) :
    dictGet? s'.dict it = some v := by
  simp only [plainMap, List.mem_cons, Prod.mk.injEq, List.not_mem_nil, or_false] at hm
  rcases hm with ⟨rfl, rfl⟩ | ⟨rfl, rfl⟩ | ⟨rfl, rfl⟩ | ⟨rfl, rfl⟩ | ⟨rfl, rfl⟩ | ⟨rfl, rfl⟩ <;>
    simp [globStep, hv, plainMap, dictGet?] at h <;> subst h <;> simp [dictGet?_set]

theorem globStep_institution {env : CollectEnv F} {s s' : GlobState F} {v : Str}
    (h : globStep env s "institution" (.str v) = .ok s') :
    dictGet? s'.dict "ONAME" = some (.str (splitInstitution v).1) ∧
      dictGet? s'.dict "ORG" = some (.str (splitInstitution v).2) := by
  simp [globStep, PyVal.plain] at h
  subst h
  simp [dictGet?_set]

theorem globGo_other {env : CollectEnv F} (it : String) :
    ∀ (l : Dict (PyVal F)) (s s' : GlobState F), globGo env s l = .ok s' →
      (∀ kv ∈ l, (it, kv.1) ∉ setters) → dictGet? s'.dict it = dictGet? s.dict it := by
  intro l
  induction l with
  | nil => intro s s' h _; injection h with h; subst h; rfl
  | cons kv l ih =>
    obtain ⟨k, v⟩ := kv
    intro s s' h hk
    obtain ⟨s1, h1, h2⟩ := ok_of_bind h
    rw [ih s1 s' h2 (fun x hx => hk x (List.mem_cons_of_mem _ hx)),
      globStep_other h1 it (hk (k, v) (by simp))]

/-- What the last attribute that sets an item leaves in it. -/
theorem globGo_set {env : CollectEnv F} (it key : String) (P : Option (PyVal F) → Prop)
    (hset : ∀ k, (it, k) ∈ setters → k = key) (v : PyVal F)
    (hstep : ∀ s s', globStep env s key v = .ok s' → P (dictGet? s'.dict it)) :
    ∀ (l : Dict (PyVal F)) (s s' : GlobState F), globGo env s l = .ok s' → (l.map Prod.fst).Nodup →
      dictGet? l key = some v → P (dictGet? s'.dict it) := by
  intro l
  induction l with
  | nil => intro s s' _ _ h; cases h
  | cons kv l ih =>
    obtain ⟨k, w⟩ := kv
    intro s s' h hn hg
    obtain ⟨s1, h1, h2⟩ := ok_of_bind h
    rw [List.map_cons, List.nodup_cons] at hn
    by_cases hk : k = key
    · subst hk
      simp only [dictGet?, if_true, Option.some.injEq] at hg
      subst hg
      rw [globGo_other it l s1 s' h2 ?_]
      · exact hstep _ _ h1
      · intro x hx hm
        exact hn.1 (List.mem_map.2 ⟨x, hx, hset _ hm⟩)
    · simp only [dictGet?, if_neg hk] at hg
      exact ih s1 s' h2 hn.2 hg

/-- The items that the variables determine and nothing else changes. -/
def varItems : List String :=
  ["NIV", "NVPM", "NV", "VNAME", "VMISS", "VSCAL", "V", "NXDEF", "NX", "X", "XNAME", "DX", "A", "ANAME", "AMISS",
   "ASCAL", "NAUXV"]

theorem defineComments_get {env : CollectEnv F} {a : Analysis F} {s : GlobState F} {d : Dict (PyVal F)}
    (h : defineComments env a s = .ok d) :
    ∃ scom, rawSpecial env.hp s.extra0 a.zero a.main = .ok scom ∧
      dictGet? d "NCOM" = some (pyStrs (cleanComments (rawNormal env.hp s))) ∧
      dictGet? d "NNCOML" = some (.int (cleanComments (rawNormal env.hp s)).length) ∧
      dictGet? d "SCOM" = some (pyStrs (cleanComments scom)) ∧
      dictGet? d "NSCOML" = some (.int (cleanComments scom).length) ∧
      ∀ k, k ∉ ["NCOM", "NNCOML", "SCOM", "NSCOML"] → dictGet? d k = dictGet? s.dict k := by
  obtain ⟨scom, h1, h2⟩ := ok_of_bind h
  injection h2 with h2
  subst h2
  refine ⟨scom, h1, ?_, ?_, ?_, ?_, ?_⟩
  · simp [dictGet?_set]
  · simp [dictGet?_set]
  · simp [dictGet?_set]
  · simp [dictGet?_set]
  · intro k hk
    simp only [List.mem_cons, List.not_mem_nil, or_false, not_or] at hk
    obtain ⟨k1, k2, k3, k4⟩ := hk
    simp only [dictGet?_set]
    rw [if_neg (Ne.symm k4), if_neg (Ne.symm k3), if_neg (Ne.symm k2), if_neg (Ne.symm k1)]

theorem generalHeader_get (env : CollectEnv F) (ax0 : XAxis F) (x : PyVal F) (d : Dict (PyVal F)) :
    (dictGet? (generalHeader env ax0 x d) "IVOL" = some (.int 1) ∧
      dictGet? (generalHeader env ax0 x d) "NVOL" = some (.int 1)) ∧
    dictGet? (generalHeader env ax0 x d) "RDATE"
      = some ((dictGet? d "RDATE").getD (.list (env.today.map .int))) ∧
    dictGet? (generalHeader env ax0 x d) "DATE" = some (headerDate env ax0 x (dictGet? d "DATE")) ∧
    ∀ k, k ∉ ["RDATE", "DATE", "IVOL", "NVOL"] → dictGet? (generalHeader env ax0 x d) k = dictGet? d k := by
  unfold generalHeader
  refine ⟨⟨by simp [dictGet?_set], by simp [dictGet?_set]⟩, ?_, ?_, ?_⟩
  · simp only [dictGet?_set]
    cases h : dictGet? d "RDATE" <;> simp [dictHas, h, dictGet?_set]
  · simp only [dictGet?_set]
    cases h : dictGet? d "RDATE" <;> simp [dictHas, h, dictGet?_set]
  · intro k hk
    simp only [List.mem_cons, List.not_mem_nil, or_false, not_or] at hk
    obtain ⟨k1, k2, k3, k4⟩ := hk
    simp only [dictGet?_set]
    rw [if_neg (Ne.symm k4), if_neg (Ne.symm k3), if_neg (Ne.symm k2)]
    split
    · rfl
    · rw [dictGet?_set, if_neg (Ne.symm k1)]

/-- The parts of a collected dictionary. -/
structure CollectParts (env : CollectEnv F) (globals : Dict (PyVal F)) (a : Analysis F)
    (d : Dict (PyVal F)) where
  v : XVar F
  vs : List (XVar F)
  ax0 : XAxis F
  more : List (XAxis F)
  s : Sections F
  g : GlobState F
  scom : List Str
  main : a.main = v :: vs
  axes : v.axes = ax0 :: more
  sections : defineVars env.x env.auxMiss a = .ok s
  globs : globGo env { dict := varsDict a s, extra0 := [], extra1 := [], extra2 := [], history := none } globals
    = .ok g
  special : rawSpecial env.hp g.extra0 a.zero a.main = .ok scom
  ncom : dictGet? d "NCOM" = some (pyStrs (cleanComments (rawNormal env.hp g)))
  nncoml : dictGet? d "NNCOML" = some (.int (cleanComments (rawNormal env.hp g)).length)
  scomIs : dictGet? d "SCOM" = some (pyStrs (cleanComments scom))
  nscoml : dictGet? d "NSCOML" = some (.int (cleanComments scom).length)
  ivol : dictGet? d "IVOL" = some (.int 1)
  nvol : dictGet? d "NVOL" = some (.int 1)
  rdate : dictGet? d "RDATE" = some (.list (env.today.map .int))
  date : dictGet? d "DATE" = some (headerDate env ax0 s.ind.X (dictGet? g.dict "DATE"))
  rest : ∀ k, k ∉ ["RDATE", "DATE", "IVOL", "NVOL", "NCOM", "NNCOML", "SCOM", "NSCOML"] →
    dictGet? d k = dictGet? g.dict k
  items : ∀ k ∈ varItems, dictGet? d k = dictGet? (varsDict a s) k

theorem varsDict_rdate (a : Analysis F) (s : Sections F) : dictGet? (varsDict a s) "RDATE" = none := by
  unfold varsDict
  cases a.nvpm <;> simp [dictGet?]

theorem collectDict_parts {env : CollectEnv F} {globals : Dict (PyVal F)} {a : Analysis F}
    {d : Dict (PyVal F)} (h : collectDict env globals a = .ok d) : Nonempty (CollectParts env globals a d) := by
  obtain ⟨s, hs, h1⟩ := ok_of_bind h
  obtain ⟨g, hg, h2⟩ := ok_of_bind h1
  obtain ⟨d1, hd, h3⟩ := ok_of_bind h2
  clear h h1 h2
  unfold defineGlobals at hg
  split at hg
  · cases hm : a.main with
    | nil => rw [hm] at h3; cases h3
    | cons v vs =>
      rw [hm] at h3
      dsimp only at h3
      obtain ⟨ax0, hax, h4⟩ := ok_of_bind h3
      injection h4 with h4
      obtain ⟨scom, c0, c1, c2, c3, c4, c5⟩ := defineComments_get hd
      obtain ⟨⟨g1, g2⟩, g3, g4, g5⟩ := generalHeader_get env ax0 s.ind.X d1
      rw [h4] at g1 g2 g3 g4 g5
      obtain ⟨more, hmore⟩ : ∃ more, v.axes = ax0 :: more := by
        unfold coordByIndex at hax
        cases hv : v.axes with
        | nil => rw [hv] at hax; cases hax
        | cons b t => rw [hv] at hax; cases hax; exact ⟨t, rfl⟩
      have hrd : dictGet? d1 "RDATE" = none := by
        rw [c5 "RDATE" (by decide), globGo_other "RDATE" _ _ _ hg (by intro kv _; simp [setters]),
          varsDict_rdate]
      have hrest : ∀ k, k ∉ ["RDATE", "DATE", "IVOL", "NVOL", "NCOM", "NNCOML", "SCOM", "NSCOML"] →
          dictGet? d k = dictGet? g.dict k := by
        intro k hk
        have hk' : k ∉ ["RDATE", "DATE", "IVOL", "NVOL"] ++ ["NCOM", "NNCOML", "SCOM", "NSCOML"] := hk
        rw [g5 k (fun h => hk' (List.mem_append_left _ h)), c5 k (fun h => hk' (List.mem_append_right _ h))]
      refine ⟨{ v := v, vs := vs, ax0 := ax0, more := more, s := s, g := g, scom := scom, main := hm,
                axes := hmore, sections := hs, globs := hg, special := c0,
                ncom := by rw [g5 _ (by decide), c1], nncoml := by rw [g5 _ (by decide), c2],
                scomIs := by rw [g5 _ (by decide), c3], nscoml := by rw [g5 _ (by decide), c4],
                ivol := g1, nvol := g2, rdate := by rw [g3, hrd]; rfl,
                date := by rw [g4, c5 _ (by decide)],
                rest := hrest, items := ?_ }⟩
      intro k hk
      simp only [varItems, List.mem_cons, List.not_mem_nil, or_false] at hk
      rw [hrest k, globGo_other k _ _ _ hg]
      · intro kv _ hm
        simp only [setters, List.mem_cons, Prod.mk.injEq, List.not_mem_nil, or_false] at hm
        rcases hk with rfl | rfl | rfl | rfl | rfl | rfl | rfl | rfl | rfl | rfl | rfl | rfl | rfl | rfl | rfl |
          rfl | rfl <;> simp at hm
      · rcases hk with rfl | rfl | rfl | rfl | rfl | rfl | rfl | rfl | rfl | rfl | rfl | rfl | rfl | rfl | rfl |
          rfl | rfl <;> decide
  · cases hg

end Nappy
