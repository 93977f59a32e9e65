import Verif.Spec.SplitFile
import Verif.ConvertFileLemmas
import Verif.Props.Copy

/-! Lemmas about long data that a conversion writes to several files. -/

namespace Nappy

open Spec Props

variable {F : Type}

/-! ### Keys of the dictionary -/

theorem keys_varsDict (a : Analysis F) (s : Sections F) : ((varsDict a s).map Prod.fst).Nodup := by
  unfold varsDict
  cases a.nvpm <;> simp

theorem keys_globStep {env : CollectEnv F} {s s' : GlobState F} {key : String} {v : PyVal F}
    (h : globStep env s key v = .ok s') (hs : (s.dict.map Prod.fst).Nodup) : (s'.dict.map Prod.fst).Nodup := by
  unfold globStep at h
  split at h
  · injection h with h; subst h; exact hs
  split at h
  · injection h with h; subst h; exact hs
  split at h
  · split at h
    · injection h with h; subst h; exact dictSet_nodup _ _ _ (dictSet_nodup _ _ _ hs)
    · cases h
  split at h
  · split at h
    · injection h with h; subst h; exact hs
    · cases h
  split at h
  · injection h with h; subst h; exact dictSet_nodup _ _ _ hs
  split at h
  · injection h with h; subst h; exact dictSet_nodup _ _ _ hs
  · injection h with h; subst h; exact hs

theorem keys_globGo {env : CollectEnv F} : ∀ (l : Dict (PyVal F)) (s s' : GlobState F), globGo env s l = .ok s' →
    (s.dict.map Prod.fst).Nodup → (s'.dict.map Prod.fst).Nodup
  | [], _, _, h, hs => by injection h with h; exact h ▸ hs
  | (k, v) :: t, s, s', h, hs => by
    obtain ⟨s1, h1, h2⟩ := ok_of_bind h
    exact keys_globGo t s1 s' h2 (keys_globStep h1 hs)

theorem keys_collectDict {env : CollectEnv F} {globals : Dict (PyVal F)} {a : Analysis F} {d : Dict (PyVal F)}
    (h : collectDict env globals a = .ok d) : (d.map Prod.fst).Nodup := by
  unfold collectDict at h
  obtain ⟨s, _, h⟩ := ok_of_bind h
  obtain ⟨g, h2, h⟩ := ok_of_bind h
  obtain ⟨d1, h3, h⟩ := ok_of_bind h
  have k1 : (g.dict.map Prod.fst).Nodup := by
    unfold defineGlobals at h2
    split at h2
    · exact keys_globGo _ _ _ h2 (keys_varsDict a s)
    · cases h2
  have k2 : (d1.map Prod.fst).Nodup := by
    unfold defineComments at h3
    obtain ⟨scom, _, h3⟩ := ok_of_bind h3
    injection h3 with h3
    rw [← h3]
    exact dictSet_nodup _ _ _ (dictSet_nodup _ _ _ (dictSet_nodup _ _ _ (dictSet_nodup _ _ _ k1)))
  split at h
  · cases h
  · obtain ⟨ax0, _, h⟩ := ok_of_bind h
    injection h with h
    rw [← h]
    unfold generalHeader
    refine dictSet_nodup _ _ _ (dictSet_nodup _ _ _ (dictSet_nodup _ _ _ ?_))
    split
    · exact k2
    · exact dictSet_nodup _ _ _ k2

theorem keys_applyOverrides {hp : Partitions} {rule : Rule} : ∀ (o d d' : Dict (PyVal F)),
    applyOverrides hp rule d o = .ok d' → (d.map Prod.fst).Nodup → (d'.map Prod.fst).Nodup
  | [], d, d', h, hd => by injection h with h; exact h ▸ hd
  | (k, v) :: t, d, d', h, hd => by
    obtain ⟨d1, h1, h2⟩ := ok_of_bind h
    refine keys_applyOverrides t d1 d' h2 ?_
    unfold applyOverride at h1
    split at h1
    · obtain ⟨item, _, h1⟩ := ok_of_bind h1
      split at h1
      · obtain ⟨c, _, h1⟩ := ok_of_bind h1
        obtain ⟨n, _, h1⟩ := ok_of_bind h1
        injection h1 with h1
        rw [← h1]
        exact dictSet_nodup _ _ _ (dictSet_nodup _ _ _ hd)
      · injection h1 with h1
        rw [← h1]
        exact dictSet_nodup _ _ _ hd
    · injection h1 with h1; exact h1 ▸ hd

theorem keys_prepareDict {cfg : WriteConfig F} {items : Dict (PyVal F)} {delimiter : Str} {d d' : Dict (PyVal F)}
    (h : prepareDict cfg items delimiter d = .ok d') (hd : (d.map Prod.fst).Nodup) : (d'.map Prod.fst).Nodup := by
  unfold prepareDict at h
  obtain ⟨d1, h1, h2⟩ := ok_of_bind h
  have k1 := keys_applyOverrides _ _ _ h1 hd
  split at h2
  · obtain rfl | ⟨ncom, line, -, rfl⟩ := columnHeaders_cases h2
    · exact k1
    · exact dictSet_nodup _ _ _ (dictSet_nodup _ _ _ k1)
  · injection h2 with h2; exact h2 ▸ k1

/-! ### Only the files that are written matter -/

theorem splitGo_emit (emit : WriteCall F → Res Unit) (e : SplitEnv F) :
    ∀ (fuel : Nat) (s s' : SplitState F), splitGo (fun _ => .ok ()) e fuel s = (s', none) →
      s.written <+: s'.written ∧
      ((∀ c ∈ s'.written.drop s.written.length, emit c = .ok ()) → splitGo emit e fuel s = (s', none)) := by
  intro fuel
  induction fuel with
  | zero =>
    intro s s' h
    unfold splitGo at h ⊢
    split at h
    · cases h
    · injection h with h _
      subst h
      exact ⟨List.prefix_refl _, fun _ => by rw [if_neg (by assumption)]⟩
  | succ fuel ih =>
    intro s s' h
    unfold splitGo at h ⊢
    split at h
    · rename_i hlt
      rw [if_pos hlt]
      dsimp only at h ⊢
      unfold splitStep at h ⊢
      cases hf : splitFile e s with
      | error x => rw [hf] at h; cases h
      | ok p =>
        obtain ⟨c, stop⟩ := p
        rw [hf] at h
        dsimp only at h ⊢
        obtain ⟨⟨t, ht⟩, h2⟩ := ih _ _ h
        dsimp only at ht h2
        refine ⟨⟨c :: t, by rw [← ht]; simp⟩, fun hc => ?_⟩
        rw [← ht] at hc
        have e1 : emit c = .ok () := hc c (by simp)
        rw [e1]
        refine h2 (fun c' hc' => hc c' ?_)
        rw [← ht] at hc'
        simp only [List.drop_left] at hc'
        simp [hc']
    · injection h with h _
      subst h
      exact ⟨List.prefix_refl _, fun _ => by rw [if_neg (by assumption)]⟩

theorem writeSubsets_emit (emit : WriteCall F → Res Unit) {d : Dict (PyVal F)} {name : Str} {opts : WriteOpts}
    {n : Int} {s : SplitState F} (h : writeSubsets (fun _ => .ok ()) d name opts n = (s, none))
    (hc : ∀ c ∈ s.written, emit c = .ok ()) : writeSubsets emit d name opts n = (s, none) := by
  unfold writeSubsets at h ⊢
  dsimp only at h ⊢
  cases hi : splitInit d name opts n with
  | error x => rw [hi] at h; cases h
  | ok e =>
    rw [hi] at h
    exact (splitGo_emit emit e _ _ _ h).2 (fun c hm => hc c (List.mem_of_mem_drop hm))

/-! ### The objects of the parts -/

/-- The part with the block of `n` records from `a` on. -/
def part1001 (r : NA1001 F) (n : Nat) (nvol : Int) (a i : Nat) : NA1001 F :=
  { r with
    c := { r.c with IVOL := (i : Int) + 1, NVOL := nvol }
    X := (r.X.drop a).take n
    V := r.V.map (fun col => (col.drop a).take n) }

/-- The parts from `a` on. -/
def parts1001 (r : NA1001 F) (n : Nat) (nvol : Int) : Nat → Nat → Nat → List (NA1001 F)
  | 0, _, _ => []
  | fuel + 1, a, i =>
    if a < r.X.length then part1001 r n nvol a i :: parts1001 r n nvol fuel (min r.X.length (a + n)) (i + 1) else []

theorem part_wf {r : NA1001 F} (h : Wf1001 r) (n : Nat) (nvol : Int) (a i : Nat) : Wf1001 (part1001 r n nvol a i) where
  common := ⟨h.common.oname, h.common.org, h.common.sname, h.common.mname, h.common.date, h.common.rdate⟩
  ffi := h.ffi
  niv := h.niv
  dx := h.dx
  xname := h.xname
  xnames := h.xnames
  vars := h.vars
  com := h.com
  data := by
    refine ⟨by simpa [part1001] using h.data.1, fun col hc => ?_⟩
    simp only [part1001, List.mem_map] at hc
    obtain ⟨c, hc, rfl⟩ := hc
    simp [part1001, h.data.2 c hc]

theorem part_attrs (r : NA1001 F) (n : Nat) (nvol : Int) (a i : Nat) (kv : String × PyVal F)
    (h : kv ∈ (Obj.o1001 (part1001 r n nvol a i)).attrs []) :
    kv = ("X", pyNums ((r.X.drop a).take n)) ∨ kv = ("V", pyCols (r.V.map (fun col => (col.drop a).take n))) ∨
    kv = ("IVOL", .int ((i : Int) + 1)) ∨ kv = ("NVOL", .int nvol) ∨
    (kv ∈ (Obj.o1001 r).attrs [] ∧ kv.1 ∉ splitKeys) := by
  simp only [Obj.attrs, commonAttrs, varAttrs, comAttrs, part1001, List.mem_append, List.mem_cons, List.not_mem_nil,
    or_false] at h
  rcases h with (((h | h) | h) | h) | h
  · rcases h with h | h | h | h | h | h | h | h | h | h | h <;> subst h <;>
      simp [Obj.attrs, commonAttrs, splitKeys]
  · rcases h with h | h <;> subst h <;> simp [Obj.attrs, splitKeys]
  · rcases h with h | h | h | h <;> subst h <;> simp [Obj.attrs, varAttrs, splitKeys]
  · rcases h with h | h | h | h <;> subst h <;> simp [Obj.attrs, comAttrs, splitKeys]
  · rcases h with h | h | h <;> subst h <;> simp [Obj.attrs, splitKeys]

theorem part_describes {e : SplitEnv F} {r : NA1001 F} (hd : Describes e.dict (.o1001 r)) (n a i : Nat) :
    Describes (blockFile e (r.X.map .num) (r.V.map (fun col => col.map .num)) n a i).dict
      (.o1001 (part1001 r n e.nvol a i)) := by
  intro kv hkv hne
  rw [blockFile_get]
  have gX := hd ("X", pyNums r.X) (by simp [Obj.attrs]) (by simp)
  have gV := hd ("V", pyCols r.V) (by simp [Obj.attrs]) (by simp)
  have gI := hd ("IVOL", .int r.c.IVOL) (by simp [Obj.attrs, commonAttrs]) (by simp)
  have gN := hd ("NVOL", .int r.c.NVOL) (by simp [Obj.attrs, commonAttrs]) (by simp)
  rcases part_attrs r n e.nvol a i kv hkv with h | h | h | h | ⟨h, h3⟩
  · subst h
    simp only at gX ⊢
    rw [gX]
    simp [blockVal, pyNums, List.map_drop, List.map_take]
  · subst h
    simp only at gV ⊢
    rw [gV]
    simp [blockVal, pyCols, pyNums, List.map_drop, List.map_take, Function.comp_def]
  · subst h
    simp only at gI ⊢
    rw [gI]
    simp [blockVal]
  · subst h
    simp only at gN ⊢
    rw [gN]
    simp [blockVal]
  · rw [hd kv h hne]
    simp only [splitKeys, List.mem_cons, List.not_mem_nil, or_false, not_or] at h3
    simp [blockVal, h3]

theorem parts_files {e : SplitEnv F} {r : NA1001 F} (hd : Describes e.dict (.o1001 r)) (hw : Wf1001 r)
    (hl : e.len = r.X.length) (n : Nat) : ∀ fuel a i, List.Forall₂ (fun c p => Describes c.dict (.o1001 p) ∧ Wf1001 p)
      (blockFiles e (r.X.map .num) (r.V.map (fun col => col.map .num)) n fuel a i) (parts1001 r n e.nvol fuel a i)
  | 0, _, _ => .nil
  | fuel + 1, a, i => by
    unfold blockFiles parts1001
    rw [hl]
    split
    · refine .cons ⟨part_describes hd n a i, part_wf hw n e.nvol a i⟩ ?_
      have := parts_files hd hw hl n fuel (min r.X.length (a + n)) (i + 1)
      exact this
    · exact .nil

theorem parts_x (r : NA1001 F) (n : Nat) (nvol : Int) : ∀ fuel a i,
    (parts1001 r n nvol fuel a i).map NA1001.X = cuts r.X n fuel a
  | 0, _, _ => rfl
  | fuel + 1, a, i => by
    unfold parts1001 cuts
    split
    · rw [List.map_cons, parts_x r n nvol fuel]; rfl
    · rfl

theorem parts_v (r : NA1001 F) (n : Nat) (nvol : Int) {j : Nat} {col : List F} (hj : r.V[j]? = some col)
    (hl : col.length = r.X.length) : ∀ fuel a i,
    (parts1001 r n nvol fuel a i).map (fun p => p.V[j]?) = (cuts col n fuel a).map some
  | 0, _, _ => rfl
  | fuel + 1, a, i => by
    unfold parts1001 cuts
    rw [hl]
    split
    · rw [List.map_cons, List.map_cons, parts_v r n nvol hj hl fuel]
      simp [part1001, hj]
    · rfl

theorem parts_get (r : NA1001 F) (n : Nat) (nvol : Int) : ∀ fuel a i j p,
    (parts1001 r n nvol fuel a i)[j]? = some p → ∃ b, p = part1001 r n nvol b (i + j)
  | 0, _, _, _, _, h => by simp [parts1001] at h
  | fuel + 1, a, i, j, p, h => by
    unfold parts1001 at h
    split at h
    · cases j with
      | zero => simp at h; exact ⟨a, h.symm⟩
      | succ j =>
        rw [List.getElem?_cons_succ] at h
        obtain ⟨b, hb⟩ := parts_get r n nvol fuel _ _ _ _ h
        exact ⟨b, by rw [hb]; congr 1; omega⟩
    · simp at h

theorem cutInto_map {α β : Type} {n : Nat} {l : List α} {cs : List (List α)} (f : α → β) (h : CutInto n l cs) :
    CutInto n (l.map f) (cs.map (List.map f)) where
  whole := by rw [← List.map_flatten, h.whole]
  full := by
    intro c hc
    rw [← List.map_dropLast] at hc
    obtain ⟨c', hc', rfl⟩ := List.mem_map.1 hc
    rw [List.length_map, h.full c' hc']
  last := by
    intro c hc
    rw [List.getLast?_map] at hc
    simp only [Option.mem_def, Option.map_eq_some_iff] at hc
    obtain ⟨c', hc', rfl⟩ := hc
    rw [List.length_map]
    exact h.last c' hc'

/-- The parts as they are read. -/
theorem parts_of {r : NA1001 F} (hw : Wf1001 r) (q : F → F) {n : Nat} (hn : 1 ≤ n) {nvol : Int} {os : List (Obj F)}
    (hos : List.Forall₂ (fun p o => ∃ k, o = readForm q k (.o1001 p)) (parts1001 r n nvol r.X.length 0 0) os)
    (hv : nvol = os.length) : PartsOf q n (.o1001 r) os := by
  have hget : ∀ (i : Nat) o, os[i]? = some o → ∃ b k, o = readForm q k (.o1001 (part1001 r n nvol b i)) := by
    intro i o hi
    obtain ⟨hlt, rfl⟩ := List.getElem?_eq_some_iff.1 hi
    have hl := hos.length_eq
    obtain ⟨k, hk⟩ := (List.forall₂_iff_get.1 hos).2 i (by omega) hlt
    obtain ⟨b, hb⟩ := parts_get r n nvol r.X.length 0 0 i _ (List.getElem?_eq_getElem (by omega))
    refine ⟨b, k, ?_⟩
    simp only [List.get_eq_getElem] at hk
    rw [hk, hb, Nat.zero_add]
  have hmem : ∀ o ∈ os, ∃ b i k, o = readForm q k (.o1001 (part1001 r n nvol b i)) := by
    intro o ho
    obtain ⟨i, hi⟩ := List.mem_iff_getElem?.1 ho
    obtain ⟨b, k, h⟩ := hget i o hi
    exact ⟨b, i, k, h⟩
  refine ⟨?_, ?_, ?_, ?_, ?_, ?_⟩
  · intro p hp
    obtain ⟨b, i, k, rfl⟩ := hmem p hp
    rfl
  · have h1 : os.map markValues = (cuts r.X n r.X.length 0).map (List.map q) := by
      rw [← parts_x r n nvol _ 0 0]
      revert hos
      generalize parts1001 r n nvol r.X.length 0 0 = l
      intro hos
      clear hv hget hmem
      induction hos with
      | nil => rfl
      | cons h _ ih =>
        obtain ⟨k, rfl⟩ := h
        rw [List.map_cons, ih, readForm_marks]
        rfl
    rw [h1]
    have := cuts_spec r.X n hn r.X.length 0 (by omega) (by omega)
    rw [List.drop_zero] at this
    exact cutInto_map q this
  · intro j col hj
    have hj' : r.V[j]? = some col := hj
    have hl : col.length = r.X.length := hw.data.2 col (List.mem_of_getElem? hj')
    refine ⟨(cuts col n r.X.length 0).map (List.map q), ?_, ?_⟩
    · have := cuts_spec col n hn r.X.length 0 (by omega) (by omega)
      rw [List.drop_zero] at this
      exact cutInto_map q this
    · have h1 := parts_v r n nvol hj' hl r.X.length 0 0
      revert hos h1
      generalize parts1001 r n nvol r.X.length 0 0 = l
      generalize cuts col n r.X.length 0 = cs
      intro hos h1
      clear hv hget hmem
      induction hos generalizing cs with
      | nil =>
        cases cs with
        | nil => exact .nil
        | cons _ _ => simp at h1
      | @cons p o l' os' h _ ih =>
        cases cs with
        | nil => simp at h1
        | cons c cs =>
          rw [List.map_cons, List.map_cons] at h1
          obtain ⟨e1, e2⟩ := List.cons.inj h1
          obtain ⟨k, rfl⟩ := h
          refine .cons ?_ (ih cs e2)
          rw [readForm_main]
          simp [mainValues, e1]
  · intro p hp
    obtain ⟨b, i, k, rfl⟩ := hmem p hp
    rw [readForm_main]
    simp [mainValues, part1001]
  · intro p hp
    obtain ⟨b, i, k, rfl⟩ := hmem p hp
    rw [readForm_vars]
    rfl
  · intro i p hp
    obtain ⟨b, k, rfl⟩ := hget i p hp
    exact ⟨rfl, hv⟩

/-! ### All files of a run -/

theorem writeNAFilesGo_groups (emit : WriteCall F → Res Unit) (cfg : WriteConfig F) (items : Dict (PyVal F))
    (opts : WriteOpts) (P : Dict (PyVal F) → Dict (PyVal F) → List (WriteCall F) → Prop) :
    ∀ (l : List (Str × Dict (PyVal F))) (r : WriteResult F),
    (∀ nd ∈ l, ∃ d' names calls, prepareDict cfg items opts.delimiter nd.2 = .ok d' ∧
      writeOne emit opts nd.1 d' = (names, calls, none) ∧ P nd.2 d' calls) →
    ∃ r' groups, writeNAFilesGo emit cfg items opts l r = (r', none) ∧ r'.written = r.written ++ groups.flatten ∧
      List.Forall₂ (fun nd calls => ∃ d', prepareDict cfg items opts.delimiter nd.2 = .ok d' ∧ P nd.2 d' calls) l groups
  | [], r, _ => ⟨r, [], rfl, by simp, .nil⟩
  | (name, d) :: t, r, h => by
    obtain ⟨d', names, calls, h1, h2, h3⟩ := h (name, d) List.mem_cons_self
    obtain ⟨r', groups, e1, e2, e3⟩ := writeNAFilesGo_groups emit cfg items opts P t
      { fileList := r.fileList ++ names, written := r.written ++ calls, dicts := r.dicts ++ [d'] }
      (fun nd hnd => h nd (List.mem_cons_of_mem _ hnd))
    refine ⟨r', calls :: groups, ?_, ?_, .cons ⟨d', h1, h3⟩ e3⟩
    · rw [writeNAFilesGo]
      simp only [h1]
      have h2' : writeOne emit opts name d' = (names, calls, none) := h2
      rw [h2']
      exact e1
    · rw [e2]; simp

end Nappy
