import Verif.WriteSpec
import Verif.DataLemmas
import Verif.RT2160
import Verif.Spec.Annotation

/-! Lemmas on annotated output: every writer puts out the same pieces whatever the annotation table, each
with its mark in front. -/

namespace Nappy
open Nappy.Spec

variable {F : Type}

/-- Annotation table, `none` when annotation is off. -/
abbrev Tbl := Option (String → Str)

/-- The mark of an item. -/
def markOf (d : Str) (a : Tbl) (l : String × Option Nat) : Str :=
  match a with
  | none => []
  | some t => t l.1 ++ (match l.2 with | none => [] | some k => ' ' :: natStr k) ++ d

/-- Pieces of text with the items they belong to. -/
abbrev Pieces := List ((String × Option Nat) × Str)

/-- The text made of the pieces. -/
def render (d : Str) (a : Tbl) (ps : Pieces) : Str := concat (ps.map (fun p => markOf d a p.1 ++ p.2))

/-- One line. -/
def IsLine (s : Str) : Prop := ∃ t, s = t ++ ['\n'] ∧ '\n' ∉ t

/-- All pieces are lines. -/
def AllLines (ps : Pieces) : Prop := ∀ p ∈ ps, IsLine p.2

@[simp] theorem render_nil (d : Str) (a : Tbl) : render d a [] = [] := rfl

@[simp] theorem render_cons (d : Str) (a : Tbl) (p) (ps : Pieces) :
    render d a (p :: ps) = markOf d a p.1 ++ p.2 ++ render d a ps := rfl

theorem render_append (d : Str) (a : Tbl) (ps qs : Pieces) :
    render d a (ps ++ qs) = render d a ps ++ render d a qs := by
  simp [render, concat]

theorem allLines_append {ps qs : Pieces} (h1 : AllLines ps) (h2 : AllLines qs) : AllLines (ps ++ qs) := by
  intro p hp
  rcases List.mem_append.1 hp with h | h
  · exact h1 p h
  · exact h2 p h

theorem allLines_cons {p} {qs : Pieces} (h1 : IsLine p.2) (h2 : AllLines qs) : AllLines (p :: qs) := by
  intro x hp
  rcases List.mem_cons.1 hp with h | h
  · rw [h]; exact h1
  · exact h2 x h

theorem allLines_nil : AllLines [] := by intro p hp; cases hp

/-- Whatever the table, the function raises the same exception, or puts out the same pieces; under `H` they
are lines. -/
def Uni (d : Str) (f : Tbl → Res Str) (H : Prop) : Prop :=
  (∃ e, ∀ a, f a = .error e) ∨ ∃ ps, (H → AllLines ps) ∧ ∀ a, f a = .ok (render d a ps)

@[simp] theorem withAnn_delim (env : Env F) (a : Tbl) : (withAnn env a).delim = env.delim := rfl
@[simp] theorem withAnn_cd (env : Env F) (a : Tbl) : (withAnn env a).cd = env.cd := rfl
@[simp] theorem withAnn_ann (env : Env F) (a : Tbl) : (withAnn env a).ann = a := rfl

theorem getAnnotation_mark (env : Env F) (a : Tbl) (item : String) (c : Option Nat) :
    getAnnotation (withAnn env a) item c = markOf env.delim a (item, c) := by
  unfold getAnnotation markOf
  cases a <;> rfl

theorem wrapLine_mark (env : Env F) (a : Tbl) (item : String) (l : Str) (c : Option Nat) :
    wrapLine (withAnn env a) item l c = markOf env.delim a (item, c) ++ l := by
  unfold wrapLine
  rw [getAnnotation_mark]
  cases a <;> simp [markOf]

/-- Lines with running numbers. -/
def numbered (item : String) : Nat → List Str → Pieces
  | _, [] => []
  | k, l :: ls => ((item, some k), l) :: numbered item (k + 1) ls

theorem numbered_lines (item : String) (k : Nat) {ls : List Str} (h : ∀ l ∈ ls, IsLine l) :
    AllLines (numbered item k ls) := by
  induction ls generalizing k with
  | nil => exact allLines_nil
  | cons a t ih =>
    exact allLines_cons (h a (by simp)) (ih _ (fun l hl => h l (by simp [hl])))

theorem wrapLinesGo_render (env : Env F) (a : Tbl) (item : String) (k : Nat) (ls : List Str) :
    wrapLinesGo (withAnn env a) item k ls = render env.delim a (numbered item k ls) := by
  induction ls generalizing k with
  | nil => rfl
  | cons l t ih => rw [wrapLinesGo, wrapLine_mark, ih]; rfl

theorem wrapLines_render (env : Env F) (a : Tbl) (item : String) (s : Str) :
    wrapLines (withAnn env a) item s = render env.delim a (numbered item 1 (splitlinesKeep s)) :=
  wrapLinesGo_render env a item 1 _

theorem unbroken_no_nl {s : Str} (h : Unbroken s) : '\n' ∉ s := by
  intro hc
  exact absurd (h _ hc) (by decide)

theorem splitlinesKeep_line {s : Str} (h : Unbroken s) (rest : Str) :
    splitlinesKeep (s ++ '\n' :: rest) = (s ++ ['\n']) :: splitlinesKeep rest := by
  induction s with
  | nil =>
    rw [List.nil_append, splitlinesKeep]
    · rw [if_pos (by decide)]; rfl
    · simp
  | cons c t ih =>
    have hc := h c (by simp)
    have ht : Unbroken t := fun x hx => h x (by simp [hx])
    rw [List.cons_append, splitlinesKeep]
    · rw [if_neg (by simp [hc]), ih ht]; rfl
    · intro cs h1 _; rw [h1] at hc; exact absurd hc (by decide)

theorem splitlinesKeep_unlines {ls : List Str} (h : ∀ l ∈ ls, Unbroken l) :
    ∀ l ∈ splitlinesKeep (unlines ls), IsLine l := by
  induction ls with
  | nil => intro l hl; cases hl
  | cons a t ih =>
    rw [unlines_cons]
    intro l hl
    have e : splitlinesKeep (a ++ '\n' :: unlines t) = (a ++ ['\n']) :: splitlinesKeep (unlines t) :=
      splitlinesKeep_line (h a (by simp)) _
    rw [e] at hl
    rcases List.mem_cons.1 hl with h1 | h1
    · rw [h1]; exact ⟨a, rfl, unbroken_no_nl (h a (by simp))⟩
    · exact ih (fun l hl => h l (by simp [hl])) l h1

theorem isLine_snoc {t : Str} (h : '\n' ∉ t) : IsLine (t ++ ['\n']) := ⟨t, rfl, h⟩

theorem token_no_nl {t : Str} (h : Token t) : '\n' ∉ t := by
  intro hc
  exact absurd (h.2 _ hc).1 (by decide)

theorem join_no_nl {d : Str} (hd : '\n' ∉ d) {ls : List Str} (h : ∀ l ∈ ls, '\n' ∉ l) :
    '\n' ∉ join d ls := by
  induction ls with
  | nil => simp [join]
  | cons a t ih =>
    cases t with
    | nil => simpa [join] using h a (by simp)
    | cons b t =>
      have h1 := h a (by simp)
      have h2 := ih (fun l hl => h l (by simp [hl]))
      simp only [join, List.mem_append, not_or]
      exact ⟨⟨h1, hd⟩, h2⟩

theorem tmplSep_line {n : Int} {d : Str} {items : List Str} {s : Str} (h : tmplSep n d items = .ok s)
    (hd : '\n' ∉ d) (hi : ∀ i ∈ items, '\n' ∉ i) : IsLine s := by
  unfold tmplSep at h
  split at h
  · injection h with h; rw [← h]; exact isLine_snoc (join_no_nl hd hi)
  · cases h

theorem tmplRow_line {n : Int} {d : Str} {items : List Str} {s : Str} (h : tmplRow n d items = .ok s)
    (hd : '\n' ∉ d) (hi : ∀ i ∈ items, '\n' ∉ i) : IsLine s := by
  unfold tmplRow at h
  split at h
  · injection h with h; rw [← h]
    refine isLine_snoc ?_
    simp only [List.mem_flatten, List.mem_map, not_exists, not_and]
    rintro l ⟨i, hi', rfl⟩ hc
    rcases List.mem_append.1 hc with hc | hc
    · exact hi i hi' hc
    · exact hd hc
  · cases h

theorem tmplLines_unlines {n : Int} {items : List Str} {s : Str} (h : tmplLines n items = .ok s) :
    s = unlines items := by
  unfold tmplLines at h
  split at h
  · injection h with h; exact h.symm
  · cases h

theorem stripQuotes_mem {s r : Str} (h : stripQuotes s = .ok r) : ∀ c ∈ r, c ∈ s := by
  unfold stripQuotes at h
  split at h
  · cases h
  · rename_i c t
    dsimp only at h
    split at h
    · cases h
    · injection h with h
      intro x hx
      rw [← h] at hx
      have h1 : x ∈ (if isQuote c then t else c :: t) := by
        split at hx
        · exact List.dropLast_subset _ hx
        · exact hx
      split at h1
      · exact List.mem_cons_of_mem _ h1
      · exact h1

/-- What is needed of numbers and delimiter for lines to be lines. -/
structure LineEnv (env : Env F) : Prop where
  delim : '\n' ∉ env.delim
  sfmt : ∀ x, '\n' ∉ env.cd.sfmt x
  ffmt : ∀ x, '\n' ∉ env.cd.ffmt x
  visible : ∀ x, ∃ c ∈ env.cd.ffmt x, isSpace c = false ∧ c ≠ ','

theorem lineEnv_of_lawful {env : Env F} {q : F → F} (h : env.cd.Lawful q) (hd : '\n' ∉ env.delim) :
    LineEnv env := by
  refine ⟨hd, fun x => token_no_nl (h.sfmt_token x), ?_, ?_⟩
  · intro x hc
    obtain ⟨l, t, r, e, hl, hr, ht, _⟩ := h.ffmt_token x
    rw [e] at hc
    simp only [List.mem_append] at hc
    rcases hc with (hc | hc) | hc
    · exact absurd (hl _ hc) (by decide)
    · exact token_no_nl ht hc
    · exact absurd (hr _ hc) (by decide)
  · intro x
    obtain ⟨l, t, r, e, hl, hr, ht, _⟩ := h.ffmt_token x
    obtain ⟨hne, ht⟩ := ht
    cases t with
    | nil => exact absurd rfl hne
    | cons c t =>
      exact ⟨c, by rw [e]; simp, (ht c (by simp)).1, (ht c (by simp)).2.1⟩

theorem sfmts_no_nl {env : Env F} (h : LineEnv env) (xs : List F) : ∀ i ∈ xs.map env.cd.sfmt, '\n' ∉ i := by
  intro i hi
  obtain ⟨x, _, rfl⟩ := List.mem_map.1 hi
  exact h.sfmt x

theorem ints_no_nl (xs : List Int) : ∀ i ∈ xs.map intStr, '\n' ∉ i := by
  intro i hi
  obtain ⟨x, _, rfl⟩ := List.mem_map.1 hi
  exact intStr_no_nl x

theorem isLine_int (i : Int) : IsLine (intStr i ++ ['\n']) := isLine_snoc (intStr_no_nl i)

theorem isLine_twoInts {env : Env F} (h : '\n' ∉ env.delim) (a b : Int) : IsLine (twoInts env a b) := by
  refine isLine_snoc ?_
  simp [intStr_no_nl, h]

/-! ### Sections -/

theorem writeCommon_uni (env : Env F) (c : Common) :
    (∃ e, ∀ a, writeCommon (withAnn env a) c = .error e) ∨
    ∃ ps : Pieces, (LineEnv env → (∀ s ∈ [c.ONAME, c.ORG, c.SNAME, c.MNAME], Unbroken s) → AllLines ps) ∧
      ∀ a, writeCommon (withAnn env a) c
        = .ok (topLine (withAnn env a) c.NLHEAD c.FFI ++ render env.delim a ps) := by
  cases h1 : stripQuotes c.ONAME with
  | error e => exact Or.inl ⟨e, fun a => by simp [writeCommon, h1]⟩
  | ok oname =>
  cases h2 : stripQuotes c.ORG with
  | error e => exact Or.inl ⟨e, fun a => by simp [writeCommon, h1, h2]⟩
  | ok org =>
  cases h3 : stripQuotes c.SNAME with
  | error e => exact Or.inl ⟨e, fun a => by simp [writeCommon, h1, h2, h3]⟩
  | ok sname =>
  cases h4 : stripQuotes c.MNAME with
  | error e => exact Or.inl ⟨e, fun a => by simp [writeCommon, h1, h2, h3, h4]⟩
  | ok mname =>
  by_cases hd : ∃ d0 d1 d2 ds r0 r1 r2 rs, c.DATE = d0 :: d1 :: d2 :: ds ∧ c.RDATE = r0 :: r1 :: r2 :: rs
  · obtain ⟨d0, d1, d2, ds, r0, r1, r2, rs, hD, hR⟩ := hd
    right
    refine ⟨[(("ONAME", none), oname ++ ['\n']), (("ORG", none), org ++ ['\n']),
      (("SNAME", none), sname ++ ['\n']), (("MNAME", none), mname ++ ['\n']),
      (("IVOL_NVOL", none), twoInts env c.IVOL c.NVOL),
      (("DATE_RDATE", none), intStr d0 ++ [' '] ++ intStr d1 ++ [' '] ++ intStr d2 ++ env.delim ++
           intStr r0 ++ [' '] ++ intStr r1 ++ [' '] ++ intStr r2 ++ ['\n'])], ?_, ?_⟩
    · intro he hs
      have key : ∀ {s r : Str}, stripQuotes s = .ok r → Unbroken s → IsLine (r ++ ['\n']) :=
        fun h hu => isLine_snoc (fun hc => unbroken_no_nl hu (stripQuotes_mem h _ hc))
      refine allLines_cons (key h1 (hs _ (by simp))) (allLines_cons (key h2 (hs _ (by simp)))
        (allLines_cons (key h3 (hs _ (by simp))) (allLines_cons (key h4 (hs _ (by simp)))
        (allLines_cons (isLine_twoInts he.delim _ _) (allLines_cons (isLine_snoc ?_) allLines_nil)))))
      simp [intStr_no_nl, he.delim]
    · intro a
      simp [writeCommon, h1, h2, h3, h4, hD, hR, wrapLine_mark, getAnnotation_mark, topLine, twoInts]
  · left
    refine ⟨.index, fun a => ?_⟩
    simp only [writeCommon, h1, h2, h3, h4, ok_bind]
    split
    · rename_i d0 d1 d2 ds r0 r1 r2 rs hD hR
      exact absurd ⟨d0, d1, d2, ds, r0, r1, r2, rs, hD, hR⟩ hd
    · rfl

theorem writeVars_uni (env : Env F) (v : VarHdr F) :
    Uni env.delim (fun a => writeVars (withAnn env a) v) (LineEnv env ∧ ∀ s ∈ v.VNAME, Unbroken s) := by
  cases h1 : tmplSep v.NV env.delim (v.VSCAL.map env.cd.sfmt) with
  | error e => exact Or.inl ⟨e, fun a => by simp [writeVars, h1]⟩
  | ok vscal =>
  cases h2 : tmplSep v.NV env.delim (v.VMISS.map env.cd.sfmt) with
  | error e => exact Or.inl ⟨e, fun a => by simp [writeVars, h1, h2]⟩
  | ok vmiss =>
  cases h3 : tmplLines v.NV v.VNAME with
  | error e => exact Or.inl ⟨e, fun a => by simp [writeVars, h1, h2, h3]⟩
  | ok vname =>
    right
    refine ⟨[(("NV", none), intStr v.NV ++ ['\n']), (("VSCAL", none), vscal), (("VMISS", none), vmiss)]
      ++ numbered "VNAME" 1 (splitlinesKeep vname), ?_, ?_⟩
    · rintro ⟨he, hs⟩
      refine allLines_append (allLines_cons (isLine_int _) (allLines_cons
        (tmplSep_line h1 he.delim (sfmts_no_nl he _)) (allLines_cons
        (tmplSep_line h2 he.delim (sfmts_no_nl he _)) allLines_nil))) (numbered_lines _ _ ?_)
      rw [tmplLines_unlines h3]
      exact splitlinesKeep_unlines hs
    · intro a
      simp [writeVars, h1, h2, h3, wrapLine_mark, wrapLines_render]

theorem writeAux_uni (env : Env F) (v : AuxHdr F) :
    Uni env.delim (fun a => writeAux (withAnn env a) v) (LineEnv env ∧ ∀ s ∈ v.ANAME, Unbroken s) := by
  by_cases hn : v.NAUXV > 0
  · cases h1 : tmplSep v.NAUXV env.delim (v.ASCAL.map env.cd.sfmt) with
    | error e => exact Or.inl ⟨e, fun a => by simp [writeAux, hn, h1]⟩
    | ok vscal =>
    cases h2 : tmplSep v.NAUXV env.delim (v.AMISS.map env.cd.sfmt) with
    | error e => exact Or.inl ⟨e, fun a => by simp [writeAux, hn, h1, h2]⟩
    | ok vmiss =>
    cases h3 : tmplLines v.NAUXV v.ANAME with
    | error e => exact Or.inl ⟨e, fun a => by simp [writeAux, hn, h1, h2, h3]⟩
    | ok vname =>
      right
      refine ⟨[(("NAUXV", none), intStr v.NAUXV ++ ['\n']), (("ASCAL", none), vscal), (("AMISS", none), vmiss)]
        ++ numbered "ANAME" 1 (splitlinesKeep vname), ?_, ?_⟩
      · rintro ⟨he, hs⟩
        refine allLines_append (allLines_cons (isLine_int _) (allLines_cons
          (tmplSep_line h1 he.delim (sfmts_no_nl he _)) (allLines_cons
          (tmplSep_line h2 he.delim (sfmts_no_nl he _)) allLines_nil))) (numbered_lines _ _ ?_)
        rw [tmplLines_unlines h3]
        exact splitlinesKeep_unlines hs
      · intro a
        simp [writeAux, hn, h1, h2, h3, wrapLine_mark, wrapLines_render]
  · right
    refine ⟨[(("NAUXV", none), intStr v.NAUXV ++ ['\n'])],
      fun _ => allLines_cons (isLine_int _) allLines_nil, ?_⟩
    intro a
    simp [writeAux, hn, wrapLine_mark]

theorem writeComments_uni (env : Env F) (c : ComHdr) :
    Uni env.delim (fun a => writeComments (withAnn env a) c)
      (LineEnv env ∧ ∀ s ∈ c.SCOM ++ c.NCOM, Unbroken s) := by
  cases h1 : tmplLines c.NSCOML c.SCOM with
  | error e => exact Or.inl ⟨e, fun a => by simp [writeComments, h1]⟩
  | ok scom =>
  cases h2 : tmplLines c.NNCOML c.NCOM with
  | error e => exact Or.inl ⟨e, fun a => by simp [writeComments, h1, h2]⟩
  | ok ncom =>
    right
    refine ⟨[(("NSCOML", none), intStr c.NSCOML ++ ['\n'])] ++ (numbered "SCOM" 1 (splitlinesKeep scom)
      ++ ([(("NNCOML", none), intStr c.NNCOML ++ ['\n'])] ++ numbered "NCOM" 1 (splitlinesKeep ncom))), ?_, ?_⟩
    · rintro ⟨he, hs⟩
      refine allLines_append (allLines_cons (isLine_int _) allLines_nil) (allLines_append
        (numbered_lines _ _ ?_) (allLines_append (allLines_cons (isLine_int _) allLines_nil)
        (numbered_lines _ _ ?_)))
      · rw [tmplLines_unlines h1]
        exact splitlinesKeep_unlines (fun s h => hs s (by simp [h]))
      · rw [tmplLines_unlines h2]
        exact splitlinesKeep_unlines (fun s h => hs s (by simp [h]))
    · intro a
      simp [writeComments, h1, h2, wrapLine_mark, wrapLines_render, render_append]

theorem cellTexts_mem {l : List (Cell F)} {s : Str} (h : Cell.str s ∈ l) : s ∈ cellTexts l := by
  unfold cellTexts
  rw [List.mem_filterMap]
  exact ⟨.str s, h, rfl⟩

theorem cellStr_no_nl {env : Env F} (he : LineEnv env) {l : List (Cell F)}
    (hs : ∀ s ∈ cellTexts l, Unbroken s) : ∀ c ∈ l, '\n' ∉ cellStr env.cd c := by
  intro c hc
  cases c with
  | num x => exact he.sfmt x
  | str s => exact unbroken_no_nl (hs s (cellTexts_mem hc))

theorem lenaStr_no_nl (l : List (Option Int)) : ∀ i ∈ l.map lenaStr, '\n' ∉ i := by
  intro i hi
  obtain ⟨x, _, rfl⟩ := List.mem_map.1 hi
  cases x with
  | none => decide
  | some i => exact intStr_no_nl i

theorem sliceTo_mem {α : Type} {l : List α} {n : Int} {x : α} (h : x ∈ sliceTo l n) : x ∈ l := by
  unfold sliceTo at h
  split at h <;> exact List.mem_of_mem_take h

theorem sliceFrom_mem {α : Type} {l : List α} {n : Int} {x : α} (h : x ∈ sliceFrom l n) : x ∈ l := by
  unfold sliceFrom at h
  split at h <;> exact List.mem_of_mem_drop h

/-- The line breaks of the numbers themselves matter where the character values are split into lines. -/
theorem sfmt_unbroken_of_lawful {cd : Codec F} {q : F → F} (h : cd.Lawful q) (x : F) : Unbroken (cd.sfmt x) := by
  intro c hc
  have := ((h.sfmt_token x).2 c hc).1
  unfold isSpace at this
  unfold isLineBreak
  simp only [Bool.or_eq_false_iff, Bool.and_eq_false_iff, decide_eq_false_iff_not, beq_eq_false_iff_ne] at this ⊢
  omega

theorem writeCharAux_uni (env : Env F) (v : CharAuxHdr F) :
    Uni env.delim (fun a => writeCharAux (withAnn env a) v)
      (LineEnv env ∧ (∀ x, Unbroken (env.cd.sfmt x)) ∧ (∀ s ∈ v.ANAME, Unbroken s) ∧
        ∀ s ∈ cellTexts v.AMISS, Unbroken s) := by
  by_cases hn : v.NAUXV > 0
  · cases h1 : tmplSep (v.NAUXV - v.NAUXC) env.delim (v.ASCAL.map env.cd.sfmt) with
    | error e => exact Or.inl ⟨e, fun a => by simp [writeCharAux, hn, h1]⟩
    | ok ascal =>
    cases h2 : tmplSep (v.NAUXV - v.NAUXC) env.delim
        ((sliceTo v.AMISS (v.NAUXV - v.NAUXC)).map (cellStr env.cd)) with
    | error e => exact Or.inl ⟨e, fun a => by simp [writeCharAux, hn, h1, h2]⟩
    | ok amiss =>
    cases h3 : tmplSep v.NAUXC env.delim ((sliceFrom v.LENA (v.NAUXV - v.NAUXC)).map lenaStr) with
    | error e => exact Or.inl ⟨e, fun a => by simp [writeCharAux, hn, h1, h2, h3]⟩
    | ok lena =>
    cases h4 : tmplLines v.NAUXC ((sliceFrom v.AMISS (v.NAUXV - v.NAUXC)).map (cellStr env.cd)) with
    | error e => exact Or.inl ⟨e, fun a => by simp [writeCharAux, hn, h1, h2, h3, h4]⟩
    | ok amissc =>
    cases h5 : tmplLines v.NAUXV v.ANAME with
    | error e => exact Or.inl ⟨e, fun a => by simp [writeCharAux, hn, h1, h2, h3, h4, h5]⟩
    | ok aname =>
      right
      refine ⟨[(("NAUXV", none), intStr v.NAUXV ++ ['\n']), (("NAUXC", none), intStr v.NAUXC ++ ['\n']),
        (("ASCAL", none), ascal), (("AMISS", none), amiss), (("LENA", none), lena)]
        ++ (numbered "AMISS" 1 (splitlinesKeep amissc) ++ numbered "ANAME" 1 (splitlinesKeep aname)), ?_, ?_⟩
      · rintro ⟨he, hx, hs, hm⟩
        refine allLines_append (allLines_cons (isLine_int _) (allLines_cons (isLine_int _) (allLines_cons
          (tmplSep_line h1 he.delim (sfmts_no_nl he _)) (allLines_cons
          (tmplSep_line h2 he.delim ?_) (allLines_cons (tmplSep_line h3 he.delim (lenaStr_no_nl _))
          allLines_nil))))) (allLines_append (numbered_lines _ _ ?_) (numbered_lines _ _ ?_))
        · intro i hi
          obtain ⟨c, hc, rfl⟩ := List.mem_map.1 hi
          exact cellStr_no_nl he hm c (sliceTo_mem hc)
        · rw [tmplLines_unlines h4]
          refine splitlinesKeep_unlines ?_
          intro i hi
          obtain ⟨c, hc, rfl⟩ := List.mem_map.1 hi
          cases c with
          | num x => exact hx x
          | str s => exact hm s (cellTexts_mem (sliceFrom_mem hc))
        · rw [tmplLines_unlines h5]
          exact splitlinesKeep_unlines hs
      · intro a
        simp [writeCharAux, hn, h1, h2, h3, h4, h5, wrapLine_mark, wrapLines_render, render_append]
  · right
    refine ⟨[(("NAUXV", none), intStr v.NAUXV ++ ['\n']), (("NAUXC", none), intStr v.NAUXC ++ ['\n'])],
      fun _ => allLines_cons (isLine_int _) (allLines_cons (isLine_int _) allLines_nil), ?_⟩
    intro a
    simp [writeCharAux, hn, wrapLine_mark]

/-! ### Headers -/

/-- Annotations without line feeds. -/
def CleanTbl (a : Tbl) : Prop := ∀ t, a = some t → CleanTable t

theorem natStr_no_nl (k : Nat) : '\n' ∉ natStr k := by
  have := intStr_no_nl (k : Int)
  intro h
  exact this (by simpa [intStr] using h)

theorem markOf_no_nl {d : Str} (hd : '\n' ∉ d) {a : Tbl} (ha : CleanTbl a) (l) : '\n' ∉ markOf d a l := by
  unfold markOf
  cases a with
  | none => simp
  | some t =>
    have h1 := ha t rfl l.1
    rcases l with ⟨i, k⟩
    cases k with
    | none => simpa [hd] using h1
    | some k => simpa [hd, natStr_no_nl k] using h1

theorem render_count {d : Str} (hd : '\n' ∉ d) {a : Tbl} (ha : CleanTbl a) (ps : Pieces) :
    (render d a ps).count '\n' = (render d none ps).count '\n' := by
  induction ps with
  | nil => rfl
  | cons p t ih =>
    rw [render_cons, render_cons, List.count_append, List.count_append, List.count_append,
      List.count_append, ih, List.count_eq_zero.2 (markOf_no_nl hd ha p.1)]
    simp [markOf]

/-- The header with the right length in its first line. -/
def fixedPieces (env : Env F) (ffi : Int) (ps : Pieces) : Pieces :=
  (("NLHEAD_FFI", none), twoInts env (((render env.delim none ps).count '\n' : Nat) + 1) ffi) :: ps

theorem fix_render {env : Env F} (hd : '\n' ∉ env.delim) {a : Tbl} (ha : CleanTbl a) (n ffi : Int)
    {ps : Pieces} (he : EndsNL (render env.delim a ps)) :
    fixHeaderLength (withAnn env a) ffi (topLine (withAnn env a) n ffi ++ render env.delim a ps)
      = .ok (render env.delim a (fixedPieces env ffi ps)) := by
  rw [fixHeaderLength_top (env := withAnn env a) ⟨hd, fun t ht => ha t ht _⟩, readlines_length_count _ he, render_count hd ha]
  simp [fixedPieces, topLine, wrapLine_mark, twoInts]

theorem fixedPieces_lines {env : Env F} (hd : '\n' ∉ env.delim) (ffi : Int) {ps : Pieces}
    (h : AllLines ps) : AllLines (fixedPieces env ffi ps) :=
  allLines_cons (isLine_twoInts hd _ _) h

/-- `Uni` for headers: tables with line feeds are left out. -/
def UniH (d : Str) (f : Tbl → Res Str) (H : Prop) : Prop :=
  (∃ e, ∀ a, f a = .error e) ∨ ∃ ps, (H → AllLines ps) ∧ ∀ a, CleanTbl a → f a = .ok (render d a ps)

/-- Common header, more pieces, comments, and the length put right. -/
theorem header_uni {env : Env F} (hd : '\n' ∉ env.delim) {c : Common} {com : ComHdr} {H : Prop}
    {cps mid coms : Pieces}
    (h1 : H → AllLines cps) (h2 : H → AllLines mid) (h3 : H → AllLines coms)
    (hcom : ∀ a, writeComments (withAnn env a) com = .ok (render env.delim a coms))
    {f : Tbl → Res Str}
    (hf : ∀ a, f a = fixHeaderLength (withAnn env a) c.FFI
      ((topLine (withAnn env a) c.NLHEAD c.FFI ++ render env.delim a cps)
        ++ (render env.delim a mid ++ render env.delim a coms))) : UniH env.delim f H := by
  right
  refine ⟨fixedPieces env c.FFI (cps ++ (mid ++ coms)), ?_, ?_⟩
  · intro hH
    exact fixedPieces_lines hd _ (allLines_append (h1 hH) (allLines_append (h2 hH) (h3 hH)))
  · intro a ha
    rw [hf, ← render_append, List.append_assoc, ← render_append]
    refine fix_render hd ha _ _ ?_
    obtain ⟨t, ht⟩ := writeComments_snoc (hcom a)
    rw [render_append, render_append, ht]
    exact Or.inr ⟨render env.delim a cps ++ (render env.delim a mid ++ t), by simp⟩

/-- The strings of the header hold no line break. -/
def HdrTexts (c : Common) (xname : List Str) (v : VarHdr F) (com : ComHdr) : Prop :=
  ∀ s ∈ commonTexts c xname v com, Unbroken s

theorem HdrTexts.common {c : Common} {xname : List Str} {v : VarHdr F} {com : ComHdr}
    (h : HdrTexts c xname v com) : ∀ s ∈ [c.ONAME, c.ORG, c.SNAME, c.MNAME], Unbroken s :=
  fun s hs => h s (by unfold commonTexts; simp only [List.mem_append]; exact Or.inl (Or.inl (Or.inl (Or.inl hs))))

theorem HdrTexts.xname {c : Common} {xname : List Str} {v : VarHdr F} {com : ComHdr}
    (h : HdrTexts c xname v com) : ∀ s ∈ xname, Unbroken s :=
  fun s hs => h s (by unfold commonTexts; simp only [List.mem_append]; exact Or.inl (Or.inl (Or.inl (Or.inr hs))))

theorem HdrTexts.vname {c : Common} {xname : List Str} {v : VarHdr F} {com : ComHdr}
    (h : HdrTexts c xname v com) : ∀ s ∈ v.VNAME, Unbroken s :=
  fun s hs => h s (by unfold commonTexts; simp only [List.mem_append]; exact Or.inl (Or.inl (Or.inr hs)))

theorem HdrTexts.com {c : Common} {xname : List Str} {v : VarHdr F} {com : ComHdr}
    (h : HdrTexts c xname v com) : ∀ s ∈ com.SCOM ++ com.NCOM, Unbroken s := by
  intro s hs
  refine h s ?_
  unfold commonTexts
  simp only [List.mem_append] at hs ⊢
  rcases hs with hs | hs
  · exact Or.inl (Or.inr hs)
  · exact Or.inr hs

theorem tmplAnnLines_uni (env : Env F) (n : Int) (item : String) (items : List Str) :
    Uni env.delim (fun a => tmplAnnLines n (markOf env.delim a (item, none)) items)
      (∀ s ∈ items, Unbroken s) := by
  by_cases h : items.length = n.toNat
  · right
    refine ⟨items.map (fun i => ((item, none), i ++ ['\n'])), ?_, ?_⟩
    · intro hs p hp
      obtain ⟨i, hi, rfl⟩ := List.mem_map.1 hp
      exact isLine_snoc (unbroken_no_nl (hs i hi))
    · intro a
      simp only [tmplAnnLines, h, if_true]
      congr 1
      clear h
      induction items with
      | nil => rfl
      | cons x t ih => simp [ih]
  · exact Or.inl ⟨.type, fun a => by simp [tmplAnnLines, h]⟩

theorem header1001_uni {env : Env F} (hd : '\n' ∉ env.delim) (r : NA1001 F) :
    UniH env.delim (fun a => header1001 (withAnn env a) r)
      (LineEnv env ∧ HdrTexts r.c r.XNAME r.v r.com) := by
  rcases writeCommon_uni env r.c with ⟨e, h1⟩ | ⟨cps, hc1, h1⟩
  · exact Or.inl ⟨e, fun a => by simp [header1001, h1]⟩
  cases h2 : tmplRow r.NIV [] (r.DX.map env.cd.sfmt) with
  | error e => exact Or.inl ⟨e, fun a => by simp [header1001, h1, h2]⟩
  | ok dx =>
  rcases tmplAnnLines_uni env r.NIV "XNAME" r.XNAME with ⟨e, h3⟩ | ⟨xps, hc3, h3⟩
  · exact Or.inl ⟨e, fun a => by simp [header1001, getAnnotation_mark, h1, h2, h3 a]⟩
  rcases writeVars_uni env r.v with ⟨e, h4⟩ | ⟨vps, hc4, h4⟩
  · exact Or.inl ⟨e, fun a => by simp [header1001, getAnnotation_mark, h1, h2, h3 a, h4 a]⟩
  rcases writeComments_uni env r.com with ⟨e, h5⟩ | ⟨ops, hc5, h5⟩
  · exact Or.inl ⟨e, fun a => by simp [header1001, getAnnotation_mark, h1, h2, h3 a, h4 a, h5 a]⟩
  refine header_uni hd (c := r.c) (cps := cps) (mid := [(("DX", none), dx)] ++ (xps ++ vps)) (coms := ops)
    (fun H => hc1 H.1 H.2.common) (fun H => ?_) (fun H => hc5 ⟨H.1, H.2.com⟩) h5 ?_
  · exact allLines_append (allLines_cons (tmplRow_line h2 (by simp) (sfmts_no_nl H.1 _)) allLines_nil)
      (allLines_append (hc3 H.2.xname) (hc4 ⟨H.1, H.2.vname⟩))
  · intro a
    simp only [header1001, h1, withAnn_cd, h2, h3 a, h4 a, h5 a, ok_bind, getAnnotation_mark, render_append,
      render_cons, render_nil, List.append_assoc, List.append_nil, List.nil_append, List.cons_append]

theorem header1010_uni {env : Env F} (hd : '\n' ∉ env.delim) (r : NA1010 F) :
    UniH env.delim (fun a => header1010 (withAnn env a) r)
      (LineEnv env ∧ HdrTexts r.c r.XNAME r.v r.com ∧ ∀ s ∈ r.aux.ANAME, Unbroken s) := by
  rcases writeCommon_uni env r.c with ⟨e, h1⟩ | ⟨cps, hc1, h1⟩
  · exact Or.inl ⟨e, fun a => by simp [header1010, h1]⟩
  cases h2 : tmplRow r.NIV [' '] (r.DX.map env.cd.sfmt) with
  | error e => exact Or.inl ⟨e, fun a => by simp [header1010, h1, h2]⟩
  | ok dx =>
  cases h3 : tmplLines r.NIV r.XNAME with
  | error e => exact Or.inl ⟨e, fun a => by simp [header1010, h1, h2, h3]⟩
  | ok xname =>
  rcases writeVars_uni env r.v with ⟨e, h4⟩ | ⟨vps, hc4, h4⟩
  · exact Or.inl ⟨e, fun a => by simp [header1010, h1, h2, h3, h4 a]⟩
  rcases writeAux_uni env r.aux with ⟨e, h6⟩ | ⟨aps, hc6, h6⟩
  · exact Or.inl ⟨e, fun a => by simp [header1010, h1, h2, h3, h4 a, h6 a]⟩
  rcases writeComments_uni env r.com with ⟨e, h5⟩ | ⟨ops, hc5, h5⟩
  · exact Or.inl ⟨e, fun a => by simp [header1010, h1, h2, h3, h4 a, h6 a, h5 a]⟩
  refine header_uni hd (c := r.c) (cps := cps)
    (mid := [(("DX", none), dx)] ++ (numbered "XNAME" 1 (splitlinesKeep xname) ++ (vps ++ aps))) (coms := ops)
    (fun H => hc1 H.1 H.2.1.common) (fun H => ?_) (fun H => hc5 ⟨H.1, H.2.1.com⟩) h5 ?_
  · refine allLines_append (allLines_cons (tmplRow_line h2 (by decide) (sfmts_no_nl H.1 _)) allLines_nil)
      (allLines_append (numbered_lines _ _ ?_) (allLines_append (hc4 ⟨H.1, H.2.1.vname⟩) (hc6 ⟨H.1, H.2.2⟩)))
    rw [tmplLines_unlines h3]
    exact splitlinesKeep_unlines H.2.1.xname
  · intro a
    simp only [header1010, h1, withAnn_cd, h2, h3, h4 a, h5 a, h6 a, ok_bind, wrapLine_mark, wrapLines_render,
      render_append, render_cons, render_nil, List.append_assoc, List.append_nil, List.nil_append,
      List.cons_append]

theorem header1020_uni {env : Env F} (hd : '\n' ∉ env.delim) (r : NA1020 F) :
    UniH env.delim (fun a => header1020 (withAnn env a) r)
      (LineEnv env ∧ HdrTexts r.c r.XNAME r.v r.com ∧ (∀ s ∈ r.aux.ANAME, Unbroken s) ∧
        r.XNAME.length = 1) := by
  rcases writeCommon_uni env r.c with ⟨e, h1⟩ | ⟨cps, hc1, h1⟩
  · exact Or.inl ⟨e, fun a => by simp [header1020, h1]⟩
  cases h2 : tmplRow r.NIV [' '] (r.DX.map env.cd.sfmt) with
  | error e => exact Or.inl ⟨e, fun a => by simp [header1020, h1, h2]⟩
  | ok dx =>
  cases h3 : tmplLines r.NIV r.XNAME with
  | error e => exact Or.inl ⟨e, fun a => by simp [header1020, h1, h2, h3]⟩
  | ok xname =>
  rcases writeVars_uni env r.v with ⟨e, h4⟩ | ⟨vps, hc4, h4⟩
  · exact Or.inl ⟨e, fun a => by simp [header1020, h1, h2, h3, h4 a]⟩
  rcases writeAux_uni env r.aux with ⟨e, h6⟩ | ⟨aps, hc6, h6⟩
  · exact Or.inl ⟨e, fun a => by simp [header1020, h1, h2, h3, h4 a, h6 a]⟩
  rcases writeComments_uni env r.com with ⟨e, h5⟩ | ⟨ops, hc5, h5⟩
  · exact Or.inl ⟨e, fun a => by simp [header1020, h1, h2, h3, h4 a, h6 a, h5 a]⟩
  refine header_uni hd (c := r.c) (cps := cps)
    (mid := [(("DX", none), dx), (("NVPM", none), intStr r.NVPM ++ ['\n']), (("XNAME", none), xname)]
      ++ (vps ++ aps)) (coms := ops)
    (fun H => hc1 H.1 H.2.1.common) (fun H => ?_) (fun H => hc5 ⟨H.1, H.2.1.com⟩) h5 ?_
  · refine allLines_append (allLines_cons (tmplRow_line h2 (by decide) (sfmts_no_nl H.1 _))
      (allLines_cons (isLine_int _) (allLines_cons ?_ allLines_nil)))
      (allLines_append (hc4 ⟨H.1, H.2.1.vname⟩) (hc6 ⟨H.1, H.2.2.1⟩))
    have hx := H.2.1.xname
    obtain ⟨x, hx1⟩ := List.length_eq_one_iff.1 H.2.2.2
    dsimp only
    rw [tmplLines_unlines h3, hx1]
    rw [hx1] at hx
    simpa using isLine_snoc (unbroken_no_nl (hx x (by simp)))
  · intro a
    simp only [header1020, h1, withAnn_cd, h2, h3, h4 a, h5 a, h6 a, ok_bind, wrapLine_mark,
      render_append, render_cons, render_nil, List.append_assoc, List.append_nil, List.nil_append,
      List.cons_append]

theorem cell_withAnn (env : Env F) (a : Tbl) (x : F) : cell (withAnn env a) x = cell env x := rfl

theorem axisLine_withAnn (env : Env F) (a : Tbl) (n : Int) (x : List F) :
    axisLine (withAnn env a) n x = axisLine env n x := rfl

theorem rstripSC_no_nl {s : Str} (h : '\n' ∉ s) : '\n' ∉ rstripSC s := fun hc => h (mem_rstripSC hc)

theorem concat_no_nl {ls : List Str} (h : ∀ l ∈ ls, '\n' ∉ l) : '\n' ∉ concat ls := by
  intro hc
  obtain ⟨l, hl, hc⟩ := List.mem_flatten.1 hc
  exact h l hl hc

theorem cell_no_nl {env : Env F} (he : LineEnv env) (x : F) : '\n' ∉ cell env x := by
  simp [cell, he.delim, he.ffmt]

theorem lstrip_line {s : Str} (h : '\n' ∉ s) (hv : ∃ c ∈ s, isSpace c = false) : IsLine (lstrip (s ++ ['\n'])) := by
  induction s with
  | nil => obtain ⟨c, hc, _⟩ := hv; cases hc
  | cons a t ih =>
    unfold lstrip
    rw [List.cons_append, List.dropWhile_cons]
    split
    · refine ih (fun hc => h (by simp [hc])) ?_
      obtain ⟨c, hc, h1⟩ := hv
      rcases List.mem_cons.1 hc with hc | hc
      · rename_i hs _; rw [hc] at h1; rw [h1] at hs; cases hs
      · exact ⟨c, hc, h1⟩
    · exact ⟨a :: t, rfl, h⟩

theorem rstripSC_visible {s : Str} (hv : ∃ c ∈ s, isSpace c = false ∧ c ≠ ',') :
    ∃ c ∈ rstripSC s, isSpace c = false := by
  obtain ⟨c, hc, h1, h2⟩ := hv
  obtain ⟨suf, e, hs⟩ := rstripP_split (fun c => c == ' ' || c == ',') s
  refine ⟨c, ?_, h1⟩
  have hc' := hc
  rw [e] at hc'
  rcases List.mem_append.1 hc' with h | h
  · exact h
  · have := hs c h
    simp only [Bool.or_eq_true, beq_iff_eq] at this
    rcases this with rfl | rfl
    · exact absurd h1 (by decide)
    · exact absurd rfl h2

theorem axisLine_line {env : Env F} (he : LineEnv env) {n : Int} (hn : 1 ≤ n) {x : List F} {s : Str}
    (h : axisLine env n x = .ok s) : IsLine s := by
  unfold axisLine at h
  dsimp only at h
  split at h
  · rename_i hl
    injection h with h
    rw [← h]
    refine lstrip_line (rstripSC_no_nl (concat_no_nl ?_)) (rstripSC_visible ?_)
    · intro l hl
      obtain ⟨y, _, rfl⟩ := List.mem_map.1 hl
      exact cell_no_nl he y
    · cases hv : sliceTo x n with
      | nil => rw [hv] at hl; simp at hl; omega
      | cons y t =>
        obtain ⟨c, hc, h1⟩ := he.visible y
        exact ⟨c, by simp [cell, concat, hc], h1⟩
  · cases h

theorem axisLines_uni (env : Env F) (r : NA2010 F) :
    Uni env.delim (fun a => axisLines (withAnn env a) r) (LineEnv env ∧ ∀ n ∈ r.NXDEF, 1 ≤ n) := by
  cases h : mapRes (fun i => do
    let n ← idx r.NXDEF i
    let x ← idx r.XB i
    axisLine env n x) (List.range (r.NIV - 1).toNat) with
  | error e =>
    left
    refine ⟨e, fun a => ?_⟩
    simp only [axisLines, axisLine_withAnn, h, error_bind]
  | ok ls =>
    right
    refine ⟨ls.reverse.map (fun l => (("X", none), l)), ?_, ?_⟩
    · rintro ⟨he, hn⟩ p hp
      obtain ⟨l, hl, rfl⟩ := List.mem_map.1 hp
      obtain ⟨i, _, hi⟩ := mapRes_mem h (List.mem_reverse.1 hl)
      obtain ⟨n, h1, hi⟩ := ok_of_bind hi
      obtain ⟨x, h2, hi⟩ := ok_of_bind hi
      refine axisLine_line he (hn n ?_) hi
      unfold idx at h1
      split at h1
      · injection h1 with h1; rename_i h'; rw [← h1]; exact List.mem_of_getElem? h'
      · cases h1
    · intro a
      simp only [axisLines, axisLine_withAnn, h, ok_bind]
      congr 1
      simp [render, wrapLine_mark, concat, Function.comp_def]

theorem header2010Tail_uni {env : Env F} (hd : '\n' ∉ env.delim) (r : NA2010 F) {cps : Pieces}
    (hc1 : LineEnv env → HdrTexts r.c r.XNAME r.v r.com → AllLines cps) {dx : Str}
    (hdx : LineEnv env → IsLine dx) :
    UniH env.delim (fun a => header2010Tail (withAnn env a)
        (topLine (withAnn env a) r.c.NLHEAD r.c.FFI ++ render env.delim a cps) dx r)
      (LineEnv env ∧ HdrTexts r.c r.XNAME r.v r.com ∧ (∀ s ∈ r.aux.ANAME, Unbroken s) ∧
        ∀ n ∈ r.NXDEF, 1 ≤ n) := by
  cases h2 : tmplSep (r.NIV - 1) env.delim (r.NX.map intStr) with
  | error e => exact Or.inl ⟨e, fun a => by simp [header2010Tail, h2]⟩
  | ok nx =>
  cases h3 : tmplSep (r.NIV - 1) env.delim (r.NXDEF.reverse.map intStr) with
  | error e => exact Or.inl ⟨e, fun a => by simp only [header2010Tail, withAnn_delim, h2, h3, ok_bind, error_bind]⟩
  | ok nxdef =>
  rcases axisLines_uni env r with ⟨e, h7⟩ | ⟨xps, hc7, h7⟩
  · exact Or.inl ⟨e, fun a => by simp only [header2010Tail, withAnn_delim, h2, h3, h7 a, ok_bind, error_bind]⟩
  cases h8 : tmplLines r.NIV r.XNAME.reverse with
  | error e => exact Or.inl ⟨e, fun a => by
      simp only [header2010Tail, withAnn_delim, h2, h3, h7 a, h8, ok_bind, error_bind]⟩
  | ok xname =>
  rcases writeVars_uni env r.v with ⟨e, h4⟩ | ⟨vps, hc4, h4⟩
  · exact Or.inl ⟨e, fun a => by
      simp only [header2010Tail, withAnn_delim, h2, h3, h7 a, h8, h4 a, ok_bind, error_bind]⟩
  rcases writeAux_uni env r.aux with ⟨e, h6⟩ | ⟨aps, hc6, h6⟩
  · exact Or.inl ⟨e, fun a => by
      simp only [header2010Tail, withAnn_delim, h2, h3, h7 a, h8, h4 a, h6 a, ok_bind, error_bind]⟩
  rcases writeComments_uni env r.com with ⟨e, h5⟩ | ⟨ops, hc5, h5⟩
  · exact Or.inl ⟨e, fun a => by
      simp only [header2010Tail, withAnn_delim, h2, h3, h7 a, h8, h4 a, h6 a, h5 a, ok_bind, error_bind]⟩
  refine header_uni hd (c := r.c) (cps := cps)
    (mid := [(("DX", none), dx), (("NX", none), nx), (("NXDEF", none), nxdef)]
      ++ (xps ++ (numbered "XNAME" 1 (splitlinesKeep xname) ++ (vps ++ aps)))) (coms := ops)
    (fun H => hc1 H.1 H.2.1) (fun H => ?_) (fun H => hc5 ⟨H.1, H.2.1.com⟩) h5 ?_
  · refine allLines_append (allLines_cons (hdx H.1) (allLines_cons
      (tmplSep_line h2 hd (ints_no_nl _)) (allLines_cons (tmplSep_line h3 hd (ints_no_nl _)) allLines_nil)))
      (allLines_append (hc7 ⟨H.1, H.2.2.2⟩) (allLines_append (numbered_lines _ _ ?_)
        (allLines_append (hc4 ⟨H.1, H.2.1.vname⟩) (hc6 ⟨H.1, H.2.2.1⟩))))
    rw [tmplLines_unlines h8]
    exact splitlinesKeep_unlines (fun s hs => H.2.1.xname s (List.mem_reverse.1 hs))
  · intro a
    simp only [header2010Tail, withAnn_delim, h2, h3, h4 a, h5 a, h6 a, h7 a, h8, ok_bind, wrapLine_mark,
      wrapLines_render, render_append, render_cons, render_nil, List.append_assoc, List.append_nil,
      List.nil_append, List.cons_append]

theorem header2010_uni {env : Env F} (hd : '\n' ∉ env.delim) (r : NA2010 F) :
    (∀ a, (header2010 (withAnn env a) r).1 = (header2010 (withAnn env none) r).1) ∧
    UniH env.delim (fun a => (header2010 (withAnn env a) r).2)
      (LineEnv env ∧ HdrTexts r.c r.XNAME r.v r.com ∧ (∀ s ∈ r.aux.ANAME, Unbroken s) ∧
        ∀ n ∈ r.NXDEF, 1 ≤ n) := by
  rcases writeCommon_uni env r.c with ⟨e, h1⟩ | ⟨cps, hc1, h1⟩
  · exact ⟨fun a => by simp only [header2010, h1], Or.inl ⟨e, fun a => by simp only [header2010, h1]⟩⟩
  cases h2 : tmplSep r.NIV env.delim (r.DX.reverse.map env.cd.sfmt) with
  | error e =>
    exact ⟨fun a => by simp only [header2010, h1, withAnn_delim, withAnn_cd, h2],
      Or.inl ⟨e, fun a => by simp only [header2010, h1, withAnn_delim, withAnn_cd, h2]⟩⟩
  | ok dx =>
    refine ⟨fun a => by simp only [header2010, h1, withAnn_delim, withAnn_cd, h2], ?_⟩
    have := header2010Tail_uni hd { r with DX := r.DX.reverse, NX := r.NX.reverse } (cps := cps)
      (fun he hs => hc1 he hs.common) (dx := dx) (fun he => tmplSep_line h2 hd (sfmts_no_nl he _))
    simpa only [header2010, h1, withAnn_delim, withAnn_cd, h2] using this

theorem header2110Tail_uni {env : Env F} (hd : '\n' ∉ env.delim) (r : NA2110 F) {cps : Pieces}
    (hc1 : LineEnv env → HdrTexts r.c r.XNAME r.v r.com → AllLines cps) {dx : Str}
    (hdx : LineEnv env → IsLine dx) :
    UniH env.delim (fun a => header2110Tail (withAnn env a)
        (topLine (withAnn env a) r.c.NLHEAD r.c.FFI ++ render env.delim a cps) dx r)
      (LineEnv env ∧ HdrTexts r.c r.XNAME r.v r.com ∧ (∀ s ∈ r.aux.ANAME, Unbroken s)) := by
  cases h8 : tmplLines r.NIV r.XNAME with
  | error e => exact Or.inl ⟨e, fun a => by simp only [header2110Tail, h8, error_bind]⟩
  | ok xname =>
  rcases writeVars_uni env r.v with ⟨e, h4⟩ | ⟨vps, hc4, h4⟩
  · exact Or.inl ⟨e, fun a => by simp only [header2110Tail, h8, h4 a, ok_bind, error_bind]⟩
  rcases writeAux_uni env r.aux with ⟨e, h6⟩ | ⟨aps, hc6, h6⟩
  · exact Or.inl ⟨e, fun a => by simp only [header2110Tail, h8, h4 a, h6 a, ok_bind, error_bind]⟩
  rcases writeComments_uni env r.com with ⟨e, h5⟩ | ⟨ops, hc5, h5⟩
  · exact Or.inl ⟨e, fun a => by simp only [header2110Tail, h8, h4 a, h6 a, h5 a, ok_bind, error_bind]⟩
  refine header_uni hd (c := r.c) (cps := cps)
    (mid := [(("DX", none), dx)] ++ (numbered "XNAME" 1 (splitlinesKeep xname) ++ (vps ++ aps))) (coms := ops)
    (fun H => hc1 H.1 H.2.1) (fun H => ?_) (fun H => hc5 ⟨H.1, H.2.1.com⟩) h5 ?_
  · refine allLines_append (allLines_cons (hdx H.1) allLines_nil) (allLines_append (numbered_lines _ _ ?_)
        (allLines_append (hc4 ⟨H.1, H.2.1.vname⟩) (hc6 ⟨H.1, H.2.2⟩)))
    rw [tmplLines_unlines h8]
    exact splitlinesKeep_unlines H.2.1.xname
  · intro a
    simp only [header2110Tail, h4 a, h5 a, h6 a, h8, ok_bind, wrapLine_mark,
      wrapLines_render, render_append, render_cons, render_nil, List.append_assoc, List.append_nil,
      List.nil_append, List.cons_append]

theorem hdrTexts_reverse {c : Common} {x : List Str} {v : VarHdr F} {com : ComHdr} :
    HdrTexts c x.reverse v com ↔ HdrTexts c x v com := by
  unfold HdrTexts commonTexts
  simp [List.mem_append]

theorem UniH.imp {d : Str} {f : Tbl → Res Str} {H H' : Prop} (h : UniH d f H) (hi : H' → H) : UniH d f H' := by
  rcases h with h | ⟨ps, h1, h2⟩
  · exact Or.inl h
  · exact Or.inr ⟨ps, fun h => h1 (hi h), h2⟩

theorem header2110_uni {env : Env F} (hd : '\n' ∉ env.delim) (r : NA2110 F) :
    (∀ a, (header2110 (withAnn env a) r).1 = (header2110 (withAnn env none) r).1) ∧
    UniH env.delim (fun a => (header2110 (withAnn env a) r).2)
      (LineEnv env ∧ HdrTexts r.c r.XNAME r.v r.com ∧ (∀ s ∈ r.aux.ANAME, Unbroken s)) := by
  rcases writeCommon_uni env r.c with ⟨e, h1⟩ | ⟨cps, hc1, h1⟩
  · exact ⟨fun a => by simp only [header2110, h1], Or.inl ⟨e, fun a => by simp only [header2110, h1]⟩⟩
  cases h2 : tmplSep r.NIV env.delim (r.DX.reverse.map env.cd.sfmt) with
  | error e =>
    exact ⟨fun a => by simp only [header2110, h1, withAnn_delim, withAnn_cd, h2],
      Or.inl ⟨e, fun a => by simp only [header2110, h1, withAnn_delim, withAnn_cd, h2]⟩⟩
  | ok dx =>
    refine ⟨fun a => by simp only [header2110, h1, withAnn_delim, withAnn_cd, h2], ?_⟩
    have := header2110Tail_uni hd { r with DX := r.DX.reverse, XNAME := r.XNAME.reverse } (cps := cps)
      (fun he hs => hc1 he hs.common) (dx := dx) (fun he => tmplSep_line h2 hd (sfmts_no_nl he _))
    refine UniH.imp (H := LineEnv env ∧ HdrTexts r.c r.XNAME.reverse r.v r.com ∧
      (∀ s ∈ r.aux.ANAME, Unbroken s)) ?_ (fun h => ⟨h.1, hdrTexts_reverse.2 h.2.1, h.2.2⟩)
    simpa only [header2110, h1, withAnn_delim, withAnn_cd, h2] using this

theorem header2310_uni {env : Env F} (hd : '\n' ∉ env.delim) (r : NA2110 F) :
    (∀ a, (header2310 (withAnn env a) r).1 = (header2310 (withAnn env none) r).1) ∧
    UniH env.delim (fun a => (header2310 (withAnn env a) r).2)
      (LineEnv env ∧ HdrTexts r.c r.XNAME r.v r.com ∧ (∀ s ∈ r.aux.ANAME, Unbroken s)) := by
  rcases writeCommon_uni env r.c with ⟨e, h1⟩ | ⟨cps, hc1, h1⟩
  · exact ⟨fun a => by simp only [header2310, h1], Or.inl ⟨e, fun a => by simp only [header2310, h1]⟩⟩
  cases h2 : idx r.DX 0 with
  | error e =>
    exact ⟨fun a => by simp only [header2310, h1, h2],
      Or.inl ⟨e, fun a => by simp only [header2310, h1, h2]⟩⟩
  | ok dx =>
    refine ⟨fun a => by simp only [header2310, h1, h2], ?_⟩
    have := header2110Tail_uni hd { r with XNAME := r.XNAME.reverse } (cps := cps)
      (fun he hs => hc1 he hs.common) (dx := env.cd.sfmt dx ++ ['\n']) (fun he => isLine_snoc (he.sfmt dx))
    refine UniH.imp (H := LineEnv env ∧ HdrTexts r.c r.XNAME.reverse r.v r.com ∧
      (∀ s ∈ r.aux.ANAME, Unbroken s)) ?_ (fun h => ⟨h.1, hdrTexts_reverse.2 h.2.1, h.2.2⟩)
    simpa only [header2310, h1, withAnn_cd, h2] using this

theorem header2160Tail_uni {env : Env F} (hd : '\n' ∉ env.delim) (r : NA2160 F) {cps : Pieces}
    (hc1 : LineEnv env → HdrTexts r.c r.XNAME r.v r.com → AllLines cps) {dx : Str}
    (hdx : LineEnv env → IsLine dx) :
    UniH env.delim (fun a => header2160Tail (withAnn env a)
        (topLine (withAnn env a) r.c.NLHEAD r.c.FFI ++ render env.delim a cps) dx r)
      (LineEnv env ∧ HdrTexts r.c r.XNAME r.v r.com ∧ (∀ x, Unbroken (env.cd.sfmt x)) ∧
        (∀ s ∈ r.aux.ANAME, Unbroken s) ∧ ∀ s ∈ cellTexts r.aux.AMISS, Unbroken s) := by
  cases h8 : tmplLines r.NIV r.XNAME with
  | error e => exact Or.inl ⟨e, fun a => by simp only [header2160Tail, h8, error_bind]⟩
  | ok xname =>
  rcases writeVars_uni env r.v with ⟨e, h4⟩ | ⟨vps, hc4, h4⟩
  · exact Or.inl ⟨e, fun a => by simp only [header2160Tail, h8, h4 a, ok_bind, error_bind]⟩
  rcases writeCharAux_uni env r.aux with ⟨e, h6⟩ | ⟨aps, hc6, h6⟩
  · exact Or.inl ⟨e, fun a => by simp only [header2160Tail, h8, h4 a, h6 a, ok_bind, error_bind]⟩
  rcases writeComments_uni env r.com with ⟨e, h5⟩ | ⟨ops, hc5, h5⟩
  · exact Or.inl ⟨e, fun a => by simp only [header2160Tail, h8, h4 a, h6 a, h5 a, ok_bind, error_bind]⟩
  refine header_uni hd (c := r.c) (cps := cps)
    (mid := [(("DX", none), dx), (("LENX", none), env.cd.sfmt r.LENX ++ ['\n'])]
      ++ (numbered "XNAME" 1 (splitlinesKeep xname) ++ (vps ++ aps))) (coms := ops)
    (fun H => hc1 H.1 H.2.1) (fun H => ?_) (fun H => hc5 ⟨H.1, H.2.1.com⟩) h5 ?_
  · refine allLines_append (allLines_cons (hdx H.1) (allLines_cons (isLine_snoc (H.1.sfmt _)) allLines_nil))
      (allLines_append (numbered_lines _ _ ?_)
        (allLines_append (hc4 ⟨H.1, H.2.1.vname⟩) (hc6 ⟨H.1, H.2.2⟩)))
    rw [tmplLines_unlines h8]
    exact splitlinesKeep_unlines H.2.1.xname
  · intro a
    simp only [header2160Tail, h4 a, h5 a, h6 a, h8, ok_bind, wrapLine_mark, withAnn_cd,
      wrapLines_render, render_append, render_cons, render_nil, List.append_assoc, List.append_nil,
      List.nil_append, List.cons_append]

theorem header2160_uni {env : Env F} (hd : '\n' ∉ env.delim) (r : NA2160 F) :
    (∀ a, (header2160 (withAnn env a) r).1 = (header2160 (withAnn env none) r).1) ∧
    UniH env.delim (fun a => (header2160 (withAnn env a) r).2)
      (LineEnv env ∧ HdrTexts r.c r.XNAME r.v r.com ∧ (∀ x, Unbroken (env.cd.sfmt x)) ∧
        (∀ s ∈ r.aux.ANAME, Unbroken s) ∧ ∀ s ∈ cellTexts r.aux.AMISS, Unbroken s) := by
  rcases writeCommon_uni env r.c with ⟨e, h1⟩ | ⟨cps, hc1, h1⟩
  · exact ⟨fun a => by simp only [header2160, h1], Or.inl ⟨e, fun a => by simp only [header2160, h1]⟩⟩
  by_cases hx : ∃ x, r.DX.reverse = [x]
  · obtain ⟨x, hx⟩ := hx
    refine ⟨fun a => by simp only [header2160, h1, hx], ?_⟩
    have := header2160Tail_uni hd { r with DX := r.DX.reverse, XNAME := r.XNAME.reverse } (cps := cps)
      (fun he hs => hc1 he hs.common) (dx := env.cd.sfmt x ++ ['\n']) (fun he => isLine_snoc (he.sfmt x))
    refine UniH.imp (H := LineEnv env ∧ HdrTexts r.c r.XNAME.reverse r.v r.com ∧
      (∀ x, Unbroken (env.cd.sfmt x)) ∧
        (∀ s ∈ r.aux.ANAME, Unbroken s) ∧ ∀ s ∈ cellTexts r.aux.AMISS, Unbroken s) ?_
        (fun h => ⟨h.1, hdrTexts_reverse.2 h.2.1, h.2.2⟩)
    rw [hx] at this
    simpa only [header2160, h1, withAnn_cd, hx] using this
  · have key : ∀ a, header2160 (withAnn env a) r = ({ r with DX := r.DX.reverse }, .error .type) := by
      intro a
      simp only [header2160, h1]
      split
      · rename_i x h; exact absurd ⟨x, h⟩ hx
      · rfl
    exact ⟨fun a => by rw [key, key], Or.inl ⟨.type, fun a => congrArg Prod.snd (key a)⟩⟩

/-! ### Data rows -/

/-- The mark of a data line. -/
def dataMark (d : Str) (a : Tbl) : Str := markOf d a ("Data", none)

/-- Put a text in front of a computed line. -/
def markRes (m : Str) : Res Str → Res Str
  | .ok s => .ok (m ++ s)
  | .error e => .error e

/-- The rows with a table are the plain rows with the mark in front. -/
def Marked (d : Str) (a : Tbl) (rows plain : List (Res Str)) : Prop := rows = plain.map (markRes (dataMark d a))

theorem dataLine_mark (env : Env F) (a : Tbl) (s : Str) :
    dataLine (withAnn env a) s = dataMark env.delim a ++ dataLine (withAnn env none) s := by
  simp [dataLine, wrapLine_mark, dataMark, markOf]

theorem markRes_bind {α : Type} (m : Str) (x : Res α) (f g : α → Res Str) (h : ∀ y, f y = markRes m (g y)) :
    (x >>= f) = markRes m (x >>= g) := by
  cases x with
  | error e => rfl
  | ok y => exact h y

theorem cells_withAnn (env : Env F) (a : Tbl) (cols : List (List F)) (m : Nat) :
    cells (withAnn env a) cols m = cells env cols m := rfl

theorem markRow_mark (env : Env F) (a : Tbl) (n : Int) (A : List (List F)) (x : F) (m : Nat) :
    markRow (withAnn env a) n A x m = markRes (dataMark env.delim a) (markRow (withAnn env none) n A x m) := by
  unfold markRow
  refine markRes_bind _ _ _ _ (fun y => ?_)
  simp only [cells_withAnn, cell_withAnn]
  refine markRes_bind _ _ _ _ (fun z => ?_)
  rw [dataLine_mark]; rfl

theorem map_mapIdx_flatten {α : Type} (l : List α) (f g : Nat → α → List (Res Str)) (k : Res Str → Res Str)
    (h : ∀ i x, f i x = (g i x).map k) : (l.mapIdx f).flatten = ((l.mapIdx g).flatten).map k := by
  rw [List.map_flatten]
  congr 1
  apply List.ext_getElem?
  intro i
  simp only [List.getElem?_mapIdx, List.getElem?_map, Option.map_map]
  congr 1
  funext x
  exact h i x

theorem rows1001_marked (env : Env F) (a : Tbl) (r : NA1001 F) :
    Marked env.delim a (rows1001 (withAnn env a) r) (rows1001 (withAnn env none) r) := by
  unfold Marked rows1001
  apply List.ext_getElem?
  intro i
  simp only [List.getElem?_mapIdx, List.getElem?_map, Option.map_map]
  congr 1
  funext x
  simp only [Function.comp]
  unfold row1001
  refine markRes_bind _ _ _ _ (fun y => ?_)
  simp only [cells_withAnn, cell_withAnn]
  refine markRes_bind _ _ _ _ (fun z => ?_)
  rw [dataLine_mark]; rfl

theorem rows1010_marked (env : Env F) (a : Tbl) (r : NA1010 F) :
    Marked env.delim a (rows1010 (withAnn env a) r) (rows1010 (withAnn env none) r) := by
  refine map_mapIdx_flatten _ _ _ _ (fun m x => ?_)
  simp only [List.map_cons, List.map_nil, markRow_mark env a]
  congr 2
  unfold varRow
  refine markRes_bind _ _ _ _ (fun y => ?_)
  simp only [cells_withAnn]
  refine markRes_bind _ _ _ _ (fun z => ?_)
  rw [dataLine_mark]; rfl

theorem rows1020_marked (env : Env F) (a : Tbl) (r : NA1020 F) :
    Marked env.delim a (rows1020 (withAnn env a) r) (rows1020 (withAnn env none) r) := by
  refine map_mapIdx_flatten _ _ _ _ (fun m x => ?_)
  simp only [List.map_cons, List.map_map, markRow_mark env a]
  congr 1
  apply List.map_congr_left
  intro n _
  simp only [Function.comp]
  unfold blockRow
  refine markRes_bind _ _ _ _ (fun y => ?_)
  rw [dataLine_mark]; rfl

theorem varLines2010_mark (env : Env F) (a : Tbl) (nx : List Int) (V : List (List (Tree F))) (n m : Nat) :
    varLines2010 (withAnn env a) nx V n m
      = (varLines2010 (withAnn env none) nx V n m).map (markRes (dataMark env.delim a)) := by
  unfold varLines2010
  simp only [withAnn_cd, withAnn_delim]
  split
  · rfl
  · simp [wrapLine_mark, markRes, dataMark, markOf]

theorem rows2010_marked (env : Env F) (a : Tbl) (r : NA2010 F) :
    Marked env.delim a (rows2010 (withAnn env a) r) (rows2010 (withAnn env none) r) := by
  refine map_mapIdx_flatten _ _ _ _ (fun m x => ?_)
  simp only [List.map_cons, markRow_mark env a, List.map_flatten, List.map_map]
  congr 2
  apply List.map_congr_left
  intro n _
  exact varLines2010_mark env a r.NX r.V n m

theorem raggedRows_mark (env : Env F) (a : Tbl) (nv : Int) (NX : List Int) (V : List (List (List F)))
    (xs : List F) (m : Nat) : raggedRows (withAnn env a) nv NX V xs m
      = (raggedRows (withAnn env none) nv NX V xs m).map (markRes (dataMark env.delim a)) := by
  unfold raggedRows
  split
  · rfl
  · rw [List.map_map]
    apply List.map_congr_left
    intro p _
    simp only [Function.comp]
    unfold raggedRow
    refine markRes_bind _ _ _ _ (fun y => ?_)
    refine markRes_bind _ _ _ _ (fun z => ?_)
    simp only [cell_withAnn]
    refine markRes_bind _ _ _ _ (fun z => ?_)
    rw [dataLine_mark]; rfl

theorem rows2110_marked (env : Env F) (a : Tbl) (r : NA2110 F) :
    Marked env.delim a (rows2110 (withAnn env a) r) (rows2110 (withAnn env none) r) := by
  refine map_mapIdx_flatten _ _ _ _ (fun m x => ?_)
  simp only [List.map_cons, markRow_mark env a, raggedRows_mark env a]

theorem rows2310_marked (env : Env F) (a : Tbl) (r : NA2110 F) :
    Marked env.delim a (rows2310 (withAnn env a) r) (rows2310 (withAnn env none) r) := by
  refine map_mapIdx_flatten _ _ _ _ (fun m x => ?_)
  simp only [List.map_cons, List.map_nil, markRow_mark env a]
  congr 2
  unfold implRow
  refine markRes_bind _ _ _ _ (fun y => ?_)
  refine markRes_bind _ _ _ _ (fun z => ?_)
  rw [dataLine_mark]; rfl

theorem numCell_withAnn (env : Env F) (a : Tbl) (c : Cell F) : numCell (withAnn env a) c = numCell env c := by
  cases c <;> rfl

theorem rows2160_marked (env : Env F) (a : Tbl) (r : NA2160 F) :
    Marked env.delim a (rows2160 (withAnn env a) r) (rows2160 (withAnn env none) r) := by
  refine map_mapIdx_flatten _ _ _ _ (fun m x => ?_)
  simp only [List.map_cons, List.map_append, List.map_map, raggedRows_mark env a]
  refine congr (congrArg _ ?_) (congr (congrArg _ ?_) (congrArg₂ _ ?_ rfl))
  · rw [dataLine_mark]; rfl
  · unfold numAuxRow
    simp only [numCell_withAnn]
    refine markRes_bind _ _ _ _ (fun y => ?_)
    rw [dataLine_mark]; rfl
  · apply List.map_congr_left
    intro n _
    simp only [Function.comp]
    unfold charAuxRow
    refine markRes_bind _ _ _ _ (fun y => ?_)
    refine markRes_bind _ _ _ _ (fun z => ?_)
    rw [dataLine_mark]; rfl

theorem ofRows_marked (m : Str) (rows : List (Res Str)) :
    Out.ofRows (rows.map (markRes m)) =
      { writes := (Out.ofRows rows).writes.map (m ++ ·), err := (Out.ofRows rows).err } := by
  induction rows with
  | nil => rfl
  | cons x t ih =>
    cases x with
    | error e => rfl
    | ok s => simp [markRes, Out.ofRows, ih]

/-! ### Data rows are lines -/

/-- Every line computed is a line. -/
def RowsLine (rows : List (Res Str)) : Prop := ∀ l, .ok l ∈ rows → IsLine l

theorem rowsLine_nil : RowsLine [] := by intro l hl; cases hl

theorem rowsLine_cons {a : Res Str} {b : List (Res Str)} (ha : ∀ l, a = .ok l → IsLine l)
    (hb : RowsLine b) : RowsLine (a :: b) := by
  intro l hl
  rcases List.mem_cons.1 hl with h | h
  · exact ha l h.symm
  · exact hb l h

theorem rowsLine_append {a b : List (Res Str)} (ha : RowsLine a) (hb : RowsLine b) : RowsLine (a ++ b) := by
  intro l hl
  rcases List.mem_append.1 hl with h | h
  · exact ha l h
  · exact hb l h

theorem rowsLine_map {α : Type} (xs : List α) (f : α → Res Str)
    (h : ∀ a ∈ xs, ∀ l, f a = .ok l → IsLine l) : RowsLine (xs.map f) := by
  intro l hl
  obtain ⟨a, ha, hfa⟩ := List.mem_map.1 hl
  exact h a ha l hfa

theorem rowsLine_flatten {bs : List (List (Res Str))} (h : ∀ b ∈ bs, RowsLine b) : RowsLine bs.flatten := by
  intro l hl
  obtain ⟨b, hb, hl⟩ := List.mem_flatten.1 hl
  exact h b hb l hl

theorem rowsLine_mapIdx {α : Type} (xs : List α) (f : Nat → α → List (Res Str))
    (h : ∀ i, ∀ a ∈ xs, RowsLine (f i a)) : RowsLine (xs.mapIdx f).flatten := by
  refine rowsLine_flatten ?_
  intro b hb
  obtain ⟨i, hi, rfl⟩ := List.mem_mapIdx.1 hb
  exact h _ _ (List.getElem_mem hi)

theorem isLine_dataLine {env : Env F} {s : Str} (h : '\n' ∉ s) : IsLine (dataLine (withAnn env none) s) := by
  simp only [dataLine, wrapLine_mark, markOf, List.nil_append]
  exact isLine_snoc (rstripSC_no_nl h)

theorem mapRes_no_nl {α : Type} {f : α → Res Str} {l : List α} {r : List Str} (h : mapRes f l = .ok r)
    (hf : ∀ a s, f a = .ok s → '\n' ∉ s) : '\n' ∉ concat r := by
  refine concat_no_nl ?_
  intro s hs
  obtain ⟨a, _, ha⟩ := mapRes_mem h hs
  exact hf a s ha

theorem cells_no_nl {env : Env F} (he : LineEnv env) {cols : List (List F)} {m : Nat} {s : Str}
    (h : cells env cols m = .ok s) : '\n' ∉ s := by
  unfold cells at h
  obtain ⟨cs, h1, h⟩ := ok_of_bind h
  injection h with h
  rw [← h]
  refine mapRes_no_nl h1 ?_
  intro a s hs
  obtain ⟨x, _, hs⟩ := ok_of_bind hs
  injection hs with hs
  rw [← hs]
  exact cell_no_nl he x

theorem append_no_nl {a b : Str} (h1 : '\n' ∉ a) (h2 : '\n' ∉ b) : '\n' ∉ a ++ b := by
  simp [h1, h2]

theorem markRow_line {env : Env F} (he : LineEnv env) {n : Int} {A : List (List F)} {x : F} {m : Nat} {l : Str}
    (h : markRow (withAnn env none) n A x m = .ok l) : IsLine l := by
  unfold markRow at h
  obtain ⟨_, _, h⟩ := ok_of_bind h
  obtain ⟨cs, h1, h⟩ := ok_of_bind h
  injection h with h; rw [← h]
  exact isLine_dataLine (append_no_nl (cell_no_nl he x) (cells_no_nl he h1))

theorem rows1001_line {env : Env F} (he : LineEnv env) (r : NA1001 F) :
    RowsLine (rows1001 (withAnn env none) r) := by
  intro l hl
  obtain ⟨i, hi, h⟩ := List.mem_mapIdx.1 hl
  unfold row1001 at h
  obtain ⟨_, _, h⟩ := ok_of_bind h
  obtain ⟨_, h1, h⟩ := ok_of_bind h
  injection h with h; rw [← h]
  exact isLine_dataLine (append_no_nl (cell_no_nl he _) (cells_no_nl he h1))

theorem rows1010_line {env : Env F} (he : LineEnv env) (r : NA1010 F) :
    RowsLine (rows1010 (withAnn env none) r) := by
  refine rowsLine_mapIdx _ _ ?_
  intro i a _
  refine rowsLine_cons (fun l h => markRow_line he h) (rowsLine_cons ?_ rowsLine_nil)
  intro l h
  unfold varRow at h
  obtain ⟨_, _, h⟩ := ok_of_bind h
  obtain ⟨_, h1, h⟩ := ok_of_bind h
  injection h with h; rw [← h]
  exact isLine_dataLine (cells_no_nl he h1)

theorem rows1020_line {env : Env F} (he : LineEnv env) (r : NA1020 F) :
    RowsLine (rows1020 (withAnn env none) r) := by
  refine rowsLine_mapIdx _ _ ?_
  intro i a _
  refine rowsLine_cons (fun l h => markRow_line he h) (rowsLine_map _ _ ?_)
  intro n _ l h
  unfold blockRow at h
  obtain ⟨cs, h1, h⟩ := ok_of_bind h
  injection h with h; rw [← h]
  refine isLine_dataLine (mapRes_no_nl h1 ?_)
  intro a s hs
  obtain ⟨_, _, hs⟩ := ok_of_bind hs
  obtain ⟨x, _, hs⟩ := ok_of_bind hs
  injection hs with hs
  rw [← hs]
  exact cell_no_nl he x

theorem writeLines_line {env : Env F} (he : LineEnv env) (dims : List Nat) (t : Tree F) (ls : List Str)
    (h : writeLines env.cd env.delim dims t = .ok ls) : ∀ l ∈ ls, IsLine l := by
  induction dims generalizing t ls with
  | nil => cases h
  | cons d ds ih =>
    cases ds with
    | nil =>
      rw [writeLines] at h
      obtain ⟨cs, h1, h⟩ := ok_of_bind h
      injection h with h
      intro l hl
      rw [← h, List.mem_singleton] at hl
      rw [hl]
      refine isLine_snoc (rstripSC_no_nl (mapRes_no_nl h1 ?_))
      intro a s hs
      obtain ⟨x, _, hs⟩ := ok_of_bind hs
      cases x with
      | lst _ => cases hs
      | val x =>
        injection hs with hs
        rw [← hs]
        exact cell_no_nl he x
    | cons d2 ds =>
      rw [writeLines] at h
      obtain ⟨cs, h1, h⟩ := ok_of_bind h
      injection h with h
      intro l hl
      rw [← h] at hl
      obtain ⟨b, hb, hl⟩ := List.mem_flatten.1 hl
      obtain ⟨i, _, hi⟩ := mapRes_mem h1 hb
      obtain ⟨x, _, hi⟩ := ok_of_bind hi
      exact ih x b hi l hl

theorem rows2010_line {env : Env F} (he : LineEnv env) (r : NA2010 F) :
    RowsLine (rows2010 (withAnn env none) r) := by
  refine rowsLine_mapIdx _ _ ?_
  intro i a _
  refine rowsLine_cons (fun l h => markRow_line he h) (rowsLine_flatten ?_)
  intro b hb
  obtain ⟨n, _, rfl⟩ := List.mem_map.1 hb
  unfold varLines2010
  dsimp only
  split
  · intro l hl; cases hl with | tail _ h => cases h
  · rename_i ls hls
    refine rowsLine_map _ _ ?_
    intro l hl s hs
    injection hs with hs
    rw [← hs, wrapLine_mark]
    simp only [markOf, List.nil_append]
    obtain ⟨_, _, hls⟩ := ok_of_bind hls
    obtain ⟨t, _, hls⟩ := ok_of_bind hls
    exact writeLines_line he _ t ls hls l hl

theorem raggedRows_line {env : Env F} (he : LineEnv env) (nv : Int) (NX : List Int) (V : List (List (List F)))
    (xs : List F) (m : Nat) : RowsLine (raggedRows (withAnn env none) nv NX V xs m) := by
  unfold raggedRows
  split
  · intro l hl; cases hl with | tail _ h => cases h
  · refine rowsLine_map _ _ ?_
    intro p _ l h
    unfold raggedRow at h
    obtain ⟨_, _, h⟩ := ok_of_bind h
    obtain ⟨_, _, h⟩ := ok_of_bind h
    obtain ⟨cs, h1, h⟩ := ok_of_bind h
    injection h with h; rw [← h]
    refine isLine_dataLine (append_no_nl (cell_no_nl he _) (mapRes_no_nl h1 ?_))
    intro a s hs
    obtain ⟨_, _, hs⟩ := ok_of_bind hs
    obtain ⟨x, _, hs⟩ := ok_of_bind hs
    injection hs with hs
    rw [← hs]
    exact cell_no_nl he x

theorem rows2110_line {env : Env F} (he : LineEnv env) (r : NA2110 F) :
    RowsLine (rows2110 (withAnn env none) r) := by
  refine rowsLine_mapIdx _ _ ?_
  intro i a _
  exact rowsLine_cons (fun l h => markRow_line he h) (raggedRows_line he _ _ _ _ _)

theorem rows2310_line {env : Env F} (he : LineEnv env) (r : NA2110 F) :
    RowsLine (rows2310 (withAnn env none) r) := by
  refine rowsLine_mapIdx _ _ ?_
  intro i a _
  refine rowsLine_cons (fun l h => markRow_line he h) (rowsLine_cons ?_ rowsLine_nil)
  intro l h
  unfold implRow at h
  obtain ⟨_, _, h⟩ := ok_of_bind h
  obtain ⟨cs, h1, h⟩ := ok_of_bind h
  injection h with h; rw [← h]
  refine isLine_dataLine (mapRes_no_nl h1 ?_)
  intro a s hs
  obtain ⟨_, _, hs⟩ := ok_of_bind hs
  obtain ⟨ds, h2, hs⟩ := ok_of_bind hs
  injection hs with hs
  rw [← hs]
  refine mapRes_no_nl h2 ?_
  intro a s hs
  obtain ⟨_, _, hs⟩ := ok_of_bind hs
  obtain ⟨x, _, hs⟩ := ok_of_bind hs
  injection hs with hs
  rw [← hs]
  exact cell_no_nl he x

theorem idx_mem {α : Type} {l : List α} {i : Nat} {x : α} (h : idx l i = .ok x) : x ∈ l := by
  unfold idx at h
  split at h
  · injection h with h; rename_i h'; rw [← h]; exact List.mem_of_getElem? h'
  · cases h

theorem idxI_mem {α : Type} {l : List α} {i : Int} {x : α} (h : idxI l i = .ok x) : x ∈ l := by
  unfold idxI at h
  split at h
  · exact idx_mem h
  · split at h
    · exact idx_mem h
    · cases h

theorem rows2160_line {env : Env F} (he : LineEnv env) (r : NA2160 F)
    (hx : ∀ s ∈ r.X.map (fun x => x.1), Unbroken s) (hA : ∀ s ∈ (r.A.map cellTexts).flatten, Unbroken s) :
    RowsLine (rows2160 (withAnn env none) r) := by
  refine rowsLine_mapIdx _ _ ?_
  intro i a ha
  refine rowsLine_cons ?_ (rowsLine_cons ?_ (rowsLine_append (rowsLine_map _ _ ?_) (raggedRows_line he _ _ _ _ _)))
  · intro l h
    injection h with h
    rw [← h]
    exact isLine_dataLine (unbroken_no_nl (hx _ (List.mem_map_of_mem ha)))
  · intro l h
    unfold numAuxRow at h
    obtain ⟨cs, h1, h⟩ := ok_of_bind h
    injection h with h; rw [← h]
    refine isLine_dataLine (mapRes_no_nl h1 ?_)
    intro a s hs
    obtain ⟨_, _, hs⟩ := ok_of_bind hs
    obtain ⟨x, _, hs⟩ := ok_of_bind hs
    cases x with
    | str _ => cases hs
    | num x =>
      injection hs with hs
      rw [← hs]
      exact cell_no_nl he x
  · intro n _ l h
    unfold charAuxRow at h
    obtain ⟨col, h1, h⟩ := ok_of_bind h
    obtain ⟨x, h2, h⟩ := ok_of_bind h
    injection h with h; rw [← h]
    refine isLine_dataLine (append_no_nl ?_ he.delim)
    refine cellStr_no_nl he (l := col) ?_ x (idx_mem h2)
    intro s hs
    exact hA s (List.mem_flatten.2 ⟨_, List.mem_map_of_mem (idxI_mem h1), hs⟩)

/-! ### Whole writes -/

theorem cleanTbl_none : CleanTbl none := by intro t h; cases h

theorem ofRows_uni {d : Str} {R : Tbl → List (Res Str)} (hR : ∀ a, Marked d a (R a) (R none)) {H : Prop}
    (hl : H → RowsLine (R none)) :
    ∃ ps : Pieces, (H → AllLines ps) ∧ ∀ a,
      (Out.ofRows (R a)).err = (Out.ofRows (R none)).err ∧ (Out.ofRows (R a)).text = render d a ps := by
  refine ⟨(Out.ofRows (R none)).writes.map (fun s => (("Data", none), s)), ?_, ?_⟩
  · intro h p hp
    obtain ⟨s, hs, rfl⟩ := List.mem_map.1 hp
    exact hl h s (ofRows_mem hs)
  · intro a
    have h := hR a
    unfold Marked at h
    constructor
    · rw [h, ofRows_marked]
    · rw [h, ofRows_marked]
      simp [Out.text, render, dataMark, Function.comp_def]

theorem seq_uni {d : Str} {f : Tbl → Res Str} {H H' : Prop} (hf : UniH d f H)
    {R : Tbl → List (Res Str)} (hR : ∀ a, Marked d a (R a) (R none))
    (hl : H' → RowsLine (R none)) :
    ∃ ps : Pieces, (H ∧ H' → AllLines ps) ∧ ∀ a, CleanTbl a →
      ((Out.one (f a)).seq (Out.ofRows (R a))).err = ((Out.one (f none)).seq (Out.ofRows (R none))).err ∧
      ((Out.one (f a)).seq (Out.ofRows (R a))).text = render d a ps := by
  obtain ⟨qs, hq1, hq2⟩ := ofRows_uni hR hl
  rcases hf with ⟨e, he⟩ | ⟨ps, h1, h2⟩
  · refine ⟨[], fun _ => allLines_nil, fun a _ => ?_⟩
    rw [he, he]
    exact ⟨rfl, rfl⟩
  · refine ⟨ps ++ qs, fun h => allLines_append (h1 h.1) (hq1 h.2), fun a ha => ?_⟩
    rw [h2 a ha, h2 none cleanTbl_none]
    refine ⟨(hq2 a).1, ?_⟩
    rw [render_append, ← (hq2 a).2]
    simp [Out.text, Out.one, Out.seq, concat]

theorem write2010_eq (env : Env F) (r : NA2010 F) :
    write2010 env false r =
      match (header2010 env r).2 with
      | .error e => ((header2010 env r).1, { writes := [], err := some e })
      | .ok h =>
        ({ (header2010 env r).1 with NX := (header2010 env r).1.NX.reverse },
          (Out.one (.ok h)).seq (Out.ofRows (rows2010 env
            { (header2010 env r).1 with NX := (header2010 env r).1.NX.reverse }))) := by
  rcases h : header2010 env r with ⟨r1, e | s⟩ <;> simp [write2010, h]

theorem write2110_eq (env : Env F) (r : NA2110 F) :
    write2110 env false r =
      ((header2110 env r).1, (Out.one (header2110 env r).2).seq (Out.ofRows (rows2110 env (header2110 env r).1))) := by
  rcases h : header2110 env r with ⟨r1, e | s⟩ <;> simp [write2110, h, Out.one, Out.seq]

theorem write2310_eq (env : Env F) (r : NA2110 F) :
    write2310 env false r =
      ((header2310 env r).1, (Out.one (header2310 env r).2).seq (Out.ofRows (rows2310 env (header2310 env r).1))) := by
  rcases h : header2310 env r with ⟨r1, e | s⟩ <;> simp [write2310, h, Out.one, Out.seq]

theorem write2160_eq (env : Env F) (r : NA2160 F) :
    write2160 env false r =
      ((header2160 env r).1, ({ writes := ignoredWrites r.ignored, err := none } : Out).seq
        ((Out.one (header2160 env r).2).seq (Out.ofRows (rows2160 env (header2160 env r).1)))) := by
  rcases h : header2160 env r with ⟨r1, e | s⟩ <;> simp [write2160, h, Out.one, Out.seq]

/-- What the writes with all tables have in common. -/
def UniW (env : Env F) (w : Tbl → Out) (H : Prop) : Prop :=
  ∃ ps : Pieces, (H → AllLines ps) ∧ ∀ a, CleanTbl a → (w a).err = (w none).err ∧
    (w a).text = render env.delim a ps

theorem header2160_X {env : Env F} {r : NA2160 F} :
    (header2160 env r).1.X = r.X ∧ (header2160 env r).1.A = r.A := by
  unfold header2160
  dsimp only
  split
  · exact ⟨rfl, rfl⟩
  · split <;> exact ⟨rfl, rfl⟩

theorem write1001_uni {env : Env F} (hd : '\n' ∉ env.delim) (nh : Bool) (r : NA1001 F) :
    UniW env (fun a => write1001 (withAnn env a) nh r)
      ((LineEnv env ∧ HdrTexts r.c r.XNAME r.v r.com) ∧ LineEnv env) := by
  cases nh with
  | true =>
    obtain ⟨ps, h1, h2⟩ := ofRows_uni (R := fun a => rows1001 (withAnn env a) r) (rows1001_marked env · r)
      (H := LineEnv env) (fun h => rows1001_line h r)
    exact ⟨ps, fun h => h1 h.2, fun a _ => h2 a⟩
  | false =>
    exact seq_uni (header1001_uni hd r) (R := fun a => rows1001 (withAnn env a) r) (rows1001_marked env · r)
      (fun h => rows1001_line h r)

theorem write1010_uni {env : Env F} (hd : '\n' ∉ env.delim) (nh : Bool) (r : NA1010 F) :
    UniW env (fun a => write1010 (withAnn env a) nh r)
      ((LineEnv env ∧ HdrTexts r.c r.XNAME r.v r.com ∧ ∀ s ∈ r.aux.ANAME, Unbroken s) ∧ LineEnv env) := by
  cases nh with
  | true =>
    obtain ⟨ps, h1, h2⟩ := ofRows_uni (R := fun a => rows1010 (withAnn env a) r) (rows1010_marked env · r)
      (H := LineEnv env) (fun h => rows1010_line h r)
    exact ⟨ps, fun h => h1 h.2, fun a _ => h2 a⟩
  | false =>
    exact seq_uni (header1010_uni hd r) (R := fun a => rows1010 (withAnn env a) r) (rows1010_marked env · r)
      (fun h => rows1010_line h r)

theorem write1020_uni {env : Env F} (hd : '\n' ∉ env.delim) (nh : Bool) (r : NA1020 F) :
    UniW env (fun a => write1020 (withAnn env a) nh r)
      ((LineEnv env ∧ HdrTexts r.c r.XNAME r.v r.com ∧ (∀ s ∈ r.aux.ANAME, Unbroken s) ∧
        r.XNAME.length = 1) ∧ LineEnv env) := by
  cases nh with
  | true =>
    obtain ⟨ps, h1, h2⟩ := ofRows_uni (R := fun a => rows1020 (withAnn env a) r) (rows1020_marked env · r)
      (H := LineEnv env) (fun h => rows1020_line h r)
    exact ⟨ps, fun h => h1 h.2, fun a _ => h2 a⟩
  | false =>
    exact seq_uni (header1020_uni hd r) (R := fun a => rows1020 (withAnn env a) r) (rows1020_marked env · r)
      (fun h => rows1020_line h r)

theorem write2010_uni {env : Env F} (hd : '\n' ∉ env.delim) (nh : Bool) (r : NA2010 F) :
    (∀ a, CleanTbl a → (write2010 (withAnn env a) nh r).1 = (write2010 (withAnn env none) nh r).1) ∧
    UniW env (fun a => (write2010 (withAnn env a) nh r).2)
      ((LineEnv env ∧ HdrTexts r.c r.XNAME r.v r.com ∧ (∀ s ∈ r.aux.ANAME, Unbroken s) ∧
        ∀ n ∈ r.NXDEF, 1 ≤ n) ∧ LineEnv env) := by
  cases nh with
  | true =>
    refine ⟨fun a _ => rfl, ?_⟩
    obtain ⟨ps, h1, h2⟩ := ofRows_uni
      (R := fun a => rows2010 (withAnn env a) { r with NX := r.NX.reverse })
      (rows2010_marked env · _) (H := LineEnv env) (fun h => rows2010_line h _)
    exact ⟨ps, fun h => h1 h.2, fun a _ => h2 a⟩
  | false =>
    obtain ⟨h1, h2⟩ := header2010_uni hd r
    rcases h2 with ⟨e, he⟩ | ⟨ps, hl, hp⟩
    · have he : ∀ a, (header2010 (withAnn env a) r).2 = .error e := he
      refine ⟨fun a _ => ?_, [], fun _ => allLines_nil, fun a _ => ?_⟩
      · rw [write2010_eq, write2010_eq, he a, he none]; exact h1 a
      · dsimp only
        rw [write2010_eq, write2010_eq, he a, he none]; exact ⟨rfl, rfl⟩
    · have hp : ∀ a, CleanTbl a → (header2010 (withAnn env a) r).2 = .ok (render env.delim a ps) := hp
      refine ⟨fun a ha => ?_, ?_⟩
      · rw [write2010_eq, write2010_eq, hp a ha, hp none cleanTbl_none]; simp only [h1 a]
      · obtain ⟨qs, hq1, hq2⟩ := seq_uni (Or.inr ⟨ps, hl, hp⟩)
          (R := fun a => rows2010 (withAnn env a)
            { (header2010 (withAnn env none) r).1 with NX := (header2010 (withAnn env none) r).1.NX.reverse })
          (rows2010_marked env · _) (H' := LineEnv env) (fun h => rows2010_line h _)
        refine ⟨qs, hq1, fun a ha => ?_⟩
        have hq := hq2 a ha
        dsimp only at hq ⊢
        rw [hp a ha, hp none cleanTbl_none] at hq
        rw [write2010_eq, write2010_eq, hp a ha, hp none cleanTbl_none]
        simp only [h1 a]
        exact hq

theorem write2110_uni {env : Env F} (hd : '\n' ∉ env.delim) (nh : Bool) (r : NA2110 F) :
    (∀ a, CleanTbl a → (write2110 (withAnn env a) nh r).1 = (write2110 (withAnn env none) nh r).1) ∧
    UniW env (fun a => (write2110 (withAnn env a) nh r).2)
      ((LineEnv env ∧ HdrTexts r.c r.XNAME r.v r.com ∧ (∀ s ∈ r.aux.ANAME, Unbroken s)) ∧ LineEnv env) := by
  cases nh with
  | true =>
    refine ⟨fun a _ => rfl, ?_⟩
    obtain ⟨ps, h1, h2⟩ := ofRows_uni
      (R := fun a => rows2110 (withAnn env a) r)
      (rows2110_marked env · _) (H := LineEnv env) (fun h => rows2110_line h _)
    exact ⟨ps, fun h => h1 h.2, fun a _ => h2 a⟩
  | false =>
    obtain ⟨h1, h2⟩ := header2110_uni hd r
    refine ⟨fun a _ => by rw [write2110_eq, write2110_eq]; exact h1 a, ?_⟩
    obtain ⟨qs, hq1, hq2⟩ := seq_uni h2
      (R := fun a => rows2110 (withAnn env a) (header2110 (withAnn env none) r).1)
      (rows2110_marked env · _) (H' := LineEnv env) (fun h => rows2110_line h _)
    refine ⟨qs, hq1, fun a ha => ?_⟩
    have hq := hq2 a ha
    dsimp only at hq ⊢
    rw [write2110_eq, write2110_eq]
    simp only [h1 a]
    exact hq

theorem write2310_uni {env : Env F} (hd : '\n' ∉ env.delim) (nh : Bool) (r : NA2110 F) :
    (∀ a, CleanTbl a → (write2310 (withAnn env a) nh r).1 = (write2310 (withAnn env none) nh r).1) ∧
    UniW env (fun a => (write2310 (withAnn env a) nh r).2)
      ((LineEnv env ∧ HdrTexts r.c r.XNAME r.v r.com ∧ (∀ s ∈ r.aux.ANAME, Unbroken s)) ∧ LineEnv env) := by
  cases nh with
  | true =>
    refine ⟨fun a _ => rfl, ?_⟩
    obtain ⟨ps, h1, h2⟩ := ofRows_uni
      (R := fun a => rows2310 (withAnn env a) r)
      (rows2310_marked env · _) (H := LineEnv env) (fun h => rows2310_line h _)
    exact ⟨ps, fun h => h1 h.2, fun a _ => h2 a⟩
  | false =>
    obtain ⟨h1, h2⟩ := header2310_uni hd r
    refine ⟨fun a _ => by rw [write2310_eq, write2310_eq]; exact h1 a, ?_⟩
    obtain ⟨qs, hq1, hq2⟩ := seq_uni h2
      (R := fun a => rows2310 (withAnn env a) (header2310 (withAnn env none) r).1)
      (rows2310_marked env · _) (H' := LineEnv env) (fun h => rows2310_line h _)
    refine ⟨qs, hq1, fun a ha => ?_⟩
    have hq := hq2 a ha
    dsimp only at hq ⊢
    rw [write2310_eq, write2310_eq]
    simp only [h1 a]
    exact hq

/-- For 2160 the ignored lines come first, without marks. -/
theorem write2160_uni {env : Env F} (hd : '\n' ∉ env.delim) (nh : Bool) (r : NA2160 F) :
    (∀ a, CleanTbl a → (write2160 (withAnn env a) nh r).1 = (write2160 (withAnn env none) nh r).1) ∧
    ∃ ps : Pieces, (((LineEnv env ∧ HdrTexts r.c r.XNAME r.v r.com ∧ (∀ x, Unbroken (env.cd.sfmt x)) ∧
        (∀ s ∈ r.aux.ANAME, Unbroken s) ∧ ∀ s ∈ cellTexts r.aux.AMISS, Unbroken s) ∧ LineEnv env ∧
        (∀ s ∈ r.X.map (fun x => x.1), Unbroken s) ∧ (∀ s ∈ (r.A.map cellTexts).flatten, Unbroken s)) →
        AllLines ps) ∧
      ∀ a, CleanTbl a → (write2160 (withAnn env a) nh r).2.err = (write2160 (withAnn env none) nh r).2.err ∧
        (write2160 (withAnn env a) nh r).2.text = (if nh then [] else unlines r.ignored) ++ render env.delim a ps := by
  cases nh with
  | true =>
    refine ⟨fun a _ => rfl, ?_⟩
    obtain ⟨ps, h1, h2⟩ := ofRows_uni
      (R := fun a => rows2160 (withAnn env a) r)
      (rows2160_marked env · _) (H := LineEnv env ∧
        (∀ s ∈ r.X.map (fun x => x.1), Unbroken s) ∧ (∀ s ∈ (r.A.map cellTexts).flatten, Unbroken s))
      (fun h => rows2160_line h.1 _ h.2.1 h.2.2)
    exact ⟨ps, fun h => h1 h.2, fun a _ => h2 a⟩
  | false =>
    obtain ⟨h1, h2⟩ := header2160_uni hd r
    refine ⟨fun a _ => by rw [write2160_eq, write2160_eq]; exact h1 a, ?_⟩
    obtain ⟨qs, hq1, hq2⟩ := seq_uni h2
      (R := fun a => rows2160 (withAnn env a) (header2160 (withAnn env none) r).1)
      (rows2160_marked env · _) (H' := LineEnv env ∧
        (∀ s ∈ r.X.map (fun x => x.1), Unbroken s) ∧ (∀ s ∈ (r.A.map cellTexts).flatten, Unbroken s))
      (fun h => rows2160_line h.1 _ (by rw [header2160_X.1]; exact h.2.1) (by rw [header2160_X.2]; exact h.2.2))
    refine ⟨qs, hq1, fun a ha => ?_⟩
    have hq := hq2 a ha
    rw [write2160_eq, write2160_eq]
    simp only [h1 a]
    refine ⟨?_, ?_⟩
    · simpa only [Out.seq] using hq.1
    · rw [← hq.2]
      simp [Out.text, Out.seq, ← ignored_text, concat]

/-! ### All formats -/

/-- What the strings of a dictionary must meet for its lines to be lines. -/
def LineObj (env : Env F) (o : Obj F) : Prop :=
  LineEnv env ∧ (∀ x, Unbroken (env.cd.sfmt x)) ∧ (∀ s ∈ texts o, Unbroken s) ∧ LinesFilled o

theorem Obj.write_uni {env : Env F} (hd : '\n' ∉ env.delim) (nh : Bool) (o : Obj F) :
    (∀ a, CleanTbl a → (o.write (withAnn env a) nh).1 = (o.write (withAnn env none) nh).1) ∧
    ∃ ps : Pieces, (LineObj env o → AllLines ps) ∧ ∀ a, CleanTbl a →
      (o.write (withAnn env a) nh).2.err = (o.write (withAnn env none) nh).2.err ∧
      (o.write (withAnn env a) nh).2.text = (if nh then [] else unlines o.ignored) ++ render env.delim a ps := by
  have hp : ∀ (a : Tbl) (ps : Pieces), (if nh then ([] : Str) else unlines []) ++ render env.delim a ps
      = render env.delim a ps := by intro a ps; cases nh <;> rfl
  cases o with
  | o1001 r =>
    obtain ⟨ps, h1, h2⟩ := write1001_uni hd nh r
    refine ⟨fun _ _ => rfl, ps, fun h => h1 ⟨⟨h.1, h.2.2.1⟩, h.1⟩, fun a ha => ?_⟩
    simp only [Obj.ignored, hp]; exact h2 a ha
  | o1010 r =>
    obtain ⟨ps, h1, h2⟩ := write1010_uni hd nh r
    refine ⟨fun _ _ => rfl, ps, fun h => h1 ⟨⟨h.1, fun s hs => h.2.2.1 s (List.mem_append_left _ hs),
      fun s hs => h.2.2.1 s (List.mem_append_right _ hs)⟩, h.1⟩, fun a ha => ?_⟩
    simp only [Obj.ignored, hp]; exact h2 a ha
  | o1020 r =>
    obtain ⟨ps, h1, h2⟩ := write1020_uni hd nh r
    refine ⟨fun _ _ => rfl, ps, fun h => h1 ⟨⟨h.1, fun s hs => h.2.2.1 s (List.mem_append_left _ hs),
      fun s hs => h.2.2.1 s (List.mem_append_right _ hs), h.2.2.2⟩, h.1⟩, fun a ha => ?_⟩
    simp only [Obj.ignored, hp]; exact h2 a ha
  | o2010 r =>
    obtain ⟨h0, ps, h1, h2⟩ := write2010_uni hd nh r
    refine ⟨fun a ha => congrArg Obj.o2010 (h0 a ha), ps, fun h => h1 ⟨⟨h.1,
      fun s hs => h.2.2.1 s (List.mem_append_left _ hs),
      fun s hs => h.2.2.1 s (List.mem_append_right _ hs), h.2.2.2⟩, h.1⟩, fun a ha => ?_⟩
    simp only [Obj.ignored, hp]; exact h2 a ha
  | o2110 r =>
    obtain ⟨h0, ps, h1, h2⟩ := write2110_uni hd nh r
    refine ⟨fun a ha => congrArg Obj.o2110 (h0 a ha), ps, fun h => h1 ⟨⟨h.1,
      fun s hs => h.2.2.1 s (List.mem_append_left _ hs),
      fun s hs => h.2.2.1 s (List.mem_append_right _ hs)⟩, h.1⟩, fun a ha => ?_⟩
    simp only [Obj.ignored, hp]; exact h2 a ha
  | o2310 r =>
    obtain ⟨h0, ps, h1, h2⟩ := write2310_uni hd nh r
    refine ⟨fun a ha => congrArg Obj.o2310 (h0 a ha), ps, fun h => h1 ⟨⟨h.1,
      fun s hs => h.2.2.1 s (List.mem_append_left _ hs),
      fun s hs => h.2.2.1 s (List.mem_append_right _ hs)⟩, h.1⟩, fun a ha => ?_⟩
    simp only [Obj.ignored, hp]; exact h2 a ha
  | o2160 r =>
    obtain ⟨h0, ps, h1, h2⟩ := write2160_uni hd nh r
    refine ⟨fun a ha => congrArg Obj.o2160 (h0 a ha), ps, fun h => h1 ?_, h2⟩
    have ht : ∀ s, s ∈ commonTexts r.c r.XNAME r.v r.com ∨ s ∈ r.aux.ANAME ∨ s ∈ cellTexts r.aux.AMISS ∨
        s ∈ r.X.map (fun x => x.1) ∨ s ∈ (r.A.map cellTexts).flatten → Unbroken s := by
      intro s hs
      refine h.2.2.1 s ?_
      simp only [texts, List.mem_append]
      rcases hs with hs | hs | hs | hs | hs <;> simp only [hs, true_or, or_true]
    exact ⟨⟨h.1, fun s hs => ht s (Or.inl hs), h.2.1, fun s hs => ht s (Or.inr (Or.inl hs)),
      fun s hs => ht s (Or.inr (Or.inr (Or.inl hs)))⟩, h.1, fun s hs => ht s (Or.inr (Or.inr (Or.inr (Or.inl hs)))),
      fun s hs => ht s (Or.inr (Or.inr (Or.inr (Or.inr hs))))⟩

theorem isMark_markOf (d : Str) (t : String → Str) (l) : IsMark t d (markOf d (some t) l) := by
  rcases l with ⟨i, k⟩
  cases k with
  | none => exact ⟨i, Or.inl (by simp [markOf])⟩
  | some k => exact ⟨i, Or.inr ⟨k, rfl⟩⟩

theorem render_marksAdded (d : Str) (t : String → Str) (ps : Pieces) :
    MarksAdded t d (render d none ps) (render d (some t) ps) := by
  refine ⟨ps.map (fun p => (markOf d (some t) p.1, p.2)), ?_, ?_, ?_⟩
  · intro p hp
    obtain ⟨x, _, rfl⟩ := List.mem_map.1 hp
    exact isMark_markOf d t x.1
  · simp [render, concat, markOf, Function.comp_def]
  · simp [render, concat, Function.comp_def]

theorem render_lineByLine {d : Str} (hd : '\n' ∉ d) {t : String → Str} (ht : CleanTable t) {ps : Pieces}
    (h : AllLines ps) : LineByLine t d (readlines (render d none ps)) (readlines (render d (some t) ps)) := by
  induction ps with
  | nil => exact List.Forall₂.nil
  | cons p ps ih =>
    obtain ⟨l, hl, hn⟩ := h p (by simp)
    have h2 : '\n' ∉ markOf d (some t) p.1 ++ l := by
      have := markOf_no_nl hd (a := some t) (by rintro _ ⟨⟩; exact ht) p.1
      simp [this, hn]
    have e1 : render d none (p :: ps) = l ++ '\n' :: render d none ps := by
      rw [render_cons, hl]; simp [markOf]
    have e2 : render d (some t) (p :: ps) = (markOf d (some t) p.1 ++ l) ++ '\n' :: render d (some t) ps := by
      rw [render_cons, hl]; simp
    rw [e1, e2, readlines_line _ _ hn, readlines_line _ _ h2]
    refine List.Forall₂.cons ⟨markOf d (some t) p.1, isMark_markOf d t p.1, by simp⟩
      (ih (fun q hq => h q (by simp [hq])))

end Nappy
