import Verif.Spec.ToXarray
import Verif.PyLemmas

/-! Comments on the way to the attribute `comment` and back. -/

namespace Nappy

open Spec

variable {F : Type}

theorem hasSub_iff (sub s : Str) : hasSub sub s = true ↔ Occurs sub s := by
  induction s with
  | nil =>
    constructor
    · intro h
      have : sub = [] := by simpa [hasSub] using h
      exact ⟨[], [], by simp [this]⟩
    · rintro ⟨a, b, h⟩
      have := congrArg List.length h
      simp only [List.length_nil, List.length_append] at this
      have : sub = [] := List.length_eq_zero_iff.1 (by omega)
      simp [hasSub, this]
  | cons c t ih =>
    rw [hasSub, Bool.or_eq_true, ih, List.isPrefixOf_iff_prefix]
    constructor
    · rintro (⟨u, hu⟩ | ⟨a, b, h⟩)
      · exact ⟨[], u, by simpa using hu.symm⟩
      · exact ⟨c :: a, b, by simp [h]⟩
    · rintro ⟨a, b, h⟩
      cases a with
      | nil => exact .inl ⟨b, by simpa using h.symm⟩
      | cons d a =>
        injection h with h1 h2
        exact .inr ⟨a, b, h2⟩

instance (sub s : Str) : Decidable (Occurs sub s) := decidable_of_iff _ (hasSub_iff sub s)

instance (hp : Headings) : Decidable (HeadingsApart hp) := by unfold HeadingsApart; infer_instance

instance (hp : Headings) (s : Str) : Decidable (PlainComment hp s) := by unfold PlainComment; infer_instance

theorem hasSub_false {sub s : Str} (h : ¬ Occurs sub s) : hasSub sub s = false := by
  rw [Bool.eq_false_iff]
  exact fun e => h ((hasSub_iff _ _).1 e)

theorem hasSub_self (s : Str) : hasSub s s = true := (hasSub_iff _ _).2 ⟨[], [], by simp⟩

theorem occurs_nil {sub : Str} (h : sub ≠ []) : ¬ Occurs sub [] := by
  rintro ⟨a, b, e⟩
  have := congrArg List.length e
  simp only [List.length_nil, List.length_append] at this
  exact h (List.length_eq_zero_iff.1 (by omega))

/-! ### Empty lines -/

abbrev isNl : Char → Bool := (· == '\n')

theorem splitP_nl_cons (t : Str) : splitP isNl ('\n' :: t) = [] :: splitP isNl t := by
  rw [splitP, if_pos (by decide)]

/-- Removing doubled line feeds only removes empty lines. -/
theorem collapse_lines (t : Str) :
    (splitP isNl (collapseLines t)).head? = (splitP isNl t).head? ∧
      nonEmpty (splitP isNl (collapseLines t)).tail = nonEmpty (splitP isNl t).tail := by
  fun_induction collapseLines t with
  | case1 t ih =>
    rw [splitP_nl_cons, splitP_nl_cons, splitP_nl_cons]
    refine ⟨rfl, ?_⟩
    simp only [List.tail_cons]
    obtain ⟨h1, h2⟩ := ih
    cases hc : splitP isNl (collapseLines t) with
    | nil => exact absurd hc (splitP_ne_nil _ _)
    | cons a r =>
      cases ht : splitP isNl t with
      | nil => exact absurd ht (splitP_ne_nil _ _)
      | cons b q =>
        rw [hc, ht] at h1 h2
        simp only [List.head?_cons, Option.some.injEq, List.tail_cons] at h1 h2
        subst h1
        simp only [nonEmpty, List.filter_cons] at h2 ⊢
        simp [h2]
  | case2 c t hx ih =>
    obtain ⟨h1, h2⟩ := ih
    cases hc : splitP isNl (collapseLines t) with
    | nil => exact absurd hc (splitP_ne_nil _ _)
    | cons a r =>
      cases ht : splitP isNl t with
      | nil => exact absurd ht (splitP_ne_nil _ _)
      | cons b q =>
        rw [hc, ht] at h1 h2
        simp only [List.head?_cons, Option.some.injEq, List.tail_cons] at h1 h2
        subst h1
        by_cases hn : isNl c = true
        · rw [splitP, if_pos hn, splitP, if_pos hn, hc, ht]
          refine ⟨rfl, ?_⟩
          simp only [List.tail_cons, nonEmpty, List.filter_cons] at h2 ⊢
          rw [h2]
        · rw [splitP, if_neg hn, splitP, if_neg hn, hc, ht]
          exact ⟨rfl, h2⟩
  | case3 => exact ⟨rfl, rfl⟩

theorem nonEmpty_collapse (t : Str) : nonEmpty (splitP isNl (collapseLines t)) = nonEmpty (splitP isNl t) := by
  obtain ⟨h1, h2⟩ := collapse_lines t
  cases hc : splitP isNl (collapseLines t) with
  | nil => exact absurd hc (splitP_ne_nil _ _)
  | cons a r =>
    cases ht : splitP isNl t with
    | nil => exact absurd ht (splitP_ne_nil _ _)
    | cons b q =>
      rw [hc, ht] at h1 h2
      simp only [List.head?_cons, Option.some.injEq, List.tail_cons] at h1 h2
      subst h1
      simp only [nonEmpty, List.filter_cons] at h2 ⊢
      rw [h2]

theorem nonEmpty_append (a b : List Str) : nonEmpty (a ++ b) = nonEmpty a ++ nonEmpty b := List.filter_append ..

theorem nonEmpty_nil_cons (l : List Str) : nonEmpty ([] :: l) = nonEmpty l := rfl

/-- The parser sees empty lines only as empty lines of comments. -/
theorem parse_nonEmpty {hp : Headings} (hne : ∀ h ∈ [hp.sc_start, hp.sc_end, hp.nc_start, hp.nc_end], h ≠ []) :
    ∀ (ls : List Str) (s s' : CommentState), s.sFlag = s'.sFlag → s.nFlag = s'.nFlag →
      nonEmpty s.special = nonEmpty s'.special → nonEmpty s.normal = nonEmpty s'.normal →
      nonEmpty (ls.foldl (commentStep hp) s).special = nonEmpty ((nonEmpty ls).foldl (commentStep hp) s').special ∧
      nonEmpty (ls.foldl (commentStep hp) s).normal = nonEmpty ((nonEmpty ls).foldl (commentStep hp) s').normal := by
  intro ls
  induction ls with
  | nil => intro s s' _ _ h3 h4; exact ⟨h3, h4⟩
  | cons l ls ih =>
    intro s s' h1 h2 h3 h4
    have step : ∀ l, (commentStep hp s l).sFlag = (commentStep hp s' l).sFlag ∧
        (commentStep hp s l).nFlag = (commentStep hp s' l).nFlag ∧
        nonEmpty (commentStep hp s l).special = nonEmpty (commentStep hp s' l).special ∧
        nonEmpty (commentStep hp s l).normal = nonEmpty (commentStep hp s' l).normal := by
      intro l
      unfold commentStep
      rw [← h1, ← h2]
      repeat' split
      all_goals simp [nonEmpty_append, h1, h2, h3, h4]
    by_cases hl : l = []
    · subst hl
      rw [List.foldl_cons, show nonEmpty ([] :: ls) = nonEmpty ls from rfl]
      have n1 := hasSub_false (occurs_nil (hne hp.sc_start (by simp)))
      have n2 := hasSub_false (occurs_nil (hne hp.sc_end (by simp)))
      have n3 := hasSub_false (occurs_nil (hne hp.nc_start (by simp)))
      have n4 := hasSub_false (occurs_nil (hne hp.nc_end (by simp)))
      refine ih _ _ ?_ ?_ ?_ ?_ <;> unfold commentStep <;> simp only [n1, n2, n3, n4, if_false, Bool.false_eq_true]
      all_goals
        repeat' split
        all_goals first
          | exact h1
          | exact h2
          | exact h3
          | exact h4
          | (rw [nonEmpty_append]; simp [nonEmpty]; first | exact h3 | exact h4)
    · rw [show nonEmpty (l :: ls) = l :: nonEmpty ls from by
        cases l with
        | nil => exact absurd rfl hl
        | cons c t => rfl]
      rw [List.foldl_cons, List.foldl_cons]
      obtain ⟨e1, e2, e3, e4⟩ := step l
      exact ih _ _ e1 e2 e3 e4

/-! ### The text -/

theorem splitP_first {a t : Str} (ha : '\n' ∉ a) : splitP isNl (a ++ '\n' :: t) = a :: splitP isNl t := by
  rw [splitP_append_sep isNl a t '\n' (by decide), splitP_none isNl a]
  · rfl
  · intro c hc
    simp only [isNl, beq_eq_false_iff_ne]
    rintro rfl
    exact ha hc

theorem splitP_body (L : List Str) (hL : ∀ i ∈ L, '\n' ∉ i) (r : Str) :
    ∀ a : Str, '\n' ∉ a → splitP isNl (a ++ (L.flatMap (fun i => '\n' :: i) ++ '\n' :: r)) = a :: L ++ splitP isNl r := by
  induction L with
  | nil => intro a ha; exact splitP_first ha
  | cons i L ih =>
    intro a ha
    rw [List.flatMap_cons, List.cons_append, List.cons_append, splitP_first ha,
      List.append_assoc, ih (fun j hj => hL j (by simp [hj])) i (hL i (by simp))]
    rfl

/-- The comments that are not left out. -/
def keptComments (known L : List Str) : List Str := L.filter (fun i => !known.contains (strip i))

/-- A heading, lines, a heading. -/
def sectionLines (on : Bool) (h e : Str) (L : List Str) : List Str := if on then h :: L ++ [e] else []

theorem nonEmpty_cons {l : Str} (hl : l ≠ []) (ls : List Str) : nonEmpty (l :: ls) = l :: nonEmpty ls := by
  cases l with
  | nil => exact absurd rfl hl
  | cons c t => rfl

/-- The lines of the attribute that are not empty. -/
theorem commentAttr_lines {hp : Headings} (hh : HeadingsApart hp) (com : ComHdr)
    (hs : ∀ i ∈ com.SCOM, '\n' ∉ i) (hn : ∀ i ∈ com.NCOM, '\n' ∉ i) :
    nonEmpty (splitP isNl (commentAttr hp com))
      = sectionLines (decide (com.NSCOML > 0)) hp.sc_start hp.sc_end (nonEmpty (keptComments (specialKnown hp) com.SCOM))
        ++ sectionLines (decide (com.NNCOML > 0)) hp.nc_start hp.nc_end
            (nonEmpty (keptComments (normalKnown hp) com.NCOM)) := by
  obtain ⟨hh, _⟩ := hh
  have h1 := hh hp.sc_start (by simp)
  have h2 := hh hp.sc_end (by simp)
  have h3 := hh hp.nc_start (by simp)
  have h4 := hh hp.nc_end (by simp)
  have hN : ∀ (b : Bool), nonEmpty (splitP isNl (if b = true then
      hp.nc_start ++ '\n' :: (commentBody (normalKnown hp) com.NCOM ++ '\n' :: hp.nc_end) else []))
      = sectionLines b hp.nc_start hp.nc_end (nonEmpty (keptComments (normalKnown hp) com.NCOM)) := by
    intro b
    cases b with
    | false => rfl
    | true =>
      rw [if_pos rfl, splitP_first h3.2, sectionLines, if_pos rfl]
      have := splitP_body (keptComments (normalKnown hp) com.NCOM)
        (fun i hi => hn i (List.mem_of_mem_filter hi)) hp.nc_end [] (by simp)
      rw [List.nil_append] at this
      unfold commentBody
      unfold keptComments at this ⊢
      rw [this, splitP_none isNl hp.nc_end]
      · rw [nonEmpty_cons h3.1, List.cons_append, nonEmpty_nil_cons, nonEmpty_append, nonEmpty_cons h4.1]
        rfl
      · intro c hc
        simp only [isNl, beq_eq_false_iff_ne]
        rintro rfl
        exact h4.2 hc
  unfold commentAttr
  dsimp only
  rw [nonEmpty_collapse]
  by_cases c1 : com.NSCOML > 0
  · rw [if_pos c1, decide_eq_true c1]
    have hN' := hN (decide (com.NNCOML > 0))
    simp only [decide_eq_true_eq] at hN'
    generalize (if com.NNCOML > 0 then _ else _ : Str) = n at hN' ⊢
    have := splitP_body (keptComments (specialKnown hp) com.SCOM)
        (fun i hi => hs i (List.mem_of_mem_filter hi)) (hp.sc_end ++ '\n' :: n) [] (by simp)
    rw [List.nil_append] at this
    rw [show hp.sc_start ++ '\n' :: (commentBody (specialKnown hp) com.SCOM ++ '\n' :: (hp.sc_end ++ ['\n'])) ++ n
      = hp.sc_start ++ '\n' :: (commentBody (specialKnown hp) com.SCOM ++ '\n' :: (hp.sc_end ++ '\n' :: n)) from by
        simp]
    rw [splitP_first h1.2]
    unfold commentBody
    unfold keptComments at this ⊢
    rw [this, splitP_first h2.2, nonEmpty_cons h1.1, List.cons_append, nonEmpty_nil_cons, nonEmpty_append,
      nonEmpty_cons h2.1, hN']
    simp [sectionLines, keptComments]
  · rw [if_neg c1, decide_eq_false c1]
    have hN' := hN (decide (com.NNCOML > 0))
    simp only [decide_eq_true_eq] at hN'
    rw [List.nil_append, hN']
    rfl

/-! ### Parsing -/

theorem fold_special {hp : Headings} (L : List Str) (hL : ∀ l ∈ L, PlainComment hp l) (s : CommentState)
    (hs : s.sFlag = true) : L.foldl (commentStep hp) s = { s with special := s.special ++ L } := by
  induction L generalizing s with
  | nil => simp
  | cons l L ih =>
    obtain ⟨_, h⟩ := hL l (by simp)
    have n1 := hasSub_false (h hp.sc_start (by simp))
    have n2 := hasSub_false (h hp.sc_end (by simp))
    have n3 := hasSub_false (h hp.nc_start (by simp))
    have n4 := hasSub_false (h hp.nc_end (by simp))
    have : commentStep hp s l = { s with special := s.special ++ [l] } := by
      unfold commentStep
      simp [n1, n2, n3, n4, hs]
    rw [List.foldl_cons, this, ih (fun x hx => hL x (by simp [hx])) _ (by exact hs)]
    simp

theorem fold_normal {hp : Headings} (L : List Str) (hL : ∀ l ∈ L, PlainComment hp l) (s : CommentState)
    (hs : s.sFlag = false) (hn : s.nFlag = true) :
    L.foldl (commentStep hp) s = { s with normal := s.normal ++ L } := by
  induction L generalizing s with
  | nil => simp
  | cons l L ih =>
    obtain ⟨_, h⟩ := hL l (by simp)
    have n1 := hasSub_false (h hp.sc_start (by simp))
    have n2 := hasSub_false (h hp.sc_end (by simp))
    have n3 := hasSub_false (h hp.nc_start (by simp))
    have n4 := hasSub_false (h hp.nc_end (by simp))
    have : commentStep hp s l = { s with normal := s.normal ++ [l] } := by
      unfold commentStep
      simp [n1, n2, n3, n4, hs, hn]
    rw [List.foldl_cons, this, ih (fun x hx => hL x (by simp [hx])) _ (by exact hs) (by exact hn)]
    simp

theorem fold_sections {hp : Headings} (hh : HeadingsApart hp) (b1 b2 : Bool) (S N : List Str)
    (hS : ∀ l ∈ S, PlainComment hp l) (hN : ∀ l ∈ N, PlainComment hp l) :
    (sectionLines b1 hp.sc_start hp.sc_end S ++ sectionLines b2 hp.nc_start hp.nc_end N).foldl (commentStep hp)
        { sFlag := false, nFlag := false, special := [], normal := [] }
      = { sFlag := false, nFlag := false, special := if b1 then S else [], normal := if b2 then N else [] } := by
  obtain ⟨_, hp2⟩ := hh
  simp only [List.pairwise_cons, List.mem_cons, List.not_mem_nil, or_false, forall_eq_or_imp, forall_eq] at hp2
  obtain ⟨⟨a1, a2, a3⟩, ⟨b1', b2'⟩, c1, _⟩ := hp2
  rw [List.foldl_append]
  have first : (sectionLines b1 hp.sc_start hp.sc_end S).foldl (commentStep hp)
      { sFlag := false, nFlag := false, special := [], normal := [] }
      = { sFlag := false, nFlag := false, special := if b1 then S else [], normal := [] } := by
    cases b1 with
    | false => rfl
    | true =>
      rw [sectionLines, if_pos rfl, List.cons_append, List.foldl_cons, List.foldl_append]
      have e1 : commentStep hp { sFlag := false, nFlag := false, special := [], normal := [] } hp.sc_start
          = { sFlag := true, nFlag := false, special := [], normal := [] } := by
        unfold commentStep; simp [hasSub_self]
      rw [e1, fold_special S hS _ rfl]
      simp [commentStep, hasSub_self, hasSub_false a1.1]
  rw [first]
  cases b2 with
  | false => rfl
  | true =>
    rw [sectionLines, if_pos rfl, List.cons_append, List.foldl_cons, List.foldl_append]
    have e1 : ∀ S', commentStep hp { sFlag := false, nFlag := false, special := S', normal := [] } hp.nc_start
        = { sFlag := false, nFlag := true, special := S', normal := [] } := by
      intro S'
      unfold commentStep; simp [hasSub_self, hasSub_false a2.1, hasSub_false b1'.1]
    rw [e1, fold_normal N hN _ rfl rfl]
    simp [commentStep, hasSub_self, hasSub_false a3.1, hasSub_false b2'.1, hasSub_false c1.1]

theorem nonEmpty_idem (l : List Str) : nonEmpty (nonEmpty l) = nonEmpty l := by
  simp [nonEmpty]

/-- What comes back from the attribute, up to empty lines. -/
theorem comments_back {hp : Headings} (hh : HeadingsApart hp) (com : ComHdr)
    (hs : ∀ i ∈ com.SCOM, '\n' ∉ i) (hn : ∀ i ∈ com.NCOM, '\n' ∉ i)
    (hS : ∀ i ∈ keptComments (specialKnown hp) com.SCOM, PlainComment hp i)
    (hN : ∀ i ∈ keptComments (normalKnown hp) com.NCOM, PlainComment hp i) :
    nonEmpty (parseComment hp (commentAttr hp com)).1
        = (if com.NSCOML > 0 then nonEmpty (keptComments (specialKnown hp) com.SCOM) else []) ∧
      nonEmpty (parseComment hp (commentAttr hp com)).2
        = (if com.NNCOML > 0 then nonEmpty (keptComments (normalKnown hp) com.NCOM) else []) := by
  have hne : ∀ h ∈ [hp.sc_start, hp.sc_end, hp.nc_start, hp.nc_end], h ≠ [] := fun h hm => (hh.1 h hm).1
  have hk := parse_nonEmpty hne (splitP isNl (commentAttr hp com))
    { sFlag := false, nFlag := false, special := [], normal := [] }
    { sFlag := false, nFlag := false, special := [], normal := [] } rfl rfl rfl rfl
  rw [commentAttr_lines hh com hs hn, fold_sections hh _ _
    (nonEmpty (keptComments (specialKnown hp) com.SCOM)) (nonEmpty (keptComments (normalKnown hp) com.NCOM))
    (fun l hl => hS l (List.mem_of_mem_filter hl)) (fun l hl => hN l (List.mem_of_mem_filter hl))] at hk
  unfold parseComment
  dsimp only
  refine ⟨hk.1.trans ?_, hk.2.trans ?_⟩
  · by_cases c : com.NSCOML > 0 <;> simp [c, nonEmpty_idem]
    rfl
  · by_cases c : com.NNCOML > 0 <;> simp [c, nonEmpty_idem]
    rfl

end Nappy
