import Verif.Spec.Ini
import Verif.SectionLemmas
import Verif.WriteSpec
import Verif.UtilLemmas
import Verif.NameLemmas
import Verif.ConvertLemmas

/-! Lemmas about reading configuration files. -/

namespace Nappy

open Spec

section
variable {α β : Type} [DecidableEq α]

theorem kvGet?_none {d : List (α × β)} {k : α} (h : k ∉ d.map Prod.fst) : kvGet? d k = none := by
  induction d with
  | nil => rfl
  | cons p t ih =>
    obtain ⟨k', v'⟩ := p
    rw [List.map_cons, List.mem_cons, not_or] at h
    rw [kvGet?, if_neg (Ne.symm h.1), ih h.2]

theorem kvGet?_last {d : List (α × β)} {k : α} (h : k ∉ d.map Prod.fst) (v : β) : kvGet? (d ++ [(k, v)]) k = some v := by
  induction d with
  | nil => simp [kvGet?]
  | cons p t ih =>
    obtain ⟨k', v'⟩ := p
    rw [List.map_cons, List.mem_cons, not_or] at h
    rw [List.cons_append, kvGet?, if_neg (Ne.symm h.1), ih h.2]

theorem kvSet_last {d : List (α × β)} {k : α} (h : k ∉ d.map Prod.fst) (v v' : β) :
    kvSet (d ++ [(k, v)]) k v' = d ++ [(k, v')] := by
  induction d with
  | nil => simp [kvSet]
  | cons p t ih =>
    obtain ⟨k', w⟩ := p
    rw [List.map_cons, List.mem_cons, not_or] at h
    rw [List.cons_append, kvSet, if_neg (Ne.symm h.1), ih h.2, List.cons_append]

theorem kvSet_new {d : List (α × β)} {k : α} (h : k ∉ d.map Prod.fst) (v : β) : kvSet d k v = d ++ [(k, v)] := by
  induction d with
  | nil => simp [kvSet]
  | cons p t ih =>
    obtain ⟨k', w⟩ := p
    rw [List.map_cons, List.mem_cons, not_or] at h
    rw [kvSet, if_neg (Ne.symm h.1), ih h.2, List.cons_append]

theorem kvGet?_of_mem {d : List (α × β)} (hd : (d.map Prod.fst).Nodup) {k : α} {v : β} (h : (k, v) ∈ d) :
    kvGet? d k = some v := by
  induction d with
  | nil => cases h
  | cons p t ih =>
    obtain ⟨k', v'⟩ := p
    rw [List.map_cons, List.nodup_cons] at hd
    rcases List.mem_cons.1 h with e | h
    · cases e; simp [kvGet?]
    · have : k' ≠ k := by
        intro e
        exact hd.1 (e ▸ List.mem_map.2 ⟨(k, v), h, rfl⟩)
      rw [kvGet?, if_neg this, ih hd.2 h]

/-- Setting items one after the other under different names. -/
theorem foldl_kvSet {γ : Type} (f : γ → α) (g : γ → β) (l : List γ) (d : List (α × β))
    (h : (d.map Prod.fst ++ l.map f).Nodup) :
    l.foldl (fun e x => kvSet e (f x) (g x)) d = d ++ l.map (fun x => (f x, g x)) := by
  induction l generalizing d with
  | nil => simp
  | cons x t ih =>
    have hx : f x ∉ d.map Prod.fst := by
      intro hm
      rw [List.nodup_append] at h
      exact h.2.2 _ hm _ (by simp) rfl
    rw [List.foldl_cons, kvSet_new hx, ih, List.map_cons, List.append_assoc]
    · rfl
    · simpa using h

end

theorem iniLoop_append (s : IniState) (a b : List Str) :
    iniLoop s (a ++ b) = (iniLoop s a).bind (fun s => iniLoop s b) := by
  induction a generalizing s with
  | nil => rfl
  | cons l t ih =>
    rw [List.cons_append, iniLoop, iniLoop]
    cases h : iniStep s l with
    | error e => rfl
    | ok s' => exact ih s'

abbrev withNL (l : Str) : Str := l ++ ['\n']

theorem strip_trim {l s r : Str} (hl : Blank l) (hs : Trim s) (hr : Blank r) : strip (withNL (l ++ s ++ r)) = s := by
  unfold withNL
  rw [strip_end, strip_spaces hl hr]
  have := strip_nl hs
  rwa [strip_end] at this

/-- The indentation of a line. -/
theorem indent_of {w r : Str} {c : Char} (hw : Blank w) (hc : isSpace c = false) :
    (withNL (w ++ c :: r)).takeWhile isSpace = w := by
  unfold withNL
  rw [List.append_assoc, List.takeWhile_append_of_pos hw]
  simp [hc]

theorem trim_head {c : Char} {t : Str} (h : Trim (c :: t)) : isSpace c = false := h.1 c rfl

theorem filler_step {s : IniState} {l : Str} (h : Filler l) (ho : s.opt = none ∨ s.cur = none) :
    iniStep s (withNL l) = .ok s := by
  cases h with
  | blank _ hb =>
    have : strip (withNL l) = [] := by
      unfold withNL; rw [strip_end]; exact (strip_eq_nil_iff l).2 hb
    unfold iniStep
    rw [this]
    rcases ho with ho | ho <;> rw [ho] <;> cases s.cur <;> cases s.opt <;> rfl
  | comment w c r hw hc =>
    have hsp : isSpace c = false := by rcases hc with rfl | rfl <;> decide
    have : ∃ t, strip (withNL (w ++ c :: r)) = c :: t := by
      unfold withNL
      rw [strip_end]
      have := strip_spaces (l := w) (s := c :: r) (r := []) hw (by intro c h; cases h)
      rw [List.append_nil] at this
      rw [this]
      unfold strip rstrip lstrip
      rw [List.dropWhile_cons_of_neg (by simp [hsp])]
      obtain ⟨suf, h1, h2⟩ := rstripP_split isSpace (c :: r)
      cases hr : rstripP isSpace (c :: r) with
      | nil =>
        rw [hr] at h1
        have := h2 c (by rw [← List.nil_append suf, ← h1]; simp)
        rw [hsp] at this; cases this
      | cons x t =>
        rw [hr, List.cons_append] at h1
        injection h1 with h1
        exact ⟨t, by rw [h1]⟩
    obtain ⟨t, ht⟩ := this
    unfold iniStep
    rw [ht]
    exact if_pos hc

theorem filler_strip {l : Str} (h : Filler l) :
    strip (withNL l) = [] ∨ ∃ c t, strip (withNL l) = c :: t ∧ (c = '#' ∨ c = ';') := by
  cases h with
  | blank _ hb =>
    left; unfold withNL; rw [strip_end]; exact (strip_eq_nil_iff l).2 hb
  | comment w c r hw hc =>
    right
    have hsp : isSpace c = false := by rcases hc with rfl | rfl <;> decide
    unfold withNL
    rw [strip_end]
    have := strip_spaces (l := w) (s := c :: r) (r := []) hw (by intro c h; cases h)
    rw [List.append_nil] at this
    rw [this]
    unfold strip rstrip lstrip
    rw [List.dropWhile_cons_of_neg (by simp [hsp])]
    obtain ⟨suf, h1, h2⟩ := rstripP_split isSpace (c :: r)
    cases hr : rstripP isSpace (c :: r) with
    | nil =>
      rw [hr] at h1
      have := h2 c (by rw [← List.nil_append suf, ← h1]; simp)
      rw [hsp] at this; cases this
    | cons x t =>
      rw [hr, List.cons_append] at h1
      injection h1 with h1
      exact ⟨c, t, by rw [h1], hc⟩

/-- The parser stands behind an option. -/
structure Behind (done : List (Str × List (Str × List Str))) (name : Str) (opts : List (Str × List Str)) (k : Str)
    (ps : List Str) (s : IniState) : Prop where
  secs : s.secs = done ++ [(name, opts ++ [(k, ps)])]
  cur : s.cur = some name
  opt : s.opt = some k
  indent : s.indent = 0

theorem addPiece_behind {done : List (Str × List (Str × List Str))} {name : Str} {opts : List (Str × List Str)} {k : Str}
    {ps : List Str} (hn : name ∉ done.map Prod.fst) (hk : k ∉ opts.map Prod.fst) (p : Str) :
    addPiece (done ++ [(name, opts ++ [(k, ps)])]) name k p = done ++ [(name, opts ++ [(k, ps ++ [p])])] := by
  unfold addPiece
  dsimp only
  rw [kvGet?_last hn, Option.getD_some, kvGet?_last hk, Option.getD_some, kvSet_last hk, kvSet_last hn]

theorem filler_behind {done : List (Str × List (Str × List Str))} {name : Str} {opts : List (Str × List Str)} {k : Str}
    (hn : name ∉ done.map Prod.fst) (hk : k ∉ opts.map Prod.fst) (fs : List Str) (hf : ∀ l ∈ fs, Filler l)
    {ps : List Str} {s : IniState} (hs : Behind done name opts k ps s) :
    ∃ s' m, iniLoop s (fs.map withNL) = .ok s' ∧ Behind done name opts k (ps ++ List.replicate m []) s' := by
  induction fs generalizing ps s with
  | nil => exact ⟨s, 0, rfl, by simpa using hs⟩
  | cons l t ih =>
    have hstep : ∃ s' m, iniStep s (withNL l) = .ok s' ∧ Behind done name opts k (ps ++ List.replicate m []) s' := by
      rcases filler_strip (hf l (by simp)) with h | ⟨c, t, h, hc⟩
      · refine ⟨{ s with secs := addPiece s.secs name k [] }, 1, ?_, ?_, hs.cur, hs.opt, hs.indent⟩
        · unfold iniStep; rw [h]; dsimp only; rw [hs.cur, hs.opt]
        · show addPiece s.secs name k [] = _
          rw [hs.secs, addPiece_behind hn hk]; rfl
      · refine ⟨s, 0, ?_, by simpa using hs⟩
        unfold iniStep; rw [h]; exact if_pos hc
    obtain ⟨s1, m1, e1, b1⟩ := hstep
    obtain ⟨s2, m2, e2, b2⟩ := ih (fun l hl => hf l (by simp [hl])) b1
    refine ⟨s2, m1 + m2, ?_, ?_⟩
    · rw [List.map_cons, iniLoop, e1]; exact e2
    · rw [List.append_assoc, List.replicate_append_replicate] at b2; exact b2

theorem fillers_before (fs : List Str) (hf : ∀ l ∈ fs, Filler l) {s : IniState} (ho : s.opt = none ∨ s.cur = none) :
    iniLoop s (fs.map withNL) = .ok s := by
  induction fs with
  | nil => rfl
  | cons l t ih =>
    rw [List.map_cons, iniLoop, filler_step (hf l (by simp)) ho]
    exact ih (fun l hl => hf l (by simp [hl]))

theorem comment_behind {s : IniState} {w : Str} {c : Char} {r : Str} (hw : Blank w) (hc : c = '#' ∨ c = ';') :
    iniStep s (withNL (w ++ c :: r)) = .ok s := by
  rcases filler_strip (Filler.comment w c r hw hc) with h | ⟨c', t, h, hc'⟩
  · exfalso
    unfold withNL at h
    rw [strip_end, strip_eq_nil_iff] at h
    have := h c (by simp)
    rcases hc with rfl | rfl <;> exact absurd this (by decide)
  · unfold iniStep; rw [h]; exact if_pos hc'

theorem conts_behind {done : List (Str × List (Str × List Str))} {name : Str} {opts : List (Str × List Str)} {k : Str}
    (hn : name ∉ done.map Prod.fst) (hk : k ∉ opts.map Prod.fst) {pieces conts : List Str}
    (h : ValueLines pieces conts) {ps : List Str} {s : IniState} (hs : Behind done name opts k ps s) :
    ∃ s', iniLoop s (conts.map withNL) = .ok s' ∧ Behind done name opts k (ps ++ pieces) s' := by
  induction h generalizing ps s with
  | nil => exact ⟨s, rfl, by simpa using hs⟩
  | comment w c r pt lt hw hc _ ih =>
    obtain ⟨s2, e2, b2⟩ := ih hs
    refine ⟨s2, ?_, b2⟩
    rw [List.map_cons, iniLoop, comment_behind hw hc]
    exact e2
  | blank l pt lt hb _ ih =>
    have hst : strip (withNL l) = [] := by
      unfold withNL; rw [strip_end]; exact (strip_eq_nil_iff l).2 hb
    have hstep : iniStep s (withNL l) = .ok { s with secs := addPiece s.secs name k [] } := by
      unfold iniStep; rw [hst]; dsimp only; rw [hs.cur, hs.opt]
    obtain ⟨s2, e2, b2⟩ := ih (ps := ps ++ [[]]) (s := { s with secs := addPiece s.secs name k [] })
      ⟨by show addPiece s.secs name k [] = _; rw [hs.secs, addPiece_behind hn hk], hs.cur, hs.opt, hs.indent⟩
    refine ⟨s2, ?_, by simpa using b2⟩
    rw [List.map_cons, iniLoop, hstep]
    exact e2
  | piece p w w' pt lt hpp hw hw0 hw' _ ih =>
    obtain ⟨c, t, rfl, hc1, hc2⟩ := hpp.start
    have hst := strip_trim hw hpp.trim hw'
    have hind : (withNL (w ++ (c :: t) ++ w')).takeWhile isSpace = w := by
      rw [List.append_assoc, List.cons_append]
      exact indent_of hw (trim_head hpp.trim)
    have hstep : iniStep s (withNL (w ++ (c :: t) ++ w')) = .ok { s with secs := addPiece s.secs name k (c :: t) } := by
      unfold iniStep
      rw [hst, hind]
      dsimp only
      rw [if_neg (by rintro (h | h); exacts [hc1 h, hc2 h]), hs.cur, hs.opt]
      dsimp only
      rw [if_pos]
      rw [hs.indent]
      exact List.length_pos_iff.2 hw0
    obtain ⟨s2, e2, b2⟩ := ih (ps := ps ++ [c :: t])
      (s := { s with secs := addPiece s.secs name k (c :: t) })
      ⟨by show addPiece s.secs name k (c :: t) = _; rw [hs.secs, addPiece_behind hn hk], hs.cur, hs.opt, hs.indent⟩
    refine ⟨s2, ?_, by simpa using b2⟩
    rw [List.map_cons, iniLoop, hstep]
    exact e2

theorem valueLines_trim {pieces conts : List Str} (h : ValueLines pieces conts) : ∀ p ∈ pieces, Trim p := by
  induction h with
  | nil => intro p hp; cases hp
  | comment w c r pt lt hw hc _ ih => exact ih
  | blank l pt lt hb _ ih =>
    intro p hp
    rcases List.mem_cons.1 hp with rfl | hp
    · decide
    · exact ih p hp
  | piece p w w' pt lt hpp hw hw0 hw' _ ih =>
    intro q hq
    rcases List.mem_cons.1 hq with rfl | hq
    · exact hpp.trim
    · exact ih q hq

/-- The parser stands in a section. -/
structure Within (done : List (Str × List (Str × List Str))) (name : Str) (opts : List (Str × List Str)) (s : IniState) :
    Prop where
  secs : s.secs = done ++ [(name, opts)]
  cur : s.cur = some name

theorem option_head {k w1 r : Str} {d : Char} (hk : OptionName k) (hw : Blank w1) (hd : d = '=' ∨ d = ':') :
    sectionName? (k ++ w1 ++ d :: r) = none ∧ optionParts? (k ++ w1 ++ d :: r) = some (k, strip r) := by
  obtain ⟨c, t, rfl, _, _, hc⟩ := hk.start
  refine ⟨?_, ?_⟩
  · unfold sectionName?
    split
    · rename_i heq
      simp only [List.cons_append] at heq
      injection heq with heq
      exact absurd heq hc
    · rfl
  · have hp : ∀ x ∈ c :: t ++ w1, (x != '=' && x != ':') = true := by
      intro x hx
      rcases List.mem_append.1 hx with hx | hx
      · have h1 : x ≠ '=' := fun e => hk.plain.1 (e ▸ hx)
        have h2 : x ≠ ':' := fun e => hk.plain.2 (e ▸ hx)
        simp [h1, h2]
      · have h1 : x ≠ '=' := fun e => absurd (hw x hx) (by rw [e]; decide)
        have h2 : x ≠ ':' := fun e => absurd (hw x hx) (by rw [e]; decide)
        simp [h1, h2]
    have hdd : (d != '=' && d != ':') = false := by rcases hd with rfl | rfl <;> decide
    unfold optionParts?
    rw [List.dropWhile_append_of_pos hp, List.takeWhile_append_of_pos hp,
      List.dropWhile_cons_of_neg (by simp [hdd]), List.takeWhile_cons_of_neg (by simp [hdd])]
    dsimp only
    rw [List.append_nil]
    congr 2
    unfold rstrip
    rw [rstripP_append_all _ _ _ hw]
    refine rstripP_eq_self _ _ fun a x e => hk.trim.2 x ?_
    rw [e]; simp

theorem join_replicate (p : Str) (ps : List Str) (m : Nat) :
    ∃ w, Blank w ∧ join ['\n'] (p :: ps ++ List.replicate m []) = join ['\n'] (p :: ps) ++ w := by
  induction ps generalizing p with
  | nil =>
    induction m generalizing p with
    | zero => exact ⟨[], by simp [Blank], by simp⟩
    | succ m ih =>
      obtain ⟨w, hw, e⟩ := ih []
      refine ⟨'\n' :: w, ?_, ?_⟩
      · intro c hc
        rcases List.mem_cons.1 hc with rfl | hc
        · decide
        · exact hw c hc
      · rw [List.replicate_succ]
        show p ++ ['\n'] ++ join ['\n'] ([[]] ++ List.replicate m []) = p ++ '\n' :: w
        rw [e]; simp [join]
  | cons q t ih =>
    obtain ⟨w, hw, e⟩ := ih q
    refine ⟨w, hw, ?_⟩
    show p ++ ['\n'] ++ join ['\n'] (q :: t ++ List.replicate m []) = p ++ ['\n'] ++ join ['\n'] (q :: t) ++ w
    rw [e]; simp

theorem iniJoin_last (v : Str) (ps : List Str) (hv : Trim v) (hp : ∀ p ∈ ps, Trim p) (hl : ps.getLast? ≠ some []) :
    ∀ a c, join ['\n'] (v :: ps) = a ++ [c] → isSpace c = false := by
  induction ps generalizing v with
  | nil =>
    intro a c e
    refine hv.2 c ?_
    have e : v = a ++ [c] := e
    rw [e]; simp
  | cons p t ih =>
    intro a c e
    have e : v ++ ['\n'] ++ join ['\n'] (p :: t) = a ++ [c] := e
    have hl' : t.getLast? ≠ some [] := by
      intro h
      rw [List.getLast?_cons, h] at hl
      exact hl rfl
    rcases List.eq_nil_or_concat (join ['\n'] (p :: t)) with h | ⟨b, d, h⟩
    · cases t with
      | nil =>
        have h : p = [] := h
        rw [h] at hl
        exact absurd rfl hl
      | cons q t =>
        have h : p ++ ['\n'] ++ join ['\n'] (q :: t) = [] := h
        simp at h
    · rw [List.concat_eq_append] at h
      rw [h, ← List.append_assoc] at e
      have := List.append_inj_right' e rfl
      injection this with this
      rw [← this]
      exact ih p (hp p (by simp)) (fun q hq => hp q (by simp [hq])) hl' b d h

theorem strip_trim' {l s r : Str} (hl : Blank l) (hs : Trim s) (hr : Blank r) : strip (l ++ s ++ r) = s := by
  have := strip_trim hl hs hr
  unfold withNL at this
  rwa [strip_end] at this

theorem option_line_trim {k w1 w2 v : Str} {d : Char} (hk : OptionName k) (hd : d = '=' ∨ d = ':') (hv : Trim v)
    (hv0 : v ≠ []) : Trim (k ++ w1 ++ d :: (w2 ++ v)) := by
  obtain ⟨c, t, rfl, _⟩ := hk.start
  refine ⟨?_, ?_⟩
  · intro x hx
    simp only [List.cons_append, List.head?_cons, Option.mem_def, Option.some.injEq] at hx
    exact hx ▸ trim_head hk.trim
  · intro x hx
    rcases List.eq_nil_or_concat v with h | ⟨b, e, h⟩
    · exact absurd h hv0
    · rw [List.concat_eq_append] at h
      subst h
      refine hv.2 x ?_
      simpa [List.getLast?_append, List.getLast?_cons] using hx

theorem option_line_trim' {k w1 : Str} {d : Char} (hk : OptionName k) (hd : d = '=' ∨ d = ':') :
    Trim (k ++ w1 ++ [d]) := by
  obtain ⟨c, t, rfl, _⟩ := hk.start
  refine ⟨?_, ?_⟩
  · intro x hx
    simp only [List.cons_append, List.head?_cons, Option.mem_def, Option.some.injEq] at hx
    exact hx ▸ trim_head hk.trim
  · intro x hx
    rw [List.getLast?_append] at hx
    simp only [List.getLast?_singleton, Option.some_or, Option.mem_def, Option.some.injEq] at hx
    rw [← hx]
    rcases hd with rfl | rfl <;> decide

theorem option_step {done : List (Str × List (Str × List Str))} {name : Str} {opts : List (Str × List Str)}
    (hn : name ∉ done.map Prod.fst) {k w1 w2 v w3 : Str} {d : Char} (hk0 : k ∉ opts.map Prod.fst) (hk : OptionName k)
    (hw2 : Blank w2) (hw1 : Blank w1) (hw3 : Blank w3) (hd : d = '=' ∨ d = ':') (hv : Trim v)
    {s : IniState} (hs : Within done name opts s) :
    ∃ s', iniStep s (withNL (k ++ w1 ++ d :: (w2 ++ v ++ w3))) = .ok s' ∧ Behind done name opts k [v] s' := by
  -- the line without white space at the end
  have hline : ∃ r, strip (withNL (k ++ w1 ++ d :: (w2 ++ v ++ w3))) = k ++ w1 ++ d :: r ∧ strip r = v := by
    by_cases hv0 : v = []
    · subst hv0
      refine ⟨[], ?_, rfl⟩
      have := strip_trim (l := []) (s := k ++ w1 ++ [d]) (r := w2 ++ w3) (by intro c h; cases h)
        (option_line_trim' hk hd) (by
          intro c hc
          rcases List.mem_append.1 hc with hc | hc
          exacts [hw2 c hc, hw3 c hc])
      simpa using this
    · refine ⟨w2 ++ v, ?_, ?_⟩
      · have := strip_trim (l := []) (s := k ++ w1 ++ d :: (w2 ++ v)) (r := w3) (by intro c h; cases h)
          (option_line_trim hk hd hv hv0) hw3
        simpa using this
      · have := strip_trim' (r := []) hw2 hv (by intro c h; cases h)
        simpa using this
  obtain ⟨r, hr, hrv⟩ := hline
  have hh := option_head (r := r) hk hw1 hd
  have hind : ((withNL (k ++ w1 ++ d :: (w2 ++ v ++ w3))).takeWhile isSpace) = [] := by
    obtain ⟨c, t, rfl, _⟩ := hk.start
    have := indent_of (w := []) (c := c) (r := t ++ w1 ++ d :: (w2 ++ v ++ w3)) (by intro c h; cases h)
      (trim_head hk.trim)
    simpa using this
  have hk00 : k ≠ [] := by
    obtain ⟨c, t, rfl, _⟩ := hk.start
    exact List.cons_ne_nil _ _
  have hhead : iniHead s 0 (k ++ w1 ++ d :: r)
      = .ok { s with secs := done ++ [(name, opts ++ [(k, [v])])], opt := some k, indent := 0 } := by
    unfold iniHead
    rw [hh.1, hh.2]
    dsimp only
    rw [hs.cur, hrv]
    dsimp only
    rw [hs.secs, kvGet?_last hn, Option.getD_some, kvGet?_none hk0, if_neg hk00, kvSet_last hn]
    rfl
  refine ⟨{ s with secs := done ++ [(name, opts ++ [(k, [v])])], opt := some k, indent := 0 }, ?_,
    rfl, hs.cur, rfl, rfl⟩
  obtain ⟨c, t, rfl, hc1, hc2, _⟩ := hk.start
  unfold iniStep
  rw [hr, hind]
  simp only [List.cons_append]
  rw [if_neg (by rintro (h | h); exacts [hc1 h, hc2 h])]
  simp only [List.cons_append] at hhead
  rw [← hhead]
  cases s.opt with
  | none => cases s.cur <;> rfl
  | some o =>
    cases s.cur with
    | none => rfl
    | some x => exact if_neg (Nat.not_lt_zero _)

theorem option_behind {done : List (Str × List (Str × List Str))} {name : Str} {opts : List (Str × List Str)}
    (hn : name ∉ done.map Prod.fst) {kv : Str × Str} (hk : kv.1 ∉ opts.map Prod.fst) {ls : List Str}
    (h : OptionLines kv ls) {s : IniState} (hs : Within done name opts s) :
    ∃ s' ps, iniLoop s (ls.map withNL) = .ok s' ∧ Behind done name opts kv.1 ps s' ∧
      rstrip (join ['\n'] ps) = kv.2 := by
  cases h with
  | mk k w1 w2 v w3 d pieces conts fillers hkn hw1 hw2 hw3 hd hv hc hl hf =>
    obtain ⟨s1, e1, b1⟩ := option_step hn hk hkn hw2 hw1 hw3 hd hv hs
    obtain ⟨s2, e2, b2⟩ := conts_behind hn hk hc b1
    obtain ⟨s3, m, e3, b3⟩ := filler_behind hn hk fillers hf b2
    refine ⟨s3, _, ?_, b3, ?_⟩
    · rw [List.map_cons, iniLoop, e1, List.map_append]
      show iniLoop s1 (conts.map withNL ++ fillers.map withNL) = _
      rw [iniLoop_append, e2]
      exact e3
    · obtain ⟨w, hw, e⟩ := join_replicate v pieces m
      rw [List.singleton_append, e]
      unfold rstrip
      rw [rstripP_append_all _ _ _ hw]
      exact rstripP_eq_self _ _ (iniJoin_last v pieces hv (valueLines_trim hc) hl)

/-- The lines of values joined, as at the end of the file. -/
abbrev joinedOpts (o : List (Str × List Str)) : List (Str × Str) := o.map (fun kv => (kv.1, rstrip (join ['\n'] kv.2)))

theorem options_within {done : List (Str × List (Str × List Str))} {name : Str}
    (hn : name ∉ done.map Prod.fst) {items : List (Str × Str)} {blocks : List (List Str)}
    (h : List.Forall₂ OptionLines items blocks) {opts : List (Str × List Str)}
    (hd : (opts.map Prod.fst ++ items.map Prod.fst).Nodup) {s : IniState} (hs : Within done name opts s) :
    ∃ s' opts', iniLoop s (blocks.flatten.map withNL) = .ok s' ∧ Within done name opts' s' ∧
      joinedOpts opts' = joinedOpts opts ++ items := by
  induction h generalizing opts s with
  | nil => exact ⟨s, opts, rfl, hs, by simp⟩
  | @cons kv ls it bt h1 h2 ih =>
    have hk : kv.1 ∉ opts.map Prod.fst := by
      intro hm
      rw [List.nodup_append] at hd
      exact hd.2.2 _ hm _ (by simp) rfl
    obtain ⟨s1, ps, e1, b1, hj⟩ := option_behind hn hk h1 hs
    obtain ⟨s2, o2, e2, w2, hj2⟩ := ih (opts := opts ++ [(kv.1, ps)]) (s := s1) (by simpa using hd) ⟨b1.secs, b1.cur⟩
    refine ⟨s2, o2, ?_, w2, ?_⟩
    · rw [List.flatten_cons, List.map_append, iniLoop_append, e1]
      exact e2
    · rw [hj2]
      simp [joinedOpts, hj]

theorem sectionName_head {name : Str} (h : name ≠ []) : sectionName? ('[' :: (name ++ [']'])) = some name := by
  unfold sectionName?
  simp only [List.append_eq]
  rw [List.reverse_append, List.reverse_singleton, List.singleton_append, List.dropWhile_cons_of_neg (by simp)]
  cases hr : name.reverse with
  | nil => simp at hr; exact absurd hr h
  | cons c t =>
    dsimp only
    rw [← hr, List.reverse_reverse]

/-- The parser stands behind a section. -/
structure After (done : List (Str × List (Str × List Str))) (s : IniState) : Prop where
  secs : s.secs = done
  opt : s.cur = none ∨ done ≠ []

theorem section_after {done : List (Str × List (Str × List Str))} {so : Str × List (Str × Str)} {ls : List Str}
    (hn : so.1 ∉ done.map Prod.fst) (h : SectionLines so ls) {s : IniState} (hs : s.secs = done) :
    ∃ s' opts, iniLoop s (ls.map withNL) = .ok s' ∧ s'.secs = done ++ [(so.1, opts)] ∧ joinedOpts opts = so.2 := by
  cases h with
  | mk name w items fillers blocks hname hw hf hb hd =>
    have hst : strip (withNL ('[' :: (name ++ ']' :: w))) = '[' :: (name ++ [']']) := by
      have ht : Trim ('[' :: (name ++ [']'])) := by
        refine ⟨?_, ?_⟩
        · intro c hc
          simp only [List.head?_cons, Option.mem_def, Option.some.injEq] at hc
          rw [← hc]; decide
        · intro c hc
          rw [← List.cons_append, List.getLast?_append] at hc
          simp only [List.getLast?_singleton, Option.some_or, Option.mem_def, Option.some.injEq] at hc
          rw [← hc]; decide
      have := strip_trim (l := []) (by intro c h; cases h) ht hw
      simpa using this
    have hind : (withNL ('[' :: (name ++ ']' :: w))).takeWhile isSpace = [] := by
      have := indent_of (w := []) (c := '[') (r := name ++ ']' :: w) (by intro c h; cases h) (by decide)
      simpa using this
    have hstep : iniStep s (withNL ('[' :: (name ++ ']' :: w)))
        = .ok { secs := done ++ [(name, [])], cur := some name, opt := none, indent := 0 } := by
      have hh : iniHead s 0 ('[' :: (name ++ [']']))
          = .ok { secs := done ++ [(name, [])], cur := some name, opt := none, indent := 0 } := by
        unfold iniHead
        rw [sectionName_head hname]
        dsimp only
        rw [hs, kvGet?_none hn]
        rfl
      unfold iniStep
      rw [hst, hind]
      dsimp only
      rw [if_neg (by decide)]
      cases s.cur <;> cases s.opt <;> simp only [List.length_nil, Nat.not_lt_zero, if_false] <;> exact hh
    obtain ⟨s2, o2, e2, w2, hj⟩ := options_within (done := done) (name := name) hn hb (opts := [])
      (s := { secs := done ++ [(name, [])], cur := some name, opt := none, indent := 0 }) (by simpa using hd) ⟨rfl, rfl⟩
    refine ⟨s2, o2, ?_, w2.secs, by simpa [joinedOpts] using hj⟩
    rw [List.map_cons, iniLoop, hstep, List.map_append]
    show iniLoop _ _ = _
    rw [iniLoop_append, fillers_before _ hf (Or.inl rfl)]
    exact e2

theorem sections_after {cfg : Parsed} {blocks : List (List Str)} (h : List.Forall₂ SectionLines cfg blocks)
    {done : List (Str × List (Str × List Str))} (hd : (done.map Prod.fst ++ cfg.map Prod.fst).Nodup) {s : IniState}
    (hs : s.secs = done) :
    ∃ s', iniLoop s (blocks.flatten.map withNL) = .ok s' ∧
      s'.secs.map (fun so => (so.1, joinedOpts so.2)) = done.map (fun so => (so.1, joinedOpts so.2)) ++ cfg := by
  induction h generalizing done s with
  | nil => exact ⟨s, rfl, by simp [hs]⟩
  | @cons so ls ct bt h1 h2 ih =>
    have hk : so.1 ∉ done.map Prod.fst := by
      intro hm
      rw [List.nodup_append] at hd
      exact hd.2.2 _ hm _ (by simp) rfl
    obtain ⟨s1, o1, e1, b1, hj⟩ := section_after hk h1 hs
    obtain ⟨s2, e2, hj2⟩ := ih (done := done ++ [(so.1, o1)]) (s := s1) (by simpa using hd) b1
    refine ⟨s2, ?_, ?_⟩
    · rw [List.flatten_cons, List.map_append, iniLoop_append, e1]
      exact e2
    · rw [hj2]
      simp [hj]

theorem parseIni_text {cfg : Parsed} {text : Str} (h : IniText cfg text) : parseIni text = .ok cfg := by
  cases h with
  | mk fillers blocks hf hb hd hdef hnb =>
    have hl : fileLines (asLines (fillers ++ blocks.flatten)) = (fillers ++ blocks.flatten).map withNL := by
      have := readlines_asLines _ [] hnb
      rw [List.append_nil] at this
      rw [fileLines_id _ (asLines_no_cr hnb), this]
      simp [readlines]
    obtain ⟨s, e, hj⟩ := sections_after hb (done := []) (s := { secs := [], cur := none, opt := none, indent := 0 })
      (by simpa using hd) rfl
    unfold parseIni
    rw [hl, List.map_append, iniLoop_append, fillers_before _ hf (Or.inr rfl)]
    show (iniLoop _ _).bind _ = _
    rw [e]
    show Except.ok _ = _
    rw [List.map_nil, List.nil_append] at hj
    simp only [joinedOpts] at hj
    rw [hj, kvGet?_none hdef]
    congr 1
    have : cfg.filter (fun so => so.1 ≠ "DEFAULT".toList) = cfg := by
      rw [List.filter_eq_self]
      intro so hso
      have : so.1 ≠ "DEFAULT".toList := fun e => hdef (e ▸ List.mem_map.2 ⟨so, hso, rfl⟩)
      simpa using this
    rw [this]
    simp

/-! ### Values -/

theorem splitP_join {l : List Str} (h0 : l ≠ []) (h : ∀ s ∈ l, '&' ∉ s) : splitP (· == '&') (join ['&'] l) = l := by
  have hnone : ∀ s : Str, '&' ∉ s → splitP (· == '&') s = [s] := fun s hs =>
    splitP_none _ s fun c hc => by
      simp only [beq_eq_false_iff_ne]
      exact fun e => hs (e ▸ hc)
  induction l with
  | nil => exact absurd rfl h0
  | cons a t ih =>
    cases t with
    | nil => exact hnone a (h a (by simp))
    | cons b t =>
      show splitP (· == '&') (a ++ ['&'] ++ join ['&'] (b :: t)) = _
      rw [List.append_assoc, List.singleton_append, splitP_append_sep _ _ _ _ (by decide), hnone a (h a (by simp)),
        ih (List.cons_ne_nil _ _) (fun s hs => h s (List.mem_cons_of_mem _ hs))]
      rfl

theorem amp_mem_join {a b : Str} {t : List Str} : '&' ∈ join ['&'] (a :: b :: t) := by
  show '&' ∈ a ++ ['&'] ++ join ['&'] (b :: t)
  simp

theorem means_iff (s : Str) (w : Nappy.Word) : Means s w ↔ w = asWord s := by
  constructor
  · intro h
    cases h with
    | one _ h => unfold asWord; rw [if_neg (by simpa using h)]
    | many l h2 hl =>
      match l, h2 with
      | a :: b :: t, _ =>
        unfold asWord
        rw [if_pos (by simpa using amp_mem_join), splitP_join (by simp) hl]
  · rintro rfl
    unfold asWord
    split
    · rename_i h
      have hj := join_splitP '&' s
      have hm := splitP_mem (· == '&') s
      have h' : '&' ∈ s := by simpa using h
      cases hs : splitP (· == '&') s with
      | nil => exact absurd hs (splitP_ne_nil _ _)
      | cons a t =>
        rw [hs] at hj hm
        have hmm : ∀ w ∈ a :: t, '&' ∉ w := by
          intro w hw hc
          have := (hm w hw '&' hc).1
          simp at this
        cases t with
        | nil =>
          exact absurd (show '&' ∈ a by rw [show a = s from hj]; exact h') (hmm a (by simp))
        | cons b t =>
          have := Means.many (a :: b :: t) (by simp) hmm
          rwa [hj] at this
    · rename_i h
      exact Means.one s (by simpa using h)

theorem asWord_inj {s t : Str} (h : asWord s = asWord t) : s = t := by
  have key : ∀ s w, Means s w → s = match w with | .one x => x | .many l => join ['&'] l := by
    intro s w h; cases h <;> rfl
  rw [key s _ ((means_iff s _).2 rfl), key t _ ((means_iff t _).2 rfl), h]

abbrev spaceWord : Str := "__space__".toList

/-- A position at which the word does not lie in what comes before. -/
theorem first_space {a s p q : Str} (ha : ¬ spaceWord <:+: a ++ "__space_".toList)
    (h : a ++ (spaceWord ++ s) = p ++ spaceWord ++ q) : a.length ≤ p.length := by
  by_contra hlt
  have hlt : p.length < a.length := Nat.lt_of_not_le hlt
  apply ha
  have h' : (a ++ "__space_".toList) ++ ('_' :: s) = p ++ spaceWord ++ q := by
    rw [← h]; simp [spaceWord]
  have hlen : (p ++ spaceWord).length ≤ (a ++ "__space_".toList).length := by
    rw [List.length_append, List.length_append]
    have h1 : spaceWord.length = 9 := rfl
    have h2 : ("__space_".toList).length = 8 := rfl
    omega
  have hpre : p ++ spaceWord <+: a ++ "__space_".toList :=
    List.prefix_of_prefix_length_le (l₃ := p ++ spaceWord ++ q) ⟨q, rfl⟩ ⟨_, h'⟩ hlen
  obtain ⟨r, hr⟩ := hpre
  exact ⟨p, r, hr⟩

theorem spacedBy_eq {s t : Str} (h : SpacedBy s t) : replaceSub spaceWord [' '] s = t := by
  have hne : spaceWord ≠ [] := by decide
  induction h with
  | done s h =>
    have := (replaceGo_before (sub := spaceWord) (new := [' ']) hne s [] (by
      intro p q e
      rw [List.append_nil] at e
      exact absurd ⟨p, q, e.symm⟩ h)).1
    rw [List.append_nil] at this
    unfold replaceSub
    rw [this]
    simp [replaceGo]
  | next a s t ha hs ih =>
    unfold replaceSub at ih ⊢
    rw [List.append_assoc, (replaceGo_before (sub := spaceWord) (new := [' ']) hne a (spaceWord ++ s)
      (fun p q e => first_space ha e)).1, (replaceGo_at (s := s) hne).1, ih]
    rfl

/-- The first place of a word. -/
theorem first_place {w s : Str} (h : w <:+: s) :
    ∃ a b, s = a ++ w ++ b ∧ ∀ p q, s = p ++ w ++ q → a.length ≤ p.length := by
  induction s with
  | nil =>
    obtain ⟨p, q, e⟩ := h
    exact ⟨p, q, e.symm, fun p' q' e' => by
      have h1 := congrArg List.length e
      have h2 := congrArg List.length e'
      simp at h1 h2
      simp [h1]⟩
  | cons c t ih =>
    by_cases hp : w <+: c :: t
    · obtain ⟨b, hb⟩ := hp
      exact ⟨[], b, hb.symm, fun p q _ => Nat.zero_le _⟩
    · have ht : w <:+: t := by
        obtain ⟨p, q, e⟩ := h
        cases p with
        | nil => exact absurd ⟨q, e⟩ hp
        | cons x p =>
          simp only [List.cons_append] at e
          injection e with _ e
          exact ⟨p, q, e⟩
      obtain ⟨a, b, e, hmin⟩ := ih ht
      refine ⟨c :: a, b, by rw [e]; simp, ?_⟩
      intro p q e'
      cases p with
      | nil => exact absurd ⟨q, e'.symm⟩ hp
      | cons x p =>
        simp only [List.cons_append] at e'
        injection e' with _ e'
        have := hmin p q e'
        simp only [List.length_cons]
        omega

theorem spacedBy_exists (s : Str) : ∃ t, SpacedBy s t := by
  induction hn : s.length using Nat.strongRecOn generalizing s with
  | _ n ih =>
    by_cases h : spaceWord <:+: s
    · obtain ⟨a, b, e, hmin⟩ := first_place h
      have hb : b.length < n := by
        rw [← hn, e]
        simp only [List.length_append]
        have h1 : spaceWord.length = 9 := rfl
        omega
      obtain ⟨t, ht⟩ := ih b.length hb b rfl
      refine ⟨a ++ ' ' :: t, ?_⟩
      rw [e]
      refine SpacedBy.next a b t ?_ ht
      rintro ⟨p, q, e2⟩
      have e2 : p ++ spaceWord ++ q = a ++ "__space_".toList := e2
      have hle := hmin p (q ++ '_' :: b) (by
        rw [e]
        have : spaceWord = "__space_".toList ++ ['_'] := rfl
        rw [← List.append_assoc (p ++ spaceWord), e2]
        conv => lhs; rw [this]
        simp)
      have h2 := congrArg List.length e2
      simp only [List.length_append] at h2
      have h1 : spaceWord.length = 9 := rfl
      have h3 : ("__space_".toList).length = 8 := rfl
      omega
    · exact ⟨s, SpacedBy.done s h⟩

theorem spacedBy_iff (s t : Str) : SpacedBy s t ↔ t = replaceSub spaceWord [' '] s := by
  constructor
  · intro h; exact (spacedBy_eq h).symm
  · rintro rfl
    obtain ⟨t, ht⟩ := spacedBy_exists s
    rw [spacedBy_eq ht]; exact ht

theorem configValue_iff (v : Str) (w : Nappy.Word) : (∃ t, SpacedBy v t ∧ Means t w) ↔ w = configValue v := by
  constructor
  · rintro ⟨t, h1, h2⟩
    rw [(means_iff _ _).1 h2, (spacedBy_iff _ _).1 h1]; rfl
  · rintro rfl
    exact ⟨_, (spacedBy_iff _ _).2 rfl, (means_iff _ _).2 rfl⟩

theorem forall₂_map_iff {α β : Type} (f : α → β) (l : List α) (m : List β) :
    List.Forall₂ (fun x y => y = f x) l m ↔ m = l.map f := by
  constructor
  · intro h
    induction h with
    | nil => rfl
    | cons h _ ih => rw [h, ih]; rfl
  · rintro rfl
    induction l with
    | nil => exact List.Forall₂.nil
    | cons x t ih => exact List.Forall₂.cons rfl ih

theorem forall₂_congr {α β : Type} {R S : α → β → Prop} (h : ∀ a b, R a b ↔ S a b) {l : List α} {m : List β} :
    List.Forall₂ R l m ↔ List.Forall₂ S l m := by
  constructor <;> intro hf <;> induction hf <;> constructor <;> first | assumption | (first | exact (h _ _).1 ‹_› | exact (h _ _).2 ‹_›)

/-- The dictionary as values. -/
def dictFor (cfg : Parsed) : List (Str × Section) :=
  cfg.map (fun so => (so.1, so.2.map (fun kv => (asWord kv.1, configValue kv.2))))

theorem dictFor_iff (cfg : Parsed) (d : List (Str × Section)) : DictFor cfg d ↔ d = dictFor cfg := by
  unfold DictFor dictFor
  rw [← forall₂_map_iff]
  refine forall₂_congr fun so se => ?_
  have : List.Forall₂ (fun (kv : Str × Str) (ke : Nappy.Word × Nappy.Word) =>
      Means kv.1 ke.1 ∧ ∃ t, SpacedBy kv.2 t ∧ Means t ke.2) so.2 se.2 ↔
      se.2 = so.2.map (fun kv => (asWord kv.1, configValue kv.2)) := by
    rw [← forall₂_map_iff]
    refine forall₂_congr fun kv ke => ?_
    rw [means_iff, configValue_iff, Prod.ext_iff]
  rw [this, Prod.ext_iff]

theorem makeConfigDict_eq {cfg : Parsed} (h1 : (cfg.map Prod.fst).Nodup)
    (h2 : ∀ so ∈ cfg, (so.2.map Prod.fst).Nodup) : makeConfigDict cfg = dictFor cfg := by
  unfold makeConfigDict dictFor
  rw [foldl_kvSet (fun so : Str × List (Str × Str) => so.1)
    (fun so => so.2.foldl (fun e iv => kvSet e (asWord iv.1) (configValue iv.2)) []) cfg [] (by simpa using h1),
    List.nil_append]
  refine List.map_congr_left fun so hso => ?_
  rw [foldl_kvSet (fun iv : Str × Str => asWord iv.1) (fun iv => configValue iv.2) so.2 []]
  · rfl
  · have := (h2 so hso).map (f := asWord) (fun a b hab => asWord_inj hab)
    rw [List.map_map] at this
    simpa [Function.comp_def] using this

end Nappy
