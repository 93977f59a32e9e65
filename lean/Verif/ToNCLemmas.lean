import Verif.Spec.ToNC
import Verif.SelectLemmas
import Verif.ToXLemmas

/-! Lemmas about the names of NetCDF variables made from NASA Ames files. -/

namespace Nappy

open Spec

variable {F : Type}

/-! ### A dictionary of arrays -/

/-- What is known about the dictionary after the variables `l`. -/
structure Named (l d : List (XVar F)) : Prop where
  distinct : (d.map XVar.name).Nodup
  same : ∀ s, s ∈ d.map XVar.name ↔ s ∈ l.map XVar.name
  last : ∀ w ∈ d, LastOfName l w
  keeps : (l.map XVar.name).Nodup → d = l

theorem byNameGo (vs : List (XVar F)) : ∀ l d : List (XVar F), Named l d →
    Named (l ++ vs) (vs.foldl (fun d v => if d.any (fun w => w.name = v.name) then
      d.map (fun w => if w.name = v.name then v else w) else d ++ [v]) d) := by
  induction vs with
  | nil => intro l d h; simpa using h
  | cons v vs ih =>
    intro l d h
    rw [List.foldl_cons, show l ++ v :: vs = (l ++ [v]) ++ vs by simp]
    refine ih _ _ ?_
    by_cases ha : (d.any (fun w => decide (w.name = v.name))) = true
    · rw [if_pos ha]
      obtain ⟨w0, hw0, e0⟩ := List.any_eq_true.1 ha
      have e0 : w0.name = v.name := by simpa using e0
      have hn : (d.map (fun w => if w.name = v.name then v else w)).map XVar.name = d.map XVar.name := by
        rw [List.map_map]
        refine List.map_congr_left fun w _ => ?_
        simp only [Function.comp]
        split
        · rename_i h; exact h.symm
        · rfl
      have hvin : v.name ∈ d.map XVar.name := e0 ▸ List.mem_map.2 ⟨w0, hw0, rfl⟩
      refine ⟨by rw [hn]; exact h.distinct, fun s => ?_, fun w hw => ?_, fun hnd => ?_⟩
      · rw [hn, h.same, List.map_append, List.mem_append]
        constructor
        · exact .inl
        · rintro (h1 | h1)
          · exact h1
          · simp only [List.map_cons, List.map_nil, List.mem_singleton] at h1
            rw [h1]
            exact (h.same _).1 hvin
      · obtain ⟨u, hu, e⟩ := List.mem_map.1 hw
        split at e
        · subst e
          exact ⟨l, [], rfl, by simp⟩
        · rename_i hne
          subst e
          obtain ⟨pre, post, e, hp⟩ := h.last u hu
          refine ⟨pre, post ++ [v], by rw [e]; simp, fun x hx => ?_⟩
          rcases List.mem_append.1 hx with hx | hx
          · exact hp x hx
          · rw [List.mem_singleton.1 hx]; exact fun e => hne e.symm
      · exfalso
        rw [List.map_append, List.nodup_append] at hnd
        exact hnd.2.2 _ ((h.same _).1 hvin) v.name (by simp) rfl
    · rw [if_neg ha]
      have hout : v.name ∉ d.map XVar.name := by
        intro hm
        obtain ⟨w, hw, e⟩ := List.mem_map.1 hm
        exact ha (List.any_eq_true.2 ⟨w, hw, by simpa using e⟩)
      refine ⟨?_, fun s => ?_, fun w hw => ?_, fun hnd => ?_⟩
      · rw [List.map_append, List.nodup_append]
        refine ⟨h.distinct, by simp, fun a ha b hb => ?_⟩
        simp only [List.map_cons, List.map_nil, List.mem_singleton] at hb
        rw [hb]
        exact fun e => hout (e ▸ ha)
      · simp only [List.map_append, List.mem_append, h.same]
      · rcases List.mem_append.1 hw with hw | hw
        · obtain ⟨pre, post, e, hp⟩ := h.last w hw
          refine ⟨pre, post ++ [v], by rw [e]; simp, fun x hx => ?_⟩
          rcases List.mem_append.1 hx with hx | hx
          · exact hp x hx
          · rw [List.mem_singleton.1 hx]
            exact fun e => hout (e ▸ List.mem_map.2 ⟨w, hw, rfl⟩)
        · rw [List.mem_singleton.1 hw]
          exact ⟨l, [], rfl, by simp⟩
      · rw [List.map_append, List.nodup_append] at hnd
        rw [h.keeps hnd.1]

theorem byName_named (l : List (XVar F)) : Named l (byName l) := by
  have : Named ([] : List (XVar F)) [] := ⟨by simp, by simp, by simp, by simp⟩
  simpa [byName] using byNameGo l [] [] this

/-! ### Identifiers -/

theorem isUpper_val {c : Char} (h : c.toLower ≠ c) : 65 ≤ c.val.toNat ∧ c.val.toNat ≤ 90 := by
  unfold Char.toLower at h
  split at h
  · rename_i h1
    exact ⟨UInt32.le_iff_toNat_le.1 h1.1, UInt32.le_iff_toNat_le.1 h1.2⟩
  · exact absurd rfl h

theorem toLower_val {c : Char} (h : c.toLower ≠ c) : c.toLower.val.toNat = c.val.toNat + 32 := by
  unfold Char.toLower at h ⊢
  split
  · rename_i h1
    have h3 : c.val.toNat ≤ 90 := UInt32.le_iff_toNat_le.1 h1.2
    have : ('a'.val - 'A'.val).toNat = 32 := by decide
    show (c.val + ('a'.val - 'A'.val)).toNat = _
    rw [UInt32.toNat_add, this]
    omega
  · rename_i h1; rw [dif_neg h1] at h; exact absurd rfl h

theorem toLower_idem (c : Char) : c.toLower.toLower = c.toLower := by
  by_cases h : c.toLower = c
  · rw [h, h]
  · by_contra h2
    have h1 := isUpper_val h2
    have h3 := toLower_val h
    have h4 := isUpper_val h
    omega

theorem lowered_good {c : Char} (h : c.toLower ≠ c) : isSpace c.toLower = false ∧ c.toLower ∉ badChars := by
  have h1 := isUpper_val h
  have h2 := toLower_val h
  constructor
  · unfold isSpace
    have e : c.toLower.toNat = c.val.toNat + 32 := h2
    rw [e]
    simp only [Bool.or_eq_false_iff, Bool.and_eq_false_iff, decide_eq_false_iff_not, beq_eq_false_iff_ne]
    omega
  · intro hb
    have : ∀ b ∈ badChars, ¬ (97 ≤ b.val.toNat ∧ b.val.toNat ≤ 122) := by decide +kernel
    exact this _ hb (by omega)

theorem unsafeChar_iff (c : Char) : unsafeChar c = false ↔ isSpace c = false ∧ c ∉ badChars := by
  unfold unsafeChar badChars
  rw [Bool.or_eq_false_iff, ← Bool.not_eq_true (List.contains _ _), List.contains_iff_mem]

theorem safeIdGo_facts : ∀ (s : Str) (run : Bool),
    (∀ c ∈ safeIdGo run s, unsafeChar c = false) ∧ (safeIdGo run s).length ≤ s.length ∧
      (s ≠ [] → safeIdGo false s ≠ []) ∧
      (safeIdGo run s).filter (fun c => c != '_') = s.filter (fun c => !unsafeChar c && c != '_')
  | [], run => by simp [safeIdGo]
  | c :: t, run => by
    obtain ⟨a1, a2, _, a4⟩ := safeIdGo_facts t true
    obtain ⟨b1, b2, _, b4⟩ := safeIdGo_facts t false
    have h3 : safeIdGo false (c :: t) ≠ [] := by
      unfold safeIdGo
      split
      · simp
      · simp
    refine ⟨?_, ?_, fun _ => h3, ?_⟩
    · unfold safeIdGo
      split
      · split
        · exact a1
        · intro x hx
          rcases List.mem_cons.1 hx with rfl | hx
          · decide
          · exact a1 x hx
      · rename_i h
        intro x hx
        rcases List.mem_cons.1 hx with rfl | hx
        · simpa using h
        · exact b1 x hx
    · unfold safeIdGo
      split
      · split
        · rw [List.length_cons]; omega
        · simpa using a2
      · simpa using b2
    · unfold safeIdGo
      split
      · rename_i h
        split
        · rw [a4, List.filter_cons, if_neg (by simp [h])]
        · rw [List.filter_cons, if_neg (by simp), a4, List.filter_cons, if_neg (by simp [h])]
      · rename_i h
        have h : unsafeChar c = false := by simpa using h
        rw [List.filter_cons, List.filter_cons, b4]
        simp [h]

theorem badChar_iff (c : Char) : BadChar c ↔ unsafeChar c = true := by
  have := unsafeChar_iff c
  unfold BadChar
  cases h : unsafeChar c with
  | false =>
    obtain ⟨h1, h2⟩ := this.1 h
    simp [h1, h2]
  | true =>
    simp only [iff_true]
    by_contra hn
    rw [not_or] at hn
    have := this.2 ⟨by simpa using hn.1, hn.2⟩
    rw [h] at this
    cases this

theorem safeIdGo_run : ∀ s : Str, safeIdGo true s = safeIdGo false (s.dropWhile unsafeChar)
  | [] => rfl
  | c :: t => by
    cases h : unsafeChar c with
    | true =>
      rw [safeIdGo, if_pos h, if_pos rfl, List.dropWhile_cons_of_pos h, safeIdGo_run t]
    | false =>
      rw [List.dropWhile_cons_of_neg (by simp [h]), safeIdGo, safeIdGo, if_neg (by simp [h]), if_neg (by simp [h])]

theorem cleaned_safeId : ∀ (n : Nat) (s : Str), s.length ≤ n → Cleaned s (lower (safeId s))
  | _, [], _ => .nil
  | 0, _ :: _, h => by simp at h
  | n + 1, c :: t, hl => by
    have hl' : t.length ≤ n := by simpa using hl
    unfold safeId safeIdGo
    cases h : unsafeChar c with
    | false =>
      rw [if_neg (by simp)]
      exact .keep c t _ (by rw [badChar_iff, h]; simp) (cleaned_safeId n t hl')
    | true =>
      rw [if_pos rfl, if_neg (by simp), safeIdGo_run]
      have hd : (t.dropWhile unsafeChar).length ≤ n :=
        Nat.le_trans (List.length_dropWhile_le _ _) hl'
      have hc : Cleaned (c :: t.takeWhile unsafeChar ++ t.dropWhile unsafeChar)
          ('_' :: lower (safeId (t.dropWhile unsafeChar))) := by
        refine .run _ _ _ (by simp) (fun x hx => ?_) (fun x hx => ?_) (cleaned_safeId n _ hd)
        · rw [badChar_iff]
          rcases List.mem_cons.1 hx with rfl | hx
          · exact h
          · exact List.mem_takeWhile_imp hx
        · rw [badChar_iff]
          have := List.head?_dropWhile_not unsafeChar t
          rw [hx] at this
          simpa using this
      rw [List.cons_append, List.takeWhile_append_dropWhile] at hc
      exact hc

/-- A good name is kept. -/
theorem cleaned_good {s t : Str} (h : Cleaned s t) (hg : GoodId s) : t = s := by
  induction h with
  | nil => rfl
  | keep c s t _ _ ih =>
    rw [ih (fun x hx => hg x (by simp [hx])), (hg c (by simp)).2.2]
  | run r s t hne hr _ _ _ =>
    cases r with
    | nil => exact absurd rfl hne
    | cons c r =>
      have := hg c (by simp)
      rcases hr c (by simp) with h | h
      · rw [this.1] at h; cases h
      · exact absurd h this.2.1

theorem idFor_safeId (s : Str) : IdFor s (lower (safeId s)) := by
  obtain ⟨h1, h2, h3, h4⟩ := safeIdGo_facts s false
  have h4 : (safeId s).filter (fun c => c != '_') = s.filter (fun c => !unsafeChar c && c != '_') := h4
  refine ⟨cleaned_safeId _ s (Nat.le_refl _), ?_, by simpa [lower, safeId] using h2,
    fun h => by simpa [lower, safeId] using h3 h, ?_⟩
  · intro c hc
    obtain ⟨d, hd, e⟩ := List.mem_map.1 hc
    rw [← e]
    refine ⟨?_, ?_, toLower_idem d⟩ <;>
    · by_cases hl : d.toLower = d
      · rw [hl]
        have := (unsafeChar_iff d).1 (h1 d hd)
        first | exact this.1 | exact this.2
      · first | exact (lowered_good hl).1 | exact (lowered_good hl).2
  · unfold lower
    rw [List.filter_map]
    have : (safeId s).filter ((fun c => c != '_') ∘ Char.toLower) = (safeId s).filter (fun c => c != '_') := by
      refine List.filter_congr fun c _ => ?_
      rw [Bool.eq_iff_iff]
      simp only [Function.comp, bne_iff_ne, ne_eq, not_iff_not]
      exact ⟨fun h => toLower_other (by decide) h, fun h => by rw [h]; rfl⟩
    rw [this, h4]
    congr 1
    refine List.filter_congr fun c _ => ?_
    have : (!unsafeChar c) = (!isSpace c && !badChars.contains c) := by
      unfold unsafeChar badChars
      rw [Bool.not_or]
    rw [this]

theorem safeName_good {s : Str} (h : ∀ c ∈ s, c ≠ ' ' ∧ c.toLower = c) : safeName s = s := by
  unfold safeName
  conv => rhs; rw [← List.map_id s]
  refine List.map_congr_left fun c hc => ?_
  obtain ⟨h1, h2⟩ := h c hc
  rw [h2, if_neg h1]
  rfl

theorem safeId_good : ∀ (s : Str) (run : Bool), (∀ c ∈ s, unsafeChar c = false) → safeIdGo run s = s
  | [], _, _ => rfl
  | c :: t, run, h => by
    unfold safeIdGo
    rw [if_neg (by rw [h c (by simp)]; simp), safeId_good t false (fun x hx => h x (by simp [hx]))]

/-! ### Renaming -/

theorem lookupLast_append (l : Renames) (k v x : Str) :
    lookupLast (l ++ [(k, v)]) x = if k = x then some v else lookupLast l x := by
  unfold lookupLast
  rw [List.foldl_append]
  rfl

theorem lookupGo_none (l : Renames) (x : Str) (o : Option Str) (h : ∀ kv ∈ l, kv.1 ≠ x) :
    l.foldl (fun o kv => if kv.1 = x then some kv.2 else o) o = o := by
  induction l generalizing o with
  | nil => rfl
  | cons kv t ih =>
    rw [List.foldl_cons, if_neg (h kv (by simp))]
    exact ih _ (fun k hk => h k (by simp [hk]))

theorem lookupLast_none {l : Renames} {x : Str} (h : NotWanted l x) : lookupLast (lowerKeys l) x = none := by
  unfold lookupLast lowerKeys
  refine lookupGo_none _ x none fun kv hkv => ?_
  obtain ⟨kv', h1, e⟩ := List.mem_map.1 hkv
  rw [← e]
  exact h kv' h1

theorem lookupLast_some {l : Renames} {x new : Str} (h : Wanted l x new) : lookupLast (lowerKeys l) x = some new := by
  obtain ⟨pre, k, post, e, hk, hp⟩ := h
  subst e
  unfold lookupLast lowerKeys
  rw [List.map_append, List.foldl_append, List.map_cons, List.foldl_cons]
  rw [lookupGo_none]
  · exact if_pos hk
  · intro kv hkv
    obtain ⟨kv', h1, e⟩ := List.mem_map.1 hkv
    rw [← e]
    exact hp kv' h1

theorem lower_lower (s : Str) : lower (lower s) = lower s := by
  unfold lower
  rw [List.map_map]
  exact List.map_congr_left fun c _ => toLower_idem c

/-- The name and the title of the variables that are made. -/
theorem makeVar_names {env : ToXEnv F} {axes : List (XAxis F)} {short : Str} {units : Option Str} {miss scal : F}
    {data : Tree F} {num aux : Option Int} {v : XVar F}
    (h : makeVar env axes short units miss scal data num aux = .ok v) :
    v.name = safeName short ∧ dictGet? v.attrs "long_name" = some short ∧ dictGet? v.attrs "title" = some short := by
  obtain ⟨_, h1, h2⟩ := ok_of_bind h
  rw [← Except.ok.inj h2]
  refine ⟨rfl, ?_, ?_⟩ <;>
  · cases units with
    | none => rfl
    | some u =>
      by_cases hu : u = []
      · simp [hu, dictGet?]
      · simp [hu, dictGet?]

end Nappy
