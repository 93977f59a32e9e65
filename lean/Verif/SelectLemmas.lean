import Verif.Spec.Select
import Verif.ConvertFileLemmas
import Verif.CollectShape

/-! Lemmas about the choice of variables in a conversion from NetCDF. -/

namespace Nappy

open Spec

variable {F : Type}

theorem toLower_other {c d : Char} (hd : d.val.toNat < 97) (h : c.toLower = d) : c = d := by
  unfold Char.toLower at h
  split at h
  · rename_i h1
    exfalso
    have h2 : (65 : Nat) ≤ c.val.toNat := UInt32.le_iff_toNat_le.1 h1.1
    have h3 : c.val.toNat ≤ 90 := UInt32.le_iff_toNat_le.1 h1.2
    have e : (c.val + ('a'.val - 'A'.val)).toNat = c.val.toNat + 32 := by
      rw [UInt32.toNat_add]
      have : ('a'.val - 'A'.val).toNat = 32 := by decide
      rw [this]
      omega
    rw [← h] at hd
    simp only at hd
    omega
  · exact h

theorem safeChar_iff (c d : Char) :
    (if c.toLower = ' ' then '_' else c.toLower) = (if d.toLower = ' ' then '_' else d.toLower) ↔ AlikeChar c d := by
  have hb : ∀ x : Char, x.toLower = ' ' → x = ' ' := fun x h => toLower_other (by decide) h
  have hu : ∀ x : Char, x.toLower = '_' → x = '_' := fun x h => toLower_other (by decide) h
  unfold AlikeChar
  split
  · rename_i h1
    have hc := hb c h1
    subst hc
    split
    · rename_i h2
      have hd := hb d h2
      subst hd
      exact ⟨fun _ => .inl rfl, fun _ => rfl⟩
    · rename_i h2
      constructor
      · intro h
        exact .inr (.inl ⟨rfl, hu d h.symm⟩)
      · rintro (h | ⟨_, h⟩ | ⟨h, _⟩)
        · exact absurd (h.symm.trans h1) h2
        · rw [h]; rfl
        · cases h
  · rename_i h1
    split
    · rename_i h2
      have hd := hb d h2
      subst hd
      constructor
      · intro h
        exact .inr (.inr ⟨hu c h, rfl⟩)
      · rintro (h | ⟨h, _⟩ | ⟨h, _⟩)
        · exact absurd (h.trans h2) h1
        · rw [h] at h1; exact absurd rfl h1
        · rw [h]; rfl
    · rename_i h2
      constructor
      · exact .inl
      · rintro (h | ⟨h, _⟩ | ⟨_, h⟩)
        · exact h
        · rw [h] at h1; exact absurd rfl h1
        · rw [h] at h2; exact absurd rfl h2

theorem safeName_iff (s t : Str) : safeName s = safeName t ↔ Alike s t := by
  induction s generalizing t with
  | nil =>
    cases t with
    | nil => exact ⟨fun _ => ⟨rfl, by intro i c d h; simp at h⟩, fun _ => rfl⟩
    | cons d t => exact ⟨fun h => by simp [safeName] at h, fun h => absurd h.1 (by simp)⟩
  | cons c s ih =>
    cases t with
    | nil => exact ⟨fun h => by simp [safeName] at h, fun h => absurd h.1 (by simp)⟩
    | cons d t =>
      have : safeName (c :: s) = safeName (d :: t) ↔ AlikeChar c d ∧ safeName s = safeName t := by
        rw [← safeChar_iff]
        simp only [safeName, List.map_cons, List.cons.injEq]
      rw [this, ih]
      constructor
      · rintro ⟨h1, h2, h3⟩
        refine ⟨by simp [h2], fun i x y hx hy => ?_⟩
        cases i with
        | zero =>
          simp only [List.getElem?_cons_zero, Option.some.injEq] at hx hy
          rw [← hx, ← hy]; exact h1
        | succ i => exact h3 i x y (by simpa using hx) (by simpa using hy)
      · rintro ⟨h1, h2⟩
        exact ⟨h2 0 c d rfl rfl, by simpa using h1, fun i x y hx hy => h2 (i + 1) x y (by simpa using hx) (by simpa using hy)⟩

theorem takesVar_iff (nc : NCFile F) (ids : Option (List Str)) (ex : List Str) (v : XVar F) (hv : v ∈ nc.vars) :
    takesVar nc.vars ids ex v = true ↔ Asked nc ids ex v := by
  unfold takesVar Asked
  have h1 : fuzzyContains v.name ex = false ↔ ∀ e ∈ ex, ¬ Alike v.name e := by
    rw [← Bool.not_eq_true]
    simp only [fuzzyContains, List.contains_iff_mem, List.mem_map, not_exists, not_and, ← safeName_iff]
    exact ⟨fun h e he h' => h e he h'.symm, fun h e he h' => h e he h'.symm⟩
  have h2 : (boundsVars nc.vars).contains v.name = false ↔
      ∀ w ∈ nc.vars, dictGet? w.attrs "bounds" ≠ some v.name := by
    rw [← Bool.not_eq_true]
    simp only [boundsVars, List.contains_iff_mem, List.mem_filterMap, not_exists, not_and, ne_eq]
  simp only [Bool.and_eq_true, Bool.not_eq_true', h1, h2]
  cases ids with
  | none => simp [hv, and_assoc]
  | some l => simp [hv, and_assoc]

/-- Every variable of a pass, and every one left for the next, was given. -/
theorem analyse_from {env : XEnv F} {requested : Option Int} {vars : List (XVar F)} {a : Analysis F}
    (h : analyse env requested vars = .ok (some a)) :
    (∀ v ∈ a.main ++ a.aux, v ∈ vars ∧ v.axes ≠ []) ∧ (∀ v ∈ a.zero, v ∈ vars ∧ v.axes = []) ∧
      ∀ v ∈ a.unused, v ∈ vars := by
  obtain ⟨p⟩ := analyse_parts h
  obtain ⟨hb1, hb2, _⟩ := best_some p.best
  obtain ⟨n, ns, _, hm, hx⟩ := analyse_shapes h
  have hsub : ∀ v ∈ vars.eraseIdx p.i, v ∈ vars := fun v hv => (List.eraseIdx_sublist _ _).subset hv
  have hax : ∀ v : XVar F, v.shape ≠ [] → v.axes ≠ [] := by
    intro v hv e
    exact hv (by simp [XVar.shape, e])
  refine ⟨fun v hv => ?_, fun v hv => ?_, fun v hv => ?_⟩
  · rcases List.mem_append.1 hv with hv | hv
    · refine ⟨?_, hax v (by rw [hm v hv]; simp)⟩
      have := reorderBy_mem p.orderM v hv
      rw [p.main] at this
      rcases List.mem_cons.1 this with rfl | h2
      · exact List.mem_of_getElem? hb1
      · exact hsub v (p.subM.subset h2)
    · refine ⟨?_, hax v (by rw [hx v hv]; simp)⟩
      have := reorderBy_mem p.orderX v hv
      rw [p.aux] at this
      exact hsub v (p.subX.subset this)
  · rw [p.zero] at hv
    unfold rankZeroVars at hv
    have := List.mem_filter.1 hv
    refine ⟨this.1, ?_⟩
    have := this.2
    simpa [XVar.rank] using this
  · rw [p.unused] at hv
    exact hsub v (p.subU.subset hv)

theorem convertLoop_from {env : XEnv F} {requested : Option Int} :
    ∀ (fuel : Nat) (vars : List (XVar F)) (l : List (Analysis F)),
      convertLoop (analysePass env requested) fuel vars = .ok l → ∀ a ∈ l, ∀ v ∈ taken a, v ∈ vars
  | _, [], l, h, a, ha => by
    rw [convertLoop] at h
    · rw [← Except.ok.inj h] at ha; cases ha
  | 0, _ :: _, l, h, a, ha => by cases h
  | n + 1, v :: vs, l, h, a, ha => by
    rw [convertLoop] at h
    obtain ⟨r, h1, h⟩ := ok_of_bind h
    unfold analysePass at h1
    obtain ⟨a', h2, h1⟩ := ok_of_bind h1
    cases a' with
    | none =>
      rw [← Except.ok.inj h1] at h
      rw [← Except.ok.inj h] at ha
      cases ha
    | some a' =>
      rw [← Except.ok.inj h1] at h
      obtain ⟨rest, h3, h⟩ := ok_of_bind h
      rw [← Except.ok.inj h] at ha
      obtain ⟨f1, f2, f3⟩ := analyse_from h2
      rcases List.mem_cons.1 ha with rfl | ha
      · intro w hw
        rcases List.mem_append.1 hw with hw | hw
        · exact (f1 w hw).1
        · exact (f2 w hw).1
      · intro w hw
        exact f3 w (convertLoop_from n _ rest h3 a ha w hw)

theorem convert_from {env : XEnv F} {show_ : Tree F → Str} {requested : Option Int} {fuel : Nat}
    {vars : List (XVar F)} {l : List (Analysis F)} (h : convert env show_ requested fuel vars = .ok (some l)) :
    ∀ a ∈ l, ∀ w ∈ taken a, ∃ v ∈ vars, UsedAs v w := by
  unfold convert at h
  obtain ⟨v1, h1, h⟩ := ok_of_bind h
  obtain ⟨v2, h2, h⟩ := ok_of_bind h
  obtain ⟨a', h3, h⟩ := ok_of_bind h
  have hv1 : ∀ w ∈ v1, ∃ v ∈ vars, UsedAs v w := by
    intro w hw
    obtain ⟨v, hv, e⟩ := mapRes_mem h1 hw
    refine ⟨v, hv, ?_⟩
    split at e
    · rename_i hr
      obtain ⟨n, _, e⟩ := ok_of_bind e
      have hax : v.axes = [] := by simpa [XVar.rank] using hr
      rw [← Except.ok.inj e]
      exact ⟨fun h => absurd hax h, fun _ => ⟨hax, rfl⟩⟩
    · rename_i hr
      have hax : v.axes ≠ [] := by simpa [XVar.rank] using hr
      exact ⟨fun _ => (Except.ok.inj e).symm, fun h => absurd h hax⟩
  have hv2 : ∀ w ∈ v2, w ∈ v1 := by
    unfold dropCoordinateVars at h2
    split at h2
    · cases h2
    · rw [← Except.ok.inj h2]
      exact fun w hw => (List.mem_filter.1 hw).1
  cases a' with
  | none => cases Except.ok.inj h
  | some a' =>
    obtain ⟨rest, h4, h⟩ := ok_of_bind h
    have := Except.ok.inj h
    injection this with this
    obtain ⟨f1, f2, f3⟩ := analyse_from h3
    intro a ha w hw
    rw [← this] at ha
    refine hv1 w (hv2 w ?_)
    rcases List.mem_cons.1 ha with rfl | ha
    · rcases List.mem_append.1 hw with hw | hw
      · exact (f1 w hw).1
      · exact (f2 w hw).1
    · exact f3 w (convertLoop_from _ _ _ h4 a ha w hw)

end Nappy
