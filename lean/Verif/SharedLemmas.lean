import Verif.Spec.Shared
import Verif.CollectorLemmas
import Verif.CollectShape

/-! Which variables come into one file. -/

namespace Nappy

open Spec

variable {F : Type}

theorem sameAxes_iff (eq : F → F → Bool) : ∀ (as bs : List (XAxis F)), as.length = bs.length →
    (sameAxes eq as bs = true ↔ List.Forall₂ (AxesMeet eq) as bs)
  | [], [], _ => by simp [sameAxes]
  | a :: as, b :: bs, h => by
    rw [sameAxes, Bool.and_eq_true, areAxesIdentical_iff, sameAxes_iff eq as bs (by simpa using h),
      List.forall₂_cons]
    exact Iff.rfl
  | [], _ :: _, h => by simp at h
  | _ :: _, [], h => by simp at h

theorem shape_of_meet {eq : F → F → Bool} {b v : XVar F} (h : List.Forall₂ (AxesMeet eq) b.axes v.axes) :
    v.shape = b.shape := by
  unfold XVar.shape
  generalize b.axes = as at h
  generalize v.axes = bs at h
  induction h with
  | nil => rfl
  | cons h1 _ ih => simp only [List.map_cons, ih]; rw [h1.2.1]

theorem sortStep_mem {env : XEnv F} {b : XVar F} {zeroIds : List Str} {s s' : SortState F} {v : XVar F}
    (h : sortStep env b zeroIds s v = .ok s') :
    (s'.main = s.main ++ [v] ∧ s'.aux = s.aux ∧ v.name ∉ zeroIds ∧ List.Forall₂ (AxesMeet env.eq) b.axes v.axes) ∨
    (s'.main = s.main ∧ (v.name ∈ zeroIds ∨ ¬ List.Forall₂ (AxesMeet env.eq) b.axes v.axes) ∧
      (s'.aux = s.aux ∨ (s'.aux = s.aux ++ [v] ∧ v.name ∉ zeroIds ∧ v.shape ≠ b.shape ∧
        ∃ c ax0 more, v.axes = [c] ∧ b.axes = ax0 :: more ∧ AxesMeet env.eq ax0 c))) := by
  unfold sortStep at h
  split at h
  · rename_i hz
    injection h with h; subst h
    exact .inr ⟨rfl, .inl hz, .inl rfl⟩
  rename_i hz
  split at h
  · rename_i hs
    right
    have hno : ¬ List.Forall₂ (AxesMeet env.eq) b.axes v.axes := fun hf => hs (shape_of_meet hf)
    split at h
    · rename_i first haxes
      obtain ⟨ax0, hax, h2⟩ := ok_of_bind h
      unfold sortOneDim at h2
      split at h2
      · rename_i hid
        split at h2 <;> (injection h2 with h2; subst h2)
        · exact ⟨rfl, .inr hno, .inl rfl⟩
        · refine ⟨rfl, .inr hno, .inr ⟨rfl, hz, hs, first, ax0, ?_⟩⟩
          unfold coordByIndex idx at hax
          cases hb : b.axes with
          | nil => rw [hb] at hax; cases hax
          | cons c more =>
            rw [hb] at hax
            simp only [List.getElem?_cons_zero] at hax
            injection hax with hax
            subst hax
            exact ⟨more, haxes, rfl, (areAxesIdentical_iff _ _ _).1 hid⟩
      · split at h2
        · cases h2
        all_goals (injection h2 with h2; subst h2; exact ⟨rfl, .inr hno, .inl rfl⟩)
    · injection h with h; subst h
      exact ⟨rfl, .inr hno, .inl rfl⟩
  · rename_i hs
    have hl : b.axes.length = v.axes.length := by
      have := congrArg List.length (Classical.not_not.1 hs)
      simpa [XVar.shape] using this.symm
    split at h
    · rename_i hsame
      injection h with h; subst h
      exact .inl ⟨rfl, rfl, hz, (sameAxes_iff _ _ _ hl).1 hsame⟩
    · rename_i hsame
      injection h with h; subst h
      exact .inr ⟨rfl, .inr fun hf => hsame ((sameAxes_iff _ _ _ hl).2 hf), .inl rfl⟩

theorem sortGo_mem {env : XEnv F} {b : XVar F} {zeroIds : List Str} : ∀ {vs : List (XVar F)} {s s' : SortState F},
    sortGo env b zeroIds s vs = .ok s' →
    (∀ v, v ∈ s'.main ↔ v ∈ s.main ∨ (v ∈ vs ∧ v.name ∉ zeroIds ∧ List.Forall₂ (AxesMeet env.eq) b.axes v.axes)) ∧
    (∀ v ∈ s'.aux, v ∈ s.aux ∨ (v ∈ vs ∧ v.name ∉ zeroIds ∧ v.shape ≠ b.shape ∧
      ∃ c ax0 more, v.axes = [c] ∧ b.axes = ax0 :: more ∧ AxesMeet env.eq ax0 c))
  | [], s, s', h => by
    injection h with h; subst h
    simp
  | w :: vs, s, s', h => by
    obtain ⟨s1, h1, h2⟩ := ok_of_bind h
    obtain ⟨m, x⟩ := sortGo_mem h2
    rcases sortStep_mem h1 with ⟨e1, e2, e3, e4⟩ | ⟨e1, e2, e3⟩
    · refine ⟨fun v => ?_, fun v hv => ?_⟩
      · rw [m v, e1, List.mem_append, List.mem_singleton, List.mem_cons]
        constructor
        · rintro ((h | rfl) | ⟨h, g⟩)
          · exact .inl h
          · exact .inr ⟨.inl rfl, e3, e4⟩
          · exact .inr ⟨.inr h, g⟩
        · rintro (h | ⟨rfl | h, g⟩)
          · exact .inl (.inl h)
          · exact .inl (.inr rfl)
          · exact .inr ⟨h, g⟩
      · rcases x v hv with h | ⟨h, g⟩
        · exact .inl (e2 ▸ h)
        · exact .inr ⟨List.mem_cons_of_mem _ h, g⟩
    · refine ⟨fun v => ?_, fun v hv => ?_⟩
      · rw [m v, e1, List.mem_cons]
        constructor
        · rintro (h | ⟨h, g⟩)
          · exact .inl h
          · exact .inr ⟨.inr h, g⟩
        · rintro (h | ⟨rfl | h, g1, g2⟩)
          · exact .inl h
          · exact absurd e2 (by simp [g1, g2])
          · exact .inr ⟨h, g1, g2⟩
      · rcases x v hv with h | ⟨h, g⟩
        · rcases e3 with e3 | ⟨e3, g⟩
          · exact .inl (e3 ▸ h)
          · rw [e3, List.mem_append, List.mem_singleton] at h
            rcases h with h | rfl
            · exact .inl h
            · exact .inr ⟨by simp, g⟩
        · exact .inr ⟨List.mem_cons_of_mem _ h, g⟩

theorem analyse_mem {env : XEnv F} {requested : Option Int} {vars : List (XVar F)} {a : Analysis F}
    (h : analyse env requested vars = .ok (some a)) :
    ∃ b ∈ vars, b.axes ≠ [] ∧
      (∀ v ∈ a.main, v ∈ vars ∧ (v = b ∨ (¬ NamedLikeSingleton vars v ∧ List.Forall₂ (AxesMeet env.eq) b.axes v.axes))) ∧
      (∀ v ∈ a.aux, v ∈ vars ∧ ¬ NamedLikeSingleton vars v ∧ v.shape ≠ b.shape ∧
        ∃ c ax0 more, v.axes = [c] ∧ b.axes = ax0 :: more ∧ AxesMeet env.eq ax0 c) ∧
      (NumbersFit XVar.naNumber vars → ∀ v ∈ vars, v = b ∨ (¬ NamedLikeSingleton vars v ∧
        List.Forall₂ (AxesMeet env.eq) b.axes v.axes) → v ∈ a.main) := by
  obtain ⟨p⟩ := analyse_parts h
  obtain ⟨hb1, hb2, _⟩ := best_some p.best
  have hperm := perm_eraseIdx hb1
  have hz : ∀ v : XVar F, v.name ∈ (rankZeroVars vars).map XVar.name ↔ NamedLikeSingleton vars v := by
    intro v
    unfold rankZeroVars NamedLikeSingleton
    simp only [List.mem_map, List.mem_filter]
    constructor
    · rintro ⟨z, ⟨h1, h2⟩, h3⟩
      exact ⟨z, h1, List.eq_nil_of_length_eq_zero (by simpa [XVar.rank] using h2), h3⟩
    · rintro ⟨z, h1, h2, h3⟩
      exact ⟨z, ⟨h1, by simp [XVar.rank, h2]⟩, h3⟩
  obtain ⟨m, x⟩ := sortGo_mem p.sorted
  have hbm : p.b ∈ vars := hperm.mem_iff.2 (by simp)
  refine ⟨p.b, hbm, fun e => hb2 (by simp [XVar.rank, e]), fun v hv => ?_, fun v hv => ?_, fun hn v hv hc => ?_⟩
  · have h1 := (m v).1 (reorderBy_mem p.orderM v hv)
    rw [hz, List.mem_singleton] at h1
    rcases h1 with rfl | ⟨h1, h2⟩
    · exact ⟨hbm, .inl rfl⟩
    · exact ⟨List.mem_of_mem_eraseIdx h1, .inr h2⟩
  · rcases x v (reorderBy_mem p.orderX v hv) with h1 | ⟨h1, h2, h3⟩
    · cases h1
    · rw [hz] at h2
      exact ⟨List.mem_of_mem_eraseIdx h1, h2, h3⟩
  · have fitM : NumbersFit XVar.naNumber p.s.main := by
      rw [p.main]; exact numbersFit_sub (numbersFit_perm hn hperm) (p.subM.cons_cons _)
    obtain ⟨r1, q1, _, _, _, _, pm⟩ := reorderBy_ok _ _ fitM
    rw [p.orderM] at q1; injection q1 with q1; subst q1
    rw [pm.mem_iff, m v, hz, List.mem_singleton]
    rcases hc with rfl | hc
    · exact .inl rfl
    · rcases List.mem_cons.1 (hperm.mem_iff.1 hv) with rfl | hv
      · exact .inl rfl
      · exact .inr ⟨hv, hc⟩

theorem convertLoop_passes {env : XEnv F} {requested : Option Int} :
    ∀ (fuel : Nat) (vars : List (XVar F)) (l : List (Analysis F)),
      convertLoop (analysePass env requested) fuel vars = .ok l →
      ∀ a ∈ l, ∃ vars', vars'.Sublist vars ∧ analyse env requested vars' = .ok (some a)
  | _, [], l, h, a, ha => by
    rw [convertLoop] at h
    · rw [← Except.ok.inj h] at ha; cases ha
  | 0, _ :: _, l, h, a, ha => by cases h
  | n + 1, v :: vs, l, h, a, ha => by
    rw [convertLoop] at h
    obtain ⟨r, h1, h⟩ := ok_of_bind h
    unfold analysePass at h1
    obtain ⟨a', h2, h1⟩ := ok_of_bind h1
    cases a' with
    | none =>
      rw [← Except.ok.inj h1] at h
      rw [← Except.ok.inj h] at ha
      cases ha
    | some a' =>
      rw [← Except.ok.inj h1] at h
      obtain ⟨rest, h3, h⟩ := ok_of_bind h
      rw [← Except.ok.inj h] at ha
      rcases List.mem_cons.1 ha with rfl | ha
      · exact ⟨_, List.Sublist.refl _, h2⟩
      · obtain ⟨vars', g1, g2⟩ := convertLoop_passes n _ rest h3 a ha
        obtain ⟨p⟩ := analyse_parts h2
        refine ⟨vars', g1.trans ?_, g2⟩
        show a'.unused.Sublist (v :: vs)
        rw [p.unused]
        exact p.subU.trans (List.eraseIdx_sublist _ _)

theorem convert_passes {env : XEnv F} {show_ : Tree F → Str} {requested : Option Int} {fuel : Nat}
    {vars ws : List (XVar F)} {l : List (Analysis F)} (h1 : convertSingletonVars show_ vars = .ok ws)
    (h : convert env show_ requested fuel vars = .ok (some l)) :
    ∀ a ∈ l, ∃ vars', vars'.Sublist ws ∧ analyse env requested vars' = .ok (some a) := by
  unfold convert at h
  rw [h1, ok_bind] at h
  obtain ⟨v2, h2, h⟩ := ok_of_bind h
  obtain ⟨a', h3, h⟩ := ok_of_bind h
  have hsub : v2.Sublist ws := by
    unfold dropCoordinateVars at h2
    split at h2
    · cases h2
    · rw [← Except.ok.inj h2]; exact List.filter_sublist
  cases a' with
  | none => cases Except.ok.inj h
  | some a' =>
    obtain ⟨rest, h4, h⟩ := ok_of_bind h
    have := Except.ok.inj h
    injection this with this
    intro a ha
    rw [← this] at ha
    rcases List.mem_cons.1 ha with rfl | ha
    · exact ⟨_, hsub, h3⟩
    · obtain ⟨vars', g1, g2⟩ := convertLoop_passes _ _ _ h4 a ha
      obtain ⟨p⟩ := analyse_parts h3
      refine ⟨vars', g1.trans ?_, g2⟩
      rw [p.unused]
      exact (p.subU.trans (List.eraseIdx_sublist _ _)).trans hsub

theorem face_of_meet {eq : F → F → Bool} {vars : List (XVar F)} (hd : AxesApart eq vars) {b v : XVar F} (hb : b ∈ vars)
    (hv : v ∈ vars) (h : List.Forall₂ (AxesMeet eq) b.axes v.axes) : v.axes.map axisFace = b.axes.map axisFace := by
  have key : ∀ as bs : List (XAxis F), List.Forall₂ (AxesMeet eq) as bs → (∀ x ∈ as, x ∈ b.axes) →
      (∀ y ∈ bs, y ∈ v.axes) → bs.map axisFace = as.map axisFace := by
    intro as bs hf
    induction hf with
    | nil => intros; rfl
    | cons h1 _ ih =>
      intro h2 h3
      have e := hd b hb v hv _ (h2 _ (by simp)) _ (h3 _ (by simp)) h1
      rw [List.map_cons, List.map_cons, ih (fun x hx => h2 x (List.mem_cons_of_mem _ hx))
        (fun y hy => h3 y (List.mem_cons_of_mem _ hy))]
      simp only [axisFace, e, h1.1.1, h1.1.2.1]
  exact key _ _ h (fun _ h => h) (fun _ h => h)

end Nappy
