import Verif.HeaderIff
import Verif.RecordJoin
import Verif.Spec.Exchange

/-! Parts of a header can be exchanged. -/

namespace Nappy

open Spec

variable {F : Type}

/-- The lines of a header in five parts. -/
theorem headerOn_parts {cd : Codec F} {k : Nat} {H : List Str} {o : Obj F} (h : HeaderOn cd k H o) :
    ∃ top mid vs aux cs ign, H = top ++ (mid ++ (vs ++ (aux ++ cs))) ∧ TopOn k top o.common ign ∧
      MidOn cd o.common.FFI mid ∧ VarsOn cd vs (varPart o) ∧ AuxPartOn cd aux (auxPart o) ∧ ComsOn cs (comPart o) ∧
      (∀ r, o = .o2160 r → r.ignored = ign) ∧
      ∀ k' top' c' ign' vs' v' aux' a' cs' com', TopOn k' top' c' ign' → c'.FFI = o.common.FFI → VarsOn cd vs' v' →
        AuxPartOn cd aux' a' → SameKind (auxPart o) a' → ComsOn cs' com' →
        HeaderOn cd k' (top' ++ (mid ++ (vs' ++ (aux' ++ cs'))))
          (setTop (setVars (setAux (setComs o com') a') v') c' ign') := by
  cases o with
  | o1001 r =>
    obtain ⟨hf, en, z0, z1, ign, top, l0, xn, vs, cs, rfl, htop, h0, hxn, hv, hc⟩ := h
    refine ⟨top, l0 :: xn, vs, [], cs, ign, by simp, htop, .inl ⟨by show r.c.FFI ∈ _; rw [hf]; decide, l0, xn, _, _, rfl, h0, hxn⟩, hv, rfl,
      hc, (fun _ e => by cases e), ?_⟩
    intro k' top' c' ign' vs' v' aux' a' cs' com' h1 h2 h3 h4 h5 h6
    cases a' with
    | no =>
      cases h4
      exact ⟨h2.trans hf, en, z0, z1, ign', top', l0, xn, vs', cs', by simp, h1, h0, hxn, h3, h6⟩
    | nums _ => exact h5.elim
    | texts _ => exact h5.elim
  | o1010 r =>
    obtain ⟨hf, en, z0, z1, z2, ign, top, l0, xn, vs, as, cs, rfl, htop, h0, hxn, hv, ha, hc⟩ := h
    refine ⟨top, l0 :: xn, vs, as, cs, ign, by simp, htop, .inl ⟨by show r.c.FFI ∈ _; rw [hf]; decide, l0, xn, _, _, rfl, h0, hxn⟩, hv, ha,
      hc, (fun _ e => by cases e), ?_⟩
    intro k' top' c' ign' vs' v' aux' a' cs' com' h1 h2 h3 h4 h5 h6
    cases a' with
    | nums a =>
      exact ⟨h2.trans hf, en, z0, z1, z2, ign', top', l0, xn, vs', aux', cs', by simp, h1, h0, hxn, h3, h4, h6⟩
    | no => exact h5.elim
    | texts _ => exact h5.elim
  | o1020 r =>
    obtain ⟨hf, en, z0, z1, z2, ign, top, l0, l1, xn, vs, as, cs, rfl, htop, h0, hi, hxn, hv, ha, hc⟩ := h
    refine ⟨top, l0 :: l1 :: xn, vs, as, cs, ign, by simp, htop, .inr (.inl ⟨hf, l0, l1, xn, _, _, _, rfl, h0, hi, hxn⟩),
      hv, ha, hc, (fun _ e => by cases e), ?_⟩
    intro k' top' c' ign' vs' v' aux' a' cs' com' h1 h2 h3 h4 h5 h6
    cases a' with
    | nums a =>
      exact ⟨h2.trans hf, en, z0, z1, z2, ign', top', l0, l1, xn, vs', aux', cs', by simp, h1, h0, hi, hxn, h3, h4, h6⟩
    | no => exact h5.elim
    | texts _ => exact h5.elim
  | o2010 r =>
    obtain ⟨hf, en, z0, z1, z2, ign, top, l0, l1, l2, l3, xn, vs, as, cs, rfl, htop, h0, hx1, hx2, hx3, hxn, hv, ha, hc⟩
      := h
    refine ⟨top, l0 :: l1 :: l2 :: (l3 ++ xn), vs, as, cs, ign, by simp, htop,
      .inr (.inr (.inl ⟨hf, l0, l1, l2, l3, xn, _, _, r.NXDEF.reverse, _, _, rfl, en ▸ h0, en ▸ hx1, en ▸ hx2,
        by rw [List.reverse_reverse]; exact hx3, en ▸ hxn⟩)), hv, ha, hc, (fun _ e => by cases e), ?_⟩
    intro k' top' c' ign' vs' v' aux' a' cs' com' h1 h2 h3 h4 h5 h6
    cases a' with
    | nums a =>
      exact ⟨by show c'.FFI ∈ _; rw [h2]; exact hf, by show r.NIV = c'.FFI / 1000; rw [h2]; exact en, z0, z1, z2, ign', top', l0, l1, l2, l3, xn, vs', aux', cs', by simp, h1,
        h0, hx1, hx2, hx3, hxn, h3, h4, h6⟩
    | no => exact h5.elim
    | texts _ => exact h5.elim
  | o2110 r =>
    obtain ⟨hf, en, z0, z1, z2, z3, ign, top, l0, xn, vs, as, cs, rfl, htop, h0, hxn, hv, ha, hc⟩ := h
    refine ⟨top, l0 :: xn, vs, as, cs, ign, by simp, htop,
      .inr (.inr (.inr (.inl ⟨hf, l0, xn, _, _, rfl, h0, hxn⟩))), hv, ha, hc, (fun _ e => by cases e), ?_⟩
    intro k' top' c' ign' vs' v' aux' a' cs' com' h1 h2 h3 h4 h5 h6
    cases a' with
    | nums a =>
      exact ⟨h2.trans hf, en, z0, z1, z2, z3, ign', top', l0, xn, vs', aux', cs', by simp, h1, h0, hxn, h3, h4, h6⟩
    | no => exact h5.elim
    | texts _ => exact h5.elim
  | o2160 r =>
    obtain ⟨hf, en, z0, z1, z2, z3, top, l0, l1, s, xn, vs, as, cs, rfl, htop, h0, hi, hl, hxn, hv, ha, hc⟩ := h
    refine ⟨top, l0 :: l1 :: xn, vs, as, cs, r.ignored, by simp, htop,
      .inr (.inr (.inr (.inr (.inl ⟨hf, l0, l1, xn, _, _, _, _, rfl, h0, hi, hl, hxn⟩)))), hv, ha, hc,
      (fun _ e => by cases e; rfl), ?_⟩
    intro k' top' c' ign' vs' v' aux' a' cs' com' h1 h2 h3 h4 h5 h6
    cases a' with
    | texts a =>
      exact ⟨h2.trans hf, en, z0, z1, z2, z3, top', l0, l1, s, xn, vs', aux', cs', by simp, h1, h0, hi, hl, hxn, h3, h4,
        h6⟩
    | no => exact h5.elim
    | nums _ => exact h5.elim
  | o2310 r =>
    obtain ⟨hf, en, z0, z1, z2, z3, ign, top, l0, xn, vs, as, cs, rfl, htop, h0, hxn, hv, ha, hc⟩ := h
    refine ⟨top, l0 :: xn, vs, as, cs, ign, by simp, htop,
      .inr (.inr (.inr (.inr (.inr ⟨hf, l0, xn, _, _, rfl, h0, hxn⟩)))), hv, ha, hc, (fun _ e => by cases e), ?_⟩
    intro k' top' c' ign' vs' v' aux' a' cs' com' h1 h2 h3 h4 h5 h6
    cases a' with
    | nums a =>
      exact ⟨h2.trans hf, en, z0, z1, z2, z3, ign', top', l0, xn, vs', aux', cs', by simp, h1, h0, hxn, h3, h4, h6⟩
    | no => exact h5.elim
    | texts _ => exact h5.elim

theorem sameKind_refl (a : AuxPart F) : SameKind a a := by cases a <;> trivial

theorem set_same (o : Obj F) (ign : List Str) (h : ∀ r, o = .o2160 r → r.ignored = ign) :
    setTop o o.common ign = o ∧ setVars o (varPart o) = o ∧ setAux o (auxPart o) = o ∧ setComs o (comPart o) = o := by
  cases o with
  | o2160 r => rw [← h r rfl]; exact ⟨rfl, rfl, rfl, rfl⟩
  | _ => exact ⟨rfl, rfl, rfl, rfl⟩

theorem dataOn_moved {cd : Codec F} {ls : List Str} {o od o' : Obj F} (hs : SameShape o o') (h : DataOn cd ls o od) :
    DataOn cd ls o' (withData o od o') := by
  cases o <;> cases o' <;> cases od <;> first | exact hs.elim | exact h.elim | skip
  · obtain ⟨recs, hb, rfl⟩ := h
    simp only [SameShape] at hs
    exact ⟨recs, hs ▸ hb, by simp only [hs]⟩
  · obtain ⟨recs, hb, rfl⟩ := h
    obtain ⟨e1, e2⟩ := hs
    exact ⟨recs, e1 ▸ e2 ▸ hb, by simp only [e1, e2]⟩
  · obtain ⟨recs, hb, rfl⟩ := h
    obtain ⟨e1, e2, e3⟩ := hs
    exact ⟨recs, e1 ▸ e2 ▸ e3 ▸ hb, by simp only [e1, e2, e3]⟩
  · obtain ⟨recs, hb, rfl⟩ := h
    obtain ⟨e1, e2, e3⟩ := hs
    exact ⟨recs, e1 ▸ e2 ▸ e3 ▸ hb, by simp only [e1, e2, List.drop_left]⟩
  · obtain ⟨recs, hb, rfl⟩ := h
    obtain ⟨e1, e2⟩ := hs
    exact ⟨recs, e1 ▸ e2 ▸ hb, by simp only [e1, e2]⟩
  · obtain ⟨recs, hb, rfl⟩ := h
    obtain ⟨e1, e2, e3⟩ := hs
    exact ⟨recs, e1 ▸ e2 ▸ e3 ▸ hb, by simp only [e1, e2, e3]⟩
  · obtain ⟨recs, hb, rfl⟩ := h
    obtain ⟨e1, e2⟩ := hs
    exact ⟨recs, e1 ▸ e2 ▸ hb, by simp only [e1, e2, List.drop_left]⟩

end Nappy
