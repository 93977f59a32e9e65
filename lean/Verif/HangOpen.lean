import Verif.HangLemmas

/-! `openNA` runs for ever exactly on the texts of `Spec.Short`. -/

namespace Nappy

open Spec

variable {F : Type}

/-- The last line is not empty, so that it is a line of the file. -/
def Solid (H : List Str) : Prop := ∃ A l, H = A ++ [l] ∧ l ≠ []

theorem Solid.append (A : List Str) {B : List Str} (h : Solid B) : Solid (A ++ B) := by
  obtain ⟨C, l, rfl, hl⟩ := h
  exact ⟨A ++ C, l, by simp, hl⟩

theorem Solid.cons (a : Str) {B : List Str} (h : Solid B) : Solid (a :: B) := Solid.append [a] h

theorem Solid.one {l : Str} (h : l ≠ []) : Solid [l] := ⟨[], l, rfl, h⟩

theorem takes_solid {ls H t : List Str} (hs : Solid H) (h : Takes ls H t) : ls = H ++ t := by
  obtain ⟨A, l, rfl, hl⟩ := hs
  rcases (takes_iff _ _ _).1 h with e | ⟨e, m, hm⟩
  · exact e
  · cases m with
    | zero => rw [e]; simpa using hm.symm
    | succ m =>
      exfalso
      rw [List.replicate_succ', ← List.append_assoc] at hm
      have := List.append_inj' hm rfl
      exact hl (by simpa using this.2)

theorem intOn_solid {l : Str} {n : Int} (h : IntOn l n) : Solid [l] := by
  refine Solid.one fun e => ?_
  subst e
  have := (intOn_iff _ _).1 h
  have h2 : readItemInt [] = .error .value := by decide
  rw [h2] at this; cases this

theorem row_solid {n : Int} {l : Str} {xs : List Int} (hn : n ≠ 0) (h : RowOn pyInt n l xs) : Solid [l] := by
  refine Solid.one fun e => ?_
  subst e
  obtain ⟨ws, hw, hl, _⟩ := h
  have h2 : lineItems [] = [] := by decide
  rw [← (lineWords_iff _ _).1 hw, h2] at hl
  simp at hl
  omega

theorem listOn_solid {β : Type} {conv : Str → Res β} {n : Int} {ls : List Str} {xs : List β} (h : ListOn conv n ls xs) :
    Solid ls := by
  obtain ⟨pre, l, pw, lw, rfl, _, h2, h3, h4, _⟩ := h
  refine ⟨pre, l, rfl, fun e => ?_⟩
  subst e
  have h5 : lineItems [] = [] := by decide
  rw [← (lineWords_iff _ _).1 h2, h5, List.length_nil] at h4
  omega

theorem axesOn_solid {cd : Codec F} {ns : List Int} {ls : List Str} {xs : List (List F)} (h : AxesOn cd ns ls xs) :
    ls = [] ∨ Solid ls := by
  induction ns generalizing ls xs with
  | nil => exact .inl h.1
  | cons n ns ih =>
    obtain ⟨l1, l2, y, ys, rfl, rfl, h1, h2⟩ := h
    rcases ih h2 with rfl | hs
    · rw [List.append_nil]; exact .inr (listOn_solid h1)
    · exact .inr (hs.append _)

theorem listsShort_solid {cd : Codec F} {H t : List Str} (h : ListsShort cd H t) : Solid H := by
  obtain ⟨l, n, hl, _, rfl | ⟨scal, xs, rfl, hx⟩⟩ := h
  · exact intOn_solid hl
  · exact (listOn_solid hx).cons _

theorem charAuxShort_solid {cd : Codec F} {H t : List Str} (h : CharAuxShort cd H t) : Solid H := by
  obtain ⟨l1, l2, more, nv, nc, rfl, _, h2, _, ⟨rfl, _⟩ | ⟨xs, hx, _⟩ | ⟨s, m, xs, ys, rfl, _, hy, _⟩ |
    ⟨s, m, n, xs, ys, zs, rfl, _, _, hz, _⟩⟩ := h
  · exact (intOn_solid h2).cons _
  · exact ((listOn_solid hx).cons _).cons _
  · exact (((listOn_solid hy).append _).cons _).cons _
  · exact ((((listOn_solid hz).append _).append _).cons _).cons _

theorem headerShort_solid {cd : Codec F} {k : Nat} {H t : List Str} (h : HeaderShort cd k H t) : Solid H := by
  obtain ⟨top, c, ign, _, ⟨hf, dx, nx, nxdef, axes, d, a, b, rfl, _, _, hb, ms, n, more, xs, _, hx, _⟩ |
    ⟨mid, vs, rfl, _, hs⟩ | ⟨mid, vs, aux, v, rfl, _, _, ⟨_, hs⟩ | ⟨_, hs⟩⟩⟩ := h
  · have : Solid [nxdef] := row_solid (n := c.FFI / 1000 - 1) (by
      simp only [List.mem_cons, List.not_mem_nil, or_false] at hf
      rcases hf with h | h | h <;> rw [h] <;> decide) hb
    rcases axesOn_solid hx with rfl | hs
    · exact ((this.cons _).cons _).append _
    · exact (((hs.cons _).cons _).cons _).append _
  · exact ((listsShort_solid hs).append _).append _
  · exact (((listsShort_solid hs).append _).append _).append _
  · exact (((charAuxShort_solid hs).append _).append _).append _

theorem namesOn_any {n : Int} {ls : List Str} (h : ls.length = n.toNat) : ∃ xs, NamesOn n ls xs :=
  ⟨_, (namesOn_iff _ _ _).2 ⟨h, rfl⟩⟩

theorem openNA_hang {cd : Codec F} (hcd : ∀ x, cd.float [] ≠ .ok x) (k : Nat) (text : Str) :
    openNA cd k text = .error .hang ↔ ∃ H t, fileLines text = H ++ t ∧ HeaderShort cd k H t := by
  have toTakes : ∀ {H t}, fileLines text = H ++ t → Takes (fileLines text) H t :=
    fun e => (takes_iff _ _ _).2 (.inl e)
  have hopen : openNA cd k text = .error .hang ↔ ∃ ffi, readFFI text k = .ok ffi ∧ ffi ∈ supportedFFIs ∧
      readHeaderOf cd ffi k (fileLines text) = .error .hang := by
    unfold openNA
    rw [bind_hang]
    constructor
    · rintro (h | ⟨ffi, h, h2⟩)
      · unfold readFFI at h
        rcases bind_hang.1 h with h | ⟨xs, h1, h⟩
        · exact absurd h (row_no_hang pyInt_no_hang _ _)
        · obtain ⟨a, b, rfl⟩ := row_two h1
          cases h
      · unfold getNAFileClass at h2
        split at h2
        · exact ⟨ffi, h, by assumption, h2⟩
        · cases h2
    · rintro ⟨ffi, h, h1, h2⟩
      refine .inr ⟨ffi, h, ?_⟩
      unfold getNAFileClass
      rw [if_pos h1]
      exact h2
  have drop : ∀ {α β : Type} {x : Res α} {f : α → β}, (x >>= fun a => (Except.ok (f a) : Res β)) = .error .hang ↔
      x = .error .hang := by
    intro α β x f
    rw [bind_hang]
    constructor
    · rintro (h | ⟨_, _, h⟩)
      · exact h
      · cases h
    · exact .inl
  rw [hopen]
  constructor
  · rintro ⟨ffi, hf, hs, h⟩
    have key : ∀ {c : Common} {top H2 t ign : List Str}, Takes (fileLines text) (top ++ H2) t →
        TopOn k top c ign → c.FFI = ffi := by
      intro c top H2 t ign ht htop
      have := readFFI_of_top ht htop
      rw [hf] at this
      injection this with this
      exact this.symm
    have fin : ∀ {H t}, Takes (fileLines text) H t → HeaderShort cd k H t →
        ∃ H t, fileLines text = H ++ t ∧ HeaderShort cd k H t :=
      fun ht hh => ⟨_, _, takes_solid (headerShort_solid hh) ht, hh⟩
    -- the end of a header with auxiliary variables
    have fin2 : ∀ {c : Common} {top mid vs t ign : List Str}, Takes (fileLines text) (top ++ (mid ++ vs)) t →
        TopOn k top c ign → MidOn cd c.FFI mid → c.FFI ∉ [1001, 2160] → EndShort cd vs t →
        ∃ H t, fileLines text = H ++ t ∧ HeaderShort cd k H t := by
      rintro c top mid vs t ign ht htop hm hn (h | ⟨ws, aux, v, rfl, hv, h⟩)
      · exact fin ht ⟨top, c, ign, htop, .inr (.inl ⟨mid, vs, rfl, hm, h⟩)⟩
      · exact fin ht ⟨top, c, ign, htop, .inr (.inr ⟨mid, ws, aux, v, rfl, hm, hv, .inl ⟨hn, h⟩⟩)⟩
    have f2010 : readHeader2010 cd k (fileLines text) = .error .hang → ffi ∈ [2010, 3010, 4010] →
        ∃ H t, fileLines text = H ++ t ∧ HeaderShort cd k H t := by
      intro h hm
      obtain ⟨_, t, ht, top, c, ign, dx, nx, nxdef, d, a, b, more, rfl, htop, hd, ha, hb, hh⟩ := (stops_2010 cd k _).1 h
      have e := key ht htop
      subst e
      have hn : nivOf c.FFI = c.FFI / 1000 ∧ 2 ≤ nivOf c.FFI := by
        simp only [List.mem_cons, List.not_mem_nil, or_false] at hm
        rcases hm with h | h | h <;> rw [h] <;> decide
      have hd' := (row_iff hcd hn.1 (by omega) _ _).1 hd
      have ha' := (rowInt_iff (by rw [hn.1] : nivOf c.FFI - 1 = c.FFI / 1000 - 1) (by omega) _ _).1 ha
      have hb' := (rowInt_iff (by rw [hn.1] : nivOf c.FFI - 1 = c.FFI / 1000 - 1) (by omega) _ _).1 hb
      rcases hh with hh | ⟨axes, y, xn, vs, rfl, hy, hx, hh⟩
      · exact fin ht ⟨top, c, ign, htop, .inl ⟨hm, dx, nx, nxdef, more, d, a, b, rfl, hd', ha', hb', hh⟩⟩
      · obtain ⟨x, hx⟩ := namesOn_any (hn.1 ▸ hx)
        refine fin2 (mid := dx :: nx :: nxdef :: (axes ++ xn)) (vs := vs) (by simpa using ht) htop
          (.inr (.inr (.inl ⟨hm, dx, nx, nxdef, axes, xn, d, a, b, y, x, rfl, hd', ha', hb', hy, hx⟩))) ?_ hh
        simp only [List.mem_cons, List.not_mem_nil, or_false] at hm ⊢
        omega
    simp only [supportedFFIs, List.mem_cons, List.not_mem_nil, or_false] at hs
    rcases hs with e | e | e | e | e | e | e | e | e <;> subst e <;>
      simp only [readHeaderOf, Int.reduceEq, if_true, if_false] at h <;> have h := drop.1 h
    · obtain ⟨_, t, ht, top, c, ign, dx, d, xn, vs, rfl, htop, hd, hx, hh⟩ := (stops_1001 cd k _).1 h
      have e := key ht htop
      have hn : nivOf c.FFI = 1 := by rw [e]; decide
      obtain ⟨x, hx⟩ := namesOn_any (hn ▸ hx)
      exact fin ht ⟨top, c, ign, htop, .inr (.inl ⟨dx :: xn, vs, by simp,
        .inl ⟨by rw [e]; decide, dx, xn, d, x, rfl, (row_iff hcd hn (by decide) _ _).1 hd, hx⟩, hh⟩)⟩
    · obtain ⟨_, t, ht, top, c, ign, dx, d, xn, vs, rfl, htop, hd, hx, hh⟩ := (stops_1010 cd k _).1 h
      have e := key ht htop
      have hn : nivOf c.FFI = 1 := by rw [e]; decide
      obtain ⟨x, hx⟩ := namesOn_any (hn ▸ hx)
      exact fin2 (mid := dx :: xn) (vs := vs) (by simpa using ht) htop
        (.inl ⟨by rw [e]; decide, dx, xn, d, x, rfl, (row_iff hcd hn (by decide) _ _).1 hd, hx⟩) (by rw [e]; decide) hh
    · obtain ⟨_, t, ht, top, c, ign, dx, nvpm, d, n, xn, vs, rfl, htop, hd, hi, hx, hh⟩ := (stops_1020 cd k _).1 h
      have e := key ht htop
      have hn : nivOf c.FFI = 1 := by rw [e]; decide
      obtain ⟨x, hx⟩ := namesOn_any (hn ▸ hx)
      exact fin2 (mid := dx :: nvpm :: xn) (vs := vs) (by simpa using ht) htop
        (.inr (.inl ⟨e, dx, nvpm, xn, d, n, x, rfl, (row_iff hcd hn (by decide) _ _).1 hd, hi, hx⟩))
        (by rw [e]; decide) hh
    · exact f2010 h (by decide)
    · obtain ⟨_, t, ht, top, c, ign, dx, d, xn, vs, rfl, htop, hd, hx, hh⟩ := (stops_2110 cd k _).1 h
      have e := key ht htop
      have hn : nivOf c.FFI = 2 := by rw [e]; decide
      obtain ⟨x, hx⟩ := namesOn_any (hn ▸ hx)
      exact fin2 (mid := dx :: xn) (vs := vs) (by simpa using ht) htop
        (.inr (.inr (.inr (.inl ⟨e, dx, xn, d, x, rfl, (row_iff hcd hn (by decide) _ _).1 hd, hx⟩))))
        (by rw [e]; decide) hh
    · obtain ⟨_, t, ht, top, c, ign, dx, lenx, d, y, xn, vs, rfl, htop, hd, hy, hx, hh⟩ := (stops_2160 cd k _).1 h
      have e := key ht htop
      have hn : nivOf c.FFI = 2 := by rw [e]; decide
      obtain ⟨x, hx⟩ := namesOn_any (hn ▸ hx)
      have hm : MidOn cd c.FFI (dx :: lenx :: xn) := .inr (.inr (.inr (.inr (.inl ⟨e, dx, lenx, xn, d, _, y, x, rfl,
        (row_iff hcd rfl (by decide) _ _).1 hd, (itemOn_iff _ _).2 rfl, hy, hx⟩))))
      rcases hh with hh | ⟨ws, aux, v, rfl, hv, hh⟩
      · exact fin ht ⟨top, c, ign, htop, .inr (.inl ⟨dx :: lenx :: xn, vs, by simp, hm, hh⟩)⟩
      · exact fin ht ⟨top, c, ign, htop, .inr (.inr ⟨dx :: lenx :: xn, ws, aux, v, by simp, hm, hv, .inr ⟨e, hh⟩⟩)⟩
    · obtain ⟨_, t, ht, top, c, ign, dx, d, xn, vs, rfl, htop, hd, hx, hh⟩ := (stops_2310 cd k _).1 h
      have e := key ht htop
      have hn : nivOf c.FFI = 2 := by rw [e]; decide
      obtain ⟨x, hx⟩ := namesOn_any (hn ▸ hx)
      exact fin2 (mid := dx :: xn) (vs := vs) (by simpa using ht) htop
        (.inr (.inr (.inr (.inr (.inr ⟨e, dx, xn, d, x, rfl, (row_iff hcd rfl (by decide) _ _).1 hd, hx⟩)))))
        (by rw [e]; decide) hh
    · exact f2010 h (by decide)
    · exact f2010 h (by decide)
  · rintro ⟨H, t, e, top, c, ign, htop, h⟩
    have ht := toTakes e
    have hpre : ∃ H2, H = top ++ H2 := by
      rcases h with ⟨_, dx, nx, nxdef, axes, d, a, b, e, _⟩ | ⟨mid, vs, e, _⟩ | ⟨mid, vs, aux, v, e, _⟩ <;>
        exact ⟨_, e⟩
    have hffi : readFFI text k = .ok c.FFI := by
      obtain ⟨H2, rfl⟩ := hpre
      exact readFFI_of_top ht htop
    clear hpre
    rcases h with ⟨hm, dx, nx, nxdef, axes, d, a, b, rfl, hd, ha, hb, hs⟩ | h
    · have hn : nivOf c.FFI = c.FFI / 1000 ∧ 2 ≤ nivOf c.FFI := by
        simp only [List.mem_cons, List.not_mem_nil, or_false] at hm
        rcases hm with h | h | h <;> rw [h] <;> decide
      have hr := (stops_2010 cd k (fileLines text)).2 ⟨_, t, ht, top, c, ign, dx, nx, nxdef, d, a, b, axes, rfl, htop,
        (row_iff hcd hn.1 (by omega) _ _).2 hd, (rowInt_iff (by rw [hn.1]) (by omega) _ _).2 ha,
        (rowInt_iff (by rw [hn.1]) (by omega) _ _).2 hb, .inl hs⟩
      simp only [List.mem_cons, List.not_mem_nil, or_false] at hm
      refine ⟨c.FFI, hffi, ?_, ?_⟩
      · rcases hm with h | h | h <;> rw [h] <;> decide
      · rcases hm with h | h | h <;> rw [h] <;> simp only [readHeaderOf, Int.reduceEq, if_false] <;> exact drop.2 hr
    · -- the lines in the middle, and what is left
      have h' : ∃ mid vs, H = top ++ (mid ++ vs) ∧ MidOn cd c.FFI mid ∧ (ListsShort cd vs t ∨
          ∃ ws aux v, vs = ws ++ aux ∧ VarsOn cd ws v ∧
            ((c.FFI ∉ [1001, 2160] ∧ ListsShort cd aux t) ∨ (c.FFI = 2160 ∧ CharAuxShort cd aux t))) := by
        rcases h with ⟨mid, vs, e, hm, hs⟩ | ⟨mid, vs, aux, v, e, hm, hv, hs⟩
        · exact ⟨mid, vs, e, hm, .inl hs⟩
        · exact ⟨mid, _, e, hm, .inr ⟨vs, aux, v, rfl, hv, hs⟩⟩
      clear h
      obtain ⟨mid, vs, rfl, hm, hs⟩ := h'
      have hend : c.FFI ≠ 2160 → EndShort cd vs t := by
        intro hne
        rcases hs with hs | ⟨ws, aux, v, rfl, hv, ⟨_, hs⟩ | ⟨h, _⟩⟩
        · exact .inl hs
        · exact .inr ⟨ws, aux, v, rfl, hv, hs⟩
        · exact absurd h hne
      rcases hm with ⟨hf, dx, xn, d, x, rfl, hd, hx⟩ | ⟨hf, dx, nvpm, xn, d, n, x, rfl, hd, hi, hx⟩ |
        ⟨hf, dx, nx, nxdef, axes, xn, d, a, b, y, x, rfl, hd, ha, hb, hy, hx⟩ | ⟨hf, dx, xn, d, x, rfl, hd, hx⟩ |
        ⟨hf, dx, lenx, xn, d, s, y, x, rfl, hd, hi, hy, hx⟩ | ⟨hf, dx, xn, d, x, rfl, hd, hx⟩
      · simp only [List.mem_cons, List.not_mem_nil, or_false] at hf
        rcases hf with hf | hf
        · have hn : nivOf c.FFI = 1 := by rw [hf]; decide
          have hl : ListsShort cd vs t := by
            rcases hs with hs | ⟨ws, aux, v, rfl, hv, ⟨h, _⟩ | ⟨h, _⟩⟩
            · exact hs
            · rw [hf] at h; exact absurd (by decide) h
            · rw [hf] at h; cases h
          have hr := (stops_1001 cd k (fileLines text)).2 ⟨_, t, ht, top, c, ign, dx, d, xn, vs, by simp, htop,
            (row_iff hcd hn (by decide) _ _).2 hd, by rw [hn]; exact hx.1, hl⟩
          refine ⟨c.FFI, hffi, by rw [hf]; decide, ?_⟩
          rw [hf]; simp only [readHeaderOf, Int.reduceEq, if_false, if_true]; exact drop.2 hr
        · have hn : nivOf c.FFI = 1 := by rw [hf]; decide
          have hr := (stops_1010 cd k (fileLines text)).2 ⟨_, t, ht, top, c, ign, dx, d, xn, vs, by simp, htop,
            (row_iff hcd hn (by decide) _ _).2 hd, by rw [hn]; exact hx.1, hend (by omega)⟩
          refine ⟨c.FFI, hffi, by rw [hf]; decide, ?_⟩
          rw [hf]; simp only [readHeaderOf, Int.reduceEq, if_false, if_true]; exact drop.2 hr
      · have hn : nivOf c.FFI = 1 := by rw [hf]; decide
        have hr := (stops_1020 cd k (fileLines text)).2 ⟨_, t, ht, top, c, ign, dx, nvpm, d, n, xn, vs, by simp, htop,
          (row_iff hcd hn (by decide) _ _).2 hd, hi, by rw [hn]; exact hx.1, hend (by omega)⟩
        refine ⟨c.FFI, hffi, by rw [hf]; decide, ?_⟩
        rw [hf]; simp only [readHeaderOf, Int.reduceEq, if_false, if_true]; exact drop.2 hr
      · have hn : nivOf c.FFI = c.FFI / 1000 ∧ 2 ≤ nivOf c.FFI := by
          simp only [List.mem_cons, List.not_mem_nil, or_false] at hf
          rcases hf with h | h | h <;> rw [h] <;> decide
        simp only [List.mem_cons, List.not_mem_nil, or_false] at hf
        have hr := (stops_2010 cd k (fileLines text)).2 ⟨_, t, ht, top, c, ign, dx, nx, nxdef, d, a, b,
          axes ++ (xn ++ vs), by simp, htop,
          (row_iff hcd hn.1 (by omega) _ _).2 hd, (rowInt_iff (by rw [hn.1]) (by omega) _ _).2 ha,
          (rowInt_iff (by rw [hn.1]) (by omega) _ _).2 hb,
          .inr ⟨axes, y, xn, vs, rfl, hy, by rw [hn.1]; exact hx.1, hend (by omega)⟩⟩
        refine ⟨c.FFI, hffi, ?_, ?_⟩
        · rcases hf with h | h | h <;> rw [h] <;> decide
        · rcases hf with h | h | h <;> rw [h] <;> simp only [readHeaderOf, Int.reduceEq, if_false] <;> exact drop.2 hr
      · have hn : nivOf c.FFI = 2 := by rw [hf]; decide
        have hr := (stops_2110 cd k (fileLines text)).2 ⟨_, t, ht, top, c, ign, dx, d, xn, vs, by simp, htop,
          (row_iff hcd hn (by decide) _ _).2 hd, by rw [hn]; exact hx.1, hend (by omega)⟩
        refine ⟨c.FFI, hffi, by rw [hf]; decide, ?_⟩
        rw [hf]; simp only [readHeaderOf, Int.reduceEq, if_false, if_true]; exact drop.2 hr
      · have hn : nivOf c.FFI = 2 := by rw [hf]; decide
        have hl : ListsShort cd vs t ∨ ∃ ws aux v, vs = ws ++ aux ∧ VarsOn cd ws v ∧ CharAuxShort cd aux t := by
          rcases hs with hs | ⟨ws, aux, v, rfl, hv, ⟨h, _⟩ | ⟨_, h⟩⟩
          · exact .inl hs
          · rw [hf] at h; exact absurd (by decide) h
          · exact .inr ⟨ws, aux, v, rfl, hv, h⟩
        have hr := (stops_2160 cd k (fileLines text)).2 ⟨_, t, ht, top, c, ign, dx, lenx, d, y, xn, vs, by simp, htop,
          (row_iff hcd rfl (by decide) _ _).2 hd, by rw [← (itemOn_iff _ _).1 hi]; exact hy, by rw [hn]; exact hx.1, hl⟩
        refine ⟨c.FFI, hffi, by rw [hf]; decide, ?_⟩
        rw [hf]; simp only [readHeaderOf, Int.reduceEq, if_false, if_true]; exact drop.2 hr
      · have hn : nivOf c.FFI = 2 := by rw [hf]; decide
        have hr := (stops_2310 cd k (fileLines text)).2 ⟨_, t, ht, top, c, ign, dx, d, xn, vs, by simp, htop,
          (row_iff hcd rfl (by decide) _ _).2 hd, by rw [hn]; exact hx.1, hend (by omega)⟩
        refine ⟨c.FFI, hffi, by rw [hf]; decide, ?_⟩
        rw [hf]; simp only [readHeaderOf, Int.reduceEq, if_false, if_true]; exact drop.2 hr

end Nappy
