import Verif.HeaderOpen

/-! `openNA` accepts exactly the layouts of `Spec.Header`. -/

namespace Nappy

open Spec

variable {F : Type}

theorem takes_drop {A B ls rest : List Str} (h : Takes ls (A ++ B) rest) :
    Takes (ls.drop A.length) B rest := by
  induction A generalizing ls with
  | nil => exact h
  | cons a A ih =>
    cases ls with
    | nil =>
      have := ih h.2
      simpa [readline] using this
    | cons l ls => exact ih h.2

theorem readFFI_of_top {text : Str} {k : Nat} {top H2 rest : List Str} {c : Common} {ign : List Str}
    (ht : Takes (fileLines text) (top ++ H2) rest) (h : TopOn k top c ign) : readFFI text k = .ok c.FFI := by
  obtain ⟨il, l0, l1, l2, l3, l4, l5, l6, nl, rfl, hk, _, r0, _⟩ := h
  rw [List.append_assoc] at ht
  have := (takes_drop ht).1
  rw [hk] at this
  have q0 := (rowOn_iff pyInt_nil (by decide) _ _).1 r0
  simp only [readFFI, this, q0, ok_bind]
  rfl

/-- The readers that work on lists of words need a conversion that refuses the empty word, as `float` does. -/
theorem row_iff {cd : Codec F} (hcd : ∀ x, cd.float [] ≠ .ok x) {n m : Int} (hm : m = n) (hn : n ≠ 0) (l : Str)
    (xs : List F) : readItemsFromLine l m cd.float = .ok xs ↔ RowOn cd.float n l xs := by
  subst hm; exact (rowOn_iff hcd hn l xs).symm

theorem rowInt_iff {n m : Int} (hm : m = n) (hn : n ≠ 0) (l : Str) (xs : List Int) :
    readItemsFromLine l m pyInt = .ok xs ↔ RowOn pyInt n l xs := by
  subst hm; exact (rowOn_iff pyInt_nil hn l xs).symm

theorem to_1001 {cd : Codec F} (hcd : ∀ x, cd.float [] ≠ .ok x) {k : Nat} {ls rest ign : List Str} {r : NA1001 F}
    (h : readHeader1001 cd k ls = .ok (r, ign, rest)) : ∃ H, Takes ls H rest ∧
      (∃ top H2 ign, H = top ++ H2 ∧ TopOn k top r.c ign) ∧ (r.c.FFI = 1001 → HeaderOn cd k H (.o1001 r)) := by
  obtain ⟨⟨r', ign'⟩, rest', H, e, ht, hL⟩ := (reads_1001 cd k _ _).1 h
  obtain ⟨rfl, e2⟩ := Prod.mk.inj e
  obtain ⟨rfl, rfl⟩ := Prod.mk.inj e2
  obtain ⟨en, z0, z1, top, l0, xn, vs, cs, rfl, htop, h0, hxn, hv, hc⟩ := hL
  dsimp only at en z0 z1 htop h0 hxn hv hc
  refine ⟨_, ht, ⟨top, _, _, rfl, htop⟩, fun hf => ?_⟩
  have hn : nivOf r.c.FFI = 1 := by rw [hf]; decide
  exact ⟨hf, by rw [en, hn], z0, z1, ign, top, l0, xn, vs, cs, rfl, htop,
    (row_iff hcd hn (by decide) _ _).1 h0,
    hn ▸ hxn, hv, hc⟩

theorem from_1001 {cd : Codec F} (hcd : ∀ x, cd.float [] ≠ .ok x) {k : Nat} {ls rest H : List Str} {r : NA1001 F}
    (ht : Takes ls H rest) (h : HeaderOn cd k H (.o1001 r)) : r.c.FFI = 1001 ∧
      (∃ top H2 ign, H = top ++ H2 ∧ TopOn k top r.c ign) ∧ ∃ ign, readHeader1001 cd k ls = .ok (r, ign, rest) := by
  obtain ⟨hf, en, z0, z1, ign, top, l0, xn, vs, cs, rfl, htop, h0, hxn, hv, hc⟩ := h
  refine ⟨hf, ⟨top, _, _, rfl, htop⟩, ign, (reads_1001 cd k _ _).2 ⟨(r, ign), rest, _, rfl, ht, ?_⟩⟩
  have hn : nivOf r.c.FFI = 1 := by rw [hf]; decide
  exact ⟨by rw [en, hn], z0, z1, top, l0, xn, vs, cs, rfl, htop,
    (row_iff hcd hn (by decide) _ _).2 h0,
    by rw [hn]; exact hxn, hv, hc⟩

theorem to_1010 {cd : Codec F} (hcd : ∀ x, cd.float [] ≠ .ok x) {k : Nat} {ls rest ign : List Str} {r : NA1010 F}
    (h : readHeader1010 cd k ls = .ok (r, ign, rest)) : ∃ H, Takes ls H rest ∧
      (∃ top H2 ign, H = top ++ H2 ∧ TopOn k top r.c ign) ∧ (r.c.FFI = 1010 → HeaderOn cd k H (.o1010 r)) := by
  obtain ⟨⟨r', ign'⟩, rest', H, e, ht, hL⟩ := (reads_1010 cd k _ _).1 h
  obtain ⟨rfl, e2⟩ := Prod.mk.inj e
  obtain ⟨rfl, rfl⟩ := Prod.mk.inj e2
  obtain ⟨en, z0, z1, z2, top, l0, xn, vs, as, cs, rfl, htop, h0, hxn, hv, ha, hc⟩ := hL
  dsimp only at en z0 z1 z2 htop h0 hxn hv ha hc
  refine ⟨_, ht, ⟨top, _, _, rfl, htop⟩, fun hf => ?_⟩
  have hn : nivOf r.c.FFI = 1 := by rw [hf]; decide
  exact ⟨hf, by rw [en, hn], z0, z1, z2, ign, top, l0, xn, vs, as, cs, rfl, htop,
    (row_iff hcd hn (by decide) _ _).1 h0,
    hn ▸ hxn, hv, ha, hc⟩

theorem from_1010 {cd : Codec F} (hcd : ∀ x, cd.float [] ≠ .ok x) {k : Nat} {ls rest H : List Str} {r : NA1010 F}
    (ht : Takes ls H rest) (h : HeaderOn cd k H (.o1010 r)) : r.c.FFI = 1010 ∧
      (∃ top H2 ign, H = top ++ H2 ∧ TopOn k top r.c ign) ∧ ∃ ign, readHeader1010 cd k ls = .ok (r, ign, rest) := by
  obtain ⟨hf, en, z0, z1, z2, ign, top, l0, xn, vs, as, cs, rfl, htop, h0, hxn, hv, ha, hc⟩ := h
  refine ⟨hf, ⟨top, _, _, rfl, htop⟩, ign, (reads_1010 cd k _ _).2 ⟨(r, ign), rest, _, rfl, ht, ?_⟩⟩
  have hn : nivOf r.c.FFI = 1 := by rw [hf]; decide
  exact ⟨by rw [en, hn], z0, z1, z2, top, l0, xn, vs, as, cs, rfl, htop,
    (row_iff hcd hn (by decide) _ _).2 h0,
    by rw [hn]; exact hxn, hv, ha, hc⟩

theorem to_1020 {cd : Codec F} (hcd : ∀ x, cd.float [] ≠ .ok x) {k : Nat} {ls rest ign : List Str} {r : NA1020 F}
    (h : readHeader1020 cd k ls = .ok (r, ign, rest)) : ∃ H, Takes ls H rest ∧
      (∃ top H2 ign, H = top ++ H2 ∧ TopOn k top r.c ign) ∧ (r.c.FFI = 1020 → HeaderOn cd k H (.o1020 r)) := by
  obtain ⟨⟨r', ign'⟩, rest', H, e, ht, hL⟩ := (reads_1020 cd k _ _).1 h
  obtain ⟨rfl, e2⟩ := Prod.mk.inj e
  obtain ⟨rfl, rfl⟩ := Prod.mk.inj e2
  obtain ⟨en, z0, z1, z2, top, l0, l1, xn, vs, as, cs, rfl, htop, h0, h1, hxn, hv, ha, hc⟩ := hL
  dsimp only at en z0 z1 z2 htop h0 h1 hxn hv ha hc
  refine ⟨_, ht, ⟨top, _, _, rfl, htop⟩, fun hf => ?_⟩
  have hn : nivOf r.c.FFI = 1 := by rw [hf]; decide
  exact ⟨hf, by rw [en, hn], z0, z1, z2, ign, top, l0, l1, xn, vs, as, cs, rfl, htop,
    (row_iff hcd hn (by decide) _ _).1 h0, h1,
    hn ▸ hxn, hv, ha, hc⟩

theorem from_1020 {cd : Codec F} (hcd : ∀ x, cd.float [] ≠ .ok x) {k : Nat} {ls rest H : List Str} {r : NA1020 F}
    (ht : Takes ls H rest) (h : HeaderOn cd k H (.o1020 r)) : r.c.FFI = 1020 ∧
      (∃ top H2 ign, H = top ++ H2 ∧ TopOn k top r.c ign) ∧ ∃ ign, readHeader1020 cd k ls = .ok (r, ign, rest) := by
  obtain ⟨hf, en, z0, z1, z2, ign, top, l0, l1, xn, vs, as, cs, rfl, htop, h0, h1, hxn, hv, ha, hc⟩ := h
  refine ⟨hf, ⟨top, _, _, rfl, htop⟩, ign, (reads_1020 cd k _ _).2 ⟨(r, ign), rest, _, rfl, ht, ?_⟩⟩
  have hn : nivOf r.c.FFI = 1 := by rw [hf]; decide
  exact ⟨by rw [en, hn], z0, z1, z2, top, l0, l1, xn, vs, as, cs, rfl, htop,
    (row_iff hcd hn (by decide) _ _).2 h0, h1,
    by rw [hn]; exact hxn, hv, ha, hc⟩

theorem to_2010 {cd : Codec F} (hcd : ∀ x, cd.float [] ≠ .ok x) {k : Nat} {ls rest ign : List Str} {r : NA2010 F}
    (h : readHeader2010 cd k ls = .ok (r, ign, rest)) : ∃ H, Takes ls H rest ∧
      (∃ top H2 ign, H = top ++ H2 ∧ TopOn k top r.c ign) ∧ (r.c.FFI ∈ [2010, 3010, 4010] → HeaderOn cd k H (.o2010 r)) := by
  obtain ⟨⟨r', ign'⟩, rest', H, e, ht, hL⟩ := (reads_2010 cd k _ _).1 h
  obtain ⟨rfl, e2⟩ := Prod.mk.inj e
  obtain ⟨rfl, rfl⟩ := Prod.mk.inj e2
  obtain ⟨en, z0, z1, z2, top, l0, l1, l2, l3, xn, vs, as, cs, rfl, htop, h0, h1, h2, h3, hxn, hv, ha, hc⟩ := hL
  dsimp only at en z0 z1 z2 htop h0 h1 h2 h3 hxn hv ha hc
  refine ⟨_, ht, ⟨top, _, _, rfl, htop⟩, fun hf => ?_⟩
  have hn : nivOf r.c.FFI = r.c.FFI / 1000 ∧ (2 ≤ nivOf r.c.FFI) := by
    simp only [List.mem_cons, List.not_mem_nil, or_false] at hf
    rcases hf with h | h | h <;> rw [h] <;> decide
  refine ⟨hf, by rw [en, hn.1], z0, z1, z2, ign, top, l0, l1, l2, l3, xn, vs, as, cs, rfl, htop,
    (row_iff hcd en.symm (by omega) _ _).1 h0, (rowInt_iff (by rw [en]) (by omega) _ _).1 h1,
    (rowInt_iff (by rw [en]) (by omega) _ _).1 h2, h3, by rw [en]; exact hxn, hv, ha, hc⟩

theorem from_2010 {cd : Codec F} (hcd : ∀ x, cd.float [] ≠ .ok x) {k : Nat} {ls rest H : List Str} {r : NA2010 F}
    (ht : Takes ls H rest) (h : HeaderOn cd k H (.o2010 r)) : r.c.FFI ∈ [2010, 3010, 4010] ∧
      (∃ top H2 ign, H = top ++ H2 ∧ TopOn k top r.c ign) ∧ ∃ ign, readHeader2010 cd k ls = .ok (r, ign, rest) := by
  obtain ⟨hf, en, z0, z1, z2, ign, top, l0, l1, l2, l3, xn, vs, as, cs, rfl, htop, h0, h1, h2, h3, hxn, hv, ha, hc⟩ := h
  refine ⟨hf, ⟨top, _, _, rfl, htop⟩, ign, (reads_2010 cd k _ _).2 ⟨(r, ign), rest, _, rfl, ht, ?_⟩⟩
  have hn : nivOf r.c.FFI = r.c.FFI / 1000 ∧ (2 ≤ nivOf r.c.FFI) := by
    simp only [List.mem_cons, List.not_mem_nil, or_false] at hf
    rcases hf with h | h | h <;> rw [h] <;> decide
  have en' : r.NIV = nivOf r.c.FFI := by rw [en, hn.1]
  exact ⟨en', z0, z1, z2, top, l0, l1, l2, l3, xn, vs, as, cs, rfl, htop,
    (row_iff hcd en'.symm (by omega) _ _).2 h0, (rowInt_iff (by rw [en']) (by omega) _ _).2 h1,
    (rowInt_iff (by rw [en']) (by omega) _ _).2 h2, h3, by rw [← en']; exact hxn, hv, ha, hc⟩

theorem to_2110 {cd : Codec F} (hcd : ∀ x, cd.float [] ≠ .ok x) {k : Nat} {ls rest ign : List Str} {r : NA2110 F}
    (h : readHeader2110 cd k ls = .ok (r, ign, rest)) : ∃ H, Takes ls H rest ∧
      (∃ top H2 ign, H = top ++ H2 ∧ TopOn k top r.c ign) ∧ (r.c.FFI = 2110 → HeaderOn cd k H (.o2110 r)) := by
  obtain ⟨⟨r', ign'⟩, rest', H, e, ht, hL⟩ := (reads_2110 cd k _ _).1 h
  obtain ⟨rfl, e2⟩ := Prod.mk.inj e
  obtain ⟨rfl, rfl⟩ := Prod.mk.inj e2
  obtain ⟨en, z0, z1, z2, z3, top, l0, xn, vs, as, cs, rfl, htop, h0, hxn, hv, ha, hc⟩ := hL
  dsimp only at en z0 z1 z2 z3 htop h0 hxn hv ha hc
  refine ⟨_, ht, ⟨top, _, _, rfl, htop⟩, fun hf => ?_⟩
  have hn : nivOf r.c.FFI = 2 := by rw [hf]; decide
  exact ⟨hf, by rw [en, hn], z0, z1, z2, z3, ign, top, l0, xn, vs, as, cs, rfl, htop,
    (row_iff hcd hn (by decide) _ _).1 h0,
    hn ▸ hxn, hv, ha, hc⟩

theorem from_2110 {cd : Codec F} (hcd : ∀ x, cd.float [] ≠ .ok x) {k : Nat} {ls rest H : List Str} {r : NA2110 F}
    (ht : Takes ls H rest) (h : HeaderOn cd k H (.o2110 r)) : r.c.FFI = 2110 ∧
      (∃ top H2 ign, H = top ++ H2 ∧ TopOn k top r.c ign) ∧ ∃ ign, readHeader2110 cd k ls = .ok (r, ign, rest) := by
  obtain ⟨hf, en, z0, z1, z2, z3, ign, top, l0, xn, vs, as, cs, rfl, htop, h0, hxn, hv, ha, hc⟩ := h
  refine ⟨hf, ⟨top, _, _, rfl, htop⟩, ign, (reads_2110 cd k _ _).2 ⟨(r, ign), rest, _, rfl, ht, ?_⟩⟩
  have hn : nivOf r.c.FFI = 2 := by rw [hf]; decide
  exact ⟨by rw [en, hn], z0, z1, z2, z3, top, l0, xn, vs, as, cs, rfl, htop,
    (row_iff hcd hn (by decide) _ _).2 h0,
    by rw [hn]; exact hxn, hv, ha, hc⟩

theorem to_2310 {cd : Codec F} (hcd : ∀ x, cd.float [] ≠ .ok x) {k : Nat} {ls rest ign : List Str} {r : NA2110 F}
    (h : readHeader2310 cd k ls = .ok (r, ign, rest)) : ∃ H, Takes ls H rest ∧
      (∃ top H2 ign, H = top ++ H2 ∧ TopOn k top r.c ign) ∧ (r.c.FFI = 2310 → HeaderOn cd k H (.o2310 r)) := by
  obtain ⟨⟨r', ign'⟩, rest', H, e, ht, hL⟩ := (reads_2310 cd k _ _).1 h
  obtain ⟨rfl, e2⟩ := Prod.mk.inj e
  obtain ⟨rfl, rfl⟩ := Prod.mk.inj e2
  obtain ⟨en, z0, z1, z2, z3, top, l0, xn, vs, as, cs, rfl, htop, h0, hxn, hv, ha, hc⟩ := hL
  dsimp only at en z0 z1 z2 z3 htop h0 hxn hv ha hc
  refine ⟨_, ht, ⟨top, _, _, rfl, htop⟩, fun hf => ?_⟩
  have hn : nivOf r.c.FFI = 2 := by rw [hf]; decide
  exact ⟨hf, by rw [en, hn], z0, z1, z2, z3, ign, top, l0, xn, vs, as, cs, rfl, htop,
    (row_iff hcd rfl (by decide) _ _).1 h0,
    hn ▸ hxn, hv, ha, hc⟩

theorem from_2310 {cd : Codec F} (hcd : ∀ x, cd.float [] ≠ .ok x) {k : Nat} {ls rest H : List Str} {r : NA2110 F}
    (ht : Takes ls H rest) (h : HeaderOn cd k H (.o2310 r)) : r.c.FFI = 2310 ∧
      (∃ top H2 ign, H = top ++ H2 ∧ TopOn k top r.c ign) ∧ ∃ ign, readHeader2310 cd k ls = .ok (r, ign, rest) := by
  obtain ⟨hf, en, z0, z1, z2, z3, ign, top, l0, xn, vs, as, cs, rfl, htop, h0, hxn, hv, ha, hc⟩ := h
  refine ⟨hf, ⟨top, _, _, rfl, htop⟩, ign, (reads_2310 cd k _ _).2 ⟨(r, ign), rest, _, rfl, ht, ?_⟩⟩
  have hn : nivOf r.c.FFI = 2 := by rw [hf]; decide
  exact ⟨by rw [en, hn], z0, z1, z2, z3, top, l0, xn, vs, as, cs, rfl, htop,
    (row_iff hcd rfl (by decide) _ _).2 h0,
    by rw [hn]; exact hxn, hv, ha, hc⟩

theorem to_2160 {cd : Codec F} (hcd : ∀ x, cd.float [] ≠ .ok x) {k : Nat} {ls rest ign : List Str} {r : NA2160 F}
    (h : readHeader2160 cd k ls = .ok (r, ign, rest)) : ∃ H, Takes ls H rest ∧
      (∃ top H2 ign, H = top ++ H2 ∧ TopOn k top r.c ign) ∧ (r.c.FFI = 2160 → HeaderOn cd k H (.o2160 r)) := by
  obtain ⟨⟨r', ign'⟩, rest', H, e, ht, hL⟩ := (reads_2160 cd k _ _).1 h
  obtain ⟨rfl, e2⟩ := Prod.mk.inj e
  obtain ⟨rfl, rfl⟩ := Prod.mk.inj e2
  obtain ⟨en, ei, z0, z1, z2, z3, top, l0, l1, xn, vs, as, cs, rfl, htop, h0, h1, hxn, hv, ha, hc⟩ := hL
  dsimp only at en ei z0 z1 z2 z3 htop h0 h1 hxn hv ha hc
  refine ⟨_, ht, ⟨top, _, _, rfl, htop⟩, fun hf => ?_⟩
  have hn : nivOf r.c.FFI = 2 := by rw [hf]; decide
  exact ⟨hf, by rw [en, hn], z0, z1, z2, z3, top, l0, l1, _, xn, vs, as, cs, rfl, ei ▸ htop,
    (row_iff hcd rfl (by decide) _ _).1 h0, (itemOn_iff _ _).2 rfl, h1,
    hn ▸ hxn, hv, ha, hc⟩

theorem from_2160 {cd : Codec F} (hcd : ∀ x, cd.float [] ≠ .ok x) {k : Nat} {ls rest H : List Str} {r : NA2160 F}
    (ht : Takes ls H rest) (h : HeaderOn cd k H (.o2160 r)) : r.c.FFI = 2160 ∧
      (∃ top H2 ign, H = top ++ H2 ∧ TopOn k top r.c ign) ∧ ∃ ign, readHeader2160 cd k ls = .ok (r, ign, rest) := by
  obtain ⟨hf, en, z0, z1, z2, z3, top, l0, l1, s, xn, vs, as, cs, rfl, htop, h0, hi, h1, hxn, hv, ha, hc⟩ := h
  refine ⟨hf, ⟨top, _, _, rfl, htop⟩, r.ignored, (reads_2160 cd k _ _).2 ⟨(r, r.ignored), rest, _, rfl, ht, ?_⟩⟩
  have hn : nivOf r.c.FFI = 2 := by rw [hf]; decide
  exact ⟨by rw [en, hn], rfl, z0, z1, z2, z3, top, l0, l1, xn, vs, as, cs, rfl, htop,
    (row_iff hcd rfl (by decide) _ _).2 h0, ((itemOn_iff _ _).1 hi ▸ h1),
    by rw [hn]; exact hxn, hv, ha, hc⟩

theorem openNA_iff {cd : Codec F} (hcd : ∀ x, cd.float [] ≠ .ok x) (k : Nat) (text : Str) (o : Obj F) :
    openNA cd k text = .ok o ↔ ∃ H rest, BeginsWith (fileLines text) H rest ∧ HeaderOn cd k H o := by
  simp only [← takes_iff]
  constructor
  · intro h
    unfold openNA at h
    obtain ⟨ffi, hf, h⟩ := ok_of_bind h
    obtain ⟨cls, hc, h⟩ := ok_of_bind h
    unfold getNAFileClass at hc
    split at hc
    · rename_i hs
      injection hc with hc
      subst hc
      have key : ∀ {c : Common} {H rest : List Str}, Takes (fileLines text) H rest →
          (∃ top H2 ign, H = top ++ H2 ∧ TopOn k top c ign) → c.FFI = ffi := by
        rintro c H rest ht ⟨top, H2, ign, rfl, htop⟩
        have := readFFI_of_top ht htop
        rw [hf] at this
        injection this with this
        exact this.symm
      simp only [supportedFFIs, List.mem_cons, List.not_mem_nil, or_false] at hs
      rcases hs with e | e | e | e | e | e | e | e | e <;> subst e <;> simp only [readHeaderOf, Int.reduceEq, if_true, if_false] at h <;>
         obtain ⟨⟨r, ign, rest⟩, h1, h⟩ := ok_of_bind h <;> injection h with h <;> subst h
      · obtain ⟨H, ht, hx, hh⟩ := to_1001 hcd h1; exact ⟨H, rest, ht, hh (key ht hx)⟩
      · obtain ⟨H, ht, hx, hh⟩ := to_1010 hcd h1; exact ⟨H, rest, ht, hh (key ht hx)⟩
      · obtain ⟨H, ht, hx, hh⟩ := to_1020 hcd h1; exact ⟨H, rest, ht, hh (key ht hx)⟩
      · obtain ⟨H, ht, hx, hh⟩ := to_2010 hcd h1; exact ⟨H, rest, ht, hh (by rw [key ht hx]; decide)⟩
      · obtain ⟨H, ht, hx, hh⟩ := to_2110 hcd h1; exact ⟨H, rest, ht, hh (key ht hx)⟩
      · obtain ⟨H, ht, hx, hh⟩ := to_2160 hcd h1; exact ⟨H, rest, ht, hh (key ht hx)⟩
      · obtain ⟨H, ht, hx, hh⟩ := to_2310 hcd h1; exact ⟨H, rest, ht, hh (key ht hx)⟩
      · obtain ⟨H, ht, hx, hh⟩ := to_2010 hcd h1; exact ⟨H, rest, ht, hh (by rw [key ht hx]; decide)⟩
      · obtain ⟨H, ht, hx, hh⟩ := to_2010 hcd h1; exact ⟨H, rest, ht, hh (by rw [key ht hx]; decide)⟩
    · cases hc
  · rintro ⟨H, rest, ht, h⟩
    have fin : ∀ {c : Common}, c.FFI ∈ supportedFFIs → (∃ top H2 ign, H = top ++ H2 ∧ TopOn k top c ign) →
        readHeaderOf cd c.FFI k (fileLines text) = .ok o → openNA cd k text = .ok o := by
      rintro c hs ⟨top, H2, ign, rfl, htop⟩ hr
      unfold openNA getNAFileClass
      rw [readFFI_of_top ht htop]
      simp only [ok_bind, if_pos hs]
      exact hr
    cases o with
    | o1001 r =>
      obtain ⟨hf, hx, ign, hr⟩ := from_1001 hcd ht h
      exact fin (by rw [hf]; decide) hx (by rw [hf]; simp only [readHeaderOf, if_true, hr]; rfl)
    | o1010 r =>
      obtain ⟨hf, hx, ign, hr⟩ := from_1010 hcd ht h
      exact fin (by rw [hf]; decide) hx (by rw [hf]; simp [readHeaderOf, hr])
    | o1020 r =>
      obtain ⟨hf, hx, ign, hr⟩ := from_1020 hcd ht h
      exact fin (by rw [hf]; decide) hx (by rw [hf]; simp [readHeaderOf, hr])
    | o2110 r =>
      obtain ⟨hf, hx, ign, hr⟩ := from_2110 hcd ht h
      exact fin (by rw [hf]; decide) hx (by rw [hf]; simp [readHeaderOf, hr])
    | o2160 r =>
      obtain ⟨hf, hx, ign, hr⟩ := from_2160 hcd ht h
      exact fin (by rw [hf]; decide) hx (by rw [hf]; simp [readHeaderOf, hr])
    | o2310 r =>
      obtain ⟨hf, hx, ign, hr⟩ := from_2310 hcd ht h
      exact fin (by rw [hf]; decide) hx (by rw [hf]; simp [readHeaderOf, hr])
    | o2010 r =>
      obtain ⟨hf, hx, ign, hr⟩ := from_2010 hcd ht h
      simp only [List.mem_cons, List.not_mem_nil, or_false] at hf
      refine fin (c := r.c) ?_ hx ?_
      · rcases hf with h | h | h <;> rw [h] <;> decide
      · rcases hf with h | h | h <;> rw [h] <;> simp [readHeaderOf, hr]

end Nappy
