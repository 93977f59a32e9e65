import Verif.HeaderIff
import Verif.Spec.Short

/-! Opening a file runs for ever exactly if its header ends inside a list of values. -/

namespace Nappy

open Spec

variable {F : Type}

/-- The reader `p` does not return exactly if the lines are `H` and `tail` with `S H tail`. -/
def Stops {γ : Type} (p : List Str → Res γ) (S : List Str → List Str → Prop) : Prop :=
  ∀ ls, p ls = .error .hang ↔ ∃ H tail, Takes ls H tail ∧ S H tail

theorem Stops.congr {γ : Type} {p : List Str → Res γ} {S T : List Str → List Str → Prop} (h : Stops p S)
    (hl : ∀ H t, S H t ↔ T H t) : Stops p T := by
  intro ls; rw [h ls]; simp only [hl]

theorem Stops.never {γ : Type} {p : List Str → Res γ} (h : ∀ ls, p ls ≠ .error .hang) :
    Stops p (fun _ _ => False) := by
  intro ls
  exact ⟨fun e => absurd e (h ls), fun ⟨_, _, _, f⟩ => f.elim⟩

theorem bind_hang {α β : Type} {x : Res α} {f : α → Res β} :
    (x >>= f) = .error .hang ↔ x = .error .hang ∨ ∃ a, x = .ok a ∧ f a = .error .hang := by
  cases x with
  | error e =>
    constructor
    · intro h; left; injection h with h; rw [h]
    · rintro (h | ⟨a, h, _⟩)
      · injection h with h; rw [h]; rfl
      · cases h
  | ok a =>
    constructor
    · intro h; exact .inr ⟨a, rfl, h⟩
    · rintro (h | ⟨b, h, h2⟩)
      · cases h
      · injection h with h; subst h; exact h2

theorem Stops.bind {α γ δ : Type} {mk : α → List Str → γ} {p : List Str → Res γ} {k : γ → Res δ}
    {L : List Str → α → Prop} {S : List Str → List Str → Prop} {T : α → List Str → List Str → Prop}
    (hp : Reads mk p L) (sp : Stops p S) (hq : ∀ a, Stops (fun ls => k (mk a ls)) (T a)) :
    Stops (fun ls => p ls >>= k)
      (fun H t => S H t ∨ ∃ a H1 H2, H = H1 ++ H2 ∧ L H1 a ∧ T a H2 t) := by
  intro ls
  show (p ls >>= k) = _ ↔ _
  rw [bind_hang]
  constructor
  · rintro (h | ⟨c, h1, h2⟩)
    · obtain ⟨H, t, ht, hs⟩ := (sp ls).1 h
      exact ⟨H, t, ht, .inl hs⟩
    · obtain ⟨a, mid, H1, rfl, t1, l1⟩ := (hp _ _).1 h1
      obtain ⟨H2, t, t2, hs⟩ := (hq a mid).1 h2
      exact ⟨H1 ++ H2, t, (takes_append _ _ _ _).2 ⟨mid, t1, t2⟩, .inr ⟨a, H1, H2, rfl, l1, hs⟩⟩
  · rintro ⟨H, t, ht, hs | ⟨a, H1, H2, rfl, l1, hs⟩⟩
    · exact .inl ((sp ls).2 ⟨H, t, ht, hs⟩)
    · obtain ⟨mid, t1, t2⟩ := (takes_append _ _ _ _).1 ht
      exact .inr ⟨mk a mid, (hp _ _).2 ⟨a, mid, H1, rfl, t1, l1⟩, (hq a mid).2 ⟨H2, t, t2, hs⟩⟩

theorem Stops.bind2 {α δ : Type} {p : List Str → Res (α × List Str)} {q : α → List Str → Res δ}
    {L : List Str → α → Prop} {S : List Str → List Str → Prop} {T : α → List Str → List Str → Prop}
    (hp : Reads Prod.mk p L) (sp : Stops p S) (hq : ∀ a, Stops (q a) (T a)) :
    Stops (fun ls => p ls >>= fun x => q x.1 x.2)
      (fun H t => S H t ∨ ∃ a H1 H2, H = H1 ++ H2 ∧ L H1 a ∧ T a H2 t) :=
  Stops.bind hp sp hq

theorem Stops.res {α δ : Type} {r : Res α} (hr : r ≠ .error .hang) {k : α → List Str → Res δ}
    {T : α → List Str → List Str → Prop} (hq : ∀ a, Stops (k a) (T a)) :
    Stops (fun ls => r >>= fun a => k a ls) (fun H t => ∃ a, r = .ok a ∧ T a H t) := by
  intro ls
  show (r >>= fun a => k a ls) = _ ↔ _
  rw [bind_hang]
  constructor
  · rintro (h | ⟨a, h1, h2⟩)
    · exact absurd h hr
    · obtain ⟨H, t, ht, hs⟩ := (hq a ls).1 h2
      exact ⟨H, t, ht, a, h1, hs⟩
  · rintro ⟨H, t, ht, a, h1, hs⟩
    exact .inr ⟨a, h1, (hq a ls).2 ⟨H, t, ht, hs⟩⟩

theorem Stops.ite {γ : Type} {c : Prop} [Decidable c] {p q : List Str → Res γ}
    {S : List Str → List Str → Prop} (hp : c → Stops p S) (hq : ¬ c → Stops q S) :
    Stops (fun ls => if c then p ls else q ls) S := by
  by_cases h : c
  · intro ls; dsimp only; rw [if_pos h]; exact hp h ls
  · intro ls; dsimp only; rw [if_neg h]; exact hq h ls

theorem Stops.line {δ : Type} {q : Str → List Str → Res δ} {T : Str → List Str → List Str → Prop}
    (hq : ∀ l, Stops (q l) (T l)) :
    Stops (fun ls => q (readline ls).1 (readline ls).2) (fun H t => ∃ l H2, H = l :: H2 ∧ T l H2 t) := by
  intro ls
  constructor
  · intro h
    obtain ⟨H2, t, t2, hs⟩ := (hq _ _).1 h
    exact ⟨_ :: H2, t, ⟨rfl, t2⟩, _, H2, rfl, hs⟩
  · rintro ⟨_, t, ht, l, H2, rfl, hs⟩
    obtain ⟨rfl, t2⟩ := ht
    exact (hq _ _).2 ⟨H2, t, t2, hs⟩

theorem Stops.lines {δ : Type} (n : Nat) {q : List Str → List Str → Res δ}
    {T : List Str → List Str → List Str → Prop} (hq : ∀ xs, Stops (q xs) (T xs)) :
    Stops (fun ls => q (readLinesN n ls).1 (readLinesN n ls).2)
      (fun H t => ∃ H1 H2, H = H1 ++ H2 ∧ H1.length = n ∧ T (H1.map strip) H2 t) := by
  intro ls
  obtain ⟨H0, t0, hl, hx⟩ := takes_lines n ls
  constructor
  · intro h
    obtain ⟨H2, t, t2, hs⟩ := (hq _ _).1 h
    exact ⟨_, t, (takes_append _ _ _ _).2 ⟨_, t0, t2⟩, H0, H2, rfl, hl, hx ▸ hs⟩
  · rintro ⟨_, t, ht, H1, H2, rfl, hl1, hs⟩
    obtain ⟨mid, t1, t2⟩ := (takes_append _ _ _ _).1 ht
    obtain ⟨rfl, rfl⟩ := takes_det t1 t0 (by rw [hl, hl1])
    exact (hq _ _).2 ⟨H2, t, t2, hx ▸ hs⟩

/-! ### What returns -/

theorem mapRes_no_hang {α β : Type} {f : α → Res β} (h : ∀ a, f a ≠ .error .hang) (l : List α) :
    mapRes f l ≠ .error .hang := by
  induction l with
  | nil => exact fun h => by cases h
  | cons a t ih =>
    unfold mapRes
    rw [Ne, bind_hang]
    rintro (h1 | ⟨b, _, h1⟩)
    · exact h a h1
    · rcases bind_hang.1 h1 with h1 | ⟨c, _, h1⟩
      · exact ih h1
      · cases h1

theorem pyInt_no_hang (s : Str) : pyInt s ≠ .error .hang := by
  unfold pyInt
  split <;> simp

theorem float_no_hang (cd : Codec F) (s : Str) : cd.float s ≠ .error .hang := by
  unfold Codec.float; split <;> simp

theorem row_no_hang {β : Type} {conv : Str → Res β} (h : ∀ s, conv s ≠ .error .hang) (l : Str) (n : Int) :
    readItemsFromLine l n conv ≠ .error .hang := by
  rw [readItemsFromLine_eq]
  dsimp only
  by_cases h0 : lineItems l = [] <;> simp only [h0, if_true, if_false] <;> split <;>
    first | exact mapRes_no_hang h _ | exact fun h => by cases h

theorem stops_int : Stops readIntLine (fun _ _ => False) := by
  refine Stops.never fun ls => ?_
  unfold readIntLine
  rw [Ne, bind_hang]
  rintro (h | ⟨_, _, h⟩)
  · exact pyInt_no_hang _ h
  · cases h

theorem stops_top (k : Nat) : Stops (readCommon k) (fun _ _ => False) := by
  refine Stops.never fun ls => ?_
  unfold readCommon
  generalize readIgnored k ls = p
  obtain ⟨ign, ls0⟩ := p
  dsimp only
  rw [Ne, bind_hang]
  rintro (h | ⟨xs, h1, h⟩)
  · exact row_no_hang pyInt_no_hang _ _ h
  obtain ⟨nl, ffi, rfl⟩ := row_two h1
  dsimp only at h
  rcases bind_hang.1 h with h | ⟨ys, h2, h⟩
  · exact row_no_hang pyInt_no_hang _ _ h
  obtain ⟨iv, nv, rfl⟩ := row_two h2
  dsimp only at h
  rcases bind_hang.1 h with h | ⟨zs, _, h⟩
  · exact row_no_hang pyInt_no_hang _ _ h
  · cases h

theorem stops_coms : Stops readComments (fun _ _ => False) := by
  refine Stops.never fun ls => ?_
  unfold readComments
  rw [Ne, bind_hang]
  have hi : ∀ ls, readIntLine ls ≠ .error .hang := fun ls h => by
    obtain ⟨_, _, _, f⟩ := (stops_int ls).1 h; exact f
  rintro (h | ⟨x, _, h⟩)
  · exact hi _ h
  · dsimp only at h
    rcases bind_hang.1 h with h | ⟨y, _, h⟩
    · exact hi _ h
    · cases h

/-! ### Sections -/

theorem short_iff (n : Int) (t : List Str) : Short n t ↔ 0 < n ∧ ((allItems t).length : Int) < n := by
  have hb : ∀ pre : List Str, allItems pre = (pre.map lineItems).flatten := by
    intro pre
    induction pre with
    | nil => rfl
    | cons a t ih => rw [allItems_cons, ih]; simp
  unfold Short
  constructor
  · rintro ⟨h, gs, hg, hl⟩
    rw [(lineWords_all _ _).1 hg, ← hb] at hl
    exact ⟨h, hl⟩
  · rintro ⟨h, hl⟩
    exact ⟨h, _, (lineWords_all _ _).2 rfl, hb t ▸ hl⟩

theorem stops_list {β : Type} (n : Int) {conv : Str → Res β} (hc : ∀ s, conv s ≠ .error .hang) :
    Stops (readUnkFile n conv) (fun H t => H = [] ∧ Short n t) := by
  intro ls
  rw [readUnk_hang_iff n conv ls hc]
  constructor
  · intro h; exact ⟨[], ls, rfl, rfl, (short_iff _ _).2 h⟩
  · rintro ⟨_, t, ht, rfl, h⟩
    cases ht
    exact (short_iff _ _).1 h

theorem stops_vars (cd : Codec F) : Stops (readVars cd) (ListsShort cd) := by
  have t (nv : Int) (scal miss : List F) : Stops (fun ls => Except.ok (ε := Err)
      (({ NV := nv, VSCAL := scal, VMISS := miss, VNAME := readItemsFromLines (readLinesN nv.toNat ls).1 } : VarHdr F),
        (readLinesN nv.toNat ls).2)) (fun _ _ => False) := Stops.never fun _ h => by cases h
  refine Stops.congr (Stops.bind reads_int stops_int fun nv =>
    Stops.bind (reads_list cd.float nv) (stops_list nv (float_no_hang cd)) fun scal =>
    Stops.bind (reads_list cd.float nv) (stops_list nv (float_no_hang cd)) fun miss => t nv scal miss) ?_
  intro H t
  unfold ListsShort
  constructor
  · rintro (h | ⟨nv, _, _, rfl, ⟨l, rfl, hl⟩, ⟨rfl, hs⟩ | ⟨scal, h1, _, rfl, hx, ⟨rfl, hs⟩ | ⟨_, _, _, _, _, h⟩⟩⟩)
    · exact h.elim
    · exact ⟨l, nv, hl, hs, .inl rfl⟩
    · exact ⟨l, nv, hl, hs, .inr ⟨h1, scal, by simp, hx⟩⟩
    · exact h.elim
  · rintro ⟨l, nv, hl, hs, rfl | ⟨h1, scal, rfl, hx⟩⟩
    · exact .inr ⟨nv, [l], [], rfl, ⟨l, rfl, hl⟩, .inl ⟨rfl, hs⟩⟩
    · exact .inr ⟨nv, [l], h1, rfl, ⟨l, rfl, hl⟩, .inr ⟨scal, h1, [], by simp, hx, .inl ⟨rfl, hs⟩⟩⟩

theorem stops_aux (cd : Codec F) : Stops (readAux cd) (ListsShort cd) := by
  have key : ∀ nauxv : Int, Stops (γ := AuxHdr F × List Str) (fun ls =>
      if nauxv > 0 then do
        let (ascal, ls) ← readUnkFile nauxv cd.float ls
        let (amiss, ls) ← readUnkFile nauxv cd.float ls
        let (names, ls) := readLinesN nauxv.toNat ls
        .ok ({ NAUXV := nauxv, ASCAL := ascal, AMISS := amiss, ANAME := readItemsFromLines names }, ls)
      else .ok ({ NAUXV := nauxv, ASCAL := [], AMISS := [], ANAME := [] }, ls))
      (fun H t => Short nauxv t ∧ (H = [] ∨ ∃ xs, ListOn cd.float nauxv H xs)) := by
    intro nauxv
    refine Stops.ite ?_ ?_ <;> intro h
    · have t (scal miss : List F) : Stops (fun ls => Except.ok (ε := Err)
          (({ NAUXV := nauxv, ASCAL := scal, AMISS := miss,
              ANAME := readItemsFromLines (readLinesN nauxv.toNat ls).1 } : AuxHdr F),
            (readLinesN nauxv.toNat ls).2)) (fun _ _ => False) := Stops.never fun _ h => by cases h
      refine Stops.congr (Stops.bind (reads_list cd.float nauxv) (stops_list nauxv (float_no_hang cd)) fun scal =>
        Stops.bind (reads_list cd.float nauxv) (stops_list nauxv (float_no_hang cd)) fun miss => t scal miss) ?_
      intro H t
      constructor
      · rintro (⟨rfl, hs⟩ | ⟨scal, h1, _, rfl, hx, ⟨rfl, hs⟩ | ⟨_, _, _, _, _, h⟩⟩)
        · exact ⟨hs, .inl rfl⟩
        · exact ⟨hs, .inr ⟨scal, by simpa using hx⟩⟩
        · exact h.elim
      · rintro ⟨hs, rfl | ⟨xs, hx⟩⟩
        · exact .inl ⟨rfl, hs⟩
        · exact .inr ⟨xs, H, [], by simp, hx, .inl ⟨rfl, hs⟩⟩
    · refine Stops.congr (Stops.never fun _ h => by cases h) ?_
      intro H t
      exact ⟨fun h => h.elim, fun ⟨hs, _⟩ => h hs.1⟩
  refine Stops.congr (Stops.bind reads_int stops_int key) ?_
  intro H t
  unfold ListsShort
  constructor
  · rintro (h | ⟨n, _, _, rfl, ⟨l, rfl, hl⟩, hs, rfl | ⟨xs, hx⟩⟩)
    · exact h.elim
    · exact ⟨l, n, hl, hs, .inl rfl⟩
    · exact ⟨l, n, hl, hs, .inr ⟨_, xs, rfl, hx⟩⟩
  · rintro ⟨l, n, hl, hs, rfl | ⟨h1, xs, rfl, hx⟩⟩
    · exact .inr ⟨n, [l], [], rfl, ⟨l, rfl, hl⟩, hs, .inl rfl⟩
    · exact .inr ⟨n, [l], h1, rfl, ⟨l, rfl, hl⟩, hs, .inr ⟨xs, hx⟩⟩

theorem stops_charAux (cd : Codec F) : Stops (readCharAux cd) (CharAuxShort cd) := by
  have key : ∀ nv nc : Int, Stops (γ := CharAuxHdr F × List Str) (fun ls =>
      if nv > 0 then do
        let (ascal, ls) ← readUnkFile (nv - nc) cd.float ls
        let (amiss, ls) ← readUnkFile (nv - nc) cd.float ls
        let (lena, ls) ← readUnkFile nc pyInt ls
        let (amissc, ls) ← readUnkFile nc (fun s => (.ok s : Res Str)) ls
        let (names, ls) := readLinesN nv.toNat ls
        .ok ({ NAUXV := nv, NAUXC := nc, ASCAL := ascal,
               AMISS := amiss.map .num ++ amissc.map .str,
               LENA := List.replicate (nv - nc).toNat none ++ lena.map some,
               ANAME := readItemsFromLines names }, ls)
      else .ok ({ NAUXV := nv, NAUXC := nc, ASCAL := [], AMISS := [], LENA := [], ANAME := [] }, ls))
      (fun more tail => 0 < nv ∧ ((more = [] ∧ Short (nv - nc) tail) ∨
        (∃ xs, ListOn cd.float (nv - nc) more xs ∧ Short (nv - nc) tail) ∨
        (∃ scal miss xs ys, more = scal ++ miss ∧ ListOn cd.float (nv - nc) scal xs ∧
          ListOn cd.float (nv - nc) miss ys ∧ Short nc tail) ∨
        (∃ scal miss lena xs ys zs, more = scal ++ (miss ++ lena) ∧ ListOn cd.float (nv - nc) scal xs ∧
          ListOn cd.float (nv - nc) miss ys ∧ ListOn pyInt nc lena zs ∧ Short nc tail))) := by
    intro nv nc
    refine Stops.ite ?_ ?_ <;> intro h
    · have t (scal miss : List F) (lena : List Int) (missc : List Str) : Stops (fun ls => Except.ok (ε := Err)
          (({ NAUXV := nv, NAUXC := nc, ASCAL := scal, AMISS := miss.map .num ++ missc.map .str,
              LENA := List.replicate (nv - nc).toNat none ++ lena.map some,
              ANAME := readItemsFromLines (readLinesN nv.toNat ls).1 } : CharAuxHdr F),
            (readLinesN nv.toNat ls).2)) (fun _ _ => False) := Stops.never fun _ h => by cases h
      have hs : ∀ s : Str, (Except.ok s : Res Str) ≠ .error .hang := fun _ h => by cases h
      refine Stops.congr (Stops.bind (reads_list cd.float (nv - nc)) (stops_list _ (float_no_hang cd)) fun scal =>
        Stops.bind (reads_list cd.float (nv - nc)) (stops_list _ (float_no_hang cd)) fun miss =>
        Stops.bind (reads_list pyInt nc) (stops_list _ pyInt_no_hang) fun lena =>
        Stops.bind (reads_list (fun s => (.ok s : Res Str)) nc) (stops_list _ hs) fun missc => t scal miss lena missc)
        ?_
      intro H t
      constructor
      · rintro (⟨rfl, hs⟩ | ⟨scal, h1, _, rfl, hx, ⟨rfl, hs⟩ | ⟨miss, h2, _, rfl, hy, ⟨rfl, hs⟩ |
          ⟨lena, h3, _, rfl, hz, ⟨rfl, hs⟩ | ⟨_, _, _, _, _, h⟩⟩⟩⟩)
        · exact ⟨h, .inl ⟨rfl, hs⟩⟩
        · exact ⟨h, .inr (.inl ⟨scal, by simpa using hx, hs⟩)⟩
        · exact ⟨h, .inr (.inr (.inl ⟨h1, h2, scal, miss, by simp, hx, hy, hs⟩))⟩
        · exact ⟨h, .inr (.inr (.inr ⟨h1, h2, h3, scal, miss, lena, by simp, hx, hy, hz, hs⟩))⟩
        · exact h.elim
      · rintro ⟨_, ⟨rfl, hs⟩ | ⟨xs, hx, hs⟩ | ⟨h1, h2, xs, ys, rfl, hx, hy, hs⟩ |
          ⟨h1, h2, h3, xs, ys, zs, rfl, hx, hy, hz, hs⟩⟩
        · exact .inl ⟨rfl, hs⟩
        · exact .inr ⟨xs, H, [], by simp, hx, .inl ⟨rfl, hs⟩⟩
        · exact .inr ⟨xs, h1, h2, rfl, hx, .inr ⟨ys, h2, [], by simp, hy, .inl ⟨rfl, hs⟩⟩⟩
        · exact .inr ⟨xs, h1, h2 ++ h3, rfl, hx, .inr ⟨ys, h2, h3, rfl, hy, .inr ⟨zs, h3, [], by simp, hz,
            .inl ⟨rfl, hs⟩⟩⟩⟩
    · refine Stops.congr (Stops.never fun _ h => by cases h) ?_
      intro H t
      exact ⟨fun h => h.elim, fun ⟨hs, _⟩ => h hs⟩
  refine Stops.congr (Stops.bind reads_int stops_int fun nv => Stops.bind reads_int stops_int (key nv)) ?_
  intro H t
  unfold CharAuxShort
  constructor
  · rintro (h | ⟨nv, _, _, rfl, ⟨l1, rfl, hl1⟩, h | ⟨nc, _, more, rfl, ⟨l2, rfl, hl2⟩, h0, h⟩⟩)
    · exact h.elim
    · exact h.elim
    · exact ⟨l1, l2, more, nv, nc, by simp, hl1, hl2, h0, h⟩
  · rintro ⟨l1, l2, more, nv, nc, rfl, hl1, hl2, h0, h⟩
    exact .inr ⟨nv, [l1], _, rfl, ⟨l1, rfl, hl1⟩, .inr ⟨nc, [l2], more, rfl, ⟨l2, rfl, hl2⟩, h0, h⟩⟩

theorem stops_axes (cd : Codec F) (ns : List Int) : Stops (readAxes cd ns) (AxesShort cd ns) := by
  induction ns with
  | nil =>
    refine Stops.congr (Stops.never fun _ h => by cases h) ?_
    intro H t
    constructor
    · exact fun h => h.elim
    · rintro ⟨ms, n, more, xs, e, _⟩; simp at e
  | cons n ns ih =>
    have t (x : List F) (xs : List (List F)) : Stops (fun ls => Except.ok (ε := Err) (x :: xs, ls)) (fun _ _ => False) :=
      Stops.never fun _ h => by cases h
    refine Stops.congr (Stops.bind (reads_list cd.float n) (stops_list n (float_no_hang cd)) fun x =>
      Stops.bind (reads_axes cd ns) ih fun xs => t x xs) ?_
    intro H t
    unfold AxesShort
    constructor
    · rintro (⟨rfl, hs⟩ | ⟨x, h1, _, rfl, hx, ⟨ms, m, more, xs, rfl, ha, hs⟩ | ⟨_, _, _, _, _, h⟩⟩)
      · exact ⟨[], n, ns, [], rfl, ⟨rfl, rfl⟩, hs⟩
      · exact ⟨n :: ms, m, more, x :: xs, rfl, ⟨h1, _, x, xs, rfl, rfl, hx, ha⟩, hs⟩
      · exact h.elim
    · rintro ⟨ms, m, more, xs, e, ha, hs⟩
      cases ms with
      | nil =>
        injection e with e1 e2
        subst e1 e2
        exact .inl ⟨ha.1, hs⟩
      | cons a ms =>
        injection e with e1 e2
        subst e1 e2
        obtain ⟨h1, h2, x, ys, rfl, rfl, hx, hy⟩ := ha
        exact .inr ⟨x, h1, h2, rfl, hx, .inl ⟨ms, m, more, ys, rfl, hy, hs⟩⟩

/-! ### Whole headers -/

/-- The end of all headers with a section for auxiliary variables. -/
theorem stops_end {γ : Type} (cd : Codec F) (ign : List Str) (G : VarHdr F → AuxHdr F → ComHdr → γ) :
    Stops (fun ls => do
      let (v, ls) ← readVars cd ls
      let (aux, ls) ← readAux cd ls
      let (com, ls) ← readComments ls
      Except.ok (ε := Err) (G v aux com, ign, ls))
      (fun H t => ListsShort cd H t ∨ ∃ vs aux v, H = vs ++ aux ∧ VarsOn cd vs v ∧ ListsShort cd aux t) := by
  have f (v : VarHdr F) (aux : AuxHdr F) (com : ComHdr) :
      Stops (fun ls => Except.ok (ε := Err) (G v aux com, ign, ls)) (fun _ _ => False) := Stops.never fun _ h => by cases h
  refine Stops.congr (Stops.bind (reads_vars cd) (stops_vars cd) fun v => Stops.bind (reads_aux cd) (stops_aux cd)
    fun aux => Stops.bind reads_coms stops_coms fun com => f v aux com) ?_
  intro H t
  constructor
  · rintro (h | ⟨v, vs, aux, rfl, hv, h | ⟨_, _, _, _, _, h | ⟨_, _, _, _, _, h⟩⟩⟩)
    · exact .inl h
    · exact .inr ⟨vs, aux, v, rfl, hv, h⟩
    · exact h.elim
    · exact h.elim
  · rintro (h | ⟨vs, aux, v, rfl, hv, h⟩)
    · exact .inl h
    · exact .inr ⟨v, vs, aux, rfl, hv, .inl h⟩

theorem stops_1001 (cd : Codec F) (k : Nat) : Stops (readHeader1001 cd k) (fun H t => ∃ top c ign dx d xn vs,
    H = top ++ dx :: (xn ++ vs) ∧ TopOn k top c ign ∧ readItemsFromLine dx (nivOf c.FFI) cd.float = .ok d ∧
    xn.length = (nivOf c.FFI).toNat ∧ ListsShort cd vs t) := by
  have f (c : Common) (ign : List Str) (dx : List F) (xn : List Str) (v : VarHdr F) (com : ComHdr) : Stops (fun ls =>
      Except.ok (ε := Err) (NA1001.mk c (nivOf c.FFI) dx (readItemsFromLines xn) v com [] [], ign, ls))
      (fun _ _ => False) := Stops.never fun _ h => by cases h
  have t1 (c : Common) (ign : List Str) (dx : List F) (xn : List Str) : Stops (fun ls => do
      let (v, ls) ← readVars cd ls
      let (com, ls) ← readComments ls
      .ok (NA1001.mk c (nivOf c.FFI) dx (readItemsFromLines xn) v com [] [], ign, ls)) _ :=
    Stops.bind (reads_vars cd) (stops_vars cd) fun v => Stops.bind reads_coms stops_coms fun com => f c ign dx xn v com
  have n1 (c : Common) (ign : List Str) (dx : List F) := Stops.lines (nivOf c.FFI).toNat (t1 c ign dx)
  have n2 (c : Common) (ign : List Str) (l : Str) := Stops.res (row_no_hang (float_no_hang cd) l (nivOf c.FFI)) (n1 c ign)
  have m2 (c : Common) (ign : List Str) := Stops.line (n2 c ign)
  refine Stops.congr (Stops.bind (reads_top k) (stops_top k) fun a => m2 a.1 a.2) ?_
  intro H t
  constructor
  · rintro (h | ⟨⟨c, ign⟩, top, _, rfl, htop, dx, _, rfl, d, hd, xn, vs, rfl, hx, h | ⟨_, _, _, _, _, h | ⟨_, _, _, _, _, h⟩⟩⟩)
    · exact h.elim
    · exact ⟨top, c, ign, dx, d, xn, vs, rfl, htop, hd, hx, h⟩
    · exact h.elim
    · exact h.elim
  · rintro ⟨top, c, ign, dx, d, xn, vs, rfl, htop, hd, hx, h⟩
    exact .inr ⟨(c, ign), top, _, rfl, htop, dx, _, rfl, d, hd, xn, vs, rfl, hx, .inl h⟩

/-- The end of a header after the names of the independent variables. -/
def EndShort (cd : Codec F) (H t : List Str) : Prop :=
  ListsShort cd H t ∨ ∃ vs aux v, H = vs ++ aux ∧ VarsOn cd vs v ∧ ListsShort cd aux t

theorem stops_1010 (cd : Codec F) (k : Nat) : Stops (readHeader1010 cd k) (fun H t => ∃ top c ign dx d xn vs,
    H = top ++ dx :: (xn ++ vs) ∧ TopOn k top c ign ∧ readItemsFromLine dx (nivOf c.FFI) cd.float = .ok d ∧
    xn.length = (nivOf c.FFI).toNat ∧ EndShort cd vs t) := by
  have t1 (c : Common) (ign : List Str) (dx : List F) (xn : List Str) := stops_end cd ign (fun v aux com =>
    NA1010.mk c (nivOf c.FFI) dx (readItemsFromLines xn) v aux com [] [] [])
  have n1 (c : Common) (ign : List Str) (dx : List F) := Stops.lines (nivOf c.FFI).toNat (t1 c ign dx)
  have n2 (c : Common) (ign : List Str) (l : Str) := Stops.res (row_no_hang (float_no_hang cd) l (nivOf c.FFI)) (n1 c ign)
  have m2 (c : Common) (ign : List Str) := Stops.line (n2 c ign)
  refine Stops.congr (Stops.bind (reads_top k) (stops_top k) fun a => m2 a.1 a.2) ?_
  intro H t
  constructor
  · rintro (h | ⟨⟨c, ign⟩, top, _, rfl, htop, dx, _, rfl, d, hd, xn, vs, rfl, hx, h⟩)
    · exact h.elim
    · exact ⟨top, c, ign, dx, d, xn, vs, rfl, htop, hd, hx, h⟩
  · rintro ⟨top, c, ign, dx, d, xn, vs, rfl, htop, hd, hx, h⟩
    exact .inr ⟨(c, ign), top, _, rfl, htop, dx, _, rfl, d, hd, xn, vs, rfl, hx, h⟩

theorem stops_2110 (cd : Codec F) (k : Nat) : Stops (readHeader2110 cd k) (fun H t => ∃ top c ign dx d xn vs,
    H = top ++ dx :: (xn ++ vs) ∧ TopOn k top c ign ∧ readItemsFromLine dx (nivOf c.FFI) cd.float = .ok d ∧
    xn.length = (nivOf c.FFI).toNat ∧ EndShort cd vs t) := by
  have t1 (c : Common) (ign : List Str) (dx : List F) (xn : List Str) := stops_end cd ign (fun v aux com =>
    NA2110.mk c (nivOf c.FFI) dx.reverse (readItemsFromLines xn).reverse v aux com [] [] [] [])
  have n1 (c : Common) (ign : List Str) (dx : List F) := Stops.lines (nivOf c.FFI).toNat (t1 c ign dx)
  have n2 (c : Common) (ign : List Str) (l : Str) := Stops.res (row_no_hang (float_no_hang cd) l (nivOf c.FFI)) (n1 c ign)
  have m2 (c : Common) (ign : List Str) := Stops.line (n2 c ign)
  refine Stops.congr (Stops.bind (reads_top k) (stops_top k) fun a => m2 a.1 a.2) ?_
  intro H t
  constructor
  · rintro (h | ⟨⟨c, ign⟩, top, _, rfl, htop, dx, _, rfl, d, hd, xn, vs, rfl, hx, h⟩)
    · exact h.elim
    · exact ⟨top, c, ign, dx, d, xn, vs, rfl, htop, hd, hx, h⟩
  · rintro ⟨top, c, ign, dx, d, xn, vs, rfl, htop, hd, hx, h⟩
    exact .inr ⟨(c, ign), top, _, rfl, htop, dx, _, rfl, d, hd, xn, vs, rfl, hx, h⟩

theorem stops_2310 (cd : Codec F) (k : Nat) : Stops (readHeader2310 cd k) (fun H t => ∃ top c ign dx d xn vs,
    H = top ++ dx :: (xn ++ vs) ∧ TopOn k top c ign ∧ readItemsFromLine dx 1 cd.float = .ok d ∧
    xn.length = (nivOf c.FFI).toNat ∧ EndShort cd vs t) := by
  have t1 (c : Common) (ign : List Str) (dx : List F) (xn : List Str) := stops_end cd ign (fun v aux com =>
    NA2110.mk c (nivOf c.FFI) dx (readItemsFromLines xn).reverse v aux com [] [] [] [])
  have n1 (c : Common) (ign : List Str) (dx : List F) := Stops.lines (nivOf c.FFI).toNat (t1 c ign dx)
  have n2 (c : Common) (ign : List Str) (l : Str) := Stops.res (row_no_hang (float_no_hang cd) l 1) (n1 c ign)
  have m2 (c : Common) (ign : List Str) := Stops.line (n2 c ign)
  refine Stops.congr (Stops.bind (reads_top k) (stops_top k) fun a => m2 a.1 a.2) ?_
  intro H t
  constructor
  · rintro (h | ⟨⟨c, ign⟩, top, _, rfl, htop, dx, _, rfl, d, hd, xn, vs, rfl, hx, h⟩)
    · exact h.elim
    · exact ⟨top, c, ign, dx, d, xn, vs, rfl, htop, hd, hx, h⟩
  · rintro ⟨top, c, ign, dx, d, xn, vs, rfl, htop, hd, hx, h⟩
    exact .inr ⟨(c, ign), top, _, rfl, htop, dx, _, rfl, d, hd, xn, vs, rfl, hx, h⟩

theorem stops_1020 (cd : Codec F) (k : Nat) : Stops (readHeader1020 cd k) (fun H t => ∃ top c ign dx nvpm d n xn vs,
    H = top ++ dx :: nvpm :: (xn ++ vs) ∧ TopOn k top c ign ∧ readItemsFromLine dx (nivOf c.FFI) cd.float = .ok d ∧
    IntOn nvpm n ∧ xn.length = (nivOf c.FFI).toNat ∧ EndShort cd vs t) := by
  have t1 (c : Common) (ign : List Str) (dx : List F) (nvpm : Int) (xn : List Str) := stops_end cd ign (fun v aux com =>
    NA1020.mk c (nivOf c.FFI) dx nvpm (readItemsFromLines xn) v aux com [] [] [])
  have n1 (c : Common) (ign : List Str) (dx : List F) (nvpm : Int) := Stops.lines (nivOf c.FFI).toNat (t1 c ign dx nvpm)
  have m1 (c : Common) (ign : List Str) (dx : List F) := Stops.bind2 reads_int stops_int (n1 c ign dx)
  have n2 (c : Common) (ign : List Str) (l : Str) := Stops.res (row_no_hang (float_no_hang cd) l (nivOf c.FFI)) (m1 c ign)
  have m2 (c : Common) (ign : List Str) := Stops.line (n2 c ign)
  refine Stops.congr (Stops.bind (reads_top k) (stops_top k) fun a => m2 a.1 a.2) ?_
  intro H t
  constructor
  · rintro (h | ⟨⟨c, ign⟩, top, _, rfl, htop, dx, _, rfl, d, hd, h | ⟨n, _, _, rfl, ⟨nvpm, rfl, hn⟩, xn, vs, rfl, hx, h⟩⟩)
    · exact h.elim
    · exact h.elim
    · exact ⟨top, c, ign, dx, nvpm, d, n, xn, vs, rfl, htop, hd, hn, hx, h⟩
  · rintro ⟨top, c, ign, dx, nvpm, d, n, xn, vs, rfl, htop, hd, hn, hx, h⟩
    exact .inr ⟨(c, ign), top, _, rfl, htop, dx, _, rfl, d, hd, .inr ⟨n, [nvpm], _, rfl, ⟨nvpm, rfl, hn⟩, xn, vs, rfl, hx, h⟩⟩

theorem stops_2010 (cd : Codec F) (k : Nat) : Stops (readHeader2010 cd k) (fun H t => ∃ top c ign dx nx nxdef d a b more,
    H = top ++ dx :: nx :: nxdef :: more ∧ TopOn k top c ign ∧ readItemsFromLine dx (nivOf c.FFI) cd.float = .ok d ∧
    readItemsFromLine nx (nivOf c.FFI - 1) pyInt = .ok a ∧ readItemsFromLine nxdef (nivOf c.FFI - 1) pyInt = .ok b ∧
    (AxesShort cd b.reverse more t ∨ ∃ axes y xn vs, more = axes ++ (xn ++ vs) ∧ AxesOn cd b.reverse axes y ∧
      xn.length = (nivOf c.FFI).toNat ∧ EndShort cd vs t)) := by
  have t1 (c : Common) (ign : List Str) (dx : List F) (nx nxdef : List Int) (xb : List (List F)) (xn : List Str) :=
    stops_end cd ign (fun v aux com => NA2010.mk c (nivOf c.FFI) dx.reverse nx.reverse nxdef.reverse [] xb.reverse
      (readItemsFromLines xn).reverse v aux com [] [])
  have n1 (c : Common) (ign : List Str) (dx : List F) (nx nxdef : List Int) (xb : List (List F)) :=
    Stops.lines (nivOf c.FFI).toNat (t1 c ign dx nx nxdef xb)
  have m1 (c : Common) (ign : List Str) (dx : List F) (nx nxdef : List Int) :=
    Stops.bind2 (reads_axes cd nxdef.reverse) (stops_axes cd nxdef.reverse) (n1 c ign dx nx nxdef)
  have n2 (c : Common) (ign : List Str) (dx : List F) (nx : List Int) (l : Str) :=
    Stops.res (row_no_hang pyInt_no_hang l (nivOf c.FFI - 1)) (m1 c ign dx nx)
  have m2 (c : Common) (ign : List Str) (dx : List F) (nx : List Int) := Stops.line (n2 c ign dx nx)
  have n3 (c : Common) (ign : List Str) (dx : List F) (l : Str) :=
    Stops.res (row_no_hang pyInt_no_hang l (nivOf c.FFI - 1)) (m2 c ign dx)
  have m3 (c : Common) (ign : List Str) (dx : List F) := Stops.line (n3 c ign dx)
  have n4 (c : Common) (ign : List Str) (l : Str) := Stops.res (row_no_hang (float_no_hang cd) l (nivOf c.FFI)) (m3 c ign)
  have m4 (c : Common) (ign : List Str) := Stops.line (n4 c ign)
  refine Stops.congr (Stops.bind (reads_top k) (stops_top k) fun a => m4 a.1 a.2) ?_
  intro H t
  constructor
  · rintro (h | ⟨⟨c, ign⟩, top, _, rfl, htop, dx, _, rfl, d, hd, nx, _, rfl, a, ha, nxdef, more, rfl, b, hb,
      h | ⟨y, axes, _, rfl, hy, xn, vs, rfl, hx, h⟩⟩)
    · exact h.elim
    · exact ⟨top, c, ign, dx, nx, nxdef, d, a, b, more, rfl, htop, hd, ha, hb, .inl h⟩
    · exact ⟨top, c, ign, dx, nx, nxdef, d, a, b, _, rfl, htop, hd, ha, hb, .inr ⟨axes, y, xn, vs, rfl, hy, hx, h⟩⟩
  · rintro ⟨top, c, ign, dx, nx, nxdef, d, a, b, more, rfl, htop, hd, ha, hb, h | ⟨axes, y, xn, vs, rfl, hy, hx, h⟩⟩
    · exact .inr ⟨(c, ign), top, _, rfl, htop, dx, _, rfl, d, hd, nx, _, rfl, a, ha, nxdef, more, rfl, b, hb, .inl h⟩
    · exact .inr ⟨(c, ign), top, _, rfl, htop, dx, _, rfl, d, hd, nx, _, rfl, a, ha, nxdef, _, rfl, b, hb,
        .inr ⟨y, axes, _, rfl, hy, xn, vs, rfl, hx, h⟩⟩

theorem stops_2160 (cd : Codec F) (k : Nat) : Stops (readHeader2160 cd k) (fun H t => ∃ top c ign dx lenx d y xn vs,
    H = top ++ dx :: lenx :: (xn ++ vs) ∧ TopOn k top c ign ∧ readItemsFromLine dx 1 cd.float = .ok d ∧
    cd.float (readItem lenx) = .ok y ∧ xn.length = (nivOf c.FFI).toNat ∧
    (ListsShort cd vs t ∨ ∃ ws aux v, vs = ws ++ aux ∧ VarsOn cd ws v ∧ CharAuxShort cd aux t)) := by
  have f (c : Common) (ign : List Str) (dx : List F) (lenx : F) (xn : List Str) (v : VarHdr F) (aux : CharAuxHdr F)
      (com : ComHdr) : Stops (fun ls => Except.ok (ε := Err) (NA2160.mk c (nivOf c.FFI) dx lenx
        (readItemsFromLines xn).reverse v aux com ign [] [] [] [], ign, ls))
      (fun _ _ => False) := Stops.never fun _ h => by cases h
  have t1 (c : Common) (ign : List Str) (dx : List F) (lenx : F) (xn : List Str) : Stops (fun ls => do
      let (v, ls) ← readVars cd ls
      let (aux, ls) ← readCharAux cd ls
      let (com, ls) ← readComments ls
      .ok (NA2160.mk c (nivOf c.FFI) dx lenx (readItemsFromLines xn).reverse v aux com ign [] [] [] [], ign, ls)) _ :=
    Stops.bind (reads_vars cd) (stops_vars cd) fun v => Stops.bind (reads_charAux cd) (stops_charAux cd) fun aux =>
      Stops.bind reads_coms stops_coms fun com => f c ign dx lenx xn v aux com
  have n1 (c : Common) (ign : List Str) (dx : List F) (lenx : F) := Stops.lines (nivOf c.FFI).toNat (t1 c ign dx lenx)
  have n2 (c : Common) (ign : List Str) (dx : List F) (l : Str) := Stops.res (float_no_hang cd (readItem l)) (n1 c ign dx)
  have m2 (c : Common) (ign : List Str) (dx : List F) := Stops.line (n2 c ign dx)
  have n3 (c : Common) (ign : List Str) (l : Str) := Stops.res (row_no_hang (float_no_hang cd) l 1) (m2 c ign)
  have m3 (c : Common) (ign : List Str) := Stops.line (n3 c ign)
  refine Stops.congr (Stops.bind (reads_top k) (stops_top k) fun a => m3 a.1 a.2) ?_
  intro H t
  constructor
  · rintro (h | ⟨⟨c, ign⟩, top, _, rfl, htop, dx, _, rfl, d, hd, lenx, _, rfl, y, hy, xn, vs, rfl, hx, h⟩)
    · exact h.elim
    refine ⟨top, c, ign, dx, lenx, d, y, xn, vs, rfl, htop, hd, hy, hx, ?_⟩
    rcases h with h | ⟨v, ws, aux, rfl, hv, h | ⟨_, _, _, _, _, h | ⟨_, _, _, _, _, h⟩⟩⟩
    · exact .inl h
    · exact .inr ⟨ws, aux, v, rfl, hv, h⟩
    · exact h.elim
    · exact h.elim
  · rintro ⟨top, c, ign, dx, lenx, d, y, xn, vs, rfl, htop, hd, hy, hx, h⟩
    refine .inr ⟨(c, ign), top, _, rfl, htop, dx, _, rfl, d, hd, lenx, _, rfl, y, hy, xn, vs, rfl, hx, ?_⟩
    rcases h with h | ⟨ws, aux, v, rfl, hv, h⟩
    · exact .inl h
    · exact .inr ⟨v, ws, aux, rfl, hv, .inl h⟩

end Nappy
