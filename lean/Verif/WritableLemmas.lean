import Verif.Spec.Writable
import Verif.WriteSpec

/-! Lemmas for `Props/Writable.lean`: when the steps of a writer succeed. -/

namespace Nappy

open Spec

variable {F : Type}

/-- The result is a value. -/
def IsOk {α : Type} (x : Res α) : Prop := ∃ a, x = .ok a

/-- The result is a value or one of the two exceptions a writer raises. -/
def TwoErrs {α : Type} (x : Res α) : Prop := ∀ e, x = .error e → e = .index ∨ e = .type

theorem isOk_ok {α : Type} (a : α) : IsOk (.ok a : Res α) ↔ True :=
  ⟨fun _ => trivial, fun _ => Exists.intro a rfl⟩

theorem isOk_error {α : Type} (e : Err) : IsOk (.error e : Res α) ↔ False :=
  ⟨fun ⟨_, h⟩ => (by cases h), False.elim⟩

theorem isOk_bind {α β : Type} {x : Res α} {f : α → Res β} :
    IsOk (x >>= f) ↔ ∃ a, x = .ok a ∧ IsOk (f a) := by
  constructor
  · rintro ⟨b, h⟩
    obtain ⟨a, h1, h2⟩ := ok_of_bind h
    exact ⟨a, h1, b, h2⟩
  · rintro ⟨a, h1, b, h2⟩
    exact ⟨b, by rw [h1]; exact h2⟩

theorem isOk_then {α β : Type} {x : Res α} {f : α → Res β} {P : Prop} (h : ∀ a, x = .ok a → (IsOk (f a) ↔ P)) :
    IsOk (x >>= f) ↔ IsOk x ∧ P := by
  rw [isOk_bind]
  constructor
  · rintro ⟨a, h1, h2⟩; exact ⟨⟨a, h1⟩, (h a h1).1 h2⟩
  · rintro ⟨⟨a, h1⟩, h2⟩; exact ⟨a, h1, (h a h1).2 h2⟩

theorem isOk_last {α β : Type} {x : Res α} {f : α → Res β} (h : ∀ a, IsOk (f a)) : IsOk (x >>= f) ↔ IsOk x := by
  rw [isOk_then (P := True) (fun a _ => ⟨fun _ => trivial, fun _ => h a⟩)]; simp

theorem twoErrs_ok {α : Type} (a : α) : TwoErrs (.ok a : Res α) := by intro e h; cases h

theorem twoErrs_index {α : Type} : TwoErrs (.error .index : Res α) := by
  intro e h; injection h with h; exact Or.inl h.symm

theorem twoErrs_type {α : Type} : TwoErrs (.error .type : Res α) := by
  intro e h; injection h with h; exact Or.inr h.symm

theorem twoErrs_bind {α β : Type} {x : Res α} {f : α → Res β} (hx : TwoErrs x) (hf : ∀ a, TwoErrs (f a)) :
    TwoErrs (x >>= f) := by
  cases x with
  | ok a => exact hf a
  | error e => intro e' h; exact hx e' (by cases h; rfl)

theorem isOk_mapRes {α β : Type} (f : α → Res β) (l : List α) : IsOk (mapRes f l) ↔ ∀ a ∈ l, IsOk (f a) := by
  induction l with
  | nil => simp [mapRes, isOk_ok]
  | cons x t ih =>
    show IsOk (f x >>= fun y => mapRes f t >>= fun ys => .ok (y :: ys)) ↔ _
    rw [isOk_then (P := IsOk (mapRes f t)) (fun a _ => isOk_last (fun ys => ⟨_, rfl⟩)), ih]
    simp

theorem twoErrs_mapRes {α β : Type} {f : α → Res β} (h : ∀ a, TwoErrs (f a)) (l : List α) : TwoErrs (mapRes f l) := by
  induction l with
  | nil => exact twoErrs_ok _
  | cons x t ih => exact twoErrs_bind (h x) (fun y => twoErrs_bind ih (fun ys => twoErrs_ok _))

theorem isOk_idx {α : Type} (l : List α) (i : Nat) : IsOk (idx l i) ↔ i < l.length := by
  unfold idx
  by_cases h : i < l.length
  · simp [h, isOk_ok]
  · simp [h, isOk_error]

theorem twoErrs_idx {α : Type} (l : List α) (i : Nat) : TwoErrs (idx l i) := by
  unfold idx; split
  · exact twoErrs_ok _
  · exact twoErrs_index

theorem idx_ok {α : Type} {l : List α} {i : Nat} {a : α} : idx l i = .ok a ↔ l[i]? = some a := by
  unfold idx; split
  · rename_i b hb; rw [hb]; constructor
    · intro h; injection h with h; rw [h]
    · intro h; injection h with h; rw [h]
  · rename_i hb; rw [hb]; constructor <;> intro h <;> cases h

/-! ### The parts of a header -/

theorem isOk_stripQuotes (s : Str) : IsOk (stripQuotes s) ↔ Sayable s := by
  cases s with
  | nil => simp [stripQuotes, Sayable, isOk_error]
  | cons c t =>
    cases t with
    | nil =>
      by_cases h1 : c = '\''
      · subst h1; simp [stripQuotes, Sayable, isQuote, isOk_error]
      · by_cases h2 : c = '"'
        · subst h2; simp [stripQuotes, Sayable, isQuote, isOk_error]
        · simp [stripQuotes, Sayable, isQuote, h1, h2, isOk_ok]
    | cons d u =>
      have hs : Sayable (c :: d :: u) := by simp [Sayable]
      refine ⟨fun _ => hs, fun _ => ?_⟩
      unfold stripQuotes
      dsimp only
      split
      · rename_i h; split at h <;> simp at h
      · exact ⟨_, rfl⟩

theorem twoErrs_stripQuotes (s : Str) : TwoErrs (stripQuotes s) := by
  unfold stripQuotes; split
  · exact twoErrs_index
  · dsimp only; split
    · exact twoErrs_index
    · exact twoErrs_ok _

theorem isOk_tmplSep (n : Int) (d : Str) (l : List Str) : IsOk (tmplSep n d l) ↔ OnLine n l := by
  unfold tmplSep OnLine
  split
  · rw [isOk_ok]; simp only [true_iff]; omega
  · rw [isOk_error]; simp only [false_iff]; omega

theorem twoErrs_tmplSep (n : Int) (d : Str) (l : List Str) : TwoErrs (tmplSep n d l) := by
  unfold tmplSep; split
  · exact twoErrs_ok _
  · exact twoErrs_type

theorem isOk_tmplLines (n : Int) (l : List Str) : IsOk (tmplLines n l) ↔ OnLines n l := by
  unfold tmplLines OnLines
  split
  · rw [isOk_ok]; simp only [true_iff]; omega
  · rw [isOk_error]; simp only [false_iff]; omega

theorem twoErrs_tmplLines (n : Int) (l : List Str) : TwoErrs (tmplLines n l) := by
  unfold tmplLines; split
  · exact twoErrs_ok _
  · exact twoErrs_type

theorem isOk_tmplRow (n : Int) (d : Str) (l : List Str) : IsOk (tmplRow n d l) ↔ OnLines n l := by
  unfold tmplRow OnLines
  split
  · rw [isOk_ok]; simp only [true_iff]; omega
  · rw [isOk_error]; simp only [false_iff]; omega

theorem twoErrs_tmplRow (n : Int) (d : Str) (l : List Str) : TwoErrs (tmplRow n d l) := by
  unfold tmplRow; split
  · exact twoErrs_ok _
  · exact twoErrs_type

theorem isOk_tmplAnnLines (n : Int) (d : Str) (l : List Str) : IsOk (tmplAnnLines n d l) ↔ OnLines n l := by
  unfold tmplAnnLines OnLines
  split
  · rw [isOk_ok]; simp only [true_iff]; omega
  · rw [isOk_error]; simp only [false_iff]; omega

theorem twoErrs_tmplAnnLines (n : Int) (d : Str) (l : List Str) : TwoErrs (tmplAnnLines n d l) := by
  unfold tmplAnnLines; split
  · exact twoErrs_ok _
  · exact twoErrs_type

theorem onLine_map {α β : Type} (n : Int) (f : α → β) (l : List α) : OnLine n (l.map f) ↔ OnLine n l := by
  simp [OnLine]

theorem onLines_map {α β : Type} (n : Int) (f : α → β) (l : List α) : OnLines n (l.map f) ↔ OnLines n l := by
  simp [OnLines]

theorem onLine_reverse {α : Type} (n : Int) (l : List α) : OnLine n l.reverse ↔ OnLine n l := by simp [OnLine]

theorem onLines_reverse {α : Type} (n : Int) (l : List α) : OnLines n l.reverse ↔ OnLines n l := by simp [OnLines]

theorem isOk_writeCommon (env : Env F) (c : Common) : IsOk (writeCommon env c) ↔ CommonFits c := by
  unfold writeCommon CommonFits
  rw [isOk_then (P := Sayable c.ORG ∧ Sayable c.SNAME ∧ Sayable c.MNAME ∧ 3 ≤ c.DATE.length ∧ 3 ≤ c.RDATE.length)
    (fun a1 _ => ?_), isOk_stripQuotes]
  · constructor
    · rintro ⟨h1, h2, h3, h4, h5, h6⟩; exact ⟨⟨h1, h2, h3, h4⟩, h5, h6⟩
    · rintro ⟨⟨h1, h2, h3, h4⟩, h5, h6⟩; exact ⟨h1, h2, h3, h4, h5, h6⟩
  rw [isOk_then (P := Sayable c.SNAME ∧ Sayable c.MNAME ∧ 3 ≤ c.DATE.length ∧ 3 ≤ c.RDATE.length)
    (fun a2 _ => ?_), isOk_stripQuotes]
  rw [isOk_then (P := Sayable c.MNAME ∧ 3 ≤ c.DATE.length ∧ 3 ≤ c.RDATE.length) (fun a3 _ => ?_), isOk_stripQuotes]
  rw [isOk_then (P := 3 ≤ c.DATE.length ∧ 3 ≤ c.RDATE.length) (fun a4 _ => ?_), isOk_stripQuotes]
  split
  · rename_i hd hr; rw [isOk_ok, hd, hr]; simp
  · rename_i hne
    rw [isOk_error, false_iff]
    rintro ⟨h1, h2⟩
    match hd : c.DATE, hr : c.RDATE with
    | d0 :: d1 :: d2 :: dt, r0 :: r1 :: r2 :: rt => exact hne _ _ _ _ _ _ _ _ hd hr
    | [], _ => rw [hd] at h1; simp at h1
    | [_], _ => rw [hd] at h1; simp at h1
    | [_, _], _ => rw [hd] at h1; simp at h1
    | _, [] => rw [hr] at h2; simp at h2
    | _, [_] => rw [hr] at h2; simp at h2
    | _, [_, _] => rw [hr] at h2; simp at h2

theorem twoErrs_writeCommon (env : Env F) (c : Common) : TwoErrs (writeCommon env c) := by
  unfold writeCommon
  refine twoErrs_bind (twoErrs_stripQuotes _) (fun _ => twoErrs_bind (twoErrs_stripQuotes _) (fun _ =>
    twoErrs_bind (twoErrs_stripQuotes _) (fun _ => twoErrs_bind (twoErrs_stripQuotes _) (fun _ => ?_))))
  split
  · exact twoErrs_ok _
  · exact twoErrs_index

theorem isOk_writeVars (env : Env F) (v : VarHdr F) : IsOk (writeVars env v) ↔ VarsFit v := by
  unfold writeVars VarsFit
  rw [isOk_then (P := OnLine v.NV v.VMISS ∧ OnLines v.NV v.VNAME) (fun a1 _ => ?_), isOk_tmplSep, onLine_map]
  rw [isOk_then (P := OnLines v.NV v.VNAME) (fun a2 _ => ?_), isOk_tmplSep, onLine_map]
  rw [isOk_last (fun a => ⟨_, rfl⟩), isOk_tmplLines]

theorem twoErrs_writeVars (env : Env F) (v : VarHdr F) : TwoErrs (writeVars env v) :=
  twoErrs_bind (twoErrs_tmplSep _ _ _) (fun _ => twoErrs_bind (twoErrs_tmplSep _ _ _) (fun _ =>
    twoErrs_bind (twoErrs_tmplLines _ _) (fun _ => twoErrs_ok _)))

theorem isOk_writeAux (env : Env F) (a : AuxHdr F) : IsOk (writeAux env a) ↔ AuxFits a := by
  unfold writeAux AuxFits
  dsimp only
  split
  · rename_i h
    have h' : (0 < a.NAUXV) = True := by simpa using h
    rw [h', true_imp_iff]
    rw [isOk_then (P := OnLine a.NAUXV a.AMISS ∧ OnLines a.NAUXV a.ANAME) (fun a1 _ => ?_), isOk_tmplSep, onLine_map]
    rw [isOk_then (P := OnLines a.NAUXV a.ANAME) (fun a2 _ => ?_), isOk_tmplSep, onLine_map]
    rw [isOk_last (fun a => ⟨_, rfl⟩), isOk_tmplLines]
  · rename_i h
    rw [isOk_ok]; simp only [true_iff]; intro h2; exact absurd h2 h

theorem twoErrs_writeAux (env : Env F) (a : AuxHdr F) : TwoErrs (writeAux env a) := by
  unfold writeAux
  dsimp only
  split
  · exact twoErrs_bind (twoErrs_tmplSep _ _ _) (fun _ => twoErrs_bind (twoErrs_tmplSep _ _ _) (fun _ =>
      twoErrs_bind (twoErrs_tmplLines _ _) (fun _ => twoErrs_ok _)))
  · exact twoErrs_ok _

theorem isOk_writeComments (env : Env F) (c : ComHdr) : IsOk (writeComments env c) ↔ ComFits c := by
  unfold writeComments ComFits
  rw [isOk_then (P := OnLines c.NNCOML c.NCOM) (fun a1 _ => ?_), isOk_tmplLines]
  rw [isOk_last (fun a => ⟨_, rfl⟩), isOk_tmplLines]

theorem twoErrs_writeComments (env : Env F) (c : ComHdr) : TwoErrs (writeComments env c) :=
  twoErrs_bind (twoErrs_tmplLines _ _) (fun _ => twoErrs_bind (twoErrs_tmplLines _ _) (fun _ => twoErrs_ok _))

theorem sliceTo_upTo {α : Type} (l : List α) (k : Int) : sliceTo l k = upTo l k := by
  unfold sliceTo upTo
  split
  · rfl
  · rename_i h
    have : (-k).toNat = k.natAbs := by omega
    rw [this]

theorem sliceFrom_beyond {α : Type} (l : List α) (k : Int) : sliceFrom l k = beyond l k := by
  unfold sliceFrom beyond upTo
  split
  · rename_i h
    rw [List.length_take]
    by_cases hk : k.toNat ≤ l.length
    · rw [Nat.min_eq_left hk]
    · rw [Nat.min_eq_right (by omega), List.drop_of_length_le (by omega), List.drop_of_length_le (by omega)]
  · rename_i h
    have : (-k).toNat = k.natAbs := by omega
    rw [this, List.length_take, Nat.min_eq_left (by omega)]

theorem isOk_writeCharAux (env : Env F) (a : CharAuxHdr F) : IsOk (writeCharAux env a) ↔ CharAuxFits a := by
  unfold writeCharAux CharAuxFits
  dsimp only
  split
  · rename_i h
    have h' : (0 < a.NAUXV) = True := by simpa using h
    rw [h', true_imp_iff]
    rw [isOk_then (P := _ ∧ _ ∧ _ ∧ _) (fun a1 _ => ?_), isOk_tmplSep, onLine_map]
    rw [isOk_then (P := _ ∧ _ ∧ _) (fun a1 _ => ?_), isOk_tmplSep, onLine_map, sliceTo_upTo]
    rw [isOk_then (P := _ ∧ _) (fun a1 _ => ?_), isOk_tmplSep, onLine_map, sliceFrom_beyond]
    rw [isOk_then (P := _) (fun a1 _ => ?_), isOk_tmplLines, onLines_map, sliceFrom_beyond]
    rw [isOk_last (fun a => ⟨_, rfl⟩), isOk_tmplLines]
  · rename_i h
    rw [isOk_ok]; simp only [true_iff]; intro h2; exact absurd h2 h

theorem twoErrs_writeCharAux (env : Env F) (a : CharAuxHdr F) : TwoErrs (writeCharAux env a) := by
  unfold writeCharAux
  dsimp only
  split
  · exact twoErrs_bind (twoErrs_tmplSep _ _ _) (fun _ => twoErrs_bind (twoErrs_tmplSep _ _ _) (fun _ =>
      twoErrs_bind (twoErrs_tmplSep _ _ _) (fun _ => twoErrs_bind (twoErrs_tmplLines _ _) (fun _ =>
      twoErrs_bind (twoErrs_tmplLines _ _) (fun _ => twoErrs_ok _)))))
  · exact twoErrs_ok _

theorem twoErrs_fixHeaderLength (env : Env F) (ffi : Int) (s : Str) : TwoErrs (fixHeaderLength env ffi s) := by
  unfold fixHeaderLength; split
  · exact twoErrs_index
  · exact twoErrs_ok _

/-! ### Headers -/

theorem isOk_fix {env : Env F} {c : Common} {s : Str} (h : writeCommon env c = .ok s) (ffi : Int) (t : Str)
    (ht : ∃ u, t = s ++ u) : IsOk (fixHeaderLength env ffi t) := by
  obtain ⟨u, rfl⟩ := ht
  have hs := writeCommon_ne h
  obtain ⟨x, hx⟩ := fixHeaderLength_ok (env := env) (ffi := ffi) (s := s ++ u) (by simp [hs])
  exact ⟨x, hx⟩

theorem isOk_header1001 (env : Env F) (r : NA1001 F) : IsOk (header1001 env r) ↔ HeaderFilled (.o1001 r) := by
  unfold header1001 HeaderFilled
  rw [isOk_then (P := _ ∧ _ ∧ _ ∧ _) (fun a1 h1 => ?_), isOk_writeCommon]
  rw [isOk_then (P := _ ∧ _ ∧ _) (fun a2 _ => ?_), isOk_tmplRow, onLines_map]
  rw [isOk_then (P := _ ∧ _) (fun a3 _ => ?_), isOk_tmplAnnLines]
  rw [isOk_then (P := _) (fun a4 _ => ?_), isOk_writeVars]
  rw [isOk_last (fun a5 => isOk_fix h1 _ _ (by simp only [List.append_assoc]; exact ⟨_, rfl⟩)), isOk_writeComments]

theorem isOk_header1010 (env : Env F) (r : NA1010 F) : IsOk (header1010 env r) ↔ HeaderFilled (.o1010 r) := by
  unfold header1010 HeaderFilled
  rw [isOk_then (P := _ ∧ _ ∧ _ ∧ _ ∧ _) (fun a1 h1 => ?_), isOk_writeCommon]
  rw [isOk_then (P := _ ∧ _ ∧ _ ∧ _) (fun a2 _ => ?_), isOk_tmplRow, onLines_map]
  rw [isOk_then (P := _ ∧ _ ∧ _) (fun a3 _ => ?_), isOk_tmplLines]
  rw [isOk_then (P := _ ∧ _) (fun a4 _ => ?_), isOk_writeVars]
  rw [isOk_then (P := _) (fun a5 _ => ?_), isOk_writeAux]
  rw [isOk_last (fun a6 => isOk_fix h1 _ _ (by simp only [List.append_assoc]; exact ⟨_, rfl⟩)), isOk_writeComments]

theorem isOk_header1020 (env : Env F) (r : NA1020 F) : IsOk (header1020 env r) ↔ HeaderFilled (.o1020 r) := by
  unfold header1020 HeaderFilled
  rw [isOk_then (P := _ ∧ _ ∧ _ ∧ _ ∧ _) (fun a1 h1 => ?_), isOk_writeCommon]
  rw [isOk_then (P := _ ∧ _ ∧ _ ∧ _) (fun a2 _ => ?_), isOk_tmplRow, onLines_map]
  rw [isOk_then (P := _ ∧ _ ∧ _) (fun a3 _ => ?_), isOk_tmplLines]
  rw [isOk_then (P := _ ∧ _) (fun a4 _ => ?_), isOk_writeVars]
  rw [isOk_then (P := _) (fun a5 _ => ?_), isOk_writeAux]
  rw [isOk_last (fun a6 => isOk_fix h1 _ _ (by simp only [List.append_assoc]; exact ⟨_, rfl⟩)), isOk_writeComments]

theorem isOk_axisLine (env : Env F) (n : Int) (x : List F) :
    IsOk (axisLine env n x) ↔ (upTo x n).length = n.toNat := by
  unfold axisLine
  dsimp only
  rw [sliceTo_upTo]
  split
  · rename_i h; rw [isOk_ok]; simp [h]
  · rename_i h; rw [isOk_error]; simp [h]

theorem isOk_axisLines (env : Env F) (r : NA2010 F) :
    IsOk (axisLines env r) ↔ AxesFit (r.NIV - 1) r.NXDEF r.XB := by
  unfold axisLines AxesFit
  rw [isOk_last (fun a => ⟨_, rfl⟩), isOk_mapRes]
  constructor
  · intro h i hi
    obtain ⟨k, hk, h2⟩ := isOk_bind.1 (h i (by simp; omega))
    obtain ⟨x, hx, h3⟩ := isOk_bind.1 h2
    exact ⟨k, x, idx_ok.1 hk, idx_ok.1 hx, (isOk_axisLine _ _ _).1 h3⟩
  · intro h i hi
    obtain ⟨k, x, hk, hx, h3⟩ := h i (by simp at hi; omega)
    exact isOk_bind.2 ⟨k, idx_ok.2 hk, isOk_bind.2 ⟨x, idx_ok.2 hx, (isOk_axisLine _ _ _).2 h3⟩⟩

theorem twoErrs_axisLines (env : Env F) (r : NA2010 F) : TwoErrs (axisLines env r) := by
  unfold axisLines
  refine twoErrs_bind (twoErrs_mapRes (fun i => twoErrs_bind (twoErrs_idx _ _) (fun n => twoErrs_bind (twoErrs_idx _ _)
    (fun x => ?_))) _) (fun _ => twoErrs_ok _)
  unfold axisLine; dsimp only; split
  · exact twoErrs_ok _
  · exact twoErrs_type

theorem isOk_header2010 (env : Env F) (r : NA2010 F) : IsOk (header2010 env r).2 ↔ HeaderFilled (.o2010 r) := by
  unfold header2010
  simp only [HeaderFilled]
  rw [← isOk_writeCommon env r.c]
  cases h1 : writeCommon env r.c with
  | error e => simp [isOk_error]
  | ok common =>
    rw [isOk_ok, true_and]
    dsimp only
    have h2 := isOk_tmplSep r.NIV env.delim (r.DX.reverse.map env.cd.sfmt)
    rw [onLine_map, onLine_reverse] at h2
    rw [← h2]
    cases h3 : tmplSep r.NIV env.delim (r.DX.reverse.map env.cd.sfmt) with
    | error e => simp [isOk_error]
    | ok dx =>
      rw [isOk_ok, true_and]
      dsimp only
      unfold header2010Tail
      dsimp only
      rw [isOk_then (P := _ ∧ _ ∧ _ ∧ _ ∧ _ ∧ _) (fun a2 _ => ?_), isOk_tmplSep, onLine_map, onLine_reverse]
      rw [isOk_then (P := _ ∧ _ ∧ _ ∧ _ ∧ _) (fun a2 _ => ?_), isOk_tmplSep, onLine_map, onLine_reverse]
      rw [isOk_then (P := _ ∧ _ ∧ _ ∧ _) (fun a2 _ => ?_), isOk_axisLines]
      rw [isOk_then (P := _ ∧ _ ∧ _) (fun a3 _ => ?_), isOk_tmplLines, onLines_reverse]
      rw [isOk_then (P := _ ∧ _) (fun a4 _ => ?_), isOk_writeVars]
      rw [isOk_then (P := _) (fun a5 _ => ?_), isOk_writeAux]
      rw [isOk_last (fun a6 => isOk_fix h1 _ _ (by simp only [List.append_assoc]; exact ⟨_, rfl⟩)), isOk_writeComments]

theorem isOk_header2110Tail {env : Env F} {c : Common} {common : Str} (h1 : writeCommon env c = .ok common) (dx : Str)
    (r : NA2110 F) : IsOk (header2110Tail env common dx r) ↔
      OnLines r.NIV r.XNAME ∧ VarsFit r.v ∧ AuxFits r.aux ∧ ComFits r.com := by
  unfold header2110Tail
  rw [isOk_then (P := _ ∧ _ ∧ _) (fun a3 _ => ?_), isOk_tmplLines]
  rw [isOk_then (P := _ ∧ _) (fun a4 _ => ?_), isOk_writeVars]
  rw [isOk_then (P := _) (fun a5 _ => ?_), isOk_writeAux]
  rw [isOk_last (fun a6 => isOk_fix h1 _ _ (by simp only [List.append_assoc]; exact ⟨_, rfl⟩)), isOk_writeComments]

theorem isOk_header2110 (env : Env F) (r : NA2110 F) : IsOk (header2110 env r).2 ↔ HeaderFilled (.o2110 r) := by
  unfold header2110
  simp only [HeaderFilled]
  rw [← isOk_writeCommon env r.c]
  cases h1 : writeCommon env r.c with
  | error e => simp [isOk_error]
  | ok common =>
    rw [isOk_ok, true_and]
    dsimp only
    have h2 := isOk_tmplSep r.NIV env.delim (r.DX.reverse.map env.cd.sfmt)
    rw [onLine_map, onLine_reverse] at h2
    rw [← h2]
    cases h3 : tmplSep r.NIV env.delim (r.DX.reverse.map env.cd.sfmt) with
    | error e => simp [isOk_error]
    | ok dx =>
      rw [isOk_ok, true_and]
      dsimp only
      rw [isOk_header2110Tail h1]
      dsimp only
      rw [onLines_reverse]

theorem isOk_header2310 (env : Env F) (r : NA2110 F) : IsOk (header2310 env r).2 ↔ HeaderFilled (.o2310 r) := by
  unfold header2310
  simp only [HeaderFilled]
  rw [← isOk_writeCommon env r.c]
  cases h1 : writeCommon env r.c with
  | error e => simp [isOk_error]
  | ok common =>
    rw [isOk_ok, true_and]
    dsimp only
    have h2 : IsOk (idx r.DX 0) ↔ 1 ≤ r.DX.length := isOk_idx _ _
    rw [← h2]
    cases h3 : idx r.DX 0 with
    | error e => simp [isOk_error]
    | ok dx =>
      rw [isOk_ok, true_and]
      dsimp only
      rw [isOk_header2110Tail h1]
      dsimp only
      rw [onLines_reverse]

theorem isOk_header2160 (env : Env F) (r : NA2160 F) : IsOk (header2160 env r).2 ↔ HeaderFilled (.o2160 r) := by
  unfold header2160
  simp only [HeaderFilled]
  rw [← isOk_writeCommon env r.c]
  cases h1 : writeCommon env r.c with
  | error e => simp [isOk_error]
  | ok common =>
    rw [isOk_ok, true_and]
    dsimp only
    rw [← List.length_reverse (as := r.DX)]
    split
    · rename_i x hx
      rw [hx]
      simp only [List.length_singleton, true_and]
      unfold header2160Tail
      dsimp only
      rw [isOk_then (P := _ ∧ _ ∧ _) (fun a3 _ => ?_), isOk_tmplLines, onLines_reverse]
      rw [isOk_then (P := _ ∧ _) (fun a4 _ => ?_), isOk_writeVars]
      rw [isOk_then (P := _) (fun a5 _ => ?_), isOk_writeCharAux]
      rw [isOk_last (fun a6 => isOk_fix h1 _ _ (by simp only [List.append_assoc]; exact ⟨_, rfl⟩)), isOk_writeComments]
    · rename_i hne
      rw [isOk_error, false_iff]
      rintro ⟨h, _⟩
      obtain ⟨x, hx⟩ := List.length_eq_one_iff.1 h
      exact hne x hx

/-! ### Rows -/

theorem ofRows_isOk (rows : List (Res Str)) : (Out.ofRows rows).err = none ↔ ∀ r ∈ rows, IsOk r := by
  induction rows with
  | nil => simp [Out.ofRows]
  | cons a t ih =>
    cases a with
    | ok s => simp [Out.ofRows, ih, isOk_ok]
    | error e => simp [Out.ofRows, isOk_error]

theorem ofRows_twoErrs {rows : List (Res Str)} (h : ∀ r ∈ rows, TwoErrs r) {e : Err} (he : (Out.ofRows rows).err = some e) :
    e = .index ∨ e = .type := by
  induction rows with
  | nil => simp [Out.ofRows] at he
  | cons a t ih =>
    cases a with
    | ok s => exact ih (fun r hr => h r (List.mem_cons_of_mem _ hr)) (by simpa [Out.ofRows] using he)
    | error e' =>
      have : e' = e := by simpa [Out.ofRows] using he
      subst this
      exact h _ (by simp) e' rfl

theorem isOk_firstN {α : Type} (l : List α) (n : Int) : IsOk (firstN l n) ↔ n ≤ l.length := by
  unfold firstN
  rw [isOk_mapRes]
  simp only [isOk_idx, List.mem_range]
  constructor
  · intro h
    by_cases h0 : n ≤ 0
    · omega
    · have := h (n.toNat - 1) (by omega); omega
  · intro h i hi; omega

theorem mapRes_idx_some {α : Type} {l : List α} {is : List Nat} {r : List α} (h : mapRes (idx l) is = .ok r) :
    r.map some = is.map (fun i => l[i]?) := by
  induction is generalizing r with
  | nil => injection h with h; subst h; rfl
  | cons i is ih =>
    obtain ⟨y, h1, h2⟩ := ok_of_bind (show (idx l i >>= fun y => mapRes (idx l) is >>= fun ys => .ok (y :: ys)) = _ from h)
    obtain ⟨ys, h3, h4⟩ := ok_of_bind h2
    injection h4 with h4; subst h4
    simp [ih h3, idx_ok.1 h1]

theorem firstN_get {α : Type} {l r : List α} {n : Int} (h : firstN l n = .ok r) :
    r = l.take n.toNat ∧ n ≤ l.length := by
  have hle := (isOk_firstN l n).1 ⟨r, h⟩
  refine ⟨?_, hle⟩
  have h2 := mapRes_idx_some h
  have h3 : (l.take n.toNat).map some = (List.range n.toNat).map (fun i => l[i]?) := by
    apply List.ext_getElem
    · simp; omega
    · intro i h1 h2
      have hl : i < l.length := by simp at h1; omega
      simp [hl]
  rw [← h3] at h2
  exact (List.map_inj_right (fun _ _ h => Option.some.inj h)).1 h2

theorem isOk_cells (env : Env F) (cols : List (List F)) (m : Nat) : IsOk (cells env cols m) ↔ ∀ col ∈ cols, m < col.length := by
  unfold cells
  rw [isOk_last (fun a => ⟨_, rfl⟩), isOk_mapRes]
  constructor
  · intro h col hc; have := h col hc; rwa [isOk_last (fun a => ⟨_, rfl⟩), isOk_idx] at this
  · intro h col hc; rw [isOk_last (fun a => ⟨_, rfl⟩), isOk_idx]; exact h col hc

theorem columnsAt_iff {α : Type} (n : Int) (cols : List (List α)) (m : Nat) :
    ColumnsAt n cols m ↔ n ≤ cols.length ∧ ∀ col ∈ cols.take n.toNat, m < col.length := by
  unfold ColumnsAt
  constructor
  · intro h
    refine ⟨?_, ?_⟩
    · by_cases h0 : n ≤ 0
      · omega
      · obtain ⟨c, hc, _⟩ := h (n.toNat - 1) (by omega)
        have := (List.getElem?_eq_some_iff.1 hc).1; omega
    · intro col hc
      obtain ⟨i, hi, rfl⟩ := List.mem_iff_getElem.1 hc
      simp at hi
      obtain ⟨c, hc, hm⟩ := h i (by omega)
      rw [List.getElem_take]
      obtain ⟨hl, rfl⟩ := List.getElem?_eq_some_iff.1 hc
      exact hm
  · rintro ⟨h1, h2⟩ i hi
    have hil : i < cols.length := by omega
    refine ⟨cols[i], by simp [hil], h2 _ ?_⟩
    exact List.mem_iff_getElem.2 ⟨i, by simp; omega, by simp⟩

theorem isOk_cols {β : Type} (env : Env F) (n : Int) (cols : List (List F)) (m : Nat) (g : Str → Res β)
    (hg : ∀ s, IsOk (g s)) :
    IsOk (firstN cols n >>= fun vs => cells env vs m >>= g) ↔ ColumnsAt n cols m := by
  rw [columnsAt_iff, isOk_bind]
  constructor
  · rintro ⟨vs, h1, h2⟩
    rw [isOk_last hg, isOk_cells] at h2
    obtain ⟨rfl, hle⟩ := firstN_get h1
    exact ⟨hle, h2⟩
  · rintro ⟨h1, h2⟩
    obtain ⟨vs, hvs⟩ := (isOk_firstN cols n).2 h1
    refine ⟨vs, hvs, ?_⟩
    rw [isOk_last hg, isOk_cells]
    obtain ⟨rfl, _⟩ := firstN_get hvs
    exact h2

theorem isOk_row1001 (env : Env F) (nv : Int) (V : List (List F)) (x : F) (m : Nat) :
    IsOk (row1001 env nv V x m) ↔ ColumnsAt nv V m := isOk_cols env nv V m _ (fun _ => ⟨_, rfl⟩)

theorem isOk_markRow (env : Env F) (n : Int) (A : List (List F)) (x : F) (m : Nat) :
    IsOk (markRow env n A x m) ↔ ColumnsAt n A m := isOk_cols env n A m _ (fun _ => ⟨_, rfl⟩)

theorem isOk_varRow (env : Env F) (n : Int) (A : List (List F)) (m : Nat) :
    IsOk (varRow env n A m) ↔ ColumnsAt n A m := isOk_cols env n A m _ (fun _ => ⟨_, rfl⟩)

theorem twoErrs_cells (env : Env F) (cols : List (List F)) (m : Nat) : TwoErrs (cells env cols m) :=
  twoErrs_bind (twoErrs_mapRes (fun _ => twoErrs_bind (twoErrs_idx _ _) (fun _ => twoErrs_ok _)) _) (fun _ => twoErrs_ok _)

theorem twoErrs_firstN {α : Type} (l : List α) (n : Int) : TwoErrs (firstN l n) := twoErrs_mapRes (fun _ => twoErrs_idx _ _) _

theorem twoErrs_markRow (env : Env F) (n : Int) (A : List (List F)) (x : F) (m : Nat) : TwoErrs (markRow env n A x m) :=
  twoErrs_bind (twoErrs_firstN _ _) (fun _ => twoErrs_bind (twoErrs_cells _ _ _) (fun _ => twoErrs_ok _))

theorem forall_mapIdx_flatten {α : Type} (xs : List α) (f : Nat → α → List (Res Str)) (P : Res Str → Prop) :
    (∀ r ∈ (xs.mapIdx f).flatten, P r) ↔ ∀ m (h : m < xs.length), ∀ r ∈ f m xs[m], P r := by
  constructor
  · intro h m hm r hr
    exact h r (List.mem_flatten.2 ⟨_, List.mem_mapIdx.2 ⟨m, hm, rfl⟩, hr⟩)
  · intro h r hr
    obtain ⟨l, hl, hr⟩ := List.mem_flatten.1 hr
    obtain ⟨m, hm, rfl⟩ := List.mem_mapIdx.1 hl
    exact h m hm r hr

theorem isOk_blockRow (env : Env F) (nvpm : Int) (V : List (List F)) (n m : Nat) :
    IsOk (blockRow env nvpm V n m) ↔
      ∀ p : Nat, (p : Int) < nvpm → ∃ col, V[n]? = some col ∧ m * nvpm.toNat + p < col.length := by
  unfold blockRow
  rw [isOk_last (fun a => ⟨_, rfl⟩), isOk_mapRes]
  constructor
  · intro h p hp
    obtain ⟨col, h1, h2⟩ := isOk_bind.1 (h p (by simp; omega))
    rw [isOk_last (fun a => ⟨_, rfl⟩), isOk_idx] at h2
    exact ⟨col, idx_ok.1 h1, h2⟩
  · intro h p hp
    obtain ⟨col, h1, h2⟩ := h p (by simp at hp; omega)
    refine isOk_bind.2 ⟨col, idx_ok.2 h1, ?_⟩
    rw [isOk_last (fun a => ⟨_, rfl⟩), isOk_idx]; exact h2

theorem isOk_writeLines (cd : Codec F) (delim : Str) (ds : List Int) (t : Tree F) :
    IsOk (writeLines cd delim (natDims ds) t) ↔ NumbersAt ds t := by
  induction ds generalizing t with
  | nil => simp [natDims, writeLines, NumbersAt, isOk_error]
  | cons d ds ih =>
    cases ds with
    | nil =>
      show IsOk (mapRes _ (List.range d.toNat) >>= _) ↔ _
      rw [isOk_last (fun a => ⟨_, rfl⟩), isOk_mapRes]
      cases t with
      | val x =>
        simp only [NumbersAt]
        constructor
        · intro h
          by_cases hd : d ≤ 0
          · exact hd
          · have := h 0 (by simp; omega)
            rw [isOk_bind] at this
            obtain ⟨a, h1, _⟩ := this
            cases h1
        · intro h i hi; simp at hi; omega
      | lst l =>
        simp only [NumbersAt]
        constructor
        · intro h i hi
          obtain ⟨a, h1, h2⟩ := isOk_bind.1 (h i (by simp; omega))
          cases a with
          | val x => exact ⟨x, idx_ok.1 h1⟩
          | lst l => exact absurd h2 (by simp [fmtLeaf, isOk_error])
        · intro h i hi
          obtain ⟨x, hx⟩ := h i (by simp at hi; omega)
          exact isOk_bind.2 ⟨.val x, idx_ok.2 hx, ⟨_, rfl⟩⟩
    | cons d2 ds =>
      show IsOk (mapRes _ (List.range d.toNat) >>= _) ↔ _
      rw [isOk_last (fun a => ⟨_, rfl⟩), isOk_mapRes]
      cases t with
      | val x =>
        simp only [NumbersAt]
        constructor
        · intro h
          by_cases hd : d ≤ 0
          · exact hd
          · have := h 0 (by simp; omega)
            rw [isOk_bind] at this
            obtain ⟨a, h1, _⟩ := this
            cases h1
        · intro h i hi; simp at hi; omega
      | lst l =>
        simp only [NumbersAt]
        constructor
        · intro h i hi
          obtain ⟨a, h1, h2⟩ := isOk_bind.1 (h i (by simp; omega))
          exact ⟨a, idx_ok.1 h1, (ih a).1 h2⟩
        · intro h i hi
          obtain ⟨a, h1, h2⟩ := h i (by simp at hi; omega)
          exact isOk_bind.2 ⟨a, idx_ok.2 h1, (ih a).2 h2⟩

theorem twoErrs_child (t : Tree F) (i : Nat) : TwoErrs (t.child i) := by
  cases t with
  | val x => exact twoErrs_type
  | lst l => exact twoErrs_idx _ _

theorem twoErrs_writeLines (cd : Codec F) (delim : Str) (ds : List Nat) (t : Tree F) :
    TwoErrs (writeLines cd delim ds t) := by
  induction ds generalizing t with
  | nil => exact twoErrs_index
  | cons d ds ih =>
    cases ds with
    | nil =>
      refine twoErrs_bind (twoErrs_mapRes (fun i => twoErrs_bind (twoErrs_child _ _) (fun x => ?_)) _) (fun _ => twoErrs_ok _)
      cases x with
      | val x => exact twoErrs_ok _
      | lst l => exact twoErrs_type
    | cons d2 ds =>
      exact twoErrs_bind (twoErrs_mapRes (fun i => twoErrs_bind (twoErrs_child _ _) (fun x => ih x)) _) (fun _ => twoErrs_ok _)

theorem varLines2010_ok (env : Env F) (nx : List Int) (V : List (List (Tree F))) (n m : Nat) :
    (∀ r ∈ varLines2010 env nx V n m, IsOk r) ↔
      ∃ vs t, V[n]? = some vs ∧ vs[m]? = some t ∧ NumbersAt nx t := by
  have key : IsOk (idx V n >>= fun vn => idx vn m >>= fun t => writeLines env.cd env.delim (natDims nx) t) ↔
      ∃ vs t, V[n]? = some vs ∧ vs[m]? = some t ∧ NumbersAt nx t := by
    rw [isOk_bind]
    constructor
    · rintro ⟨vs, h1, h2⟩
      obtain ⟨t, h3, h4⟩ := isOk_bind.1 h2
      exact ⟨vs, t, idx_ok.1 h1, idx_ok.1 h3, (isOk_writeLines _ _ _ _).1 h4⟩
    · rintro ⟨vs, t, h1, h3, h4⟩
      exact ⟨vs, idx_ok.2 h1, isOk_bind.2 ⟨t, idx_ok.2 h3, (isOk_writeLines _ _ _ _).2 h4⟩⟩
  rw [← key]
  unfold varLines2010
  dsimp only
  split
  · rename_i e he
    rw [he, isOk_error]; simp [isOk_error]
  · rename_i ls he
    rw [he, isOk_ok]
    simp [isOk_ok]

theorem varLines2010_twoErrs (env : Env F) (nx : List Int) (V : List (List (Tree F))) (n m : Nat) :
    ∀ r ∈ varLines2010 env nx V n m, TwoErrs r := by
  have key : TwoErrs (idx V n >>= fun vn => idx vn m >>= fun t => writeLines env.cd env.delim (natDims nx) t) :=
    twoErrs_bind (twoErrs_idx _ _) (fun _ => twoErrs_bind (twoErrs_idx _ _) (fun _ => twoErrs_writeLines _ _ _ _))
  intro r hr
  unfold varLines2010 at hr
  dsimp only at hr
  split at hr
  · rename_i e he
    rw [he] at key
    rw [List.mem_singleton.1 hr]
    intro e' h; injection h with h; subst h; exact key _ rfl
  · obtain ⟨l, _, rfl⟩ := List.mem_map.1 hr
    exact twoErrs_ok _

/-- The values of the variables at one position of one mark. -/
def AtPos (n : Int) (V : List (List (List F))) (m p : Nat) : Prop :=
  ∀ i : Nat, (i : Int) < n → ∃ vs v, V[i]? = some vs ∧ vs[m]? = some v ∧ p < v.length

theorem isOk_atPos {β : Type} (env : Env F) (n : Int) (V : List (List (List F))) (m p : Nat) (g : List Str → Res β)
    (hg : ∀ s, IsOk (g s)) :
    IsOk (firstN V n >>= fun vs => mapRes (fun (vn : List (List F)) => do
      let vnm ← idx vn m
      let y ← idx vnm p
      .ok (cell env y)) vs >>= g) ↔ AtPos n V m p := by
  rw [isOk_bind]
  constructor
  · rintro ⟨vs, h1, h2⟩ i hi
    rw [isOk_last hg, isOk_mapRes] at h2
    obtain ⟨rfl, hle⟩ := firstN_get h1
    have hil : i < V.length := by omega
    have hm : V[i] ∈ V.take n.toNat := List.mem_iff_getElem.2 ⟨i, by simp; omega, by simp⟩
    obtain ⟨v, h3, h4⟩ := isOk_bind.1 (h2 _ hm)
    rw [isOk_last (fun a => ⟨_, rfl⟩), isOk_idx] at h4
    exact ⟨V[i], v, by simp [hil], idx_ok.1 h3, h4⟩
  · intro h
    have hle : n ≤ V.length := by
      by_cases h0 : n ≤ 0
      · omega
      · obtain ⟨c, _, hc, _⟩ := h (n.toNat - 1) (by omega)
        have := (List.getElem?_eq_some_iff.1 hc).1; omega
    obtain ⟨vs, hvs⟩ := (isOk_firstN V n).2 hle
    refine ⟨vs, hvs, ?_⟩
    rw [isOk_last hg, isOk_mapRes]
    obtain ⟨rfl, _⟩ := firstN_get hvs
    intro vn hvn
    obtain ⟨i, hi, rfl⟩ := List.mem_iff_getElem.1 hvn
    simp at hi
    obtain ⟨vs, v, h1, h2, h3⟩ := h i (by omega)
    obtain ⟨hl, rfl⟩ := List.getElem?_eq_some_iff.1 h1
    rw [List.getElem_take]
    refine isOk_bind.2 ⟨v, idx_ok.2 h2, ?_⟩
    rw [isOk_last (fun a => ⟨_, rfl⟩), isOk_idx]; exact h3

theorem raggedRows_ok (env : Env F) (nv : Int) (NX : List Int) (V : List (List (List F))) (xs : List F) (m : Nat) :
    (∀ r ∈ raggedRows env nv NX V xs m, IsOk r) ↔
      RaggedAt nv NX V m ∧ ∀ nx, NX[m]? = some nx → nx ≤ xs.length := by
  unfold raggedRows RaggedAt
  cases h : idx NX m with
  | error e =>
    have hn : NX[m]? = none := by
      cases h2 : NX[m]? with
      | none => rfl
      | some a => rw [idx_ok.2 h2] at h; cases h
    simp [isOk_error, hn]
  | ok nx =>
    have h' := idx_ok.1 h
    rw [h']
    dsimp only
    constructor
    · intro hr
      have hrow : ∀ p : Nat, (p : Int) < nx → IsOk (raggedRow env nv V xs m p) := fun p hp =>
        hr _ (List.mem_map.2 ⟨p, by simp; omega, rfl⟩)
      refine ⟨⟨nx, rfl, fun p hp => ?_⟩, ?_⟩
      · obtain ⟨x, h1, h2⟩ := isOk_bind.1 (hrow p hp)
        exact (isOk_atPos env nv V m p _ (fun _ => ⟨_, rfl⟩)).1 h2
      · intro nx' hnx; injection hnx with hnx; subst hnx
        by_cases h0 : nx ≤ 0
        · omega
        · obtain ⟨x, h1, h2⟩ := isOk_bind.1 (hrow (nx.toNat - 1) (by omega))
          have := (isOk_idx _ _).1 ⟨x, h1⟩; omega
    · rintro ⟨⟨nx', hnx, h1⟩, h2⟩ r hr
      injection hnx with hnx; subst hnx
      obtain ⟨p, hp, rfl⟩ := List.mem_map.1 hr
      simp at hp
      have hx := h2 nx rfl
      obtain ⟨x, hx⟩ := (isOk_idx xs p).2 (by omega)
      exact isOk_bind.2 ⟨x, hx, (isOk_atPos env nv V m p _ (fun _ => ⟨_, rfl⟩)).2 (h1 p (by omega))⟩

theorem twoErrs_raggedRow (env : Env F) (nv : Int) (V : List (List (List F))) (xs : List F) (m p : Nat) :
    TwoErrs (raggedRow env nv V xs m p) :=
  twoErrs_bind (twoErrs_idx _ _) (fun _ => twoErrs_bind (twoErrs_firstN _ _) (fun _ => twoErrs_bind
    (twoErrs_mapRes (fun _ => twoErrs_bind (twoErrs_idx _ _) (fun _ => twoErrs_bind (twoErrs_idx _ _) (fun _ => twoErrs_ok _))) _)
    (fun _ => twoErrs_ok _)))

theorem raggedRows_twoErrs (env : Env F) (nv : Int) (NX : List Int) (V : List (List (List F))) (xs : List F) (m : Nat) :
    ∀ r ∈ raggedRows env nv NX V xs m, TwoErrs r := by
  intro r hr
  unfold raggedRows at hr
  split at hr
  · rename_i e he
    rw [List.mem_singleton.1 hr]
    intro e' h; injection h with h; subst h; exact twoErrs_idx NX m _ he
  · obtain ⟨p, _, rfl⟩ := List.mem_map.1 hr
    exact twoErrs_raggedRow _ _ _ _ _ _

theorem isOk_implRow (env : Env F) (nv : Int) (NX : List Int) (V : List (List (List F))) (m : Nat) :
    IsOk (implRow env nv NX V m) ↔ RaggedAt nv NX V m := by
  unfold implRow RaggedAt
  rw [isOk_bind]
  constructor
  · rintro ⟨nx, h1, h2⟩
    refine ⟨nx, idx_ok.1 h1, fun p hp => ?_⟩
    rw [isOk_last (fun a => ⟨_, rfl⟩), isOk_mapRes] at h2
    exact (isOk_atPos env nv V m p _ (fun _ => ⟨_, rfl⟩)).1 (h2 p (by simp; omega))
  · rintro ⟨nx, h1, h2⟩
    refine ⟨nx, idx_ok.2 h1, ?_⟩
    rw [isOk_last (fun a => ⟨_, rfl⟩), isOk_mapRes]
    intro p hp
    exact (isOk_atPos env nv V m p _ (fun _ => ⟨_, rfl⟩)).2 (h2 p (by simp at hp; omega))

theorem isOk_numAuxRow (env : Env F) (k : Int) (A : List (List (Cell F))) (m : Nat) :
    IsOk (numAuxRow env k A m) ↔ ∀ a : Nat, (a : Int) < k → NumberIn A a m := by
  unfold numAuxRow NumberIn
  rw [isOk_last (fun a => ⟨_, rfl⟩), isOk_mapRes]
  constructor
  · intro h a ha
    obtain ⟨col, h1, h2⟩ := isOk_bind.1 (h a (by simp; omega))
    obtain ⟨x, h3, h4⟩ := isOk_bind.1 h2
    cases x with
    | num x => exact ⟨col, x, idx_ok.1 h1, idx_ok.1 h3⟩
    | str s => exact absurd h4 (by simp [numCell, isOk_error])
  · intro h a ha
    obtain ⟨col, x, h1, h2⟩ := h a (by simp at ha; omega)
    exact isOk_bind.2 ⟨col, idx_ok.2 h1, isOk_bind.2 ⟨.num x, idx_ok.2 h2, ⟨_, rfl⟩⟩⟩

theorem idxI_ok {α : Type} {l : List α} {i : Int} {a : α} : idxI l i = .ok a ↔
    (if 0 ≤ i then l[i.toNat]? else if i.natAbs ≤ l.length then l[l.length - i.natAbs]? else none) = some a := by
  unfold idxI
  split
  · exact idx_ok
  · rename_i h
    by_cases h2 : i.natAbs ≤ l.length
    · rw [if_pos (by omega), if_pos h2]
      have : ((l.length : Int) + i).toNat = l.length - i.natAbs := by omega
      rw [this]; exact idx_ok
    · rw [if_neg (by omega), if_neg h2]
      constructor <;> intro h <;> cases h

theorem isOk_charAuxRow (env : Env F) (k : Int) (A : List (List (Cell F))) (a m : Nat) :
    IsOk (charAuxRow env k A a m) ↔ ValueIn A (k + a) m := by
  unfold charAuxRow ValueIn
  rw [isOk_bind]
  constructor
  · rintro ⟨col, h1, h2⟩
    rw [isOk_last (fun a => ⟨_, rfl⟩), isOk_idx] at h2
    exact ⟨col, idxI_ok.1 h1, h2⟩
  · rintro ⟨col, h1, h2⟩
    refine ⟨col, idxI_ok.2 h1, ?_⟩
    rw [isOk_last (fun a => ⟨_, rfl⟩), isOk_idx]; exact h2

theorem twoErrs_idxI {α : Type} (l : List α) (i : Int) : TwoErrs (idxI l i) := by
  unfold idxI; split
  · exact twoErrs_idx _ _
  · split
    · exact twoErrs_idx _ _
    · exact twoErrs_index

/-- The rows can all be made exactly when the counts fit the data. -/
theorem rows_ok (env : Env F) (o : Obj F) : (Out.ofRows (o.rows env)).err = none ↔ DataFilled o := by
  rw [ofRows_isOk]
  cases o with
  | o1001 r =>
    show (∀ x ∈ rows1001 env r, IsOk x) ↔ ∀ m < r.X.length, ColumnsAt r.v.NV r.V m
    unfold rows1001
    constructor
    · intro h m hm
      exact (isOk_row1001 env r.v.NV r.V r.X[m] m).1 (h _ (List.mem_mapIdx.2 ⟨m, hm, rfl⟩))
    · intro h x hx
      obtain ⟨m, hm, rfl⟩ := List.mem_mapIdx.1 hx
      exact (isOk_row1001 env r.v.NV r.V r.X[m] m).2 (h m hm)
  | o1010 r =>
    show (∀ x ∈ rows1010 env r, IsOk x) ↔ ∀ m < r.X.length, ColumnsAt r.aux.NAUXV r.A m ∧ ColumnsAt r.v.NV r.V m
    unfold rows1010
    rw [forall_mapIdx_flatten]
    simp only [List.mem_cons, List.not_mem_nil, or_false, forall_eq_or_imp, forall_eq, isOk_markRow, isOk_varRow]
  | o1020 r =>
    show (∀ x ∈ rows1020 env r, IsOk x) ↔ ∀ m < r.X.length, ColumnsAt r.aux.NAUXV r.A m ∧
      ∀ p : Nat, (p : Int) < r.NVPM → ColumnsAt r.v.NV r.V (m * r.NVPM.toNat + p)
    unfold rows1020
    rw [forall_mapIdx_flatten]
    simp only [List.forall_mem_cons, isOk_markRow]
    refine forall_congr' (fun m => forall_congr' (fun hm => and_congr Iff.rfl ?_))
    constructor
    · intro h p hp i hi
      exact (isOk_blockRow env r.NVPM r.V i m).1 (h _ (List.mem_map.2 ⟨i, by simp; omega, rfl⟩)) p hp
    · intro h x hx
      obtain ⟨i, hi, rfl⟩ := List.mem_map.1 hx
      exact (isOk_blockRow env r.NVPM r.V i m).2 (fun p hp => h p hp i (by simp at hi; omega))
  | o2010 r =>
    show (∀ x ∈ rows2010 env r, IsOk x) ↔ ∀ m < r.X0.length, ColumnsAt r.aux.NAUXV r.A m ∧
      ∀ i : Nat, (i : Int) < r.v.NV → ∃ vs t, r.V[i]? = some vs ∧ vs[m]? = some t ∧ NumbersAt r.NX t
    unfold rows2010
    rw [forall_mapIdx_flatten]
    simp only [List.forall_mem_cons, isOk_markRow]
    refine forall_congr' (fun m => forall_congr' (fun hm => and_congr Iff.rfl ?_))
    constructor
    · intro h i hi
      refine (varLines2010_ok env r.NX r.V i m).1 (fun x hx => h x ?_)
      exact List.mem_flatten.2 ⟨_, List.mem_map.2 ⟨i, by simp; omega, rfl⟩, hx⟩
    · intro h x hx
      obtain ⟨l, hl, hx⟩ := List.mem_flatten.1 hx
      obtain ⟨i, hi, rfl⟩ := List.mem_map.1 hl
      exact (varLines2010_ok env r.NX r.V i m).2 (h i (by simp at hi; omega)) x hx
  | o2110 r =>
    show (∀ x ∈ rows2110 env r, IsOk x) ↔ ∀ m < r.X.length, ColumnsAt r.aux.NAUXV r.A m ∧ RaggedAt r.v.NV r.NX r.V m ∧
      AxisAt r.NX r.X m
    unfold rows2110
    rw [forall_mapIdx_flatten]
    simp only [List.forall_mem_cons, isOk_markRow, raggedRows_ok]
    refine forall_congr' (fun m => forall_congr' (fun hm => and_congr Iff.rfl (and_congr Iff.rfl ?_)))
    unfold AxisAt
    simp [hm]
  | o2160 r =>
    show (∀ x ∈ rows2160 env r, IsOk x) ↔ ∀ m < r.X.length,
      (∀ a : Nat, (a : Int) < r.aux.NAUXV - r.aux.NAUXC → NumberIn r.A a m) ∧
      (∀ a : Nat, (a : Int) < r.aux.NAUXC → ValueIn r.A (r.aux.NAUXV - r.aux.NAUXC + a) m) ∧
      RaggedAt r.v.NV r.NX r.V m ∧ AxisAt r.NX r.X m
    unfold rows2160
    dsimp only
    rw [forall_mapIdx_flatten]
    simp only [List.forall_mem_cons, isOk_ok, true_and, List.forall_mem_append, isOk_numAuxRow, raggedRows_ok]
    refine forall_congr' (fun m => forall_congr' (fun hm => and_congr Iff.rfl (and_congr ?_ (and_congr Iff.rfl ?_))))
    · constructor
      · intro h a ha
        exact (isOk_charAuxRow env _ r.A a m).1 (h _ (List.mem_map.2 ⟨a, by simp; omega, rfl⟩))
      · intro h x hx
        obtain ⟨a, ha, rfl⟩ := List.mem_map.1 hx
        exact (isOk_charAuxRow env _ r.A a m).2 (h a (by simp at ha; omega))
    · unfold AxisAt
      simp [hm]
  | o2310 r =>
    show (∀ x ∈ rows2310 env r, IsOk x) ↔ ∀ m < r.X.length, ColumnsAt r.aux.NAUXV r.A m ∧ RaggedAt r.v.NV r.NX r.V m
    unfold rows2310
    rw [forall_mapIdx_flatten]
    simp only [List.mem_cons, List.not_mem_nil, or_false, forall_eq_or_imp, forall_eq, isOk_markRow, isOk_implRow]

theorem rows_twoErrs (env : Env F) (o : Obj F) : ∀ x ∈ o.rows env, TwoErrs x := by
  cases o with
  | o1001 r =>
    intro x hx
    obtain ⟨m, hm, rfl⟩ := List.mem_mapIdx.1 (show x ∈ rows1001 env r from hx)
    exact twoErrs_bind (twoErrs_firstN _ _) (fun _ => twoErrs_bind (twoErrs_cells _ _ _) (fun _ => twoErrs_ok _))
  | o1010 r =>
    refine (forall_mapIdx_flatten _ _ _).2 (fun m hm x hx => ?_)
    simp only [List.mem_cons, List.not_mem_nil, or_false] at hx
    rcases hx with rfl | rfl
    · exact twoErrs_markRow _ _ _ _ _
    · exact twoErrs_bind (twoErrs_firstN _ _) (fun _ => twoErrs_bind (twoErrs_cells _ _ _) (fun _ => twoErrs_ok _))
  | o1020 r =>
    refine (forall_mapIdx_flatten _ _ _).2 (fun m hm x hx => ?_)
    rcases List.mem_cons.1 hx with rfl | hx
    · exact twoErrs_markRow _ _ _ _ _
    · obtain ⟨i, _, rfl⟩ := List.mem_map.1 hx
      exact twoErrs_bind (twoErrs_mapRes (fun _ => twoErrs_bind (twoErrs_idx _ _) (fun _ => twoErrs_bind
        (twoErrs_idx _ _) (fun _ => twoErrs_ok _))) _) (fun _ => twoErrs_ok _)
  | o2010 r =>
    refine (forall_mapIdx_flatten _ _ _).2 (fun m hm x hx => ?_)
    rcases List.mem_cons.1 hx with rfl | hx
    · exact twoErrs_markRow _ _ _ _ _
    · obtain ⟨l, hl, hx⟩ := List.mem_flatten.1 hx
      obtain ⟨i, _, rfl⟩ := List.mem_map.1 hl
      exact varLines2010_twoErrs _ _ _ _ _ x hx
  | o2110 r =>
    refine (forall_mapIdx_flatten _ _ _).2 (fun m hm x hx => ?_)
    rcases List.mem_cons.1 hx with rfl | hx
    · exact twoErrs_markRow _ _ _ _ _
    · exact raggedRows_twoErrs _ _ _ _ _ _ x hx
  | o2160 r =>
    refine (forall_mapIdx_flatten _ _ _).2 (fun m hm x hx => ?_)
    rcases List.mem_cons.1 hx with rfl | hx
    · exact twoErrs_ok _
    rcases List.mem_cons.1 hx with rfl | hx
    · refine twoErrs_bind (twoErrs_mapRes (fun _ => twoErrs_bind (twoErrs_idx _ _) (fun _ => twoErrs_bind
        (twoErrs_idx _ _) (fun x => ?_))) _) (fun _ => twoErrs_ok _)
      cases x with
      | num x => exact twoErrs_ok _
      | str s => exact twoErrs_type
    rcases List.mem_append.1 hx with hx | hx
    · obtain ⟨a, _, rfl⟩ := List.mem_map.1 hx
      exact twoErrs_bind (twoErrs_idxI _ _) (fun _ => twoErrs_bind (twoErrs_idx _ _) (fun _ => twoErrs_ok _))
    · exact raggedRows_twoErrs _ _ _ _ _ _ x hx
  | o2310 r =>
    refine (forall_mapIdx_flatten _ _ _).2 (fun m hm x hx => ?_)
    simp only [List.mem_cons, List.not_mem_nil, or_false] at hx
    rcases hx with rfl | rfl
    · exact twoErrs_markRow _ _ _ _ _
    · exact twoErrs_bind (twoErrs_idx _ _) (fun _ => twoErrs_bind (twoErrs_mapRes (fun _ => twoErrs_bind
        (twoErrs_firstN _ _) (fun _ => twoErrs_bind (twoErrs_mapRes (fun _ => twoErrs_bind (twoErrs_idx _ _)
        (fun _ => twoErrs_bind (twoErrs_idx _ _) (fun _ => twoErrs_ok _))) _) (fun _ => twoErrs_ok _))) _)
        (fun _ => twoErrs_ok _))

/-! ### Whole writes -/

theorem one_seq_err (h : Res Str) (b : Out) : ((Out.one h).seq b).err = none ↔ IsOk h ∧ b.err = none := by
  cases h with
  | ok s => simp [Out.one, Out.seq, isOk_ok]
  | error e => simp [Out.one, Out.seq, isOk_error]

theorem one_seq_twoErrs {h : Res Str} {b : Out} (hh : TwoErrs h) (hb : ∀ e, b.err = some e → e = .index ∨ e = .type)
    {e : Err} (he : ((Out.one h).seq b).err = some e) : e = .index ∨ e = .type := by
  cases h with
  | ok s => exact hb e (by simpa [Out.one, Out.seq] using he)
  | error e' => exact hh e (by simpa [Out.one, Out.seq] using he)

theorem header2010_NX {env : Env F} {r : NA2010 F} (h : IsOk (header2010 env r).2) :
    (header2010 env r).1 = { r with DX := r.DX.reverse, NX := r.NX.reverse } := by
  unfold header2010 at h ⊢
  cases h1 : writeCommon env r.c with
  | error e => rw [h1] at h; exact absurd h (by simp [isOk_error])
  | ok common =>
    simp only [h1] at h ⊢
    cases h2 : tmplSep r.NIV env.delim (r.DX.reverse.map env.cd.sfmt) with
    | error e => simp only [h2] at h; exact absurd h (by simp [isOk_error])
    | ok dx => simp only

theorem header2110_same {env : Env F} {r : NA2110 F} (h : IsOk (header2110 env r).2) :
    (header2110 env r).1 = { r with DX := r.DX.reverse, XNAME := r.XNAME.reverse } := by
  unfold header2110 at h ⊢
  cases h1 : writeCommon env r.c with
  | error e => rw [h1] at h; exact absurd h (by simp [isOk_error])
  | ok common =>
    simp only [h1] at h ⊢
    cases h2 : tmplSep r.NIV env.delim (r.DX.reverse.map env.cd.sfmt) with
    | error e => simp only [h2] at h; exact absurd h (by simp [isOk_error])
    | ok dx => simp only

theorem header2310_same {env : Env F} {r : NA2110 F} (h : IsOk (header2310 env r).2) :
    (header2310 env r).1 = { r with XNAME := r.XNAME.reverse } := by
  unfold header2310 at h ⊢
  cases h1 : writeCommon env r.c with
  | error e => rw [h1] at h; exact absurd h (by simp [isOk_error])
  | ok common =>
    simp only [h1] at h ⊢
    cases h2 : idx r.DX 0 with
    | error e => simp only [h2] at h; exact absurd h (by simp [isOk_error])
    | ok dx => rfl

theorem header2160_same {env : Env F} {r : NA2160 F} (h : IsOk (header2160 env r).2) :
    (header2160 env r).1 = { r with DX := r.DX.reverse, XNAME := r.XNAME.reverse } := by
  unfold header2160 at h ⊢
  cases h1 : writeCommon env r.c with
  | error e => rw [h1] at h; exact absurd h (by simp [isOk_error])
  | ok common =>
    simp only [h1] at h ⊢
    split at h
    · rename_i x hx; rfl
    · exact absurd h (by simp [isOk_error])

/-- The effect of a write with a header, for the classes that turn lists round. -/
theorem match_err {ρ : Type} (p : ρ × Res Str) (f : ρ → ρ) (g : ρ → Out) :
    (match p with
      | (r1, .error e) => (r1, ({ writes := [], err := some e } : Out))
      | (r1, .ok h) => (f r1, (Out.one (.ok h)).seq (g r1))).2 = (Out.one p.2).seq (g p.1) := by
  obtain ⟨r1, x⟩ := p
  cases x <;> rfl

theorem write2010_out (env : Env F) (r : NA2010 F) : (write2010 env false r).2 =
    (Out.one (header2010 env r).2).seq
      (Out.ofRows (rows2010 env { (header2010 env r).1 with NX := (header2010 env r).1.NX.reverse })) := by
  unfold write2010
  cases h : header2010 env r with
  | mk r1 x => cases x <;> rfl

theorem write2110_out (env : Env F) (r : NA2110 F) : (write2110 env false r).2 =
    (Out.one (header2110 env r).2).seq (Out.ofRows (rows2110 env (header2110 env r).1)) := by
  unfold write2110
  cases h : header2110 env r with
  | mk r1 x => cases x <;> rfl

theorem write2310_out (env : Env F) (r : NA2110 F) : (write2310 env false r).2 =
    (Out.one (header2310 env r).2).seq (Out.ofRows (rows2310 env (header2310 env r).1)) := by
  unfold write2310
  cases h : header2310 env r with
  | mk r1 x => cases x <;> rfl

theorem write2160_out (env : Env F) (r : NA2160 F) : (write2160 env false r).2 =
    ({ writes := ignoredWrites r.ignored, err := none } : Out).seq
      ((Out.one (header2160 env r).2).seq (Out.ofRows (rows2160 env (header2160 env r).1))) := by
  unfold write2160
  cases h : header2160 env r with
  | mk r1 x => cases x <;> rfl

theorem write_header_ok (env : Env F) (o : Obj F) :
    (o.write env false).2.err = none ↔ HeaderFilled o ∧ DataFilled o := by
  cases o with
  | o1001 r =>
    show ((Out.one (header1001 env r)).seq (Out.ofRows (rows1001 env r))).err = none ↔ _
    rw [one_seq_err, isOk_header1001]; exact and_congr Iff.rfl (rows_ok env (.o1001 r))
  | o1010 r =>
    show ((Out.one (header1010 env r)).seq (Out.ofRows (rows1010 env r))).err = none ↔ _
    rw [one_seq_err, isOk_header1010]; exact and_congr Iff.rfl (rows_ok env (.o1010 r))
  | o1020 r =>
    show ((Out.one (header1020 env r)).seq (Out.ofRows (rows1020 env r))).err = none ↔ _
    rw [one_seq_err, isOk_header1020]; exact and_congr Iff.rfl (rows_ok env (.o1020 r))
  | o2010 r =>
    show (write2010 env false r).2.err = none ↔ _
    rw [write2010_out, one_seq_err, ← isOk_header2010 env]
    refine and_congr_right (fun h => ?_)
    rw [header2010_NX h]
    simp only [List.reverse_reverse]
    exact (rows_ok env (.o2010 { r with DX := r.DX.reverse }))
  | o2110 r =>
    show (write2110 env false r).2.err = none ↔ _
    rw [write2110_out, one_seq_err, ← isOk_header2110 env]
    refine and_congr_right (fun h => ?_)
    rw [header2110_same h]
    exact (rows_ok env (.o2110 { r with DX := r.DX.reverse, XNAME := r.XNAME.reverse }))
  | o2160 r =>
    show (write2160 env false r).2.err = none ↔ _
    rw [write2160_out]
    show ((Out.one _).seq _).err = none ↔ _
    rw [one_seq_err, ← isOk_header2160 env]
    refine and_congr_right (fun h => ?_)
    rw [header2160_same h]
    exact (rows_ok env (.o2160 { r with DX := r.DX.reverse, XNAME := r.XNAME.reverse }))
  | o2310 r =>
    show (write2310 env false r).2.err = none ↔ _
    rw [write2310_out, one_seq_err, ← isOk_header2310 env]
    refine and_congr_right (fun h => ?_)
    rw [header2310_same h]
    exact (rows_ok env (.o2310 { r with XNAME := r.XNAME.reverse }))

theorem write_noHeader_ok (env : Env F) (o : Obj F) :
    (o.write env true).2.err = none ↔ DataFilled (forNoHeader o) := by
  cases o with
  | o1001 r => exact rows_ok env (.o1001 r)
  | o1010 r => exact rows_ok env (.o1010 r)
  | o1020 r => exact rows_ok env (.o1020 r)
  | o2010 r => exact rows_ok env (.o2010 { r with NX := r.NX.reverse })
  | o2110 r => exact rows_ok env (.o2110 r)
  | o2160 r => exact rows_ok env (.o2160 r)
  | o2310 r => exact rows_ok env (.o2310 r)

theorem header2110Tail_twoErrs (env : Env F) (common dx : Str) (r : NA2110 F) :
    TwoErrs (header2110Tail env common dx r) :=
  twoErrs_bind (twoErrs_tmplLines _ _) (fun _ => twoErrs_bind (twoErrs_writeVars _ _) (fun _ => twoErrs_bind
    (twoErrs_writeAux _ _) (fun _ => twoErrs_bind (twoErrs_writeComments _ _) (fun _ => twoErrs_fixHeaderLength _ _ _))))

theorem header2010_twoErrs (env : Env F) (r : NA2010 F) : TwoErrs (header2010 env r).2 := by
  unfold header2010
  cases h1 : writeCommon env r.c with
  | error e => intro e' h; injection h with h; subst h; exact twoErrs_writeCommon env r.c _ h1
  | ok common =>
    dsimp only
    split
    · rename_i e h2; intro e' h; injection h with h; subst h; exact twoErrs_tmplSep _ _ _ _ h2
    · exact twoErrs_bind (twoErrs_tmplSep _ _ _) (fun _ => twoErrs_bind (twoErrs_tmplSep _ _ _) (fun _ => twoErrs_bind
        (twoErrs_axisLines _ _) (fun _ => twoErrs_bind (twoErrs_tmplLines _ _) (fun _ => twoErrs_bind
        (twoErrs_writeVars _ _) (fun _ => twoErrs_bind (twoErrs_writeAux _ _) (fun _ => twoErrs_bind
        (twoErrs_writeComments _ _) (fun _ => twoErrs_fixHeaderLength _ _ _)))))))

theorem header2110_twoErrs (env : Env F) (r : NA2110 F) : TwoErrs (header2110 env r).2 := by
  unfold header2110
  cases h1 : writeCommon env r.c with
  | error e => intro e' h; injection h with h; subst h; exact twoErrs_writeCommon env r.c _ h1
  | ok common =>
    dsimp only
    split
    · rename_i e h2; intro e' h; injection h with h; subst h; exact twoErrs_tmplSep _ _ _ _ h2
    · exact header2110Tail_twoErrs _ _ _ _

theorem header2310_twoErrs (env : Env F) (r : NA2110 F) : TwoErrs (header2310 env r).2 := by
  unfold header2310
  cases h1 : writeCommon env r.c with
  | error e => intro e' h; injection h with h; subst h; exact twoErrs_writeCommon env r.c _ h1
  | ok common =>
    dsimp only
    split
    · rename_i e h2; intro e' h; injection h with h; subst h; exact twoErrs_idx _ _ _ h2
    · exact header2110Tail_twoErrs _ _ _ _

theorem header2160_twoErrs (env : Env F) (r : NA2160 F) : TwoErrs (header2160 env r).2 := by
  unfold header2160
  cases h1 : writeCommon env r.c with
  | error e => intro e' h; injection h with h; subst h; exact twoErrs_writeCommon env r.c _ h1
  | ok common =>
    dsimp only
    split
    · exact twoErrs_bind (twoErrs_tmplLines _ _) (fun _ => twoErrs_bind (twoErrs_writeVars _ _) (fun _ => twoErrs_bind
        (twoErrs_writeCharAux _ _) (fun _ => twoErrs_bind (twoErrs_writeComments _ _)
        (fun _ => twoErrs_fixHeaderLength _ _ _))))
    · exact twoErrs_type

theorem write_twoErrs (env : Env F) (nh : Bool) (o : Obj F) {e : Err} (he : (o.write env nh).2.err = some e) :
    e = .index ∨ e = .type := by
  have rowsE : ∀ (o : Obj F) e, (Out.ofRows (o.rows env)).err = some e → e = .index ∨ e = .type :=
    fun o e h => ofRows_twoErrs (rows_twoErrs env o) h
  cases nh with
  | true =>
    cases o with
    | o1001 r => exact rowsE (.o1001 r) e he
    | o1010 r => exact rowsE (.o1010 r) e he
    | o1020 r => exact rowsE (.o1020 r) e he
    | o2010 r => exact rowsE (.o2010 { r with NX := r.NX.reverse }) e he
    | o2110 r => exact rowsE (.o2110 r) e he
    | o2160 r => exact rowsE (.o2160 r) e he
    | o2310 r => exact rowsE (.o2310 r) e he
  | false =>
    cases o with
    | o1001 r =>
      refine one_seq_twoErrs (h := header1001 env r) ?_ (rowsE (.o1001 r)) he
      exact twoErrs_bind (twoErrs_writeCommon _ _) (fun _ => twoErrs_bind (twoErrs_tmplRow _ _ _) (fun _ => twoErrs_bind
        (twoErrs_tmplAnnLines _ _ _) (fun _ => twoErrs_bind (twoErrs_writeVars _ _) (fun _ => twoErrs_bind
        (twoErrs_writeComments _ _) (fun _ => twoErrs_fixHeaderLength _ _ _)))))
    | o1010 r =>
      refine one_seq_twoErrs (h := header1010 env r) ?_ (rowsE (.o1010 r)) he
      exact twoErrs_bind (twoErrs_writeCommon _ _) (fun _ => twoErrs_bind (twoErrs_tmplRow _ _ _) (fun _ => twoErrs_bind
        (twoErrs_tmplLines _ _) (fun _ => twoErrs_bind (twoErrs_writeVars _ _) (fun _ => twoErrs_bind
        (twoErrs_writeAux _ _) (fun _ => twoErrs_bind (twoErrs_writeComments _ _)
        (fun _ => twoErrs_fixHeaderLength _ _ _))))))
    | o1020 r =>
      refine one_seq_twoErrs (h := header1020 env r) ?_ (rowsE (.o1020 r)) he
      exact twoErrs_bind (twoErrs_writeCommon _ _) (fun _ => twoErrs_bind (twoErrs_tmplRow _ _ _) (fun _ => twoErrs_bind
        (twoErrs_tmplLines _ _) (fun _ => twoErrs_bind (twoErrs_writeVars _ _) (fun _ => twoErrs_bind
        (twoErrs_writeAux _ _) (fun _ => twoErrs_bind (twoErrs_writeComments _ _)
        (fun _ => twoErrs_fixHeaderLength _ _ _))))))
    | o2010 r =>
      have he : (write2010 env false r).2.err = some e := he
      rw [write2010_out] at he
      exact one_seq_twoErrs (header2010_twoErrs env r) (rowsE (.o2010 { (header2010 env r).1 with
        NX := (header2010 env r).1.NX.reverse })) he
    | o2110 r =>
      have he : (write2110 env false r).2.err = some e := he
      rw [write2110_out] at he
      exact one_seq_twoErrs (header2110_twoErrs env r) (rowsE (.o2110 (header2110 env r).1)) he
    | o2160 r =>
      have he : (write2160 env false r).2.err = some e := he
      rw [write2160_out] at he
      exact one_seq_twoErrs (header2160_twoErrs env r) (rowsE (.o2160 (header2160 env r).1)) he
    | o2310 r =>
      have he : (write2310 env false r).2.err = some e := he
      rw [write2310_out] at he
      exact one_seq_twoErrs (header2310_twoErrs env r) (rowsE (.o2310 (header2310 env r).1)) he

end Nappy
