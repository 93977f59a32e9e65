import Verif.Open
import Verif.TextLemmas
import Verif.WriteLemmas

/-! Lemmas about reading the data section: termination. -/

namespace Nappy

open Spec

variable {F : Type}

/-- The computation ends, and its result, if any, satisfies `P`. -/
def Safe {α : Type} (r : Res α) (P : α → Prop) : Prop := r ≠ .error .hang ∧ ∀ a, r = .ok a → P a

theorem Safe.bind {α β : Type} {r : Res α} {f : α → Res β} {P : α → Prop} {Q : β → Prop}
    (h : Safe r P) (hf : ∀ a, P a → Safe (f a) Q) : Safe (r >>= f) Q := by
  cases r with
  | error e =>
    refine ⟨?_, ?_⟩
    · intro he; rw [error_bind] at he; exact h.1 (by rw [Except.error.inj he])
    · intro b hb; cases hb
  | ok a => exact hf a (h.2 a rfl)

theorem Safe.ok {α : Type} {a : α} {P : α → Prop} (h : P a) : Safe (.ok a) P :=
  ⟨by simp, by intro b hb; cases hb; exact h⟩

theorem Safe.err {α : Type} {e : Err} {P : α → Prop} (h : e ≠ .hang) : Safe (.error e : Res α) P :=
  ⟨by intro he; exact h (Except.error.inj he), by intro b hb; cases hb⟩

theorem Safe.mono {α : Type} {r : Res α} {P Q : α → Prop} (h : Safe r P) (hq : ∀ a, P a → Q a) :
    Safe r Q := ⟨h.1, fun a ha => hq a (h.2 a ha)⟩

theorem safe_mapRes {α β : Type} (f : α → Res β) (l : List α) (h : ∀ a ∈ l, Safe (f a) (fun _ => True)) :
    Safe (mapRes f l) (fun r => r.length = l.length) := by
  induction l with
  | nil => exact Safe.ok rfl
  | cons a l ih =>
    unfold mapRes
    refine (h a (by simp)).bind fun b _ => (ih (fun x hx => h x (by simp [hx]))).bind fun bs hb => ?_
    exact Safe.ok (by simp [hb])

theorem safe_idx {α : Type} (l : List α) (i : Nat) : Safe (idx l i) (fun _ => True) := by
  unfold idx; split
  · exact Safe.ok trivial
  · exact Safe.err (by decide)

theorem safe_float (cd : Codec F) (s : Str) : Safe (cd.float s) (fun _ => True) := by
  unfold Codec.float; split
  · exact Safe.ok trivial
  · exact Safe.err (by decide)

theorem safe_int (cd : Codec F) (x : F) : Safe (cd.int x) (fun _ => True) := by
  unfold Codec.int; split
  · exact Safe.ok trivial
  · exact Safe.err (by decide)

theorem safe_unkGo (n : Nat) (ls acc : List Str) :
    Safe (unkGo .index n ls acc) (fun r => r.2.length < ls.length) := by
  induction ls generalizing acc with
  | nil => exact Safe.err (by decide)
  | cons l ls ih =>
    unfold unkGo
    dsimp only
    split
    · exact (ih _).mono fun r hr => by simp; omega
    · split
      · exact Safe.err (by decide)
      · exact Safe.ok (by simp)

/-- Reading items from a list of lines ends and uses up at least one line. -/
theorem safe_readUnkList {β : Type} (n : Int) (conv : Str → Res β)
    (hc : ∀ s, Safe (conv s) (fun _ => True)) (ls : List Str) :
    Safe (readUnkList n conv ls) (fun r => r.2.length < ls.length) := by
  unfold readUnkList readUnk
  split
  · exact Safe.err (by decide)
  · refine (safe_unkGo n.toNat ls []).bind fun r hr => ?_
    refine (safe_mapRes conv r.1 fun a _ => hc a).bind fun v _ => Safe.ok hr

theorem safe_appendCols {α : Type} (cols : List (List α)) (v : List α) :
    Safe (appendCols cols v) (fun _ => True) := by
  induction cols generalizing v with
  | nil => exact Safe.ok trivial
  | cons c cs ih =>
    cases v with
    | nil => exact Safe.err (by decide)
    | cons x v =>
      unfold appendCols
      exact (ih v).bind fun _ _ => Safe.ok trivial

theorem safe_appendBlocks {α : Type} (k : Nat) (cols : List (List α)) (v : List α) :
    Safe (appendBlocks k cols v) (fun _ => True) := by
  induction cols generalizing v with
  | nil => exact Safe.ok trivial
  | cons c cs ih =>
    unfold appendBlocks
    split
    · exact Safe.err (by decide)
    · exact (ih _).bind fun _ _ => Safe.ok trivial

theorem safe_popN (f : Nat → Res (List (Tree F) × Nat)) (hf : ∀ c, Safe (f c) (fun _ => True))
    (k c : Nat) : Safe (popN f k c) (fun _ => True) := by
  induction k generalizing c with
  | zero => exact Safe.ok trivial
  | succ k ih =>
    unfold popN
    exact (hf c).bind fun _ _ => (ih _).bind fun _ _ => Safe.ok trivial

theorem safe_populate (dims : List Nat) (arr : List F) (c : Nat) :
    Safe (populate dims arr c) (fun _ => True) := by
  induction dims generalizing c with
  | nil => exact Safe.err (by decide)
  | cons d ds ih =>
    cases ds with
    | nil =>
      unfold populate
      exact (safe_mapRes _ _ fun _ _ => safe_idx _ _).bind fun _ _ => Safe.ok trivial
    | cons d2 ds =>
      unfold populate
      exact safe_popN _ (fun c => ih c) d c

/-- A pass of the read loop that ends and uses up at least one line. -/
def Consumes {σ : Type} (step : σ → List Str → Res (σ × List Str)) : Prop :=
  ∀ st ls, Safe (step st ls) (fun r => r.2.length < ls.length)

theorem consumes_1001 (cd : Codec F) (nv : Int) : Consumes (step1001 cd nv) := by
  intro st ls
  unfold step1001
  refine (safe_readUnkList _ _ (safe_float cd) ls).bind fun r hr => ?_
  obtain ⟨xv, rest⟩ := r
  cases xv with
  | nil => exact Safe.err (by decide)
  | cons x v => exact (safe_appendCols _ _).bind fun _ _ => Safe.ok hr

theorem safe_data1_1010 (cd : Codec F) (n : Int) (st : Arr1010 F) (ls : List Str) :
    Safe (data1_1010 cd n st ls) (fun r => r.2.length < ls.length) := by
  unfold data1_1010
  refine (safe_readUnkList _ _ (safe_float cd) ls).bind fun r hr => ?_
  obtain ⟨xv, rest⟩ := r
  cases xv with
  | nil => exact Safe.err (by decide)
  | cons x v => exact (safe_appendCols _ _).bind fun _ _ => Safe.ok hr

theorem consumes_1010 (cd : Codec F) (nauxv nv : Int) : Consumes (step1010 cd nauxv nv) := by
  intro st ls
  unfold step1010
  refine (safe_data1_1010 cd nauxv st ls).bind fun r hr => ?_
  obtain ⟨st, rest⟩ := r
  dsimp only at hr ⊢
  unfold data2_1010
  refine (safe_readUnkList _ _ (safe_float cd) rest).bind fun r hr2 => ?_
  exact (safe_appendCols _ _).bind fun _ _ => Safe.ok (by dsimp only; omega)

theorem consumes_1020 (cd : Codec F) (nauxv nv nvpm : Int) : Consumes (step1020 cd nauxv nv nvpm) := by
  intro st ls
  unfold step1020
  refine (safe_data1_1010 cd nauxv st ls).bind fun r hr => ?_
  obtain ⟨st, rest⟩ := r
  dsimp only at hr ⊢
  unfold data2_1020
  refine (safe_readUnkList _ _ (safe_float cd) rest).bind fun r hr2 => ?_
  exact (safe_appendBlocks _ _ _).bind fun _ _ => Safe.ok (by dsimp only; omega)

theorem safe_popVars (cd : Codec F) (size : Int) (dims : List Nat) (V : List (List (Tree F)))
    (ls : List Str) : Safe (popVars cd size dims V ls) (fun r => r.2.length ≤ ls.length) := by
  induction V generalizing ls with
  | nil => exact Safe.ok (Nat.le_refl _)
  | cons c cs ih =>
    unfold popVars
    refine (safe_readUnkList _ _ (safe_float cd) ls).bind fun r hr => ?_
    refine (safe_populate _ _ _).bind fun _ _ => (ih _).bind fun r2 hr2 => Safe.ok ?_
    dsimp only at hr2 ⊢; omega

theorem consumes_2010 (cd : Codec F) (nauxv : Int) (nx : List Int) :
    Consumes (step2010 cd nauxv nx) := by
  intro st ls
  unfold step2010 data1_2010
  refine Safe.bind (P := fun r => r.2.length < ls.length) ?_ fun r hr => ?_
  · refine (safe_readUnkList _ _ (safe_float cd) ls).bind fun r hr => ?_
    obtain ⟨xv, rest⟩ := r
    cases xv with
    | nil => exact Safe.err (by decide)
    | cons x v => exact (safe_appendCols _ _).bind fun _ _ => Safe.ok hr
  · obtain ⟨st, rest⟩ := r
    dsimp only at hr ⊢
    unfold data2_2010
    split
    · exact Safe.err (by decide)
    · exact (safe_popVars cd _ _ _ rest).bind fun r2 hr2 => Safe.ok (by dsimp only; omega)

theorem safe_readRagged (cd : Codec F) (nv : Int) (k : Nat) (xs : List F) (cols : List (List F))
    (ls : List Str) : Safe (readRagged cd nv k xs cols ls) (fun r => r.2.2.length ≤ ls.length) := by
  induction k generalizing xs cols ls with
  | zero => exact Safe.ok (Nat.le_refl _)
  | succ k ih =>
    unfold readRagged
    refine (safe_readUnkList _ _ (safe_float cd) ls).bind fun r hr => ?_
    obtain ⟨xv, rest⟩ := r
    cases xv with
    | nil => exact Safe.err (by decide)
    | cons x v =>
      refine (safe_appendCols _ _).bind fun cols' _ => (ih _ _ rest).mono fun r2 hr2 => ?_
      dsimp only at hr; omega

theorem consumes_2110 (cd : Codec F) (nauxv nv : Int) : Consumes (step2110 cd nauxv nv) := by
  intro st ls
  unfold step2110 data1_2110
  refine Safe.bind (P := fun r => r.2.2.2.length < ls.length) ?_ fun r hr => ?_
  · refine (safe_readUnkList _ _ (safe_float cd) ls).bind fun r hr => ?_
    obtain ⟨xv, rest⟩ := r
    cases xv with
    | nil => exact Safe.err (by decide)
    | cons x v =>
      exact (safe_appendCols _ _).bind fun _ _ => (safe_idx _ _).bind fun _ _ =>
        (safe_int _ _).bind fun _ _ => Safe.ok hr
  · obtain ⟨st, nx, x, rest⟩ := r
    dsimp only at hr ⊢
    unfold data2_2110
    exact (safe_readRagged cd _ _ _ _ rest).bind fun ⟨_, _, l2⟩ hr2 => Safe.ok (by dsimp only at hr2 ⊢; omega)

theorem consumes_2310 (cd : Codec F) (nauxv nv : Int) : Consumes (step2310 cd nauxv nv) := by
  intro st ls
  unfold step2310 data1_2310
  refine Safe.bind (P := fun r => r.2.2.length < ls.length) ?_ fun r hr => ?_
  · refine (safe_readUnkList _ _ (safe_float cd) ls).bind fun r hr => ?_
    obtain ⟨xv, rest⟩ := r
    cases xv with
    | nil => exact Safe.err (by decide)
    | cons x v =>
      exact (safe_appendCols _ _).bind fun _ _ => (safe_idx _ _).bind fun _ _ =>
        (safe_idx _ _).bind fun _ _ => (safe_int _ _).bind fun _ _ =>
        (safe_idx _ _).bind fun _ _ => (safe_int _ _).bind fun _ _ => Safe.ok hr
  · obtain ⟨st, nx, rest⟩ := r
    dsimp only at hr ⊢
    unfold data2_2310
    refine (safe_readUnkList _ _ (safe_float cd) rest).bind fun r hr2 => ?_
    exact (safe_appendBlocks _ _ _).bind fun _ _ => Safe.ok (by dsimp only; omega)

theorem sliceFrom_length {α : Type} (l : List α) (i : Int) : (sliceFrom l i).length ≤ l.length := by
  unfold sliceFrom; split <;> simp

theorem consumes_2160 (cd : Codec F) (nauxv nauxc nv : Int) :
    Consumes (step2160 cd nauxv nauxc nv) := by
  intro st ls
  unfold step2160 data1_2160
  refine Safe.bind (P := fun r => r.2.2.2.length < ls.length) ?_ fun r hr => ?_
  · refine (safe_readUnkList _ _ (fun s => Safe.ok trivial) ls).bind fun r hr => ?_
    obtain ⟨x1, rest⟩ := r
    dsimp only at hr ⊢
    refine (safe_idx _ _).bind fun _ _ => ?_
    refine (safe_readUnkList _ _ (safe_float cd) rest).bind fun r hr2 => ?_
    obtain ⟨aux, rest2⟩ := r
    dsimp only at hr2 ⊢
    refine (safe_idx _ _).bind fun _ _ => (safe_int _ _).bind fun _ _ => (safe_appendCols _ _).bind
      fun _ _ => (safe_appendCols _ _).bind fun _ _ => Safe.ok ?_
    have := sliceFrom_length rest2 nauxc
    dsimp only; omega
  · obtain ⟨st, nx, x, rest⟩ := r
    dsimp only at hr ⊢
    unfold data2_2160
    exact (safe_readRagged cd _ _ _ _ rest).bind fun ⟨_, _, l2⟩ hr2 => Safe.ok (by dsimp only at hr2 ⊢; omega)

theorem readLoop_safe {σ : Type} {step : σ → List Str → Res (σ × List Str)} (hs : Consumes step)
    (k : Nat) (st : σ) (ls : List Str) (hk : ls.length ≤ k) :
    Safe (readLoop step k st ls) (fun _ => True) := by
  induction k generalizing st ls with
  | zero =>
    cases ls with
    | nil => exact Safe.ok trivial
    | cons l ls => simp at hk
  | succ k ih =>
    cases ls with
    | nil => exact Safe.ok trivial
    | cons l ls =>
      unfold readLoop
      refine (hs st (l :: ls)).bind fun r hr => ih _ _ ?_
      omega

theorem readLoop_fuel {σ : Type} {step : σ → List Str → Res (σ × List Str)} (hs : Consumes step)
    (k : Nat) (st : σ) (ls : List Str) (hk : ls.length ≤ k) :
    readLoop step k st ls = readLoop step ls.length st ls := by
  suffices h : ∀ n k1 k2 st (ls : List Str), ls.length ≤ n → ls.length ≤ k1 → ls.length ≤ k2 →
      readLoop step k1 st ls = readLoop step k2 st ls from h ls.length _ _ st ls (Nat.le_refl _) hk (Nat.le_refl _)
  intro n
  induction n with
  | zero =>
    intro k1 k2 st ls h _ _
    cases ls with
    | nil => cases k1 <;> cases k2 <;> rfl
    | cons l ls => simp at h
  | succ n ih =>
    intro k1 k2 st ls h h1 h2
    cases ls with
    | nil => cases k1 <;> cases k2 <;> rfl
    | cons l ls =>
      cases k1 with
      | zero => simp at h1
      | succ k1 =>
        cases k2 with
        | zero => simp at h2
        | succ k2 =>
          unfold readLoop
          cases hst : step st (l :: ls) with
          | error e => rfl
          | ok r =>
            have := (hs st (l :: ls)).2 r hst
            simp only [ok_bind]
            simp only [List.length_cons] at h h1 h2 this
            exact ih _ _ _ _ (by omega) (by omega) (by omega)

theorem checkBlank_safe (b : Bool) (ls : List Str) : Safe (checkBlank b ls) (fun _ => True) := by
  induction ls generalizing b with
  | nil => exact Safe.ok trivial
  | cons l ls ih =>
    unfold checkBlank
    split
    · exact ih _
    · split
      · exact Safe.err (by decide)
      · exact (ih _).bind fun _ _ => Safe.ok trivial

theorem readDataWith_safe {σ : Type} {step : σ → List Str → Res (σ × List Str)} (hs : Consumes step)
    (st : σ) (text : Str) (n : Int) : Safe (readDataWith step st text n) (fun _ => True) := by
  unfold readDataWith
  exact (checkBlank_safe _ _).bind fun _ _ => readLoop_safe hs _ _ _ (Nat.le_refl _)

theorem readData_safe (cd : Codec F) (text : Str) (o : Obj F) :
    Safe (o.readData cd text) (fun _ => True) := by
  cases o <;> unfold Obj.readData <;> dsimp only
  · unfold readData1001
    exact ((readDataWith_safe (consumes_1001 cd _) _ _ _).bind fun _ _ => Safe.ok trivial).bind
      (P := fun _ => True) fun _ _ => Safe.ok trivial
  · unfold readData1010
    exact ((readDataWith_safe (consumes_1010 cd _ _) _ _ _).bind fun _ _ => Safe.ok trivial).bind
      (P := fun _ => True) fun _ _ => Safe.ok trivial
  · unfold readData1020
    exact ((readDataWith_safe (consumes_1020 cd _ _ _) _ _ _).bind fun _ _ => Safe.ok trivial).bind
      (P := fun _ => True) fun _ _ => Safe.ok trivial
  · unfold readData2010
    exact ((readDataWith_safe (consumes_2010 cd _ _) _ _ _).bind fun _ _ => Safe.ok trivial).bind
      (P := fun _ => True) fun _ _ => Safe.ok trivial
  · unfold readData2110
    exact ((readDataWith_safe (consumes_2110 cd _ _) _ _ _).bind fun _ _ => Safe.ok trivial).bind
      (P := fun _ => True) fun _ _ => Safe.ok trivial
  · unfold readData2160
    exact ((readDataWith_safe (consumes_2160 cd _ _ _) _ _ _).bind fun _ _ => Safe.ok trivial).bind
      (P := fun _ => True) fun _ _ => Safe.ok trivial
  · unfold readData2310
    exact ((readDataWith_safe (consumes_2310 cd _ _) _ _ _).bind fun _ _ => Safe.ok trivial).bind
      (P := fun _ => True) fun _ _ => Safe.ok trivial

/-! ### blank lines -/

theorem checkBlank_blanks (b : Bool) (ls : List Str) (h : ∀ l ∈ ls, strip l = []) :
    checkBlank b ls = .ok [] := by
  induction ls generalizing b with
  | nil => rfl
  | cons l ls ih =>
    rw [checkBlank, if_pos (h l (by simp))]
    exact ih true fun x hx => h x (by simp [hx])

theorem checkBlank_trailing (b : Bool) (ls bs : List Str) (h : ∀ l ∈ bs, strip l = []) :
    checkBlank b (ls ++ bs) = checkBlank b ls := by
  induction ls generalizing b with
  | nil => rw [List.nil_append, checkBlank_blanks b bs h]; rfl
  | cons l ls ih => rw [List.cons_append, checkBlank, checkBlank, ih, ih]

theorem checkBlank_after_empty (ls : List Str) (h : ∃ l ∈ ls, strip l ≠ []) :
    checkBlank true ls = .error .exn := by
  induction ls with
  | nil => obtain ⟨l, hl, _⟩ := h; cases hl
  | cons l ls ih =>
    rw [checkBlank]
    split
    · rename_i hb
      obtain ⟨x, hx, hn⟩ := h
      rcases List.mem_cons.1 hx with rfl | hx
      · exact absurd hb hn
      · exact ih ⟨x, hx, hn⟩
    · rfl

theorem checkBlank_gap (b : Bool) (p q : List Str) (l : Str) (hl : strip l = [])
    (hq : ∃ x ∈ q, strip x ≠ []) : checkBlank b (p ++ l :: q) = .error .exn := by
  induction p generalizing b with
  | nil => rw [List.nil_append, checkBlank, if_pos hl]; exact checkBlank_after_empty q hq
  | cons a p ih =>
    rw [List.cons_append, checkBlank]
    split
    · exact ih true
    · split
      · rfl
      · rw [ih b]; rfl

theorem readDataWith_congr {σ : Type} (step : σ → List Str → Res (σ × List Str)) (st : σ)
    {t1 t2 : Str} {n : Int} (h : checkBlank false (sliceFrom (fileLines t1) n)
      = checkBlank false (sliceFrom (fileLines t2) n)) :
    readDataWith step st t1 n = readDataWith step st t2 n := by
  unfold readDataWith; rw [h]

/-- `readData` looks at the file only through the data lines after the blank-line check. -/
theorem readData_congr (cd : Codec F) (o : Obj F) {t1 t2 : Str}
    (h : checkBlank false (sliceFrom (fileLines t1) o.common.NLHEAD)
      = checkBlank false (sliceFrom (fileLines t2) o.common.NLHEAD)) :
    o.readData cd t1 = o.readData cd t2 := by
  cases o <;> unfold Obj.readData <;> dsimp only <;> simp only [Obj.common] at h
  · unfold readData1001; rw [readDataWith_congr _ _ h]
  · unfold readData1010; rw [readDataWith_congr _ _ h]
  · unfold readData1020; rw [readDataWith_congr _ _ h]
  · unfold readData2010; rw [readDataWith_congr _ _ h]
  · unfold readData2110; rw [readDataWith_congr _ _ h]
  · unfold readData2160; rw [readDataWith_congr _ _ h]
  · unfold readData2310; rw [readDataWith_congr _ _ h]

theorem readDataWith_error {σ : Type} (step : σ → List Str → Res (σ × List Str)) (st : σ)
    {t : Str} {n : Int} {e : Err} (h : checkBlank false (sliceFrom (fileLines t) n) = .error e) :
    readDataWith step st t n = .error e := by
  unfold readDataWith; rw [h]; rfl

theorem readData_error (cd : Codec F) (o : Obj F) {t : Str} {e : Err}
    (h : checkBlank false (sliceFrom (fileLines t) o.common.NLHEAD) = .error e) :
    o.readData cd t = .error e := by
  cases o <;> unfold Obj.readData <;> dsimp only <;> simp only [Obj.common] at h
  · unfold readData1001; rw [readDataWith_error _ _ h]; rfl
  · unfold readData1010; rw [readDataWith_error _ _ h]; rfl
  · unfold readData1020; rw [readDataWith_error _ _ h]; rfl
  · unfold readData2010; rw [readDataWith_error _ _ h]; rfl
  · unfold readData2110; rw [readDataWith_error _ _ h]; rfl
  · unfold readData2160; rw [readDataWith_error _ _ h]; rfl
  · unfold readData2310; rw [readDataWith_error _ _ h]; rfl

end Nappy
