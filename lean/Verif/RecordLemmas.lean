import Verif.Spec.Records
import Verif.HeaderLemmas
import Verif.LossLemmas
import Verif.TreeLemmas

/-! Lemmas about the layout of data records (C83, C84). -/

namespace Nappy

open Spec

variable {F : Type}

/-! ### Lists of values -/

theorem readUnkList_on {β : Type} (conv : Str → Res β) (n : Int) (ls rest : List Str) (xs : List β) :
    readUnkList n conv ls = .ok (xs, rest) ↔ ∃ H, ls = H ++ rest ∧ ListOn conv n H xs := by
  unfold readUnkList
  rw [readUnk_ok_iff]
  constructor
  · rintro ⟨_, pre, l, e, h⟩
    exact ⟨pre ++ [l], by simp [e], (listOn_iff _ _ _ _).2 ⟨pre, l, rfl, h⟩⟩
  · rintro ⟨H, e, hl⟩
    obtain ⟨pre, l, rfl, h1, h2, h3, h4⟩ := (listOn_iff _ _ _ _).1 hl
    exact ⟨by omega, pre, l, by simp [e], h1, h2, h3, h4⟩

theorem listOn_length {β : Type} {conv : Str → Res β} {n : Int} {H : List Str} {xs : List β}
    (h : ListOn conv n H xs) : 0 < n ∧ n.toNat ≤ xs.length ∧ H ≠ [] := by
  obtain ⟨pre, l, rfl, h1, h2, h3, h4⟩ := (listOn_iff _ _ _ _).1 h
  have := mapRes_ok_length _ _ _ h4
  exact ⟨by omega, by omega, by simp⟩

/-! ### Columns -/

theorem appendCols_iff {α : Type} (cols c : List (List α)) (v : List α) :
    appendCols cols v = .ok c ↔ cols.length ≤ v.length ∧ c = List.zipWith (fun c x => c ++ [x]) cols v := by
  induction cols generalizing v c with
  | nil => simp [appendCols, eq_comm]
  | cons a as ih =>
    cases v with
    | nil => simp [appendCols]
    | cons x v =>
      unfold appendCols
      constructor
      · intro h
        obtain ⟨rest, h1, h2⟩ := ok_of_bind h
        injection h2 with h2
        obtain ⟨h3, rfl⟩ := (ih _ _).1 h1
        exact ⟨by simpa using h3, by rw [← h2]; rfl⟩
      · rintro ⟨h1, rfl⟩
        rw [(ih _ v).2 ⟨by simpa using h1, rfl⟩]
        rfl

theorem columns_length {α : Type} (n : Nat) (rows : List (List α)) : (columns n rows).length = n := by
  simp [columns]

theorem columns_snoc {α : Type} (n : Nat) (rows : List (List α)) (v : List α) (h : n ≤ v.length) :
    List.zipWith (fun c x => c ++ [x]) (columns n rows) v = columns n (rows ++ [v]) := by
  apply List.ext_getElem
  · simp [columns]; omega
  · intro i h1 h2
    have hi : i < v.length := by simp [columns] at h2; omega
    simp [columns, List.filterMap_append, List.filterMap_cons, List.getElem?_eq_getElem hi]

theorem appendCols_columns {α : Type} (n : Nat) (rows : List (List α)) (v : List α) (c : List (List α)) :
    appendCols (columns n rows) v = .ok c ↔ n ≤ v.length ∧ c = columns n (rows ++ [v]) := by
  rw [appendCols_iff, columns_length]
  constructor
  · rintro ⟨h, rfl⟩; exact ⟨h, columns_snoc _ _ _ h⟩
  · rintro ⟨h, rfl⟩; exact ⟨h, (columns_snoc _ _ _ h).symm⟩

theorem columns_nil {α : Type} (n : Int) : (columns n.toNat [] : List (List α)) = emptyCols n := by
  unfold columns emptyCols
  apply List.ext_getElem <;> simp

theorem appendBlocks_iff {α : Type} (k : Nat) (cols c : List (List α)) (v : List α) :
    appendBlocks k cols v = .ok c ↔
      cols.length * k ≤ v.length ∧ c = cols.mapIdx (fun j a => a ++ part k j v) := by
  induction cols generalizing v c with
  | nil => simp [appendBlocks, eq_comm]
  | cons a as ih =>
    unfold appendBlocks
    have hp : ∀ j, part k (j + 1) v = part k j (v.drop k) := by
      intro j; simp only [part, List.drop_drop]; rw [Nat.add_mul, Nat.one_mul, Nat.add_comm]
    have h0 : part k 0 v = v.take k := by simp [part]
    have hl : (as.length + 1) * k = as.length * k + k := by rw [Nat.add_mul, Nat.one_mul]
    constructor
    · intro h
      split at h
      · cases h
      · obtain ⟨rest, h1, h2⟩ := ok_of_bind h
        injection h2 with h2
        obtain ⟨h3, rfl⟩ := (ih _ _).1 h1
        rw [List.length_drop] at h3
        refine ⟨by rw [List.length_cons, hl]; omega, ?_⟩
        rw [← h2, List.mapIdx_cons, h0]
        simp only [hp]
    · rintro ⟨h1, rfl⟩
      rw [List.length_cons, hl] at h1
      rw [if_neg (by omega), (ih _ (v.drop k)).2 ⟨by rw [List.length_drop]; omega, rfl⟩, List.mapIdx_cons, h0]
      simp only [hp]
      rfl

/-! ### The loop -/

/-- One pass of the loop reads one record. The state is what the records up to now give. -/
def StepOn {σ ρ : Type} (step : σ → List Str → Res (σ × List Str)) (R : List Str → ρ → Prop)
    (built : List ρ → σ) : Prop :=
  ∀ recs ls st' rest, step (built recs) ls = .ok (st', rest) ↔
    ∃ H p, ls = H ++ rest ∧ R H p ∧ st' = built (recs ++ [p])

theorem blocks_nil {ρ : Type} {R : List Str → ρ → Prop} (hR : ∀ H p, R H p → H ≠ []) (recs : List ρ) :
    Blocks R [] recs ↔ recs = [] := by
  constructor
  · rintro ⟨Hs, e, h⟩
    cases h with
    | nil => rfl
    | cons h _ => rw [List.flatten_cons, eq_comm, List.append_eq_nil_iff] at e; exact absurd e.1 (hR _ _ h)
  · rintro rfl; exact ⟨[], rfl, .nil⟩

theorem blocks_cons {ρ : Type} {R : List Str → ρ → Prop} (ls : List Str) (p : ρ) (recs : List ρ) :
    Blocks R ls (p :: recs) ↔ ∃ H rest, ls = H ++ rest ∧ R H p ∧ Blocks R rest recs := by
  constructor
  · rintro ⟨Hs, e, h⟩
    cases h with
    | cons h hs => exact ⟨_, _, e, h, _, rfl, hs⟩
  · rintro ⟨H, rest, e, h, Hs, e2, hs⟩
    exact ⟨H :: Hs, by rw [List.flatten_cons, ← e2, e], .cons h hs⟩

theorem readLoop_on {σ ρ : Type} {step : σ → List Str → Res (σ × List Str)} {R : List Str → ρ → Prop}
    {built : List ρ → σ} (hs : StepOn step R built) (hR : ∀ H p, R H p → H ≠ []) (k : Nat) (recs : List ρ)
    (ls : List Str) (hk : ls.length ≤ k) (st : σ) :
    readLoop step k (built recs) ls = .ok st ↔ ∃ more, Blocks R ls more ∧ st = built (recs ++ more) := by
  induction k generalizing recs ls with
  | zero =>
    cases ls with
    | nil =>
      unfold readLoop
      constructor
      · intro h; injection h with h; exact ⟨[], (blocks_nil hR _).2 rfl, by simp [h]⟩
      · rintro ⟨more, h, rfl⟩; rw [(blocks_nil hR _).1 h]; simp
    | cons l ls => simp at hk
  | succ k ih =>
    cases ls with
    | nil =>
      unfold readLoop
      constructor
      · intro h; injection h with h; exact ⟨[], (blocks_nil hR _).2 rfl, by simp [h]⟩
      · rintro ⟨more, h, rfl⟩; rw [(blocks_nil hR _).1 h]; simp
    | cons l ls =>
      unfold readLoop
      constructor
      · intro h
        obtain ⟨⟨st', rest⟩, h1, h2⟩ := ok_of_bind h
        obtain ⟨H, p, e, hp, rfl⟩ := (hs _ _ _ _).1 h1
        have hH := hR _ _ hp
        have : rest.length ≤ k := by
          have := congrArg List.length e
          have := List.length_pos_iff.2 hH
          simp only [List.length_cons, List.length_append] at *; omega
        obtain ⟨more, hb, e2⟩ := (ih _ _ this).1 h2
        exact ⟨p :: more, (blocks_cons _ _ _).2 ⟨H, rest, e, hp, hb⟩, by simpa using e2⟩
      · rintro ⟨more, hb, rfl⟩
        cases more with
        | nil => obtain ⟨Hs, e, h⟩ := hb; cases h; cases e
        | cons p more =>
          obtain ⟨H, rest, e, hp, hb⟩ := (blocks_cons _ _ _).1 hb
          rw [(hs _ _ _ _).2 ⟨H, p, e, hp, rfl⟩]
          have hH := hR _ _ hp
          have : rest.length ≤ k := by
            have := congrArg List.length e
            have := List.length_pos_iff.2 hH
            simp only [List.length_cons, List.length_append] at *; omega
          exact (ih _ _ this).2 ⟨more, hb, by simp⟩

theorem checkBlank_iff (ls used : List Str) : checkBlank false ls = .ok used ↔ Upper ls used := by
  induction ls generalizing used with
  | nil =>
    unfold checkBlank
    constructor
    · intro h; injection h with h; subst h; exact ⟨[], rfl, by simp, by simp⟩
    · rintro ⟨b, e, _, _⟩; rw [eq_comm, List.append_eq_nil_iff] at e; rw [e.1]
  | cons l ls ih =>
    unfold checkBlank
    by_cases hl : strip l = []
    · rw [if_pos hl]
      have hb := (strip_eq_nil_iff l).1 hl
      constructor
      · intro h
        by_cases hx : ∃ x ∈ ls, strip x ≠ []
        · rw [checkBlank_after_empty ls hx] at h; cases h
        · have hx' : ∀ x ∈ ls, strip x = [] := fun x hx1 => by
            by_contra hn; exact hx ⟨x, hx1, hn⟩
          rw [checkBlank_blanks true ls hx'] at h
          injection h with h
          subst h
          refine ⟨l :: ls, rfl, by simp, ?_⟩
          intro x hx1
          rcases List.mem_cons.1 hx1 with rfl | hx1
          · exact hb
          · exact (strip_eq_nil_iff x).1 (hx' x hx1)
      · rintro ⟨b, e, h1, h2⟩
        cases used with
        | cons u us => cases e; exact absurd hb (h1 _ (by simp))
        | nil =>
          rw [List.nil_append] at e
          subst e
          exact checkBlank_blanks true ls fun x hx => (strip_eq_nil_iff x).2 (h2 x (by simp [hx]))
    · rw [if_neg hl]
      have hb : ¬ Blank l := fun h => hl ((strip_eq_nil_iff l).2 h)
      simp only [Bool.false_eq_true, if_false]
      constructor
      · intro h
        obtain ⟨rest, h1, h2⟩ := ok_of_bind h
        injection h2 with h2
        obtain ⟨b, e, g1, g2⟩ := (ih _).1 h1
        subst h2
        refine ⟨b, by simp [e], ?_, g2⟩
        intro x hx
        rcases List.mem_cons.1 hx with rfl | hx
        · exact hb
        · exact g1 x hx
      · rintro ⟨b, e, g1, g2⟩
        cases used with
        | nil => rw [List.nil_append] at e; subst e; exact absurd (g2 l (by simp)) hb
        | cons u us =>
          injection e with e1 e2
          subst e1
          rw [(ih us).2 ⟨b, e2, fun x hx => g1 x (by simp [hx]), g2⟩]
          rfl

theorem readDataWith_on {σ ρ : Type} {step : σ → List Str → Res (σ × List Str)} {R : List Str → ρ → Prop}
    {built : List ρ → σ} (hs : StepOn step R built) (hR : ∀ H p, R H p → H ≠ []) (text : Str) (nlhead : Int)
    (st : σ) : readDataWith step (built []) text nlhead = .ok st ↔
      ∃ used recs, Upper (sliceFrom (fileLines text) nlhead) used ∧ Blocks R used recs ∧ st = built recs := by
  unfold readDataWith
  constructor
  · intro h
    obtain ⟨used, h1, h2⟩ := ok_of_bind h
    obtain ⟨more, h3, h4⟩ := (readLoop_on hs hR _ _ _ (Nat.le_refl _) _).1 h2
    exact ⟨used, more, (checkBlank_iff _ _).1 h1, h3, h4⟩
  · rintro ⟨used, recs, h1, h2, h3⟩
    rw [(checkBlank_iff _ _).2 h1]
    exact (readLoop_on hs hR _ _ _ (Nat.le_refl _) _).2 ⟨recs, h2, h3⟩

/-! ### The formats -/

theorem stepOn_1001 (cd : Codec F) (nv : Int) :
    StepOn (step1001 cd nv) (fun H (p : F × List F) => ListOn cd.float (1 + nv) H (p.1 :: p.2))
      (fun recs => (recs.map (·.1), columns nv.toNat (recs.map (·.2)))) := by
  intro recs ls st' rest
  unfold step1001
  constructor
  · intro h
    obtain ⟨⟨xv, r1⟩, h1, h⟩ := ok_of_bind h
    obtain ⟨H, e, hl⟩ := (readUnkList_on _ _ _ _ _).1 h1
    cases xv with
    | nil => cases h
    | cons x v =>
      obtain ⟨c, hc, h⟩ := ok_of_bind h
      injection h with h
      obtain ⟨rfl, rfl⟩ := Prod.mk.inj h
      obtain ⟨_, rfl⟩ := (appendCols_columns _ _ _ _).1 hc
      exact ⟨H, (x, v), e, hl, by simp⟩
  · rintro ⟨H, ⟨x, v⟩, e, hl, rfl⟩
    rw [(readUnkList_on _ _ _ _ _).2 ⟨H, e, hl⟩]
    have := listOn_length hl
    rw [List.length_cons] at this
    dsimp only at this
    have hc := (appendCols_columns nv.toNat (recs.map (·.2)) v _).2 ⟨by omega, rfl⟩
    simp only [ok_bind, hc]
    simp

theorem bind_iff {α β : Type} (x : Res α) (f : α → Res β) (b : β) :
    (x >>= f) = .ok b ↔ ∃ a, x = .ok a ∧ f a = .ok b :=
  ⟨ok_of_bind, fun ⟨a, h1, h2⟩ => by rw [h1]; exact h2⟩

/-- The list with the mark and the auxiliary variables. -/
theorem data1_1010_on (cd : Codec F) (na : Int) (st st' : Arr1010 F) (rows : List (List F))
    (hA : st.A = columns na.toNat rows) (ls rest : List Str) :
    data1_1010 cd na st ls = .ok (st', rest) ↔ ∃ H x a, ls = H ++ rest ∧ ListOn cd.float (1 + na) H (x :: a) ∧
      st' = { st with X := st.X ++ [x], A := columns na.toNat (rows ++ [a]) } := by
  unfold data1_1010
  rw [hA]
  constructor
  · intro h
    obtain ⟨⟨xv, r1⟩, h1, h⟩ := ok_of_bind h
    obtain ⟨H, e, hl⟩ := (readUnkList_on _ _ _ _ _).1 h1
    cases xv with
    | nil => cases h
    | cons x v =>
      obtain ⟨c, hc, h⟩ := ok_of_bind h
      injection h with h
      obtain ⟨rfl, rfl⟩ := Prod.mk.inj h
      obtain ⟨_, rfl⟩ := (appendCols_columns _ _ _ _).1 hc
      exact ⟨H, x, v, e, hl, rfl⟩
  · rintro ⟨H, x, a, e, hl, rfl⟩
    rw [(readUnkList_on _ _ _ _ _).2 ⟨H, e, hl⟩]
    have := listOn_length hl
    rw [List.length_cons] at this
    have hc := (appendCols_columns na.toNat rows a _).2 ⟨by omega, rfl⟩
    simp only [ok_bind, hc]

theorem stepOn_1010 (cd : Codec F) (na nv : Int) :
    StepOn (step1010 cd na nv) (RecOn cd na nv)
      (fun recs => { X := recs.map (·.x), A := columns na.toNat (recs.map (·.aux)),
                     V := columns nv.toNat (recs.map (·.vals)) }) := by
  intro recs ls st' rest
  unfold step1010 data2_1010
  rw [bind_iff]
  constructor
  · rintro ⟨⟨st1, r1⟩, h1, h⟩
    obtain ⟨H1, x, a, e1, l1, rfl⟩ := (data1_1010_on cd na _ _ _ rfl _ _).1 h1
    obtain ⟨⟨v, r3⟩, h2, h⟩ := ok_of_bind h
    obtain ⟨H2, e2, l2⟩ := (readUnkList_on _ _ _ _ _).1 h2
    obtain ⟨c, hc, h⟩ := ok_of_bind h
    injection h with h
    obtain ⟨rfl, rfl⟩ := Prod.mk.inj h
    obtain ⟨_, rfl⟩ := (appendCols_columns _ _ _ _).1 hc
    exact ⟨H1 ++ H2, ⟨x, a, v⟩, by simp [e1, e2], ⟨H1, H2, rfl, l1, l2⟩, by simp⟩
  · rintro ⟨H, ⟨x, a, v⟩, e, ⟨H1, H2, rfl, l1, l2⟩, rfl⟩
    have hn := (listOn_length l2).2.1
    dsimp only at hn
    have hc := (appendCols_columns nv.toNat (recs.map (·.vals)) v _).2 ⟨hn, rfl⟩
    refine ⟨(_, H2 ++ rest), (data1_1010_on cd na _ _ _ rfl _ _).2
      ⟨H1, x, a, by rw [e, List.append_assoc], l1, rfl⟩, ?_⟩
    dsimp only
    rw [(readUnkList_on _ _ _ _ _).2 ⟨H2, rfl, l2⟩]
    simp only [ok_bind, hc]
    simp

theorem blocks_snoc {ρ : Type} (n k : Nat) (recs : List ρ) (vals : ρ → List F) (p : ρ) :
    ((List.range n).map fun j => (recs.map fun p => part k j (vals p)).flatten).mapIdx
        (fun j a => a ++ part k j (vals p)) =
      (List.range n).map fun j => ((recs ++ [p]).map fun p => part k j (vals p)).flatten := by
  apply List.ext_getElem
  · simp
  · intro i h1 h2
    simp

theorem toNat_mul_le {a b : Int} {m : Nat} (h : 0 < a * b) (hm : (a * b).toNat ≤ m) : a.toNat * b.toNat ≤ m := by
  by_cases ha : 0 < a
  · have hb : 0 ≤ b := by
      by_contra hn
      have := Int.mul_neg_of_pos_of_neg ha (b := b) (by omega)
      omega
    have : (a * b).toNat = a.toNat * b.toNat := Int.toNat_mul (by omega) hb
    omega
  · have : a.toNat = 0 := by omega
    rw [this, Nat.zero_mul]; omega

theorem stepOn_1020 (cd : Codec F) (na nv nvpm : Int) :
    StepOn (step1020 cd na nv nvpm) (RecOn cd na (nv * nvpm))
      (fun recs => { X := recs.map (·.x), A := columns na.toNat (recs.map (·.aux)),
                     V := (List.range nv.toNat).map fun j =>
                       (recs.map fun p => part nvpm.toNat j p.vals).flatten }) := by
  intro recs ls st' rest
  unfold step1020 data2_1020
  rw [bind_iff]
  constructor
  · rintro ⟨⟨st1, r1⟩, h1, h⟩
    obtain ⟨H1, x, a, e1, l1, rfl⟩ := (data1_1010_on cd na _ _ _ rfl _ _).1 h1
    obtain ⟨⟨v, r3⟩, h2, h⟩ := ok_of_bind h
    obtain ⟨H2, e2, l2⟩ := (readUnkList_on _ _ _ _ _).1 h2
    obtain ⟨c, hc, h⟩ := ok_of_bind h
    injection h with h
    obtain ⟨rfl, rfl⟩ := Prod.mk.inj h
    obtain ⟨_, rfl⟩ := (appendBlocks_iff _ _ _ _).1 hc
    refine ⟨H1 ++ H2, ⟨x, a, v⟩, by simp [e1, e2], ⟨H1, H2, rfl, l1, l2⟩, ?_⟩
    dsimp only
    rw [blocks_snoc nv.toNat nvpm.toNat recs (·.vals) ⟨x, a, v⟩]
    simp
  · rintro ⟨H, ⟨x, a, v⟩, e, ⟨H1, H2, rfl, l1, l2⟩, rfl⟩
    have hn := listOn_length l2
    dsimp only at hn
    have hc := (appendBlocks_iff nvpm.toNat ((List.range nv.toNat).map fun j =>
      (recs.map fun p => part nvpm.toNat j p.vals).flatten) _ v).2
      ⟨by simpa using toNat_mul_le hn.1 hn.2.1, rfl⟩
    rw [blocks_snoc nv.toNat nvpm.toNat recs (·.vals) ⟨x, a, v⟩] at hc
    refine ⟨(_, H2 ++ rest), (data1_1010_on cd na _ _ _ rfl _ _).2
      ⟨H1, x, a, by rw [e, List.append_assoc], l1, rfl⟩, ?_⟩
    dsimp only
    rw [(readUnkList_on _ _ _ _ _).2 ⟨H2, rfl, l2⟩]
    simp only [ok_bind, hc]
    simp

theorem data1_2010_on (cd : Codec F) (na : Int) (st st' : Arr2010 F) (rows : List (List F))
    (hA : st.A = columns na.toNat rows) (ls rest : List Str) :
    data1_2010 cd na st ls = .ok (st', rest) ↔ ∃ H x a, ls = H ++ rest ∧ ListOn cd.float (1 + na) H (x :: a) ∧
      st' = { st with X0 := st.X0 ++ [x], A := columns na.toNat (rows ++ [a]) } := by
  unfold data1_2010
  rw [hA]
  constructor
  · intro h
    obtain ⟨⟨xv, r1⟩, h1, h⟩ := ok_of_bind h
    obtain ⟨H, e, hl⟩ := (readUnkList_on _ _ _ _ _).1 h1
    cases xv with
    | nil => cases h
    | cons x v =>
      obtain ⟨c, hc, h⟩ := ok_of_bind h
      injection h with h
      obtain ⟨rfl, rfl⟩ := Prod.mk.inj h
      obtain ⟨_, rfl⟩ := (appendCols_columns _ _ _ _).1 hc
      exact ⟨H, x, v, e, hl, rfl⟩
  · rintro ⟨H, x, a, e, hl, rfl⟩
    rw [(readUnkList_on _ _ _ _ _).2 ⟨H, e, hl⟩]
    have := listOn_length hl
    rw [List.length_cons] at this
    have hc := (appendCols_columns na.toNat rows a _).2 ⟨by omega, rfl⟩
    simp only [ok_bind, hc]

theorem prod_natDims_le (nx : List Int) (h : 0 < arraySize nx) : prod (natDims nx) ≤ (arraySize nx).toNat := by
  have hs : ∀ (l : List Int) (a : Int), l.foldl (fun a i => a * i) a = a * l.foldl (fun a i => a * i) 1 := by
    intro l
    induction l with
    | nil => intro a; simp
    | cons i l ih => intro a; simp only [List.foldl_cons]; rw [ih, ih (1 * i)]; simp [Int.mul_assoc]
  have key : ∀ l : List Int, arraySize l ≠ 0 → prod (natDims l) ≤ (arraySize l).natAbs := by
    intro l
    induction l with
    | nil => intro _; decide
    | cons i l ih =>
      intro h0
      have he : arraySize (i :: l) = i * arraySize l := by
        unfold arraySize; rw [List.foldl_cons, hs]; simp
      rw [he] at h0 ⊢
      have h1 : arraySize l ≠ 0 := by rintro h1; rw [h1] at h0; simp at h0
      rw [Int.natAbs_mul]
      show i.toNat * prod (natDims l) ≤ _
      exact Nat.mul_le_mul (by omega) (ih h1)
  have := key nx (by omega)
  omega

theorem populate_iff (nx : List Int) (hne : nx ≠ []) (row : List F) (h0 : 0 < arraySize nx)
    (hl : (arraySize nx).toNat ≤ row.length) (l : List (Tree F)) :
    (∃ c, populate (natDims nx) row 0 = .ok (l, c)) ↔ Shaped (natDims nx) (.lst l) ∧ leaves (.lst l) <+: row := by
  have hp := prod_natDims_le nx h0
  have hd : natDims nx ≠ [] := by simpa [natDims] using hne
  obtain ⟨l0, h1, h2, h3⟩ := populate_ok (natDims nx) hd row 0 (by omega)
  rw [List.drop_zero] at h3
  constructor
  · rintro ⟨c, h⟩
    rw [h1] at h
    injection h with h
    obtain ⟨rfl, _⟩ := Prod.mk.inj h
    exact ⟨h2, h3 ▸ List.take_prefix _ _⟩
  · rintro ⟨h4, h5⟩
    have : Tree.lst l0 = Tree.lst l := by
      refine shaped_ext _ _ _ h2 h4 ?_
      have := leaves_shaped _ _ h4
      rw [h3]
      rw [List.prefix_iff_eq_take] at h5
      rw [h5, this]
    injection this with this
    subst this
    exact ⟨_, h1⟩

theorem shaped_lst {dims : List Nat} (hne : dims ≠ []) {t : Tree F} (h : Shaped dims t) : ∃ l, t = .lst l := by
  cases t with
  | lst l => exact ⟨l, rfl⟩
  | val x => cases dims with
    | nil => exact absurd rfl hne
    | cons d ds => exact h.elim

theorem popVars_on (cd : Codec F) (nx : List Int) (hne : nx ≠ []) (cols cols' : List (List (Tree F)))
    (ls rest : List Str) :
    popVars cd (arraySize nx) (natDims nx) cols ls = .ok (cols', rest) ↔
      ∃ H ts, ls = H ++ rest ∧ Blocks (ArrayOn cd nx) H ts ∧ ts.length = cols.length ∧
        cols' = List.zipWith (fun c t => c ++ [t]) cols ts := by
  have hd : natDims nx ≠ [] := by simpa [natDims] using hne
  induction cols generalizing cols' ls with
  | nil =>
    unfold popVars
    constructor
    · intro h; injection h with h; obtain ⟨rfl, rfl⟩ := Prod.mk.inj h
      exact ⟨[], [], rfl, ⟨[], rfl, .nil⟩, rfl, rfl⟩
    · rintro ⟨H, ts, rfl, ⟨Hs, rfl, hb⟩, hl, rfl⟩
      have : ts = [] := by simpa using hl
      subst this
      cases hb
      rfl
  | cons c cs ih =>
    unfold popVars
    constructor
    · intro h
      obtain ⟨⟨v, r1⟩, h1, h⟩ := ok_of_bind h
      obtain ⟨⟨t, c1⟩, hp, h⟩ := ok_of_bind h
      obtain ⟨⟨cols2, r2⟩, h2, h⟩ := ok_of_bind h
      injection h with h
      obtain ⟨rfl, rfl⟩ := Prod.mk.inj h
      obtain ⟨H1, e1, l1⟩ := (readUnkList_on _ _ _ _ _).1 h1
      have hn := listOn_length l1
      obtain ⟨s1, s2⟩ := (populate_iff nx hne v hn.1 hn.2.1 t).1 ⟨c1, hp⟩
      obtain ⟨H2, ts, e2, hb, hl, rfl⟩ := (ih _ _).1 h2
      refine ⟨H1 ++ H2, .lst t :: ts, by simp [e1, e2], (blocks_cons _ _ _).2 ⟨H1, H2, rfl, ⟨v, l1, s1, s2⟩, hb⟩,
        by simp [hl], rfl⟩
    · rintro ⟨H, ts, e, hb, hl, rfl⟩
      cases ts with
      | nil => simp at hl
      | cons t ts =>
        obtain ⟨H1, H2, rfl, ⟨v, l1, s1, s2⟩, hb2⟩ := (blocks_cons _ _ _).1 hb
        obtain ⟨l, rfl⟩ := shaped_lst hd s1
        have hn := listOn_length l1
        obtain ⟨c1, hp⟩ := (populate_iff nx hne v hn.1 hn.2.1 l).2 ⟨s1, s2⟩
        have h1 := (readUnkList_on cd.float (arraySize nx) ls (H2 ++ rest) v).2 ⟨H1, by simp [e], l1⟩
        have h2 := (ih _ (H2 ++ rest)).2 ⟨H2, ts, rfl, hb2, by simpa using hl, rfl⟩
        rw [h1]
        simp only [ok_bind]
        rw [hp]
        simp only [ok_bind]
        rw [h2]
        rfl

theorem popVars_no_dims (cd : Codec F) (cols cols' : List (List (Tree F))) (hc : cols ≠ []) (ls rest : List Str) :
    popVars cd (arraySize []) (natDims []) cols ls ≠ .ok (cols', rest) := by
  cases cols with
  | nil => exact absurd rfl hc
  | cons c cs =>
    intro h
    unfold popVars at h
    obtain ⟨⟨v, r1⟩, h1, h⟩ := ok_of_bind h
    obtain ⟨⟨t, c1⟩, hp, h⟩ := ok_of_bind h
    cases hp

theorem stepOn_2010 (cd : Codec F) (na nv : Int) (nx : List Int) (x0 : List F) :
    StepOn (step2010 cd na nx) (RecOn2010 cd na nv nx)
      (fun recs => { X0 := x0 ++ recs.map (·.x), A := columns na.toNat (recs.map (·.aux)),
                     V := columns nv.toNat (recs.map (·.vals)) }) := by
  intro recs ls st' rest
  unfold step2010 data2_2010
  rw [bind_iff]
  have he : (columns nv.toNat (recs.map (·.vals))).isEmpty = true ↔ ¬ 0 < nv := by
    rw [List.isEmpty_iff_length_eq_zero, columns_length]; omega
  constructor
  · rintro ⟨⟨st1, r1⟩, h1, h⟩
    obtain ⟨H1, x, a, e1, l1, rfl⟩ := (data1_2010_on cd na _ _ _ rfl _ _).1 h1
    dsimp only at h
    split at h
    · cases h
    · rename_i hv
      rw [he, Decidable.not_not] at hv
      obtain ⟨⟨c, r3⟩, h2, h⟩ := ok_of_bind h
      injection h with h
      obtain ⟨rfl, rfl⟩ := Prod.mk.inj h
      by_cases hne : nx = []
      · subst hne
        refine absurd h2 (popVars_no_dims cd _ _ ?_ _ _)
        rw [← List.length_pos_iff, columns_length]; omega
      · obtain ⟨H2, ts, e2, hb, hl, rfl⟩ := (popVars_on cd nx hne _ _ _ _).1 h2
        rw [columns_length] at hl
        refine ⟨H1 ++ H2, ⟨x, a, ts⟩, by simp [e1, e2], ⟨H1, H2, rfl, l1, hb, hl, hv, hne⟩, ?_⟩
        rw [columns_snoc _ _ _ (by omega)]
        simp
  · rintro ⟨H, ⟨x, a, ts⟩, e, ⟨H1, H2, rfl, l1, hb, hl, hv, hne⟩, rfl⟩
    dsimp only at hl
    have h2 := (popVars_on cd nx hne (columns nv.toNat (recs.map (·.vals))) _ (H2 ++ rest) rest).2
      ⟨H2, ts, rfl, hb, by rw [columns_length]; exact hl, rfl⟩
    rw [columns_snoc _ _ _ (by omega)] at h2
    refine ⟨(_, H2 ++ rest), (data1_2010_on cd na _ _ _ rfl _ _).2
      ⟨H1, x, a, by rw [e, List.append_assoc], l1, rfl⟩, ?_⟩
    dsimp only
    rw [if_neg (by rw [he]; omega), h2]
    simp

/-! ### Points -/

theorem idx_iff {α : Type} (l : List α) (i : Nat) (a : α) : idx l i = .ok a ↔ l[i]? = some a := by
  unfold idx
  cases h : l[i]? with
  | none => simp
  | some b => simp

theorem readRagged_on (cd : Codec F) (nv : Int) (k : Nat) (xs xs' : List F) (rows : List (List F))
    (cols' : List (List F)) (ls rest : List Str) :
    readRagged cd nv k xs (columns nv.toNat rows) ls = .ok (xs', cols', rest) ↔
      ∃ H pts, ls = H ++ rest ∧ Blocks (fun H (p : F × List F) => ListOn cd.float (nv + 1) H (p.1 :: p.2)) H pts ∧
        pts.length = k ∧ xs' = xs ++ pts.map (·.1) ∧ cols' = columns nv.toNat (rows ++ pts.map (·.2)) := by
  induction k generalizing xs rows ls with
  | zero =>
    unfold readRagged
    constructor
    · intro h; cases h
      exact ⟨[], [], rfl, ⟨[], rfl, .nil⟩, rfl, by simp, by simp⟩
    · rintro ⟨H, pts, rfl, ⟨Hs, rfl, hb⟩, hl, rfl, rfl⟩
      have : pts = [] := by simpa using hl
      subst this
      cases hb
      simp
  | succ k ih =>
    unfold readRagged
    constructor
    · intro h
      obtain ⟨⟨xv, r1⟩, h1, h⟩ := ok_of_bind h
      obtain ⟨H1, e1, l1⟩ := (readUnkList_on _ _ _ _ _).1 h1
      cases xv with
      | nil => cases h
      | cons x v =>
        obtain ⟨c, hc, h⟩ := ok_of_bind h
        obtain ⟨_, rfl⟩ := (appendCols_columns _ _ _ _).1 hc
        obtain ⟨H2, pts, e2, hb, hl, rfl, rfl⟩ := (ih _ _ _).1 h
        exact ⟨H1 ++ H2, (x, v) :: pts, by simp [e1, e2], (blocks_cons _ _ _).2 ⟨H1, H2, rfl, l1, hb⟩,
          by simp [hl], by simp, by simp⟩
    · rintro ⟨H, pts, e, hb, hl, rfl, rfl⟩
      cases pts with
      | nil => simp at hl
      | cons p pts =>
        obtain ⟨x, v⟩ := p
        obtain ⟨H1, H2, rfl, l1, hb⟩ := (blocks_cons _ _ _).1 hb
        have hn := listOn_length l1
        rw [List.length_cons] at hn
        dsimp only at hn
        have hc := (appendCols_columns nv.toNat rows v _).2 ⟨by omega, rfl⟩
        rw [(readUnkList_on cd.float (nv + 1) ls (H2 ++ rest) (x :: v)).2 ⟨H1, by simp [e], l1⟩]
        simp only [ok_bind, hc]
        exact (ih _ _ _).2 ⟨H2, pts, rfl, hb, by simpa using hl, by simp, by simp⟩

theorem points_snoc {ρ : Type} (n : Nat) (recs : List ρ) (vals : ρ → List (F × List F)) (p : ρ) :
    List.zipWith (fun vn c => vn ++ [c])
        ((List.range n).map fun j => recs.map fun p => (vals p).filterMap (·.2[j]?))
        (columns n ((vals p).map (·.2))) =
      (List.range n).map fun j => (recs ++ [p]).map fun p => (vals p).filterMap (·.2[j]?) := by
  apply List.ext_getElem
  · simp [columns]
  · intro i h1 h2
    simp [columns, List.filterMap_map, Function.comp_def]

theorem stepOn_2110 (cd : Codec F) (na nv : Int) (dx : List F) :
    StepOn (step2110 cd na nv) (RecOn2110 cd na nv)
      (fun recs => { NX := recs.map (·.nx), X := recs.map fun p => (p.x, p.vals.map (·.1)),
                     A := columns na.toNat (recs.map (·.aux)),
                     V := (List.range nv.toNat).map fun j => recs.map fun p => p.vals.filterMap (·.2[j]?),
                     DX := dx }) := by
  intro recs ls st' rest
  unfold step2110 data1_2110 data2_2110
  constructor
  · intro h
    obtain ⟨⟨st1, nx, x, r1⟩, h1, h⟩ := ok_of_bind h
    obtain ⟨⟨xv, r1⟩, h1, h3⟩ := ok_of_bind h1
    obtain ⟨H1, e1, l1⟩ := (readUnkList_on _ _ _ _ _).1 h1
    cases xv with
    | nil => cases h3
    | cons x v =>
      obtain ⟨c, hc, h3⟩ := ok_of_bind h3
      obtain ⟨_, rfl⟩ := (appendCols_columns _ _ _ _).1 hc
      obtain ⟨a0, ha, h3⟩ := ok_of_bind h3
      obtain ⟨n, hn, h3⟩ := ok_of_bind h3
      injection h3 with h3
      simp only [Prod.mk.injEq] at h3
      obtain ⟨rfl, rfl, rfl, rfl⟩ := h3
      dsimp only at h
      rw [← columns_nil] at h
      obtain ⟨⟨xs, cols, r2⟩, h2, h⟩ := ok_of_bind h
      obtain ⟨H2, pts, e2, hb, hl, rfl, rfl⟩ := (readRagged_on _ _ _ _ _ _ _ _ _).1 h2
      injection h with h
      obtain ⟨rfl, rfl⟩ := Prod.mk.inj h
      refine ⟨H1 ++ H2, ⟨x, v, [], n, 0, pts⟩, by simp [e1, e2],
        ⟨H1, H2, a0, rfl, l1, (idx_iff _ _ _).1 ha, hn, hb, hl⟩, ?_⟩
      dsimp only
      rw [List.nil_append, List.nil_append, points_snoc nv.toNat recs (·.vals) ⟨x, v, [], n, 0, pts⟩]
      simp
  · rintro ⟨H, p, e, ⟨H1, H2, a0, rfl, l1, ha, hn, hb, hl⟩, rfl⟩
    have hc1 := listOn_length l1
    rw [List.length_cons] at hc1
    have hc := (appendCols_columns na.toNat (recs.map (·.aux)) p.aux _).2 ⟨by omega, rfl⟩
    have h2 := (readRagged_on cd nv p.nx.toNat [] _ [] _ (H2 ++ rest) rest).2 ⟨H2, p.vals, rfl, hb, hl, rfl, rfl⟩
    rw [columns_nil] at h2
    rw [(readUnkList_on cd.float (na + 1) ls (H2 ++ rest) _).2 ⟨H1, by simp [e], l1⟩]
    simp only [ok_bind, hc, (idx_iff _ _ _).2 ha, hn, h2]
    rw [List.nil_append, List.nil_append, points_snoc nv.toNat recs (·.vals) p]
    simp

theorem parts_snoc {ρ : Type} (n : Nat) (recs : List ρ) (k : ρ → Nat) (vals : ρ → List F) (p : ρ) :
    List.zipWith (fun vn c => vn ++ [c])
        ((List.range n).map fun j => recs.map fun p => part (k p) j (vals p))
        ((List.replicate n []).mapIdx (fun j a => a ++ part (k p) j (vals p))) =
      (List.range n).map fun j => (recs ++ [p]).map fun p => part (k p) j (vals p) := by
  apply List.ext_getElem
  · simp
  · intro i h1 h2
    simp

theorem stepOn_2310 (cd : Codec F) (na nv : Int) (dx : List F) :
    StepOn (step2310 cd na nv) (RecOn2310 cd na nv)
      (fun recs => { NX := recs.map (·.nx), X := recs.map fun p => (p.x, p.aux[1]?.toList),
                     A := columns na.toNat (recs.map (·.aux)),
                     V := (List.range nv.toNat).map fun j => recs.map fun p => part p.nx.toNat j p.vals,
                     DX := dx ++ recs.map fun p => cd.ofInt p.step }) := by
  intro recs ls st' rest
  unfold step2310 data1_2310 data2_2310
  constructor
  · intro h
    obtain ⟨⟨st1, nx, r1⟩, h1, h⟩ := ok_of_bind h
    obtain ⟨⟨xv, r1⟩, h1, h3⟩ := ok_of_bind h1
    obtain ⟨H1, e1, l1⟩ := (readUnkList_on _ _ _ _ _).1 h1
    cases xv with
    | nil => cases h3
    | cons x v =>
      obtain ⟨c, hc, h3⟩ := ok_of_bind h3
      obtain ⟨_, rfl⟩ := (appendCols_columns _ _ _ _).1 hc
      obtain ⟨a1, ha1, h3⟩ := ok_of_bind h3
      obtain ⟨a0, ha0, h3⟩ := ok_of_bind h3
      obtain ⟨n, hn, h3⟩ := ok_of_bind h3
      obtain ⟨a2, ha2, h3⟩ := ok_of_bind h3
      obtain ⟨d, hd, h3⟩ := ok_of_bind h3
      injection h3 with h3
      simp only [Prod.mk.injEq] at h3
      obtain ⟨rfl, rfl, rfl⟩ := h3
      dsimp only at h
      obtain ⟨⟨vs, r2⟩, h2, h⟩ := ok_of_bind h
      obtain ⟨H2, e2, l2⟩ := (readUnkList_on _ _ _ _ _).1 h2
      obtain ⟨c, hc, h⟩ := ok_of_bind h
      obtain ⟨_, rfl⟩ := (appendBlocks_iff _ _ _ _).1 hc
      injection h with h
      obtain ⟨rfl, rfl⟩ := Prod.mk.inj h
      have ha1' := (idx_iff _ _ _).1 ha1
      refine ⟨H1 ++ H2, ⟨x, v, [], n, d, vs⟩, by simp [e1, e2],
        ⟨H1, H2, a0, a1, a2, rfl, l1, (idx_iff _ _ _).1 ha0, ha1', (idx_iff _ _ _).1 ha2, hn, hd, l2⟩, ?_⟩
      unfold emptyCols
      rw [parts_snoc nv.toNat recs (fun p => p.nx.toNat) (·.vals) ⟨x, v, [], n, d, vs⟩]
      simp [ha1']
  · rintro ⟨H, p, e, ⟨H1, H2, a0, a1, a2, rfl, l1, ha0, ha1, ha2, hn, hd, l2⟩, rfl⟩
    have hc1 := listOn_length l1
    rw [List.length_cons] at hc1
    have hc := (appendCols_columns na.toNat (recs.map (·.aux)) p.aux _).2 ⟨by omega, rfl⟩
    have hc2 := listOn_length l2
    have hb := (appendBlocks_iff p.nx.toNat (emptyCols nv) _ p.vals).2
      ⟨by simpa [emptyCols] using toNat_mul_le hc2.1 hc2.2.1, rfl⟩
    rw [(readUnkList_on cd.float (na + 1) ls (H2 ++ rest) _).2 ⟨H1, by simp [e], l1⟩]
    simp only [ok_bind, hc, (idx_iff _ _ _).2 ha0, (idx_iff _ _ _).2 ha1, (idx_iff _ _ _).2 ha2, hn, hd]
    rw [(readUnkList_on _ _ _ _ _).2 ⟨H2, rfl, l2⟩]
    simp only [ok_bind, hb]
    unfold emptyCols
    rw [parts_snoc nv.toNat recs (fun p => p.nx.toNat) (·.vals) p]
    simp [ha1]

/-! ### Texts -/

theorem textOn_iff (l s : Str) : TextOn l s ↔ s = readItem (rightStrip l) := by
  unfold TextOn
  constructor
  · rintro ⟨g, h1, h2⟩; rw [(bare_iff _ _).1 h1]; exact (itemOn_iff _ _).1 h2
  · rintro rfl; exact ⟨_, (bare_iff _ _).2 rfl, (itemOn_iff _ _).2 rfl⟩

theorem textOn_all (ls xs : List Str) : List.Forall₂ TextOn ls xs ↔ xs = readItemsFromLines ls := by
  unfold readItemsFromLines
  constructor
  · intro h
    induction h with
    | nil => rfl
    | cons h _ ih => rw [List.map_cons, ← ih, (textOn_iff _ _).1 h]
  · rintro rfl
    induction ls with
    | nil => exact .nil
    | cons l ls ih => exact .cons ((textOn_iff _ _).2 rfl) ih

theorem zip_parts {α : Type} (k : Nat) (cols : List (List α)) (a t : List α) (hk : k ≤ cols.length) (ha : k ≤ a.length) :
    List.zipWith (fun c x => c ++ [x]) (cols.take k) a ++ List.zipWith (fun c x => c ++ [x]) (cols.drop k) t =
      List.zipWith (fun c x => c ++ [x]) cols (a.take k ++ t) := by
  conv_rhs => rw [← List.take_append_drop k cols]
  rw [List.zipWith_append (by simp; omega)]
  congr 1
  apply List.ext_getElem
  · simp; omega
  · intro i h1 h2; simp

theorem data1_2160_on (cd : Codec F) (na nc : Int) (hnc : 0 ≤ nc) (st st' : Arr2160 F)
    (rows : List (List (Cell F))) (hA : st.A = columns na.toNat rows) (ls rest : List Str) (nx : Int) (x : Str) :
    data1_2160 cd na nc st ls = .ok (st', nx, x, rest) ↔
      ∃ H0 H1 T aux texts a0, ls = H0 ++ (H1 ++ (T ++ rest)) ∧ ListOn (fun s => .ok s) 1 H0 [x] ∧
        ListOn cd.float (na - nc) H1 aux ∧ aux[0]? = some a0 ∧ cd.int a0 = .ok nx ∧ T.length = nc.toNat ∧
        List.Forall₂ TextOn T texts ∧
        st' = { st with NX := st.NX ++ [nx], A := columns na.toNat (rows ++
          [(aux.take (na - nc).toNat).map .num ++ texts.map .str]) } := by
  unfold data1_2160
  rw [hA]
  constructor
  · intro h
    obtain ⟨⟨x1, r0⟩, h0, h⟩ := ok_of_bind h
    obtain ⟨H0, e0, l0⟩ := (readUnkList_on _ _ _ _ _).1 h0
    obtain ⟨y, hy, h⟩ := ok_of_bind h
    obtain ⟨⟨aux, r1⟩, h1, h⟩ := ok_of_bind h
    obtain ⟨H1, e1, l1⟩ := (readUnkList_on _ _ _ _ _).1 h1
    obtain ⟨a0, ha, h⟩ := ok_of_bind h
    obtain ⟨n, hn, h⟩ := ok_of_bind h
    obtain ⟨nc1, hc1, h⟩ := ok_of_bind h
    obtain ⟨nc2, hc2, h⟩ := ok_of_bind h
    injection h with h
    simp only [Prod.mk.injEq] at h
    obtain ⟨rfl, rfl, rfl, rfl⟩ := h
    have hl := listOn_length l1
    simp only [sliceTo, sliceFrom, if_pos hnc, if_pos (show 0 ≤ na - nc by omega)] at hc1 hc2 ⊢
    obtain ⟨_, rfl⟩ := (appendCols_iff _ _ _).1 hc1
    obtain ⟨g2, rfl⟩ := (appendCols_iff _ _ _).1 hc2
    simp only [List.length_drop, columns_length, List.length_map, readItemsFromLines, List.length_take] at g2
    have hx1 : x1 = [y] := by
      obtain ⟨pre, l, rfl, g1, g2, g3, g4⟩ := (listOn_iff _ _ _ _).1 l0
      have g5 := mapRes_ok_length _ _ _ g4
      have g6 : allItems (pre ++ [l]) = allItems pre ++ lineItems l := by simp [allItems]
      rw [g6, List.length_append] at g5
      cases x1 with
      | nil => simp [idx] at hy
      | cons z zs =>
        have : zs = [] := by
          rw [List.length_cons] at g5
          rw [← List.length_eq_zero_iff]; omega
        subst this
        simp only [idx, List.getElem?_cons_zero] at hy
        injection hy with hy
        rw [hy]
    subst hx1
    refine ⟨H0, H1, r1.take nc.toNat, aux, readItemsFromLines (r1.take nc.toNat), a0, ?_, l0, l1,
      (idx_iff _ _ _).1 ha, hn, ?_, (textOn_all _ _).2 rfl, ?_⟩
    · rw [List.take_append_drop, ← e1, ← e0]
    · rw [List.length_take]; omega
    · rw [zip_parts _ _ _ _ (by rw [columns_length]; omega) (by rw [List.length_map]; omega), columns_snoc]
      · rw [List.map_take]
      · simp [readItemsFromLines]; omega
  · rintro ⟨H0, H1, T, aux, texts, a0, e, l0, l1, ha, hn, hT, ht, rfl⟩
    have hl := listOn_length l1
    rw [(readUnkList_on _ _ _ _ _).2 ⟨H0, e, l0⟩]
    have hx : idx [x] 0 = .ok x := rfl
    have htk : (T ++ rest).take nc.toNat = T := by rw [← hT]; simp
    have hdr : (T ++ rest).drop nc.toNat = rest := by rw [← hT]; simp
    have htx : texts.length = nc.toNat := by rw [(textOn_all _ _).1 ht, readItemsFromLines, List.length_map, hT]
    simp only [ok_bind, hx]
    rw [(readUnkList_on _ _ _ _ _).2 ⟨H1, rfl, l1⟩]
    simp only [ok_bind, (idx_iff _ _ _).2 ha, hn, sliceTo, sliceFrom, if_pos hnc,
      if_pos (show 0 ≤ na - nc by omega), htk, hdr, ← (textOn_all _ _).1 ht]
    rw [(appendCols_iff _ _ _).2 ⟨by simp [columns_length]; omega, rfl⟩]
    simp only [ok_bind]
    rw [(appendCols_iff _ _ _).2 ⟨by simp [columns_length]; omega, rfl⟩]
    simp only [ok_bind]
    rw [zip_parts _ _ _ _ (by rw [columns_length]; omega) (by rw [List.length_map]; omega), columns_snoc]
    · rw [List.map_take]
    · simp; omega

theorem stepOn_2160 (cd : Codec F) (na nc nv : Int) (hnc : 0 ≤ nc) :
    StepOn (step2160 cd na nc nv) (RecOn2160 cd na nc nv)
      (fun recs => { NX := recs.map (·.nx), X := recs.map fun p => (p.x, p.vals.map (·.1)),
                     A := columns na.toNat (recs.map fun p =>
                       (p.aux.take (na - nc).toNat).map .num ++ p.texts.map .str),
                     V := (List.range nv.toNat).map fun j => recs.map fun p => p.vals.filterMap (·.2[j]?) }) := by
  intro recs ls st' rest
  unfold step2160 data2_2160
  rw [bind_iff]
  constructor
  · rintro ⟨⟨st1, n, x, r1⟩, h1, h⟩
    obtain ⟨H0, H1, T, aux, texts, a0, e, l0, l1, ha, hn, hT, ht, rfl⟩ :=
      (data1_2160_on cd na nc hnc _ _ _ rfl _ _ _ _).1 h1
    dsimp only at h
    rw [← columns_nil] at h
    obtain ⟨⟨xs, cols, r2⟩, h2, h⟩ := ok_of_bind h
    obtain ⟨H2, pts, e2, hb, hl, rfl, rfl⟩ := (readRagged_on _ _ _ _ _ _ _ _ _).1 h2
    injection h with h
    obtain ⟨rfl, rfl⟩ := Prod.mk.inj h
    refine ⟨H0 ++ (H1 ++ (T ++ H2)), ⟨x, aux, texts, n, 0, pts⟩, by simp [e, e2],
      ⟨H0, H1, T, H2, a0, rfl, l0, l1, ha, hn, hT, ht, hb, hl⟩, ?_⟩
    dsimp only
    rw [List.nil_append, List.nil_append, points_snoc nv.toNat recs (·.vals) ⟨x, aux, texts, n, 0, pts⟩]
    simp
  · rintro ⟨H, p, e, ⟨H0, H1, T, H2, a0, rfl, l0, l1, ha, hn, hT, ht, hb, hl⟩, rfl⟩
    have h2 := (readRagged_on cd nv p.nx.toNat [] _ [] _ (H2 ++ rest) rest).2 ⟨H2, p.vals, rfl, hb, hl, rfl, rfl⟩
    rw [columns_nil] at h2
    refine ⟨(_, p.nx, p.x, H2 ++ rest), (data1_2160_on cd na nc hnc _ _ _ rfl _ _ _ _).2
      ⟨H0, H1, T, p.aux, p.texts, a0, by simp [e], l0, l1, ha, hn, hT, ht, rfl⟩, ?_⟩
    simp only [h2, ok_bind]
    rw [List.nil_append, List.nil_append, points_snoc nv.toNat recs (·.vals) p]
    simp

/-! ### All formats -/

theorem range_empty {α : Type} (n : Int) : ((List.range n.toNat).map fun _ => ([] : List α)) = emptyCols n := by
  unfold emptyCols
  apply List.ext_getElem <;> simp

theorem readData_on {cd : Codec F} {text : Str} {o o' : Obj F} (hc : CharCount o) :
    o.readData cd text = .ok o' ↔ ∃ used, Upper (dataLines text o) used ∧ DataOn cd used o o' := by
  have two : ∀ {A B : List Str}, A ≠ [] → A ++ B ≠ [] := fun h e => h (List.append_eq_nil_iff.1 e).1
  cases o with
  | o1001 r =>
    have key := readDataWith_on (stepOn_1001 cd r.v.NV)
      (fun _ _ h => (listOn_length h).2.2) text r.c.NLHEAD
    simp only [List.map_nil, columns_nil, List.append_nil, List.flatten_nil, range_empty] at key
    constructor
    · intro h
      obtain ⟨r', h1, h⟩ := ok_of_bind h
      injection h with h
      subst h
      obtain ⟨a, h3, h2⟩ := ok_of_bind h1
      injection h2 with h2
      subst h2
      obtain ⟨used, recs, hu, hb, rfl⟩ := (key _).1 h3
      exact ⟨used, hu, recs, hb, rfl⟩
    · rintro ⟨used, hu, hd⟩
      cases o' with
      | o1001 r' =>
        obtain ⟨recs, hb, rfl⟩ := hd
        unfold Obj.readData readData1001
        dsimp only
        rw [(key _).2 ⟨used, recs, hu, hb, rfl⟩]
        rfl
      | _ => exact hd.elim
  | o1010 r =>
    have key := readDataWith_on (stepOn_1010 cd r.aux.NAUXV r.v.NV)
      (fun _ _ ⟨_, _, e, h, _⟩ => e ▸ two (listOn_length h).2.2) text r.c.NLHEAD
    simp only [List.map_nil, columns_nil, List.append_nil, List.flatten_nil, range_empty] at key
    constructor
    · intro h
      obtain ⟨r', h1, h⟩ := ok_of_bind h
      injection h with h
      subst h
      obtain ⟨a, h3, h2⟩ := ok_of_bind h1
      injection h2 with h2
      subst h2
      obtain ⟨used, recs, hu, hb, rfl⟩ := (key _).1 h3
      exact ⟨used, hu, recs, hb, rfl⟩
    · rintro ⟨used, hu, hd⟩
      cases o' with
      | o1010 r' =>
        obtain ⟨recs, hb, rfl⟩ := hd
        unfold Obj.readData readData1010
        dsimp only
        rw [(key _).2 ⟨used, recs, hu, hb, rfl⟩]
        rfl
      | _ => exact hd.elim
  | o1020 r =>
    have key := readDataWith_on (stepOn_1020 cd r.aux.NAUXV r.v.NV r.NVPM)
      (fun _ _ ⟨_, _, e, h, _⟩ => e ▸ two (listOn_length h).2.2) text r.c.NLHEAD
    simp only [List.map_nil, columns_nil, List.append_nil, List.flatten_nil, range_empty] at key
    constructor
    · intro h
      obtain ⟨r', h1, h⟩ := ok_of_bind h
      injection h with h
      subst h
      obtain ⟨a, h3, h2⟩ := ok_of_bind h1
      injection h2 with h2
      subst h2
      obtain ⟨used, recs, hu, hb, rfl⟩ := (key _).1 h3
      exact ⟨used, hu, recs, hb, rfl⟩
    · rintro ⟨used, hu, hd⟩
      cases o' with
      | o1020 r' =>
        obtain ⟨recs, hb, rfl⟩ := hd
        unfold Obj.readData readData1020
        dsimp only
        rw [(key _).2 ⟨used, recs, hu, hb, rfl⟩]
        rfl
      | _ => exact hd.elim
  | o2010 r =>
    have key := readDataWith_on (stepOn_2010 cd r.aux.NAUXV r.v.NV r.NX r.X0)
      (fun _ _ ⟨_, _, e, h, _⟩ => e ▸ two (listOn_length h).2.2) text r.c.NLHEAD
    simp only [List.map_nil, columns_nil, List.append_nil, List.flatten_nil, range_empty] at key
    constructor
    · intro h
      obtain ⟨r', h1, h⟩ := ok_of_bind h
      injection h with h
      subst h
      obtain ⟨a, h3, h2⟩ := ok_of_bind h1
      injection h2 with h2
      subst h2
      obtain ⟨used, recs, hu, hb, rfl⟩ := (key _).1 h3
      exact ⟨used, hu, recs, hb, rfl⟩
    · rintro ⟨used, hu, hd⟩
      cases o' with
      | o2010 r' =>
        obtain ⟨recs, hb, rfl⟩ := hd
        unfold Obj.readData readData2010
        dsimp only
        rw [(key _).2 ⟨used, recs, hu, hb, rfl⟩]
        rfl
      | _ => exact hd.elim
  | o2110 r =>
    have key := readDataWith_on (stepOn_2110 cd r.aux.NAUXV r.v.NV r.DX)
      (fun _ _ ⟨_, _, _, e, h, _⟩ => e ▸ two (listOn_length h).2.2) text r.c.NLHEAD
    simp only [List.map_nil, columns_nil, List.append_nil, List.flatten_nil, range_empty] at key
    constructor
    · intro h
      obtain ⟨r', h1, h⟩ := ok_of_bind h
      injection h with h
      subst h
      obtain ⟨a, h3, h2⟩ := ok_of_bind h1
      injection h2 with h2
      subst h2
      obtain ⟨used, recs, hu, hb, rfl⟩ := (key _).1 h3
      exact ⟨used, hu, recs, hb, rfl⟩
    · rintro ⟨used, hu, hd⟩
      cases o' with
      | o2110 r' =>
        obtain ⟨recs, hb, rfl⟩ := hd
        unfold Obj.readData readData2110
        dsimp only
        rw [(key _).2 ⟨used, recs, hu, hb, rfl⟩]
        rfl
      | _ => exact hd.elim
  | o2160 r =>
    have key := readDataWith_on (stepOn_2160 cd r.aux.NAUXV r.aux.NAUXC r.v.NV hc)
      (fun _ _ ⟨_, _, _, _, _, e, h, _⟩ => e ▸ two (listOn_length h).2.2) text r.c.NLHEAD
    simp only [List.map_nil, columns_nil, List.append_nil, List.flatten_nil, range_empty] at key
    constructor
    · intro h
      obtain ⟨r', h1, h⟩ := ok_of_bind h
      injection h with h
      subst h
      obtain ⟨a, h3, h2⟩ := ok_of_bind h1
      injection h2 with h2
      subst h2
      obtain ⟨used, recs, hu, hb, rfl⟩ := (key _).1 h3
      exact ⟨used, hu, recs, hb, rfl⟩
    · rintro ⟨used, hu, hd⟩
      cases o' with
      | o2160 r' =>
        obtain ⟨recs, hb, rfl⟩ := hd
        unfold Obj.readData readData2160
        dsimp only
        rw [(key _).2 ⟨used, recs, hu, hb, rfl⟩]
        rfl
      | _ => exact hd.elim
  | o2310 r =>
    have key := readDataWith_on (stepOn_2310 cd r.aux.NAUXV r.v.NV r.DX)
      (fun _ _ ⟨_, _, _, _, _, e, h, _⟩ => e ▸ two (listOn_length h).2.2) text r.c.NLHEAD
    simp only [List.map_nil, columns_nil, List.append_nil, List.flatten_nil, range_empty] at key
    constructor
    · intro h
      obtain ⟨r', h1, h⟩ := ok_of_bind h
      injection h with h
      subst h
      obtain ⟨a, h3, h2⟩ := ok_of_bind h1
      injection h2 with h2
      subst h2
      obtain ⟨used, recs, hu, hb, rfl⟩ := (key _).1 h3
      exact ⟨used, hu, recs, hb, rfl⟩
    · rintro ⟨used, hu, hd⟩
      cases o' with
      | o2310 r' =>
        obtain ⟨recs, hb, rfl⟩ := hd
        unfold Obj.readData readData2310
        dsimp only
        rw [(key _).2 ⟨used, recs, hu, hb, rfl⟩]
        rfl
      | _ => exact hd.elim

end Nappy
