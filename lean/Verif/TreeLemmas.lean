import Verif.DataLemmas

/-! Nested lists: filling, flattening and writing them. -/

namespace Nappy

open Spec

variable {F : Type}

theorem leavesList_eq (l : List (Tree F)) : leavesList l = (l.map leaves).flatten := by
  induction l with
  | nil => simp [leavesList]
  | cons a t ih => simp [leavesList, ih]

theorem mapTrees_eq (q : F → F) (l : List (Tree F)) : mapTrees q l = l.map (mapTree q) := by
  induction l with
  | nil => simp [mapTrees]
  | cons a t ih => simp [mapTrees, ih]

theorem mapTree_lst (q : F → F) (l : List (Tree F)) : mapTree q (.lst l) = .lst (l.map (mapTree q)) := by
  rw [mapTree, mapTrees_eq]

theorem leaves_lst (l : List (Tree F)) : leaves (.lst l) = (l.map leaves).flatten := by
  rw [leaves, leavesList_eq]

/-- Product of the dimensions. -/
def prod (dims : List Nat) : Nat := dims.foldr (· * ·) 1

@[simp] theorem prod_nil : prod [] = 1 := rfl
@[simp] theorem prod_cons (d : Nat) (ds : List Nat) : prod (d :: ds) = d * prod ds := rfl

theorem leaves_shaped (dims : List Nat) (t : Tree F) (h : Shaped dims t) :
    (leaves t).length = prod dims := by
  induction dims generalizing t with
  | nil =>
    cases t with
    | val x => simp [leaves]
    | lst l => exact h.elim
  | cons d ds ih =>
    cases t with
    | val x => exact h.elim
    | lst l =>
      obtain ⟨hl, ht⟩ := h
      rw [leaves_lst]
      subst hl
      have : ∀ l' : List (Tree F), (∀ t ∈ l', Shaped ds t) →
          (l'.map leaves).flatten.length = l'.length * prod ds := by
        intro l'
        induction l' with
        | nil => intro _; simp
        | cons a l' ih' =>
          intro h
          rw [List.map_cons, List.flatten_cons, List.length_append, ih a (h a (by simp)),
            ih' (fun x hx => h x (List.mem_cons_of_mem _ hx)), List.length_cons, Nat.succ_mul]
          omega
      exact this l ht

/-- Trees of the same shape with the same numbers are equal. -/
theorem shaped_ext (dims : List Nat) (t u : Tree F) (ht : Shaped dims t) (hu : Shaped dims u)
    (h : leaves t = leaves u) : t = u := by
  induction dims generalizing t u with
  | nil =>
    cases t with
    | lst l => exact ht.elim
    | val x =>
      cases u with
      | lst l => exact hu.elim
      | val y => simp only [leaves, List.cons.injEq, and_true] at h; rw [h]
  | cons d ds ih =>
    cases t with
    | val x => exact ht.elim
    | lst l =>
      cases u with
      | val y => exact hu.elim
      | lst l' =>
        obtain ⟨hl, ht⟩ := ht
        obtain ⟨hl', hu⟩ := hu
        rw [leaves_lst, leaves_lst] at h
        have hlen : l.length = l'.length := by omega
        clear hl hl'
        have : l = l' := by
          induction l generalizing l' with
          | nil => cases l' with
            | nil => rfl
            | cons => simp at hlen
          | cons a l ih' =>
            cases l' with
            | nil => simp at hlen
            | cons b l' =>
              rw [List.map_cons, List.map_cons, List.flatten_cons, List.flatten_cons] at h
              have ha := ht a (by simp)
              have hb := hu b (by simp)
              have he := List.append_inj h (by
                rw [leaves_shaped _ _ ha, leaves_shaped _ _ hb])
              rw [ih a b ha hb he.1]
              rw [ih' l' he.2 (fun x hx => ht x (List.mem_cons_of_mem _ hx))
                (fun x hx => hu x (List.mem_cons_of_mem _ hx)) (by simpa using hlen)]
        rw [this]

theorem shaped_map (q : F → F) (dims : List Nat) (t : Tree F) (h : Shaped dims t) :
    Shaped dims (mapTree q t) := by
  induction dims generalizing t with
  | nil =>
    cases t with
    | val x => simp [mapTree, Shaped]
    | lst l => exact h.elim
  | cons d ds ih =>
    cases t with
    | val x => exact h.elim
    | lst l =>
      obtain ⟨hl, ht⟩ := h
      rw [mapTree_lst]
      refine ⟨by simpa using hl, ?_⟩
      intro u hu
      obtain ⟨t, h1, rfl⟩ := List.mem_map.1 hu
      exact ih t (ht t h1)

theorem leaves_map (q : F → F) (dims : List Nat) (t : Tree F) (h : Shaped dims t) :
    leaves (mapTree q t) = (leaves t).map q := by
  induction dims generalizing t with
  | nil =>
    cases t with
    | val x => simp [mapTree, leaves]
    | lst l => exact h.elim
  | cons d ds ih =>
    cases t with
    | val x => exact h.elim
    | lst l =>
      obtain ⟨hl, ht⟩ := h
      rw [mapTree_lst, leaves_lst, leaves_lst]
      clear hl
      induction l with
      | nil => rfl
      | cons a l ih' =>
        simp only [List.map_cons, List.flatten_cons, List.map_append]
        rw [ih a (ht a (by simp)), ih' (fun x hx => ht x (List.mem_cons_of_mem _ hx))]

theorem mapRes_idx_range' {α : Type} (l : List α) (c d : Nat) (h : c + d ≤ l.length) :
    mapRes (idx l) (List.range' c d) = .ok ((l.drop c).take d) := by
  induction d generalizing c with
  | zero => simp [mapRes]
  | succ d ih =>
    rw [List.range'_succ, mapRes, idx_lt _ _ (by omega), ih (c + 1) (by omega)]
    simp only [ok_bind]
    rw [List.drop_eq_getElem_cons (i := c) (by omega), List.take_succ_cons]

/-- Filling from a list that is long enough. -/
theorem populate_ok (dims : List Nat) (hne : dims ≠ []) (arr : List F) (c : Nat)
    (h : c + prod dims ≤ arr.length) :
    ∃ l, populate dims arr c = .ok (l, c + prod dims) ∧ Shaped dims (.lst l) ∧
      leaves (.lst l) = (arr.drop c).take (prod dims) := by
  induction dims generalizing c with
  | nil => exact absurd rfl hne
  | cons d ds ih =>
    cases ds with
    | nil =>
      simp only [prod_cons, prod_nil, Nat.mul_one] at h ⊢
      refine ⟨((arr.drop c).take d).map .val, ?_, ?_, ?_⟩
      · rw [populate, mapRes_idx_range' _ _ _ h]; rfl
      · refine ⟨by simp; omega, ?_⟩
        intro t ht
        obtain ⟨x, _, rfl⟩ := List.mem_map.1 ht
        trivial
      · rw [leaves_lst]
        generalize (arr.drop c).take d = xs
        induction xs with
        | nil => rfl
        | cons x xs ih' => simp only [List.map_cons, List.flatten_cons, ih']; simp [leaves]
    | cons d2 ds =>
      have key : ∀ k c, c + k * prod (d2 :: ds) ≤ arr.length →
          ∃ l, popN (populate (d2 :: ds) arr) k c = .ok (l, c + k * prod (d2 :: ds)) ∧
            l.length = k ∧ (∀ t ∈ l, Shaped (d2 :: ds) t) ∧
            (l.map leaves).flatten = (arr.drop c).take (k * prod (d2 :: ds)) := by
        intro k
        induction k with
        | zero => intro c _; exact ⟨[], by simp [popN], rfl, by simp, by simp⟩
        | succ k ihk =>
          intro c hk
          rw [Nat.succ_mul] at hk
          obtain ⟨l1, e1, s1, v1⟩ := ih (by simp) c (by omega)
          obtain ⟨l2, e2, n2, s2, v2⟩ := ihk (c + prod (d2 :: ds)) (by omega)
          refine ⟨.lst l1 :: l2, ?_, by simp [n2], ?_, ?_⟩
          · rw [popN, e1]; simp only [ok_bind]; rw [e2]; simp only [ok_bind]
            rw [Nat.succ_mul]; congr 2; omega
          · intro t ht
            rcases List.mem_cons.1 ht with rfl | ht
            · exact s1
            · exact s2 t ht
          · rw [List.map_cons, List.flatten_cons, v1, v2, Nat.succ_mul, Nat.add_comm (k * _),
              List.take_add, List.drop_drop]
      rw [prod_cons] at h ⊢
      obtain ⟨l, e, n, s, v⟩ := key d c h
      exact ⟨l, by rw [populate]; exact e, ⟨n, s⟩, by rw [leaves_lst, v]⟩

/-! ### writing -/

/-- The rows of a nested list: its innermost lists. -/
def rowsOf : List Nat → Tree F → List (List F)
  | _ :: d2 :: ds, .lst l => (l.map (rowsOf (d2 :: ds))).flatten
  | _, t => [leaves t]

theorem rowsOf_flatten (dims : List Nat) (t : Tree F) (h : Shaped dims t) :
    (rowsOf dims t).flatten = leaves t := by
  induction dims generalizing t with
  | nil => simp [rowsOf]
  | cons d ds ih =>
    cases ds with
    | nil => simp [rowsOf]
    | cons d2 ds =>
      cases t with
      | val x => simp [rowsOf]
      | lst l =>
        obtain ⟨hl, ht⟩ := h
        clear hl
        rw [rowsOf, leaves_lst]
        induction l with
        | nil => rfl
        | cons a l ih' =>
          simp only [List.map_cons, List.flatten_cons, List.flatten_append]
          rw [ih a (ht a (by simp)), ih' (fun x hx => ht x (List.mem_cons_of_mem _ hx))]

theorem rowsOf_pos (dims : List Nat) (hne : dims ≠ []) (t : Tree F) (h : Shaped dims t)
    (hp : ∀ d ∈ dims, 1 ≤ d) : rowsOf dims t ≠ [] ∧ ∀ xs ∈ rowsOf dims t, xs ≠ [] := by
  induction dims generalizing t with
  | nil => exact absurd rfl hne
  | cons d ds ih =>
    cases ds with
    | nil =>
      simp only [rowsOf]
      refine ⟨by simp, ?_⟩
      intro xs hxs he
      simp at hxs; subst hxs
      have := leaves_shaped _ _ h
      rw [he] at this
      have := hp d (by simp)
      simp at *; omega
    | cons d2 ds =>
      cases t with
      | val x => exact h.elim
      | lst l =>
        obtain ⟨hl, ht⟩ := h
        have hr : ∀ t ∈ l, rowsOf (d2 :: ds) t ≠ [] ∧ ∀ xs ∈ rowsOf (d2 :: ds) t, xs ≠ [] :=
          fun t h => ih (by simp) t (ht t h) (fun x hx => hp x (List.mem_cons_of_mem _ hx))
        rw [rowsOf]
        constructor
        · cases l with
          | nil => have := hp d (by simp); simp at hl; omega
          | cons a l =>
            intro h
            rw [List.map_cons, List.flatten_cons, List.append_eq_nil_iff] at h
            exact (hr a (by simp)).1 h.1
        · intro xs hxs
          simp only [List.mem_flatten, List.mem_map] at hxs
          obtain ⟨_, ⟨t, ht', rfl⟩, hx⟩ := hxs
          exact (hr t ht').2 xs hx

theorem mapRes_range {α β : Type} (l : List α) (g : α → Res β) :
    mapRes (fun i => do let x ← idx l i; g x) (List.range l.length) = mapRes g l := by
  induction l with
  | nil => rfl
  | cons a t ih =>
    rw [List.length_cons, List.range_succ_eq_map, mapRes, mapRes]
    have h0 : idx (a :: t) 0 = .ok a := by simp [idx]
    have hs : mapRes (fun i => do let x ← idx (a :: t) i; g x) ((List.range t.length).map Nat.succ)
        = mapRes (fun i => do let x ← idx t i; g x) (List.range t.length) := by
      have : ∀ r : List Nat, mapRes (fun i => do let x ← idx (a :: t) i; g x) (r.map Nat.succ)
          = mapRes (fun i => do let x ← idx t i; g x) r := by
        intro r
        induction r with
        | nil => rfl
        | cons i r ihr =>
          rw [List.map_cons, mapRes, mapRes, ihr]
          have : idx (a :: t) i.succ = idx t i := by simp [idx]
          rw [this]
      exact this _
    rw [h0, hs, ih]; rfl

theorem writeLines_ok {env : Env F} (dims : List Nat) (hne : dims ≠ []) (t : Tree F)
    (h : Shaped dims t) :
    writeLines env.cd env.delim dims t = .ok (nl ((rowsOf dims t).map (rowText env))) := by
  induction dims generalizing t with
  | nil => exact absurd rfl hne
  | cons d ds ih =>
    cases ds with
    | nil =>
      cases t with
      | val x => exact h.elim
      | lst l =>
        obtain ⟨hl, ht⟩ := h
        subst hl
        have : mapRes (fun i => do
            let x ← (Tree.lst l).child i
            fmtLeaf env.cd env.delim x) (List.range l.length)
            = .ok ((leaves (.lst l)).map (cell env)) := by
          simp only [Tree.child]
          rw [mapRes_range l (fmtLeaf env.cd env.delim), leaves_lst]
          clear hne
          induction l with
          | nil => rfl
          | cons a l ih' =>
            have ha := ht a (by simp)
            cases a with
            | lst l => exact ha.elim
            | val x =>
              rw [mapRes, ih' (fun x hx => ht x (List.mem_cons_of_mem _ hx))]
              simp [fmtLeaf, leaves, cell]
        rw [writeLines, this]
        rfl
    | cons d2 ds =>
      cases t with
      | val x => exact h.elim
      | lst l =>
        obtain ⟨hl, ht⟩ := h
        subst hl
        have : mapRes (fun i => do
            let x ← (Tree.lst l).child i
            writeLines env.cd env.delim (d2 :: ds) x) (List.range l.length)
            = .ok (l.map (fun t => nl ((rowsOf (d2 :: ds) t).map (rowText env)))) := by
          simp only [Tree.child]
          rw [mapRes_range l (writeLines env.cd env.delim (d2 :: ds))]
          exact mapRes_ok_map _ _ _ (fun t h => ih (by simp) t (ht t h))
        rw [writeLines, this]
        simp only [ok_bind, rowsOf]
        congr 1
        clear this hne
        induction l with
        | nil => rfl
        | cons a l ih' =>
          rw [List.map_cons, List.flatten_cons, List.map_cons, List.flatten_cons, List.map_append,
            nl_append, ih' (fun x hx => ht x (List.mem_cons_of_mem _ hx))]

mutual
theorem mapTree_id {f : F → F} (h : ∀ x, f x = x) : ∀ t : Tree F, mapTree f t = t
  | .val x => by rw [mapTree, h]
  | .lst l => by rw [mapTree, mapTrees_id h l]
theorem mapTrees_id {f : F → F} (h : ∀ x, f x = x) : ∀ l : List (Tree F), mapTrees f l = l
  | [] => by rw [mapTrees]
  | t :: ts => by rw [mapTrees, mapTree_id h t, mapTrees_id h ts]
end

/-- The nested list of a variable with one axis. -/
theorem col_leaves {n : Nat} {t : Tree F} (h : Shaped [n] t) : Tree.lst ((leaves t).map .val) = t := by
  cases t with
  | val x => exact h.elim
  | lst l =>
    congr 1
    rw [leaves_lst, List.map_flatten, List.map_map]
    have : ∀ l : List (Tree F), (∀ t ∈ l, Shaped [] t) → (l.map (List.map Tree.val ∘ leaves)).flatten = l := by
      intro l
      induction l with
      | nil => intro _; rfl
      | cons t l ih =>
        intro hl
        rw [List.map_cons, List.flatten_cons, ih (fun t ht => hl t (List.mem_cons_of_mem _ ht))]
        cases t with
        | val x => rfl
        | lst l => exact absurd (hl (.lst l) (by simp)) id
    exact this l h.2

end Nappy
