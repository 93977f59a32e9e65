import Verif.Spec.Convert
import Verif.CoreLemmas
import Verif.UtilLemmas
import Mathlib.Data.List.Nodup

/-! Lemmas on `XarrayToNA`. -/

namespace Nappy

open Spec

variable {F : Type}

/-! ### blocks -/

theorem slice_block {α : Type} (l : List α) (a n : Nat) (ha : a ≤ l.length) :
    slice l (a : Int) ((if (a : Int) + n > l.length then (l.length : Int) else (a : Int) + n)) = (l.drop a).take n := by
  have h1 : sliceBound l.length (a : Int) = a := by
    unfold sliceBound; rw [if_neg (by omega)]; simp; omega
  have h2 : sliceBound l.length (if (a : Int) + n > l.length then (l.length : Int) else (a : Int) + n)
      = min l.length (a + n) := by
    unfold sliceBound
    split
    · split <;> omega
    · split <;> omega
  unfold slice
  rw [h1, h2, List.drop_take]
  by_cases h : a + n ≤ l.length
  · congr 1; omega
  · rw [List.take_of_length_le (by simp; omega), List.take_of_length_le (by simp; omega)]

theorem dictGet?_map {α : Type} (d : Dict α) (g : String → α → α) (k : String) :
    dictGet? (d.map (fun kv => (kv.1, g kv.1 kv.2))) k = (dictGet? d k).map (g k) := by
  induction d with
  | nil => rfl
  | cons a t ih =>
    obtain ⟨k', v⟩ := a
    simp only [List.map_cons, dictGet?]
    by_cases h : k' = k
    · subst h; simp
    · simp [h, ih]

theorem mapRes_map_eq {α β γ : Type} (f : β → Res γ) (g : α → β) (l : List α) :
    mapRes f (l.map g) = mapRes (fun a => f (g a)) l := by
  induction l with
  | nil => rfl
  | cons a t ih => simp only [List.map_cons, mapRes, ih]

/-- The value the key has in a block. -/
def blockVal (x : List (PyVal F)) (v : PyVal F) (ivol nvol : Int) (k : String) (old : PyVal F) : PyVal F :=
  if k = "X" then .list x
  else if k = "V" then v
  else if k = "IVOL" then .int ivol
  else if k = "NVOL" then .int nvol
  else old

theorem modify_block (d : Dict (PyVal F)) (x : List (PyVal F)) (v : PyVal F) (a b ivol nvol : Int)
    (hkeys : (d.map Prod.fst).Nodup) (hx : dictGet? d "X" = some (.list x)) :
    modifyNADictCopy d v a b ivol nvol
      = .ok (d.map (fun kv => (kv.1, blockVal (slice x a b) v ivol nvol kv.1 kv.2))) := by
  unfold modifyNADictCopy
  refine mapRes_ok_map _ _ _ (fun kv hkv => ?_)
  obtain ⟨k, old⟩ := kv
  by_cases h : k = "X"
  · subst h
    have : old = .list x := by
      have hm := dictGet?_mem hx
      by_contra hne
      have hd := (List.pairwise_map.1 hkeys)
      have : ∀ (l : Dict (PyVal F)), l.Pairwise (fun p q => p.1 ≠ q.1) →
          ("X", old) ∈ l → ("X", PyVal.list x) ∈ l → False := by
        intro l hl h1 h2
        induction l with
        | nil => cases h1
        | cons p t ih =>
          rw [List.pairwise_cons] at hl
          rcases List.mem_cons.1 h1 with e1 | m1
          · rcases List.mem_cons.1 h2 with e2 | m2
            · rw [← e1] at e2; exact hne (Prod.mk.inj e2).2.symm
            · exact hl.1 _ m2 (by rw [← e1])
          · rcases List.mem_cons.1 h2 with e2 | m2
            · exact hl.1 _ m1 (by rw [← e2])
            · exact ih hl.2 m1 m2
      exact this d hd hkv hm
    subst this
    simp [PyVal.slice, blockVal]
  · simp only [h, if_false, blockVal]
    split
    · rename_i h2; subst h2; rfl
    · split
      · rename_i h3; subst h3; rfl
      · split
        · rename_i h4; subst h4; rfl
        · rfl

/-- The file with the block of `n` records from `a` on. -/
def blockFile (e : SplitEnv F) (x : List (PyVal F)) (cols : List (List (PyVal F))) (n a i : Nat) : WriteCall F :=
  { name := dropThree e.fileName ++ '-' :: pad3 (i + 1) ++ ".na".toList,
    dict := e.dict.map (fun kv => (kv.1, blockVal ((x.drop a).take n)
      (.list (cols.map (fun c => .list ((c.drop a).take n)))) ((i : Int) + 1) e.nvol kv.1 kv.2)),
    delimiter := e.opts.delimiter, floatFormat := e.opts.floatFormat, noHeader := false,
    annotation := e.opts.annotation }

theorem blockFile_get (e : SplitEnv F) (x : List (PyVal F)) (cols : List (List (PyVal F))) (n a i : Nat)
    (k : String) : dictGet? (blockFile e x cols n a i).dict k = (dictGet? e.dict k).map (blockVal ((x.drop a).take n)
      (.list (cols.map (fun c => .list ((c.drop a).take n)))) ((i : Int) + 1) e.nvol k) :=
  dictGet?_map e.dict _ k

theorem splitFile_block (e : SplitEnv F) (s : SplitState F) (x : List (PyVal F)) (cols : List (List (PyVal F)))
    (n a : Nat) (hs : s.start = a) (hl : e.limit = n) (hv : e.vars = cols.map .list)
    (hkeys : (e.dict.map Prod.fst).Nodup) (hx : dictGet? e.dict "X" = some (.list x))
    (hxl : x.length = e.len) (hcl : ∀ c ∈ cols, c.length = e.len) (ha : a ≤ e.len) :
    splitFile e s = .ok (blockFile e x cols n a s.ivol, ((min e.len (a + n) : Nat) : Int)) := by
  unfold splitFile
  rw [hs, hl, hv]
  have hb : mapRes (fun v => PyVal.slice v (a : Int) (if (a : Int) + n > e.len then (e.len : Int) else (a : Int) + n))
      (cols.map .list) = .ok (cols.map (fun c => .list ((c.drop a).take n))) := by
    rw [mapRes_map_eq]
    refine mapRes_ok_map _ _ _ (fun c hc => ?_)
    have := slice_block c a n (by rw [hcl c hc]; exact ha)
    rw [hcl c hc] at this
    simp only [PyVal.slice, this]
  dsimp only
  rw [hb]
  have hsx := slice_block x a n (by omega)
  rw [hxl] at hsx
  simp only [ok_bind]
  rw [modify_block _ x _ _ _ _ _ hkeys hx, hsx]
  simp only [ok_bind]
  congr 2
  split <;> omega

/-- The files of the loop from `a` on, when every file can be written. -/
def blockFiles (e : SplitEnv F) (x : List (PyVal F)) (cols : List (List (PyVal F))) (n : Nat) :
    Nat → Nat → Nat → List (WriteCall F)
  | 0, _, _ => []
  | fuel + 1, a, i =>
    if a < e.len then blockFile e x cols n a i :: blockFiles e x cols n fuel (min e.len (a + n)) (i + 1) else []

theorem splitGo_files (emit : WriteCall F → Res Unit) (e : SplitEnv F) (x : List (PyVal F))
    (cols : List (List (PyVal F))) (n : Nat) (hn : 1 ≤ n) (hl : e.limit = n) (hv : e.vars = cols.map .list)
    (hkeys : (e.dict.map Prod.fst).Nodup) (hx : dictGet? e.dict "X" = some (.list x))
    (hxl : x.length = e.len) (hcl : ∀ c ∈ cols, c.length = e.len) (hemit : ∀ c, emit c = .ok ()) :
    ∀ (fuel a : Nat) (s : SplitState F), s.start = a → a ≤ e.len → e.len - a ≤ fuel →
      splitGo emit e fuel s = ({ start := e.len,
                                 ivol := s.ivol + (blockFiles e x cols n fuel a s.ivol).length,
                                 names := s.names ++ (blockFiles e x cols n fuel a s.ivol).flatMap (fun c => [c.name, c.name]),
                                 written := s.written ++ blockFiles e x cols n fuel a s.ivol }, none) := by
  intro fuel
  induction fuel with
  | zero =>
    intro a s hs ha hf
    have : a = e.len := by omega
    subst this
    unfold splitGo
    rw [if_neg (by rw [hs]; omega)]
    simp only [blockFiles, List.length_nil, Nat.add_zero, List.flatMap_nil, List.append_nil]
    rw [← hs]
  | succ fuel ih =>
    intro a s hs ha hf
    unfold splitGo
    by_cases h : a < e.len
    · rw [if_pos (by rw [hs]; omega)]
      dsimp only
      have hstep : splitStep emit e s = (SplitState.mk ((min e.len (a + n) : Nat) : Int) (s.ivol + 1)
          (s.names ++ [(blockFile e x cols n a s.ivol).name, (blockFile e x cols n a s.ivol).name])
          (s.written ++ [blockFile e x cols n a s.ivol]), none) := by
        unfold splitStep
        rw [splitFile_block e s x cols n a hs hl hv hkeys hx hxl hcl ha]
        dsimp only
        rw [hemit]
      rw [hstep]
      dsimp only
      rw [ih (min e.len (a + n)) _ rfl (by omega) (by omega)]
      simp only [blockFiles, if_pos h, List.length_cons, List.flatMap_cons, List.append_assoc, List.cons_append,
        List.nil_append]
      congr 2
      omega
    · have : a = e.len := by omega
      subst this
      rw [if_neg (by rw [hs]; omega)]
      simp only [blockFiles, if_neg h, List.length_nil, Nat.add_zero, List.flatMap_nil, List.append_nil]
      rw [← hs]

/-- The blocks of a list from `a` on. -/
def cuts {α : Type} (l : List α) (n : Nat) : Nat → Nat → List (List α)
  | 0, _ => []
  | fuel + 1, a => if a < l.length then (l.drop a).take n :: cuts l n fuel (min l.length (a + n)) else []

theorem cuts_spec {α : Type} (l : List α) (n : Nat) (hn : 1 ≤ n) (fuel a : Nat) (ha : a ≤ l.length)
    (hf : l.length - a ≤ fuel) : CutInto n (l.drop a) (cuts l n fuel a) := by
  induction fuel generalizing a with
  | zero =>
    have : a = l.length := by omega
    subst this
    exact ⟨by simp [cuts], by simp [cuts], by simp [cuts]⟩
  | succ fuel ih =>
    unfold cuts
    by_cases h : a < l.length
    · rw [if_pos h]
      have hi := ih (min l.length (a + n)) (by omega) (by omega)
      refine ⟨?_, ?_, ?_⟩
      · rw [List.flatten_cons, hi.whole]
        conv => rhs; rw [← List.take_append_drop n (l.drop a)]
        rw [List.drop_drop]
        congr 1
        by_cases hc : a + n ≤ l.length
        · congr 1; omega
        · rw [List.drop_of_length_le (by omega), List.drop_of_length_le (by omega)]
      · by_cases hc : cuts l n fuel (min l.length (a + n)) = []
        · rw [hc]; simp
        · rw [List.dropLast_cons_of_ne_nil hc]
          intro c hcm
          rcases List.mem_cons.1 hcm with e | m
          · subst e
            have : a + n ≤ l.length := by
              by_contra hlt
              apply hc
              have hmin : min l.length (a + n) = l.length := by omega
              rw [hmin]
              cases fuel <;> simp [cuts]
            simp; omega
          · exact hi.full c m
      · intro c hcm
        by_cases hc : cuts l n fuel (min l.length (a + n)) = []
        · rw [hc] at hcm
          simp at hcm
          subst hcm
          simp; omega
        · obtain ⟨b, t, hbt⟩ := List.exists_cons_of_ne_nil hc
          rw [hbt] at hcm
          rw [List.getLast?_cons_cons] at hcm
          rw [hbt] at hi
          exact hi.last c hcm
    · have : a = l.length := by omega
      subst this
      rw [if_neg h]
      exact ⟨by simp, by simp, by simp⟩

/-- The number of blocks. -/
theorem cutInto_length {α : Type} {n : Nat} {l : List α} {cs : List (List α)} (hn : 1 ≤ n) (h : CutInto n l cs) :
    (cs.length : Int) = if Int.fmod l.length n > 0 then Int.fdiv l.length n + 1 else Int.fdiv l.length n := by
  have hlen : ∃ k r, cs.length = k ∧ l.length + r = k * n ∧ r < n := by
    rcases List.eq_nil_or_concat cs with e | ⟨init, last, e⟩
    · subst e
      refine ⟨0, 0, rfl, ?_, by omega⟩
      rw [← h.whole]; simp
    · rw [List.concat_eq_append] at e
      subst e
      have h1 := h.full
      rw [List.dropLast_concat] at h1
      have h2 := h.last last (by simp)
      refine ⟨init.length + 1, n - last.length, by simp, ?_, by omega⟩
      rw [← h.whole]
      have h3 : init.flatten.length = init.length * n := by
        clear h h2
        induction init with
        | nil => simp
        | cons a t ih =>
          rw [List.flatten_cons, List.length_append, ih (fun c hc => h1 c (List.mem_cons_of_mem _ hc)),
            h1 a (List.mem_cons_self ..), List.length_cons, Nat.add_mul]
          omega
      rw [List.flatten_append, List.length_append, h3, Nat.add_mul]
      simp; omega
  obtain ⟨k, r, hk, hr, hrn⟩ := hlen
  rw [hk]
  rw [Int.fmod_eq_emod_of_nonneg _ (by omega), Int.fdiv_eq_ediv_of_nonneg _ (by omega)]
  by_cases hr0 : r = 0
  · subst hr0
    have : (l.length : Int) = k * n := by exact_mod_cast hr
    rw [this, Int.mul_emod_left, if_neg (by omega), Int.mul_ediv_cancel _ (by omega)]
  · obtain ⟨k', rfl⟩ : ∃ k', k = k' + 1 := by
      cases k with
      | zero => omega
      | succ k' => exact ⟨k', rfl⟩
    have hl : l.length = (n - r) + n * k' := by
      have : (k' + 1) * n = n * k' + n := by rw [Nat.add_mul, Nat.mul_comm]; omega
      omega
    have hd : l.length / n = k' := by
      rw [hl, Nat.add_mul_div_left _ _ (by omega), Nat.div_eq_of_lt (by omega)]; omega
    have hm : l.length % n = n - r := by
      rw [hl, Nat.add_mul_mod_self_left, Nat.mod_eq_of_lt (by omega)]
    have hd' : (l.length : Int) / (n : Int) = k' := by exact_mod_cast hd
    have hm' : (l.length : Int) % (n : Int) = ((n - r : Nat) : Int) := by exact_mod_cast hm
    rw [hd', hm', if_pos (by omega)]
    omega

theorem blockFiles_length (e : SplitEnv F) (x : List (PyVal F)) (cols : List (List (PyVal F))) (n fuel a i : Nat)
    (hxl : x.length = e.len) : (blockFiles e x cols n fuel a i).length = (cuts x n fuel a).length := by
  induction fuel generalizing a i with
  | zero => rfl
  | succ fuel ih =>
    unfold blockFiles cuts
    rw [hxl]
    split <;> simp [ih]

/-- What is known about each file. -/
theorem blockFiles_get (e : SplitEnv F) (x : List (PyVal F)) (cols : List (List (PyVal F))) (n fuel a i j : Nat)
    (c : WriteCall F) (h : (blockFiles e x cols n fuel a i)[j]? = some c) :
    ∃ b, c = blockFile e x cols n b (i + j) := by
  induction fuel generalizing a i j with
  | zero => simp [blockFiles] at h
  | succ fuel ih =>
    unfold blockFiles at h
    split at h
    · cases j with
      | zero => simp at h; exact ⟨a, h.symm⟩
      | succ j =>
        rw [List.getElem?_cons_succ] at h
        obtain ⟨b, hb⟩ := ih _ _ _ h
        exact ⟨b, by rw [hb]; congr 1; omega⟩
    · simp at h

theorem blockFiles_x (e : SplitEnv F) (x : List (PyVal F)) (cols : List (List (PyVal F))) (n fuel a i : Nat)
    (hxl : x.length = e.len) (hx : dictGet? e.dict "X" = some (.list x)) :
    List.Forall₂ (fun c xi => dictGet? c.dict "X" = some (.list xi)) (blockFiles e x cols n fuel a i)
      (cuts x n fuel a) := by
  induction fuel generalizing a i with
  | zero => exact .nil
  | succ fuel ih =>
    unfold blockFiles cuts
    rw [hxl]
    split
    · refine .cons ?_ (ih _ _)
      rw [blockFile_get, hx]
      simp [blockVal]
    · exact .nil

/-- The blocks of the variables from `a` on. -/
def colCuts (e : SplitEnv F) (cols : List (List (PyVal F))) (n : Nat) : Nat → Nat → List (List (List (PyVal F)))
  | 0, _ => []
  | fuel + 1, a =>
    if a < e.len then cols.map (fun c => (c.drop a).take n) :: colCuts e cols n fuel (min e.len (a + n)) else []

theorem blockFiles_v (e : SplitEnv F) (x : List (PyVal F)) (cols : List (List (PyVal F))) (n fuel a i : Nat)
    (v : PyVal F) (hv : dictGet? e.dict "V" = some v) :
    List.Forall₂ (fun c (block : List (List (PyVal F))) => block.length = cols.length ∧
      dictGet? c.dict "V" = some (.list (block.map .list))) (blockFiles e x cols n fuel a i)
      (colCuts e cols n fuel a) := by
  induction fuel generalizing a i with
  | zero => exact .nil
  | succ fuel ih =>
    unfold blockFiles colCuts
    split
    · refine .cons ⟨by simp, ?_⟩ (ih _ _)
      rw [blockFile_get, hv]
      simp [blockVal]
    · exact .nil

theorem colCuts_col (e : SplitEnv F) (cols : List (List (PyVal F))) (n fuel a j : Nat) (col : List (PyVal F))
    (hj : cols[j]? = some col) (hl : col.length = e.len) :
    List.Forall₂ (fun (block : List (List (PyVal F))) ci => block[j]? = some ci) (colCuts e cols n fuel a)
      (cuts col n fuel a) := by
  induction fuel generalizing a with
  | zero => exact .nil
  | succ fuel ih =>
    unfold colCuts cuts
    rw [hl]
    split
    · refine .cons ?_ (ih _)
      simp [hj]
    · exact .nil

/-! ### names -/

theorem parseDigitsAux_zeros (k : Nat) (s : Str) :
    parseDigitsAux 0 (List.replicate k '0' ++ s) = parseDigitsAux 0 s := by
  induction k with
  | zero => rfl
  | succ k ih =>
    have h0 : '0' = digitChar 0 := by decide
    rw [List.replicate_succ, List.cons_append, h0, parseDigitsAux_digit 0 0 (by omega), ← h0]
    exact ih

theorem parseDigitsAux_natStr (n : Nat) : parseDigitsAux 0 (natStr n) = some n := by
  have h := parseNat_natStr n
  cases hs : natStr n with
  | nil => exact absurd hs (natStr_ne_nil _)
  | cons c cs =>
    obtain ⟨d, hd, rfl⟩ := natStr_digits n c (by rw [hs]; simp)
    rw [hs] at h
    simp only [parseNat, digitVal_digitChar d hd] at h
    rw [parseDigitsAux_digit _ _ hd, Nat.zero_mul, Nat.zero_add]
    exact h

theorem pad3_injective {a b : Nat} (h : pad3 a = pad3 b) : a = b := by
  have h1 : parseDigitsAux 0 (pad3 a) = some a := by
    unfold pad3; rw [parseDigitsAux_zeros, parseDigitsAux_natStr]
  have h2 : parseDigitsAux 0 (pad3 b) = some b := by
    unfold pad3; rw [parseDigitsAux_zeros, parseDigitsAux_natStr]
  rw [h, h2] at h1
  exact (Option.some.inj h1).symm

/-! ### the whole split -/

/-- The values the loop works with. -/
def splitEnv (d : Dict (PyVal F)) (name : Str) (opts : WriteOpts) (limit : Int) (cols : List (List (PyVal F)))
    (len : Nat) : SplitEnv F :=
  { dict := d, vars := cols.map .list, fileName := name, opts := opts, limit := limit, len := len,
    nvol := if Int.fmod len limit > 0 then Int.fdiv len limit + 1 else Int.fdiv len limit }

theorem splitInit_ok (d : Dict (PyVal F)) (name : Str) (opts : WriteOpts) (limit : Int)
    (cols : List (List (PyVal F))) (len : Nat) (hv : dictGet? d "V" = some (.list (cols.map .list)))
    (hne : cols ≠ []) (hlen : ∀ c ∈ cols, c.length = len) (hl : limit ≠ 0) :
    splitInit d name opts limit = .ok (splitEnv d name opts limit cols len) := by
  obtain ⟨v0, vt, rfl⟩ := List.exists_cons_of_ne_nil hne
  have h0 : v0.length = len := hlen v0 (by simp)
  unfold splitInit dictGet
  rw [hv]
  simp only [ok_bind, List.map_cons, idx, List.getElem?_cons_zero, if_neg hl, h0, splitEnv]

theorem writeSubsets_files (emit : WriteCall F → Res Unit) (d : Dict (PyVal F)) (name : Str) (opts : WriteOpts)
    (n : Nat) (x : List (PyVal F)) (cols : List (List (PyVal F)))
    (hkeys : (d.map Prod.fst).Nodup) (hx : dictGet? d "X" = some (.list x))
    (hv : dictGet? d "V" = some (.list (cols.map .list))) (hne : cols ≠ [])
    (hlen : ∀ c ∈ cols, c.length = x.length) (hn : 1 ≤ n) (hemit : ∀ c, emit c = .ok ()) :
    ∃ s, writeSubsets emit d name opts n = (s, none) ∧
      s.written = blockFiles (splitEnv d name opts n cols x.length) x cols n x.length 0 0 ∧
      s.names = s.written.flatMap (fun c => [c.name, c.name]) := by
  unfold writeSubsets
  dsimp only
  rw [splitInit_ok d name opts n cols x.length hv hne hlen (by omega)]
  show ∃ s, splitGo emit (splitEnv d name opts n cols x.length) x.length _ = _ ∧ _
  rw [splitGo_files emit (splitEnv d name opts n cols x.length) x cols n hn rfl rfl hkeys hx rfl hlen hemit
    x.length 0 _ rfl (by omega) (by show x.length - 0 ≤ x.length; omega)]
  refine ⟨_, rfl, ?_, ?_⟩ <;> simp [splitEnv]

theorem blockFiles_names (e : SplitEnv F) (x : List (PyVal F)) (cols : List (List (PyVal F))) (n fuel a i : Nat) :
    ((blockFiles e x cols n fuel a i).map WriteCall.name).Nodup := by
  refine List.pairwise_iff_getElem.2 (fun j k hj hk hlt h => ?_)
  simp only [List.getElem_map] at h
  rw [List.length_map] at hj hk
  obtain ⟨b, hb⟩ := blockFiles_get e x cols n fuel a i j _ (List.getElem?_eq_getElem hj)
  obtain ⟨b', hb'⟩ := blockFiles_get e x cols n fuel a i k _ (List.getElem?_eq_getElem hk)
  rw [hb, hb'] at h
  simp only [blockFile] at h
  have h1 := List.append_cancel_right h
  rw [List.append_cancel_left_eq] at h1
  have h2 := pad3_injective (List.cons.inj h1).2
  omega

/-! ### names of files written in one call -/

/-- The name of the `i`-th part of a file. -/
def partName (name : Str) (i : Nat) : Str := dropThree name ++ '-' :: pad3 i ++ ".na".toList

theorem splitFile_name {e : SplitEnv F} {s : SplitState F} {c : WriteCall F} {stop : Int}
    (h : splitFile e s = .ok (c, stop)) : c.name = partName e.fileName (s.ivol + 1) ∧
      stop = (if s.start + e.limit > e.len then (e.len : Int) else s.start + e.limit) := by
  unfold splitFile at h
  dsimp only at h
  obtain ⟨b, -, h⟩ := ok_of_bind h
  obtain ⟨d, -, h⟩ := ok_of_bind h
  have := Except.ok.inj h
  obtain ⟨h1, h2⟩ := Prod.mk.inj this
  exact ⟨by rw [← h1]; rfl, h2.symm⟩

/-- Whatever happens in the loop: the files written so far are numbered, and after a loop that ends well each
name is listed twice. -/
theorem splitGo_names (emit : WriteCall F → Res Unit) (e : SplitEnv F) (fuel : Nat) :
    ∀ (s s' : SplitState F) (r : Option Err), splitGo emit e fuel s = (s', r) →
      ∃ w : List (WriteCall F), s'.written = s.written ++ w ∧
        w.map WriteCall.name = (List.range' (s.ivol + 1) w.length).map (partName e.fileName) ∧
        (r = none → s'.names = s.names ++ w.flatMap (fun c => [c.name, c.name])) := by
  induction fuel with
  | zero =>
    intro s s' r h
    unfold splitGo at h
    split at h
    · obtain ⟨rfl, rfl⟩ := Prod.mk.inj h
      exact ⟨[], by simp, by simp, by simp⟩
    · obtain ⟨rfl, rfl⟩ := Prod.mk.inj h
      exact ⟨[], by simp, by simp, by simp⟩
  | succ fuel ih =>
    intro s s' r h
    unfold splitGo at h
    split at h
    · dsimp only at h
      unfold splitStep at h
      cases hf : splitFile e s with
      | error x =>
        rw [hf] at h
        obtain ⟨rfl, rfl⟩ := Prod.mk.inj h
        exact ⟨[], by simp, by simp, by simp⟩
      | ok p =>
        obtain ⟨c, stop⟩ := p
        rw [hf] at h
        dsimp only at h
        cases he : emit c with
        | error x =>
          rw [he] at h
          obtain ⟨rfl, rfl⟩ := Prod.mk.inj h
          exact ⟨[], by simp, by simp, by simp⟩
        | ok u =>
          rw [he] at h
          dsimp only at h
          obtain ⟨w, h1, h2, h3⟩ := ih _ _ _ h
          refine ⟨c :: w, by rw [h1]; simp, ?_, fun hr => by rw [h3 hr]; simp⟩
          rw [List.map_cons, h2, List.length_cons, List.range'_succ, List.map_cons, (splitFile_name hf).1]
    · obtain ⟨rfl, rfl⟩ := Prod.mk.inj h
      exact ⟨[], by simp, by simp, by simp⟩

theorem writeSubsets_names (emit : WriteCall F → Res Unit) (d : Dict (PyVal F)) (name : Str) (opts : WriteOpts)
    (limit : Int) (s : SplitState F) (r : Option Err) (h : writeSubsets emit d name opts limit = (s, r)) :
    s.written.map WriteCall.name = (List.range' 1 s.written.length).map (partName name) ∧
      (r = none → s.names = s.written.flatMap (fun c => [c.name, c.name])) := by
  unfold writeSubsets at h
  dsimp only at h
  cases hi : splitInit d name opts limit with
  | error x =>
    rw [hi] at h
    obtain ⟨rfl, rfl⟩ := Prod.mk.inj h
    exact ⟨by simp, by simp⟩
  | ok e =>
    rw [hi] at h
    dsimp only at h
    have hn : e.fileName = name := by
      unfold splitInit at hi
      obtain ⟨v, -, hi⟩ := ok_of_bind hi
      split at hi
      · obtain ⟨v0, -, hi⟩ := ok_of_bind hi
        split at hi
        · split at hi
          · cases hi
          · rw [← Except.ok.inj hi]
        · cases hi
      · cases hi
    obtain ⟨w, h1, h2, h3⟩ := splitGo_names emit e _ _ _ _ h
    rw [List.nil_append] at h1
    rw [h1, ← hn]
    exact ⟨h2, fun hr => by rw [h3 hr]; rfl⟩

/-- The names of the files for one dictionary. -/
theorem writeOne_names (emit : WriteCall F → Res Unit) (opts : WriteOpts) (name : Str) (d : Dict (PyVal F))
    (names : List Str) (written : List (WriteCall F)) (r : Option Err)
    (h : writeOne emit opts name d = (names, written, r)) :
    ((∃ c, written = [c] ∧ c.name = name) ∨
      written.map WriteCall.name = (List.range' 1 written.length).map (partName name)) ∧
    (r = none → (names = written.map WriteCall.name ∧ names = [name]) ∨
      names = written.flatMap (fun c => [c.name, c.name])) ∧
    (r = none → opts.sizeLimit = none → names = written.map WriteCall.name ∧ names = [name]) := by
  unfold writeOne at h
  cases hm : mustSplit d opts.sizeLimit with
  | error x =>
    rw [hm] at h
    obtain ⟨-, h⟩ := Prod.mk.inj h
    obtain ⟨rfl, rfl⟩ := Prod.mk.inj h
    exact ⟨.inr (by simp), by simp, by simp⟩
  | ok o =>
    rw [hm] at h
    cases o with
    | some limit =>
      dsimp only at h
      have hne : opts.sizeLimit ≠ none := by
        intro e
        rw [e] at hm
        simp [mustSplit] at hm
      cases hs : writeSubsets emit d name opts limit with
      | mk s r' =>
        rw [hs] at h
        obtain ⟨h1, h2⟩ := writeSubsets_names emit d name opts limit s r' hs
        cases r' with
        | none =>
          simp only [Prod.mk.injEq] at h
          obtain ⟨rfl, rfl, rfl⟩ := h
          exact ⟨.inr h1, fun _ => .inr (h2 rfl), fun _ e => absurd e hne⟩
        | some x =>
          simp only [Prod.mk.injEq] at h
          obtain ⟨rfl, rfl, rfl⟩ := h
          exact ⟨.inr h1, by simp, by simp⟩
    | none =>
      dsimp only at h
      split at h
      · simp only [Prod.mk.injEq] at h
        obtain ⟨rfl, rfl, rfl⟩ := h
        exact ⟨.inr (by simp), by simp, by simp⟩
      · simp only [Prod.mk.injEq] at h
        obtain ⟨rfl, rfl, rfl⟩ := h
        exact ⟨.inl ⟨_, rfl, rfl⟩, fun _ => .inl ⟨rfl, rfl⟩, fun _ _ => ⟨rfl, rfl⟩⟩

/-- The whole call: the files written are those of the single dictionaries, one after the other. -/
theorem writeNAFilesGo_names (emit : WriteCall F → Res Unit) (cfg : WriteConfig F) (items : Dict (PyVal F))
    (opts : WriteOpts) (l : List (Str × Dict (PyVal F))) :
    ∀ (r r' : WriteResult F) (x : Option Err), writeNAFilesGo emit cfg items opts l r = (r', x) →
      ∃ ws : List (List (WriteCall F)), r'.written = r.written ++ ws.flatten ∧ ws.length ≤ l.length ∧
        (∀ (i : Nat) w, ws[i]? = some w → ∃ p, l[i]? = some p ∧ ((∃ c, w = [c] ∧ c.name = p.1) ∨
          w.map WriteCall.name = (List.range' 1 w.length).map (partName p.1))) ∧
        (x = none → ∃ nss : List (List Str), r'.fileList = r.fileList ++ nss.flatten ∧
          List.Forall₂ (fun (ns : List Str) (w : List (WriteCall F)) => ns = w.map WriteCall.name ∨
            ns = w.flatMap (fun c => [c.name, c.name])) nss ws ∧
          (opts.sizeLimit = none → nss = ws.map (fun w => w.map WriteCall.name) ∧
            nss = l.map (fun p => [p.1]))) := by
  induction l with
  | nil =>
    intro r r' x h
    obtain ⟨rfl, rfl⟩ := Prod.mk.inj h
    exact ⟨[], by simp, by simp, by simp, fun _ => ⟨[], by simp, .nil, by simp⟩⟩
  | cons p t ih =>
    obtain ⟨name, d⟩ := p
    intro r r' x h
    unfold writeNAFilesGo at h
    cases hp : prepareDict cfg items opts.delimiter d with
    | error e =>
      rw [hp] at h
      obtain ⟨rfl, rfl⟩ := Prod.mk.inj h
      exact ⟨[], by simp, by simp, by simp, by simp⟩
    | ok d' =>
      rw [hp] at h
      dsimp only at h
      obtain ⟨names, written, r1, hw⟩ : ∃ names written r1, writeOne emit opts name d' = (names, written, r1) :=
        ⟨_, _, _, rfl⟩
      rw [hw] at h
      obtain ⟨h1, h2, h3⟩ := writeOne_names emit opts name d' names written r1 hw
      cases r1 with
      | some e =>
        obtain ⟨rfl, rfl⟩ := Prod.mk.inj h
        refine ⟨[written], by simp, by simp, ?_, by simp⟩
        intro i w hi
        cases i with
        | zero =>
          simp only [List.getElem?_cons_zero, Option.some.injEq] at hi
          subst hi
          exact ⟨_, rfl, h1⟩
        | succ i => simp at hi
      | none =>
        dsimp only at h
        obtain ⟨ws, g1, g2, g3, g4⟩ := ih _ _ _ h
        refine ⟨written :: ws, by rw [g1]; simp, by simp; omega, ?_, fun hx => ?_⟩
        · intro i w hi
          cases i with
          | zero =>
            simp only [List.getElem?_cons_zero, Option.some.injEq] at hi
            subst hi
            exact ⟨_, rfl, h1⟩
          | succ i =>
            rw [List.getElem?_cons_succ] at hi ⊢
            exact g3 i w hi
        · obtain ⟨nss, k1, k2, k3⟩ := g4 hx
          refine ⟨names :: nss, by rw [k1]; simp, .cons ?_ k2, fun hl => ⟨?_, ?_⟩⟩
          · rcases h2 rfl with e | e
            · exact .inl e.1
            · exact .inr e
          · rw [(k3 hl).1, List.map_cons, (h3 rfl hl).1]
          · rw [List.map_cons, (k3 hl).2, (h3 rfl hl).2]

/-! ### distinct names -/

theorem join_splitP (c : Char) (s : Str) : join [c] (splitP (· == c) s) = s := by
  induction s with
  | nil => rfl
  | cons x t ih =>
    unfold splitP
    by_cases h : x = c
    · subst h
      simp only [beq_self_eq_true, if_true]
      obtain ⟨a, l, hl⟩ := List.exists_cons_of_ne_nil (splitP_ne_nil (· == x) t)
      rw [hl] at ih ⊢
      rw [join, ih]; simp
    · rw [if_neg (by simpa using h)]
      obtain ⟨a, l, hl⟩ := List.exists_cons_of_ne_nil (splitP_ne_nil (· == c) t)
      rw [hl] at ih ⊢
      dsimp only
      cases l with
      | nil => simp only [join] at ih ⊢; rw [ih]
      | cons b l =>
        simp only [join] at ih ⊢
        rw [← ih]; simp

theorem parts_dots (base ext : Str) (h : '.' ∉ ext) :
    join ['.'] (splitP (· == '.') (base ++ '.' :: ext)).dropLast = base ∧
      (splitP (· == '.') (base ++ '.' :: ext)).getLast? = some ext := by
  rw [splitP_append_sep _ _ _ _ (by decide), splitP_none _ ext (fun c hc => by
    simp only [beq_eq_false_iff_ne]; rintro rfl; exact h hc)]
  rw [List.dropLast_concat]
  exact ⟨join_splitP _ _, by simp⟩

theorem digits_stop {a b t t' : Str} {c c' : Char} (ha : ∀ x ∈ a, ∃ d, d < 10 ∧ x = digitChar d)
    (hb : ∀ x ∈ b, ∃ d, d < 10 ∧ x = digitChar d) (hc : ¬ ∃ d, d < 10 ∧ c = digitChar d)
    (hc' : ¬ ∃ d, d < 10 ∧ c' = digitChar d) (h : a ++ c :: t = b ++ c' :: t') : a = b := by
  induction a generalizing b with
  | nil =>
    cases b with
    | nil => rfl
    | cons y b =>
      have := (List.cons.inj h).1
      exact absurd (this ▸ hb y (List.mem_cons_self ..)) hc
  | cons x a ih =>
    cases b with
    | nil =>
      have := (List.cons.inj h).1
      exact absurd (this ▸ ha x (List.mem_cons_self ..)) hc'
    | cons y b =>
      obtain ⟨h1, h2⟩ := List.cons.inj h
      rw [h1, ih (fun z hz => ha z (List.mem_cons_of_mem _ hz)) (fun z hz => hb z (List.mem_cons_of_mem _ hz)) h2]

theorem not_digit_dot : ¬ ∃ d, d < 10 ∧ '.' = digitChar d := by decide

theorem not_digit_dash : ¬ ∃ d, d < 10 ∧ '-' = digitChar d := by decide

/-- The name of the `i`-th file, `i` from 1. -/
def numName (base ext : Str) (i : Nat) : Str := base ++ '_' :: natStr i ++ '.' :: ext

theorem construct_names (nc : Option Str) (n : Nat) (base ext : Str) (h : '.' ∉ ext) (hn : n ≠ 1) :
    constructNAFileNames nc n (some (base ++ '.' :: ext))
      = .ok ((List.range n).map (fun i => numName base ext (i + 1))) := by
  obtain ⟨h1, h2⟩ := parts_dots base ext h
  unfold constructNAFileNames
  simp only [baseNAFile, ok_bind, if_neg hn, h1, h2, Option.getD_some]
  rfl

/-- All the names belonging to the `i`-th file begin with the same text followed by something other than a
digit. -/
theorem name_shape (base ext : Str) (he : 2 ≤ ext.length) (i : Nat) (f : Str)
    (h : f = numName base ext i ∨ ∃ k, f = partName (numName base ext i) k) :
    ∃ c t, (¬ ∃ d, d < 10 ∧ c = digitChar d) ∧ f = base ++ '_' :: (natStr i ++ c :: t) := by
  rcases h with h | ⟨k, h⟩
  · exact ⟨'.', ext, not_digit_dot, by rw [h]; simp [numName]⟩
  · have hl : (numName base ext i).length - 3 = (base ++ '_' :: natStr i).length + (ext.length - 2) := by
      simp [numName]; omega
    have hd : dropThree (numName base ext i) = (base ++ '_' :: natStr i) ++ ('.' :: ext).take (ext.length - 2) := by
      unfold dropThree
      rw [hl]
      unfold numName
      rw [List.take_length_add_append]
    rw [h]
    unfold partName
    rw [hd]
    cases he2 : ext.length - 2 with
    | zero => exact ⟨'-', pad3 k ++ ".na".toList, not_digit_dash, by simp⟩
    | succ m => exact ⟨'.', ext.take m ++ '-' :: pad3 k ++ ".na".toList, not_digit_dot, by simp⟩

theorem name_num (base ext : Str) (he : 2 ≤ ext.length) (i j : Nat) (f : Str)
    (hi : f = numName base ext i ∨ ∃ k, f = partName (numName base ext i) k)
    (hj : f = numName base ext j ∨ ∃ k, f = partName (numName base ext j) k) : i = j := by
  obtain ⟨c, t, hc, e1⟩ := name_shape base ext he i f hi
  obtain ⟨c', t', hc', e2⟩ := name_shape base ext he j f hj
  rw [e1] at e2
  have h1 := (List.cons.inj (List.append_cancel_left e2)).2
  exact natStr_injective _ _ (digits_stop (natStr_digits i) (natStr_digits j) hc hc' h1)

theorem partName_injective (name : Str) {a b : Nat} (h : partName name a = partName name b) : a = b := by
  unfold partName at h
  have h1 := List.append_cancel_right h
  rw [List.append_cancel_left_eq] at h1
  exact pad3_injective (List.cons.inj h1).2

theorem construct_length {nc na : Option Str} {n : Nat} {names : List Str}
    (h : constructNAFileNames nc n na = .ok names) : names.length = n ∧ names.Nodup := by
  unfold constructNAFileNames at h
  obtain ⟨f, -, h⟩ := ok_of_bind h
  dsimp only at h
  split at h
  · rename_i h1
    rw [← Except.ok.inj h, h1]; simp
  · rw [← Except.ok.inj h]
    refine ⟨by simp, List.pairwise_map.2 (List.nodup_range.imp (fun {a b} hne he => hne ?_))⟩
    have h1 := List.append_cancel_right he
    have h2 := (List.cons.inj (List.append_cancel_left h1)).2
    have := natStr_injective _ _ h2
    omega

theorem zip_singletons {α β : Type} (a : List α) (b : List β) (h : a.length = b.length) :
    ((a.zip b).map (fun p => [p.1])).flatten = a := by
  induction a generalizing b with
  | nil => rfl
  | cons x a ih =>
    cases b with
    | nil => simp at h
    | cons y b =>
      simp only [List.zip_cons_cons, List.map_cons, List.flatten_cons]
      rw [ih b (by simpa using h)]; rfl

/-! ### termination -/

theorem mapRes_error {α β : Type} {f : α → Res β} {l : List α} {x : Err} (h : mapRes f l = .error x) :
    ∃ a ∈ l, f a = .error x := by
  induction l with
  | nil => cases h
  | cons a t ih =>
    unfold mapRes at h
    cases ha : f a with
    | error y => rw [ha] at h; exact ⟨a, by simp, by rw [ha]; simpa using h⟩
    | ok b =>
      rw [ha] at h
      cases ht : mapRes f t with
      | error y =>
        rw [ht] at h
        obtain ⟨b, hb, e⟩ := ih (by rw [ht]; simpa using h)
        exact ⟨b, List.mem_cons_of_mem _ hb, e⟩
      | ok bs => rw [ht] at h; cases h

theorem pySlice_error {v : PyVal F} {a b : Int} {x : Err} (h : v.slice a b = .error x) : x = .type := by
  cases v <;> simp [PyVal.slice] at h <;> exact h.symm

theorem splitFile_error {e : SplitEnv F} {s : SplitState F} {x : Err} (h : splitFile e s = .error x) :
    x = .type := by
  unfold splitFile at h
  dsimp only at h
  generalize hb : mapRes _ e.vars = b at h
  cases b with
  | error y =>
    obtain ⟨v, -, hv⟩ := mapRes_error hb
    rw [pySlice_error hv] at h
    simpa using h.symm
  | ok block =>
    rw [ok_bind] at h
    generalize hm : modifyNADictCopy e.dict _ _ _ _ _ = m at h
    cases m with
    | error y =>
      unfold modifyNADictCopy at hm
      obtain ⟨kv, -, hv⟩ := mapRes_error hm
      have hy : y = .type := by
        split at hv
        · generalize hsl : kv.2.slice _ _ = sl at hv
          cases sl with
          | error z => rw [pySlice_error hsl] at hv; simpa using hv.symm
          | ok z => simp at hv
        · split at hv
          · cases hv
          · split at hv
            · cases hv
            · split at hv <;> cases hv
      rw [hy] at h
      simpa using h.symm
    | ok d => cases h

theorem splitGo_ends (emit : WriteCall F → Res Unit) (e : SplitEnv F) (hl : 1 ≤ e.limit)
    (hemit : ∀ c, emit c ≠ .error .hang) (fuel : Nat) :
    ∀ s : SplitState F, (e.len : Int) - s.start ≤ fuel → (splitGo emit e fuel s).2 ≠ some .hang := by
  induction fuel with
  | zero =>
    intro s h
    unfold splitGo
    rw [if_neg (by omega)]; simp
  | succ fuel ih =>
    intro s h
    unfold splitGo
    split
    · dsimp only
      unfold splitStep
      cases hf : splitFile e s with
      | error x => simp [splitFile_error hf]
      | ok p =>
        obtain ⟨c, stop⟩ := p
        dsimp only
        cases he : emit c with
        | error x =>
          dsimp only
          intro hx
          exact hemit c (by rw [he, Option.some.inj hx])
        | ok u =>
          dsimp only
          refine ih _ ?_
          show (e.len : Int) - stop ≤ fuel
          rw [(splitFile_name hf).2]
          split <;> omega
    · simp

theorem splitFile_neg (e : SplitEnv F) (s : SplitState F) (x : List (PyVal F)) (cols : List (List (PyVal F)))
    (hv : e.vars = cols.map .list) (hkeys : (e.dict.map Prod.fst).Nodup)
    (hx : dictGet? e.dict "X" = some (.list x)) : ∃ p, splitFile e s = .ok p := by
  unfold splitFile
  dsimp only
  rw [hv, mapRes_map_eq]
  have : ∀ a b, mapRes (fun c : List (PyVal F) => PyVal.slice (.list c) a b) cols
      = .ok (cols.map (fun c => .list (slice c a b))) := fun a b => mapRes_ok_map _ _ _ (fun c _ => rfl)
  rw [this, ok_bind, modify_block _ x _ _ _ _ _ hkeys hx]
  exact ⟨_, rfl⟩

theorem splitGo_never (emit : WriteCall F → Res Unit) (e : SplitEnv F) (x : List (PyVal F))
    (cols : List (List (PyVal F))) (hl : e.limit < 0) (hlen : 0 < e.len)
    (hv : e.vars = cols.map .list) (hkeys : (e.dict.map Prod.fst).Nodup)
    (hx : dictGet? e.dict "X" = some (.list x)) (hemit : ∀ c, emit c = .ok ()) (fuel : Nat) :
    ∀ s : SplitState F, s.start ≤ 0 → (splitGo emit e fuel s).2 = some .hang ∧
      (splitGo emit e fuel s).1.written.length = s.written.length + fuel := by
  induction fuel with
  | zero =>
    intro s h
    unfold splitGo
    rw [if_pos (by omega)]; simp
  | succ fuel ih =>
    intro s h
    unfold splitGo
    rw [if_pos (by omega)]
    dsimp only
    unfold splitStep
    obtain ⟨⟨c, stop⟩, hf⟩ := splitFile_neg e s x cols hv hkeys hx
    rw [hf]
    dsimp only
    rw [hemit]
    dsimp only
    have hstop := (splitFile_name hf).2
    obtain ⟨h1, h2⟩ := ih (SplitState.mk stop (s.ivol + 1) (s.names ++ [c.name, c.name]) (s.written ++ [c]))
      (by show stop ≤ 0; rw [hstop]; split <;> omega)
    refine ⟨h1, ?_⟩
    rw [h2]; simp; omega

/-! ### overriding header items -/

/-- The keys an override of `key` may change. -/
def touches (key k : String) : Prop := k = key ∨ (key = "SCOM" ∧ k = "NSCOML") ∨ (key = "NCOM" ∧ k = "NNCOML")

theorem applyOverride_frame {hp : Partitions} {rule : Rule} {d d' : Dict (PyVal F)} {key : String} {v : PyVal F}
    (h : applyOverride hp rule d key v = .ok d') (k : String) (hk : ¬ (key ∈ permittedOverwrite ∧ touches key k)) :
    dictGet? d' k = dictGet? d k := by
  unfold applyOverride at h
  split at h
  · rename_i hper
    have ht : ¬ touches key k := fun ht => hk ⟨hper, ht⟩
    unfold touches at ht
    simp only [not_or, not_and] at ht
    obtain ⟨t1, t2, t3⟩ := ht
    obtain ⟨item, -, h⟩ := ok_of_bind h
    split at h
    · rename_i hkey
      obtain ⟨c, -, h⟩ := ok_of_bind h
      obtain ⟨n, -, h⟩ := ok_of_bind h
      rw [← Except.ok.inj h, dictGet?_set, dictGet?_set, if_neg, if_neg (fun e => t1 e.symm)]
      rcases hkey with rfl | rfl
      · exact fun e => t2 rfl e.symm
      · exact fun e => t3 rfl e.symm
    · rw [← Except.ok.inj h, dictGet?_set, if_neg (fun e => t1 e.symm)]
  · rw [← Except.ok.inj h]

theorem applyOverrides_frame {hp : Partitions} {rule : Rule} {o d d' : Dict (PyVal F)}
    (h : applyOverrides hp rule d o = .ok d') (k : String)
    (hk : ∀ key ∈ o.map Prod.fst, ¬ (key ∈ permittedOverwrite ∧ touches key k)) :
    dictGet? d' k = dictGet? d k := by
  induction o generalizing d with
  | nil => rw [← Except.ok.inj h]
  | cons p t ih =>
    obtain ⟨key, v⟩ := p
    unfold applyOverrides at h
    obtain ⟨d1, h1, h⟩ := ok_of_bind h
    rw [ih h (fun x hx => hk x (List.mem_cons_of_mem _ hx)),
      applyOverride_frame h1 k (hk key (by simp))]

/-- A comment list and its count agree. -/
def CountOk (d : Dict (PyVal F)) (key nkey : String) : Prop :=
  ∃ l : List (PyVal F), dictGet? d key = some (.list l) ∧ dictGet? d nkey = some (.int l.length)

theorem overrideComments_list {hp : Partitions} {rule : Rule} {key : String} {ex : Option (PyVal F)}
    {l : List (PyVal F)} {c : PyVal F} (h : overrideComments hp rule key ex (.list l) = .ok c) :
    ∃ l', c = .list l' := by
  unfold overrideComments at h
  cases rule with
  | other => cases h
  | replace => exact ⟨l, (Except.ok.inj h).symm⟩
  | insert =>
    dsimp only at h
    split at h
    · split at h
      · obtain ⟨c', -, h⟩ := ok_of_bind h
        exact ⟨_, (Except.ok.inj h).symm⟩
      · cases h
    · simp_all
    · cases h
    · cases h
    · simp_all
  | extend =>
    dsimp only at h
    split at h
    · split at h
      · obtain ⟨c', -, h⟩ := ok_of_bind h
        exact ⟨_, (Except.ok.inj h).symm⟩
      · cases h
    · simp_all
    · cases h
    · cases h
    · simp_all

theorem overrideItem_comment (key : String) (hkey : key = "SCOM" ∨ key = "NCOM") (v : PyVal F) :
    overrideItem key v = .ok v := by
  unfold overrideItem
  rw [if_neg]
  rcases hkey with rfl | rfl <;> decide

theorem applyOverride_count {hp : Partitions} {rule : Rule} {d d' : Dict (PyVal F)} {key nkey : String}
    {l : List (PyVal F)} (hkey : key = "SCOM" ∧ nkey = "NSCOML" ∨ key = "NCOM" ∧ nkey = "NNCOML")
    (h : applyOverride hp rule d key (.list l) = .ok d') : CountOk d' key nkey := by
  have hkey' : key = "SCOM" ∨ key = "NCOM" := hkey.imp And.left And.left
  have hn : "N" ++ key ++ "L" = nkey := by
    rcases hkey with ⟨rfl, rfl⟩ | ⟨rfl, rfl⟩ <;> decide
  have hne : nkey ≠ key := by
    rcases hkey with ⟨rfl, rfl⟩ | ⟨rfl, rfl⟩ <;> decide
  unfold applyOverride at h
  rw [if_pos (by rcases hkey' with rfl | rfl <;> decide)] at h
  obtain ⟨item, h1, h⟩ := ok_of_bind h
  rw [overrideItem_comment _ hkey'] at h1
  have := (Except.ok.inj h1).symm
  subst this
  rw [if_pos hkey'] at h
  obtain ⟨c, h2, h⟩ := ok_of_bind h
  obtain ⟨n, h3, h⟩ := ok_of_bind h
  obtain ⟨l', rfl⟩ := overrideComments_list h2
  have := Except.ok.inj h3
  subst this
  refine ⟨l', ?_, ?_⟩
  · rw [← Except.ok.inj h, dictGet?_set, dictGet?_set, hn, if_neg hne, if_pos rfl]
  · rw [← Except.ok.inj h, dictGet?_set, hn, if_pos rfl]

theorem applyOverrides_count {hp : Partitions} {rule : Rule} {o d d' : Dict (PyVal F)} {key nkey : String}
    (hkey : key = "SCOM" ∧ nkey = "NSCOML" ∨ key = "NCOM" ∧ nkey = "NNCOML")
    (h : applyOverrides hp rule d o = .ok d') (hl : ∀ v, (key, v) ∈ o → ∃ l, v = .list l)
    (hin : key ∈ o.map Prod.fst ∨ CountOk d key nkey) : CountOk d' key nkey := by
  induction o generalizing d with
  | nil =>
    rw [← Except.ok.inj h]
    rcases hin with hin | hin
    · cases hin
    · exact hin
  | cons p t ih =>
    obtain ⟨k, v⟩ := p
    unfold applyOverrides at h
    obtain ⟨d1, h1, h⟩ := ok_of_bind h
    refine ih h (fun v hv => hl v (List.mem_cons_of_mem _ hv)) ?_
    by_cases hk : k = key
    · subst hk
      obtain ⟨l, rfl⟩ := hl v (List.mem_cons_self ..)
      exact .inr (applyOverride_count hkey h1)
    · rcases hin with hin | ⟨l, g1, g2⟩
      · refine .inl ?_
        rcases List.mem_cons.1 hin with e | m
        · exact absurd e.symm hk
        · exact m
      · refine .inr ⟨l, ?_, ?_⟩
        · rw [applyOverride_frame h1 key, g1]
          rintro ⟨hper, rfl | ⟨e1, e2⟩ | ⟨e1, e2⟩⟩
          · exact hk rfl
          · rcases hkey with ⟨rfl, -⟩ | ⟨rfl, -⟩ <;> revert e2 <;> decide
          · rcases hkey with ⟨rfl, -⟩ | ⟨rfl, -⟩ <;> revert e2 <;> decide
        · rw [applyOverride_frame h1 nkey, g2]
          rintro ⟨hper, rfl | ⟨e1, e2⟩ | ⟨e1, e2⟩⟩
          · rcases hkey with ⟨-, rfl⟩ | ⟨-, rfl⟩ <;> revert hper <;> decide
          · subst e1
            rcases hkey with ⟨rfl, rfl⟩ | ⟨rfl, rfl⟩
            · exact hk rfl
            · revert e2; decide
          · subst e1
            rcases hkey with ⟨rfl, rfl⟩ | ⟨rfl, rfl⟩
            · revert e2; decide
            · exact hk rfl

theorem applyOverrides_value {hp : Partitions} {rule : Rule} {o d d' : Dict (PyVal F)} {key : String}
    {v item : PyVal F} (hper : key ∈ permittedOverwrite) (hs : key ≠ "SCOM") (hn : key ≠ "NCOM")
    (ho : (o.map Prod.fst).Nodup) (hm : (key, v) ∈ o) (hitem : overrideItem key v = .ok item)
    (h : applyOverrides hp rule d o = .ok d') : dictGet? d' key = some item := by
  induction o generalizing d with
  | nil => cases hm
  | cons p t ih =>
    obtain ⟨k, w⟩ := p
    unfold applyOverrides at h
    obtain ⟨d1, h1, h2⟩ := ok_of_bind h
    clear h
    rw [List.map_cons, List.nodup_cons] at ho
    rcases List.mem_cons.1 hm with e | m
    · obtain ⟨rfl, rfl⟩ := Prod.mk.inj e
      rw [applyOverrides_frame h2 key]
      · unfold applyOverride at h1
        rw [if_pos hper, hitem, ok_bind, if_neg (by rintro (rfl | rfl) <;> contradiction)] at h1
        rw [← Except.ok.inj h1, dictGet?_set, if_pos rfl]
      · rintro x hx ⟨-, rfl | ⟨rfl, rfl⟩ | ⟨rfl, rfl⟩⟩
        · exact ho.1 hx
        · revert hper; decide
        · revert hper; decide
    · exact ih ho.2 m h2

theorem overriders_get (l u : Dict (PyVal F)) (k : String) (hu : (u.map Prod.fst).Nodup) :
    dictGet? (overriders l u) k = (dictGet? u k).or (dictGet? l k) := by
  unfold overriders
  induction u generalizing l with
  | nil => rfl
  | cons p t ih =>
    obtain ⟨k', v⟩ := p
    rw [List.map_cons, List.nodup_cons] at hu
    rw [List.foldl_cons, ih _ hu.2, dictGet?_set]
    simp only [dictGet?]
    by_cases h : k' = k
    · subst h
      have : dictGet? t k' = none := by
        cases hg : dictGet? t k' with
        | none => rfl
        | some v => exact absurd (List.mem_map_of_mem (f := Prod.fst) (dictGet?_mem hg)) hu.1
      simp [this]
    · simp [h]

/-! ### comments -/

theorem cleanWrap_eq (hp : Partitions) (ex new : List Str) (ncom insert : Bool) (r : List Str)
    (he : ex ≠ []) (hn : new ≠ []) (h : cleanWrapComments hp ex new ncom insert = .ok r) :
    ∃ a body b, ex = a ++ body ++ b ∧ r = a ++ (if insert then new ++ body else body ++ new) ++ b ∧
      a = (if ex.head? = some (if ncom then hp.nc_start else hp.sc_start) then
        [if ncom then hp.nc_start else hp.sc_start] else []) ∧
      ∃ last ∈ ex.getLast?, b = if last = (if ncom then hp.nc_end else hp.sc_end) ∨
        (ncom = true ∧ last = hp.data_next) then [last] else [] := by
  unfold cleanWrapComments at h
  rw [if_neg he, if_neg hn] at h
  dsimp only at h
  generalize (if ncom = true then hp.nc_start else hp.sc_start) = st at h ⊢
  generalize (if ncom = true then hp.nc_end else hp.sc_end) = en at h ⊢
  obtain ⟨a, ha, rest, hr, hrest⟩ : ∃ a, a = (if ex.head? = some st then [st] else []) ∧ ∃ rest, ex = a ++ rest ∧
      (if ex.head? = some st then ex.drop 1 else ex) = rest := by
    obtain ⟨x, t, rfl⟩ := List.exists_cons_of_ne_nil he
    by_cases hx : x = st
    · subst hx; exact ⟨[x], by simp, t, rfl, by simp⟩
    · exact ⟨[], by simp [hx], x :: t, rfl, by simp [hx]⟩
  rw [hrest] at h
  rcases List.eq_nil_or_concat rest with e | ⟨init, last, e⟩
  · rw [e] at h; cases h
  · rw [List.concat_eq_append] at e
    subst e
    rw [List.getLast?_concat] at h
    dsimp only at h
    have hlast : last ∈ ex.getLast? := by rw [hr]; simp
    have hc : ∀ c : List Str, (if ex.head? = some st then st :: c else c) = a ++ c := by
      intro c; rw [ha]; split <;> rfl
    rw [List.dropLast_concat] at h
    by_cases h1 : last = en
    · simp only [if_pos h1, Option.isNone_some, Bool.false_and] at h
      refine ⟨a, init, [last], by rw [hr]; simp, ?_, ha, last, hlast, by simp [h1]⟩
      rw [← Except.ok.inj h]
      simp only [Bool.false_eq_true, if_false, hc, Option.toList_some, h1]
    · simp only [if_neg h1, Option.isNone_none, Bool.true_and] at h
      by_cases h2 : ncom = true ∧ last = hp.data_next
      · have hb : (ncom && decide (last = hp.data_next)) = true := by simp [h2]
        rw [hb] at h
        refine ⟨a, init, [last], by rw [hr]; simp, ?_, ha, last, hlast, by simp [h2]⟩
        rw [← Except.ok.inj h]
        simp only [if_true, List.dropLast_concat, hc, Option.toList_some, h2.2]
      · have hb : (ncom && decide (last = hp.data_next)) = false := by
          rw [← Bool.not_eq_true]; simpa using h2
        rw [hb] at h
        refine ⟨a, init ++ [last], [], by rw [hr]; simp, ?_, ha, last, hlast, by simp [h1, h2]⟩
        rw [← Except.ok.inj h]
        simp only [Bool.false_eq_true, if_false, hc, Option.toList_none]

theorem cleanWrap_ok (hp : Partitions) (ex new : List Str) (ncom insert : Bool)
    (h : ex ≠ [if ncom then hp.nc_start else hp.sc_start] ∨ new = []) :
    ∃ r, cleanWrapComments hp ex new ncom insert = .ok r := by
  unfold cleanWrapComments
  split
  · exact ⟨_, rfl⟩
  · split
    · exact ⟨_, rfl⟩
    · rename_i he hn
      have h := h.resolve_right hn
      dsimp only
      generalize (if ncom = true then hp.nc_start else hp.sc_start) = st at h ⊢
      obtain ⟨x, t, rfl⟩ := List.exists_cons_of_ne_nil he
      split
      · rename_i hl
        exfalso
        rw [List.getLast?_eq_none_iff] at hl
        by_cases hx : x = st
        · subst hx
          simp at hl
          exact h (by rw [hl])
        · simp [hx] at hl
      · exact ⟨_, rfl⟩

theorem asStrs_eq {l : List (PyVal F)} {ss : List Str} : asStrs l = some ss ↔ l = ss.map .str := by
  induction l generalizing ss with
  | nil => cases ss <;> simp [asStrs]
  | cons a t ih =>
    cases a with
    | str s =>
      simp only [asStrs, Option.map_eq_some_iff, ih]
      constructor
      · rintro ⟨u, h, rfl⟩; rw [h]; rfl
      · intro h
        cases ss with
        | nil => cases h
        | cons b u =>
          simp only [List.map_cons, List.cons.injEq, PyVal.str.injEq] at h
          exact ⟨u, h.2, by rw [h.1]⟩
    | _ =>
      simp only [asStrs, reduceCtorEq, false_iff]
      intro h
      cases ss <;> simp at h

/-! ### column headers -/

theorem columnHeaders_cases {d d' : Dict (PyVal F)} {delimiter : Str}
    (h : updateWithColumnHeaders d delimiter = .ok d') :
    d' = d ∨ ∃ (ncom : List (PyVal F)) (line : Str), dictGet? d "NCOM" = some (.list ncom) ∧
      d' = dictSet (dictSet d "NCOM" (.list (ncom ++ [.str line]))) "NNCOML" (.int (ncom.length + 1)) := by
  unfold updateWithColumnHeaders at h
  obtain ⟨vf, -, h1⟩ := ok_of_bind h
  clear h
  split at h1
  · split at h1
    · obtain ⟨va, -, h2⟩ := ok_of_bind h1
      clear h1
      split at h2
      · split at h2
        · exact .inl (Except.ok.inj h2).symm
        · obtain ⟨first, -, h3⟩ := ok_of_bind h2
          clear h2
          obtain ⟨vn, -, h4⟩ := ok_of_bind h3
          clear h3
          split at h4
          · split at h4
            · obtain ⟨vc, hvc, h5⟩ := ok_of_bind h4
              clear h4
              split at h5
              · rename_i names _ _ ncom
                refine .inr ⟨ncom, join [','] names, ?_, ?_⟩
                · unfold dictGet at hvc
                  split at hvc
                  · rename_i hg
                    rw [hg, Except.ok.inj hvc]
                  · cases hvc
                · rw [← Except.ok.inj h5]
                  simp
              · cases h5
            · cases h4
          · cases h4
      · cases h2
    · exact .inl (Except.ok.inj h1).symm
  · cases h1

/-! ### writing again -/

theorem dictSet_same {α : Type} {d : Dict α} {k : String} {v : α} (h : dictGet? d k = some v) :
    dictSet d k v = d := by
  induction d with
  | nil => cases h
  | cons p t ih =>
    obtain ⟨k', v'⟩ := p
    simp only [dictGet?] at h
    unfold dictSet
    split at h
    · rename_i e; rw [if_pos e, Option.some.inj h]
    · rename_i e; rw [if_neg e, ih h]

theorem dictSet_keys {α : Type} (d : Dict α) (k : String) (v : α) (x : String) :
    x ∈ (dictSet d k v).map Prod.fst ↔ x = k ∨ x ∈ d.map Prod.fst := by
  induction d with
  | nil => simp [dictSet]
  | cons p t ih =>
    obtain ⟨k', v'⟩ := p
    unfold dictSet
    split
    · rename_i e; subst e; simp
    · simp only [List.map_cons, List.mem_cons, ih]
      constructor
      · rintro (h | h | h) <;> simp [h]
      · rintro (h | h | h) <;> simp [h]

theorem dictSet_nodup {α : Type} (d : Dict α) (k : String) (v : α) (h : (d.map Prod.fst).Nodup) :
    ((dictSet d k v).map Prod.fst).Nodup := by
  induction d with
  | nil => simp [dictSet]
  | cons p t ih =>
    obtain ⟨k', v'⟩ := p
    rw [List.map_cons, List.nodup_cons] at h
    unfold dictSet
    split
    · rw [List.map_cons, List.nodup_cons]; exact h
    · rename_i e
      rw [List.map_cons, List.nodup_cons]
      refine ⟨fun hm => ?_, ih h.2⟩
      rcases (dictSet_keys t k v k').1 hm with e' | m
      · exact e e'
      · exact h.1 m

theorem overriders_nodup (l u : Dict (PyVal F)) (h : (l.map Prod.fst).Nodup) :
    ((overriders l u).map Prod.fst).Nodup := by
  unfold overriders
  induction u generalizing l with
  | nil => exact h
  | cons p t ih => exact ih _ (dictSet_nodup _ _ _ h)

theorem overriders_keys (l u : Dict (PyVal F)) (x : String) (h : x ∈ (overriders l u).map Prod.fst) :
    x ∈ u.map Prod.fst ∨ x ∈ l.map Prod.fst := by
  unfold overriders at h
  induction u generalizing l with
  | nil => exact .inr h
  | cons p t ih =>
    rcases ih _ h with m | m
    · exact .inl (List.mem_cons_of_mem _ m)
    · rcases (dictSet_keys _ _ _ _).1 m with e | m
      · exact .inl (by rw [e]; simp)
      · exact .inr m

theorem applyOverrides_again {hp : Partitions} {rule : Rule} {o d d' : Dict (PyVal F)}
    (ho : (o.map Prod.fst).Nodup) (hs : "SCOM" ∉ o.map Prod.fst) (hn : "NCOM" ∉ o.map Prod.fst)
    (h : applyOverrides hp rule d o = .ok d') : applyOverrides hp rule d' o = .ok d' := by
  have key : ∀ p ∈ o, applyOverride hp rule d' p.1 p.2 = .ok d' := by
    rintro ⟨k, v⟩ hm
    have hk := List.mem_map_of_mem (f := Prod.fst) hm
    have h1 : k ≠ "SCOM" := by rintro rfl; exact hs hk
    have h2 : k ≠ "NCOM" := by rintro rfl; exact hn hk
    unfold applyOverride
    by_cases hper : k ∈ permittedOverwrite
    · rw [if_pos hper]
      have hitem : ∃ item, overrideItem k v = .ok item := by
        clear hk hs hn ho
        induction o generalizing d with
        | nil => cases hm
        | cons q t ih =>
          obtain ⟨kq, vq⟩ := q
          unfold applyOverrides at h
          obtain ⟨d1, g1, g2⟩ := ok_of_bind h
          rcases List.mem_cons.1 hm with e | m
          · obtain ⟨rfl, rfl⟩ := Prod.mk.inj e
            unfold applyOverride at g1
            rw [if_pos hper] at g1
            obtain ⟨item, g3, -⟩ := ok_of_bind g1
            exact ⟨item, g3⟩
          · exact ih g2 m
      obtain ⟨item, hitem⟩ := hitem
      rw [hitem, ok_bind, if_neg (by rintro (rfl | rfl) <;> contradiction)]
      rw [dictSet_same (applyOverrides_value hper h1 h2 ho hm hitem h)]
    · rw [if_neg hper]
  clear h ho hs hn
  induction o with
  | nil => rfl
  | cons p t ih =>
    obtain ⟨k, v⟩ := p
    unfold applyOverrides
    rw [key _ (List.mem_cons_self ..), ok_bind]
    exact ih (fun q hq => key q (List.mem_cons_of_mem _ hq))

theorem writeNAFilesGo_again (emit : WriteCall F → Res Unit) (cfg : WriteConfig F) (items : Dict (PyVal F))
    (opts : WriteOpts) (hp : ∀ d d', prepareDict cfg items opts.delimiter d = .ok d' →
      prepareDict cfg items opts.delimiter d' = .ok d') (l : List (Str × Dict (PyVal F))) :
    ∀ (r r' : WriteResult F), writeNAFilesGo emit cfg items opts l r = (r', none) →
      ∃ ds, r'.dicts = r.dicts ++ ds ∧ ds.length = l.length ∧
        writeNAFilesGo emit cfg items opts ((l.map Prod.fst).zip ds) r = (r', none) := by
  induction l with
  | nil =>
    intro r r' h
    obtain ⟨rfl, -⟩ := Prod.mk.inj h
    exact ⟨[], by simp, rfl, rfl⟩
  | cons p t ih =>
    obtain ⟨name, d⟩ := p
    intro r r' h
    unfold writeNAFilesGo at h
    cases hpd : prepareDict cfg items opts.delimiter d with
    | error e => rw [hpd] at h; exact absurd (Prod.mk.inj h).2 (by simp)
    | ok d' =>
      rw [hpd] at h
      dsimp only at h
      obtain ⟨names, written, r1, hw⟩ : ∃ names written r1, writeOne emit opts name d' = (names, written, r1) :=
        ⟨_, _, _, rfl⟩
      rw [hw] at h
      cases r1 with
      | some e => exact absurd (Prod.mk.inj h).2 (by simp)
      | none =>
        dsimp only at h
        obtain ⟨ds, h1, h2, h3⟩ := ih _ _ h
        refine ⟨d' :: ds, by rw [h1]; simp, by simp [h2], ?_⟩
        rw [List.map_cons, List.zip_cons_cons]
        unfold writeNAFilesGo
        rw [hp d d' hpd]
        dsimp only
        rw [hw]
        exact h3

end Nappy
