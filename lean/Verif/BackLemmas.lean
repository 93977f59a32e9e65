import Verif.CollectorLemmas
import Verif.ToXLemmas
import Verif.Spec.Back

/-! Lemmas about the way back: the variables made from a NASA Ames file, given to the collector. -/

namespace Nappy

open Spec

variable {F : Type}

/-- A later variable that is not larger leaves the choice alone. -/
theorem bestGo_keep (i : Nat) (b : XVar F) : ∀ (vs : List (XVar F)) (k : Nat),
    (∀ v ∈ vs, v.rank < b.rank ∨ (v.rank = b.rank ∧ v.size ≤ b.size)) → bestGo (some (i, b)) k vs = some (i, b)
  | [], _, _ => rfl
  | v :: vs, k, h => by
    rw [bestGo]
    have : bestStep (some (i, b)) k v = some (i, b) := by
      unfold bestStep
      split
      · rfl
      · dsimp only
        rw [if_neg]
        simp only [Bool.or_eq_true, Bool.and_eq_true, decide_eq_true_eq, beq_iff_eq, not_or, not_and, gt_iff_lt]
        rcases h v (by simp) with h | ⟨h1, h2⟩
        · exact ⟨by omega, fun e => by omega⟩
        · exact ⟨by omega, fun _ => by omega⟩
    rw [this]
    exact bestGo_keep i b vs (k + 1) (fun v hv => h v (by simp [hv]))

/-- An axis is judged identical to itself if one of its values equals itself. -/
theorem identical_self {eq : F → F → Bool} {a : XAxis F} (h : ∃ x ∈ a.values, eq x x = true) :
    areAxesIdentical eq a a = true := by
  rw [areAxesIdentical_iff]
  obtain ⟨x, hx, he⟩ := h
  obtain ⟨i, hi⟩ := List.getElem?_of_mem hx
  refine ⟨⟨rfl, rfl, fun t _ x y h1 h2 => ?_⟩, rfl, ⟨i, x, x, hi, hi, he⟩⟩
  rw [h1] at h2
  injection h2

theorem sameAxes_self {eq : F → F → Bool} : ∀ {axes : List (XAxis F)},
    (∀ a ∈ axes, ∃ x ∈ a.values, eq x x = true) → sameAxes eq axes axes = true
  | [], _ => rfl
  | a :: as, h => by
    rw [sameAxes, identical_self (h a (by simp)), sameAxes_self (fun b hb => h b (by simp [hb]))]
    rfl

/-- Variables on the axes of the best one are main variables. -/
theorem sortGo_main {env : XEnv F} {b : XVar F} (hs : sameAxes env.eq b.axes b.axes = true) :
    ∀ (vs : List (XVar F)) (s : SortState F), (∀ v ∈ vs, v.axes = b.axes) →
      sortGo env b [] s vs = .ok { s with main := s.main ++ vs }
  | [], s, _ => by rw [sortGo, List.append_nil]
  | v :: vs, s, h => by
    have hv := h v (by simp)
    have e : sortStep env b [] s v = .ok { s with main := s.main ++ [v] } := by
      unfold sortStep
      rw [if_neg (by simp), if_neg (by unfold XVar.shape; rw [hv]; simp), hv, if_pos hs]
    rw [sortGo, e, ok_bind, sortGo_main hs vs _ (fun w hw => h w (by simp [hw]))]
    simp

/-- Variables on the first axis only are auxiliary variables. -/
theorem sortGo_aux {env : XEnv F} {b : XVar F} {ax0 : XAxis F} {more : List (XAxis F)} (hb : b.axes = ax0 :: more)
    (hmore : more ≠ []) (hs : areAxesIdentical env.eq ax0 ax0 = true) :
    ∀ (vs : List (XVar F)) (s : SortState F), s.ffis ≠ some [1020] → (∀ v ∈ vs, v.axes = [ax0]) →
      sortGo env b [] s vs = .ok { s with aux := s.aux ++ vs }
  | [], s, _, _ => by rw [sortGo, List.append_nil]
  | v :: vs, s, hf, h => by
    have hv := h v (by simp)
    have e : sortStep env b [] s v = .ok { s with aux := s.aux ++ [v] } := by
      unfold sortStep
      rw [if_neg (by simp), if_pos, hv]
      · dsimp only
        have : coordByIndex b 0 = .ok ax0 := by unfold coordByIndex idx; rw [hb]; rfl
        rw [this, ok_bind, sortOneDim, if_pos hs, if_neg hf]
      · unfold XVar.shape
        rw [hv, hb]
        intro e
        have := congrArg List.length e
        simp only [List.length_map, List.length_cons, List.length_nil] at this
        exact hmore (List.length_eq_zero_iff.1 (by omega))
    rw [sortGo, e, ok_bind, sortGo_aux hb hmore hs vs { s with aux := s.aux ++ [v] } hf (fun w hw => h w (by simp [hw]))]
    simp

theorem sortGo_append {env : XEnv F} {b : XVar F} {z : List Str} :
    ∀ (l m : List (XVar F)) (s : SortState F),
      sortGo env b z s (l ++ m) = (sortGo env b z s l).bind (fun s => sortGo env b z s m)
  | [], m, s => rfl
  | v :: l, m, s => by
    rw [List.cons_append, sortGo, sortGo]
    cases sortStep env b z s v with
    | error e => rfl
    | ok s' =>
      rw [ok_bind, ok_bind]
      exact sortGo_append l m s'

/-- The format for so many axes. -/
def backFormat (n : Nat) : Int := if n = 1 then 1001 else 10 + (n : Int) * 1000

/-- Main variables on the same axes and auxiliary variables on the first one are taken in one pass. -/
theorem analyse_back {env : XEnv F} {axes : List (XAxis F)} {main aux : List (XVar F)}
    (hself : ∀ a ∈ axes, ∃ x ∈ a.values, env.eq x x = true) (hu : ∀ a, axes[1]? = some a → ∃ u, env.uniform a = .ok u)
    (hl1 : 1 ≤ axes.length) (hl4 : axes.length ≤ 4) (hne : main ≠ []) (hm : ∀ v ∈ main, v.axes = axes)
    (ha : ∀ v ∈ aux, v.axes = axes.take 1) (haux : aux = [] ∨ 2 ≤ axes.length)
    (hrm : reorderBy XVar.naNumber main = .ok main) (hra : reorderBy XVar.naAuxNumber aux = .ok aux) :
    analyse env none (main ++ aux) = .ok (some
      { main := main, aux := aux, zero := [], unused := [], niv := axes.length, ffi := backFormat axes.length,
        nvpm := none }) := by
  obtain ⟨ax0, more, rfl⟩ : ∃ ax0 more, axes = ax0 :: more := by
    cases axes with
    | nil => simp at hl1
    | cons a l => exact ⟨a, l, rfl⟩
  obtain ⟨b, bs, rfl⟩ : ∃ b bs, main = b :: bs := by
    cases main with
    | nil => exact absurd rfl hne
    | cons b bs => exact ⟨b, bs, rfl⟩
  have hb := hm b (by simp)
  have hrank : ∀ v ∈ (b :: bs) ++ aux, v.rank ≠ 0 := by
    intro v hv
    unfold XVar.rank
    rcases List.mem_append.1 hv with h | h
    · rw [hm v h]; simp
    · rw [ha v h]; simp
  have hzero : rankZeroVars ((b :: bs) ++ aux) = [] := by
    unfold rankZeroVars
    rw [List.filter_eq_nil_iff]
    intro v hv
    simpa using hrank v hv
  have hbest : bestGo none 0 ((b :: bs) ++ aux) = some (0, b) := by
    rw [List.cons_append, bestGo]
    have : bestStep none 0 b = some (0, b) := by
      unfold bestStep
      rw [if_neg (hrank b (by simp))]
    rw [this]
    refine bestGo_keep 0 b _ _ (fun v hv => ?_)
    rcases List.mem_append.1 hv with h | h
    · right
      unfold XVar.rank XVar.size XVar.shape
      rw [hm v (by simp [h]), hb]
      exact ⟨rfl, Nat.le_refl _⟩
    · left
      rcases haux with h' | h'
      · rw [h'] at h; cases h
      · unfold XVar.rank
        rw [ha v h, hb]
        simp only [List.take_succ_cons, List.take_zero, List.length_cons, List.length_nil] at h' ⊢
        omega
  have hffis : ∃ f, initialFFIs env b = .ok f ∧ f ≠ some [1020] := by
    unfold initialFFIs
    split
    · rename_i hr
      unfold XVar.rank at hr
      have hr2 := hr
      rw [hb] at hr2
      obtain ⟨ax1, rfl⟩ := List.length_eq_one_iff.1 (show more.length = 1 by simp at hr2; omega)
      have : coordByIndex b 1 = .ok ax1 := by unfold coordByIndex idx; rw [hb]; rfl
      obtain ⟨u, hu⟩ := hu ax1 rfl
      rw [this, ok_bind, hu, ok_bind]
      refine ⟨_, rfl, ?_⟩
      cases u <;> simp
    · exact ⟨none, rfl, by simp⟩
  obtain ⟨f, hf1, hf2⟩ := hffis
  have hself' : sameAxes env.eq b.axes b.axes = true := by rw [hb]; exact sameAxes_self hself
  unfold analyse
  rw [hbest]
  dsimp only
  rw [hf1, ok_bind, hzero]
  have he : ((b :: bs) ++ aux).eraseIdx 0 = bs ++ aux := rfl
  rw [he, List.map_nil, sortGo_append,
    sortGo_main hself' bs _ (fun v hv => by rw [hm v (by simp [hv]), hb])]
  have hsort : ∀ s : SortState F, s.ffis = f → sortGo env b [] s aux = .ok { s with aux := s.aux ++ aux } := by
    intro s hs
    rcases haux with h' | h'
    · rw [h', sortGo, List.append_nil]
    · refine sortGo_aux hb ?_ (identical_self (hself ax0 (by simp))) aux s (by rw [hs]; exact hf2) (fun v hv => ?_)
      · intro e
        rw [e] at h'
        simp at h'
      · rw [ha v hv]; rfl
  have hdec : decideFFI none b.rank aux.length f = .ok (backFormat (ax0 :: more).length) := by
    unfold decideFFI
    simp only [Option.filter_none]
    have hr : b.rank = (ax0 :: more).length := by unfold XVar.rank; rw [hb]
    rw [hr]
    unfold ffiForDims backFormat
    rw [if_neg (by omega)]
    by_cases h2 : (ax0 :: more).length > 2
    · rw [if_pos h2, if_neg (by omega)]; rfl
    · rw [if_neg h2]
      by_cases h3 : (ax0 :: more).length = 2
      · rw [if_pos h3, if_neg (by omega), h3]; rfl
      · rw [if_neg h3, if_neg, if_pos (by omega)]
        · rfl
        · rcases haux with h' | h'
          · rw [h']; simp
          · omega
  show (do
    let s ← sortGo env b [] { main := [b] ++ bs, aux := [], unused := [], ffis := f, nvpm := none } aux
    _) = _
  rw [hsort _ rfl, ok_bind]
  dsimp only
  rw [List.singleton_append, List.nil_append, hrm, ok_bind, hra, ok_bind, hdec, ok_bind]
  unfold XVar.rank
  rw [hb]

/-- Variables numbered 0, 1, 2, ... stay where they are, in front of those without a number. -/
theorem reorderBy_numbered {α : Type} {num : α → Option Int} {m o : List α}
    (hm : ∀ (i : Nat) v, m[i]? = some v → num v = some (i : Int)) (ho : ∀ v ∈ o, num v = none)
    (hl : m.length ≤ 1000) : reorderBy num (m ++ o) = .ok (m ++ o) := by
  have hlt : m.Pairwise (fun v w => ∃ i j, num v = some i ∧ num w = some j ∧ i < j) := by
    rw [List.pairwise_iff_getElem]
    intro i j hi hj hij
    exact ⟨i, j, hm i _ (List.getElem?_eq_getElem hi), hm j _ (List.getElem?_eq_getElem hj), by omega⟩
  have hfit : NumbersFit num (m ++ o) := by
    constructor
    · intro v hv i hi
      rcases List.mem_append.1 hv with h | h
      · obtain ⟨j, hj⟩ := List.getElem?_of_mem h
        have h1 := (List.getElem?_eq_some_iff.1 hj).1
        rw [hm j v hj] at hi
        injection hi with hi
        omega
      · rw [ho v h] at hi; cases hi
    · rw [List.pairwise_append]
      refine ⟨hlt.imp ?_, ?_, ?_⟩
      · rintro v w ⟨i, j, h1, h2, h3⟩
        right
        rw [h1, h2]
        intro e
        injection e with e
        omega
      · exact List.pairwise_iff_getElem.2 fun i j hi hj _ => .inl (ho _ (List.getElem_mem hi))
      · intro v hv w hw
        right
        rw [ho w hw]
        obtain ⟨j, hj⟩ := List.getElem?_of_mem hv
        rw [hm j v hj]
        simp
  obtain ⟨r, h1, numbered, h2, h3, h4, h5⟩ := reorderBy_ok num (m ++ o) hfit
  have hfm : m.filter (fun v => (num v).isNone) = [] := by
    rw [List.filter_eq_nil_iff]
    intro v hv
    obtain ⟨j, hj⟩ := List.getElem?_of_mem hv
    rw [hm j v hj]
    simp
  have hfo : o.filter (fun v => (num v).isNone) = o := by
    rw [List.filter_eq_self]
    intro v hv
    rw [ho v hv]
    rfl
  rw [List.filter_append, hfm, hfo, List.nil_append] at h2
  have hp : numbered.Perm m := by
    rw [h2] at h5
    exact (List.perm_append_right_iff o).1 h5
  have : numbered = m := by
    refine hp.eq_of_pairwise ?_ h3 hlt
    rintro a b _ _ ⟨i, j, e1, e2, e3⟩ ⟨k, l, e4, e5, e6⟩
    rw [e1] at e5
    rw [e2] at e4
    injection e5 with e5
    injection e4 with e4
    omega
  rw [h1, h2, this]

/-- Variables with axes that are not named like an axis go to the collector as they are. -/
theorem convert_back {env : XEnv F} {show_ : Tree F → Str} {fuel : Nat} {vars : List (XVar F)} {a : Analysis F}
    (hr : ∀ v ∈ vars, v.rank ≠ 0) (hl : vars.length ≤ 5000)
    (hn : ∀ v ∈ vars, ∀ w ∈ vars, ∀ ax ∈ w.axes, v.name ≠ ax.name)
    (ha : analyse env none vars = .ok (some a)) (hun : a.unused = []) :
    convert env show_ none fuel vars = .ok (some [a]) := by
  have h1 : convertSingletonVars show_ vars = .ok vars := by
    unfold convertSingletonVars
    clear hl hn ha
    induction vars with
    | nil => rfl
    | cons v vs ih =>
      rw [mapRes, if_neg (hr v (by simp)), ih (fun w hw => hr w (by simp [hw]))]
      rfl
  have h2 : dropCoordinateVars vars = .ok vars := by
    unfold dropCoordinateVars
    rw [if_neg (by omega), List.filter_eq_self.2]
    intro v hv
    simp only [Bool.not_eq_true', List.contains_eq_mem, decide_eq_false_iff_not, List.mem_flatMap, List.mem_map]
    rintro ⟨w, hw, ax, hax, e⟩
    exact hn v hv w hw ax hax e.symm
  unfold convert
  rw [h1, ok_bind, h2, ok_bind, ha, ok_bind]
  dsimp only
  rw [hun, convertLoop]
  rfl

/-! ### The variables made from a file -/

/-- The variables made from a file share its axes and are numbered. -/
theorem made_vars {env : ToXEnv F} {user : Dict (PyVal F)} {tu : Option Str} {o : Obj F} {r : ToXResult F}
    (h : toXarray env user .all .all tu o = .ok r) :
    ∃ axes l, AxisValues env.add o l ∧ axes.map XAxis.values = l.take (axisHeader o).1.toNat ∧
      axes.length = (axisHeader o).1.toNat ∧
      (∀ v ∈ r.vars, v.axes = axes) ∧ (∀ v ∈ r.aux, v.axes = axes.take 1) ∧
      (∀ (i : Nat) v, r.vars[i]? = some v → v.naNumber = some (i : Int)) ∧ (∀ v ∈ r.aux, v.naNumber = none) ∧
      (∀ (i : Nat) v, r.aux[i]? = some v → v.naAuxNumber = some (i : Int)) := by
  obtain ⟨n, axes, is, h1, h2, h3, h4, h5, h6, h7⟩ := toXarray_parts h
  have f := view_facts h1
  obtain ⟨x1, x2⟩ := axesGo_values _ _ _ _ h3
  rw [List.drop_zero, f.2.2.2.1] at x1
  rw [f.2.2.2.1] at x2
  injection h4 with h4
  subst h4
  have hmain : ∀ (i : Nat) v, r.vars[i]? = some v → v.axes = axes ∧ v.naNumber = some (i : Int) := by
    intro i v hv
    have hl := mapRes_ok_length _ _ _ h5
    have hi := (List.getElem?_eq_some_iff.1 hv).1
    rw [List.length_map, List.length_range] at hl
    have hm := mapRes_get h5 (x := (i : Int))
      (by rw [List.getElem?_map, List.getElem?_range (by omega)]; rfl) hv
    obtain ⟨_, _, _, _, _, _, _, k1, k2, _⟩ := mainVar_facts h1 hm
    exact ⟨k1, k2⟩
  have haux : ∀ (i : Nat) v, r.aux[i]? = some v →
      v.axes = axes.take 1 ∧ v.naNumber = none ∧ v.naAuxNumber = some (i : Int) := by
    intro i v hv
    by_cases hx : ∀ a, n.aux = some a → ¬ a.NAUXV > 0
    · rw [h7 hx] at hv
      simp at hv
    · obtain ⟨a, hx⟩ := not_forall.1 hx
      obtain ⟨ha, hx⟩ := Classical.not_imp.1 hx
      have hpos := not_not.1 hx
      obtain ⟨js, g1, g2⟩ := h6 a ha hpos
      injection g1 with g1
      subst g1
      have hl := mapRes_ok_length _ _ _ g2
      have hi := (List.getElem?_eq_some_iff.1 hv).1
      rw [List.length_map, List.length_range] at hl
      have hm := mapRes_get g2 (x := (i : Int))
        (by rw [List.getElem?_map, List.getElem?_range (by omega)]; rfl) hv
      obtain ⟨_, _, _, _, _, _, _, k1, k2, k3, _⟩ := auxVar_facts h1 ha hm
      exact ⟨k1, k2, k3⟩
  refine ⟨axes, n.X, view_axes h1, x1, x2, fun v hv => ?_, fun v hv => ?_, fun i v hv => (hmain i v hv).2,
    fun v hv => ?_, fun i v hv => (haux i v hv).2.2⟩
  · obtain ⟨i, hi⟩ := List.getElem?_of_mem hv
    exact (hmain i v hi).1
  · obtain ⟨i, hi⟩ := List.getElem?_of_mem hv
    exact (haux i v hi).1
  · obtain ⟨i, hi⟩ := List.getElem?_of_mem hv
    exact (haux i v hi).2.1

theorem convertDicts_one {env : CollectEnv F} {show_ : Tree F → Str} {globals : Dict (PyVal F)} {fuel : Nat}
    {vars : List (XVar F)} {a : Analysis F} {d : Dict (PyVal F)}
    (h1 : convert env.x show_ none fuel vars = .ok (some [a])) (h : collectDict env globals a = .ok d) :
    convertDicts env show_ none globals fuel vars = .ok (some [d]) := by
  unfold convertDicts
  rw [h1, ok_bind]
  dsimp only
  rw [mapRes, h, ok_bind]
  rfl

/-- A function that changes no value of a nested list leaves it alone. -/
theorem mapTree_same {g : F → F} : ∀ {dims : List Nat} {t : Tree F}, Shaped dims t → (∀ x ∈ leaves t, g x = x) →
    mapTree g t = t
  | [], .val x, _, h => by rw [mapTree, h x (by simp [leaves])]
  | [], .lst _, hs, _ => absurd hs id
  | _ :: _, .val _, hs, _ => absurd hs id
  | d :: ds, .lst l, hs, h => by
    rw [mapTree_lst, List.map_congr_left (g := id), List.map_id]
    intro t ht
    refine mapTree_same (hs.2 t ht) (fun x hx => h x ?_)
    rw [leaves_lst]
    exact List.mem_flatten.2 ⟨_, List.mem_map.2 ⟨t, ht, rfl⟩, hx⟩

/-! ### The collector succeeds -/

theorem bestNameOf_ok {attrs : Dict Str} {name s : Str} {u e : Option Str}
    (h : dictGet? attrs "long_name" = some s) (hs : s ≠ []) : ∃ n, bestNameOf attrs name u e = .ok n := by
  unfold bestNameOf
  dsimp only
  have : pickName attrs name nameAttrs = s := by
    unfold nameAttrs
    rw [pickName, h]
  rw [this, if_neg hs]
  exact ⟨_, rfl⟩

/-- The collector takes attributes that are texts where it expects texts, or that it leaves out. -/
theorem globGo_ok {env : CollectEnv F} : ∀ (l : Dict (PyVal F)) (s : GlobState F),
    (∀ v, ("institution", v) ∈ l → (∃ t, v = .str t) ∨ v.plain = false) →
    (∀ v, ("comment", v) ∈ l → (∃ t, v = .str t) ∨ v.plain = false) → ∃ s', globGo env s l = .ok s'
  | [], s, _, _ => ⟨s, rfl⟩
  | (k, v) :: t, s, h1, h2 => by
    have step : ∃ s', globStep env s k v = .ok s' := by
      unfold globStep
      by_cases e1 : (k != "first_valid_date_of_data" && !v.plain) = true
      · rw [if_pos e1]; exact ⟨_, rfl⟩
      rw [if_neg e1]
      by_cases e2 : k = "history"
      · rw [if_pos e2]; exact ⟨_, rfl⟩
      rw [if_neg e2]
      by_cases e3 : k = "institution"
      · subst e3
        rcases h1 v (by simp) with ⟨x, rfl⟩ | e
        · rw [if_pos rfl]; exact ⟨_, rfl⟩
        · exact absurd (by rw [e]; decide) e1
      rw [if_neg e3]
      by_cases e4 : k = "comment"
      · subst e4
        rcases h2 v (by simp) with ⟨x, rfl⟩ | e
        · rw [if_pos rfl]; exact ⟨_, rfl⟩
        · exact absurd (by rw [e]; decide) e1
      rw [if_neg e4]
      by_cases e5 : k = "first_valid_date_of_data"
      · rw [if_pos e5]; exact ⟨_, rfl⟩
      rw [if_neg e5]
      cases dictGet? plainMap k <;> exact ⟨_, rfl⟩
    obtain ⟨s', hs⟩ := step
    rw [globGo, hs, ok_bind]
    exact globGo_ok t s' (fun v hv => h1 v (by simp [hv])) (fun v hv => h2 v (by simp [hv]))

theorem firstStep_ok {env : XEnv F} {l : List F} (h : l ≠ []) : ∃ d, firstStep env l = .ok d := by
  match l, h with
  | [_], _ => exact ⟨_, rfl⟩
  | _ :: _ :: _, _ => exact ⟨_, rfl⟩

theorem axisDef_ok {env : XEnv F} {a : XAxis F} (h : ∃ n, a.bestName = .ok n) : ∃ d, axisDef env a = .ok d := by
  obtain ⟨n, hn⟩ := h
  unfold axisDef
  rw [hn, ok_bind]
  split
  · split <;> exact ⟨_, rfl⟩
  · exact ⟨_, rfl⟩

theorem varItem_total {env : XEnv F} {v : XVar F} (h : ∃ n, v.bestName = .ok n) : ∃ i, varItem env v = .ok i := by
  obtain ⟨n, hn⟩ := h
  unfold varItem
  rw [hn]
  exact ⟨_, rfl⟩

/-- The collector succeeds if everything has a name and no axis is empty, for the formats without marks. -/
theorem collectDict_ok {env : CollectEnv F} {globals : Dict (PyVal F)} {a : Analysis F} {v : XVar F}
    {vs : List (XVar F)} {ax0 : XAxis F} {more : List (XAxis F)} (hmain : a.main = v :: vs) (hax : v.axes = ax0 :: more)
    (hval : ax0.values ≠ []) (hv : ∀ w ∈ a.main ++ a.aux, ∃ n, w.bestName = .ok n) (hzero : a.zero = [])
    (haxes : ∀ x ∈ v.axes, ∃ n, x.bestName = .ok n) (h1 : a.ffi ≠ 1020) (h2 : a.ffi ≠ 2110) (h3 : a.ffi ≠ 2310)
    (hloc : LocalKnown env.localNc)
    (hi : ∀ v, ("institution", v) ∈ globals → (∃ t, v = .str t) ∨ v.plain = false)
    (hc : ∀ v, ("comment", v) ∈ globals → (∃ t, v = .str t) ∨ v.plain = false) :
    ∃ d, collectDict env globals a = .ok d := by
  have hsec : ∃ s, defineVars env.x env.auxMiss a = .ok s := by
    unfold defineVars
    rw [hmain]
    dsimp only
    obtain ⟨i, e1⟩ := varItem_total (env := env.x) (hv v (by rw [hmain]; simp))
    obtain ⟨is, e2⟩ := mapRes_all_ok (f := varItem env.x) (l := vs)
      (fun w hw => varItem_total (hv w (by rw [hmain]; simp [hw])))
    obtain ⟨as, e3⟩ := mapRes_all_ok (f := varItem env.x) (l := a.aux)
      (fun w hw => varItem_total (hv w (by simp [hw])))
    have e4 : ∃ ind, indSection env.x env.auxMiss a.ffi a.nvpm v = .ok ind := by
      unfold indSection
      have c : coordByIndex v 0 = .ok ax0 := by unfold coordByIndex idx; rw [hax]; rfl
      obtain ⟨n0, hn0⟩ := haxes ax0 (by rw [hax]; simp)
      obtain ⟨d0, hd0⟩ := firstStep_ok (env := env.x) hval
      obtain ⟨rest, hrest⟩ := mapRes_all_ok (f := axisDef env.x) (l := v.axes.drop 1)
        (fun w hw => axisDef_ok (haxes w (List.mem_of_mem_drop hw)))
      rw [c, ok_bind, hn0, ok_bind, hd0, ok_bind, if_neg h1, ok_bind, hrest, ok_bind]
      dsimp only
      rw [if_neg h2, if_neg h3]
      exact ⟨_, rfl⟩
    obtain ⟨ind, e4⟩ := e4
    rw [e1, ok_bind, e4, ok_bind, e2, ok_bind, e3, ok_bind]
    exact ⟨_, rfl⟩
  obtain ⟨s, hs⟩ := hsec
  have hg : ∃ g, defineGlobals env (varsDict a s) globals = .ok g := by
    unfold defineGlobals
    rw [if_pos]
    · exact globGo_ok _ _ hi hc
    · rw [List.all_eq_true]
      intro k hk
      have := hloc k hk
      simp only [List.mem_cons, List.not_mem_nil, or_false] at this
      rcases this with rfl | rfl | rfl | rfl | rfl | rfl | rfl | rfl | rfl | rfl | rfl | rfl <;> decide
  obtain ⟨g, hg⟩ := hg
  have hcom : ∃ d, defineComments env a g = .ok d := by
    unfold defineComments
    have hr : ∃ scom, rawSpecial env.hp g.extra0 a.zero a.main = .ok scom := by
      unfold rawSpecial
      rw [hzero]
      have e1 : singletonLines env.hp ([] : List (XVar F)) = .ok [] := rfl
      have e2 : ∃ l, varAttrLines a.main = .ok l := by
        unfold varAttrLines
        obtain ⟨ls, e⟩ := mapRes_all_ok (f := fun v : XVar F => do
            let n ← v.bestName
            (.ok (if v.attrs = [] then [] else variableLine v.name n :: attrLines v.attrs) : Res (List Str)))
          (l := a.main) (fun w hw => by
            obtain ⟨n, hn⟩ := hv w (List.mem_append_left _ hw)
            rw [hn]
            exact ⟨_, rfl⟩)
        rw [e]
        exact ⟨_, rfl⟩
      obtain ⟨l, e2⟩ := e2
      rw [e1, ok_bind, e2, ok_bind]
      split <;> exact ⟨_, rfl⟩
    obtain ⟨scom, hr⟩ := hr
    rw [hr]
    exact ⟨_, rfl⟩
  obtain ⟨d, hd⟩ := hcom
  unfold collectDict
  rw [hs, ok_bind, hg, ok_bind, hd, ok_bind, hmain]
  dsimp only
  have c : coordByIndex v 0 = .ok ax0 := by unfold coordByIndex idx; rw [hax]; rfl
  rw [c]
  exact ⟨_, rfl⟩

/-! ### Names of what was made -/

theorem safeIdGo_ne {s : Str} (h : s ≠ []) : safeIdGo false s ≠ [] := by
  cases s with
  | nil => exact absurd rfl h
  | cons c t =>
    unfold safeIdGo
    split
    · rw [if_neg (by simp)]; simp
    · simp

theorem shortName_ne {p s : Str} {i : Int} (h : s ≠ []) (hp : p ≠ []) : shortName p s i ≠ [] := by
  unfold shortName
  split
  · unfold lower safeId
    intro e
    exact safeIdGo_ne h (List.map_eq_nil_iff.1 e)
  · intro e
    exact hp (List.append_eq_nil_iff.1 e).1

theorem lookupLast_mem {l : Renames} {k v : Str} (h : lookupLast l k = some v) : ∃ kv ∈ l, kv.2 = v := by
  unfold lookupLast at h
  have gen : ∀ (l : Renames) (o : Option Str), (l.foldl (fun o kv => if kv.1 = k then some kv.2 else o) o) = some v →
      (∃ kv ∈ l, kv.2 = v) ∨ o = some v := by
    intro l
    induction l with
    | nil => intro o h; exact .inr h
    | cons kv t ih =>
      intro o h
      rw [List.foldl_cons] at h
      rcases ih _ h with ⟨kv', h1, h2⟩ | h1
      · exact .inl ⟨kv', by simp [h1], h2⟩
      · split at h1
        · injection h1 with h1
          exact .inl ⟨kv, by simp, h1⟩
        · exact .inr h1
  rcases gen l none h with h | h
  · exact h
  · cases h

theorem renamed_ne {renames : Renames} (hr : ∀ kv ∈ renames, kv.2 ≠ []) {k s : Str} (hs : s ≠ []) :
    (lookupLast (lowerKeys renames) k).getD s ≠ [] := by
  cases e : lookupLast (lowerKeys renames) k with
  | none => exact hs
  | some v =>
    obtain ⟨kv, h1, h2⟩ := lookupLast_mem e
    obtain ⟨kv', h3, rfl⟩ := List.mem_map.1 h1
    rw [Option.getD_some, ← h2]
    exact hr kv' h3

theorem makeVar_bestName {env : ToXEnv F} {axes : List (XAxis F)} {short : Str} {units : Option Str} {miss scal : F}
    {data : Tree F} {num aux : Option Int} {v : XVar F}
    (h : makeVar env axes short units miss scal data num aux = .ok v) (hs : short ≠ []) :
    ∃ n, v.bestName = .ok n := by
  obtain ⟨_, h1, h2⟩ := ok_of_bind h
  injection h2 with h2
  subst h2
  refine bestNameOf_ok (s := short) ?_ hs
  cases units with
  | none => simp [dictGet?]
  | some u => cases u <;> simp [dictGet?]

theorem mainVar_bestName {env : ToXEnv F} {n : NAView F} {axes : List (XAxis F)} {i : Int} {v : XVar F}
    (h : mainVar env n axes i = .ok v) (hn : ∀ s ∈ n.v.VNAME, (varAndUnits env.cb s).1 ≠ [])
    (hr : ∀ kv ∈ env.renames, kv.2 ≠ []) : ∃ m, v.bestName = .ok m := by
  obtain ⟨name, h1, h⟩ := ok_of_bind h
  obtain ⟨miss, h2, h⟩ := ok_of_bind h
  obtain ⟨scal, h3, h⟩ := ok_of_bind h
  obtain ⟨data, h4, h⟩ := ok_of_bind h
  have hm : name ∈ n.v.VNAME := by
    unfold idxI at h1
    split at h1
    · exact List.mem_of_getElem? (idx_some h1)
    · split at h1
      · exact List.mem_of_getElem? (idx_some h1)
      · cases h1
  exact makeVar_bestName h (renamed_ne hr (shortName_ne (hn name hm) (by decide)))

theorem auxVar_bestName {env : ToXEnv F} {n : NAView F} {a : AuxHdr F} {axes : List (XAxis F)} {i : Int} {v : XVar F}
    (h : auxVar env n a axes i = .ok v) (hn : ∀ s ∈ a.ANAME, (varAndUnits env.cb s).1 ≠ [])
    (hr : ∀ kv ∈ env.renames, kv.2 ≠ []) : ∃ m, v.bestName = .ok m := by
  obtain ⟨name, h1, h⟩ := ok_of_bind h
  obtain ⟨miss, h2, h⟩ := ok_of_bind h
  obtain ⟨scal, h3, h⟩ := ok_of_bind h
  obtain ⟨data, h4, h⟩ := ok_of_bind h
  have hm : name ∈ a.ANAME := by
    unfold idxI at h1
    split at h1
    · exact List.mem_of_getElem? (idx_some h1)
    · split at h1
      · exact List.mem_of_getElem? (idx_some h1)
      · cases h1
  exact makeVar_bestName h (renamed_ne hr (shortName_ne (hn name hm) (by decide)))

theorem axisTypes_long (name : Str) (attrs : Dict Str) :
    dictGet? (axisTypes name attrs).2 "long_name" = dictGet? attrs "long_name" := by
  unfold axisTypes
  generalize ([("longitude", "X"), ("latitude", "Y"), ("level", "Z"), ("time", "T")] : List (String × String)) = l
  induction l generalizing name attrs with
  | nil => rfl
  | cons t l ih =>
    rw [List.foldl_cons]
    dsimp only
    split
    · rw [ih, dictGet?_set, if_neg (by decide), dictGet?_set, if_neg (by decide)]
    · rw [ih]

theorem axisTime_long {env : ToXEnv F} {tu units : Option Str} {na : Str × Dict Str} {x : Str × Dict Str × Option Str}
    (h : axisTime env tu units na = .ok x) (hl : ∃ s, dictGet? na.2 "long_name" = some s ∧ s ≠ []) :
    ∃ s, dictGet? x.2.1 "long_name" = some s ∧ s ≠ [] := by
  unfold axisTime at h
  split at h
  · obtain ⟨t, _, h2⟩ := ok_of_bind h
    injection h2 with h2
    subst h2
    exact ⟨_, by rw [dictGet?_set, if_pos rfl], by simp⟩
  · injection h with h
    subst h
    exact hl

theorem axisOf_bestName {env : ToXEnv F} {i : Nat} {xname : Str} {values : List F} {tu : Option Str}
    {r : XAxis F × Option Str} (h : axisOf env i xname values tu = .ok r) (hx : xname ≠ []) :
    ∃ m, r.1.bestName = .ok m := by
  unfold axisOf at h
  obtain ⟨x, h1, h⟩ := ok_of_bind h
  injection h with h
  subst h
  have hl := axisTime_long h1 ⟨xname, by rw [axisTypes_long]; simp [dictGet?], hx⟩
  obtain ⟨s, hs, hne⟩ := hl
  refine bestNameOf_ok (s := s) ?_ hne
  dsimp only
  split
  · rw [dictGet?_set, if_neg (by decide), dictGet?_set, if_neg (by decide), hs]
  · rw [dictGet?_set, if_neg (by decide), hs]

theorem axesGo_bestName {env : ToXEnv F} {n : NAView F} (hx : ∀ s ∈ n.XNAME, s ≠ []) :
    ∀ (k i : Nat) (tu : Option Str) (axes : List (XAxis F)), axesGo env n tu i k = .ok axes →
      ∀ a ∈ axes, ∃ m, a.bestName = .ok m
  | 0, i, tu, axes, h => by injection h with h; subst h; simp
  | k + 1, i, tu, axes, h => by
    obtain ⟨vals, h1, h⟩ := ok_of_bind h
    obtain ⟨xn, h2, h⟩ := ok_of_bind h
    obtain ⟨r, h3, h⟩ := ok_of_bind h
    obtain ⟨rest, h4, h⟩ := ok_of_bind h
    injection h with h
    subst h
    intro a ha
    rcases List.mem_cons.1 ha with rfl | ha
    · exact axisOf_bestName h3 (hx xn (List.mem_of_getElem? (idx_some h2)))
    · exact axesGo_bestName hx k (i + 1) r.2 rest h4 a ha

/-- Everything made from a file has a name. -/
theorem made_names {env : ToXEnv F} {user : Dict (PyVal F)} {sel auxSel : Selection} {tu : Option Str} {o : Obj F}
    {n : NAView F} {r : ToXResult F} (hv : o.view env.add = .ok n) (h : toXarray env user sel auxSel tu o = .ok r)
    (hn : NamesLeft env.cb env.renames n.XNAME (n.v.VNAME ++ (n.aux.map AuxHdr.ANAME).getD [])) :
    (∀ v ∈ r.vars ++ r.aux, ∃ m, v.bestName = .ok m) ∧ ∀ v ∈ r.vars, ∀ a ∈ v.axes, ∃ m, a.bestName = .ok m := by
  obtain ⟨n', axes, is, h1, h2, h3, h4, h5, h6, h7⟩ := toXarray_parts h
  rw [hv] at h1
  injection h1 with h1
  subst h1
  refine ⟨fun v hm => ?_, fun v hm => ?_⟩
  · rcases List.mem_append.1 hm with hm | hm
    · obtain ⟨i, _, hi⟩ := mapRes_mem h5 hm
      exact mainVar_bestName hi (fun s hs => hn.2.1 s (by simp [hs])) hn.2.2
    · by_cases hx : ∀ a, n.aux = some a → ¬ a.NAUXV > 0
      · rw [h7 hx] at hm
        cases hm
      · obtain ⟨a, hx⟩ := not_forall.1 hx
        obtain ⟨ha, hx⟩ := Classical.not_imp.1 hx
        obtain ⟨js, g1, g2⟩ := h6 a ha (not_not.1 hx)
        obtain ⟨i, _, hi⟩ := mapRes_mem g2 hm
        exact auxVar_bestName hi (fun s hs => hn.2.1 s (by simp [ha, hs])) hn.2.2
  · obtain ⟨i, _, hi⟩ := mapRes_mem h5 hm
    have : v.axes = axes := by
      obtain ⟨_, _, hi⟩ := ok_of_bind hi
      obtain ⟨_, _, hi⟩ := ok_of_bind hi
      obtain ⟨_, _, hi⟩ := ok_of_bind hi
      obtain ⟨_, _, hi⟩ := ok_of_bind hi
      exact (makeVar_facts hi).2.2.1
    rw [this]
    exact axesGo_bestName hn.1 _ _ _ _ h3

end Nappy
