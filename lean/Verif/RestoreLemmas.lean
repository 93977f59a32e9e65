import Verif.WritableLemmas
import Verif.HeaderIff
import Verif.RecordLemmas
import Verif.ShapeLemmas
import Verif.Spec.Copy

/-! Lemmas for C91: which of the files that are read can be written again. -/

namespace Nappy

open Spec

variable {F : Type}

theorem forall₂_mem_right {α β : Type} {R : α → β → Prop} {as : List α} {bs : List β} (h : List.Forall₂ R as bs) {b : β}
    (hb : b ∈ bs) : ∃ a ∈ as, R a b := by
  induction h with
  | nil => cases hb
  | cons hr _ ih =>
    rcases List.mem_cons.1 hb with rfl | hb
    · exact ⟨_, by simp, hr⟩
    · obtain ⟨a, ha, h⟩ := ih hb; exact ⟨a, List.mem_cons_of_mem _ ha, h⟩

theorem rowOn_length {β : Type} {conv : Str → Res β} {n : Int} {line : Str} {xs : List β}
    (h : RowOn conv n line xs) : (xs.length : Int) = n := by
  obtain ⟨ws, _, h1, h2⟩ := h
  rw [← h2.length_eq]; exact h1

theorem listOn_count {β : Type} {conv : Str → Res β} {n : Int} {ls : List Str} {xs : List β}
    (h : ListOn conv n ls xs) : 0 < n ∧ n ≤ xs.length := by
  obtain ⟨pre, l, pw, lw, _, _, _, h1, h2, h3, h4⟩ := h
  rw [← h4.length_eq, List.length_append]
  push_cast
  omega

theorem namesOn_length {n : Int} {ls xs : List Str} (h : NamesOn n ls xs) : xs.length = n.toNat := by
  rw [← h.2.length_eq]; exact h.1

theorem onLines_names {n : Int} {ls xs : List Str} (h : NamesOn n ls xs) : OnLines n xs := by
  have := namesOn_length h
  unfold OnLines; omega

theorem topOn_dates {k : Nat} {ls : List Str} {c : Common} {ign : List Str} (h : TopOn k ls c ign) :
    3 ≤ c.DATE.length ∧ 3 ≤ c.RDATE.length := by
  obtain ⟨_, _, _, _, _, _, _, _, _, _, _, _, _, _, _, _, _, _, _, h1, h2⟩ := h
  have := rowOn_length h1
  rw [List.length_append] at this
  push_cast at this
  omega

theorem commonFits_read {k : Nat} {ls : List Str} {c : Common} {ign : List Str} (h : TopOn k ls c ign) :
    CommonFits c ↔ TextsSayable c := by
  unfold CommonFits TextsSayable
  have := topOn_dates h
  tauto

theorem varsFit_read {cd : Codec F} {ls : List Str} {v : VarHdr F} (h : VarsOn cd ls v) :
    VarsFit v ↔ NoSurplusV v := by
  obtain ⟨l, scal, miss, names, _, _, h1, h2, h3⟩ := h
  have h1 := listOn_count h1
  have h2 := listOn_count h2
  unfold VarsFit NoSurplusV
  have h3 := onLines_names h3
  unfold OnLine at *
  constructor
  · rintro ⟨a, b, _⟩; omega
  · rintro ⟨a, b⟩; exact ⟨by omega, by omega, h3⟩

theorem auxFits_read {cd : Codec F} {ls : List Str} {a : AuxHdr F} (h : AuxOn cd ls a) :
    AuxFits a ↔ NoSurplusA a := by
  obtain ⟨l, more, _, _, h⟩ := h
  unfold AuxFits NoSurplusA
  rcases h with ⟨hp, scal, miss, names, _, h1, h2, h3⟩ | ⟨hn, _⟩
  · have h1 := listOn_count h1
    have h2 := listOn_count h2
    have h3 := onLines_names h3
    unfold OnLine at *
    constructor
    · intro h _; obtain ⟨a, b, _⟩ := h hp; omega
    · intro h _; obtain ⟨a, b⟩ := h hp; exact ⟨by omega, by omega, h3⟩
  · constructor <;> intro _ h <;> omega

theorem comFits_read {ls : List Str} {c : ComHdr} (h : ComsOn ls c) : ComFits c := by
  obtain ⟨l1, sc, l2, nc, _, _, h1, h2, _, h3, h4⟩ := h
  unfold ComFits OnLines
  rw [← h2.length_eq, ← h4.length_eq, h1, h3]
  omega

theorem axesOn_count {cd : Codec F} {ns : List Int} {ls : List Str} {xs : List (List F)} (h : AxesOn cd ns ls xs) :
    xs.length = ns.length ∧ ∀ n ∈ ns, 0 < n := by
  induction ns generalizing ls xs with
  | nil => obtain ⟨_, rfl⟩ := h; simp
  | cons n ns ih =>
    obtain ⟨l1, l2, y, ys, _, rfl, h1, h2⟩ := h
    obtain ⟨a, b⟩ := ih h2
    have := listOn_count h1
    refine ⟨by simp [a], ?_⟩
    intro m hm
    rcases List.mem_cons.1 hm with rfl | hm
    · exact this.1
    · exact b m hm

theorem axesFit_read {n : Int} {nxdef : List Int} {xs : List (List F)} (hl : (nxdef.length : Int) = n)
    (hx : xs.length = nxdef.length) (hp : ∀ k ∈ nxdef, 0 < k) :
    AxesFit n nxdef xs ↔ List.Forall₂ (fun (k : Int) (x : List F) => k ≤ x.length) nxdef xs := by
  rw [List.forall₂_iff_get]
  unfold AxesFit
  constructor
  · intro h
    refine ⟨hx.symm, fun i h1 h2 => ?_⟩
    obtain ⟨k, x, hk, hx', hlen⟩ := h i (by omega)
    obtain ⟨_, rfl⟩ := List.getElem?_eq_some_iff.1 hk
    obtain ⟨_, rfl⟩ := List.getElem?_eq_some_iff.1 hx'
    have := hp nxdef[i] (List.getElem_mem _)
    unfold upTo at hlen
    rw [if_pos (by omega), List.length_take] at hlen
    simp only [List.get_eq_getElem]
    omega
  · rintro ⟨_, h⟩ i hi
    have h1 : i < nxdef.length := by omega
    have h2 : i < xs.length := by omega
    have h3 := h i h1 h2
    have := hp nxdef[i] (List.getElem_mem _)
    refine ⟨nxdef[i], xs[i], by simp [h1], by simp [h2], ?_⟩
    unfold upTo
    rw [if_pos (by omega), List.length_take]
    simp only [List.get_eq_getElem] at h3
    omega

theorem charAuxFits_read {cd : Codec F} {ls : List Str} {a : CharAuxHdr F} (h : CharAuxOn cd ls a) :
    CharAuxFits a ↔ (0 < a.NAUXV → a.ASCAL.length = a.NAUXV - a.NAUXC ∧ a.AMISS.length = a.NAUXV ∧
      a.LENA.length = a.NAUXV) := by
  obtain ⟨l1, l2, more, _, _, _, h⟩ := h
  unfold CharAuxFits
  rcases h with ⟨hp, scal, miss, lena, missc, names, nums, texts, lens, _, h1, h2, h3, h4, h5, h6, h7⟩ | ⟨hn, _⟩
  · have h1 := listOn_count h1
    have h2 := listOn_count h2
    have h3 := listOn_count h3
    have h4 := listOn_count h4
    have h7 := onLines_names h7
    have hu : ∀ {α : Type} (l : List α), a.NAUXV - a.NAUXC ≤ l.length →
        (upTo l (a.NAUXV - a.NAUXC)).length = (a.NAUXV - a.NAUXC).toNat := by
      intro α l hl
      unfold upTo
      rw [if_pos (by omega), List.length_take]; omega
    have hA : (a.AMISS.length : Int) = nums.length + texts.length := by rw [h5]; simp
    have hL : (a.LENA.length : Int) = (a.NAUXV - a.NAUXC).toNat + lens.length := by rw [h6]; simp
    have u1 := hu a.AMISS (by omega)
    have u2 := hu a.LENA (by omega)
    unfold OnLine OnLines at *
    unfold beyond
    rw [u1, u2, List.length_drop, List.length_drop]
    constructor
    · intro h _; obtain ⟨b1, b2, b3, b4, b5⟩ := h hp; omega
    · intro h _; obtain ⟨b1, b2, b3⟩ := h hp; exact ⟨by omega, by omega, by omega, by omega, h7⟩
  · constructor <;> intro _ h <;> omega

/-! ### the data -/

theorem columnsAt_rect {α : Type} {cols : List (List α)} {n : Int} {m k : Nat} (h : Rect cols n.toNat k) (hm : m < k) :
    ColumnsAt n cols m := by
  intro i hi
  have hl : i < cols.length := by have := h.1; omega
  refine ⟨cols[i], by simp [hl], ?_⟩
  rw [h.2 _ (List.getElem_mem _)]; exact hm

theorem numbersAt_shaped {ds : List Int} {t : Tree F} (hd : ds ≠ []) (h : Shaped (ds.map Int.toNat) t) :
    NumbersAt ds t := by
  induction ds generalizing t with
  | nil => exact absurd rfl hd
  | cons d ds ih =>
    cases ds with
    | nil =>
      cases t with
      | val x => exact absurd h (by simp [Shaped])
      | lst l =>
        simp only [List.map_cons, List.map_nil, Shaped] at h
        intro i hi
        have hl : i < l.length := by omega
        have := h.2 l[i] (List.getElem_mem _)
        cases hc : l[i] with
        | val x => exact ⟨x, by simp [hl, hc]⟩
        | lst l' => rw [hc] at this; exact absurd this (by simp [Shaped])
    | cons d2 ds =>
      cases t with
      | val x => exact absurd h (by simp [Shaped])
      | lst l =>
        rw [List.map_cons] at h
        simp only [Shaped] at h
        intro i hi
        have hl : i < l.length := by omega
        exact ⟨l[i], by simp [hl], ih (by simp) (h.2 l[i] (List.getElem_mem _))⟩

theorem raggedAt_shape {nv : Int} {NX : List Int} {V : List (List (List F))} {m : Nat} (hm : m < NX.length)
    (h1 : V.length = nv.toNat) (h2 : ∀ vn ∈ V, vn.map List.length = NX.map Int.toNat) : RaggedAt nv NX V m := by
  refine ⟨NX[m], by simp [hm], fun p hp i hi => ?_⟩
  have hl : i < V.length := by omega
  have h3 := h2 V[i] (List.getElem_mem _)
  have hlen : V[i].length = NX.length := by simpa using congrArg List.length h3
  have h4 : (V[i].map List.length)[m]? = (NX.map Int.toNat)[m]? := by rw [h3]
  refine ⟨V[i], V[i][m], by simp [hl], by simp [hlen, hm], ?_⟩
  have h5 : m < V[i].length := by omega
  rw [List.getElem?_map, List.getElem?_map, List.getElem?_eq_getElem h5, List.getElem?_eq_getElem hm] at h4
  simp at h4
  omega

theorem axisAt_shape {α : Type} {NX : List Int} {X : List (α × List F)} {m : Nat}
    (h : X.map (fun x => x.2.length) = NX.map Int.toNat) : AxisAt NX X m := by
  intro nx x h1 h2
  have h3 : (X.map (fun x => x.2.length))[m]? = (NX.map Int.toNat)[m]? := by rw [h]
  rw [List.getElem?_map, List.getElem?_map, h1, h2] at h3
  simp at h3
  omega

theorem columns_get {α : Type} {n : Nat} {rows : List (List α)} {a m : Nat} {row : List α} {x : α}
    (hr : ∀ r ∈ rows, n ≤ r.length) (ha : a < n) (hm : rows[m]? = some row) (hx : row[a]? = some x) :
    ∃ col, (columns n rows)[a]? = some col ∧ col[m]? = some x := by
  refine ⟨rows.filterMap (·[a]?), by simp [columns, ha], ?_⟩
  have key : ∀ (rows : List (List α)), (∀ r ∈ rows, n ≤ r.length) → ∀ m : Nat, (rows.filterMap (·[a]?))[m]? =
      rows[m]?.bind (fun r : List α => r[a]?) := by
    intro rows
    induction rows with
    | nil => intro _ m; simp
    | cons r rows ih =>
      intro h m
      have : a < r.length := by have := h r (by simp); omega
      rw [List.filterMap_cons, List.getElem?_eq_getElem this]
      cases m with
      | zero => simp [this]
      | succ m => simpa using ih (fun r' hr' => h r' (List.mem_cons_of_mem _ hr')) m
  rw [key rows hr, hm]
  exact hx

theorem marks_2160 {cd : Codec F} {text : Str} {r r' : NA2160 F} (h : readData2160 cd text r = .ok r')
    (hk : r.aux.NAUXV - r.aux.NAUXC ≤ 0) : r'.X = [] := by
  unfold readData2160 at h
  obtain ⟨a, h1, h⟩ := ok_of_bind h
  injection h with h
  subst h
  refine readDataWith_inv (I := fun st => st.X = []) ?_ h1 rfl
  intro st ls st' ls' _ hs
  unfold step2160 at hs
  obtain ⟨⟨st1, nx, x, ls1⟩, hd, hs⟩ := ok_of_bind hs
  unfold data1_2160 at hd
  obtain ⟨⟨x1, rest⟩, _, hd⟩ := ok_of_bind hd
  obtain ⟨x', _, hd⟩ := ok_of_bind hd
  obtain ⟨⟨aux, rest2⟩, hu, hd⟩ := ok_of_bind hd
  simp [readUnkList, readUnk, hk] at hu

theorem dataCounts_2160 {cd : Codec F} {text : Str} {r r' : NA2160 F} (hn : 0 < r.aux.NAUXC)
    (hk : r.aux.NAUXC < r.aux.NAUXV) (h : readData2160 cd text r = .ok r') : DataFilled (.o2160 r') := by
  have hs : DataShape (.o2160 r') := shape_2160 h
  obtain ⟨s1, s2, s3, s4⟩ := hs
  have h' : (Obj.o2160 r).readData cd text = .ok (.o2160 r') := by
    show (readData2160 cd text r >>= _) = _; rw [h]; rfl
  obtain ⟨used, _, recs, hb, he⟩ := (readData_on (o := .o2160 r) (o' := .o2160 r') (show 0 ≤ r.aux.NAUXC by omega)).1 h'
  have hlenX : r'.X.length = r'.NX.length := by simpa using congrArg List.length s2
  intro m hm
  have eaux : r'.aux = r.aux := by rw [he]
  have hrect := s1
  rw [eaux] at hrect
  refine ⟨?_, ?_, ?_, axisAt_shape s2⟩
  · intro a ha
    rw [eaux] at ha
    obtain ⟨Hs, _, hf⟩ := hb
    have hrows : ∀ p ∈ recs, r.aux.NAUXV - r.aux.NAUXC ≤ p.aux.length ∧ p.texts.length = r.aux.NAUXC.toNat := by
      intro p hp
      obtain ⟨H, _, H0, H1, T, H2, a0, _, _, h1, _, _, h2, h3, _⟩ := forall₂_mem_right hf hp
      exact ⟨(listOn_count h1).2, by rw [← h3.length_eq]; exact h2⟩
    have hml : m < recs.length := by rw [he] at hm; simpa using hm
    obtain ⟨hc1, hc2⟩ := hrows recs[m] (List.getElem_mem _)
    have hal : a < recs[m].aux.length := by omega
    obtain ⟨col, h1, h2⟩ := columns_get (n := r.aux.NAUXV.toNat) (rows := recs.map fun p =>
        (p.aux.take (r.aux.NAUXV - r.aux.NAUXC).toNat).map Cell.num ++ p.texts.map Cell.str) (a := a) (m := m)
        (row := (recs[m].aux.take (r.aux.NAUXV - r.aux.NAUXC).toNat).map Cell.num ++ recs[m].texts.map Cell.str)
        (x := .num recs[m].aux[a]) (by
          intro row hrow
          obtain ⟨p, hp, rfl⟩ := List.mem_map.1 hrow
          obtain ⟨b1, b2⟩ := hrows p hp
          simp; omega) (by omega) (by simp [hml]) (by
          rw [List.getElem?_append_left (by simp; omega)]
          simp [List.getElem?_take, hal]
          omega)
    refine ⟨col, recs[m].aux[a], ?_, h2⟩
    rw [he]; exact h1
  · intro a ha
    rw [eaux] at ha ⊢
    have hl : (r.aux.NAUXV - r.aux.NAUXC + a).toNat < r'.A.length := by have := hrect.1; omega
    refine ⟨r'.A[(r.aux.NAUXV - r.aux.NAUXC + a).toNat], ?_, ?_⟩
    · rw [if_pos (by omega)]; simp [hl]
    · rw [hrect.2 _ (List.getElem_mem _)]; exact hm
  · exact raggedAt_shape (by omega) s3 s4

/-- What `readFile` gives: the header as it lies in the file, and data of the shape the header says. -/
theorem readFile_facts {cd : Codec F} (hcd : ∀ x, cd.float [] ≠ .ok x) {k : Nat} {text : Str} {o : Obj F}
    (h : readFile cd k text = .ok o) : ∃ o1 H rest, BeginsWith (fileLines text) H rest ∧ HeaderOn cd k H o1 ∧
      o1.readData cd text = .ok o := by
  obtain ⟨o1, h1, h2⟩ := ok_of_bind h
  obtain ⟨H, rest, hb, hh⟩ := (openNA_iff hcd k text o1).1 h1
  exact ⟨o1, H, rest, hb, hh, h2⟩

theorem write_read_iff {env : Env F} {cd : Codec F} (hcd : ∀ x, cd.float [] ≠ .ok x) {k : Nat} {text : Str} {o : Obj F}
    (h : readFile cd k text = .ok o) : (o.write env false).2.err = none ↔ Restorable o := by
  rw [write_header_ok]
  obtain ⟨o1, H, rest, _, hh, hr⟩ := readFile_facts hcd h
  cases o1 with
  | o1001 r =>
    obtain ⟨r', h1, hr⟩ := ok_of_bind hr; injection hr with hr; subst hr
    have hs : DataShape (.o1001 r') := shape_1001 h1
    obtain ⟨a, h2, h1⟩ := ok_of_bind h1; injection h1 with h1; subst h1
    obtain ⟨hf, hn, _, _, ign, top, dx, xn, vs, cs, _, t, d, x, v, c⟩ := hh
    have hD : DataFilled (.o1001 { r with X := a.1, V := a.2 }) := fun m hm => columnsAt_rect hs hm
    have hdx := rowOn_length d
    have hxn := namesOn_length x
    refine ⟨fun ⟨⟨c1, _, _, v1, _⟩, _⟩ => ⟨(commonFits_read t).1 c1, (varsFit_read v).1 v1⟩,
      fun ⟨c1, v1⟩ => ⟨⟨(commonFits_read t).2 c1, ?_, ?_, (varsFit_read v).2 v1, comFits_read c⟩, hD⟩⟩
    · show OnLines r.NIV r.DX; unfold OnLines; omega
    · show OnLines r.NIV r.XNAME; unfold OnLines; omega
  | o1010 r =>
    obtain ⟨r', h1, hr⟩ := ok_of_bind hr; injection hr with hr; subst hr
    have hs : DataShape (.o1010 r') := shape_1010 h1
    obtain ⟨a, h2, h1⟩ := ok_of_bind h1; injection h1 with h1; subst h1
    obtain ⟨hf, hn, _, _, _, ign, top, dx, xn, vs, aux, cs, _, t, d, x, v, au, c⟩ := hh
    have hD : DataFilled (.o1010 { r with X := a.X, A := a.A, V := a.V }) :=
      fun m hm => ⟨columnsAt_rect hs.1 hm, columnsAt_rect hs.2 hm⟩
    have hdx := rowOn_length d
    have hxn := namesOn_length x
    refine ⟨fun ⟨⟨c1, _, _, v1, a1, _⟩, _⟩ => ⟨(commonFits_read t).1 c1, (varsFit_read v).1 v1, (auxFits_read au).1 a1⟩,
      fun ⟨c1, v1, a1⟩ => ⟨⟨(commonFits_read t).2 c1, ?_, ?_, (varsFit_read v).2 v1, (auxFits_read au).2 a1,
        comFits_read c⟩, hD⟩⟩
    · show OnLines r.NIV r.DX; unfold OnLines; omega
    · show OnLines r.NIV r.XNAME; unfold OnLines; omega
  | o1020 r =>
    obtain ⟨r', h1, hr⟩ := ok_of_bind hr; injection hr with hr; subst hr
    have hs : DataShape (.o1020 r') := shape_1020 h1
    obtain ⟨a, h2, h1⟩ := ok_of_bind h1; injection h1 with h1; subst h1
    obtain ⟨hf, hn, _, _, _, ign, top, dx, nvpm, xn, vs, aux, cs, _, t, d, _, x, v, au, c⟩ := hh
    have hD : DataFilled (.o1020 { r with X := a.X, A := a.A, V := a.V }) := by
      intro m hm
      refine ⟨columnsAt_rect hs.1 hm, fun p hp => columnsAt_rect hs.2 ?_⟩
      have h1 : m + 1 ≤ a.X.length := hm
      have h2 := Nat.mul_le_mul_right r.NVPM.toNat h1
      rw [Nat.add_mul, Nat.one_mul] at h2
      show m * r.NVPM.toNat + p < a.X.length * r.NVPM.toNat
      have hp : (p : Int) < r.NVPM := hp
      omega
    have hdx := rowOn_length d
    have hxn := namesOn_length x
    refine ⟨fun ⟨⟨c1, _, _, v1, a1, _⟩, _⟩ => ⟨(commonFits_read t).1 c1, (varsFit_read v).1 v1, (auxFits_read au).1 a1⟩,
      fun ⟨c1, v1, a1⟩ => ⟨⟨(commonFits_read t).2 c1, ?_, ?_, (varsFit_read v).2 v1, (auxFits_read au).2 a1,
        comFits_read c⟩, hD⟩⟩
    · show OnLines r.NIV r.DX; unfold OnLines; omega
    · show OnLines r.NIV r.XNAME; unfold OnLines; omega
  | o2010 r =>
    obtain ⟨r', h1, hr⟩ := ok_of_bind hr; injection hr with hr; subst hr
    obtain ⟨hf, hn, h0, _, _, ign, top, dx, nx, nxdef, axes, xn, vs, aux, cs, _, t, d, lnx, lnxdef, ax, x, v, au, c⟩ := hh
    have hs : DataShape (.o2010 r') := shape_2010 h0 h1
    obtain ⟨a, h2, h1⟩ := ok_of_bind h1; injection h1 with h1; subst h1
    have hniv : 2 ≤ r.NIV := by
      simp only [List.mem_cons, List.not_mem_nil, or_false] at hf
      omega
    have hdx := rowOn_length d
    have hnx := rowOn_length lnx
    have hnd := rowOn_length lnxdef
    have hxn := namesOn_length x
    rw [List.length_reverse] at hdx hnx hnd hxn
    have hne : r.NX ≠ [] := by
      intro e; rw [e] at hnx; simp at hnx; omega
    have hD : DataFilled (.o2010 { r with X0 := a.X0, A := a.A, V := a.V }) := by
      intro m hm
      refine ⟨columnsAt_rect hs.1 hm, fun i hi => ?_⟩
      have hr := hs.2.1
      have hl : i < a.V.length := by have := hr.1; have hi : (i : Int) < r.v.NV := hi; simp only at this; omega
      have hl2 : m < a.V[i].length := by rw [hr.2 _ (List.getElem_mem _)]; exact hm
      exact ⟨a.V[i], a.V[i][m], by simp [hl], by simp [hl2], numbersAt_shaped hne
        (hs.2.2 _ (List.getElem_mem _) _ (List.getElem_mem _))⟩
    obtain ⟨hxl, hpos⟩ := axesOn_count ax
    rw [List.length_reverse] at hxl
    have hax := axesFit_read hnd hxl hpos
    refine ⟨fun ⟨⟨c1, _, _, _, x1, _, v1, a1, _⟩, _⟩ =>
        ⟨(commonFits_read t).1 c1, (varsFit_read v).1 v1, (auxFits_read au).1 a1, hax.1 x1⟩,
      fun ⟨c1, v1, a1, x1⟩ => ⟨⟨(commonFits_read t).2 c1, ?_, ?_, ?_, hax.2 x1, ?_, (varsFit_read v).2 v1,
        (auxFits_read au).2 a1, comFits_read c⟩, hD⟩⟩
    · show OnLine r.NIV r.DX; unfold OnLine; omega
    · show OnLine (r.NIV - 1) r.NX; unfold OnLine; omega
    · show OnLine (r.NIV - 1) r.NXDEF; unfold OnLine; omega
    · show OnLines r.NIV r.XNAME; unfold OnLines; omega
  | o2110 r =>
    obtain ⟨r', h1, hr⟩ := ok_of_bind hr; injection hr with hr; subst hr
    have hs : DataShape (.o2110 r') := shape_2110 h1
    have hsame : SameHeader (.o2110 r) (.o2110 r') := by
      obtain ⟨a, h2, h1⟩ := ok_of_bind h1; injection h1 with h1; subst h1
      simp only [SameHeader, dx_2110 h2]
    obtain ⟨hf, hn, _, _, _, _, ign, top, dx, xn, vs, aux, cs, _, t, d, x, v, au, c⟩ := hh
    have hlen : r'.X.length = r'.NX.length := by simpa using congrArg List.length hs.2.1
    have hD : DataFilled (.o2110 r') := fun m hm => ⟨columnsAt_rect hs.1 hm,
      raggedAt_shape (by omega) hs.2.2.1 hs.2.2.2, axisAt_shape hs.2.1⟩
    have hdx := rowOn_length d
    have hxn := namesOn_length x
    rw [List.length_reverse] at hdx hxn
    have e1 : r'.c = r.c := by rw [hsame]
    have e2 : r'.v = r.v := by rw [hsame]
    have e3 : r'.aux = r.aux := by rw [hsame]
    have e4 : r'.com = r.com := by rw [hsame]
    have e5 : r'.NIV = r.NIV := by rw [hsame]
    have e6 : r'.DX = r.DX := by rw [hsame]
    have e7 : r'.XNAME = r.XNAME := by rw [hsame]
    simp only [HeaderFilled, Restorable, e1, e2, e3, e4, e5, e6, e7]
    refine ⟨fun ⟨⟨c1, _, _, v1, a1, _⟩, _⟩ => ⟨(commonFits_read t).1 c1, (varsFit_read v).1 v1, (auxFits_read au).1 a1⟩,
      fun ⟨c1, v1, a1⟩ => ⟨⟨(commonFits_read t).2 c1, ?_, ?_, (varsFit_read v).2 v1, (auxFits_read au).2 a1,
        comFits_read c⟩, hD⟩⟩
    · unfold OnLine; omega
    · unfold OnLines; omega
  | o2160 r =>
    obtain ⟨r', h1, hr⟩ := ok_of_bind hr; injection hr with hr; subst hr
    have hs : DataShape (.o2160 r') := shape_2160 h1
    obtain ⟨hf, hn, _, _, _, _, top, dx, lenx, s, xn, vs, aux, cs, _, t, d, _, _, x, v, au, c⟩ := hh
    have hmarks := marks_2160 h1
    have hcnt := fun hn hk => dataCounts_2160 (cd := cd) (text := text) (r := r) (r' := r') hn hk h1
    have hsame : SameHeader (.o2160 r) (.o2160 r') := by
      obtain ⟨a, h2, h1⟩ := ok_of_bind h1; injection h1 with h1; subst h1; rfl
    have hdx := rowOn_length d
    have hxn := namesOn_length x
    rw [List.length_reverse] at hxn
    have e1 : r'.c = r.c := by rw [hsame]
    have e2 : r'.v = r.v := by rw [hsame]
    have e3 : r'.aux = r.aux := by rw [hsame]
    have e4 : r'.com = r.com := by rw [hsame]
    have e5 : r'.NIV = r.NIV := by rw [hsame]
    have e6 : r'.DX = r.DX := by rw [hsame]
    have e7 : r'.XNAME = r.XNAME := by rw [hsame]
    simp only [HeaderFilled, Restorable, e1, e2, e3, e4, e5, e6, e7]
    have hlo : 0 < r.aux.NAUXV → 0 < r.aux.NAUXC ∧ r.aux.NAUXC < r.aux.NAUXV := by
      intro hp
      obtain ⟨_, _, _, _, _, _, h | h⟩ := au
      · obtain ⟨_, _, _, _, _, _, _, _, _, _, g1, _, g3, _⟩ := h
        have g1 := listOn_count g1
        have g3 := listOn_count g3
        omega
      · omega
    refine ⟨fun ⟨⟨c1, _, _, v1, a1, _⟩, hd⟩ => ⟨(commonFits_read t).1 c1, (varsFit_read v).1 v1,
        (charAuxFits_read au).1 a1, ?_⟩,
      fun ⟨c1, v1, a1, x1⟩ => ⟨⟨(commonFits_read t).2 c1, ?_, ?_, (varsFit_read v).2 v1, (charAuxFits_read au).2 a1,
        comFits_read c⟩, ?_⟩⟩
    · intro hneg
      by_cases hk : r.aux.NAUXV - r.aux.NAUXC ≤ 0
      · exact hmarks hk
      · by_contra hx
        have hpos : 0 < r'.X.length := List.length_pos_iff.2 hx
        obtain ⟨col, y, h2, _⟩ := (hd 0 hpos).1 0 (by rw [e3]; omega)
        have := (List.getElem?_eq_some_iff.1 h2).1
        have hl := hs.1.1
        rw [e3] at hl
        omega
    · omega
    · unfold OnLines; omega
    · by_cases hp : 0 < r.aux.NAUXV
      · exact hcnt (hlo hp).1 (hlo hp).2
      · have := x1 (by omega)
        intro m hm
        rw [this] at hm
        exact absurd hm (by simp)
  | o2310 r =>
    obtain ⟨r', h1, hr⟩ := ok_of_bind hr; injection hr with hr; subst hr
    have hs : DataShape (.o2310 r') := shape_2310 h1
    have h' : (Obj.o2310 r).readData cd text = .ok (.o2310 r') := by
      show (readData2310 cd text r >>= _) = _; rw [h1]; rfl
    obtain ⟨used, _, recs, _, he⟩ := (readData_on (o := .o2310 r) (o' := .o2310 r') trivial).1 h'
    obtain ⟨hf, hn, _, _, _, _, ign, top, dx, xn, vs, aux, cs, _, t, d, x, v, au, c⟩ := hh
    have hlen : r'.X.length = r'.NX.length := by simpa using congrArg List.length hs.2.1
    have hD : DataFilled (.o2310 r') := fun m hm => ⟨columnsAt_rect hs.1 hm,
      raggedAt_shape (by omega) hs.2.2.1 hs.2.2.2⟩
    have hdx := rowOn_length d
    have hxn := namesOn_length x
    rw [List.length_reverse] at hxn
    have e1 : r'.c = r.c := by rw [he]
    have e2 : r'.v = r.v := by rw [he]
    have e3 : r'.aux = r.aux := by rw [he]
    have e4 : r'.com = r.com := by rw [he]
    have e5 : r'.NIV = r.NIV := by rw [he]
    have e7 : r'.XNAME = r.XNAME := by rw [he]
    have e6 : r.DX.length ≤ r'.DX.length := by rw [he]; simp
    simp only [HeaderFilled, Restorable, e1, e2, e3, e4, e5, e7]
    refine ⟨fun ⟨⟨c1, _, _, v1, a1, _⟩, _⟩ => ⟨(commonFits_read t).1 c1, (varsFit_read v).1 v1, (auxFits_read au).1 a1⟩,
      fun ⟨c1, v1, a1⟩ => ⟨⟨(commonFits_read t).2 c1, ?_, ?_, (varsFit_read v).2 v1, (auxFits_read au).2 a1,
        comFits_read c⟩, hD⟩⟩
    · omega
    · unfold OnLines; omega

/-- The data of a file that was read are what the counts of the header say, except for 2160 without auxiliary
variables. -/
theorem dataFilled_read {cd : Codec F} (hcd : ∀ x, cd.float [] ≠ .ok x) {k : Nat} {text : Str} {o : Obj F}
    (h : readFile cd k text = .ok o) : DataFilled o ↔ ∀ r, o = .o2160 r → r.aux.NAUXV ≤ 0 → r.X = [] := by
  obtain ⟨o1, H, rest, _, hh, hr⟩ := readFile_facts hcd h
  cases o1 with
  | o1001 r =>
    obtain ⟨r', h1, hr⟩ := ok_of_bind hr; injection hr with hr; subst hr
    have hs : DataShape (.o1001 r') := shape_1001 h1
    exact ⟨fun _ r e => (by cases e), fun _ m hm => columnsAt_rect hs hm⟩
  | o1010 r =>
    obtain ⟨r', h1, hr⟩ := ok_of_bind hr; injection hr with hr; subst hr
    have hs : DataShape (.o1010 r') := shape_1010 h1
    exact ⟨fun _ r e => (by cases e), fun _ m hm => ⟨columnsAt_rect hs.1 hm, columnsAt_rect hs.2 hm⟩⟩
  | o1020 r =>
    obtain ⟨r', h1, hr⟩ := ok_of_bind hr; injection hr with hr; subst hr
    have hs : DataShape (.o1020 r') := shape_1020 h1
    refine ⟨fun _ r e => (by cases e), fun _ m hm => ⟨columnsAt_rect hs.1 hm, fun p hp => columnsAt_rect hs.2 ?_⟩⟩
    have h1 : m + 1 ≤ r'.X.length := hm
    have h2 := Nat.mul_le_mul_right r'.NVPM.toNat h1
    rw [Nat.add_mul, Nat.one_mul] at h2
    omega
  | o2010 r =>
    obtain ⟨r', h1, hr⟩ := ok_of_bind hr; injection hr with hr; subst hr
    obtain ⟨hf, hn, h0, _, _, ign, top, dx, nx, nxdef, axes, xn, vs, aux, cs, _, t, d, lnx, lnxdef, ax, x, v, au, c⟩ := hh
    have hs : DataShape (.o2010 r') := shape_2010 h0 h1
    obtain ⟨a, h2, h1⟩ := ok_of_bind h1; injection h1 with h1; subst h1
    have hniv : 2 ≤ r.NIV := by
      simp only [List.mem_cons, List.not_mem_nil, or_false] at hf
      omega
    have hnx := rowOn_length lnx
    rw [List.length_reverse] at hnx
    have hne : r.NX ≠ [] := by
      intro e; rw [e] at hnx; simp at hnx; omega
    refine ⟨fun _ r e => (by cases e), fun _ m hm => ⟨columnsAt_rect hs.1 hm, fun i hi => ?_⟩⟩
    have hr := hs.2.1
    have hl : i < a.V.length := by have := hr.1; have hi : (i : Int) < r.v.NV := hi; simp only at this; omega
    have hl2 : m < a.V[i].length := by rw [hr.2 _ (List.getElem_mem _)]; exact hm
    exact ⟨a.V[i], a.V[i][m], by simp [hl], by simp [hl2], numbersAt_shaped hne
      (hs.2.2 _ (List.getElem_mem _) _ (List.getElem_mem _))⟩
  | o2110 r =>
    obtain ⟨r', h1, hr⟩ := ok_of_bind hr; injection hr with hr; subst hr
    have hs : DataShape (.o2110 r') := shape_2110 h1
    have hlen : r'.X.length = r'.NX.length := by simpa using congrArg List.length hs.2.1
    exact ⟨fun _ r e => (by cases e), fun _ m hm => ⟨columnsAt_rect hs.1 hm,
      raggedAt_shape (by omega) hs.2.2.1 hs.2.2.2, axisAt_shape hs.2.1⟩⟩
  | o2160 r =>
    obtain ⟨r', h1, hr⟩ := ok_of_bind hr; injection hr with hr; subst hr
    have hs : DataShape (.o2160 r') := shape_2160 h1
    obtain ⟨hf, hn, _, _, _, _, top, dx, lenx, s, xn, vs, aux, cs, _, t, d, _, _, x, v, au, c⟩ := hh
    have hmarks := marks_2160 h1
    have hcnt := fun hn hk => dataCounts_2160 (cd := cd) (text := text) (r := r) (r' := r') hn hk h1
    have hsame : SameHeader (.o2160 r) (.o2160 r') := by
      obtain ⟨a, h2, h1⟩ := ok_of_bind h1; injection h1 with h1; subst h1; rfl
    have e3 : r'.aux = r.aux := by rw [hsame]
    have hlo : 0 < r.aux.NAUXV → 0 < r.aux.NAUXC ∧ r.aux.NAUXC < r.aux.NAUXV := by
      intro hp
      obtain ⟨_, _, _, _, _, _, h | h⟩ := au
      · obtain ⟨_, _, _, _, _, _, _, _, _, _, g1, _, g3, _⟩ := h
        have g1 := listOn_count g1
        have g3 := listOn_count g3
        omega
      · omega
    constructor
    · intro hd r2 e hneg
      injection e with e; subst e
      rw [e3] at hneg
      by_cases hk : r.aux.NAUXV - r.aux.NAUXC ≤ 0
      · exact hmarks hk
      · by_contra hx
        have hpos : 0 < r'.X.length := List.length_pos_iff.2 hx
        obtain ⟨col, y, h2, _⟩ := (hd 0 hpos).1 0 (by rw [e3]; omega)
        have := (List.getElem?_eq_some_iff.1 h2).1
        have hl := hs.1.1
        rw [e3] at hl
        omega
    · intro hx
      by_cases hp : 0 < r.aux.NAUXV
      · exact hcnt (hlo hp).1 (hlo hp).2
      · have := hx r' rfl (by rw [e3]; omega)
        intro m hm
        rw [this] at hm
        exact absurd hm (by simp)
  | o2310 r =>
    obtain ⟨r', h1, hr⟩ := ok_of_bind hr; injection hr with hr; subst hr
    have hs : DataShape (.o2310 r') := shape_2310 h1
    have hlen : r'.X.length = r'.NX.length := by simpa using congrArg List.length hs.2.1
    exact ⟨fun _ r e => (by cases e), fun _ m hm => ⟨columnsAt_rect hs.1 hm,
      raggedAt_shape (by omega) hs.2.2.1 hs.2.2.2⟩⟩

end Nappy
