import Verif.ExchangeLemmas
import Verif.Props.Records

/-! Properties C86 and C87: editing a header by hand. -/

namespace Nappy.Props

open Nappy Spec

variable {F : Type}

/-! ### C86 -/

/-- C86. The header of a file that can be opened consists of five parts: the first lines, the lines up to the names of
the independent variables, the main variables, the auxiliary variables and the comments. Each of them but the second can
be exchanged for any other lines in the layout of this part, with as many variables or comments as one likes, as long
as the format is the same. The file can still be opened, and the object differs in just these parts. -/
theorem C86_parts (cd : Codec F) (hcd : ∀ x, cd.float [] ≠ .ok x) (k : Nat) (text : Str) (o : Obj F)
    (h : openNA cd k text = .ok o) : ∃ top mid vs aux cs ign rest,
      BeginsWith (fileLines text) (top ++ (mid ++ (vs ++ (aux ++ cs)))) rest ∧ TopOn k top o.common ign ∧
      MidOn cd o.common.FFI mid ∧ VarsOn cd vs (varPart o) ∧ AuxPartOn cd aux (auxPart o) ∧ ComsOn cs (comPart o) ∧
      ∀ k' top' c' ign' vs' v' aux' a' cs' com' text' rest', TopOn k' top' c' ign' → c'.FFI = o.common.FFI →
        VarsOn cd vs' v' → AuxPartOn cd aux' a' → SameKind (auxPart o) a' → ComsOn cs' com' →
        fileLines text' = top' ++ (mid ++ (vs' ++ (aux' ++ cs'))) ++ rest' →
        openNA cd k' text' = .ok (setTop (setVars (setAux (setComs o com') a') v') c' ign') := by
  obtain ⟨H, rest, hb, hh⟩ := (openNA_iff hcd k text o).1 h
  obtain ⟨top, mid, vs, aux, cs, ign, rfl, h1, h2, h3, h4, h5, _, h6⟩ := headerOn_parts hh
  refine ⟨top, mid, vs, aux, cs, ign, rest, hb, h1, h2, h3, h4, h5, ?_⟩
  intro k' top' c' ign' vs' v' aux' a' cs' com' text' rest' g1 g2 g3 g4 g5 g6 g7
  exact (openNA_iff hcd k' text' _).2 ⟨_, rest', .inl g7, h6 k' top' c' ign' vs' v' aux' a' cs' com' g1 g2 g3 g4 g5 g6⟩

/-- C86 for the comments: other comments change nothing but the comments. -/
theorem C86_comments (cd : Codec F) (hcd : ∀ x, cd.float [] ≠ .ok x) (k : Nat) (text : Str) (o : Obj F)
    (h : openNA cd k text = .ok o) : ∃ H cs rest, BeginsWith (fileLines text) (H ++ cs) rest ∧ ComsOn cs (comPart o) ∧
      ∀ cs' com' text' rest', ComsOn cs' com' → fileLines text' = H ++ cs' ++ rest' →
        openNA cd k text' = .ok (setComs o com') := by
  obtain ⟨H, rest, hb, hh⟩ := (openNA_iff hcd k text o).1 h
  obtain ⟨top, mid, vs, aux, cs, ign, rfl, h1, h2, h3, h4, h5, hi, h6⟩ := headerOn_parts hh
  refine ⟨top ++ (mid ++ (vs ++ aux)), cs, rest, by simpa using hb, h5, ?_⟩
  intro cs' com' text' rest' g1 g2
  have e : setTop (setVars (setAux (setComs o com') (auxPart o)) (varPart o)) o.common ign = setComs o com' := by
    cases o with
    | o2160 r => rw [← hi r rfl]; rfl
    | _ => rfl
  rw [← e]
  exact (openNA_iff hcd k text' _).2 ⟨_, rest', .inl (by rw [g2]; simp),
    h6 k top o.common ign vs (varPart o) aux (auxPart o) cs' com' h1 rfl h3 h4 (sameKind_refl _) g1⟩

/-- The file of the examples, with two comments. -/
def exCommented : Str :=
  asLines (["17 1001", "Lee", "RAL", "GPS", "M", "1 1", "2000 1 1 2000 1 2", "0", "Time", "1", "1", "99", "Ozone", "0", "2",
    "first", "second", "1 2", "3 4"].map String.toList)

/-- What is read from it. -/
def exRecCommented : NA1001 Int :=
  { exRec with
    c := { exRec.c with NLHEAD := 17 }, v := { exRec.v with VNAME := ["Ozone".toList] },
    com := { NSCOML := 0, SCOM := [], NNCOML := 2, NCOM := ["first".toList, "second".toList] } }

/-- The hypothesis of C86 is met; and with another name and other comments the object has these and nothing else is
changed. -/
example : openNA intCodec 0 (exFile ["1 2"]) = .ok (.o1001 exRec) ∧
    (match openNA intCodec 0 exCommented with
      | .ok (.o1001 r) => decide (r = exRecCommented)
      | _ => false) = true :=
  ⟨(C80_exact_partial intCodec intCodec_empty 0 _ _).2
    ⟨_, ["1 2\n".toList], .inl (by decide +kernel), exHeader_layout⟩, by decide +kernel⟩

/-! ### C87 -/

/-- C87. The data that are read depend only on the lines of the data and on the numbers of variables and values the
header gives: an object with the same numbers gets the same data from the same lines, whatever else is in its header
(names, units, scale factors, missing values, dates, comments). -/
theorem C87_data (cd : Codec F) (o od o' : Obj F) (hc : CharCount o) (text text' : Str) (hs : SameShape o o')
    (hd : dataLines text' o' = dataLines text o) (h : o.readData cd text = .ok od) :
    o'.readData cd text' = .ok (withData o od o') := by
  obtain ⟨used, h1, h2⟩ := (readData_on hc).1 h
  have hc' : CharCount o' := by
    cases o <;> cases o' <;> first | exact hs.elim | trivial | skip
    simp only [SameShape] at hs
    simp only [CharCount] at hc ⊢
    omega
  exact (readData_on hc').2 ⟨used, by rw [hd]; exact h1, dataOn_moved hs h2⟩

/-- The hypotheses of `C87_data` are met, for a file with another name and other comments. -/
example : (Obj.o1001 exRecCommented).readData intCodec exCommented
    = .ok (.o1001 { exRecCommented with X := [1, 3], V := [[2, 4]] }) :=
  C87_data intCodec (.o1001 exRec) (.o1001 { exRec with X := [1, 3], V := [[2, 4]] }) _ trivial (exFile ["1 2", "3 4"]) _
    rfl (by decide +kernel) (by
      show (readData1001 intCodec (exFile ["1 2", "3 4"]) exRec >>= fun r => .ok (Obj.o1001 r)) = _
      rw [show readData1001 intCodec (exFile ["1 2", "3 4"]) exRec = .ok { exRec with X := [1, 3], V := [[2, 4]] } by
        decide +kernel]
      rfl)

/-- C87 for whole files: if the header of a file is replaced by another one with the same numbers of variables and
values, and both say how many lines they have, the data are the same. -/
theorem C87_files (cd : Codec F) (hcd : ∀ x, cd.float [] ≠ .ok x) (k k' : Nat) (text text' : Str) (H H' rest : List Str)
    (o o' od : Obj F) (hc : CharCount o) (hs : SameShape o o') (ht : fileLines text = H ++ rest)
    (ht' : fileLines text' = H' ++ rest) (hh : HeaderOn cd k H o) (hh' : HeaderOn cd k' H' o')
    (hn : o.common.NLHEAD = H.length) (hn' : o'.common.NLHEAD = H'.length) (h : readFile cd k text = .ok od) :
    readFile cd k' text' = .ok (withData o od o') := by
  have hl : ∀ {text : Str} {H : List Str} {o : Obj F}, fileLines text = H ++ rest → o.common.NLHEAD = H.length →
      dataLines text o = rest := by
    intro text H o e hn
    unfold dataLines sliceFrom
    rw [e, hn, if_pos (by omega), Int.toNat_natCast, List.drop_left]
  unfold readFile at h ⊢
  rw [(openNA_iff hcd k text o).2 ⟨H, rest, .inl ht, hh⟩] at h
  exact bind_ok ((openNA_iff hcd k' text' o').2 ⟨H', rest, .inl ht', hh'⟩)
    (C87_data cd o od o' hc text text' hs (by rw [hl ht hn, hl ht' hn']) h)

/-- The lines of the header with the comments. -/
def exHeaderCommented : List Str :=
  ["17 1001", "Lee", "RAL", "GPS", "M", "1 1", "2000 1 1 2000 1 2", "0", "Time", "1", "1", "99", "Ozone", "0", "2", "first",
    "second"].map String.toList

theorem exHeaderCommented_layout :
    HeaderOn intCodec 0 (exHeaderCommented.map (fun l => l ++ ['\n'])) (.o1001 exRecCommented) := by
  have item : ∀ {l s : Str}, s = readItem l → ItemOn l s := fun h => (itemOn_iff _ _).2 h
  have row : ∀ {l : Str} {xs : List Int} {n : Int}, n ≠ 0 → readItemsFromLine l n pyInt = .ok xs → RowOn pyInt n l xs :=
    fun hn h => (rowOn_iff pyInt_nil hn _ _).2 h
  have int : ∀ {l : Str} {i : Int}, readItemInt l = .ok i → IntOn l i := fun h => (intOn_iff _ _).2 h
  have list1 : ∀ {l : Str} {xs : List Int}, (lineItems l).length = 1 → mapRes intCodec.float (lineItems l) = .ok xs →
      ListOn intCodec.float 1 [l] xs := fun {l} _ h1 h2 =>
    (listOn_iff _ _ _ _).2 ⟨[], l, rfl, by decide, by simp [allItems, h1], by rw [h1]; decide, by simpa [allItems]⟩
  refine ⟨rfl, rfl, rfl, rfl, [], (exHeaderCommented.map (fun l => l ++ ['\n'])).take 7, "0\n".toList, ["Time\n".toList],
    ["1\n", "1\n", "99\n", "Ozone\n"].map String.toList, ["0\n", "2\n", "first\n", "second\n"].map String.toList,
    by decide +kernel, ?_, (rowOn_iff intCodec_empty (by decide) _ _).2 (by decide +kernel), ?_, ?_, ?_⟩
  · exact ⟨[], _, _, _, _, _, _, _, 17, rfl, rfl, .nil, row (by decide) (by decide +kernel), rfl,
      item (by decide +kernel), item (by decide +kernel), item (by decide +kernel), item (by decide +kernel),
      row (by decide) (by decide +kernel), row (by decide) (by decide +kernel), rfl⟩
  · exact (namesOn_iff _ _ _).2 (by decide +kernel)
  · exact ⟨_, ["1\n".toList], ["99\n".toList], ["Ozone\n".toList], rfl, int (by decide +kernel),
      list1 (by decide +kernel) (by decide +kernel), list1 (by decide +kernel) (by decide +kernel),
      (namesOn_iff _ _ _).2 (by decide +kernel)⟩
  · exact ⟨_, [], _, ["first\n".toList, "second\n".toList], rfl, int (by decide +kernel), rfl, .nil,
      int (by decide +kernel), rfl, (stripped_all _ _).2 (by decide +kernel)⟩

/-- The hypotheses of `C87_files` are met. -/
example : readFile intCodec 0 exCommented = .ok (.o1001 { exRecCommented with X := [1, 3], V := [[2, 4]] }) := by
  have h : readFile intCodec 0 (exFile ["1 2", "3 4"]) = .ok (.o1001 { exRec with X := [1, 3], V := [[2, 4]] }) := by
    refine bind_ok ((C80_exact_partial intCodec intCodec_empty 0 _ (.o1001 exRec)).2
      ⟨_, ["1 2\n".toList, "3 4\n".toList], .inl (by decide +kernel), exHeader_layout⟩) ?_
    show (readData1001 intCodec (exFile ["1 2", "3 4"]) exRec >>= fun r => .ok (Obj.o1001 r)) = _
    rw [show readData1001 intCodec (exFile ["1 2", "3 4"]) exRec = .ok { exRec with X := [1, 3], V := [[2, 4]] } by
      decide +kernel]
    rfl
  exact C87_files intCodec intCodec_empty 0 0 _ _ _ _ ["1 2\n".toList, "3 4\n".toList] (.o1001 exRec)
    (.o1001 exRecCommented) _ trivial rfl (by decide +kernel) (by decide +kernel) exHeader_layout exHeaderCommented_layout
    (by decide +kernel) (by decide +kernel) h

end Nappy.Props
