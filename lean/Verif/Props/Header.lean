import Verif.HeaderIff
import Verif.Props.Read

/-! Properties C80-C82: which texts are headers, and where the data begin. -/

namespace Nappy.Props

open Nappy Spec

variable {F : Type}

/-! ### C80 -/

/-- C80, what does hold. A text can be opened exactly if it begins with a header in the layout of one of the formats,
and the object then holds what is on the lines of this header. The hypothesis says that `float("")` raises.

What is missing: a text that ends too early counts as one with empty lines at its end (`C80_short_fails`), surplus
values may stand at the end of a list (see C03), and the axes of 3010 and 4010 are expected in another order than
theirs (see C09). All of this is part of the layout as `HeaderOn` and `BeginsWith` describe it. -/
theorem C80_exact_partial (cd : Codec F) (hcd : ∀ x, cd.float [] ≠ .ok x) (k : Nat) (text : Str) (o : Obj F) :
    openNA cd k text = .ok o ↔ ∃ H rest, BeginsWith (fileLines text) H rest ∧ HeaderOn cd k H o :=
  openNA_iff hcd k text o

/-- C80 as one would expect it is false: a file that promises two comments and ends is opened, and has two empty
comments. -/
theorem C80_short_fails :
    let text := asLines (["17 1001", "Lee", "RAL", "GPS", "M", "1 1", "2000 1 1 2000 1 2", "0", "Time", "1", "1", "99",
      "O3", "0", "2"].map String.toList)
    (match openNA intCodec 0 text with
      | .ok (.o1001 r) => decide (r = { exRec with
          c := { exRec.c with NLHEAD := 17 }, com := { exRec.com with NNCOML := 2, NCOM := [[], []] } })
      | _ => false) = true := by
  decide +kernel

theorem intCodec_empty (x : Int) : intCodec.float [] ≠ .ok x := by
  have : intCodec.float [] = .error .value := by decide
  rw [this]; exact fun h => by cases h

/-- The lines of the header of `exFile`. -/
def exHeader : List Str :=
  ["15 1001", "Lee", "RAL", "GPS", "M", "1 1", "2000 1 1 2000 1 2", "0", "Time", "1", "1", "99", "O3", "0", "0"].map
    String.toList

theorem exHeader_layout : HeaderOn intCodec 0 (exHeader.map (fun l => l ++ ['\n'])) (.o1001 exRec) := by
  have item : ∀ {l s : Str}, s = readItem l → ItemOn l s := fun h => (itemOn_iff _ _).2 h
  have row : ∀ {l : Str} {xs : List Int} {n : Int}, n ≠ 0 → readItemsFromLine l n pyInt = .ok xs → RowOn pyInt n l xs :=
    fun hn h => (rowOn_iff pyInt_nil hn _ _).2 h
  have int : ∀ {l : Str} {i : Int}, readItemInt l = .ok i → IntOn l i := fun h => (intOn_iff _ _).2 h
  have list1 : ∀ {l : Str} {xs : List Int}, (lineItems l).length = 1 → mapRes intCodec.float (lineItems l) = .ok xs →
      ListOn intCodec.float 1 [l] xs := fun {l} _ h1 h2 =>
    (listOn_iff _ _ _ _).2 ⟨[], l, rfl, by decide, by simp [allItems, h1], by rw [h1]; decide, by simpa [allItems]⟩
  refine ⟨rfl, rfl, rfl, rfl, [], (exHeader.map (fun l => l ++ ['\n'])).take 7, "0\n".toList, ["Time\n".toList],
    ["1\n", "1\n", "99\n", "O3\n"].map String.toList, ["0\n", "0\n"].map String.toList, by decide +kernel, ?_,
    (rowOn_iff intCodec_empty (by decide) _ _).2 (by decide +kernel), ?_, ?_, ?_⟩
  · exact ⟨[], _, _, _, _, _, _, _, 15, rfl, rfl, .nil, row (by decide) (by decide +kernel), rfl,
      item (by decide +kernel), item (by decide +kernel), item (by decide +kernel), item (by decide +kernel),
      row (by decide) (by decide +kernel), row (by decide) (by decide +kernel), rfl⟩
  · exact (namesOn_iff _ _ _).2 (by decide +kernel)
  · exact ⟨_, ["1\n".toList], ["99\n".toList], ["O3\n".toList], rfl, int (by decide +kernel),
      list1 (by decide +kernel) (by decide +kernel), list1 (by decide +kernel) (by decide +kernel),
      (namesOn_iff _ _ _).2 (by decide +kernel)⟩
  · exact ⟨_, [], _, [], rfl, int (by decide +kernel), rfl, .nil, int (by decide +kernel), rfl, .nil⟩

/-- Both sides of `C80_exact_partial` hold for a file of format 1001. -/
example : (∃ H rest, BeginsWith (fileLines (exFile ["1 2"])) H rest ∧ HeaderOn intCodec 0 H (.o1001 exRec)) ∧
    openNA intCodec 0 (exFile ["1 2"]) = .ok (.o1001 exRec) := by
  have h : ∃ H rest, BeginsWith (fileLines (exFile ["1 2"])) H rest ∧ HeaderOn intCodec 0 H (.o1001 exRec) :=
    ⟨_, ["1 2\n".toList], .inl (by decide +kernel), exHeader_layout⟩
  exact ⟨h, (C80_exact_partial intCodec intCodec_empty 0 _ _).2 h⟩

/-! ### C81 -/

/-- C81. What opening a file gives is determined by its header: if the header is followed by other data, or by none, or
by anything else, opening gives the same object. -/
theorem C81_header_only (cd : Codec F) (hcd : ∀ x, cd.float [] ≠ .ok x) (k : Nat) (text : Str) (o : Obj F)
    (h : openNA cd k text = .ok o) : ∃ H rest, BeginsWith (fileLines text) H rest ∧ HeaderOn cd k H o ∧
      ∀ text' rest', fileLines text' = H ++ rest' → openNA cd k text' = .ok o := by
  obtain ⟨H, rest, hb, hh⟩ := (openNA_iff hcd k text o).1 h
  exact ⟨H, rest, hb, hh, fun text' rest' he => (openNA_iff hcd k text' o).2 ⟨H, rest', .inl he, hh⟩⟩

/-- C81, for lines: header lines followed by any text at all. -/
theorem C81_any_data (cd : Codec F) (hcd : ∀ x, cd.float [] ≠ .ok x) (k : Nat) (H : List Str)
    (hH : ∀ l ∈ H, NoBreak l) (o : Obj F) (h : HeaderOn cd k (H.map (fun l => l ++ ['\n'])) o) (data : Str) :
    openNA cd k (asLines H ++ data) = .ok o :=
  (openNA_iff hcd k _ o).2 ⟨_, _, .inl (fileLines_front hH data), h⟩

/-- The hypotheses of `C81_any_data` are met, and the data may be anything. -/
example : openNA intCodec 0 (asLines exHeader ++ "no data".toList) = .ok (.o1001 exRec) :=
  C81_any_data intCodec intCodec_empty 0 exHeader (by decide +kernel) _ exHeader_layout _

/-! ### C82 -/

/-- C82, in part. The data lines are the lines after the header exactly if NLHEAD is the number of header lines, or if it
is negative and counts the data lines. What is missing: the number is not compared with the header, see `C82_fails`. -/
theorem C82_exact_partial (cd : Codec F) (k : Nat) (text : Str) (o : Obj F) (H rest : List Str) (hr : rest ≠ [])
    (hb : fileLines text = H ++ rest) (hh : HeaderOn cd k H o) :
    dataLines text o = rest ↔ (o.common.NLHEAD = H.length ∨ o.common.NLHEAD = -rest.length) := by
  have hH : H ≠ [] := by
    rintro rfl
    have : ∃ top H2 c ign, ([] : List Str) = top ++ H2 ∧ TopOn k top c ign := by
      cases o with
      | o1001 r => obtain ⟨_, _, _, _, ign, top, _, _, _, _, e, ht, _⟩ := hh; exact ⟨top, _, _, _, e, ht⟩
      | o1010 r => obtain ⟨_, _, _, _, _, ign, top, _, _, _, _, _, e, ht, _⟩ := hh; exact ⟨top, _, _, _, e, ht⟩
      | o1020 r => obtain ⟨_, _, _, _, _, ign, top, _, _, _, _, _, _, e, ht, _⟩ := hh; exact ⟨top, _, _, _, e, ht⟩
      | o2010 r =>
        obtain ⟨_, _, _, _, _, ign, top, _, _, _, _, _, _, _, _, e, ht, _⟩ := hh; exact ⟨top, _, _, _, e, ht⟩
      | o2110 r => obtain ⟨_, _, _, _, _, _, ign, top, _, _, _, _, _, e, ht, _⟩ := hh; exact ⟨top, _, _, _, e, ht⟩
      | o2160 r => obtain ⟨_, _, _, _, _, _, top, _, _, _, _, _, _, _, e, ht, _⟩ := hh; exact ⟨top, _, _, _, e, ht⟩
      | o2310 r => obtain ⟨_, _, _, _, _, _, ign, top, _, _, _, _, _, e, ht, _⟩ := hh; exact ⟨top, _, _, _, e, ht⟩
    obtain ⟨top, H2, c, ign, e, ht⟩ := this
    obtain ⟨rfl, rfl⟩ := List.append_eq_nil_iff.1 e.symm
    obtain ⟨il, l0, l1, l2, l3, l4, l5, l6, nl, e, _⟩ := ht
    simp at e
  have h1 : 0 < H.length := List.length_pos_iff.2 hH
  have h2 : 0 < rest.length := List.length_pos_iff.2 hr
  have key : ∀ d : Nat, (H ++ rest).drop d = rest ↔ d = H.length := by
    intro d
    constructor
    · intro h
      have := congrArg List.length h
      simp only [List.length_drop, List.length_append] at this
      omega
    · rintro rfl; exact List.drop_left
  unfold dataLines sliceFrom
  rw [hb]
  split
  · rw [key]; omega
  · rw [key, List.length_append]; omega

/-- C82 is false of the code. With NLHEAD one too small, the last line of the header is read as data, and a data value
is lost; with NLHEAD one too large, the first record is lost. Neither is reported. -/
theorem C82_fails :
    let text (n : String) := asLines ([n, "Lee", "RAL", "GPS", "M", "1 1", "2000 1 1 2000 1 2", "0", "Time", "1", "1",
      "99", "O3", "0", "0", "1 2", "3 4"].map String.toList)
    (read1001 intCodec 0 (text "15 1001")).map (fun r => (r.X, r.V)) = .ok ([1, 3], [[2, 4]]) ∧
    (read1001 intCodec 0 (text "14 1001")).map (fun r => (r.X, r.V)) = .ok ([0, 3], [[1, 4]]) ∧
    (read1001 intCodec 0 (text "16 1001")).map (fun r => (r.X, r.V)) = .ok ([3], [[4]]) := by
  decide +kernel

/-- The hypotheses of `C82_exact_partial` are met. -/
example : dataLines (exFile ["1 2", "3 4"]) (.o1001 exRec) = ["1 2\n".toList, "3 4\n".toList] :=
  (C82_exact_partial intCodec 0 _ _ _ _ (by decide) (by decide +kernel) exHeader_layout).2 (.inl (by decide +kernel))

end Nappy.Props
