import Verif.RecordJoin
import Verif.Props.Header
import Verif.Spec.Copy

/-! Properties C83-C85: which data sections are read, and what happens if they are put together or cut. -/

namespace Nappy.Props

open Nappy Spec

variable {F : Type}

/-! ### C83 -/

/-- C83, what does hold. The data of a file can be read exactly if the lines after the header are records in the layout
of the format, with blank lines at the end only; the object then holds the values of these records, each one where it
belongs.

What is missing: surplus values at the end of a list belong to no variable and are dropped (`C25_fails`); this is part
of the layout as `ListOn` describes it. For format 2160 the number of character variables must not be negative: with a
negative one the code takes lines from the end of the file. -/
theorem C83_exact_partial (cd : Codec F) (text : Str) (o o' : Obj F) (hc : CharCount o) :
    o.readData cd text = .ok o' ↔ ∃ used, Upper (dataLines text o) used ∧ DataOn cd used o o' :=
  readData_on hc

/-- C83 for whole files: header and data. -/
theorem C83_file_partial (cd : Codec F) (hcd : ∀ x, cd.float [] ≠ .ok x) (k : Nat) (text : Str) (o' : Obj F)
    (hc : CharCount o') : readFile cd k text = .ok o' ↔
      ∃ H rest o used, BeginsWith (fileLines text) H rest ∧ HeaderOn cd k H o ∧ Upper (dataLines text o) used ∧
        DataOn cd used o o' := by
  unfold readFile
  have same : ∀ {ls o}, DataOn cd ls o o' → CharCount o := by
    intro ls o h
    cases o <;> cases o' <;> first | exact h.elim | trivial | skip
    obtain ⟨recs, _, rfl⟩ := h
    exact hc
  constructor
  · intro h
    obtain ⟨o, h1, h2⟩ := ok_of_bind h
    obtain ⟨H, rest, hb, hh⟩ := (C80_exact_partial cd hcd k text o).1 h1
    have hk := C24_header_kept cd text o o' h2
    have : CharCount o := by
      cases o <;> cases o' <;> first | exact hk.elim | trivial | skip
      rename_i r r'
      have hk : r' = _ := hk
      rw [hk] at hc
      exact hc
    obtain ⟨used, h3, h4⟩ := (C83_exact_partial cd text o o' this).1 h2
    exact ⟨H, rest, o, used, hb, hh, h3, h4⟩
  · rintro ⟨H, rest, o, used, hb, hh, h3, h4⟩
    exact bind_ok ((C80_exact_partial cd hcd k text o).2 ⟨H, rest, hb, hh⟩)
      ((C83_exact_partial cd text o o' (same h4)).2 ⟨used, h3, h4⟩)

theorem ex_record (l : String) (x y : Int) (h : lineItems (l.toList ++ ['\n']) = [intStr x, intStr y])
    (hx : mapRes intCodec.float [intStr x, intStr y] = .ok [x, y]) :
    ListOn intCodec.float (1 + 1) [l.toList ++ ['\n']] [x, y] :=
  (listOn_iff _ _ _ _).2 ⟨[], _, rfl, by decide, by simp [allItems, h], by rw [h]; simp, by simpa [allItems, h] using hx⟩

/-- Both sides of `C83_exact_partial` hold for a file with two records. -/
example : (Obj.o1001 exRec).readData intCodec (exFile ["1 2", "3 4", ""])
    = .ok (.o1001 { exRec with X := [1, 3], V := [[2, 4]] }) := by
  refine (C83_exact_partial intCodec _ (.o1001 exRec) _ trivial).2 ⟨["1 2\n".toList, "3 4\n".toList],
    ⟨["\n".toList], by decide +kernel, by decide, by decide⟩, [(1, [2]), (3, [4])], ?_, rfl⟩
  exact ⟨[["1 2\n".toList], ["3 4\n".toList]], rfl,
    .cons (ex_record "1 2" 1 2 (by decide +kernel) (by decide +kernel))
      (.cons (ex_record "3 4" 3 4 (by decide +kernel) (by decide +kernel)) .nil)⟩

/-- Why C83 asks for a number of character variables that is not negative: with -1 of them the lines between the number
of points and the last line of the file are passed over. -/
theorem C83_negative_fails :
    let r : NA2160 Int := { Ex.d2160 with
      c := { Ex.d2160.c with NLHEAD := 0 }, v := { Ex.d2160.v with NV := 1 },
      aux := { NAUXV := 0, NAUXC := -1, ASCAL := [], AMISS := [], LENA := [], ANAME := [] } }
    readData2160 intCodec (asLines (["A", "1", "anything at all", "5 6"].map String.toList)) r
      = .ok { r with NX := [1], X := [("A".toList, [5])], A := [], V := [[[6]]] } := by
  decide +kernel

/-! ### C84 -/

/-- C84. Records that follow others are added to their data: if the data lines of a file are those of two others, the
data are those of the two, in this order. -/
theorem C84_join (cd : Codec F) (o oa ob : Obj F) (hc : CharCount o) (ta tb t : Str)
    (hd : dataLines t o = dataLines ta o ++ dataLines tb o) (hb : ∀ l ∈ dataLines ta o, ¬ Blank l)
    (ha : o.readData cd ta = .ok oa) (hob : o.readData cd tb = .ok ob) :
    o.readData cd t = .ok (joined o oa ob) := by
  obtain ⟨ua, ⟨ba, ea, h1, h2⟩, da⟩ := (readData_on hc).1 ha
  obtain ⟨ub, ⟨bb, eb, h3, h4⟩, db⟩ := (readData_on hc).1 hob
  have hba : ba = [] := by
    rw [List.eq_nil_iff_forall_not_mem]
    intro l hl
    exact hb l (by rw [ea]; simp [hl]) (h2 l hl)
  subst hba
  refine (readData_on hc).2 ⟨ua ++ ub, ⟨bb, by rw [hd, ea, eb]; simp, ?_, h4⟩, dataOn_append da db⟩
  intro l hl
  rcases List.mem_append.1 hl with hl | hl
  · exact h1 l hl
  · exact h3 l hl

theorem fileLines_asLines (ls : List Str) (h : ∀ l ∈ ls, NoBreak l) :
    fileLines (asLines ls) = ls.map (fun l => l ++ ['\n']) := by
  have := fileLines_front h []
  rw [List.append_nil] at this
  rw [this]
  simp [show fileLines [] = [] from rfl]

theorem dataLines_after (o : Obj F) (H A : List Str) (hH : ∀ l ∈ H, NoBreak l) (hA : ∀ l ∈ A, NoBreak l)
    (hn : o.common.NLHEAD = H.length) : dataLines (asLines H ++ asLines A) o = A.map (fun l => l ++ ['\n']) := by
  unfold dataLines
  rw [fileLines_front hH, fileLines_asLines A hA, hn]
  unfold sliceFrom
  rw [if_pos (by omega), Int.toNat_natCast, List.drop_left' (by simp)]

theorem blank_nl (l : Str) : Blank (l ++ ['\n']) ↔ Blank l := by
  constructor
  · exact fun h c hc => h c (by simp [hc])
  · intro h c hc
    rcases List.mem_append.1 hc with hc | hc
    · exact h c hc
    · rw [List.mem_singleton] at hc; subst hc; decide

theorem asLines_append (A B : List Str) : asLines (A ++ B) = asLines A ++ asLines B := by
  simp [asLines]

/-- C84 for whole files: a header followed by records, by others, and by both. -/
theorem C84_files (cd : Codec F) (hcd : ∀ x, cd.float [] ≠ .ok x) (k : Nat) (H A B : List Str) (o oa ob : Obj F)
    (hl : ∀ l ∈ H ++ (A ++ B), NoBreak l) (hh : HeaderOn cd k (H.map (fun l => l ++ ['\n'])) o)
    (hn : o.common.NLHEAD = H.length) (hc : CharCount o) (hb : ∀ l ∈ A, ¬ Blank l)
    (ha : readFile cd k (asLines H ++ asLines A) = .ok oa) (hob : readFile cd k (asLines H ++ asLines B) = .ok ob) :
    readFile cd k (asLines H ++ asLines (A ++ B)) = .ok (joined o oa ob) := by
  have hH : ∀ l ∈ H, NoBreak l := fun l h => hl l (by simp [h])
  have hA : ∀ l ∈ A, NoBreak l := fun l h => hl l (by simp [h])
  have hB : ∀ l ∈ B, NoBreak l := fun l h => hl l (by simp [h])
  have op := C81_any_data cd hcd k H hH o hh
  unfold readFile at ha hob ⊢
  rw [op] at ha hob ⊢
  refine C84_join cd o oa ob hc _ _ _ ?_ ?_ ha hob
  · rw [dataLines_after o H A hH hA hn, dataLines_after o H B hH hB hn,
      dataLines_after o H (A ++ B) hH (fun l h => hl l (by simp only [List.mem_append] at h ⊢; exact .inr h)) hn,
      List.map_append]
  · rw [dataLines_after o H A hH hA hn]
    intro l hl
    obtain ⟨m, hm, rfl⟩ := List.mem_map.1 hl
    rw [blank_nl]
    exact hb m hm

/-! ### C85 -/

/-- C85. If the end of the data is missing, reading raises IndexError, or the data are the first records of the whole
file: those of the missing lines, put after them, give the data of the whole file. -/
theorem C85_cut (cd : Codec F) (o o' : Obj F) (hc : CharCount o) (text text' : Str) (h : o.readData cd text = .ok o')
    (hp : dataLines text' o <+: dataLines text o) :
    o.readData cd text' = .error .index ∨
      ∃ oa ob used missing, o.readData cd text' = .ok oa ∧ Upper (dataLines text' o) used ∧
        Upper (dataLines text o) (used ++ missing) ∧ DataOn cd missing o ob ∧ o' = joined o oa ob := by
  rcases readData_cut hc h hp with hh | ⟨u1, u2, oa, ob, h1, h2, h3, h4, h5⟩
  · exact .inl hh
  · exact .inr ⟨oa, ob, u1, u2, (readData_on hc).2 ⟨u1, h1, h3⟩, h1, h2, h4, h5⟩

/-- C85 for whole files that are cut after a line of the data. -/
theorem C85_files (cd : Codec F) (hcd : ∀ x, cd.float [] ≠ .ok x) (k : Nat) (H A B : List Str) (o o' : Obj F)
    (hl : ∀ l ∈ H ++ (A ++ B), NoBreak l) (hh : HeaderOn cd k (H.map (fun l => l ++ ['\n'])) o)
    (hn : o.common.NLHEAD = H.length) (hc : CharCount o)
    (h : readFile cd k (asLines H ++ asLines (A ++ B)) = .ok o') :
    readFile cd k (asLines H ++ asLines A) = .error .index ∨
      ∃ oa ob, readFile cd k (asLines H ++ asLines A) = .ok oa ∧ o' = joined o oa ob := by
  have hH : ∀ l ∈ H, NoBreak l := fun l h => hl l (by simp [h])
  have hA : ∀ l ∈ A, NoBreak l := fun l h => hl l (by simp [h])
  have op := C81_any_data cd hcd k H hH o hh
  unfold readFile at h ⊢
  rw [op] at h ⊢
  have hp : dataLines (asLines H ++ asLines A) o <+: dataLines (asLines H ++ asLines (A ++ B)) o := by
    rw [dataLines_after o H A hH hA hn,
      dataLines_after o H (A ++ B) hH (fun l h => hl l (by simp only [List.mem_append] at h ⊢; exact .inr h)) hn,
      List.map_append]
    exact List.prefix_append _ _
  rcases C85_cut cd o o' hc _ _ h hp with g | ⟨oa, ob, _, _, g1, _, _, _, g2⟩
  · exact .inl g
  · exact .inr ⟨oa, ob, g1, g2⟩

/-- The hypotheses of `C84_files` and `C85_files` are met, and both outcomes of C85 happen. -/
example :
    (∀ l ∈ exHeader ++ (["1 2".toList] ++ ["3".toList, "4".toList]), NoBreak l) ∧
    (Obj.o1001 exRec).common.NLHEAD = exHeader.length ∧
    (match readFile intCodec 0 (asLines exHeader ++ asLines ["1 2".toList]) with
      | .ok (.o1001 r) => decide (r = { exRec with X := [1], V := [[2]] })
      | _ => false) = true ∧
    (match readFile intCodec 0 (asLines exHeader ++ asLines ["3".toList, "4".toList]) with
      | .ok (.o1001 r) => decide (r = { exRec with X := [3], V := [[4]] })
      | _ => false) = true ∧
    (match readFile intCodec 0 (asLines exHeader ++ asLines ["1 2".toList, "3".toList, "4".toList]) with
      | .ok (.o1001 r) => decide (r = { exRec with X := [1, 3], V := [[2, 4]] })
      | _ => false) = true ∧
    (match readFile intCodec 0 (asLines exHeader ++ asLines ["1 2".toList, "3".toList]) with
      | .error .index => true
      | _ => false) = true := by
  decide +kernel

end Nappy.Props
