import Verif.HangOpen
import Verif.Props.Header

/-! Property C05 for whole files: which files are never opened. -/

namespace Nappy.Props

open Nappy Spec

variable {F : Type}

/-- C05, which files make `openNAFile` run for ever: exactly those whose header is right up to a list of values, or up
to the end of a line inside such a list, and holds fewer words from there to the end of the file than the list needs.
All other files are opened or raise an exception. The hypothesis says that `float("")` raises.

What is missing: that there are no such files, see `C05_false`. -/
theorem C05_whole_file_partial (cd : Codec F) (hcd : ∀ x, cd.float [] ≠ .ok x) (k : Nat) (text : Str) :
    openNA cd k text = .error .hang ↔ ∃ H tail, fileLines text = H ++ tail ∧ HeaderShort cd k H tail :=
  openNA_hang hcd k text

/-- C05, for files that were cut: if a file is cut inside the scale factors of its main variables, opening what is left
never returns. The lines `A` are those left of the scale factors, and `B` with at least one line are cut off. -/
theorem C05_cut_fails (cd : Codec F) (hcd : ∀ x, cd.float [] ≠ .ok x) (k : Nat) (top mid A B : List Str) (l b : Str)
    (c : Common) (ign : List Str) (n : Int) (xs : List F) (htop : TopOn k top c ign) (hmid : MidOn cd c.FFI mid)
    (hl : IntOn l n) (hlist : ListOn cd.float n (A ++ b :: B) xs) (text : Str)
    (htext : fileLines text = top ++ (mid ++ l :: A)) : openNA cd k text = .error .hang := by
  have hA : ((allItems A).length : Int) < n := by
    obtain ⟨pre, z, e, h1, _⟩ := (listOn_iff _ _ _ _).1 hlist
    have : ∃ C, pre = A ++ C := by
      rcases List.eq_nil_or_concat B with rfl | ⟨B', y, rfl⟩
      · have := List.append_inj' e rfl
        exact ⟨[], by simp [this.1]⟩
      · rw [List.concat_eq_append, ← List.cons_append, ← List.append_assoc] at e
        have := List.append_inj' e rfl
        exact ⟨_, this.1.symm⟩
    obtain ⟨C, rfl⟩ := this
    rw [allItems_append, List.length_append] at h1
    push_cast at h1
    omega
  refine (openNA_hang hcd k text).2 ⟨top ++ (mid ++ [l]), A, by rw [htext]; simp, top, c, ign, htop,
    .inr (.inl ⟨mid, [l], rfl, hmid, l, n, hl, (short_iff _ _).2 ⟨by omega, hA⟩, .inl rfl⟩)⟩

/-- The lines of a 2110 file with three variables, as far as the first of their scale factors. -/
def cutHeader : List Str :=
  ["20 2110", "Lee", "RAL", "GPS", "M", "1 1", "2000 1 1 2000 1 2", "1 0", "Height", "Time", "3", "1"].map String.toList

/-- The first lines of this file. -/
def exCommon2110 : Common :=
  { NLHEAD := 20, FFI := 2110, ONAME := "Lee".toList, ORG := "RAL".toList, SNAME := "GPS".toList, MNAME := "M".toList,
    IVOL := 1, NVOL := 1, DATE := [2000, 1, 1], RDATE := [2000, 1, 2] }

/-- The hypotheses of `C05_cut_fails` are met: a 2110 file cut between two lines with scale factors. -/
example : openNA intCodec 0 (asLines cutHeader) = .error .hang := by
  have item : ∀ {l s : Str}, s = readItem l → ItemOn l s := fun h => (itemOn_iff _ _).2 h
  have row : ∀ {l : Str} {xs : List Int} {n : Int}, n ≠ 0 → readItemsFromLine l n pyInt = .ok xs → RowOn pyInt n l xs :=
    fun hn h => (rowOn_iff pyInt_nil hn _ _).2 h
  have hv : (exCommon2110 : Common).FFI = 2110 := rfl
  refine C05_cut_fails intCodec intCodec_empty 0 ((cutHeader.map (fun l => l ++ ['\n'])).take 7)
    (["1 0\n", "Height\n", "Time\n"].map String.toList) ["1\n".toList] [] "3\n".toList "1 1\n".toList exCommon2110 [] 3
    [1, 1, 1] ?_ ?_ ((intOn_iff _ _).2 (by decide +kernel)) ?_ _ (by decide +kernel)
  · exact ⟨[], _, _, _, _, _, _, _, 20, rfl, rfl, .nil, row (by decide) (by decide +kernel), rfl,
      item (by decide +kernel), item (by decide +kernel), item (by decide +kernel), item (by decide +kernel),
      row (by decide) (by decide +kernel), row (by decide) (by decide +kernel), rfl⟩
  · exact .inr (.inr (.inr (.inl ⟨hv, "1 0\n".toList, ["Height\n".toList, "Time\n".toList], [1, 0],
      ["Height".toList, "Time".toList], rfl, (rowOn_iff intCodec_empty (by decide) _ _).2 (by decide +kernel),
      (namesOn_iff _ _ _).2 (by decide +kernel)⟩)))
  · exact (listOn_iff _ _ _ _).2 ⟨["1\n".toList], "1 1\n".toList, rfl, by decide +kernel, by decide +kernel,
      by decide +kernel, by decide +kernel⟩

end Nappy.Props
