import Verif.SectionLemmas
import Verif.TreeLemmas

/-! Concrete dictionaries, used beside the theorems to show that their hypotheses can be met. Numbers are
exact integers printed in decimal. -/

namespace Nappy.Ex

open Nappy Spec

theorem intCodec_lawful : intCodec.Lawful id where
  sfmt_token x := token_intStr x
  sfmt_quote x h := by
    have hd : ∀ d, d < 10 → digitChar d ≠ '\x01' := by decide
    rcases intStr_chars x _ h with h | ⟨d, hd', h⟩
    · exact absurd h (by decide)
    · exact hd d hd' h.symm
  sfmt_parse x := parseInt_intStr x
  ffmt_token x := ⟨[], intStr x, [], by simp [intCodec], by simp, by simp, token_intStr x,
    parseInt_intStr x⟩

/-- Delimiter of four blanks, no annotation. -/
def env : Env Int := { cd := intCodec, delim := "    ".toList, ann := none }

theorem env_delim : WsDelim env.delim := by decide

def common (ffi : Int) : Common :=
  { NLHEAD := 0, FFI := ffi, ONAME := "De Rudder".toList, ORG := "Rutherford (RAL)".toList,
    SNAME := "MERIS {GPS}, level 2".toList, MNAME := "TOROS".toList, IVOL := 1, NVOL := 13,
    DATE := [1969, 1, 1], RDATE := [2002, 10, 31] }

def vars : VarHdr Int :=
  { NV := 2, VSCAL := [1, 10], VMISS := [-9999, 99], VNAME := ["O3 (ppb)".toList, "Temp".toList] }

def vars1 : VarHdr Int := { NV := 1, VSCAL := [1], VMISS := [-9999], VNAME := ["O3 (ppb)".toList] }

def noAux : AuxHdr Int := { NAUXV := 0, ASCAL := [], AMISS := [], ANAME := [] }

def aux1 : AuxHdr Int := { NAUXV := 1, ASCAL := [1], AMISS := [99], ANAME := ["count".toList] }

def aux3 : AuxHdr Int :=
  { NAUXV := 3, ASCAL := [1, 1, 1], AMISS := [99, 99, 99],
    ANAME := ["count".toList, "first height".toList, "step".toList] }

def com : ComHdr :=
  { NSCOML := 1, SCOM := ["a special comment".toList], NNCOML := 2,
    NCOM := ["normal".toList, [] ] }

def d1001 : NA1001 Int :=
  { c := common 1001, NIV := 1, DX := [0], XNAME := ["Seconds".toList], v := vars, com := com,
    X := [0, 5, 12], V := [[1, 2, 3], [-4, 5, 60]] }

def d1010 : NA1010 Int :=
  { c := common 1010, NIV := 1, DX := [0], XNAME := ["Seconds".toList], v := vars, aux := aux1,
    com := com, X := [0, 5, 12], A := [[7, 8, 9]], V := [[1, 2, 3], [-4, 5, 60]] }

def d1020 : NA1020 Int :=
  { c := common 1020, NIV := 1, DX := [5], NVPM := 2, XNAME := ["Seconds".toList], v := vars,
    aux := aux1, com := com, X := [0, 10], A := [[7, 8]], V := [[1, 2, 3, 4], [-4, 5, 60, 61]] }

def d2010 : NA2010 Int :=
  { c := common 2010, NIV := 2, DX := [1, 2], NX := [2], NXDEF := [2], X0 := [0, 1],
    XB := [[10, 20]], XNAME := ["Time".toList, "Height".toList], v := vars, aux := aux1, com := com,
    A := [[3, 4]], V := [[.lst [.val 1, .val 2], .lst [.val 3, .val 4]],
      [.lst [.val 5, .val 6], .lst [.val 7, .val 8]]] }

/-- Three independent variables; two axis values of each bounded one are written out. -/
def d3010 : NA2010 Int :=
  { c := common 3010, NIV := 3, DX := [1, 2, 5], NX := [2, 3], NXDEF := [2, 2], X0 := [0],
    XB := [[10, 20], [30, 35]], XNAME := ["Time".toList, "Height".toList, "Lat".toList],
    v := vars1, aux := noAux, com := com, A := [],
    V := [[.lst [.lst [.val 1, .val 2, .val 3], .lst [.val 4, .val 5, .val 6]]]] }

/-- As `d3010` with one value of the second axis and two of the third. -/
def d3010_uneven : NA2010 Int :=
  { d3010 with NXDEF := [1, 2], XB := [[10], [30, 35]] }

def d2110 : NA2110 Int :=
  { c := common 2110, NIV := 2, DX := [0, 1], XNAME := ["Time".toList, "Height".toList], v := vars,
    aux := aux1, com := com, NX := [2, 1], X := [(0, [10, 20]), (1, [15])], A := [[2, 1]],
    V := [[[1, 2], [3]], [[4, 5], [6]]] }

/-- 2310 with one variable. -/
def d2310 : NA2110 Int :=
  { c := common 2310, NIV := 2, DX := [0, 10, 5], XNAME := ["Time".toList, "Height".toList],
    v := vars1, aux := aux3, com := com, NX := [2, 1], X := [(0, [100]), (1, [150])],
    A := [[2, 1], [100, 150], [10, 5]], V := [[[1, 2], [3]]] }

/-- 2310 with two variables and two values at a mark. -/
def d2310_two : NA2110 Int :=
  { c := common 2310, NIV := 2, DX := [0, 10], XNAME := ["Time".toList, "Height".toList], v := vars,
    aux := aux3, com := com, NX := [2], X := [(0, [100])], A := [[2], [100], [10]],
    V := [[[1, 2]], [[3, 4]]] }

def charAux : CharAuxHdr Int :=
  { NAUXV := 2, NAUXC := 1, ASCAL := [1], AMISS := [.num 99, .str "zz".toList],
    LENA := [none, some 8], ANAME := ["count".toList, "operator".toList] }

def d2160 : NA2160 Int :=
  { c := common 2160, NIV := 2, DX := [0], LENX := 10, XNAME := ["Station".toList, "Hour".toList],
    v := vars, aux := charAux, com := com, ignored := ["an extra line".toList], NX := [2, 1],
    X := [("Harwell".toList, [10, 20]), ("Cosford".toList, [15])],
    A := [[.num 2, .num 1], [.str "J. Smith".toList, .str "A. Jones".toList]],
    V := [[[1, 2], [3]], [[4, 5], [6]]] }

theorem wfCommon (ffi : Int) : WfCommon (common ffi) := by
  constructor <;> simp only [common] <;> decide
theorem wfVars : WfVars vars := by constructor <;> decide
theorem wfVars1 : WfVars vars1 := by constructor <;> decide
theorem wfNoAux : WfAux noAux := by constructor <;> decide
theorem wfAux1 : WfAux aux1 := by constructor <;> decide
theorem wfAux3 : WfAux aux3 := by constructor <;> decide
theorem wfCom : WfCom com := by constructor <;> decide

theorem wf1001 : Wf1001 d1001 where
  common := wfCommon _
  ffi := rfl
  niv := rfl
  dx := rfl
  xname := rfl
  xnames := by decide
  vars := wfVars
  com := wfCom
  data := by unfold Rect; decide

theorem wf1010 : Wf1010 d1010 where
  common := wfCommon _
  ffi := rfl
  niv := rfl
  dx := rfl
  xname := rfl
  xnames := by decide
  vars := wfVars
  aux := wfAux1
  com := wfCom
  aux_data := by unfold Rect; decide
  data := by unfold Rect; decide

theorem wf1020 : Wf1020 d1020 where
  common := wfCommon _
  ffi := rfl
  niv := rfl
  dx := rfl
  nvpm := by decide
  xname := rfl
  xnames := by decide
  vars := wfVars
  aux := wfAux1
  com := wfCom
  aux_data := by unfold Rect; decide
  data := by unfold Rect; decide

theorem wf2010 : Wf2010 d2010 where
  common := wfCommon _
  ffi := by decide
  dx := by decide
  nx := by decide
  nx_pos := by decide
  nxdef_pos := by decide
  nxdef := by decide
  axes := by decide
  xname := by decide
  xnames := by decide
  vars := wfVars
  aux := wfAux1
  com := wfCom
  aux_data := by unfold Rect; decide
  data := by unfold Rect; exact ⟨by decide, by simp [d2010]⟩
  shape := by simp [d2010, Shaped]

theorem wf3010 : Wf2010 d3010 where
  common := wfCommon _
  ffi := by decide
  dx := by decide
  nx := by decide
  nx_pos := by decide
  nxdef_pos := by decide
  nxdef := by decide
  axes := by decide
  xname := by decide
  xnames := by decide
  vars := wfVars1
  aux := wfNoAux
  com := wfCom
  aux_data := by unfold Rect; decide
  data := by unfold Rect; exact ⟨by decide, by simp [d3010]⟩
  shape := by simp [d3010, Shaped]

theorem wf3010_uneven : Wf2010 d3010_uneven where
  common := wfCommon _
  ffi := by decide
  dx := by decide
  nx := by decide
  nx_pos := by decide
  nxdef_pos := by decide
  nxdef := by decide
  axes := by decide
  xname := by decide
  xnames := by decide
  vars := wfVars1
  aux := wfNoAux
  com := wfCom
  aux_data := by unfold Rect; decide
  data := by unfold Rect; exact ⟨by decide, by simp [d3010_uneven, d3010]⟩
  shape := by simp [d3010_uneven, d3010, Shaped]

theorem wf2110 : Wf2110 some d2110 where
  common := wfCommon _
  ffi := rfl
  niv := rfl
  dx := rfl
  xname := rfl
  xnames := by decide
  vars := wfVars
  aux := wfAux1
  com := wfCom
  marks := by decide
  aux_data := by unfold Rect; decide
  counts := by decide
  data := by unfold Ragged; decide

theorem wf2310 : Wf2310 some some d2310 where
  common := wfCommon _
  ffi := rfl
  niv := rfl
  xname := rfl
  xnames := by decide
  vars := wfVars1
  aux := wfAux3
  com := wfCom
  nx_pos := by decide
  aux_data := by unfold Rect; decide
  aux3 := ⟨_, _, _, _, rfl, by decide, by decide, _, _, rfl, by decide⟩
  data := by unfold Ragged; decide

theorem wf2310_two : Wf2310 some some d2310_two where
  common := wfCommon _
  ffi := rfl
  niv := rfl
  xname := rfl
  xnames := by decide
  vars := wfVars
  aux := wfAux3
  com := wfCom
  nx_pos := by decide
  aux_data := by unfold Rect; decide
  aux3 := ⟨_, _, _, _, rfl, by decide, by decide, _, _, rfl, by decide⟩
  data := by unfold Ragged; decide

theorem wfCharAux : WfCharAux charAux where
  nums := ⟨1, [99], ["zz".toList], [8], by decide, by decide, by decide, by decide, by decide,
    by decide, by decide, by decide, by decide, by decide⟩
  aname := by decide
  names := by decide

theorem wf2160 : Wf2160 some d2160 [[2, 1]] [["J. Smith".toList, "A. Jones".toList]] where
  common := wfCommon _
  ffi := rfl
  niv := rfl
  dx := rfl
  xname := rfl
  xnames := by decide
  vars := wfVars
  aux := wfCharAux
  com := wfCom
  ignored := by decide
  marks := by decide
  words := by decide
  aux_data := by decide
  num_data := by unfold Rect; decide
  text_data := by unfold Rect; decide
  texts := by decide
  counts := by decide
  data := by unfold Ragged; decide

end Nappy.Ex
