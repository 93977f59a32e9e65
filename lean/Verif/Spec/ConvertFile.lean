import Verif.Spec.Copy
import Verif.Spec.Collect
import Verif.Spec.Convert
import Verif.Spec.ToXarray
import Verif.Api

/-! Specification vocabulary for the files that a conversion writes, read back. -/

namespace Nappy.Spec

variable {F : Type}

/-- The values of every main variable, the last axis running fastest. -/
def mainValues : Obj F → List (List F)
  | .o1001 r => r.V
  | .o1010 r => r.V
  | .o1020 r => r.V
  | .o2010 r => r.V.map leavesList
  | .o2110 r => r.V.map List.flatten
  | .o2310 r => r.V.map List.flatten
  | .o2160 r => r.V.map List.flatten

/-- The values of every auxiliary variable, for formats whose auxiliary variables are numbers. -/
def auxValues : Obj F → List (List F)
  | .o1001 _ => []
  | .o1010 r => r.A
  | .o1020 r => r.A
  | .o2010 r => r.A
  | .o2110 r => r.A
  | .o2310 r => r.A
  | .o2160 _ => []

/-- The values of the unbounded axis, for formats where they are numbers. -/
def markValues : Obj F → List F
  | .o1001 r => r.X
  | .o1010 r => r.X
  | .o1020 r => r.X
  | .o2010 r => r.X0
  | .o2110 r => r.X.map Prod.fst
  | .o2310 r => r.X.map Prod.fst
  | .o2160 _ => []

/-- The section of the auxiliary variables, for formats whose auxiliary variables are numbers. -/
def auxSection : Obj F → Option (AuxHdr F)
  | .o1001 _ => none
  | .o1010 r => some r.aux
  | .o1020 r => some r.aux
  | .o2010 r => some r.aux
  | .o2110 r => some r.aux
  | .o2310 r => some r.aux
  | .o2160 _ => none

/-- The values given for the bounded axes of 2010, 3010 and 4010; the values at each mark of 2110. -/
def givenAxes : Obj F → List (List F)
  | .o2010 r => r.XB
  | .o2110 r => r.X.map Prod.snd
  | _ => []

/-- The number of auxiliary variables that the format itself needs. -/
def ownAux (ffi : Int) : Nat := if ffi = 2110 then 1 else if ffi = 2310 then 3 else 0

/-- The texts found in the source can stand in a file, whatever the four header names are. -/
structure SourceFits (d : Dict (PyVal F)) : Prop where
  dates : ∀ k ∈ ["DATE", "RDATE"], ∃ l : List Int, dictGet? d k = some (pyInts l) ∧ l.length = 3
  names : ∀ k ∈ ["XNAME", "VNAME", "ANAME"], ∀ l, dictGet? d k = some (pyStrs l) → ∀ s ∈ l, Name s
  comments : ∀ k ∈ ["SCOM", "NCOM"], ∀ l, dictGet? d k = some (pyStrs l) → ∀ s ∈ l, ∀ c ∈ s, c ≠ '\n' ∧ c ≠ '\r'

/-- The texts that are written can stand in a file, and there are as many as declared. -/
structure HeaderFits (d : Dict (PyVal F)) : Prop where
  texts : TextsFit d
  counts : ∀ k ∈ [("SCOM", "NSCOML"), ("NCOM", "NNCOML"), ("VNAME", "NV"), ("ANAME", "NAUXV")],
    ∃ l : List Str, dictGet? d k.1 = some (pyStrs l) ∧ dictGet? d k.2 = some (.int l.length)

/-- The formats in which the conversion makes files that survive being read: 1001; 1020 with one axis; 2010 and
2110; 2310 with one main variable; 3010 and 4010 if the numbers of points given for the axes read the same
backwards. -/
def Kept (a : Analysis F) (d : Dict (PyVal F)) : Prop :=
  a.ffi = 1001 ∨ (a.ffi = 1020 ∧ a.niv = 1) ∨ a.ffi = 2110 ∨ (a.ffi = 2310 ∧ a.main.length = 1) ∨ a.ffi = 2010 ∨
  ((a.ffi = 3010 ∨ a.ffi = 4010) ∧ ∃ l : List Int, dictGet? d "NXDEF" = some (pyInts l) ∧ l.reverse = l)

/-- In 2110 and 2310 some numbers stand among the data that are read as whole numbers: for each mark the number of
values of the second axis and, in 2310, its increment. The number format keeps the former, and the latter can be read
as a whole number, that is, it is neither infinite nor NaN. -/
def MarksRead (env : XEnv F) (cd : Codec F) (q : F → F) (a : Analysis F) : Prop :=
  a.ffi = 2110 ∨ a.ffi = 2310 → ∀ v ∈ a.main, ∀ ax ∈ v.axes.drop 1,
    cd.trunc (q (env.ofNat ax.values.length)) = some (ax.values.length : Int) ∧
    (a.ffi = 2310 → ∀ i, getInterval env.sub ax.values 0 1 = .ok i → (cd.trunc (q i)).isSome)

/-- The items of a dictionary that tell where the data come from, and the common header of a file. -/
def HeaderHeld (d : Dict (PyVal F)) (c : Common) : Prop :=
  ∀ kv ∈ [("ONAME", PyVal.str c.ONAME), ("ORG", .str c.ORG), ("SNAME", .str c.SNAME), ("MNAME", .str c.MNAME),
      ("IVOL", .int c.IVOL), ("NVOL", .int c.NVOL), ("DATE", pyInts c.DATE), ("RDATE", pyInts c.RDATE)],
    dictGet? d kv.1 = some kv.2

/-- What a file holds, compared with the variables it was made from; `q` is what the number format keeps. -/
structure Holds (env : XEnv F) (q : F → F) (a : Analysis F) (d : Dict (PyVal F)) (o : Obj F) : Prop where
  format : o.FFI = a.ffi
  values : mainValues o = a.main.map (fun v => (leaves (written env v)).map q)
  missing : (varHeader o).VMISS = a.main.map (fun v => v.miss.getD env.defaultMiss)
  scale : (varHeader o).VSCAL = a.main.map (fun _ => env.one)
  names : dictGet? d "VNAME" = some (pyStrs (varHeader o).VNAME)
  /-- The axes of the first variable are named (C73). -/
  axisNames : ∃ v, a.main.head? = some v ∧ mapRes XAxis.bestName v.axes = .ok (axisHeader o).2
  /-- The comments are those of the dictionary, but for white space at their ends. -/
  comments : ∀ S, (dictGet? d "SCOM" = some (pyStrs S) → (comHeader o).SCOM.map strip = S.map strip) ∧
    (dictGet? d "NCOM" = some (pyStrs S) → (comHeader o).NCOM.map strip = S.map strip)
  header : HeaderHeld d o.common
  aux : a.ffi ≠ 1001 → a.ffi ≠ 1020 →
    ∃ pre h, pre.length = ownAux a.ffi ∧ auxSection o = some h ∧
      auxValues o = pre ++ a.aux.map (fun v => (leaves (written env v)).map q) ∧
      h.AMISS.drop (ownAux a.ffi) = a.aux.map (fun v => v.miss.getD env.defaultMiss) ∧
      h.ASCAL.drop (ownAux a.ffi) = a.aux.map (fun _ => env.one) ∧
      (0 < h.NAUXV → dictGet? d "ANAME" = some (pyStrs h.ANAME))
  axis : a.ffi ≠ 1020 →
    ∃ v ax0, a.main.head? = some v ∧ v.axes.head? = some ax0 ∧ markValues o = ax0.values.map q
  /-- In 2110 the values of the second axis are given at each mark. -/
  second : a.ffi = 2110 → ∃ v ax0 ax1, a.main.head? = some v ∧ v.axes = [ax0, ax1] ∧
    givenAxes o = ax0.values.map (fun _ => ax1.values.map q)
  /-- In 2010, 3010 and 4010 the first values of the other axes are given. Without rounding, the spacing gives the
  others. -/
  axes : a.ffi = 2010 ∨ a.ffi = 3010 ∨ a.ffi = 4010 → ∃ v ax0 more, a.main.head? = some v ∧ v.axes = ax0 :: more ∧
    (givenAxes o).length = more.length ∧
    (∀ (i : Nat) ax x, more[i]? = some ax → (givenAxes o)[i]? = some x → x = (ax.values.take x.length).map q) ∧
    ∀ add, ExactSteps env add → (∀ ax ∈ v.axes, ∀ x ∈ ax.values, q x = x) → AxisValues add o (v.axes.map XAxis.values)
  /-- The values are arranged as in the variables. -/
  arrays : a.ffi = 1001 ∨ a.ffi = 2010 ∨ a.ffi = 3010 ∨ a.ffi = 4010 →
    ∀ i : Nat, mainArray o i = a.main[i]?.map (fun v => mapTree q (written env v))
  /-- The attributes fit together. -/
  wf1001 : a.ffi = 1001 → ∃ r, o = .o1001 r ∧ Wf1001 r
  wf2010 : a.ffi = 2010 ∨ a.ffi = 3010 ∨ a.ffi = 4010 → ∃ r, o = .o2010 r ∧ Wf2010 r

/-- Writing the file of one call, with the number format and the annotations it asks for: what is done to the file.
`fmt` gives the number format for `float_format`. -/
def fileOf (fmt : Str → Codec F) (table : String → Str) (c : WriteCall F) : Res Out := do
  let env : Env F := { cd := fmt c.floatFormat, delim := c.delimiter, ann := if c.annotation then some table else none }
  let (_, out) ← writeDict env c.noHeader c.dict
  .ok out

/-- The same as an effect: it raises if opening or writing raises. -/
def emitFile (fmt : Str → Codec F) (table : String → Str) (c : WriteCall F) : Res Unit := do
  let out ← fileOf fmt table c
  match out.err with
  | none => .ok ()
  | some x => .error x

/-- What has to hold of a pass of the conversion for its file to be read back. -/
structure PassFits (env : ApiEnv F) (items : Dict (PyVal F)) (delimiter : Str)
    (a : Analysis F) (d : Dict (PyVal F)) : Prop where
  kept : Kept a d
  data : ∀ v ∈ a.main ++ a.aux, DataFits v
  full : ∀ v ∈ a.main, ∀ ax ∈ v.axes, ax.values ≠ []
  source : SourceFits d
  topLine : TopLineKept d a.ffi
  header : ∃ d', prepareDict env.cfg items delimiter d = .ok d' ∧ HeaderFits d'

end Nappy.Spec
