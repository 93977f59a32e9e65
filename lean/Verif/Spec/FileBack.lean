import Verif.Spec.Back
import Verif.Spec.ConvertFile
import Verif.Api

/-! Specification vocabulary for a NASA Ames file that is converted to NetCDF and back: what xarray gives when it opens
the NetCDF file again, and what the two NASA Ames files have in common. -/

namespace Nappy.Spec

variable {F : Type}

/-- A variable as it comes when the NetCDF file is opened: as it was written, except that values equal to the missing
value may come as `NaN`. -/
def Reopened (isNaN : F → Bool) (v w : XVar F) : Prop :=
  ∃ mask : F → F, (∀ y, mask y = y ∨ (isNaN (mask y) = true ∧ v.miss = some y)) ∧
    w = { v with data := mapTree mask v.data }

/-- A coordinate variable: it has the name of an axis and lies on this axis only. -/
def CoordinateOf (vars : List (XVar F)) (c : XVar F) : Prop :=
  (∃ v ∈ vars, ∃ ax ∈ v.axes, c.name = ax.name ∧ c.axes = [ax]) ∧ dictGet? c.attrs "bounds" = none

/-- A global attribute as it comes when the file is opened: as it was written, or, for a whole number, as something
that is neither text nor a number of Python (numpy has its own). -/
def AttrReopened (kv kv' : String × PyVal F) : Prop :=
  kv'.1 = kv.1 ∧ (kv'.2 = kv.2 ∨ ((∃ n, kv.2 = .int n) ∧ kv'.2.plain = false))

/-- What opening a NetCDF file gives, compared with what was written: the variables in their order, with coordinate
variables before, between or after them, and the global attributes. Names are unique. -/
structure ReopenedFile (isNaN : F → Bool) (nc nc' : NCFile F) : Prop where
  attrs : List.Forall₂ AttrReopened nc.attrs nc'.attrs
  names : (nc'.vars.map XVar.name).Nodup
  vars : ∃ ws, List.Forall₂ (Reopened isNaN) nc.vars ws ∧ ws.Sublist nc'.vars ∧
    ∀ c ∈ nc'.vars, c ∈ ws ∨ CoordinateOf nc.vars c

/-- Files of format 1001, 2010, 3010 or 4010 whose attributes fit together. -/
inductive Regular : Obj F → Prop
  | one (f : NA1001 F) : Wf1001 f → Regular (.o1001 f)
  | more (f : NA2010 F) : Wf2010 f → Regular (.o2010 f)

/-- Names and scale factors of the auxiliary variables. -/
def auxNames (o : Obj F) : List Str := ((auxSection o).map AuxHdr.ANAME).getD []
def auxScales (o : Obj F) : List F := ((auxSection o).map AuxHdr.ASCAL).getD []

/-- What is asked of a file that is to come back: no scale factors other than one, no `NaN`, an axis has some value,
no more than 1000 variables of either kind, and names that do not vanish. -/
structure Returnable (env : ToXEnv F) (renames : Renames) (x : XEnv F) (o : Obj F) : Prop where
  regular : Regular o
  scales : UnitScales env.mul ((varHeader o).VSCAL ++ auxScales o)
  axes : ∀ l, AxisValues env.add o l → ∀ xs ∈ l, HasNumber x.eq xs
  values : ∀ col ∈ mainValues o ++ auxValues o, NoNaN x.isNaN col
  count : (varHeader o).NV ≤ 1000
  auxCount : Spec.auxCount o ≤ 1000
  names : NamesLeft env.cb renames (axisHeader o).2 ((varHeader o).VNAME ++ auxNames o)

/-- Two files with the same content, as far as numbers go; `q` is what the number format keeps. -/
structure SameNumbers (add : F → F → F) (x : XEnv F) (q : F → F) (o o' : Obj F) : Prop where
  format : o'.FFI = o.FFI
  count : (varHeader o').NV = (varHeader o).NV
  arrays : ∀ i, mainArray o' i = (mainArray o i).map (mapTree q)
  missing : (varHeader o').VMISS = (varHeader o).VMISS
  scales : ∀ s ∈ (varHeader o').VSCAL ++ auxScales o', s = x.one
  auxCount : Spec.auxCount o' = Spec.auxCount o
  aux : auxValues o' = (auxValues o).map (List.map q)
  auxMissing : (auxSection o').map AuxHdr.AMISS = (auxSection o).map AuxHdr.AMISS
  marks : markValues o' = (markValues o).map q
  /-- Without rounding all axes are the same, the evenly spaced ones filled up. -/
  axes : ExactSteps x add → ∀ l, AxisValues add o l → (∀ xs ∈ l, ∀ y ∈ xs, q y = y) → AxisValues add o' l

/-- What has to hold of the dictionary that the way back makes, for its file to be read: its texts fit into a file, and
in 3010 and 4010 the numbers of points given for the axes read the same backwards. -/
structure TripFits (env : ApiEnv F) (items : Dict (PyVal F)) (delimiter : Str) (ffi : Int) (d : Dict (PyVal F)) :
    Prop where
  source : SourceFits d
  header : ∃ d', prepareDict env.cfg items delimiter d = .ok d' ∧ HeaderFits d'
  points : ffi = 3010 ∨ ffi = 4010 → ∃ l : List Int, dictGet? d "NXDEF" = some (pyInts l) ∧ l.reverse = l

end Nappy.Spec
