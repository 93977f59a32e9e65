import Verif.Spec.FileBack

/-! Specification vocabulary for the common header of a file on its way to NetCDF and back. -/

namespace Nappy.Spec

variable {F : Type}

/-- The items that replace those of the dictionary: the local attributes and the items that the caller gives. -/
def overridden (env : ApiEnv F) (args : NCToNAArgs F) : List String :=
  env.cfg.localAtts.map Prod.fst ++ args.naItems.map Prod.fst

/-- The header of the file that comes back, if that of the first file is `c`. `over` are the items that are replaced,
`today` is the day of the conversion, and `noTime` tells that the first axis is not time. -/
structure HeaderBack (over : List String) (today : List Int) (noTime : Prop) (c c' : Common) : Prop where
  originator : "ONAME" ∉ over → c'.ONAME = c.ONAME
  organisation : "ORG" ∉ over → c'.ORG = c.ORG
  source : "SNAME" ∉ over → c'.SNAME = c.SNAME
  mission : "MNAME" ∉ over → c'.MNAME = c.MNAME
  date : "DATE" ∉ over → noTime → c'.DATE = c.DATE
  /-- The date of revision is lost. -/
  revised : "RDATE" ∉ over → c'.RDATE = today
  /-- The volume numbers are lost. -/
  volumes : c'.IVOL = 1 ∧ c'.NVOL = 1

end Nappy.Spec
