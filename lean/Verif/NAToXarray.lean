import Verif.CollectDict
import Verif.Accessors

/-! Model of `nappy/nc_interface/na_to_xarray.py`: the variables, axes and global attributes made from a NASA Ames
file. The file object was opened for reading and `readData` has been called once.

Simplifications. A variable is an `XVar`, see `XarrayUtils`; `DataArray` raises `ValueError` for data that do not
have the shape of the axes and for two axes of the same name. `str.lower` changes ASCII letters only. The
recognition of time axes and the pattern for time units are parameters. Messages are left out. -/

namespace Nappy

variable {F : Type}

/-! ### The file object -/

/-- The attributes of the file object that the conversion looks at. `X` are the axes as stored. -/
structure NAView (F : Type) where
  c : Common
  NIV : Int
  XNAME : List Str
  X : List (List F)
  v : VarHdr F
  V : List (Tree F)
  /-- `none` if the object has no attribute `NAUXV` -/
  aux : Option (AuxHdr F)
  A : List (List F)
  com : ComHdr

/-- A list of numbers as an array. -/
def colTree (l : List F) : Tree F := .lst (l.map .val)

/-- What the conversion finds in the object. The formats 2110, 2160 and 2310 are refused, where adding a number to a
text raises (`na_to_xarray.py` lines 90-93). `_normalizeIndVars` (lines 382-383) raises for 1020, which asks for the
members of a number (`na_file_1020.py` line 79), and gives the full axes for 2010, 3010 and 4010. -/
def Obj.view (add : F → F → F) : Obj F → Res (NAView F)
  | .o1001 r => .ok { c := r.c, NIV := r.NIV, XNAME := r.XNAME, X := [r.X], v := r.v, V := r.V.map colTree,
                      aux := none, A := [], com := r.com }
  | .o1010 r => .ok { c := r.c, NIV := r.NIV, XNAME := r.XNAME, X := [r.X], v := r.v, V := r.V.map colTree,
                      aux := some r.aux, A := r.A, com := r.com }
  | .o1020 r => if r.X = [] then .error .index else .error .type
  | .o2010 r => do
    let s ← normalizeIndVars add r
    .ok { c := s.c, NIV := s.NIV, XNAME := s.XNAME, X := s.X0 :: s.XB, v := s.v, V := s.V.map .lst,
          aux := some s.aux, A := s.A, com := s.com }
  | .o2110 _ => .error .type
  | .o2160 _ => .error .type
  | .o2310 _ => .error .type

/-! ### Global attributes -/

/-- `s.replace("\n\n", "\n")` -/
def collapseLines : Str → Str
  | '\n' :: '\n' :: t => '\n' :: collapseLines t
  | c :: t => c :: collapseLines t
  | [] => []

/-- Lines 42-43: what is left out of the special comments. -/
def specialKnown (hp : Headings) : List Str := [hp.sc_start, hp.sc_end, hp.addl_vatts, hp.addl_globals, ['\n']]

/-- Lines 45-46: what is left out of the normal comments. -/
def normalKnown (hp : Headings) : List Str :=
  [hp.nc_start, hp.nc_end, hp.data_next, hp.addl_vatts, hp.addl_globals, ['\n']]

/-- The loops of lines 152-155 and 163-165. -/
def commentBody (known : List Str) (l : List Str) : Str :=
  (l.filter (fun i => !known.contains (strip i))).flatMap (fun i => '\n' :: i)

/-- The attribute `comment`, lines 143-172. -/
def commentAttr (hp : Headings) (com : ComHdr) : Str :=
  let s := if com.NSCOML > 0 then
      hp.sc_start ++ '\n' :: (commentBody (specialKnown hp) com.SCOM ++ '\n' :: (hp.sc_end ++ ['\n']))
    else []
  let n := if com.NNCOML > 0 then
      hp.nc_start ++ '\n' :: (commentBody (normalKnown hp) com.NCOM ++ '\n' :: hp.nc_end)
    else []
  collapseLines (s ++ n)

/-- "%s (ONAME from NASA Ames file); %s (ORG from NASA Ames file).", lines 176-178. -/
def institutionAttr (c : Common) : Str :=
  c.ONAME ++ " (ONAME from NASA Ames file); ".toList ++ c.ORG ++ " (ORG from NASA Ames file).".toList

/-- `"%.nd" % i`: at least `n` digits. -/
def padInt (n : Nat) (i : Int) : Str :=
  let ds := natStr i.natAbs
  (if i < 0 then ['-'] else []) ++ List.replicate (n - ds.length) '0' ++ ds

/-- The attribute `history`, lines 186-201. -/
def historyAttr (stamp version : Str) (rdate : List Int) : Res Str :=
  match rdate with
  | [y, m, d] =>
    .ok (padInt 4 y ++ '-' :: (padInt 2 m ++ '-' :: (padInt 2 d ++ " - NASA Ames File created/revised.\n".toList))
      ++ '\n' :: (stamp ++ " - Converted to Xarray (NetCDF) format using nappy-".toList ++ version ++ ['.']))
  | _ => .error .type

/-- The attributes set from the file, in the order of section `na_to_nc_map` of `nappy/config/nappy.ini`, lines
24-34. -/
def mappedAttrs (hp : Headings) (stamp version : Str) (c : Common) (com : ComHdr) : Res (Dict (PyVal F)) := do
  let hist ← historyAttr stamp version c.RDATE
  .ok [("no_of_nasa_ames_header_lines", .int c.NLHEAD), ("file_format_index", .int c.FFI),
       ("institution", .str (institutionAttr c)), ("source", .str c.SNAME), ("title", .str c.MNAME),
       ("file_number_in_set", .int c.IVOL), ("total_files_in_set", .int c.NVOL), ("history", .str hist),
       ("first_valid_date_of_data", pyInts c.DATE), ("comment", .str (commentAttr hp com))]

/-- `d.update(l)` one by one -/
def setAll {α : Type} (d : Dict α) : Dict α → Dict α
  | [] => d
  | (k, v) :: t => setAll (dictSet d k v) t

/-- `_mapNACommentsToGlobalAttributes`, lines 132-215. `user` is the list given by the caller. -/
def globalAttrs (hp : Headings) (stamp version : Str) (c : Common) (com : ComHdr) (user : Dict (PyVal F)) :
    Res (Dict (PyVal F)) := do
  let m ← mappedAttrs hp stamp version c com
  let atts := setAll (setAll [] user) m
  let old ← mapRes (fun kv : String × PyVal F => do
    let v ← dictGet atts kv.1
    .ok (kv.1, v)) user
  .ok (old ++ atts.filter (fun kv => !(old.map Prod.fst).contains kv.1))

/-! ### Names -/

/-- The class of `safe_nc_id`, line 37. -/
def unsafeChar (c : Char) : Bool :=
  isSpace c || "/[()]=+-?#~@&$%!*{}^".toList.contains c

/-- `safe_nc_id.sub("_", s)`: every run of such characters becomes one underscore. `run` tells that the last
character belonged to one. -/
def safeIdGo (run : Bool) : Str → Str
  | [] => []
  | c :: t => if unsafeChar c then (if run then safeIdGo true t else '_' :: safeIdGo true t) else c :: safeIdGo false t

def safeId (s : Str) : Str := safeIdGo false s

/-- `s.lower()` for ASCII letters, as in `safeName`. -/
def lower (s : Str) : Str := s.map Char.toLower

/-- `max_id_length` is 64, line 39. `prefix_` is `naVariable_`, `naAuxVariable_` or `naIndVariable_`. -/
def shortName (prefix_ name : Str) (i : Int) : Str :=
  if name.length < 64 then lower (safeId name) else prefix_ ++ intStr i

/-- A dictionary with text keys. -/
abbrev Renames := List (Str × Str)

/-- The value of the last pair with the key: a dictionary made from pairs. -/
def lookupLast (l : Renames) (k : Str) : Option Str :=
  l.foldl (fun o kv => if kv.1 = k then some kv.2 else o) none

/-- `rename_variables` with keys in lower case, line 87. -/
def lowerKeys (l : Renames) : Renames := l.map (fun kv => (lower kv.1, kv.2))

/-- What the conversion takes from outside. `truthy` is not needed: a mask is never set (lines 259-263). `isTime` is
`xarray_utils.is_time` for an axis of the name and attributes, `cfOf` what `cf` knows about it, `timeMatch` is
`time_units_pattn.match`. `answers` are the texts that the user types, stripped; `none` if `time_warning` is false. -/
structure ToXEnv (F : Type) where
  mul : F → F → F
  add : F → F → F
  isTime : Str → Dict Str → Bool
  cfOf : Str → Dict Str → Dict Str
  timeMatch : Str → Bool
  answers : Option (List Str)
  cb : UnitsCallback
  renames : Renames
  hp : Headings
  stamp : Str
  version : Str

/-! ### Axes -/

/-- The loop of lines 422-429. At the end of the input `input` raises `EOFError`. -/
def askUnits (timeMatch : Str → Bool) : List Str → Res Str
  | [] => .error .eof
  | a :: t => if a = [] || timeMatch a then .ok a else askUnits timeMatch t

/-- `axis_types`, line 406, with the effect of lines 408-413: each type found in the name so far becomes the name. -/
def axisTypes (name : Str) (attrs : Dict Str) : Str × Dict Str :=
  [("longitude", "X"), ("latitude", "Y"), ("level", "Z"), ("time", "T")].foldl
    (fun (na : Str × Dict Str) (t : String × String) =>
      if hasSub t.1.toList na.1 then
        (t.1.toList, dictSet (dictSet na.2 "standard_name" t.1.toList) "axis" t.2.toList)
      else na) (name, attrs)

/-- The units of a time axis that has none, lines 419-432. -/
def timeUnits (env : ToXEnv F) (tu : Option Str) : Res Str :=
  match tu with
  | some t => .ok t
  | none => match env.answers with
    | some l => askUnits env.timeMatch l
    | none => .ok []

/-- Lines 416-437: the name, the attributes and the units of the encoding. `units` are those in the file. -/
def axisTime (env : ToXEnv F) (tu : Option Str) (units : Option Str) (na : Str × Dict Str) :
    Res (Str × Dict Str × Option Str) :=
  if env.isTime na.1 na.2 && !env.timeMatch (units.getD "None".toList) then do
    let t ← timeUnits env tu
    .ok ("time".toList, dictSet (dictSet na.2 "units" t) "long_name" ("time (".toList ++ t ++ ")".toList), some t)
  else .ok (na.1, na.2, none)

/-- `_convertNAIndVarToXarrayAxis`, lines 378-451. `tu` is `self.time_units`, which is returned as well. `None` as
units is no string and is left out of the attributes; `str(None)` is `None`. -/
def axisOf (env : ToXEnv F) (i : Nat) (xname : Str) (values : List F) (tu : Option Str) :
    Res (XAxis F × Option Str) := do
  let vu := varAndUnits env.cb xname
  let attrs : Dict Str := [("long_name", xname)] ++ (match vu.2 with | some u => [("units", u)] | none => [])
  let r ← axisTime env tu vu.2 (axisTypes (shortName "naIndVariable_".toList vu.1 i) attrs)
  let attrs := dictSet r.2.1 "name" r.1
  let attrs := (if (dictGet? attrs "units").getD [] = [] then
      dictSet attrs "units" (match vu.2 with | some u => if u = [] then "Not known".toList else u | none => "Not known".toList)
    else attrs)
  .ok ({ name := r.1, attrs := attrs, encUnits := r.2.2, cf := env.cfOf r.1 attrs, values := values },
    match r.2.2 with | some t => some t | none => tu)

/-- `_convertXarrayAxes`, lines 367-376: axes `i`, `i + 1`, ... of the file. -/
def axesGo (env : ToXEnv F) (n : NAView F) (tu : Option Str) : Nat → Nat → Res (List (XAxis F))
  | _, 0 => .ok []
  | i, k + 1 => do
    let values ← idx n.X i
    let xname ← idx n.XNAME i
    let r ← axisOf env i xname values tu
    let rest ← axesGo env n r.2 (i + 1) k
    .ok (r.1 :: rest)

/-! ### Variables -/

/-- A tree has the shape given. -/
def hasShape : List Nat → Tree F → Bool
  | [], .val _ => true
  | [], .lst _ => false
  | _ :: _, .val _ => false
  | d :: ds, .lst l => l.length == d && l.all (fun t => hasShape ds t)

/-- `DataArray(array, coords=axes)`, called from `create_data_array`, `xarray_utils.py` lines 280-286. -/
def checkArray (axes : List (XAxis F)) (t : Tree F) : Res Unit :=
  if hasShape (axes.map (fun a => a.values.length)) t && decide ((axes.map XAxis.name).Nodup) then .ok ()
  else .error .value

/-- What `_convertNAToXarrayVariable` (lines 246-291) and `_convertNAAuxToXarrayVariable` (lines 322-365) make. The
names, missing values and scale factors are `getVariable` and `getAuxVariable`. -/
def makeVar (env : ToXEnv F) (axes : List (XAxis F)) (short : Str) (units : Option Str) (miss scal : F)
    (data : Tree F) (num aux : Option Int) : Res (XVar F) := do
  checkArray axes (data.mapVals (fun x => env.mul x scal))
  .ok { name := safeName short, axes := axes, data := data.mapVals (fun x => env.mul x scal),
        naNumber := num, naAuxNumber := aux, miss := some miss,
        attrs := (match units with
          | some u => if u = [] then [] else [("units", u)]
          | none => []) ++ [("long_name", short), ("title", short)],
        encUnits := none }

/-- Lines 246-291. -/
def mainVar (env : ToXEnv F) (n : NAView F) (axes : List (XAxis F)) (i : Int) : Res (XVar F) := do
  let name ← idxI n.v.VNAME i
  let vu := varAndUnits env.cb name
  let miss ← idxI n.v.VMISS i
  let scal ← idxI n.v.VSCAL i
  let data ← idxI n.V i
  let short := shortName "naVariable_".toList vu.1 i
  let short := (lookupLast (lowerKeys env.renames) (lower short)).getD short
  makeVar env axes short vu.2 miss scal data (some i) none

/-- Lines 322-365. The new name is looked up without `lower`. -/
def auxVar (env : ToXEnv F) (n : NAView F) (aux : AuxHdr F) (axes : List (XAxis F)) (i : Int) : Res (XVar F) := do
  let name ← idxI aux.ANAME i
  let vu := varAndUnits env.cb name
  let miss ← idxI aux.AMISS i
  let scal ← idxI aux.ASCAL i
  let data ← idxI n.A i
  let short := shortName "naAuxVariable_".toList vu.1 i
  let short := (lookupLast (lowerKeys env.renames) short).getD short
  makeVar env (axes.take 1) short vu.2 miss scal (colTree data) none (some i)

/-- One member of the lists `variables` and `aux_variables`. -/
inductive SelItem where
  | int (i : Int)
  | str (s : Str)

/-- `None`, `"all"` or a list. -/
inductive Selection where
  | all
  | items (l : List SelItem)

/-- `int(item)` -/
def SelItem.toInt : SelItem → Res Int
  | .int i => .ok i
  | .str s => match parseInt (strip s) with
    | some i => .ok i
    | none => .error .value

/-- `l.index(s)` if `s in l` -/
def indexOf? (s : Str) : List Str → Option Nat
  | [] => none
  | a :: t => if a = s then some 0 else (indexOf? s t).map (· + 1)

/-- The variable numbers for `variables`, lines 217-244. -/
def mainNumbers (n : NAView F) : Selection → Res (List Int)
  | .all => .ok ((List.range n.v.NV.toNat).map Int.ofNat)
  | .items [] => .error .index
  | .items (.int i :: t) => mapRes SelItem.toInt (.int i :: t)
  | .items (.str s :: t) =>
    if (s.head?.map Char.isDigit).getD false then mapRes SelItem.toInt (.str s :: t)
    else mapRes (fun (it : SelItem) => match it with
      | .int _ => .error .exn
      | .str s => match indexOf? s n.v.VNAME with
        | some i => .ok (i : Int)
        | none => .error .exn) (.str s :: t)

/-- The numbers of the auxiliary variables, lines 293-320. A text used as a number raises `TypeError`; unknown names
are left out. -/
def auxNumbers (aux : AuxHdr F) : Selection → Res (List Int)
  | .all => .ok ((List.range aux.NAUXV.toNat).map Int.ofNat)
  | .items [] => .error .index
  | .items (.int i :: t) => mapRes (fun (it : SelItem) => match it with
      | .int i => .ok i
      | .str _ => .error .type) (.int i :: t)
  | .items (.str s :: t) => .ok ((SelItem.str s :: t).filterMap (fun it => match it with
      | .int _ => none
      | .str s => (indexOf? s aux.ANAME).map Int.ofNat))

/-- What `convert` returns. -/
structure ToXResult (F : Type) where
  vars : List (XVar F)
  aux : List (XVar F)
  attrs : Dict (PyVal F)

/-- `convert`, lines 98-130. `tu` is the argument `time_units`. -/
def toXarray (env : ToXEnv F) (user : Dict (PyVal F)) (sel auxSel : Selection) (tu : Option Str) (o : Obj F) :
    Res (ToXResult F) := do
  let n ← o.view env.add
  let attrs ← globalAttrs env.hp env.stamp env.version n.c n.com user
  let axes ← axesGo env n tu 0 n.NIV.toNat
  let is ← mainNumbers n sel
  let vars ← mapRes (mainVar env n axes) is
  let aux ← (match n.aux with
    | some a =>
      if a.NAUXV > 0 then do
        let is ← auxNumbers a auxSel
        mapRes (auxVar env n a axes) is
      else .ok []
    | none => .ok [])
  .ok { vars := vars, aux := aux, attrs := attrs }

end Nappy
