import Verif.Ini
import Verif.Core

/-!
Model of `arrayToList` and `listOfListsCreator` in `nappy/utils/list_manipulator.py`, and of
`nappy/utils/ffi_translator.py`.
-/

namespace Nappy

/-- Lists in lists, of values. -/
inductive Deep (α : Type) where
  | val (x : α)
  | list (l : List (Deep α))

/-- `arrayToList(array, inlist)`, `list_manipulator.py` lines 24-36. The array is its shape with the values or the parts
along its first dimension. In line 32 the arguments are in the wrong order, so that an element of `inlist` is asked for
its shape. Simplified: the elements of `inlist` are not arrays. -/
def arrayToList {α : Type} (shape : List Nat) (parts : List (Deep α)) (inlist : List (Deep α)) : Res (List (Deep α)) :=
  match shape with
  | [] => .error .index
  | [n] => if parts.length < n then .error .index else .ok (inlist ++ parts.take n)
  | n :: _ :: _ =>
    if n = 0 then .ok inlist
    else if inlist.isEmpty then .error .index
    else .error .attribute

/-- `listOfListsCreator(inlist, dimlist)`, `list_manipulator.py` lines 39-47. In line 46 the name `array` is not known. -/
def listOfListsCreator {α : Type} (inlist : List (Deep α)) (dimlist : List Nat) : Res (List (Deep α)) :=
  match dimlist with
  | n :: _ :: _ => if n = 0 then .ok inlist else .error .name
  | _ => .ok inlist

/-- `import nappy.utils.ffi_translator`: line 20 looks up the missing value. -/
def importTranslator (fs : CfgFiles) (s : CfgState) : Res (CfgState × Word) :=
  getDefault fs s "default_missing_value".toList

/-- What can be given to `translate2010To2110`: a dictionary, or an object with attributes. -/
inductive TransArg (F : Type) where
  | dict (d : Dict (PyVal F))
  | obj (attrs : Dict (PyVal F))

/-- `n.NAME`. A Python `dict` has no such attribute, whatever its keys. -/
def TransArg.attr {F : Type} (x : TransArg F) (name : String) : Res (PyVal F) :=
  match x with
  | .dict _ => .error .attribute
  | .obj a => match dictGet? a name with | some v => .ok v | none => .error .attribute

/-- `translate2010To2110(na_dict)`, `ffi_translator.py` lines 23-42; `missing` is the value of line 20. The result is
the attributes of the object returned. Line 35 asks for `XNAMES` and line 36 for `ANAMES`. -/
def translate2010To2110 {F : Type} (one : F) (missing : PyVal F) (x : TransArg F) : Res (Dict (PyVal F)) := do
  let nx ← x.attr "NX"
  let _ ← (match nx with | .list (v :: _) => .ok v | .list [] => .error .index | _ => .error .type : Res (PyVal F))
  let nauxv ← x.attr "NAUXV"
  let n ← (match nauxv with | .int n => .ok (n + 1) | _ => .error .type : Res Int)
  let xnames ← x.attr "XNAMES"
  let name ← (match xnames with | .list (.str s :: _) => .ok s | .list [] => .error .index | _ => .error .type : Res Str)
  let anames ← x.attr "ANAMES"
  let ascal ← x.attr "ASCAL"
  let amiss ← x.attr "AMISS"
  match x, anames, ascal, amiss with
  | .obj a, .list l, .list s, .list m =>
    .ok (dictSet (dictSet (dictSet (dictSet a "NAUXV" (.int n))
      "ANAMES" (.list (.str ("Number of ".toList ++ name ++ " values recorded in subsequent data records".toList) :: l)))
      "ASCAL" (.list (.num one :: s))) "AMISS" (.list (missing :: m)))
  | _, _, _, _ => .error .type

end Nappy
