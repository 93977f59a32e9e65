import Verif.Spec.ConvertFile

/-! Specification vocabulary for long data that a conversion writes to several files. -/

namespace Nappy.Spec

variable {F : Type}

/-- `os`, taken together, hold the records of `o`: every list of values is cut into blocks of `n`, the description of
the variables is in every part, and the parts are numbered. `q` is what the number format keeps. -/
structure PartsOf (q : F → F) (n : Nat) (o : Obj F) (os : List (Obj F)) : Prop where
  format : ∀ p ∈ os, p.FFI = o.FFI
  axis : CutInto n ((markValues o).map q) (os.map markValues)
  values : ∀ (j : Nat) col, (mainValues o)[j]? = some col → ∃ cs, CutInto n (col.map q) cs ∧
    List.Forall₂ (fun p c => (mainValues p)[j]? = some c) os cs
  count : ∀ p ∈ os, (mainValues p).length = (mainValues o).length
  vars : ∀ p ∈ os, varHeader p = varHeader o
  number : ∀ (i : Nat) p, os[i]? = some p → p.common.IVOL = (i : Int) + 1 ∧ p.common.NVOL = os.length

/-- What several files hold together, compared with the variables they were made from. -/
structure HoldsParts (env : XEnv F) (q : F → F) (a : Analysis F) (d : Dict (PyVal F)) (n : Nat) (os : List (Obj F)) :
    Prop where
  format : ∀ p ∈ os, p.FFI = a.ffi
  axis : ∃ v ax0, a.main.head? = some v ∧ v.axes.head? = some ax0 ∧
    CutInto n (ax0.values.map q) (os.map markValues)
  values : ∀ (j : Nat) v, a.main[j]? = some v → ∃ cs, CutInto n ((leaves (written env v)).map q) cs ∧
    List.Forall₂ (fun p c => (mainValues p)[j]? = some c) os cs
  count : ∀ p ∈ os, (mainValues p).length = a.main.length
  missing : ∀ p ∈ os, (varHeader p).VMISS = a.main.map (fun v => v.miss.getD env.defaultMiss)
  scale : ∀ p ∈ os, (varHeader p).VSCAL = a.main.map (fun _ => env.one)
  names : ∀ p ∈ os, dictGet? d "VNAME" = some (pyStrs (varHeader p).VNAME)
  number : ∀ (i : Nat) p, os[i]? = some p → p.common.IVOL = (i : Int) + 1 ∧ p.common.NVOL = os.length

/-- The number of values on the first axis of a pass. -/
def pointCount (a : Analysis F) : Nat :=
  match a.main with
  | [] => 0
  | v :: _ =>
    match v.axes with
    | [] => 0
    | ax :: _ => ax.values.length

/-- The pass is written to several files: 1001 data with more records than the limit. -/
def IsLong (limit : Option Int) (a : Analysis F) : Prop :=
  a.ffi = 1001 ∧ ∃ n, limit = some n ∧ n < pointCount a

/-- What the files `calls` of one pass hold: one file with everything or, for long data, parts of at most as many
records as the limit. `d` is the dictionary they are written from. -/
def HoldsAll (env : XEnv F) (q : F → F) (cd : Codec F) (file : WriteCall F → Res Out) (limit : Option Int)
    (a : Analysis F) (d : Dict (PyVal F)) (calls : List (WriteCall F)) : Prop :=
  ∃ os : List (Obj F),
    List.Forall₂ (fun c o => ∃ out, file c = .ok out ∧ out.err = none ∧ readFile cd 0 out.text = .ok o) calls os ∧
    ((IsLong limit a ∧ ∃ n : Nat, limit = some (n : Int) ∧ HoldsParts env q a d n os) ∨
     (¬ IsLong limit a ∧ ∃ o, os = [o] ∧ Holds env q a d o))

end Nappy.Spec
