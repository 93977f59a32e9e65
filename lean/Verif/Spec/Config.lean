import Verif.Config

/-! Specification vocabulary for the configuration: what each lookup should give, whatever happened before. -/

namespace Nappy.Spec

/-- What `getConfigDict()` should give. -/
def configOf (fs : CfgFiles) : Res (List (Str × Section)) := do
  let p ← fs.parse fs.default
  .ok (makeConfigDict p)

/-- The file named by the environment, or else by the configuration. -/
def fileFor (fs : CfgFiles) (env : Option Str) (item : Str) : Res Str := do
  let c ← configOf fs
  match env with
  | some (ch :: t) => .ok (ch :: t)
  | _ => do
    let main ← kvGet c "main".toList
    let w ← kvGet main (.one item)
    match w with
    | .one f => .ok (fs.inBase f)
    | .many _ => .error .type

/-- What `getAnnotationsConfigDict()` should give. -/
def notesOf (fs : CfgFiles) (env : Option Str) : Res (List (Str × Str)) := do
  let f ← fileFor fs env "annotations_file".toList
  let p ← fs.parse f
  makeAnnotationsConfigDict p

/-- What `getLocalAttributesConfigDict()` should give. -/
def localAttsOf (fs : CfgFiles) (env : Option Str) : Res (List (Str × Section)) := do
  let f ← fileFor fs env "local_attributes_file".toList
  let p ← fs.parse f
  makeLocalAttributesConfigDict p

/-- The reply that a lookup should have. -/
def RightReply (fs : CfgFiles) (envNotes envAtts : Option Str) : CfgOp → CfgReply → Prop
  | .config cf, r => r = .sections (do let p ← fs.parse cf; .ok (makeConfigDict p))
  | .annotations, r => r = .notes (notesOf fs envNotes)
  | .localAtts, r => r = .sections (localAttsOf fs envAtts)
  | _, r => r = .done

/-- Operations that change neither the dictionaries of the sections nor the environment, and ask for the default
configuration only. -/
def Harmless (fs : CfgFiles) : CfgOp → Prop
  | .setItem .. => False
  | .setEnv .. => False
  | .config cf => cf = fs.default
  | _ => True

end Nappy.Spec
