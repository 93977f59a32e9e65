import Verif.XarrayUtils

/-!
Model of `nappy/utils/parse_config.py`. What `RawConfigParser` makes of a file is given: the sections with their
options in order. The dictionaries of the sections are kept in a store by number, because the copies that callers get
share them.
-/

namespace Nappy

/-- A text or, if it holds `&`, a tuple of texts, `parse_config.py` lines 51-55. -/
inductive Word where
  | one (s : Str)
  | many (l : List Str)
  deriving DecidableEq

/-- `parse_config.py` lines 51-52 and 54-55. -/
def asWord (s : Str) : Word := if s.contains '&' then .many (splitP (· == '&') s) else .one s

/-- `d[k] = v` for any type of keys. -/
def kvSet {α β : Type} [DecidableEq α] (d : List (α × β)) (k : α) (v : β) : List (α × β) :=
  match d with
  | [] => [(k, v)]
  | (k', v') :: t => if k' = k then (k', v) :: t else (k', v') :: kvSet t k v

/-- `d.get(k)` for any type of keys. -/
def kvGet? {α β : Type} [DecidableEq α] (d : List (α × β)) (k : α) : Option β :=
  match d with
  | [] => none
  | (k', v') :: t => if k' = k then some v' else kvGet? t k

/-- `d[k]` -/
def kvGet {α β : Type} [DecidableEq α] (d : List (α × β)) (k : α) : Res β :=
  match kvGet? d k with
  | some v => .ok v
  | none => .error .key

/-- What the parser makes of a file: sections, options and values. -/
abbrev Parsed := List (Str × List (Str × Str))

/-- The dictionary of a section. -/
abbrev Section := List (Word × Word)

/-- The files and the names that are fixed: `config_file` (line 23), and `os.path.join(base_dir, name)`. A file that does
not exist has no sections. -/
structure CfgFiles where
  parse : Str → Res Parsed
  default : Str
  inBase : Str → Str

/-- The value of an option, lines 47-55. -/
def configValue (v : Str) : Word := asWord (replaceSub "__space__".toList [' '] v)

/-- `makeConfigDict`, lines 31-59, with the sections as values. -/
def makeConfigDict (p : Parsed) : List (Str × Section) :=
  p.foldl (fun d so => kvSet d so.1 (so.2.foldl (fun e iv => kvSet e (asWord iv.1) (configValue iv.2)) [])) []

/-- `makeAnnotationsConfigDict`, lines 72-86. A missing section raises. -/
def makeAnnotationsConfigDict (p : Parsed) : Res (List (Str × Str)) :=
  match kvGet? p "annotations".toList with
  | none => .error .exn
  | some l => .ok (l.foldl (fun e iv => kvSet e iv.1 iv.2) [])

/-- One section of `makeLocalAttributesConfigDict`, lines 113-120. -/
def localSection (p : Parsed) (sect : Str) : Res Section :=
  match kvGet? p sect with
  | none => .error .exn
  | some l => .ok (l.foldl (fun e iv => kvSet e (.one iv.1) (.one iv.2)) [])

/-- `makeLocalAttributesConfigDict`, lines 104-122. -/
def makeLocalAttributesConfigDict (p : Parsed) : Res (List (Str × Section)) := do
  let nc ← localSection p "nc_attributes".toList
  let na ← localSection p "na_attributes".toList
  .ok [("nc_attributes".toList, nc), ("na_attributes".toList, na)]

/-- A dictionary of sections: the names with the numbers of the stored dictionaries. -/
abbrev Outer := List (Str × Nat)

/-- The state of the process: the dictionaries of sections ever made, the three global variables (lines 24-26), the
environment, and the dictionaries in the hands of callers. -/
structure CfgState where
  store : List Section
  config : Option Outer
  notes : Option (List (Str × Str))
  atts : Option Outer
  envNotes : Option Str
  envAtts : Option Str
  held : List Outer
  heldNotes : List (List (Str × Str))

/-- What a dictionary of sections looks like. -/
def view (store : List Section) (d : Outer) : List (Str × Section) := d.map (fun ka => (ka.1, store[ka.2]?.getD []))

/-- New dictionaries are put at the end of the store. -/
def alloc (n : Nat) : List (Str × Section) → Outer
  | [] => []
  | (k, _) :: t => (k, n) :: alloc (n + 1) t

/-- `getConfigDict`, lines 62-69. The copy is not yet handed over. -/
def getConfigDict (fs : CfgFiles) (cf : Str) (s : CfgState) : Res (CfgState × Outer) :=
  match s.config with
  | some d => .ok (s, d)
  | none => do
    let p ← fs.parse cf
    let l := makeConfigDict p
    let d := alloc s.store.length l
    .ok ({ s with store := s.store ++ l.map Prod.snd, config := some d }, d)

/-- The name of another file, lines 93-94 and 129-130: from the environment, or else from the configuration. -/
def otherFile (fs : CfgFiles) (s : CfgState) (d : Outer) (env : Option Str) (item : Str) : Res Str :=
  match env with
  | some (c :: t) => .ok (c :: t)
  | _ => do
    let main ← kvGet d "main".toList
    let w ← kvGet (s.store[main]?.getD []) (.one item)
    match w with
    | .one f => .ok (fs.inBase f)
    | .many _ => .error .type

/-- `getAnnotationsConfigDict`, lines 89-101. If it raises, the configuration may have been loaded. -/
def getAnnotationsConfigDict (fs : CfgFiles) (s : CfgState) : CfgState × Res (List (Str × Str)) :=
  match getConfigDict fs fs.default s with
  | .error x => (s, .error x)
  | .ok (s, d) =>
    match otherFile fs s d s.envNotes "annotations_file".toList with
    | .error x => (s, .error x)
    | .ok f =>
      match s.notes with
      | some n => (s, .ok n)
      | none =>
        match (do let p ← fs.parse f; makeAnnotationsConfigDict p) with
        | .error x => (s, .error x)
        | .ok n => ({ s with notes := some n }, .ok n)

/-- `getLocalAttributesConfigDict`, lines 125-137. -/
def getLocalAttributesConfigDict (fs : CfgFiles) (s : CfgState) : CfgState × Res Outer :=
  match getConfigDict fs fs.default s with
  | .error x => (s, .error x)
  | .ok (s, d) =>
    match otherFile fs s d s.envAtts "local_attributes_file".toList with
    | .error x => (s, .error x)
    | .ok f =>
      match s.atts with
      | some n => (s, .ok n)
      | none =>
        match (do let p ← fs.parse f; makeLocalAttributesConfigDict p) with
        | .error x => (s, .error x)
        | .ok l =>
          let n := alloc s.store.length l
          ({ s with store := s.store ++ l.map Prod.snd, atts := some n }, .ok n)

/-- What callers can do. Dictionaries they hold are numbered in the order they were handed over. -/
inductive CfgOp where
  /-- `getConfigDict(cf)` -/
  | config (cf : Str)
  | annotations
  | localAtts
  /-- `os.environ[...] = ...` for the two variables -/
  | setEnv (notes atts : Option Str)
  /-- `d[k] = e` with a new dictionary `e` -/
  | setSection (i : Nat) (k : Str) (e : Section)
  /-- `del d[k]` -/
  | delSection (i : Nat) (k : Str)
  /-- `d[k][item] = value` -/
  | setItem (i : Nat) (k : Str) (item value : Word)
  /-- `a[k] = v` for annotations -/
  | setNote (i : Nat) (k v : Str)

/-- What callers see. -/
inductive CfgReply where
  | sections (r : Res (List (Str × Section)))
  | notes (r : Res (List (Str × Str)))
  | done

/-- One operation. -/
def cfgStep (fs : CfgFiles) (s : CfgState) : CfgOp → CfgState × CfgReply
  | .config cf =>
    match getConfigDict fs cf s with
    | .error x => (s, .sections (.error x))
    | .ok (s, d) => ({ s with held := s.held ++ [d] }, .sections (.ok (view s.store d)))
  | .annotations =>
    match getAnnotationsConfigDict fs s with
    | (s, .error x) => (s, .notes (.error x))
    | (s, .ok n) => ({ s with heldNotes := s.heldNotes ++ [n] }, .notes (.ok n))
  | .localAtts =>
    match getLocalAttributesConfigDict fs s with
    | (s, .error x) => (s, .sections (.error x))
    | (s, .ok d) => ({ s with held := s.held ++ [d] }, .sections (.ok (view s.store d)))
  | .setEnv n a => ({ s with envNotes := n, envAtts := a }, .done)
  | .setSection i k e =>
    ({ s with store := s.store ++ [e], held := s.held.modify i (fun d => kvSet d k s.store.length) }, .done)
  | .delSection i k => ({ s with held := s.held.modify i (fun d => d.filter (fun ka => ka.1 ≠ k)) }, .done)
  | .setItem i k item value =>
    match (s.held[i]?).bind (fun d => kvGet? d k) with
    | none => (s, .done)
    | some a => ({ s with store := s.store.modify a (fun e => kvSet e item value) }, .done)
  | .setNote i k v => ({ s with heldNotes := s.heldNotes.modify i (fun d => kvSet d k v) }, .done)

/-- A history of operations: each with its reply. -/
def cfgRun (fs : CfgFiles) : CfgState → List CfgOp → List (CfgOp × CfgReply)
  | _, [] => []
  | s, op :: ops =>
    let r := cfgStep fs s op
    (op, r.2) :: cfgRun fs r.1 ops

/-- When the process starts. -/
def cfgStart (envNotes envAtts : Option Str) : CfgState :=
  { store := [], config := none, notes := none, atts := none, envNotes := envNotes, envAtts := envAtts, held := [],
    heldNotes := [] }

end Nappy
