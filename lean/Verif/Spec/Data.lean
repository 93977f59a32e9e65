import Verif.Spec.File

/-! Specification vocabulary for the data section of a file that was read. -/

namespace Nappy.Spec

variable {F : Type}

/-- The shape of the data. A negative count in the header counts as zero. `Rect cols n m` says that there
are `n` columns of `m` values. -/
def DataShape : Obj F → Prop
  | .o1001 r => Rect r.V r.v.NV.toNat r.X.length
  | .o1010 r => Rect r.A r.aux.NAUXV.toNat r.X.length ∧ Rect r.V r.v.NV.toNat r.X.length
  | .o1020 r => Rect r.A r.aux.NAUXV.toNat r.X.length ∧
      Rect r.V r.v.NV.toNat (r.X.length * r.NVPM.toNat)
  | .o2010 r => Rect r.A r.aux.NAUXV.toNat r.X0.length ∧ Rect r.V r.v.NV.toNat r.X0.length ∧
      ∀ col ∈ r.V, ∀ t ∈ col, Shaped (r.NX.map Int.toNat) t
  | .o2110 r => Rect r.A r.aux.NAUXV.toNat r.X.length ∧
      r.X.map (fun x => x.2.length) = r.NX.map Int.toNat ∧
      r.V.length = r.v.NV.toNat ∧ ∀ vn ∈ r.V, vn.map List.length = r.NX.map Int.toNat
  | .o2160 r => Rect r.A r.aux.NAUXV.toNat r.X.length ∧
      r.X.map (fun x => x.2.length) = r.NX.map Int.toNat ∧
      r.V.length = r.v.NV.toNat ∧ ∀ vn ∈ r.V, vn.map List.length = r.NX.map Int.toNat
  | .o2310 r => Rect r.A r.aux.NAUXV.toNat r.X.length ∧
      r.X.map (fun x => x.2.length) = r.NX.map (fun _ => 1) ∧
      r.V.length = r.v.NV.toNat ∧ ∀ vn ∈ r.V, vn.map List.length = r.NX.map Int.toNat

/-- The second object is the first one with other data; the header fields are the same. In 2310 `DX` counts as
data: it has an entry per mark. -/
def SameHeader : Obj F → Obj F → Prop
  | .o1001 r, .o1001 r' => r' = { r with X := r'.X, V := r'.V }
  | .o1010 r, .o1010 r' => r' = { r with X := r'.X, A := r'.A, V := r'.V }
  | .o1020 r, .o1020 r' => r' = { r with X := r'.X, A := r'.A, V := r'.V }
  | .o2010 r, .o2010 r' => r' = { r with X0 := r'.X0, A := r'.A, V := r'.V }
  | .o2110 r, .o2110 r' => r' = { r with NX := r'.NX, X := r'.X, A := r'.A, V := r'.V }
  | .o2160 r, .o2160 r' => r' = { r with NX := r'.NX, X := r'.X, A := r'.A, V := r'.V }
  | .o2310 r, .o2310 r' => r' = { r with NX := r'.NX, X := r'.X, A := r'.A, V := r'.V, DX := r'.DX }
  | _, _ => False

/-- The data lines of a file: the lines after the header. -/
def dataLines (text : Str) (o : Obj F) : List Str := sliceFrom (fileLines text) o.common.NLHEAD

/-- The entries number `m` of the columns. -/
def atMark {α : Type} (cols : List (List α)) (m : Nat) : List α := cols.filterMap (fun col => col[m]?)

/-- The format holds numbers only: all formats but 2160. -/
def NumFormat : Obj F → Prop
  | .o2160 _ => False
  | _ => True

/-- No value of the unbounded axis was read before (2010, 3010, 4010). -/
def FreshObj : Obj F → Prop
  | .o2010 r => r.X0 = []
  | _ => True

/-- The formats whose data arrays are all emptied before the data are read. -/
def ResetsAll : Obj F → Prop
  | .o2010 _ => False
  | .o2310 _ => False
  | _ => True

/-- All numbers held by an object, mark by mark in the order in which its format writes them. Format 2160,
whose data hold strings, is left out. -/
def heldValues : Obj F → List F
  | .o1001 r => (r.X.mapIdx fun m x => x :: atMark r.V m).flatten
  | .o1010 r => (r.X.mapIdx fun m x => x :: (atMark r.A m ++ atMark r.V m)).flatten
  | .o1020 r => (r.X.mapIdx fun m x => x :: (atMark r.A m
      ++ (r.V.map fun col => (col.drop (m * r.NVPM.toNat)).take r.NVPM.toNat).flatten)).flatten
  | .o2010 r => (r.X0.mapIdx fun m x => x :: (atMark r.A m
      ++ ((atMark r.V m).map leaves).flatten)).flatten
  | .o2110 r => (r.X.mapIdx fun m x => x.1 :: (atMark r.A m
      ++ (x.2.mapIdx fun p y => y :: atMark (atMark r.V m) p).flatten)).flatten
  | .o2310 r => (r.X.mapIdx fun m x => x.1 :: (atMark r.A m ++ (atMark r.V m).flatten)).flatten
  | .o2160 _ => []

/-- All values held by a 2160 object, mark by mark in the order in which they are written: the mark, the auxiliary
variables, and the values of the other ones point by point. -/
def heldCells (r : NA2160 F) : List (Cell F) :=
  (r.X.mapIdx fun m x => .str x.1 :: (atMark r.A m
    ++ ((x.2.mapIdx fun p y => y :: atMark (atMark r.V m) p).flatten).map .num)).flatten

/-- `s` is the text on a line: brace annotations at the end (up to two) and white space at both ends are left out. A
line with the control character U+0001 may count as empty. -/
def LineText (line s : Str) : Prop :=
  ∃ g g', Bare line g ∧ Bare g g' ∧ ((∃ l r, g' = l ++ s ++ r ∧ Blank l ∧ Blank r) ∨ (s = [] ∧ '\x01' ∈ line))

/-- What a data line of a 2160 file may be read as: words, numbers, or one text. -/
inductive LineReads (cd : Codec F) (line : Str) : List (Cell F) → Prop where
  | words (ws : List Str) : LineWords line ws → LineReads cd line (ws.map .str)
  | numbers (ws : List Str) (xs : List F) : LineWords line ws → List.Forall₂ (fun w x => cd.float w = .ok x) ws xs →
      LineReads cd line (xs.map .num)
  | text (s : Str) : LineText line s → LineReads cd line [.str s]

/-- `readData` called `n` times on one object. -/
def readTimes (cd : Codec F) (text : Str) : Nat → Obj F → Res (Obj F)
  | 0, o => .ok o
  | n + 1, o => do
    let o' ← o.readData cd text
    readTimes cd text n o'

/-- `n` copies of a list, one after the other. -/
def copies {α : Type} : Nat → List α → List α
  | 0, _ => []
  | n + 1, l => l ++ copies n l

/-- The object with the ignored lines it keeps (only 2160 does). -/
def withIgnored (ign : List Str) : Obj F → Obj F
  | .o2160 r => .o2160 { r with ignored := ign }
  | o => o

/-- The object for the same file with lines put in front that are to be ignored: the header ends that many
lines later, and the lines are kept. -/
def afterLines (pre : List Str) (o : Obj F) : Obj F :=
  withNLHEAD (o.common.NLHEAD + pre.length) (withIgnored (pre.map fun l => readItem (l ++ ['\n'])) o)

end Nappy.Spec
