import Verif.Spec.Data
import Verif.Spec.Header

/-!
The layout of the data section, record by record, for C83-C85. A record is what belongs to one value of the
unbounded independent variable. As in `Spec.Header`, none of the readers is used.
-/

namespace Nappy.Spec

variable {F : Type}

/-- The lines are blocks, one after the other, one for each record. -/
def Blocks {ρ : Type} (R : List Str → ρ → Prop) (ls : List Str) (recs : List ρ) : Prop :=
  ∃ Hs : List (List Str), ls = Hs.flatten ∧ List.Forall₂ R Hs recs

/-- Columns from rows: column number `j` holds entry number `j` of every row. -/
def columns {α : Type} (n : Nat) (rows : List (List α)) : List (List α) :=
  (List.range n).map fun j => rows.filterMap (·[j]?)

/-- Part number `j` of a list that is cut into parts of `k` values. -/
def part {α : Type} (k j : Nat) (l : List α) : List α := (l.drop (j * k)).take k

/-- The text on a line of its own; up to two annotations may follow it. -/
def TextOn (line s : Str) : Prop := ∃ g, Bare line g ∧ ItemOn g s

/-- A record of a format without a varying number of points: the mark, the numbers that follow it in its list, and what
follows this list. -/
structure Rec (ν F : Type) where
  x : F
  aux : List F
  vals : List ν

/-- A record that says how many points it has. -/
structure RecN (ξ ν F : Type) where
  x : ξ
  aux : List F
  texts : List Str
  nx : Int
  step : Int
  vals : List ν

/-- Record of 1010 and 1020: the mark and the auxiliary variables are one list, the other variables another. -/
def RecOn (cd : Codec F) (na n : Int) (H : List Str) (p : Rec F F) : Prop :=
  ∃ H1 H2, H = H1 ++ H2 ∧ ListOn cd.float (1 + na) H1 (p.x :: p.aux) ∧ ListOn cd.float n H2 p.vals

/-- An array of the given dimensions as one list, the last dimension running fastest. -/
def ArrayOn (cd : Codec F) (nx : List Int) (H : List Str) (t : Tree F) : Prop :=
  ∃ row, ListOn cd.float (nx.foldl (· * ·) 1) H row ∧ Shaped (nx.map Int.toNat) t ∧ leaves t <+: row

/-- Record of 2010, 3010 and 4010: an array follows for every variable. -/
def RecOn2010 (cd : Codec F) (na nv : Int) (nx : List Int) (H : List Str) (p : Rec (Tree F) F) : Prop :=
  ∃ H1 H2, H = H1 ++ H2 ∧ ListOn cd.float (1 + na) H1 (p.x :: p.aux) ∧ Blocks (ArrayOn cd nx) H2 p.vals ∧
    p.vals.length = nv.toNat ∧ 0 < nv ∧ nx ≠ []

/-- The points of a record of 2110 and 2160: for each one its coordinate and the variables. -/
def PointsOn (cd : Codec F) (nv : Int) (n : Int) (H : List Str) (pts : List (F × List F)) : Prop :=
  Blocks (fun H p => ListOn cd.float (nv + 1) H (p.1 :: p.2)) H pts ∧ pts.length = n.toNat

/-- Record of 2110. The first auxiliary variable is the number of points. -/
def RecOn2110 (cd : Codec F) (na nv : Int) (H : List Str) (p : RecN F (F × List F) F) : Prop :=
  ∃ H1 H2 a0, H = H1 ++ H2 ∧ ListOn cd.float (na + 1) H1 (p.x :: p.aux) ∧ p.aux[0]? = some a0 ∧
    cd.int a0 = .ok p.nx ∧ PointsOn cd nv p.nx H2 p.vals

/-- Record of 2310. The first three auxiliary variables are the number of points, the first value of the bounded
variable and its step. -/
def RecOn2310 (cd : Codec F) (na nv : Int) (H : List Str) (p : RecN F F F) : Prop :=
  ∃ H1 H2 a0 a1 a2, H = H1 ++ H2 ∧ ListOn cd.float (na + 1) H1 (p.x :: p.aux) ∧ p.aux[0]? = some a0 ∧
    p.aux[1]? = some a1 ∧ p.aux[2]? = some a2 ∧ cd.int a0 = .ok p.nx ∧ cd.int a2 = .ok p.step ∧
    ListOn cd.float (nv * p.nx) H2 p.vals

/-- Record of 2160: the mark is a word, and there are lines with texts between the numbers and the points. -/
def RecOn2160 (cd : Codec F) (na nc nv : Int) (H : List Str) (p : RecN Str (F × List F) F) : Prop :=
  ∃ H0 H1 T H2 a0, H = H0 ++ (H1 ++ (T ++ H2)) ∧ ListOn (fun s => .ok s) 1 H0 [p.x] ∧
    ListOn cd.float (na - nc) H1 p.aux ∧ p.aux[0]? = some a0 ∧ cd.int a0 = .ok p.nx ∧
    T.length = nc.toNat ∧ List.Forall₂ TextOn T p.texts ∧ PointsOn cd nv p.nx H2 p.vals

/-- The lines `ls` are records in the format of the first object, and the second object is the first one with the data
of these records. The marks of 2010 and the steps of 2310 are put after those that are there (see C26). -/
def DataOn (cd : Codec F) (ls : List Str) : Obj F → Obj F → Prop
  | .o1001 r, .o1001 r' => ∃ recs : List (F × List F),
      Blocks (fun H p => ListOn cd.float (1 + r.v.NV) H (p.1 :: p.2)) ls recs ∧
      r' = { r with X := recs.map (·.1), V := columns r.v.NV.toNat (recs.map (·.2)) }
  | .o1010 r, .o1010 r' => ∃ recs, Blocks (RecOn cd r.aux.NAUXV r.v.NV) ls recs ∧
      r' = { r with X := recs.map (·.x), A := columns r.aux.NAUXV.toNat (recs.map (·.aux)),
                    V := columns r.v.NV.toNat (recs.map (·.vals)) }
  | .o1020 r, .o1020 r' => ∃ recs, Blocks (RecOn cd r.aux.NAUXV (r.v.NV * r.NVPM)) ls recs ∧
      r' = { r with X := recs.map (·.x), A := columns r.aux.NAUXV.toNat (recs.map (·.aux)),
                    V := (List.range r.v.NV.toNat).map fun j =>
                      (recs.map fun p => part r.NVPM.toNat j p.vals).flatten }
  | .o2010 r, .o2010 r' => ∃ recs, Blocks (RecOn2010 cd r.aux.NAUXV r.v.NV r.NX) ls recs ∧
      r' = { r with X0 := r.X0 ++ recs.map (·.x), A := columns r.aux.NAUXV.toNat (recs.map (·.aux)),
                    V := columns r.v.NV.toNat (recs.map (·.vals)) }
  | .o2110 r, .o2110 r' => ∃ recs, Blocks (RecOn2110 cd r.aux.NAUXV r.v.NV) ls recs ∧
      r' = { r with NX := recs.map (·.nx), X := recs.map fun p => (p.x, p.vals.map (·.1)),
                    A := columns r.aux.NAUXV.toNat (recs.map (·.aux)),
                    V := (List.range r.v.NV.toNat).map fun j => recs.map fun p => p.vals.filterMap (·.2[j]?) }
  | .o2160 r, .o2160 r' => ∃ recs, Blocks (RecOn2160 cd r.aux.NAUXV r.aux.NAUXC r.v.NV) ls recs ∧
      r' = { r with NX := recs.map (·.nx), X := recs.map fun p => (p.x, p.vals.map (·.1)),
                    A := columns r.aux.NAUXV.toNat (recs.map fun p =>
                      (p.aux.take (r.aux.NAUXV - r.aux.NAUXC).toNat).map .num ++ p.texts.map .str),
                    V := (List.range r.v.NV.toNat).map fun j => recs.map fun p => p.vals.filterMap (·.2[j]?) }
  | .o2310 r, .o2310 r' => ∃ recs, Blocks (RecOn2310 cd r.aux.NAUXV r.v.NV) ls recs ∧
      r' = { r with NX := recs.map (·.nx), X := recs.map fun p => (p.x, p.aux[1]?.toList),
                    A := columns r.aux.NAUXV.toNat (recs.map (·.aux)),
                    V := (List.range r.v.NV.toNat).map fun j => recs.map fun p => part p.nx.toNat j p.vals,
                    DX := r.DX ++ recs.map fun p => cd.ofInt p.step }
  | _, _ => False

/-- Lines without a blank one, then blank ones. -/
def Upper (ls used : List Str) : Prop :=
  ∃ blanks, ls = used ++ blanks ∧ (∀ l ∈ used, ¬ Blank l) ∧ ∀ l ∈ blanks, Blank l

/-- The number of character variables is not negative (2160 only). -/
def CharCount : Obj F → Prop
  | .o2160 r => 0 ≤ r.aux.NAUXC
  | _ => True

/-- The data of two objects, one after the other. The first argument is the object before any data were read: the marks
of 2010 and the steps of 2310 that are in it are not repeated. Objects of different formats do not occur. -/
def joined : Obj F → Obj F → Obj F → Obj F
  | .o1001 _, .o1001 a, .o1001 b => .o1001 { a with X := a.X ++ b.X, V := List.zipWith (· ++ ·) a.V b.V }
  | .o1010 _, .o1010 a, .o1010 b => .o1010 { a with
      X := a.X ++ b.X, A := List.zipWith (· ++ ·) a.A b.A, V := List.zipWith (· ++ ·) a.V b.V }
  | .o1020 _, .o1020 a, .o1020 b => .o1020 { a with
      X := a.X ++ b.X, A := List.zipWith (· ++ ·) a.A b.A, V := List.zipWith (· ++ ·) a.V b.V }
  | .o2010 o, .o2010 a, .o2010 b => .o2010 { a with
      X0 := a.X0 ++ b.X0.drop o.X0.length, A := List.zipWith (· ++ ·) a.A b.A, V := List.zipWith (· ++ ·) a.V b.V }
  | .o2110 _, .o2110 a, .o2110 b => .o2110 { a with
      NX := a.NX ++ b.NX, X := a.X ++ b.X, A := List.zipWith (· ++ ·) a.A b.A, V := List.zipWith (· ++ ·) a.V b.V }
  | .o2160 _, .o2160 a, .o2160 b => .o2160 { a with
      NX := a.NX ++ b.NX, X := a.X ++ b.X, A := List.zipWith (· ++ ·) a.A b.A, V := List.zipWith (· ++ ·) a.V b.V }
  | .o2310 o, .o2310 a, .o2310 b => .o2310 { a with
      NX := a.NX ++ b.NX, X := a.X ++ b.X, A := List.zipWith (· ++ ·) a.A b.A, V := List.zipWith (· ++ ·) a.V b.V,
      DX := a.DX ++ b.DX.drop o.DX.length }
  | _, a, _ => a

end Nappy.Spec
