import Verif.Spec.Data
import Verif.Spec.Utils
import Verif.DictFile

/-! Specification vocabulary for copying a file: reading it and writing the dictionary of what was read. -/

namespace Nappy.Spec

variable {F : Type}

/-- Well formed, and of the kinds that survive being written and read (C06-C12): in 3010 and 4010 `NXDEF` reads the
same backwards, in 2310 there is one variable or one value per mark. -/
def Faithful (cd : Codec F) (q : F → F) : Obj F → Prop
  | .o1001 r => Wf1001 r
  | .o1010 r => Wf1010 r
  | .o1020 r => Wf1020 r
  | .o2010 r => Wf2010 r ∧ r.NXDEF.reverse = r.NXDEF
  | .o2110 r => Wf2110 (fun a => cd.trunc (q a)) r
  | .o2160 r => ∃ N T, Wf2160 (fun a => cd.trunc (q a)) r N T
  | .o2310 r => Wf2310 (fun a => cd.trunc (q a)) (fun a => (cd.trunc (q a)).map cd.ofInt) r ∧
      (r.v.NV = 1 ∨ ∀ n ∈ r.NX, n = 1)

/-- A number, changed; a text, as it is. -/
def mapCell (q : F → F) : Cell F → Cell F
  | .num x => .num (q x)
  | .str s => .str s

/-- The object with every data value changed. -/
def mapValues (q : F → F) : Obj F → Obj F
  | .o1001 r => .o1001 { r with X := r.X.map q, V := r.V.map (fun col => col.map q) }
  | .o1010 r => .o1010 { r with X := r.X.map q, A := r.A.map (fun col => col.map q),
                                V := r.V.map (fun col => col.map q) }
  | .o1020 r => .o1020 { r with X := r.X.map q, A := r.A.map (fun col => col.map q),
                                V := r.V.map (fun col => col.map q) }
  | .o2010 r => .o2010 { r with X0 := r.X0.map q, XB := r.XB.map (fun x => x.map q),
                                A := r.A.map (fun col => col.map q), V := r.V.map (fun col => col.map (mapTree q)) }
  | .o2110 r => .o2110 { r with X := r.X.map (fun x => (q x.1, x.2.map q)), A := r.A.map (fun col => col.map q),
                                V := r.V.map (fun vn => vn.map (fun l => l.map q)) }
  | .o2310 r => .o2310 { r with X := r.X.map (fun x => (q x.1, x.2.map q)), A := r.A.map (fun col => col.map q),
                                V := r.V.map (fun vn => vn.map (fun l => l.map q)) }
  | .o2160 r => .o2160 { r with X := r.X.map (fun x => (x.1, x.2.map q)),
                                A := r.A.map (fun col => col.map (mapCell q)),
                                V := r.V.map (fun vn => vn.map (fun l => l.map q)) }

/-- The object with white space at both ends of its comment lines taken off. -/
def trimComments : Obj F → Obj F
  | .o1001 r => .o1001 { r with com := trimCom r.com }
  | .o1010 r => .o1010 { r with com := trimCom r.com }
  | .o1020 r => .o1020 { r with com := trimCom r.com }
  | .o2010 r => .o2010 { r with com := trimCom r.com }
  | .o2110 r => .o2110 { r with com := trimCom r.com }
  | .o2310 r => .o2310 { r with com := trimCom r.com }
  | .o2160 r => .o2160 { r with com := trimCom r.com }

/-- Reading a file: opening it and reading its data. -/
def readFile (cd : Codec F) (ignoreLines : Nat) (text : Str) : Res (Obj F) := do
  let o ← openNA cd ignoreLines text
  o.readData cd text

/-- Copying a file: `openNAFile(f).getNADict()`, then `openNAFile(g, "w", na_dict).write(...)`. The result is what is
done to the new file. -/
def copyFile (env : Env F) (ignoreLines : Nat) (text : Str) : Res Out := do
  let o ← readFile env.cd ignoreLines text
  let (_, out) ← writeDict env false (dictOf o.ignored o)
  .ok out

end Nappy.Spec
