import Verif.Spec.Copy

/-! When two data sets count as the same. -/

namespace Nappy.Spec

variable {F : Type}

/-- What a file says: everything but the number of header lines (which follows from the rest), white space at the ends of
comment lines and what the number format `q` drops. -/
def content (q : F → F) (o : Obj F) : Obj F := withNLHEAD 0 (trimComments (mapValues q o))

end Nappy.Spec
