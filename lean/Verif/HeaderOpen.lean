import Verif.HeaderLemmas

/-! Whole headers: `openNA` accepts exactly the layouts of `Spec.Header`. -/

namespace Nappy

open Spec

variable {F : Type}

theorem reads_1001 (cd : Codec F) (k : Nat) : Reads triple (readHeader1001 cd k) (fun H a =>
    a.1.NIV = nivOf a.1.c.FFI ∧ a.1.X = [] ∧ a.1.V = [] ∧
      ∃ top ldx xn vs cs, H = top ++ ldx :: (xn ++ (vs ++ cs)) ∧ TopOn k top a.1.c a.2 ∧
        readItemsFromLine ldx (nivOf a.1.c.FFI) cd.float = .ok a.1.DX ∧
        NamesOn (nivOf a.1.c.FFI) xn a.1.XNAME ∧
        VarsOn cd vs a.1.v ∧
        ComsOn cs a.1.com) := by
  have t1 (c : Common) (ign : List Str) (dx : List F) (xn : List Str) : Reads triple (fun ls => do
      let (v, ls) ← readVars cd ls
      let (com, ls) ← readComments ls
      .ok (NA1001.mk c (nivOf c.FFI) dx (readItemsFromLines xn) v com [] [], ign, ls)) _ :=
    Reads.bind (reads_vars cd) fun v => Reads.bind reads_coms fun com =>
      Reads.pure triple (NA1001.mk c (nivOf c.FFI) dx (readItemsFromLines xn) v com [] [], ign)
  have n1 (c : Common) (ign : List Str) (dx : List F) := Reads.lines (nivOf c.FFI).toNat (t1 c ign dx)
  have n2 (c : Common) (ign : List Str) (l : Str) := Reads.res (readItemsFromLine l (nivOf c.FFI) cd.float) (n1 c ign)
  have m2 (c : Common) (ign : List Str) := Reads.line (n2 c ign)
  refine Reads.congr (Reads.bind (reads_top k) fun a => m2 a.1 a.2) ?_
  rintro H ⟨r, ign⟩
  simp only [namesOn_iff]
  constructor
  · rintro ⟨⟨c, ign'⟩, top, _, rfl, htop, ldx, _, rfl, dx, hdx, xn, _, rfl, hxn, v, vs, _, rfl, hv, com, cs, _, rfl,
      hc, rfl, e⟩
    injection e with e1 e2
    subst e1 e2
    exact ⟨rfl, rfl, rfl, top, ldx, xn, vs, cs, by simp, htop, hdx, ⟨hxn, rfl⟩, hv, hc⟩
  · rintro ⟨e1, z0, z1, top, ldx, xn, vs, cs, rfl, htop, hdx, ⟨hxn, hx⟩, hv, hc⟩
    refine ⟨(r.c, ign), top, _, rfl, htop, ldx, _, rfl, r.DX, hdx, xn, _, rfl, hxn, r.v, vs, _, rfl, hv, r.com, cs,
        [], by simp, hc, rfl, ?_⟩
    cases r
    simp_all

theorem reads_1010 (cd : Codec F) (k : Nat) : Reads triple (readHeader1010 cd k) (fun H a =>
    a.1.NIV = nivOf a.1.c.FFI ∧ a.1.X = [] ∧ a.1.A = [] ∧ a.1.V = [] ∧
      ∃ top ldx xn vs as cs, H = top ++ ldx :: (xn ++ (vs ++ (as ++ cs))) ∧ TopOn k top a.1.c a.2 ∧
        readItemsFromLine ldx (nivOf a.1.c.FFI) cd.float = .ok a.1.DX ∧
        NamesOn (nivOf a.1.c.FFI) xn a.1.XNAME ∧
        VarsOn cd vs a.1.v ∧
        AuxOn cd as a.1.aux ∧
        ComsOn cs a.1.com) := by
  have t1 (c : Common) (ign : List Str) (dx : List F) (xn : List Str) : Reads triple (fun ls => do
      let (v, ls) ← readVars cd ls
      let (aux, ls) ← readAux cd ls
      let (com, ls) ← readComments ls
      .ok (NA1010.mk c (nivOf c.FFI) dx (readItemsFromLines xn) v aux com [] [] [], ign, ls)) _ :=
    Reads.bind (reads_vars cd) fun v => Reads.bind (reads_aux cd) fun aux => Reads.bind reads_coms fun com =>
      Reads.pure triple (NA1010.mk c (nivOf c.FFI) dx (readItemsFromLines xn) v aux com [] [] [], ign)
  have n1 (c : Common) (ign : List Str) (dx : List F) := Reads.lines (nivOf c.FFI).toNat (t1 c ign dx)
  have n2 (c : Common) (ign : List Str) (l : Str) := Reads.res (readItemsFromLine l (nivOf c.FFI) cd.float) (n1 c ign)
  have m2 (c : Common) (ign : List Str) := Reads.line (n2 c ign)
  refine Reads.congr (Reads.bind (reads_top k) fun a => m2 a.1 a.2) ?_
  rintro H ⟨r, ign⟩
  simp only [namesOn_iff]
  constructor
  · rintro ⟨⟨c, ign'⟩, top, _, rfl, htop, ldx, _, rfl, dx, hdx, xn, _, rfl, hxn, v, vs, _, rfl, hv, aux, as, _, rfl,
      ha, com, cs, _, rfl, hc, rfl, e⟩
    injection e with e1 e2
    subst e1 e2
    exact ⟨rfl, rfl, rfl, rfl, top, ldx, xn, vs, as, cs, by simp, htop, hdx, ⟨hxn, rfl⟩, hv, ha, hc⟩
  · rintro ⟨e1, z0, z1, z2, top, ldx, xn, vs, as, cs, rfl, htop, hdx, ⟨hxn, hx⟩, hv, ha, hc⟩
    refine ⟨(r.c, ign), top, _, rfl, htop, ldx, _, rfl, r.DX, hdx, xn, _, rfl, hxn, r.v, vs, _, rfl, hv, r.aux, as, _,
        rfl, ha, r.com, cs, [], by simp, hc, rfl, ?_⟩
    cases r
    simp_all

theorem reads_1020 (cd : Codec F) (k : Nat) : Reads triple (readHeader1020 cd k) (fun H a =>
    a.1.NIV = nivOf a.1.c.FFI ∧ a.1.X = [] ∧ a.1.A = [] ∧ a.1.V = [] ∧
      ∃ top ldx lnvpm xn vs as cs, H = top ++ ldx :: lnvpm :: (xn ++ (vs ++ (as ++ cs))) ∧ TopOn k top a.1.c a.2 ∧
        readItemsFromLine ldx (nivOf a.1.c.FFI) cd.float = .ok a.1.DX ∧
        IntOn lnvpm a.1.NVPM ∧
        NamesOn (nivOf a.1.c.FFI) xn a.1.XNAME ∧
        VarsOn cd vs a.1.v ∧
        AuxOn cd as a.1.aux ∧
        ComsOn cs a.1.com) := by
  have t1 (c : Common) (ign : List Str) (dx : List F) (nvpm : Int) (xn : List Str) : Reads triple (fun ls => do
      let (v, ls) ← readVars cd ls
      let (aux, ls) ← readAux cd ls
      let (com, ls) ← readComments ls
      .ok (NA1020.mk c (nivOf c.FFI) dx nvpm (readItemsFromLines xn) v aux com [] [] [], ign, ls)) _ :=
    Reads.bind (reads_vars cd) fun v => Reads.bind (reads_aux cd) fun aux => Reads.bind reads_coms fun com =>
      Reads.pure triple (NA1020.mk c (nivOf c.FFI) dx nvpm (readItemsFromLines xn) v aux com [] [] [], ign)
  have n1 (c : Common) (ign : List Str) (dx : List F) (nvpm : Int) := Reads.lines (nivOf c.FFI).toNat (t1 c ign dx nvpm)
  have m2 (c : Common) (ign : List Str) (dx : List F) := Reads.bind2 reads_int (n1 c ign dx)
  have n3 (c : Common) (ign : List Str) (l : Str) := Reads.res (readItemsFromLine l (nivOf c.FFI) cd.float) (m2 c ign)
  have m3 (c : Common) (ign : List Str) := Reads.line (n3 c ign)
  refine Reads.congr (Reads.bind (reads_top k) fun a => m3 a.1 a.2) ?_
  rintro H ⟨r, ign⟩
  simp only [namesOn_iff]
  constructor
  · rintro ⟨⟨c, ign'⟩, top, _, rfl, htop, ldx, _, rfl, dx, hdx, nvpm, _, _, rfl, ⟨lnvpm, rfl, hnvpm⟩, xn, _, rfl, hxn,
      v, vs, _, rfl, hv, aux, as, _, rfl, ha, com, cs, _, rfl, hc, rfl, e⟩
    injection e with e1 e2
    subst e1 e2
    exact ⟨rfl, rfl, rfl, rfl, top, ldx, lnvpm, xn, vs, as, cs, by simp, htop, hdx, hnvpm, ⟨hxn, rfl⟩, hv, ha, hc⟩
  · rintro ⟨e1, z0, z1, z2, top, ldx, lnvpm, xn, vs, as, cs, rfl, htop, hdx, hnvpm, ⟨hxn, hx⟩, hv, ha, hc⟩
    refine ⟨(r.c, ign), top, _, rfl, htop, ldx, _, rfl, r.DX, hdx, r.NVPM, [lnvpm], _, rfl, ⟨lnvpm, rfl, hnvpm⟩, xn,
        _, rfl, hxn, r.v, vs, _, rfl, hv, r.aux, as, _, rfl, ha, r.com, cs, [], by simp, hc, rfl, ?_⟩
    cases r
    simp_all

theorem reads_2010 (cd : Codec F) (k : Nat) : Reads triple (readHeader2010 cd k) (fun H a =>
    a.1.NIV = nivOf a.1.c.FFI ∧ a.1.X0 = [] ∧ a.1.A = [] ∧ a.1.V = [] ∧
      ∃ top ldx lnx lnxdef axes xn vs as cs, H = top ++ ldx :: lnx :: lnxdef :: (axes ++ (xn ++ (vs ++ (as ++ cs)))) ∧
          TopOn k top a.1.c a.2 ∧
        readItemsFromLine ldx (nivOf a.1.c.FFI) cd.float = .ok a.1.DX.reverse ∧
        readItemsFromLine lnx (nivOf a.1.c.FFI - 1) pyInt = .ok a.1.NX.reverse ∧
        readItemsFromLine lnxdef (nivOf a.1.c.FFI - 1) pyInt = .ok a.1.NXDEF.reverse ∧
        AxesOn cd a.1.NXDEF axes a.1.XB.reverse ∧
        NamesOn (nivOf a.1.c.FFI) xn a.1.XNAME.reverse ∧
        VarsOn cd vs a.1.v ∧
        AuxOn cd as a.1.aux ∧
        ComsOn cs a.1.com) := by
  have t1 (c : Common) (ign : List Str) (dx : List F) (nx : List Int) (nxdef : List Int) (xb : List (List F)) (xn :
      List Str) : Reads triple (fun ls => do
      let (v, ls) ← readVars cd ls
      let (aux, ls) ← readAux cd ls
      let (com, ls) ← readComments ls
      .ok (NA2010.mk c (nivOf c.FFI) (dx.reverse) (nx.reverse) (nxdef.reverse) [] (xb.reverse) ((readItemsFromLines
          xn).reverse) v aux com [] [], ign, ls)) _ :=
    Reads.bind (reads_vars cd) fun v => Reads.bind (reads_aux cd) fun aux => Reads.bind reads_coms fun com =>
      Reads.pure triple (NA2010.mk c (nivOf c.FFI) (dx.reverse) (nx.reverse) (nxdef.reverse) [] (xb.reverse)
          ((readItemsFromLines xn).reverse) v aux com [] [], ign)
  have n1 (c : Common) (ign : List Str) (dx : List F) (nx : List Int) (nxdef : List Int) (xb : List (List F)) :=
      Reads.lines (nivOf c.FFI).toNat (t1 c ign dx nx nxdef xb)
  have m2 (c : Common) (ign : List Str) (dx : List F) (nx : List Int) (nxdef : List Int) := Reads.bind2 (reads_axes cd
      nxdef.reverse) (n1 c ign dx nx nxdef)
  have n3 (c : Common) (ign : List Str) (dx : List F) (nx : List Int) (l : Str) := Reads.res (readItemsFromLine l
      (nivOf c.FFI - 1) pyInt) (m2 c ign dx nx)
  have m3 (c : Common) (ign : List Str) (dx : List F) (nx : List Int) := Reads.line (n3 c ign dx nx)
  have n4 (c : Common) (ign : List Str) (dx : List F) (l : Str) := Reads.res (readItemsFromLine l (nivOf c.FFI - 1)
      pyInt) (m3 c ign dx)
  have m4 (c : Common) (ign : List Str) (dx : List F) := Reads.line (n4 c ign dx)
  have n5 (c : Common) (ign : List Str) (l : Str) := Reads.res (readItemsFromLine l (nivOf c.FFI) cd.float) (m4 c ign)
  have m5 (c : Common) (ign : List Str) := Reads.line (n5 c ign)
  refine Reads.congr (Reads.bind (reads_top k) fun a => m5 a.1 a.2) ?_
  rintro H ⟨r, ign⟩
  simp only [namesOn_iff]
  constructor
  · rintro ⟨⟨c, ign'⟩, top, _, rfl, htop, ldx, _, rfl, dx, hdx, lnx, _, rfl, nx, hnx, lnxdef, _, rfl, nxdef, hnxdef,
      xb, axes, _, rfl, hxb, xn, _, rfl, hxn, v, vs, _, rfl, hv, aux, as, _, rfl, ha, com, cs, _, rfl, hc, rfl, e⟩
    injection e with e1 e2
    subst e1 e2
    exact ⟨rfl, rfl, rfl, rfl, top, ldx, lnx, lnxdef, axes, xn, vs, as, cs, by simp, htop, (by simpa using hdx), (by
        simpa using hnx), (by simpa using hnxdef), (by simpa using hxb), ⟨hxn, List.reverse_reverse _⟩, hv, ha, hc⟩
  · rintro ⟨e1, z0, z1, z2, top, ldx, lnx, lnxdef, axes, xn, vs, as, cs, rfl, htop, hdx, hnx, hnxdef, hxb, ⟨hxn, hx⟩,
      hv, ha, hc⟩
    refine ⟨(r.c, ign), top, _, rfl, htop, ldx, _, rfl, r.DX.reverse, hdx, lnx, _, rfl, r.NX.reverse, hnx, lnxdef, _,
        rfl, r.NXDEF.reverse, hnxdef, r.XB.reverse, axes, _, rfl, (by simpa using hxb), xn, _, rfl, hxn, r.v, vs, _,
            rfl, hv, r.aux, as, _, rfl, ha, r.com, cs, [], by simp, hc, rfl, ?_⟩
    cases r
    simp_all [← hx]

theorem reads_2110 (cd : Codec F) (k : Nat) : Reads triple (readHeader2110 cd k) (fun H a =>
    a.1.NIV = nivOf a.1.c.FFI ∧ a.1.NX = [] ∧ a.1.X = [] ∧ a.1.A = [] ∧ a.1.V = [] ∧
      ∃ top ldx xn vs as cs, H = top ++ ldx :: (xn ++ (vs ++ (as ++ cs))) ∧ TopOn k top a.1.c a.2 ∧
        readItemsFromLine ldx (nivOf a.1.c.FFI) cd.float = .ok a.1.DX.reverse ∧
        NamesOn (nivOf a.1.c.FFI) xn a.1.XNAME.reverse ∧
        VarsOn cd vs a.1.v ∧
        AuxOn cd as a.1.aux ∧
        ComsOn cs a.1.com) := by
  have t1 (c : Common) (ign : List Str) (dx : List F) (xn : List Str) : Reads triple (fun ls => do
      let (v, ls) ← readVars cd ls
      let (aux, ls) ← readAux cd ls
      let (com, ls) ← readComments ls
      .ok (NA2110.mk c (nivOf c.FFI) (dx.reverse) ((readItemsFromLines xn).reverse) v aux com [] [] [] [], ign, ls)) _
          :=
    Reads.bind (reads_vars cd) fun v => Reads.bind (reads_aux cd) fun aux => Reads.bind reads_coms fun com =>
      Reads.pure triple (NA2110.mk c (nivOf c.FFI) (dx.reverse) ((readItemsFromLines xn).reverse) v aux com [] [] []
          [], ign)
  have n1 (c : Common) (ign : List Str) (dx : List F) := Reads.lines (nivOf c.FFI).toNat (t1 c ign dx)
  have n2 (c : Common) (ign : List Str) (l : Str) := Reads.res (readItemsFromLine l (nivOf c.FFI) cd.float) (n1 c ign)
  have m2 (c : Common) (ign : List Str) := Reads.line (n2 c ign)
  refine Reads.congr (Reads.bind (reads_top k) fun a => m2 a.1 a.2) ?_
  rintro H ⟨r, ign⟩
  simp only [namesOn_iff]
  constructor
  · rintro ⟨⟨c, ign'⟩, top, _, rfl, htop, ldx, _, rfl, dx, hdx, xn, _, rfl, hxn, v, vs, _, rfl, hv, aux, as, _, rfl,
      ha, com, cs, _, rfl, hc, rfl, e⟩
    injection e with e1 e2
    subst e1 e2
    exact ⟨rfl, rfl, rfl, rfl, rfl, top, ldx, xn, vs, as, cs, by simp, htop, (by simpa using hdx), ⟨hxn,
        List.reverse_reverse _⟩, hv, ha, hc⟩
  · rintro ⟨e1, z0, z1, z2, z3, top, ldx, xn, vs, as, cs, rfl, htop, hdx, ⟨hxn, hx⟩, hv, ha, hc⟩
    refine ⟨(r.c, ign), top, _, rfl, htop, ldx, _, rfl, r.DX.reverse, hdx, xn, _, rfl, hxn, r.v, vs, _, rfl, hv,
        r.aux, as, _, rfl, ha, r.com, cs, [], by simp, hc, rfl, ?_⟩
    cases r
    simp_all [← hx]

theorem reads_2310 (cd : Codec F) (k : Nat) : Reads triple (readHeader2310 cd k) (fun H a =>
    a.1.NIV = nivOf a.1.c.FFI ∧ a.1.NX = [] ∧ a.1.X = [] ∧ a.1.A = [] ∧ a.1.V = [] ∧
      ∃ top ldx xn vs as cs, H = top ++ ldx :: (xn ++ (vs ++ (as ++ cs))) ∧ TopOn k top a.1.c a.2 ∧
        readItemsFromLine ldx (1) cd.float = .ok a.1.DX ∧
        NamesOn (nivOf a.1.c.FFI) xn a.1.XNAME.reverse ∧
        VarsOn cd vs a.1.v ∧
        AuxOn cd as a.1.aux ∧
        ComsOn cs a.1.com) := by
  have t1 (c : Common) (ign : List Str) (dx : List F) (xn : List Str) : Reads triple (fun ls => do
      let (v, ls) ← readVars cd ls
      let (aux, ls) ← readAux cd ls
      let (com, ls) ← readComments ls
      .ok (NA2110.mk c (nivOf c.FFI) dx ((readItemsFromLines xn).reverse) v aux com [] [] [] [], ign, ls)) _ :=
    Reads.bind (reads_vars cd) fun v => Reads.bind (reads_aux cd) fun aux => Reads.bind reads_coms fun com =>
      Reads.pure triple (NA2110.mk c (nivOf c.FFI) dx ((readItemsFromLines xn).reverse) v aux com [] [] [] [], ign)
  have n1 (c : Common) (ign : List Str) (dx : List F) := Reads.lines (nivOf c.FFI).toNat (t1 c ign dx)
  have n2 (c : Common) (ign : List Str) (l : Str) := Reads.res (readItemsFromLine l (1) cd.float) (n1 c ign)
  have m2 (c : Common) (ign : List Str) := Reads.line (n2 c ign)
  refine Reads.congr (Reads.bind (reads_top k) fun a => m2 a.1 a.2) ?_
  rintro H ⟨r, ign⟩
  simp only [namesOn_iff]
  constructor
  · rintro ⟨⟨c, ign'⟩, top, _, rfl, htop, ldx, _, rfl, dx, hdx, xn, _, rfl, hxn, v, vs, _, rfl, hv, aux, as, _, rfl,
      ha, com, cs, _, rfl, hc, rfl, e⟩
    injection e with e1 e2
    subst e1 e2
    exact ⟨rfl, rfl, rfl, rfl, rfl, top, ldx, xn, vs, as, cs, by simp, htop, hdx, ⟨hxn, List.reverse_reverse _⟩, hv,
        ha, hc⟩
  · rintro ⟨e1, z0, z1, z2, z3, top, ldx, xn, vs, as, cs, rfl, htop, hdx, ⟨hxn, hx⟩, hv, ha, hc⟩
    refine ⟨(r.c, ign), top, _, rfl, htop, ldx, _, rfl, r.DX, hdx, xn, _, rfl, hxn, r.v, vs, _, rfl, hv, r.aux, as, _,
        rfl, ha, r.com, cs, [], by simp, hc, rfl, ?_⟩
    cases r
    simp_all [← hx]

theorem reads_2160 (cd : Codec F) (k : Nat) : Reads triple (readHeader2160 cd k) (fun H a =>
    a.1.NIV = nivOf a.1.c.FFI ∧ a.1.ignored = a.2 ∧ a.1.NX = [] ∧ a.1.X = [] ∧ a.1.A = [] ∧ a.1.V = [] ∧
      ∃ top ldx llenx xn vs as cs, H = top ++ ldx :: llenx :: (xn ++ (vs ++ (as ++ cs))) ∧ TopOn k top a.1.c a.2 ∧
        readItemsFromLine ldx (1) cd.float = .ok a.1.DX ∧
        cd.float (readItem llenx) = .ok a.1.LENX ∧
        NamesOn (nivOf a.1.c.FFI) xn a.1.XNAME.reverse ∧
        VarsOn cd vs a.1.v ∧
        CharAuxOn cd as a.1.aux ∧
        ComsOn cs a.1.com) := by
  have t1 (c : Common) (ign : List Str) (dx : List F) (lenx : F) (xn : List Str) : Reads triple (fun ls => do
      let (v, ls) ← readVars cd ls
      let (aux, ls) ← readCharAux cd ls
      let (com, ls) ← readComments ls
      .ok (NA2160.mk c (nivOf c.FFI) dx lenx ((readItemsFromLines xn).reverse) v aux com ign [] [] [] [], ign, ls)) _ :=
    Reads.bind (reads_vars cd) fun v => Reads.bind (reads_charAux cd) fun aux => Reads.bind reads_coms fun com =>
      Reads.pure triple (NA2160.mk c (nivOf c.FFI) dx lenx ((readItemsFromLines xn).reverse) v aux com ign [] [] []
          [], ign)
  have n1 (c : Common) (ign : List Str) (dx : List F) (lenx : F) := Reads.lines (nivOf c.FFI).toNat (t1 c ign dx lenx)
  have n2 (c : Common) (ign : List Str) (dx : List F) (l : Str) := Reads.res (cd.float (readItem l)) (n1 c ign dx)
  have m2 (c : Common) (ign : List Str) (dx : List F) := Reads.line (n2 c ign dx)
  have n3 (c : Common) (ign : List Str) (l : Str) := Reads.res (readItemsFromLine l (1) cd.float) (m2 c ign)
  have m3 (c : Common) (ign : List Str) := Reads.line (n3 c ign)
  refine Reads.congr (Reads.bind (reads_top k) fun a => m3 a.1 a.2) ?_
  rintro H ⟨r, ign⟩
  simp only [namesOn_iff]
  constructor
  · rintro ⟨⟨c, ign'⟩, top, _, rfl, htop, ldx, _, rfl, dx, hdx, llenx, _, rfl, lenx, hlenx, xn, _, rfl, hxn, v, vs, _,
      rfl, hv, aux, as, _, rfl, ha, com, cs, _, rfl, hc, rfl, e⟩
    injection e with e1 e2
    subst e1 e2
    exact ⟨rfl, rfl, rfl, rfl, rfl, rfl, top, ldx, llenx, xn, vs, as, cs, by simp, htop, hdx, hlenx, ⟨hxn,
        List.reverse_reverse _⟩, hv, ha, hc⟩
  · rintro ⟨e1, e0, z0, z1, z2, z3, top, ldx, llenx, xn, vs, as, cs, rfl, htop, hdx, hlenx, ⟨hxn, hx⟩, hv, ha, hc⟩
    refine ⟨(r.c, ign), top, _, rfl, htop, ldx, _, rfl, r.DX, hdx, llenx, _, rfl, r.LENX, hlenx, xn, _, rfl, hxn, r.v,
        vs, _, rfl, hv, r.aux, as, _, rfl, ha, r.com, cs, [], by simp, hc, rfl, ?_⟩
    cases r
    simp_all [← hx]

end Nappy
