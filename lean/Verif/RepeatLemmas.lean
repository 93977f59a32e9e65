import Verif.ShapeLemmas
import Verif.WriteSpec
import Verif.Spec.Data

/-! Lemmas about repeated calls of `readData` and about ignored leading lines. -/

namespace Nappy

open Spec

variable {F : Type}

/-! ### repeated calls -/

theorem readTimes_fix {cd : Codec F} {text : Str} {o : Obj F} (h : o.readData cd text = .ok o) (n : Nat) :
    readTimes cd text n o = .ok o := by
  induction n with
  | zero => rfl
  | succ n ih => unfold readTimes; rw [h]; exact ih

/-- A change of the start state that every pass of the loop carries along. -/
theorem readLoop_map {σ : Type} {step : σ → List Str → Res (σ × List Str)} {g : σ → σ}
    (hg : ∀ st ls st' ls', step st ls = .ok (st', ls') → step (g st) ls = .ok (g st', ls'))
    {k : Nat} {st st' : σ} {ls : List Str} (h : readLoop step k st ls = .ok st') :
    readLoop step k (g st) ls = .ok (g st') := by
  induction k generalizing st ls with
  | zero =>
    cases ls with
    | nil => injection h with h; subst h; rfl
    | cons l ls => cases h
  | succ k ih =>
    cases ls with
    | nil => injection h with h; subst h; rfl
    | cons l ls =>
      unfold readLoop at h ⊢
      obtain ⟨⟨s1, l1⟩, h1, h⟩ := ok_of_bind h
      rw [hg _ _ _ _ h1]
      exact ih h

theorem readDataWith_map {σ : Type} {step : σ → List Str → Res (σ × List Str)} {g : σ → σ}
    (hg : ∀ st ls st' ls', step st ls = .ok (st', ls') → step (g st) ls = .ok (g st', ls'))
    {st st' : σ} {text : Str} {n : Int} (h : readDataWith step st text n = .ok st') :
    readDataWith step (g st) text n = .ok (g st') := by
  unfold readDataWith at h ⊢
  obtain ⟨ls, h1, h⟩ := ok_of_bind h
  rw [h1]
  exact readLoop_map hg h

theorem step2010_map {cd : Codec F} {na : Int} {nx : List Int} (p : List F) (st : Arr2010 F)
    (ls : List Str) (st' : Arr2010 F) (ls' : List Str) (h : step2010 cd na nx st ls = .ok (st', ls')) :
    step2010 cd na nx { st with X0 := p ++ st.X0 } ls = .ok ({ st' with X0 := p ++ st'.X0 }, ls') := by
  unfold step2010 at h ⊢
  obtain ⟨⟨st1, ls1⟩, hd, h⟩ := ok_of_bind h
  unfold data1_2010 at hd
  obtain ⟨⟨xv, rest⟩, hu, hd⟩ := ok_of_bind hd
  cases xv with
  | nil => cases hd
  | cons x v =>
    obtain ⟨cols, hc, hd⟩ := ok_of_bind hd
    injection hd with hd
    obtain ⟨e1, e2⟩ := Prod.mk.inj hd
    subst e1 e2
    unfold data1_2010
    rw [hu]
    simp only [ok_bind]
    rw [hc]
    simp only [ok_bind]
    unfold data2_2010 at h ⊢
    dsimp only at h ⊢
    split at h
    · cases h
    · rename_i hv
      rw [if_neg hv]
      obtain ⟨⟨V', rest2⟩, hp, h⟩ := ok_of_bind h
      injection h with h
      obtain ⟨e3, e4⟩ := Prod.mk.inj h
      subst e3 e4
      rw [hp]
      simp

theorem readData2010_map {cd : Codec F} {text : Str} {r r' : NA2010 F} (p : List F)
    (h : readData2010 cd text r = .ok r') :
    readData2010 cd text { r with X0 := p ++ r.X0 } = .ok { r' with X0 := p ++ r'.X0 } := by
  unfold readData2010 at h ⊢
  obtain ⟨a, h1, h⟩ := ok_of_bind h
  injection h with h
  subst h
  have := readDataWith_map (g := fun st => { st with X0 := p ++ st.X0 }) (step2010_map p) h1
  dsimp only at this ⊢
  rw [this]
  rfl

theorem readTimes_step {cd : Codec F} {text : Str} {o o' : Obj F} (h : o.readData cd text = .ok o') (n : Nat) :
    readTimes cd text (n + 1) o = readTimes cd text n o' := by
  rw [readTimes, h]; rfl

theorem obj_2010 {cd : Codec F} {text : Str} {r r' : NA2010 F} (h : readData2010 cd text r = .ok r') :
    (Obj.o2010 r).readData cd text = .ok (.o2010 r') := by
  unfold Obj.readData; dsimp only; rw [h]; rfl

theorem obj_2310 {cd : Codec F} {text : Str} {r r' : NA2110 F} (h : readData2310 cd text r = .ok r') :
    (Obj.o2310 r).readData cd text = .ok (.o2310 r') := by
  unfold Obj.readData; dsimp only; rw [h]; rfl

theorem readTimes_2010 {cd : Codec F} {text : Str} {r r' : NA2010 F} (h0 : r.X0 = [])
    (h : readData2010 cd text r = .ok r') (n : Nat) :
    readTimes cd text n (.o2010 r) = .ok (.o2010 (if n = 0 then r else { r' with X0 := copies n r'.X0 })) := by
  have hstep : ∀ p, readData2010 cd text { r' with X0 := p } = .ok { r' with X0 := p ++ r'.X0 } := by
    intro p
    have h1 := readData2010_map p h
    rw [← h1]
    unfold readData2010 at h
    obtain ⟨a, h2, h⟩ := ok_of_bind h
    injection h with h
    subst h
    unfold readData2010
    dsimp only
    rw [h0, List.append_nil]
  have hgo : ∀ n p, readTimes cd text n (.o2010 { r' with X0 := p })
      = .ok (.o2010 { r' with X0 := p ++ copies n r'.X0 }) := by
    intro n
    induction n with
    | zero => intro p; simp [readTimes, copies]
    | succ n ih =>
      intro p
      rw [readTimes_step (obj_2010 (hstep p)), ih]
      simp [copies]
  cases n with
  | zero => rfl
  | succ n =>
    rw [readTimes_step (obj_2010 h)]
    have := hgo n r'.X0
    rw [show ({ r' with X0 := r'.X0 } : NA2010 F) = r' from rfl] at this
    rw [this]
    simp [copies]

theorem step2310_dx {cd : Codec F} {na nv : Int} {st : Arr2110 F}
    {ls : List Str} {st' : Arr2110 F} {ls' : List Str} (h : step2310 cd na nv st ls = .ok (st', ls')) :
    ∃ new, ∀ p, step2310 cd na nv { st with DX := p } ls = .ok ({ st' with DX := p ++ new }, ls') := by
  unfold step2310 at h ⊢
  obtain ⟨⟨st1, nx, ls1⟩, hd, h⟩ := ok_of_bind h
  unfold data1_2310 at hd
  obtain ⟨⟨xv, rest⟩, hu, hd⟩ := ok_of_bind hd
  cases xv with
  | nil => cases hd
  | cons x v =>
    obtain ⟨cols, hc, hd⟩ := ok_of_bind hd
    obtain ⟨a1, h1, hd⟩ := ok_of_bind hd
    obtain ⟨a0, h2, hd⟩ := ok_of_bind hd
    obtain ⟨nx', h3, hd⟩ := ok_of_bind hd
    obtain ⟨a2, h4, hd⟩ := ok_of_bind hd
    obtain ⟨d, h5, hd⟩ := ok_of_bind hd
    injection hd with hd
    obtain ⟨e2, hd⟩ := Prod.mk.inj hd
    obtain ⟨e3, e4⟩ := Prod.mk.inj hd
    subst e2 e3 e4
    refine ⟨[cd.ofInt d], fun p => ?_⟩
    unfold data1_2310
    rw [hu]
    simp only [ok_bind]
    rw [hc, h1, h2]
    simp only [ok_bind]
    rw [h3, h4]
    simp only [ok_bind]
    rw [h5]
    simp only [ok_bind]
    unfold data2_2310 at h ⊢
    obtain ⟨⟨vs, ls2⟩, hu2, h⟩ := ok_of_bind h
    obtain ⟨cs, hb, h⟩ := ok_of_bind h
    injection h with h
    obtain ⟨e6, e7⟩ := Prod.mk.inj h
    subst e6 e7
    rw [hu2]
    simp only [ok_bind]
    rw [hb]
    simp

theorem readLoop2310_dx {cd : Codec F} {na nv : Int} {k : Nat} {st st' : Arr2110 F} {ls : List Str}
    (h : readLoop (step2310 cd na nv) k st ls = .ok st') :
    ∃ new, ∀ p, readLoop (step2310 cd na nv) k { st with DX := p } ls
      = .ok { st' with DX := p ++ new } := by
  induction k generalizing st ls with
  | zero =>
    cases ls with
    | nil => injection h with h; subst h; exact ⟨[], fun p => by simp [readLoop]⟩
    | cons l ls => cases h
  | succ k ih =>
    cases ls with
    | nil => injection h with h; subst h; exact ⟨[], fun p => by simp [readLoop]⟩
    | cons l ls =>
      unfold readLoop at h
      obtain ⟨⟨s1, l1⟩, h1, h⟩ := ok_of_bind h
      obtain ⟨n1, hn1⟩ := step2310_dx h1
      obtain ⟨n2, hn2⟩ := ih h
      refine ⟨n1 ++ n2, fun p => ?_⟩
      unfold readLoop
      rw [hn1]
      simp only [ok_bind]
      rw [hn2, List.append_assoc]

theorem readTimes_2310 {cd : Codec F} {text : Str} {r r' : NA2110 F}
    (h : readData2310 cd text r = .ok r') :
    ∃ new, r'.DX = r.DX ++ new ∧ ∀ n, readTimes cd text n (.o2310 r)
      = .ok (.o2310 (if n = 0 then r else { r' with DX := r.DX ++ copies n new })) := by
  unfold readData2310 at h
  obtain ⟨a, h1, h⟩ := ok_of_bind h
  injection h with h
  subst h
  unfold readDataWith at h1
  obtain ⟨ls, hb, h1⟩ := ok_of_bind h1
  obtain ⟨new, hn⟩ := readLoop2310_dx h1
  dsimp only at hn ⊢
  have e : a.DX = r.DX ++ new := by
    have := hn r.DX
    rw [h1] at this
    injection this with this
    exact congrArg Arr2110.DX this
  have hstep : ∀ (q : NA2110 F), q.v = r.v → q.aux = r.aux → q.c = r.c → readData2310 cd text q
      = .ok { q with NX := a.NX, X := a.X, A := a.A, V := a.V, DX := q.DX ++ new } := by
    intro q h1 h2 h3
    unfold readData2310 readDataWith
    rw [h1, h2, h3, hb]
    simp only [ok_bind]
    rw [hn]
    rfl
  have hgo : ∀ n p, readTimes cd text n
      (.o2310 { r with NX := a.NX, X := a.X, A := a.A, V := a.V, DX := p })
      = .ok (.o2310 { r with NX := a.NX, X := a.X, A := a.A, V := a.V, DX := p ++ copies n new }) := by
    intro n
    induction n with
    | zero => intro p; simp [readTimes, copies]
    | succ n ih =>
      intro p
      rw [readTimes_step (obj_2310 (hstep { r with NX := a.NX, X := a.X, A := a.A, V := a.V, DX := p }
        rfl rfl rfl)), ih]
      simp [copies]
  refine ⟨new, e, fun n => ?_⟩
  cases n with
  | zero => rfl
  | succ n =>
    rw [readTimes_step (obj_2310 (hstep r rfl rfl rfl)), hgo]
    simp [copies]

theorem dx_2110 {cd : Codec F} {na nv : Int} {st0 a : Arr2110 F} {text : Str} {n : Int}
    (h2 : readDataWith (step2110 cd na nv) st0 text n = .ok a) : a.DX = st0.DX := by
  refine readDataWith_inv (I := fun st => st.DX = st0.DX) ?_ h2 rfl
  intro st ls st' ls' hi hs
  unfold step2110 at hs
  obtain ⟨⟨st1, nx, x, ls1⟩, hd, hs⟩ := ok_of_bind hs
  unfold data1_2110 at hd
  obtain ⟨⟨xv, rest⟩, hu, hd⟩ := ok_of_bind hd
  cases xv with
  | nil => cases hd
  | cons x v =>
    obtain ⟨cols, hc, hd⟩ := ok_of_bind hd
    obtain ⟨a0, _, hd⟩ := ok_of_bind hd
    obtain ⟨nx', _, hd⟩ := ok_of_bind hd
    injection hd with hd
    obtain ⟨e2, hd⟩ := Prod.mk.inj hd
    obtain ⟨e3, hd⟩ := Prod.mk.inj hd
    obtain ⟨e4, e5⟩ := Prod.mk.inj hd
    subst e2 e3 e4 e5
    unfold data2_2110 at hs
    obtain ⟨⟨xs, cs, ls2⟩, hr, hs⟩ := ok_of_bind hs
    injection hs with hs
    obtain ⟨e6, e7⟩ := Prod.mk.inj hs
    subst e6 e7
    exact hi

theorem readData_again {cd : Codec F} {text : Str} {o o' : Obj F} (hk : ResetsAll o)
    (h : o.readData cd text = .ok o') : o'.readData cd text = .ok o' := by
  cases o with
  | o1001 r =>
    obtain ⟨r', h1, h⟩ := ok_of_bind h
    injection h with h; subst h
    unfold readData1001 at h1
    obtain ⟨⟨x, v⟩, h2, h1⟩ := ok_of_bind h1
    injection h1 with h1; subst h1
    unfold Obj.readData readData1001
    dsimp only
    rw [h2]; rfl
  | o1010 r =>
    obtain ⟨r', h1, h⟩ := ok_of_bind h
    injection h with h; subst h
    unfold readData1010 at h1
    obtain ⟨a, h2, h1⟩ := ok_of_bind h1
    injection h1 with h1; subst h1
    unfold Obj.readData readData1010
    dsimp only
    rw [h2]; rfl
  | o1020 r =>
    obtain ⟨r', h1, h⟩ := ok_of_bind h
    injection h with h; subst h
    unfold readData1020 at h1
    obtain ⟨a, h2, h1⟩ := ok_of_bind h1
    injection h1 with h1; subst h1
    unfold Obj.readData readData1020
    dsimp only
    rw [h2]; rfl
  | o2010 r => exact hk.elim
  | o2110 r =>
    obtain ⟨r', h1, h⟩ := ok_of_bind h
    injection h with h; subst h
    unfold readData2110 at h1
    obtain ⟨a, h2, h1⟩ := ok_of_bind h1
    injection h1 with h1; subst h1
    have hdx := dx_2110 h2
    unfold Obj.readData readData2110
    dsimp only
    rw [hdx, h2]
    simp only [ok_bind]
    rw [hdx]
  | o2160 r =>
    obtain ⟨r', h1, h⟩ := ok_of_bind h
    injection h with h; subst h
    unfold readData2160 at h1
    obtain ⟨a, h2, h1⟩ := ok_of_bind h1
    injection h1 with h1; subst h1
    unfold Obj.readData readData2160
    dsimp only
    rw [h2]; rfl
  | o2310 r => exact hk.elim

/-! ### ignored leading lines -/

theorem bind_map {α β γ : Type} (x : Res α) (f : α → Res β) (g : β → γ) :
    ((x >>= f) >>= fun b => .ok (g b)) = x >>= fun a => (f a >>= fun b => .ok (g b)) := by
  cases x <;> rfl

theorem readIgnored_fst (pre rest : List Str) :
    readIgnored pre.length (pre ++ rest) = (pre.map readItem, rest) := by
  induction pre with
  | nil => rfl
  | cons p pre ih => simp only [List.length_cons, List.cons_append, readIgnored, readline, ih, List.map_cons]

theorem readCommon_shift (pre ls : List Str) :
    readCommon pre.length (pre ++ ls) = (do
      let (c, _, rest) ← readCommon 0 ls
      .ok ({ c with NLHEAD := c.NLHEAD + pre.length }, pre.map readItem, rest)) := by
  unfold readCommon
  rw [readIgnored_fst]
  simp only [readIgnored]
  generalize readItemsFromLine (readline ls).1 2 pyInt = a
  cases a with
  | error e => rfl
  | ok a =>
    simp only [ok_bind]
    split
    · generalize readItemsFromLine _ 2 pyInt = b
      cases b with
      | error e => rfl
      | ok b =>
        simp only [ok_bind]
        split
        · generalize readItemsFromLine _ 6 pyInt = d
          cases d with
          | error e => rfl
          | ok d => simp
        · rfl
    · rfl

theorem fileLines_front {pre : List Str} (hp : ∀ l ∈ pre, NoBreak l) (text : Str) :
    fileLines (asLines pre ++ text) = pre.map (fun l => l ++ ['\n']) ++ fileLines text := by
  unfold fileLines
  rw [univNL_append _ (asLines_no_cr hp), readlines_asLines _ _ hp]

theorem readFFI_shift {pre : List Str} (hp : ∀ l ∈ pre, NoBreak l) (text : Str) :
    readFFI (asLines pre ++ text) pre.length = readFFI text 0 := by
  unfold readFFI
  rw [fileLines_front hp]
  simp

theorem readHeaderOf_shift (cd : Codec F) (ffi : Int) (pre ls : List Str) :
    readHeaderOf cd ffi pre.length (pre.map (fun l => l ++ ['\n']) ++ ls)
      = (do let o ← readHeaderOf cd ffi 0 ls; .ok (afterLines pre o)) := by
  have hc := readCommon_shift (pre.map (fun l => l ++ ['\n'])) ls
  rw [List.length_map] at hc
  unfold readHeaderOf
  repeat' split
  · unfold readHeader1001
    rw [hc]
    cases readCommon 0 ls with
    | error e => rfl
    | ok c => simp [bind_assoc, afterLines, withNLHEAD, withIgnored, Obj.common]
  · unfold readHeader1010
    rw [hc]
    cases readCommon 0 ls with
    | error e => rfl
    | ok c => simp [bind_assoc, afterLines, withNLHEAD, withIgnored, Obj.common]
  · unfold readHeader1020
    rw [hc]
    cases readCommon 0 ls with
    | error e => rfl
    | ok c => simp [bind_assoc, afterLines, withNLHEAD, withIgnored, Obj.common]
  · unfold readHeader2110
    rw [hc]
    cases readCommon 0 ls with
    | error e => rfl
    | ok c => simp [bind_assoc, afterLines, withNLHEAD, withIgnored, Obj.common]
  · unfold readHeader2160
    rw [hc]
    cases readCommon 0 ls with
    | error e => rfl
    | ok c => simp [bind_assoc, afterLines, withNLHEAD, withIgnored, Obj.common, Function.comp_def]
  · unfold readHeader2310
    rw [hc]
    cases readCommon 0 ls with
    | error e => rfl
    | ok c => simp [bind_assoc, afterLines, withNLHEAD, withIgnored, Obj.common]
  · unfold readHeader2010
    rw [hc]
    cases readCommon 0 ls with
    | error e => rfl
    | ok c => simp [bind_assoc, afterLines, withNLHEAD, withIgnored, Obj.common]

theorem openNA_shift (cd : Codec F) {pre : List Str} (hp : ∀ l ∈ pre, NoBreak l) (text : Str) :
    openNA cd pre.length (asLines pre ++ text)
      = (do let o ← openNA cd 0 text; .ok (afterLines pre o)) := by
  unfold openNA
  rw [readFFI_shift hp, fileLines_front hp]
  cases readFFI text 0 with
  | error e => rfl
  | ok ffi =>
    simp only [ok_bind]
    cases getNAFileClass ffi with
    | error e => rfl
    | ok cls => simp only [ok_bind]; exact readHeaderOf_shift cd cls pre _

theorem sliceFrom_shift {α : Type} (pre ls : List α) {n : Int} (h : 0 ≤ n) :
    sliceFrom (pre ++ ls) (n + pre.length) = sliceFrom ls n := by
  unfold sliceFrom
  rw [if_pos (by omega), if_pos h, List.drop_append]
  rw [List.drop_of_length_le (by omega), List.nil_append]
  congr 1; omega

theorem readDataWith_shift {σ : Type} (step : σ → List Str → Res (σ × List Str)) (st : σ)
    {pre : List Str} (hp : ∀ l ∈ pre, NoBreak l) (text : Str) {n : Int} (h : 0 ≤ n) :
    readDataWith step st (asLines pre ++ text) (n + pre.length) = readDataWith step st text n := by
  unfold readDataWith
  rw [fileLines_front hp]
  have := sliceFrom_shift (pre.map fun l => l ++ ['\n']) (fileLines text) h
  rw [List.length_map] at this
  rw [this]

theorem readData_shift (cd : Codec F) {pre : List Str} (hp : ∀ l ∈ pre, NoBreak l) (text : Str)
    {o : Obj F} (h : 0 ≤ o.common.NLHEAD) :
    (afterLines pre o).readData cd (asLines pre ++ text)
      = (do let o' ← o.readData cd text; .ok (afterLines pre o')) := by
  cases o with
  | o1001 r =>
    simp only [Obj.common] at h
    simp only [afterLines, withIgnored, withNLHEAD, Obj.common, Obj.readData, readData1001,
      readDataWith_shift _ _ hp text h]
    simp [bind_assoc, withNLHEAD, withIgnored]
  | o1010 r =>
    simp only [Obj.common] at h
    simp only [afterLines, withIgnored, withNLHEAD, Obj.common, Obj.readData, readData1010,
      readDataWith_shift _ _ hp text h]
    simp [bind_assoc, withNLHEAD, withIgnored]
  | o1020 r =>
    simp only [Obj.common] at h
    simp only [afterLines, withIgnored, withNLHEAD, Obj.common, Obj.readData, readData1020,
      readDataWith_shift _ _ hp text h]
    simp [bind_assoc, withNLHEAD, withIgnored]
  | o2010 r =>
    simp only [Obj.common] at h
    simp only [afterLines, withIgnored, withNLHEAD, Obj.common, Obj.readData, readData2010,
      readDataWith_shift _ _ hp text h]
    simp [bind_assoc, withNLHEAD, withIgnored]
  | o2110 r =>
    simp only [Obj.common] at h
    simp only [afterLines, withIgnored, withNLHEAD, Obj.common, Obj.readData, readData2110,
      readDataWith_shift _ _ hp text h]
    simp [bind_assoc, withNLHEAD, withIgnored]
  | o2160 r =>
    simp only [Obj.common] at h
    simp only [afterLines, withIgnored, withNLHEAD, Obj.common, Obj.readData, readData2160,
      readDataWith_shift _ _ hp text h]
    simp [bind_assoc, withNLHEAD, withIgnored]
  | o2310 r =>
    simp only [Obj.common] at h
    simp only [afterLines, withIgnored, withNLHEAD, Obj.common, Obj.readData, readData2310,
      readDataWith_shift _ _ hp text h]
    simp [bind_assoc, withNLHEAD, withIgnored]

end Nappy
