import Verif.CollectObj
import Verif.Props.Collector

/-! Concrete data for the examples about collected dictionaries, and tests that evaluate. -/

namespace Nappy.Ex

open Nappy Spec Props

variable {F : Type}

/-- Whole numbers, the headings of the configuration file, a fixed day. -/
def collectEnv : CollectEnv Int :=
  { x := exXEnv, hp := iniHeadings, auxMiss := -9999, show_ := fun _ => "value".toList, isTime := fun _ => false,
    dateOf := fun _ _ => none, today := [2024, 5, 17], stamp := "2024-05-17 12:00:00".toList,
    version := "2.0.4".toList, localNc := [] }

def globals : Dict (PyVal Int) :=
  [("Conventions", .str "CF-1.7".toList),
   ("institution", .str "A Person (ONAME from NASA Ames file); Some University (ORG from NASA Ames file).".toList),
   ("source", .str "Radiosonde".toList), ("title", .str "Ascents".toList),
   ("comment", .str "calibrated in spring\ntwo soundings lost".toList), ("history", .str "made by hand".toList)]

/-- A tree of the given shape, filled with numbers from `k` on. -/
def fill : List Nat → Int → Tree Int
  | [], k => .val k
  | d :: ds, k => .lst ((List.range d).map (fun i => fill ds (k + 10 * (i : Int))))

/-- A variable with data. -/
def dataVar (name : String) (axes : List (XAxis Int)) (num aux : Option Int) : XVar Int :=
  { exVar name axes num aux with data := fill (axes.map (fun a => a.values.length)) 5, miss := some (-99) }

/-- `Shaped` as a test. -/
def shapedB : List Nat → Tree F → Bool
  | [], .val _ => true
  | [], .lst _ => false
  | _ :: _, .val _ => false
  | d :: ds, .lst l => l.length == d && l.all (fun t => shapedB ds t)

theorem shaped_of {ds : List Nat} {t : Tree F} (h : shapedB ds t = true) : Shaped ds t := by
  induction ds generalizing t with
  | nil => cases t <;> simp_all [shapedB, Shaped]
  | cons d ds ih =>
    cases t with
    | val x => simp [shapedB] at h
    | lst l =>
      simp only [shapedB, Bool.and_eq_true, beq_iff_eq, List.all_eq_true] at h
      exact ⟨h.1, fun t ht => ih (h.2 t ht)⟩

def strB (p : Str → Bool) : Option (PyVal F) → Bool
  | some (.str s) => p s
  | _ => false

def threeB : Option (PyVal F) → Bool
  | some (.list [.int _, .int _, .int _]) => true
  | _ => false

def strsB (p : Str → Bool) : Option (PyVal F) → Bool
  | some (.list l) => l.all (fun v => match v with | .str s => p s | _ => false)
  | _ => false

/-- `TextsFit` as a test. -/
def fitsB (d : Dict (PyVal F)) : Bool :=
  ["ONAME", "ORG", "SNAME", "MNAME"].all (fun k => strB (fun s => decide (HdrName s)) (dictGet? d k))
  && ["DATE", "RDATE"].all (fun k => threeB (dictGet? d k))
  && ["XNAME", "VNAME", "ANAME"].all (fun k => strsB (fun s => decide (Name s)) (dictGet? d k))
  && ["SCOM", "NCOM"].all (fun k => strsB (fun s => s.all (fun c => c != '\n' && c != '\r')) (dictGet? d k))

theorem strsB_ok {p : Str → Bool} {o : Option (PyVal F)} (h : strsB p o = true) {l : List Str}
    (hl : o = some (pyStrs l)) : ∀ s ∈ l, p s = true := by
  subst hl
  intro s hs
  simp only [strsB, pyStrs, List.all_eq_true] at h
  exact h _ (List.mem_map_of_mem hs)

theorem textsFit_of {d : Dict (PyVal F)} (h : fitsB d = true) : TextsFit d := by
  simp only [fitsB, Bool.and_eq_true, List.all_eq_true] at h
  obtain ⟨⟨⟨h1, h2⟩, h3⟩, h4⟩ := h
  refine ⟨fun k hk => ?_, fun k hk => ?_, fun k hk l hl s hs => ?_, fun k hk l hl s hs c hc => ?_⟩
  · have := h1 k hk
    unfold strB at this
    split at this
    · exact ⟨_, by assumption, of_decide_eq_true this⟩
    · cases this
  · have := h2 k hk
    unfold threeB at this
    split at this
    · next a b c e => exact ⟨[a, b, c], e, rfl⟩
    · cases this
  · exact of_decide_eq_true (strsB_ok (h3 k hk) hl s hs)
  · have := strsB_ok (h4 k hk) hl s hs
    simp only [List.all_eq_true, Bool.and_eq_true, bne_iff_ne] at this
    exact this c hc

def intB : Option (PyVal F) → Option Int
  | some (.int n) => some n
  | _ => none

/-- `TopLineKept` as a test. -/
def topB (d : Dict (PyVal F)) (ffi : Int) : Bool :=
  intB (dictGet? d "FFI") == some ffi && (intB (dictGet? d "NLHEAD")).isSome

theorem intB_some {o : Option (PyVal F)} {n : Int} (h : intB o = some n) : o = some (.int n) := by
  unfold intB at h
  split at h
  · injection h with h; rw [h]
  · cases h

theorem top_of {d : Dict (PyVal F)} {ffi : Int} (h : topB d ffi = true) : TopLineKept d ffi := by
  simp only [topB, Bool.and_eq_true, beq_iff_eq] at h
  obtain ⟨n, hn⟩ := Option.isSome_iff_exists.1 h.2
  exact ⟨intB_some h.1, n, intB_some hn⟩

/-- The numbers of a list, to find out what is in a dictionary. -/
def num? : PyVal F → Option F
  | .num x => some x
  | _ => none

def int? : PyVal F → Option Int
  | .int x => some x
  | _ => none

def nums : PyVal F → Option (List F)
  | .list l => l.mapM num?
  | _ => none

def ints : PyVal F → Option (List Int)
  | .list l => l.mapM int?
  | _ => none

def cols : PyVal F → Option (List (List F))
  | .list l => l.mapM nums
  | _ => none

theorem mapM_of {α β : Type} (f : α → Option β) (g : β → α) (h : ∀ b, f (g b) = some b) :
    ∀ l : List β, (l.map g).mapM f = some l
  | [] => rfl
  | b :: l => by
    rw [List.map_cons, List.mapM_cons, h, mapM_of f g h l]
    rfl

theorem nums_pyNums (l : List F) : nums (pyNums l) = some l :=
  mapM_of num? PyVal.num (fun _ => rfl) l

theorem ints_pyInts (l : List Int) : ints (pyInts (F := F) l) = some l :=
  mapM_of int? PyVal.int (fun _ => rfl) l

theorem cols_pyCols (l : List (List F)) : cols (pyCols l) = some l :=
  mapM_of nums pyNums nums_pyNums l

/-- Decimal arithmetic with two digits, for whole numbers below 1000. -/
def round2 (n : Int) : Int := if n.natAbs < 100 then n else 10 * ((n + 5) / 10)

/-- The environment with this arithmetic. -/
def roundEnv : CollectEnv Int := { collectEnv with x := { exXEnv with sub := fun y x => round2 (y - x) } }

/-- All the assumptions of C59 at once. -/
structure Collected (env : CollectEnv F) (requested : Option Int) (globals : Dict (PyVal F)) (vars : List (XVar F))
    (ffi : Int) (a : Analysis F) (d : Dict (PyVal F)) : Prop where
  analysed : analyse env.x requested vars = .ok (some a)
  format : a.ffi = ffi
  collected : collectDict env globals a = .ok d
  data : ∀ v ∈ a.main ++ a.aux, DataFits v
  full : ∀ v ∈ a.main, ∀ ax ∈ v.axes, ax.values ≠ []
  texts : TextsFit d
  top : TopLineKept d ffi

theorem collected_of {env : CollectEnv F} {requested : Option Int} {globals : Dict (PyVal F)}
    {vars : List (XVar F)} {ffi : Int} {P : Analysis F → Dict (PyVal F) → Bool}
    (h : (match analyse env.x requested vars with
      | .ok (some a) =>
        (match collectDict env globals a with
          | .ok d => decide (a.ffi = ffi) && (a.main ++ a.aux).all (fun v => shapedB v.shape v.data)
              && a.main.all (fun v => v.axes.all (fun ax => !ax.values.isEmpty)) && fitsB d && topB d ffi && P a d
          | _ => false)
      | _ => false) = true) :
    ∃ a d, Collected env requested globals vars ffi a d ∧ P a d = true := by
  split at h
  · next a ha =>
    split at h
    · next d hd =>
      simp only [Bool.and_eq_true, decide_eq_true_eq, List.all_eq_true, Bool.not_eq_true', List.isEmpty_eq_false_iff] at h
      obtain ⟨⟨⟨⟨⟨h1, h2⟩, h3⟩, h4⟩, h5⟩, h6⟩ := h
      exact ⟨a, d, ⟨ha, h1, hd, fun v hv => shaped_of (h2 v hv), h3, textsFit_of h4, top_of h5⟩, h6⟩
    · cases h
  · cases h

end Nappy.Ex
