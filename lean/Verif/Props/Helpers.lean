import Verif.Spec.Helpers
import Verif.Props.Ini

/-! Properties C100, C101 and C105: helper functions that nothing else in nappy calls. -/

namespace Nappy.Props

open Nappy Spec

/-- C100, as far as it holds: the values of an array of one dimension are put into the list. What is missing: arrays of
more dimensions (`C100_fails`). -/
theorem C100_partial {α : Type} (n : Nat) (parts : List (Nappy.Deep α)) (h : Deep.Parts [n] parts)
    (inlist : List (Nappy.Deep α)) : arrayToList [n] parts inlist = .ok (inlist ++ parts) := by
  have hl : parts.length = n := h.1
  subst hl
  unfold arrayToList
  dsimp only
  rw [if_neg (Nat.lt_irrefl _), List.take_length]

/-- No array of two or more dimensions that has a part can be turned into a list, whatever the list is, and no nested list
with two or more dimensions is made. -/
theorem C100_fails {α : Type} (n m : Nat) (dims : List Nat) (hn : 0 < n) (parts inlist : List (Nappy.Deep α)) :
    (∃ e, arrayToList (n :: m :: dims) parts inlist = .error e) ∧
      listOfListsCreator inlist (n :: m :: dims) = .error .name := by
  refine ⟨?_, ?_⟩
  · unfold arrayToList
    dsimp only
    rw [if_neg (by omega)]
    split
    · exact ⟨_, rfl⟩
    · exact ⟨_, rfl⟩
  · unfold listOfListsCreator
    exact if_neg (by omega)

/-- With one dimension `listOfListsCreator` adds nothing, whatever the length. -/
theorem C100_creator_fails {α : Type} (inlist : List (Nappy.Deep α)) (n : Nat) :
    listOfListsCreator inlist [n] = .ok inlist := rfl

/-- The case of two rows of one value. -/
example : ∃ parts : List (Nappy.Deep Nat), Deep.Parts [2, 1] parts ∧ parts.length = 2 :=
  ⟨[.list [.val 1], .list [.val 2]],
    ⟨rfl, by
      intro d hd
      simp only [List.mem_cons, List.not_mem_nil, or_false] at hd
      rcases hd with rfl | rfl <;> exact ⟨_, rfl, rfl, fun d hd => ⟨_, List.mem_singleton.1 hd⟩⟩⟩, rfl⟩

/-- C101, as far as it holds: the module can be imported if section `main` of the configuration has a missing value, and
then has the text of it. What is missing: the shipped configuration (`C101_fails`). -/
theorem C101_partial (read : Str → Option Str) (default : Str) (inBase : Str → Str) (cfg : Parsed) (text : Str)
    (ht : read default = some text) (h : IniText cfg text) (e1 e2 : Option Str) (ops : List CfgOp)
    (hops : ∀ op ∈ ops, Harmless (.ofTexts read default inBase) op)
    (items : List (Str × Str)) (hm : ("main".toList, items) ∈ cfg) :
    (∃ w, (importTranslator (.ofTexts read default inBase)
      (afterOps (.ofTexts read default inBase) (cfgStart e1 e2) ops)).map Prod.snd = .ok w) ↔
      "default_missing_value".toList ∈ items.map Prod.fst := by
  have hd := C98_default read default inBase cfg text ht h e1 e2 ops hops items hm "default_missing_value".toList
    (by decide)
  constructor
  · rintro ⟨w, hw⟩
    by_cases hn : "default_missing_value".toList ∈ items.map Prod.fst
    · exact hn
    · have := hd.2 hn
      unfold importTranslator at hw
      rw [this] at hw
      cases hw
  · intro hn
    obtain ⟨⟨k, v⟩, h1, h2⟩ := List.mem_map.1 hn
    have h2 : k = "default_missing_value".toList := h2
    obtain ⟨t, hs⟩ := spacedBy_exists v
    exact ⟨_, hd.1 v t (asWord t) (h2 ▸ h1) hs ((means_iff _ _).2 rfl)⟩

/-- With the shipped configuration importing the module raises a KeyError, whatever was looked up before. -/
theorem C101_fails (read : Str → Option Str) (default : Str) (inBase : Str → Str)
    (ht : read default = some (asLines shippedIni)) (e1 e2 : Option Str) (ops : List CfgOp)
    (hops : ∀ op ∈ ops, Harmless (.ofTexts read default inBase) op) :
    (importTranslator (.ofTexts read default inBase)
      (afterOps (.ofTexts read default inBase) (cfgStart e1 e2) ops)).map Prod.snd = .error .key := by
  have hp : parseIni (asLines shippedIni) = .ok shippedCfg := by
    have := C98_shipped
    cases h : parseIni (asLines shippedIni) with
    | error e => rw [h] at this; cases this
    | ok p =>
      rw [h] at this
      injection this with this
      rw [this]
  have hc : configOf (CfgFiles.ofTexts read default inBase) = .ok (makeConfigDict shippedCfg) := by
    unfold configOf
    have : (CfgFiles.ofTexts read default inBase).parse default = .ok shippedCfg := by
      show (match read default with | none => Except.ok [] | some t => parseIni t) = _
      rw [ht]; exact hp
    rw [show (CfgFiles.ofTexts read default inBase).default = default from rfl, this, ok_bind]
  have he := getDefault_eq (afterOps_inv ops (start_inv _ e1 e2) hops) hc "default_missing_value".toList
  unfold importTranslator
  rw [he]
  have hv := C98_shipped_values.2.2.2.2.2
  unfold valueOf at hv
  unfold kvGet
  cases h : kvGet? (makeConfigDict shippedCfg) "main".toList with
  | none => rfl
  | some m =>
    rw [h] at hv
    have hv : kvGet? m (.one "default_missing_value".toList) = none := hv
    dsimp only
    rw [ok_bind, hv]

/-! ### C105 -/

/-- C105 fails for dictionaries, which the function is written for: whatever is in them, an AttributeError is raised. -/
theorem C105_dict_fails {F : Type} (one : F) (missing : PyVal F) (d : Dict (PyVal F)) :
    translate2010To2110 one missing (.dict d) = .error .attribute := rfl

/-- C105 fails for objects as well: no object that nappy made by reading a file of any format can be translated. -/
theorem C105_fails {F : Type} (one : F) (missing : PyVal F) (o : Obj F) (ign : List Str) :
    ∃ e, translate2010To2110 one missing (.obj (o.attrs ign)) = .error e := by
  have key : dictGet? (o.attrs ign) "XNAMES" = none := by
    cases hg : dictGet? (o.attrs ign) "XNAMES" with
    | none => rfl
    | some v =>
      have hm := dictGet?_mem hg
      exfalso
      cases o <;> simp [Obj.attrs, attrs2110, commonAttrs, varAttrs, auxAttrs, comAttrs] at hm <;>
        (try split at hm) <;> simp at hm
  have ha : (TransArg.obj (o.attrs ign)).attr "XNAMES" = .error .attribute := by
    simp [TransArg.attr, key]
  cases h : translate2010To2110 one missing (.obj (o.attrs ign)) with
  | error e => exact ⟨e, rfl⟩
  | ok d =>
    obtain ⟨_, _, h⟩ := ok_of_bind h
    obtain ⟨_, _, h⟩ := ok_of_bind h
    obtain ⟨_, _, h⟩ := ok_of_bind h
    obtain ⟨_, _, h⟩ := ok_of_bind h
    obtain ⟨_, hx, _⟩ := ok_of_bind h
    rw [ha] at hx
    cases hx

/-- The function does what it says for an object with the attribute names it expects. -/
example : ∃ d, translate2010To2110 (1 : Int) (.int 9) (.obj [("NX", pyInts [3]), ("NAUXV", .int 0),
      ("XNAMES", pyStrs ["height".toList]), ("ANAMES", .list []), ("ASCAL", .list []), ("AMISS", .list [])]) = .ok d ∧
    dictGet? d "NAUXV" = some (.int 1) := ⟨_, rfl, rfl⟩

end Nappy.Props
