import Verif.Api
import Verif.ConvertLemmas

/-! Lemmas about the options that reach the writer. -/

namespace Nappy

variable {F : Type}

/-- The call uses these options. -/
def WriteCall.Uses (c : WriteCall F) (o : WriteOpts) : Prop :=
  c.delimiter = o.delimiter ∧ c.floatFormat = o.floatFormat ∧ c.annotation = o.annotation

theorem splitFile_uses {e : SplitEnv F} {s : SplitState F} {c : WriteCall F} {stop : Int}
    (h : splitFile e s = .ok (c, stop)) : c.Uses e.opts ∧ c.noHeader = false := by
  unfold splitFile at h
  dsimp only at h
  obtain ⟨b, -, h⟩ := ok_of_bind h
  obtain ⟨d, -, h⟩ := ok_of_bind h
  have := Except.ok.inj h
  obtain ⟨h1, h2⟩ := Prod.mk.inj this
  rw [← h1]
  exact ⟨⟨rfl, rfl, rfl⟩, rfl⟩

theorem splitGo_uses (emit : WriteCall F → Res Unit) (e : SplitEnv F) (fuel : Nat) :
    ∀ (s : SplitState F), (∀ c ∈ s.written, c.Uses e.opts ∧ c.noHeader = false) →
      ∀ c ∈ (splitGo emit e fuel s).1.written, c.Uses e.opts ∧ c.noHeader = false := by
  induction fuel with
  | zero =>
    intro s hs
    unfold splitGo
    split <;> exact hs
  | succ fuel ih =>
    intro s hs
    unfold splitGo
    split
    · dsimp only
      unfold splitStep
      cases hf : splitFile e s with
      | error x => exact hs
      | ok p =>
        obtain ⟨c, stop⟩ := p
        dsimp only
        cases he : emit c with
        | error x => exact hs
        | ok u =>
          dsimp only
          apply ih
          intro c' hc'
          rcases List.mem_append.1 hc' with h | h
          · exact hs _ h
          · rw [List.mem_singleton.1 h]; exact splitFile_uses hf
    · exact hs

theorem writeSubsets_uses (emit : WriteCall F → Res Unit) (d : Dict (PyVal F)) (name : Str) (opts : WriteOpts)
    (limit : Int) : ∀ c ∈ (writeSubsets emit d name opts limit).1.written, c.Uses opts ∧ c.noHeader = false := by
  unfold writeSubsets
  dsimp only
  cases hi : splitInit d name opts limit with
  | error x => simp
  | ok e =>
    have hn : e.opts = opts := by
      unfold splitInit at hi
      obtain ⟨v, -, hi⟩ := ok_of_bind hi
      split at hi
      · obtain ⟨v0, -, hi⟩ := ok_of_bind hi
        split at hi
        · split at hi
          · cases hi
          · rw [← Except.ok.inj hi]
        · cases hi
      · cases hi
    rw [← hn]
    exact splitGo_uses emit e _ _ (by simp)

theorem writeOne_uses (emit : WriteCall F → Res Unit) (opts : WriteOpts) (name : Str) (d : Dict (PyVal F)) :
    ∀ c ∈ (writeOne emit opts name d).2.1, c.Uses opts ∧
      (c.noHeader = opts.noHeader ∨ (c.noHeader = false ∧ opts.sizeLimit ≠ none)) := by
  unfold writeOne
  cases hm : mustSplit d opts.sizeLimit with
  | error x => simp
  | ok o =>
    cases o with
    | some limit =>
      have hne : opts.sizeLimit ≠ none := by
        intro e
        rw [e] at hm
        simp [mustSplit] at hm
      have := writeSubsets_uses emit d name opts limit
      dsimp only
      cases hs : writeSubsets emit d name opts limit with
      | mk s r' =>
        rw [hs] at this
        have key : ∀ c ∈ s.written, c.Uses opts ∧
            (c.noHeader = opts.noHeader ∨ (c.noHeader = false ∧ opts.sizeLimit ≠ none)) :=
          fun c hc => ⟨(this c hc).1, .inr ⟨(this c hc).2, hne⟩⟩
        cases r' <;> exact key
    | none =>
      dsimp only
      split
      · simp
      · intro c hc
        rw [List.mem_singleton.1 hc]
        exact ⟨⟨rfl, rfl, rfl⟩, .inl rfl⟩

theorem writeNAFilesGo_uses (emit : WriteCall F → Res Unit) (cfg : WriteConfig F) (items : Dict (PyVal F))
    (opts : WriteOpts) (l : List (Str × Dict (PyVal F))) :
    ∀ (r : WriteResult F), (∀ c ∈ r.written, c.Uses opts ∧
        (c.noHeader = opts.noHeader ∨ (c.noHeader = false ∧ opts.sizeLimit ≠ none))) →
      ∀ c ∈ (writeNAFilesGo emit cfg items opts l r).1.written, c.Uses opts ∧
        (c.noHeader = opts.noHeader ∨ (c.noHeader = false ∧ opts.sizeLimit ≠ none)) := by
  induction l with
  | nil => intro r hr; exact hr
  | cons p t ih =>
    obtain ⟨name, d⟩ := p
    intro r hr
    unfold writeNAFilesGo
    cases hp : prepareDict cfg items opts.delimiter d with
    | error e => exact hr
    | ok d' =>
      dsimp only
      have hw := writeOne_uses emit opts name d'
      cases hone : writeOne emit opts name d' with
      | mk names q =>
        obtain ⟨written, r1⟩ := q
        rw [hone] at hw
        have hall : ∀ c ∈ r.written ++ written, c.Uses opts ∧
            (c.noHeader = opts.noHeader ∨ (c.noHeader = false ∧ opts.sizeLimit ≠ none)) := by
          intro c hc
          rcases List.mem_append.1 hc with h | h
          · exact hr _ h
          · exact hw _ h
        cases r1 with
        | some e => exact hall
        | none => exact ih _ hall

theorem convertNCToNA_uses (emit : WriteCall F → Res Unit) (env : ApiEnv F) (a : NCToNAArgs F) :
    ∀ c ∈ (convertNCToNA emit env a).calls, c.Uses a.opts ∧
      (c.noHeader = a.opts.noHeader ∨ (c.noHeader = false ∧ a.opts.sizeLimit ≠ none)) := by
  unfold convertNCToNA
  dsimp only
  cases ncDicts env a with
  | error x => simp
  | ok ds =>
    dsimp only
    split
    · simp
    · generalize hn : a.naFile.getD (getFileNameWithNewExtension a.ncFile "na".toList) = name
      have : ∀ c ∈ (writeNAFiles emit env.cfg a.naItems a.opts (some a.ncFile) (some name) ds).1.written,
          c.Uses a.opts ∧ (c.noHeader = a.opts.noHeader ∨ (c.noHeader = false ∧ a.opts.sizeLimit ≠ none)) := by
        unfold writeNAFiles
        split
        · simp
        · exact writeNAFilesGo_uses _ _ _ _ _ _ (by simp)
      cases hw : writeNAFiles emit env.cfg a.naItems a.opts (some a.ncFile) (some name) ds with
      | mk r x =>
        rw [hw] at this
        cases x <;> exact this

end Nappy
