import Verif.Lemmas.LrExplained
import Verif.Props.ParserMemory
import Verif.Props.ParserRuns
/-!
# C93: what the parser accepts
-/

namespace Selint
open Spec Lr

/-- What holds of a parser that has read the tokens, and what its stack stands for. -/
theorem Spec.ParserReaches.stands {m₀ : Mem} (hb : Bounded m₀) {expected : PlainFlavor} {mod : Str}
    {maps : Maps} {ts : List Token} {c : Config}
    (h : ParserReaches (start m₀ expected mod maps) ts c) :
    ∃ st fs is ls k, Lr.At m₀ expected mod maps (NoCommand ts) True c [] st fs is ls k ∧
      Stands expected mod maps ts c st fs := by
  induction h with
  | refl =>
    exact ⟨_, _, _, _, _, At.start hb, [], [], [], [], rfl, rfl, ⟨rfl, rfl⟩, .nil⟩
  | @move ts c c' mv _ hs ih =>
    obtain ⟨st, fs, is, ls, k, h, he⟩ := ih
    cases mv with
    | read t =>
      simp only [Config.step] at hs
      cases hl : c.look with
      | some e => rw [hl] at hs; cases hs
      | none =>
        rw [hl] at hs
        cases hs
        obtain ⟨is', h'⟩ := h.read hl t (q' := NoCommand (ts ++ tokenOf (.read t))) (by
          intro hq
          refine ⟨fun s hm => hq s (List.mem_append.2 (.inl hm)), fun s ht => hq s ?_⟩
          rw [ht]
          simp [tokenOf])
        have ht : tokenOf (.read t) = t.toList := by cases t <;> rfl
        exact ⟨st, _, is', ls, k, h', by rw [ht]; exact he.read hl t⟩
    | shift =>
      simp only [Config.step] at hs
      cases hl : c.look with
      | none => rw [hl] at hs; cases hs
      | some e =>
        rw [hl] at hs
        cases hs
        rw [show ts ++ tokenOf .shift = ts from List.append_nil _]
        exact ⟨st, _, is, ls, k, h.shift hl, he.shift hl⟩
    | reduce r line =>
      simp only [Config.step] at hs
      split at hs
      · rename_i hf
        rw [show ts ++ tokenOf (.reduce r line) = ts from List.append_nil _]
        simp only [Option.some.injEq] at hs
        rcases h.reduce hf line with
          ⟨c₁, st', w, fs', is', ls', k', e, h', hl, ⟨v, hst⟩, rfl, hev⟩ |
          ⟨_, _, _, _, _, _, _, e, _⟩ | ⟨e, _⟩
        · rw [e] at hs
          cases hs
          exact ⟨st', _, is', ls', k', h', he.reduce hf hev hl hst⟩
        · rw [e] at hs; cases hs
        · rw [e] at hs; cases hs
      · cases hs

/-- Whatever moves the parser makes: if it accepts the file, the tokens have a derivation that
the functional model accepts, and the tree, the tables and the parser's variables are the ones
of the functional model. -/
theorem C93_accepted {m₀ : Mem} (hb : Bounded m₀) {expected : PlainFlavor} {mod : Str}
    {maps : Maps} {ts : List Token} {c : Config} {v : Val}
    (h : ParserReaches (start m₀ expected mod maps) ts c)
    (hs : entries c = [⟨.t .eof, .none⟩, ⟨.n .selinuxFile, v⟩]) :
    ∃ f st T, f.tokens = ts ∧ SourceFile.exec f expected mod maps = .ok (some st) ∧
      NodesAt c.ms.mem none none (some (root m₀)) st.loc.unzip T ∧ c.ms.maps = st.maps ∧
      c.ms.module = st.module ∧ c.ms.rets = st.rets := by
  obtain ⟨st, fs, is, ls, k, h, f, σ, us, vs, rfl, rfl, hl, he⟩ := h.stands hb
  obtain ⟨T, L, hs', hT, -⟩ := Lr.Inv.closed hb h.inv
  have key : ∃ g : SourceFile, us ++ vs = g.tokens ∧
      g.exec expected mod maps = .ok (some st) := by
    simp only [entries] at hs
    cases hlook : c.look with
    | some e =>
      rw [hlook] at hs hl
      simp only [Option.toList_some, List.singleton_append, List.cons.injEq] at hs
      obtain ⟨rfl, hs⟩ := hs
      obtain ⟨t, ht, -, rfl⟩ := hl
      cases t with
      | some t => cases t <;> cases ht
      | none =>
        rw [hs] at he
        cases he with
        | cons he hg =>
          cases he
          simpa using hg rfl rfl
    | none =>
      rw [hlook] at hs hl
      obtain ⟨-, rfl⟩ := hl
      simp only [Option.toList_none, List.nil_append] at hs
      rw [hs] at he
      cases he with
      | cons he ht =>
        cases he with
        | cons he hg =>
          cases he
          obtain ⟨rfl, t, ht, -, rfl⟩ := ht
          cases t with
          | some t => cases t <;> cases ht
          | none => simpa using hg rfl rfl
  obtain ⟨g, hg, hx⟩ := key
  exact ⟨g, st, T, hg.symm, hx, hT, h.inv.maps, h.inv.module, h.inv.rets⟩

/-- There are moves with which the parser accepts the tokens if and only if they have a
derivation that the functional model accepts. -/
theorem C93_language {m₀ : Mem} (hb : Bounded m₀) {expected : PlainFlavor} {mod : Str}
    {maps : Maps} {ts : List Token} :
    (∃ c, ParserReaches (start m₀ expected mod maps) ts c ∧
      entries c = [⟨.t .eof, .none⟩, ⟨.n .selinuxFile, .none⟩]) ↔
    ∃ f st, f.tokens = ts ∧ SourceFile.exec f expected mod maps = .ok (some st) := by
  constructor
  · rintro ⟨c, h, hs⟩
    obtain ⟨f, st, -, hf, hx, -⟩ := C93_accepted hb h hs
    exact ⟨f, st, hf, hx⟩
  · rintro ⟨f, st, rfl, hx⟩
    obtain ⟨c, -, -, -, h, hs, -⟩ := C92_parses hx hb
    exact ⟨c, h, hs⟩

/-- The parser accepts a te file with a command and a block (what C93 is about), and it accepts
no prefix of one, since that has no derivation. -/
example {m₀ : Mem} (hb : Bounded m₀) : ∃ c,
    ParserReaches (start m₀ .teFile cs!"foo" {}) oneCommand.tokens c ∧
      entries c = [⟨.t .eof, .none⟩, ⟨.n .selinuxFile, .none⟩] :=
  (C93_language hb).2 ⟨oneCommand, _, rfl, by with_unfolding_all rfl⟩

/-- A file of the wrong kind is not accepted whatever the parser does. -/
example {m₀ : Mem} (hb : Bounded m₀) (c : Config)
    (h : ParserReaches (start m₀ .ifFile cs!"foo" {}) [.kw .module, .string cs!"a", .number cs!"1",
      tSemi, tSemi] c) : entries c ≠ [⟨.t .eof, .none⟩, ⟨.n .selinuxFile, .none⟩] := by
  intro hs
  obtain ⟨f, st, -, hf, hx, -⟩ := C93_accepted hb h hs
  cases f with
  | te cs h b => simp [SourceFile.exec] at hx
  | empty => cases hf
  | iface cs d ls =>
    cases cs <;> simp [SourceFile.tokens, IfDef.tokens] at hf
  | spt cs d ls => cases cs <;> simp [SourceFile.tokens, SptDef.tokens] at hf
  | av cs d ls => cases cs <;> cases d <;> simp [SourceFile.tokens, AvDef.tokens] at hf
  | comments c cs => simp [SourceFile.tokens] at hf

end Selint
