import Verif.Lemmas.LrLinedExplained
import Verif.Spec.LrLines
import Verif.Props.ParserSound
import Verif.Props.Parser
/-!
# C94: the parser's tree depends on the text only, lines included
-/

namespace Selint
open Spec Lr

/-- A move without its line. -/
def Lr.Lined.plainMove (s : Lined) : LinedMove → Move
  | .read _ t => .read t
  | .shift => .shift
  | .reduce r => .reduce r (spanOf r.rhs.length s.spans).first

/-- The machine without the lines makes the same move. -/
theorem Lr.Lined.step_plain {s s' : Lined} {mv : LinedMove}
    (h : s.step mv = some (.ok (.go s'))) :
    s.c.step (s.plainMove mv) = some (.ok (.go s'.c)) ∧
      tokenOf (s.plainMove mv) = (placedTokenOf mv).toks := by
  cases mv with
  | read n t =>
    simp only [Lined.step] at h
    split at h
    · rename_i c hc
      cases h
      exact ⟨hc, by cases t <;> rfl⟩
    · cases h
  | shift =>
    simp only [Lined.step] at h
    split at h
    · rename_i c hc
      cases h
      exact ⟨hc, rfl⟩
    · cases h
  | reduce r =>
    simp only [Lined.step] at h
    split at h
    · cases h
    · cases h
    · rename_i c hc
      cases h
      exact ⟨hc, rfl⟩
    · cases h

/-- What the machine with lines reaches, the machine without them reaches. -/
theorem Spec.LinedReaches.plain {s₀ s : Lined} {ts : Located} (h : LinedReaches s₀ ts s) :
    ParserReaches s₀.c ts.toks s.c := by
  induction h with
  | refl => exact .refl
  | move _ hs ih =>
    obtain ⟨h₁, h₂⟩ := Lined.step_plain hs
    rw [Located.toks_append, ← h₂]
    exact ih.move h₁

/-- What holds of a parser that has read the tokens, and what its stack stands for. -/
theorem Spec.LinedReaches.stands {m₀ : Mem} (hb : Bounded m₀) {expected : PlainFlavor} {mod : Str}
    {maps : Maps} {ts : Located} {s : Lined}
    (h : LinedReaches (Lined.start m₀ expected mod maps) ts s) :
    ∃ st fs is ls k, Lr.At m₀ expected mod maps (NoCommand ts.toks) True s.c [] st fs is ls k ∧
      LStands expected mod maps ts s st fs := by
  induction h with
  | refl =>
    exact ⟨_, _, _, _, _, At.start hb, [], [], [], [], rfl, rfl, ⟨rfl, rfl⟩, rfl, .nil⟩
  | @move ts s s' mv _ hs ih =>
    obtain ⟨st, fs, is, ls, k, h, he⟩ := ih
    cases mv with
    | read n t =>
      simp only [Lined.step, Config.step] at hs
      cases hl : s.c.look with
      | some e => rw [hl] at hs; cases hs
      | none =>
        rw [hl] at hs
        cases hs
        have ht : placedTokenOf (.read n t) = t.toList.map (fun t => (n, t)) := by cases t <;> rfl
        obtain ⟨is', h'⟩ := h.read hl t
          (q' := NoCommand (Located.toks (ts ++ placedTokenOf (.read n t)))) (by
          intro hq
          rw [Located.toks_append] at hq
          refine ⟨fun s hm => hq s (List.mem_append.2 (.inl hm)), fun s ht => hq s ?_⟩
          rw [ht]
          simp [placedTokenOf, Located.toks])
        exact ⟨st, _, is', ls, k, h', by rw [ht]; exact he.read hl n t⟩
    | shift =>
      simp only [Lined.step, Config.step] at hs
      cases hl : s.c.look with
      | none => rw [hl] at hs; cases hs
      | some e =>
        rw [hl] at hs
        cases hs
        rw [show ts ++ placedTokenOf .shift = ts from List.append_nil _]
        exact ⟨st, _, is, ls, k, h.shift hl, he.shift hl⟩
    | reduce r =>
      rw [show ts ++ placedTokenOf (.reduce r) = ts from List.append_nil _]
      simp only [Lined.step, Config.step] at hs
      by_cases hf : s.c.fits r = true
      · simp only [hf, if_true] at hs
        rcases h.reduce hf (spanOf r.rhs.length s.spans).first with
          ⟨c₁, st', w, fs', is', ls', k', e, h', hl, ⟨v, hst⟩, rfl, hev⟩ |
          ⟨_, _, _, _, _, _, _, e, _⟩ | ⟨e, _⟩
        · rw [e] at hs
          cases hs
          exact ⟨st', _, is', ls', k', h', he.reduce hf hev hl hst⟩
        · rw [e] at hs; cases hs
        · rw [e] at hs; cases hs
      · simp only [hf] at hs
        cases hs

/-- Whatever moves the parser makes: if it accepts the file, the tokens have a derivation whose
lines are those of the tokens, and the tree, the tables and the parser's variables are the ones
of that derivation. -/
theorem C94_accepted {m₀ : Mem} (hb : Bounded m₀) {expected : PlainFlavor} {mod : Str}
    {maps : Maps} {ts : Located} {s : Lined} {v : Val}
    (h : LinedReaches (Lined.start m₀ expected mod maps) ts s)
    (hs : entries s.c = [⟨.t .eof, .none⟩, ⟨.n .selinuxFile, v⟩]) :
    ∃ f st T, SourceFile.At f ts ∧ SourceFile.exec f expected mod maps = .ok (some st) ∧
      NodesAt s.c.ms.mem none none (some (root m₀)) st.loc.unzip T ∧ s.c.ms.maps = st.maps ∧
      s.c.ms.module = st.module ∧ s.c.ms.rets = st.rets := by
  obtain ⟨st, fs, is, ls, k, h, f, σ, us, vs, rfl, rfl, hl, -, he⟩ := h.stands hb
  obtain ⟨T, L, hs', hT, -⟩ := Lr.Inv.closed hb h.inv
  have key : ∃ g : SourceFile, g.At (us ++ vs) ∧ g.exec expected mod maps = .ok (some st) := by
    simp only [entries] at hs
    cases hlook : s.c.look with
    | some e =>
      rw [hlook] at hs hl
      simp only [Option.toList_some, List.singleton_append, List.cons.injEq] at hs
      obtain ⟨rfl, hs⟩ := hs
      obtain ⟨t, ht, -, rfl⟩ := hl
      cases t with
      | some t => cases t <;> cases ht
      | none =>
        rw [hs] at he
        cases he with
        | cons he hg =>
          cases he
          simpa using hg rfl rfl
    | none =>
      rw [hlook] at hs hl
      obtain ⟨-, rfl⟩ := hl
      simp only [Option.toList_none, List.nil_append] at hs
      rw [hs] at he
      cases he with
      | cons he ht =>
        cases he with
        | cons he hg =>
          cases he
          obtain ⟨rfl, t, ht, -, rfl, -⟩ := ht
          cases t with
          | some t => cases t <;> cases ht
          | none => simpa using hg rfl rfl
  obtain ⟨g, hg, hx⟩ := key
  exact ⟨g, st, T, hg, hx, hT, h.inv.maps, h.inv.module, h.inv.rets⟩

/-- **C94.** Whatever moves the parser makes on the tokens of a text: if it accepts, the tree in
memory (with its line numbers), the tables and the variables are those that the functional
parser finds. -/
theorem C94_text {m₀ : Mem} (hb : Bounded m₀) {expected : PlainFlavor} {mod : Str}
    {maps : Maps} {text : Str} {ts : Located} {s : Lined} {v : Val}
    (hlex : lexFile text = some ts)
    (h : LinedReaches (Lined.start m₀ expected mod maps) ts s)
    (hs : entries s.c = [⟨.t .eof, .none⟩, ⟨.n .selinuxFile, v⟩]) :
    ∃ g st T, ParsesTo text g ∧ pFile ts = some g ∧
      SourceFile.exec g expected mod maps = .ok (some st) ∧
      NodesAt s.c.ms.mem none none (some (root m₀)) st.loc.unzip T ∧ s.c.ms.maps = st.maps ∧
      s.c.ms.module = st.module ∧ s.c.ms.rets = st.rets := by
  obtain ⟨f, st, T, hat, hx, hrest⟩ := C94_accepted hb h hs
  obtain ⟨g, hg, -⟩ := C68_complete hat
  have hp : ParsesTo text g := ⟨ts, hlex, C68_sound hg⟩
  refine ⟨g, st, T, hp, hg, ?_, hrest⟩
  rw [C68_deterministic hp ⟨ts, hlex, hat⟩, hx]

/-- The tables of the parser cannot make a difference: there is one tree, and one value of the
tables and variables, for all the ways to accept the same tokens. -/
theorem C94_unique (expected : PlainFlavor) (mod : Str) (maps : Maps) (ts : Located) :
    ∃ st : PState, ∀ ⦃m₀ : Mem⦄ ⦃s : Lined⦄ ⦃v : Val⦄, Bounded m₀ →
      LinedReaches (Lined.start m₀ expected mod maps) ts s →
      entries s.c = [⟨.t .eof, .none⟩, ⟨.n .selinuxFile, v⟩] →
      (∃ T, NodesAt s.c.ms.mem none none (some (root m₀)) st.loc.unzip T) ∧
        s.c.ms.maps = st.maps ∧ s.c.ms.module = st.module ∧ s.c.ms.rets = st.rets := by
  by_cases hx : ∃ f st, SourceFile.At f ts ∧ SourceFile.exec f expected mod maps = .ok (some st)
  · obtain ⟨f, st, hat, hx⟩ := hx
    refine ⟨st, fun m₀ s v hb h hs => ?_⟩
    obtain ⟨g, st', T, hat', hx', hT, h₁⟩ := C94_accepted hb h hs
    have hfg : SourceFile.exec f expected mod maps = SourceFile.exec g expected mod maps := by
      rw [← f.plain_exec, C68_unambiguous hat hat', g.plain_exec]
    rw [hx, hx'] at hfg
    cases hfg
    exact ⟨⟨T, hT⟩, h₁⟩
  · refine ⟨PState.init expected mod maps, fun m₀ s v hb h hs => absurd ?_ hx⟩
    obtain ⟨g, st', T, hat', hx', -⟩ := C94_accepted hb h hs
    exact ⟨g, st', hat', hx'⟩

/-- The parser accepts nothing that the functional parser rejects. -/
theorem C94_rejected {m₀ : Mem} (hb : Bounded m₀) {expected : PlainFlavor} {mod : Str}
    {maps : Maps} {ts : Located} {s : Lined} {v : Val}
    (h : LinedReaches (Lined.start m₀ expected mod maps) ts s)
    (hrej : ∀ g st, pFile ts = some g → SourceFile.exec g expected mod maps ≠ .ok (some st)) :
    entries s.c ≠ [⟨.t .eof, .none⟩, ⟨.n .selinuxFile, v⟩] := by
  intro hs
  obtain ⟨f, st, -, hat, hx, -⟩ := C94_accepted hb h hs
  obtain ⟨g, hg, hp⟩ := C68_complete hat
  refine hrej g st hg ?_
  rw [← g.plain_exec, hp, f.plain_exec, hx]

/-! ### C94 is about something -/

/-- A sequence of moves. -/
def followLines : List LinedMove → Lined → Option (Res LinedNext)
  | [], s => some (.ok (.go s))
  | mv :: mvs, s =>
    match s.step mv with
    | some (.ok (.go s')) => followLines mvs s'
    | r => r

theorem followLines_reaches {s₀ : Lined} : ∀ {mvs : List LinedMove} {ts : Located} {s s' : Lined},
    LinedReaches s₀ ts s → followLines mvs s = some (.ok (.go s')) →
    LinedReaches s₀ (ts ++ mvs.flatMap placedTokenOf) s'
  | [], ts, s, s', h, hf => by
    cases hf
    rw [List.flatMap_nil, List.append_nil]
    exact h
  | mv :: mvs, ts, s, s', h, hf => by
    simp only [followLines] at hf
    split at hf
    · rename_i s₁ hs
      have := followLines_reaches (h.move hs) hf
      rw [List.append_assoc, ← List.flatMap_cons] at this
      exact this
    · rename_i hno
      exact absurd hf (hno s')

/-- A header and a require block whose brace is not on the line of its keyword. -/
def bracedText : Str := cs!"policy_module(foo, 1.0)\n\nrequire\n{\n\ttype a_t;\n}\n"

/-- The production number `n` (from 0) of a symbol. -/
def byRuleLines (x : Nt) (n : Nat := 0) : LinedMove :=
  .reduce (((rules.filter fun r => r.lhs = x)[n]?).getD ⟨x, [], [], [], false⟩)

/-- Tokens of a line that are read and shifted. -/
def shiftsAt (line : Nat) (ts : List Token) : List LinedMove :=
  ts.flatMap fun t => [.read line (some t), .shift]

/-- How the parser reads the text. -/
def bracedMoves : List LinedMove :=
  shiftsAt 1 [.kw .policyModule, .p .openParen, .string cs!"foo", .p .comma, .versionNo cs!"1.0"] ++
    [byRuleLines .headerVersion] ++ shiftsAt 1 [.p .closeParen] ++ [byRuleLines .header] ++
    shiftsAt 3 [.kw .require] ++ shiftsAt 4 [.p .openCurly] ++ [byRuleLines .midRequire] ++
    shiftsAt 5 [.kw .type, .string cs!"a_t"] ++ [byRuleLines .commaStringList 1] ++
    shiftsAt 5 [.p .semicolon] ++
    [byRuleLines .requireBare, byRuleLines .requireLine, byRuleLines .requireLines 1] ++
    shiftsAt 6 [.p .closeCurly] ++ [byRuleLines .require 3, byRuleLines .bareLine 13,
      byRuleLines .line, byRuleLines .lines 1, byRuleLines .body, byRuleLines .tePolicy,
      .read 7 none, byRuleLines .selinuxFile 1]

/-- The parser accepts the text. -/
theorem bracedMoves_accepted : ∃ s v,
    LinedReaches (Lined.start ⟨fun _ => none, 0⟩ .teFile cs!"m" {})
      ((lexFile bracedText).getD []) s ∧
    entries s.c = [⟨.t .eof, .none⟩, ⟨.n .selinuxFile, v⟩] := by
  have h : (lexFile bracedText).getD [] = [] ++ bracedMoves.flatMap placedTokenOf := by
    decide +kernel
  rw [h]
  exact ⟨_, _, followLines_reaches (mvs := bracedMoves) .refl (by with_unfolding_all rfl),
    by with_unfolding_all rfl⟩

/-- In its tree the block has the line of the brace, which is where the action runs, and not that
of the keyword. -/
example : ((pFile ((lexFile bracedText).getD [])).map fun g =>
      match SourceFile.exec g .teFile cs!"m" {} with
      | .ok (some st) => (st.loc.unzip : List Tree).map fun t => t.info.lineno
      | _ => []) = some [0, 1, 4] := by
  decide +kernel

end Selint
