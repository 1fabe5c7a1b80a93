import Verif.Lemmas.LrGiveUp
/-!
# C90: memory while a file is parsed, whether it is correct or not
-/

namespace Selint
open Spec Lr

/-- What holds of a parser that has read the tokens. -/
theorem Spec.ParserReaches.at {m₀ : Mem} (hb : Bounded m₀) {expected : PlainFlavor} {mod : Str}
    {maps : Maps} {ts : List Token} {c : Config}
    (h : ParserReaches (start m₀ expected mod maps) ts c) :
    ∃ st fs is ls k, Lr.At m₀ expected mod maps (NoCommand ts) True c [] st fs is ls k := by
  induction h with
  | refl => exact ⟨_, _, _, _, _, At.start hb⟩
  | @move ts c c' mv _ hs ih =>
    obtain ⟨st, fs, is, ls, k, h⟩ := ih
    cases mv with
    | read t =>
      simp only [Config.step] at hs
      cases hl : c.look with
      | some e => rw [hl] at hs; cases hs
      | none =>
        rw [hl] at hs
        cases hs
        obtain ⟨is', h'⟩ := h.read hl t (q' := NoCommand (ts ++ tokenOf (.read t))) (by
          intro hq
          refine ⟨fun s hm => hq s (List.mem_append.2 (.inl hm)), fun s ht => hq s ?_⟩
          rw [ht]
          simp [tokenOf])
        exact ⟨st, _, is', ls, k, h'⟩
    | shift =>
      simp only [Config.step] at hs
      cases hl : c.look with
      | none => rw [hl] at hs; cases hs
      | some e =>
        rw [hl] at hs
        cases hs
        rw [show ts ++ tokenOf .shift = ts from List.append_nil _]
        exact ⟨st, _, is, ls, k, h.shift hl⟩
    | reduce r line =>
      simp only [Config.step] at hs
      split at hs
      · rename_i hf
        rw [show ts ++ tokenOf (.reduce r line) = ts from List.append_nil _]
        simp only [Option.some.injEq] at hs
        rcases h.reduce hf line with ⟨c₁, st', w, fs', is', ls', k', e, h', -⟩ |
          ⟨_, _, _, _, _, _, _, e, _⟩ | ⟨e, _⟩
        · rw [e] at hs
          cases hs
          exact ⟨st', fs', is', ls', k', h'⟩
        · rw [e] at hs; cases hs
        · rw [e] at hs; cases hs
      · cases hs

/-- Whatever the tokens are and whatever moves the parser makes: no move is undefined, unless a
call of an interface cannot be expanded. -/
theorem C90_safe {m₀ : Mem} (hb : Bounded m₀) {expected : PlainFlavor} {mod : Str} {maps : Maps}
    {ts : List Token} {c : Config} (h : ParserReaches (start m₀ expected mod maps) ts c)
    {mv : Move} (hu : c.step mv = some .ub) :
    (∃ r line, mv = .reduce r line ∧ r.lhs = .interfaceCall) ∧ Unexpandable c.ms := by
  obtain ⟨st, fs, is, ls, k, h⟩ := h.at hb
  cases mv with
  | read t =>
    simp only [Config.step] at hu
    split at hu <;> cases hu
  | shift =>
    simp only [Config.step] at hu
    split at hu <;> cases hu
  | reduce r line =>
    simp only [Config.step] at hu
    split at hu
    · rename_i hf
      simp only [Option.some.injEq] at hu
      rcases h.reduce hf line with ⟨_, _, _, _, _, _, _, e, _⟩ | ⟨_, _, _, _, _, _, _, e, _⟩ |
        ⟨_, e, hs, -⟩
      · rw [hu] at e; cases e
      · rw [hu] at e; cases e
      · exact ⟨⟨r, line, rfl, e⟩, hs⟩
    · cases hu

/-- At any moment the tree, the values on the stack, the lost strings of commands and the lists
of permissions are all that was allocated, and they do not overlap. -/
theorem C90_owned {m₀ : Mem} (hb : Bounded m₀) {expected : PlainFlavor} {mod : Str} {maps : Maps}
    {ts : List Token} {c : Config} (h : ParserReaches (start m₀ expected mod maps) ts c) :
    ∃ T L S G, Parsing m₀ ts c (root m₀) T L S G := by
  obtain ⟨st, fs, is, ls, k, h⟩ := h.at hb
  obtain ⟨T, L, hs, hT, hL, hH, hg, hk, hlen⟩ := Lr.Inv.closed hb h.inv
  obtain ⟨S, G, rfl, hS, hG⟩ := hH.split
  refine ⟨T, L, S, G, ⟨⟨_, hT⟩, hL, EnvAt.values_at h.env hS, ⟨ls, HeldAt.lists hG, h.tabs⟩,
    ?_, ?_, ?_⟩⟩
  · rw [List.append_assoc]
    exact hg
  · intro hq
    have := (h.quiet hq).1
    exact List.length_eq_zero_iff.1 (by omega)
  · intro hne
    rw [h.goal] at hne
    have := h.noLists hne
    subst this
    cases hG
    rfl

/-- A syntax error at any moment: giving up is not undefined. What is left is the strings of
commands that were lost before (`L`), the values on the stack that bison has not been told to
free, and the lists of permissions (`G`). -/
theorem C90_rejected {m₀ : Mem} (hb : Bounded m₀) {expected : PlainFlavor} {mod : Str}
    {maps : Maps} {ts : List Token} {c : Config}
    (h : ParserReaches (start m₀ expected mod maps) ts c) :
    ∃ m L G, c.giveUp (root m₀) = .ok m ∧ Grows m₀ m (L ++ undestroyed (entries c) ++ G) ∧
      StringsAt m (L ++ undestroyed (entries c)) ∧
      (∃ ls, ListsAt m ls G ∧ (permissionsMade c).Perm (ls.map (·.1))) ∧
      (NoCommand ts → L = []) ∧ (expected ≠ .sptFile → G = []) := by
  obtain ⟨st, fs, is, ls, k, h⟩ := h.at hb
  obtain ⟨m, L, V, G, e, rfl, hg, hs, hG, hk⟩ := h.giveUp hb
  rw [List.map_nil, List.append_nil] at hg hs
  refine ⟨m, L, G, e, hg, hs, ⟨ls, hG, h.tabs⟩, ?_, ?_⟩
  · intro hq
    have := (h.quiet hq).1
    exact List.length_eq_zero_iff.1 (by omega)
  · intro hne
    have := h.noLists hne
    subst this
    cases hG
    rfl

/-- An action comes to `YYERROR`, because the file is of another kind than it should be or a rule
other than `allow` has no permissions: the same, but the production that begins an interface
leaves the interface's name. -/
theorem C90_yyerror {m₀ : Mem} (hb : Bounded m₀) {expected : PlainFlavor} {mod : Str}
    {maps : Maps} {ts : List Token} {c c' : Config} {mv : Move}
    (h : ParserReaches (start m₀ expected mod maps) ts c)
    (he : c.step mv = some (.ok (.error c'))) :
    ∃ r line m L E G, mv = .reduce r line ∧ c'.giveUp (root m₀) = .ok m ∧
      Grows m₀ m (L ++ E ++ undestroyed (entries c') ++ G) ∧
      StringsAt m (L ++ E ++ undestroyed (entries c')) ∧
      (∃ ls, ListsAt m ls G ∧ (permissionsMade c').Perm (ls.map (·.1))) ∧
      E.length = (if r.lhs = .startInterface then 1 else 0) ∧
      (NoCommand ts → L = []) ∧ (expected ≠ .sptFile → G = []) := by
  obtain ⟨st, fs, is, ls, k, h⟩ := h.at hb
  cases mv with
  | read t =>
    simp only [Config.step] at he
    split at he <;> cases he
  | shift =>
    simp only [Config.step] at he
    split at he <;> cases he
  | reduce r line =>
    simp only [Config.step] at he
    split at he
    · rename_i hf
      simp only [Option.some.injEq] at he
      rcases h.reduce hf line with ⟨_, _, _, _, _, _, _, e, _⟩ |
        ⟨c₁, E, st', fs', is', ls', k', e, hE, h', -⟩ | ⟨e, _⟩
      · rw [he] at e; cases e
      · rw [he] at e
        cases e
        obtain ⟨m, L, V, G, e, rfl, hg, hs, hG, hk⟩ := h'.giveUp hb
        refine ⟨r, line, m, L, E.map (·.1), G, rfl, e, hg, hs, ⟨ls', hG, h'.tabs⟩, ?_, ?_, ?_⟩
        · rw [List.length_map]
          exact hE
        · intro hq
          have := (h'.quiet hq).1
          exact List.length_eq_zero_iff.1 (by omega)
        · intro hne
          have := h'.noLists hne
          subst this
          cases hG
          rfl
      · rw [he] at e; cases e
    · cases he

/-- A file is rejected that has no commands and is no file of permissions, and no value of
`maybe_string_comma` (the user's name in `gen_user`) is on the stack: then memory is as it was. -/
theorem C90_nothing_left {m₀ : Mem} (hb : Bounded m₀) {expected : PlainFlavor} {mod : Str}
    {maps : Maps} {ts : List Token} {c : Config}
    (h : ParserReaches (start m₀ expected mod maps) ts c) (hc : NoCommand ts)
    (hne : expected ≠ .sptFile) (hu : ∀ e ∈ entries c, e.sym ≠ .n .maybeStringComma) :
    ∃ m, c.giveUp (root m₀) = .ok m ∧ ∀ q, m.obj q = m₀.obj q := by
  obtain ⟨m, L, G, e, hg, -, -, hL, hG⟩ := C90_rejected hb h
  refine ⟨m, e, fun q => hg.same q ?_⟩
  obtain ⟨st, fs, is, ls, k, h⟩ := h.at hb
  have hn := (h.quiet hc).2
  have hU : undestroyed (entries c) = [] := by
    refine List.filterMap_eq_nil_iff.2 fun e he => ?_
    split
    · rename_i hs _
      exact absurd (List.mem_map.2 ⟨e, he, by rw [hs]; rfl⟩) hn
    · rename_i hs _
      exact absurd hs (hu e he)
    · rfl
  simp [hL hc, hG hne, hU]

/-- A file is accepted: freeing the tree leaves the strings of commands that were lost and the
lists of permissions. -/
theorem C90_accepted {m₀ : Mem} (hb : Bounded m₀) {expected : PlainFlavor} {mod : Str}
    {maps : Maps} {ts : List Token} {c : Config} {v : Val}
    (h : ParserReaches (start m₀ expected mod maps) ts c)
    (hs : entries c = [⟨.t .eof, .none⟩, ⟨.n .selinuxFile, v⟩]) :
    ∃ m L G, c.ms.mem.freePolicyNode c.ms.mem.top (some (root m₀)) = .ok m ∧
      Grows m₀ m (L ++ G) ∧ StringsAt m L ∧ (∃ ls, ListsAt m ls G ∧ (permissionsMade c).Perm (ls.map (·.1))) ∧
      (NoCommand ts → L = []) ∧ (expected ≠ .sptFile → G = []) := by
  obtain ⟨m, L, G, e, hg, hL, hG, hq, hn⟩ := C90_rejected hb h
  have hU : undestroyed (entries c) = [] := by
    rw [hs]
    rfl
  rw [hU, List.append_nil] at hg hL
  refine ⟨m, L, G, ?_, hg, hL, hG, hq, hn⟩
  simp only [Config.giveUp] at e
  rw [show c.look.toList ++ c.stack = entries c from rfl, hs] at e
  exact e

/-! ## Cases -/

/-- A sequence of moves. -/
def follow : List Move → Config → Option (Res Next)
  | [], c => some (.ok (.go c))
  | mv :: mvs, c =>
    match c.step mv with
    | some (.ok (.go c')) => follow mvs c'
    | r => r

theorem follow_reaches {c₀ : Config} : ∀ {mvs : List Move} {ts : List Token} {c c' : Config},
    ParserReaches c₀ ts c → follow mvs c = some (.ok (.go c')) →
    ParserReaches c₀ (ts ++ mvs.flatMap tokenOf) c'
  | [], ts, c, c', h, hf => by
    cases hf
    rw [List.flatMap_nil, List.append_nil]
    exact h
  | mv :: mvs, ts, c, c', h, hf => by
    simp only [follow] at hf
    split at hf
    · rename_i c₁ hs
      have := follow_reaches (h.move hs) hf
      rw [List.append_assoc, ← List.flatMap_cons] at this
      exact this
    · rename_i hno
      exact absurd hf (hno c')

/-- The production number `n` (from 0) of a symbol. -/
def byRule (x : Nt) (n : Nat := 0) : Move :=
  .reduce (((rules.filter fun r => r.lhs = x)[n]?).getD ⟨x, [], [], [], false⟩) 1

/-- Tokens that are read and shifted. -/
def shifts (ts : List Token) : List Move := ts.flatMap fun t => [.read (some t), .shift]

/-- What is left after giving up. -/
def leftAfterGivingUp (mvs : List Move) (expected : PlainFlavor) :
    Option (Res (List Obj)) :=
  match follow mvs (start ⟨fun _ => none, 0⟩ expected cs!"m" {}) with
  | some (.ok (.go c)) | some (.ok (.error c)) => some do
    let m ← c.giveUp 0
    .ok ((List.range m.top).filterMap m.obj)
  | some .ub => some .ub
  | none => none

/-- ```
policy_module(foo, 1.0)
``` -/
def headerMoves : List Move :=
  shifts [.kw .policyModule, .p .openParen, .string cs!"foo", .p .comma, .versionNo cs!"1.0"] ++
    [byRule .headerVersion] ++ shifts [.p .closeParen] ++ [byRule .header]

/-- ```
policy_module(foo, 1.0)
type a_t alias { b_t c_t }, attr )
``` -/
def unfinishedType : List Move :=
  headerMoves ++ shifts [.kw .type, .string cs!"a_t", .kw .alias, .p .openCurly, .string cs!"b_t"] ++
    [byRule .slItem, byRule .strings 1] ++ shifts [.string cs!"c_t"] ++ [byRule .slItem, byRule .strings] ++
    shifts [.p .closeCurly] ++ [byRule .stringList] ++ shifts [.p .comma, .string cs!"attr"] ++
    [.read (some (.p .closeParen))]

/-- The rejected file leaves nothing. -/
example : leftAfterGivingUp unfinishedType .teFile = some (.ok []) := by decide +kernel

/-- ```
policy_module(foo, 1.0)
gen_user(bob, )
```
The user's name and the empty string that stands for the prefix are left. -/
def unfinishedUser : List Move :=
  headerMoves ++ shifts [.kw .genUser, .p .openParen, .string cs!"bob", .p .comma] ++
    [byRule .maybeStringComma] ++ shifts [.p .comma] ++ [byRule .maybeStringComma 1] ++
    [.read (some (.p .closeParen))]

/-- Not every value on the stack is given back. -/
theorem C90_user_left : leftAfterGivingUp unfinishedUser .teFile =
    some (.ok [.bytes cs!"bob", .bytes []]) := by
  decide +kernel

/-- ```
policy_module(foo, 1.0)
type a_t # selint-disable: W-001
```
The semicolon is missing. -/
def commandTooEarly : List Move :=
  headerMoves ++ shifts [.kw .type, .string cs!"a_t"] ++
    [.read (some (.command cs!"# selint-disable: W-001"))]

/-- The string of a command that is not expected is left. -/
theorem C90_command_left : leftAfterGivingUp commandTooEarly .teFile =
    some (.ok [.bytes cs!"# selint-disable: W-001"]) := by
  decide +kernel

/-- ```
interface(`foo', `
``` -/
def interfaceMoves : List Move :=
  shifts [.kw .interface] ++ [byRule .ifKeyword] ++
    shifts [.p .openParen, .p .backtick, .string cs!"foo", .p .singleQuote, .p .comma,
      .p .backtick] ++ [byRule .startInterface]

/-- An interface in what should be a te file: its name is left. -/
theorem C90_interface_left : leftAfterGivingUp interfaceMoves .teFile =
    some (.ok [.bytes cs!"foo"]) := by
  decide +kernel

example : leftAfterGivingUp interfaceMoves .ifFile = some (.ok []) := by decide +kernel

/-- A header in what should be an if file: nothing is left. -/
example : leftAfterGivingUp headerMoves .ifFile = some (.ok []) := by decide +kernel

/-- ```
policy_module(foo, 1.0)
type a_t; # selint-disable: W-001
; # selint-disable: W-002
``` -/
def acceptedMoves : List Move :=
  headerMoves ++ shifts [.kw .type, .string cs!"a_t", .p .semicolon] ++
    [byRule .typeDeclaration, byRule .declaration, byRule .bareLine] ++
    shifts [.command cs!"# selint-disable: W-001"] ++ [byRule .line 1, byRule .lines 1] ++
    shifts [.p .semicolon] ++ [byRule .bareLine 27] ++
    shifts [.command cs!"# selint-disable: W-002"] ++ [byRule .line 1, byRule .lines, byRule .body,
      byRule .tePolicy, .read none, byRule .selinuxFile 1]

/-- The parser accepts the file. -/
example : ∃ c v, follow acceptedMoves (start ⟨fun _ => none, 0⟩ .teFile cs!"m" {}) =
      some (.ok (.go c)) ∧
    entries c = [⟨.t .eof, .none⟩, ⟨.n .selinuxFile, v⟩] :=
  ⟨_, _, by with_unfolding_all rfl, by with_unfolding_all rfl⟩

example : leftAfterGivingUp acceptedMoves .teFile = some (.ok []) := by decide +kernel

end Selint
