import Verif.Lemmas.ParsingActions
import Verif.Lemmas.Disablings
import Verif.Lemmas.Parse
/-!
# The actions of a derivation keep the invariant
-/

namespace Selint
open Spec

theorem commandCost_eq (c : Str) : commandCost c = disablings [.command c] := by
  simp only [commandCost, commandExceptions_isSome, disablings]
  cases h : disablesChecks c <;> simp [h]

theorem optCost_eq (c : Option Str) :
    (c.map commandCost).getD 0 = disablings (commandTokens c) := by
  cases c with
  | none => rfl
  | some c => exact commandCost_eq c

theorem beginBlock_ups (st : PState) (d : NodeData) (line : Nat) :
    (st.beginBlock d line).loc.ups ≠ [] := by
  simp [PState.beginBlock, PState.grow, Loc.grow, Loc.openBlock]

variable {root : Addr} {m₀ : Mem} {R : List Addr} {ms : MState} {st : PState} {H : List Item}
  {k : Nat}

namespace Inv

theorem cast {k'} (h : Inv root m₀ R ms st H k) (e : k = k') : Inv root m₀ R ms st H k' := e ▸ h

theorem declareOne (h : Inv root m₀ R ms st H k) (fl : DeclFlavor) (n : Str) (line : Nat) :
    ∃ ms', Selint.declareOne ms fl n line = .ok ms' ∧
      Inv root m₀ R ms' (st.insertDeclaration fl n [] line) H k := by
  obtain ⟨ms₁, e₁, h₁⟩ := (h.token n).noNames.insertDeclaration fl line
  obtain ⟨ms₂, e₂, h₂⟩ := h₁.free
  refine ⟨ms₂, ?_, h₂⟩
  simp only [Selint.declareOne, MState.token, malloc_fst, e₁, Res.bind_ok, e₂]

theorem declareDefault (h : Inv root m₀ R ms st H k) (n d : Str) (line : Nat) :
    ∃ ms', Selint.declareDefault ms n d line = .ok ms' ∧
      Inv root m₀ R ms' (st.insertDeclaration .bool n [] line) H k := by
  obtain ⟨ms₁, e₁, h₁⟩ := ((h.token n).token d).swap.noNames.insertDeclaration .bool line
  obtain ⟨ms₂, e₂, h₂⟩ := h₁.free
  obtain ⟨ms₃, e₃, h₃⟩ := h₂.free
  refine ⟨ms₃, ?_, h₃⟩
  simp only [Selint.declareDefault, MState.token, malloc_fst, e₁, Res.bind_ok, e₂]
  exact e₃

/-- A declaration with the list that a value of the grammar builds. -/
theorem declareList {f l} (h : Inv root m₀ R ms st H k) (hf : Makes f (Words l))
    (fl : DeclFlavor) (n : Str) (line : Nat) :
    ∃ ms', (do
      let (a, ms) := ms.token n
      let (p, ms) ← ms.value f
      let ms ← ms.insertDeclaration fl a p line
      ms.free a) = Res.ok ms' ∧
      Inv root m₀ R ms' (st.insertDeclaration fl n l line) H k := by
  obtain ⟨p, ms₁, e₁, h₁⟩ := (h.token n).names hf
  obtain ⟨ms₂, e₂, h₂⟩ := h₁.insertDeclaration fl line
  obtain ⟨ms₃, e₃, h₃⟩ := h₂.free
  refine ⟨ms₃, ?_, h₃⟩
  simp only [MState.token, malloc_fst, e₁, e₂, Res.bind_ok, e₃]

theorem decl (h : Inv root m₀ R ms st H k) (d : Decl) (line : Nat) :
    ∃ ms', d.run line ms = .ok ms' ∧ Inv root m₀ R ms' (d.exec line st) H k := by
  cases d with
  | type n => exact h.declareOne .type n line
  | typeAttrs n l => exact h.declareList l.builds .type n line
  | typeAlias n l =>
    obtain ⟨p, ms₁, e₁, h₁⟩ := (h.token n).names l.builds
    obtain ⟨ms₂, e₂, h₂⟩ := h₁.swap.noNames.insertDeclaration .type line
    obtain ⟨ms₃, e₃, h₃⟩ := h₂.free
    obtain ⟨ms₄, e₄, h₄⟩ := h₃.insertAliases .type line
    exact ⟨ms₄, by simp only [Decl.run, MState.token, malloc_fst, e₁, e₂, e₃, Res.bind_ok, e₄], h₄⟩
  | typeAliasAttrs n l a =>
    obtain ⟨p, ms₁, e₁, h₁⟩ := (h.token n).names l.builds
    obtain ⟨q, ms₂, e₂, h₂⟩ := h₁.names a.builds
    obtain ⟨ms₃, e₃, h₃⟩ := (h₂.perm (.cons _ (.swap _ _ _))).insertDeclaration .type line
    obtain ⟨ms₄, e₄, h₄⟩ := h₃.free
    obtain ⟨ms₅, e₅, h₅⟩ := h₄.insertAliases .type line
    exact ⟨ms₅, by
      simp only [Decl.run, MState.token, malloc_fst, e₁, e₂, e₃, e₄, Res.bind_ok, e₅], h₅⟩
  | attr n => exact h.declareOne .attribute n line
  | cls n l => exact h.declareList l.builds .cls n line
  | role n => exact h.declareOne .role n line
  | attributeRole n => exact h.declareOne .attributeRole n line
  | bool n => exact h.declareOne .bool n line
  | genBool n d => exact h.declareDefault n d line
  | genTunableQuoted n d => exact h.declareDefault n d line
  | genTunable n d => exact h.declareDefault n d line

theorem attrLine (h : Inv root m₀ R ms st H k) (fl : AttrFlavor) (n : Str) (l : CommaList)
    (line : Nat) :
    ∃ ms', runAttribute ms fl n l line = .ok ms' ∧
      Inv root m₀ R ms' (st.insertAttribute ⟨n, l.value, fl⟩ line) H k := by
  obtain ⟨p, ms₁, e₁, h₁⟩ := (h.token n).names l.builds
  obtain ⟨ms₂, e₂, h₂⟩ := h₁.insertAttribute fl line
  obtain ⟨ms₃, e₃, h₃⟩ := h₂.free
  exact ⟨ms₃, by simp only [runAttribute, MState.token, malloc_fst, e₁, e₂, Res.bind_ok, e₃], h₃⟩

theorem nameToken (h : Inv root m₀ R ms st H k) (c : Option Str) :
    ∃ p ms', Selint.nameToken ms c = (p, ms') ∧ Inv root m₀ R ms' st (.opt p c :: H) k := by
  obtain ⟨p, ms', e, h'⟩ := h.heldToken c
  refine ⟨p, ms', ?_, h'⟩
  rw [← e]
  cases c <;> rfl

theorem transition (h : Inv root m₀ R ms st H k) (fl : TtFlavor) (s t c : SList) (d : Str)
    (n : Option Str) (line : Nat) :
    ∃ ms', runTransition ms fl s t c d n line = .ok ms' ∧
      Inv root m₀ R ms' (st.insertTypeTransition ⟨s.value, t.value, c.value, d, n, fl⟩ line) H k := by
  obtain ⟨p, ms₁, e₁, h₁⟩ := h.names s.builds
  obtain ⟨q, ms₂, e₂, h₂⟩ := h₁.names t.builds
  obtain ⟨r, ms₃, e₃, h₃⟩ := h₂.names c.builds
  obtain ⟨x, ms₄, e₄, h₄⟩ := (h₃.token d).nameToken n
  have h₅ := h₄.perm (List.perm_append_comm (l₁ := [_, _]) (l₂ := [_, _, _]) |>.append_right H)
  obtain ⟨ms₆, e₆, h₆⟩ := h₅.insertTypeTransition fl line
  obtain ⟨ms₇, e₇, h₇⟩ := h₆.swap.free
  obtain ⟨ms₈, e₈, h₈⟩ := h₇.freeHeld
  refine ⟨ms₈, ?_, h₈⟩
  simp only [runTransition, e₁, e₂, e₃, Res.bind_ok, MState.token, malloc_fst, e₄, e₆, e₇, e₈]

theorem simple {st'} (h : Inv root m₀ R ms st H k) (s : Simple) (line : Nat)
    (hst : s.exec line st = .ok st') :
    ∃ ms', s.run line ms = .ok ms' ∧ Inv root m₀ R ms' st' H k := by
  cases s with
  | decl d => cases hst; exact h.decl d line
  | typeAttribute n l => cases hst; exact h.attrLine .type n l line
  | roleAttribute n l => cases hst; exact h.attrLine .role n l line
  | typeAlias n l =>
    cases hst
    obtain ⟨p, ms₁, e₁, h₁⟩ := (h.token n).names l.builds
    obtain ⟨ms₂, e₂, h₂⟩ := h₁.swap.addString .typeAlias line
    obtain ⟨ms₃, e₃, h₃⟩ := h₂.swap.insertAliases .type line
    obtain ⟨ms₄, e₄, h₄⟩ := h₃.free
    refine ⟨ms₄, ?_, h₄⟩
    simp only [PlainFlavor.toFlavor] at e₂
    simp only [Simple.run, MState.token, malloc_fst, e₁, Res.bind_ok, e₂, e₃, e₄]
  | rule fl s t c p =>
    cases hst
    obtain ⟨p₁, ms₁, e₁, h₁⟩ := h.names s.builds
    obtain ⟨p₂, ms₂, e₂, h₂⟩ := h₁.names t.builds
    obtain ⟨p₃, ms₃, e₃, h₃⟩ := h₂.names c.builds
    obtain ⟨p₄, ms₄, e₄, h₄⟩ := h₃.names p.builds
    obtain ⟨ms₅, e₅, h₅⟩ := h₄.insertAvRule fl line
    exact ⟨ms₅, by simp only [Simple.run, e₁, e₂, e₃, e₄, Res.bind_ok, e₅], h₅⟩
  | xrule fl s t c op p =>
    cases hst
    obtain ⟨p₁, ms₁, e₁, h₁⟩ := h.names s.builds
    obtain ⟨p₂, ms₂, e₂, h₂⟩ := h₁.names t.builds
    obtain ⟨p₃, ms₃, e₃, h₃⟩ := h₂.names c.builds
    obtain ⟨p₄, ms₄, e₄, h₄⟩ := (h₃.token op).names p.builds
    have h₅ := h₄.perm (.cons _ (List.perm_append_comm (l₁ := [_]) (l₂ := [_, _, _])
      |>.append_right H))
    obtain ⟨ms₆, e₆, h₆⟩ := h₅.insertXpermAvRule fl line
    obtain ⟨ms₇, e₇, h₇⟩ := h₆.free
    exact ⟨ms₇, by
      simp only [Simple.run, e₁, e₂, e₃, MState.token, malloc_fst, e₄, Res.bind_ok, e₆, e₇], h₇⟩
  | roleAllow f t =>
    cases hst
    obtain ⟨p₁, ms₁, e₁, h₁⟩ := h.names f.builds
    obtain ⟨p₂, ms₂, e₂, h₂⟩ := h₁.names t.builds
    obtain ⟨ms₃, e₃, h₃⟩ := h₂.insertRoleAllow line
    exact ⟨ms₃, by simp only [Simple.run, e₁, e₂, Res.bind_ok, e₃], h₃⟩
  | roleTypes r l =>
    cases hst
    obtain ⟨p, ms₁, e₁, h₁⟩ := (h.token r).names l.builds
    obtain ⟨ms₂, e₂, h₂⟩ := h₁.insertRoleTypes line
    obtain ⟨ms₃, e₃, h₃⟩ := h₂.free
    exact ⟨ms₃, by simp only [Simple.run, MState.token, malloc_fst, e₁, e₂, Res.bind_ok, e₃], h₃⟩
  | typeTransition s t c d n => cases hst; exact h.transition .tt s t c d n line
  | typeMember s t c d => cases hst; exact h.transition .tm s t c d none line
  | typeChange s t c d => cases hst; exact h.transition .tc s t c d none line
  | rangeTransition s t c r =>
    cases hst
    obtain ⟨p₁, ms₁, e₁, h₁⟩ := h.names s.builds
    obtain ⟨p₂, ms₂, e₂, h₂⟩ := h₁.names t.builds
    obtain ⟨p₃, ms₃, e₃, h₃⟩ := h₂.names c.builds
    obtain ⟨p₄, ms₄, e₄, h₄⟩ := h₃.word r.builds
    obtain ⟨x, ms₅, e₅, h₅⟩ := h₄.nameToken none
    cases e₅
    have h₆ := h₅.perm (List.perm_append_comm (l₁ := [_, _]) (l₂ := [_, _, _]) |>.append_right H)
    obtain ⟨ms₇, e₇, h₇⟩ := h₆.insertTypeTransition .rt line
    obtain ⟨ms₈, e₈, h₈⟩ := h₇.swap.free
    obtain ⟨ms₉, e₉, h₉⟩ := h₈.freeHeld
    cases e₉
    exact ⟨_, by simp only [Simple.run, e₁, e₂, e₃, e₄, Res.bind_ok, e₇, e₈], h₉⟩
  | roleTransition s t d =>
    cases hst
    obtain ⟨p₁, ms₁, e₁, h₁⟩ := h.names s.builds
    obtain ⟨p₂, ms₂, e₂, h₂⟩ := h₁.names t.builds
    have h₃ := (h₂.token d).perm (List.perm_append_comm (l₁ := [_]) (l₂ := [_, _])
      |>.append_right H)
    obtain ⟨ms₄, e₄, h₄⟩ := h₃.noNames.insertRoleTransition line
    obtain ⟨ms₅, e₅, h₅⟩ := h₄.free
    exact ⟨ms₅, by
      simp only [Simple.run, e₁, e₂, MState.token, malloc_fst, Res.bind_ok, e₄, e₅], h₅⟩
  | roleTransitionClass s t c d =>
    cases hst
    obtain ⟨p₁, ms₁, e₁, h₁⟩ := h.names s.builds
    obtain ⟨p₂, ms₂, e₂, h₂⟩ := h₁.names t.builds
    obtain ⟨p₃, ms₃, e₃, h₃⟩ := h₂.names c.builds
    have h₃ := (h₃.token d).perm (List.perm_append_comm (l₁ := [_]) (l₂ := [_, _, _])
      |>.append_right H)
    obtain ⟨ms₄, e₄, h₄⟩ := h₃.insertRoleTransition line
    obtain ⟨ms₅, e₅, h₅⟩ := h₄.free
    exact ⟨ms₅, by
      simp only [Simple.run, e₁, e₂, e₃, MState.token, malloc_fst, Res.bind_ok, e₄, e₅], h₅⟩
  | call n l =>
    have hst' : st.insertInterfaceCall ⟨n, (l.map Args.value).getD []⟩ line = .ok st' := by
      cases l <;> exact hst
    obtain ⟨p, ms₁, e₁, h₁⟩ := (h.token n).marked (buildArgs_builds l)
    obtain ⟨ms₂, e₂, h₂⟩ := h₁.insertInterfaceCall line hst'
    obtain ⟨ms₃, e₃, h₃⟩ := h₂.free
    exact ⟨ms₃, by simp only [Simple.run, MState.token, malloc_fst, e₁, e₂, Res.bind_ok, e₃], h₃⟩
  | simpleMacro n =>
    cases hst
    exact (h.token n).insertM4SimpleMacro line
  | permissive n =>
    cases hst
    obtain ⟨ms₁, e₁, h₁⟩ := (h.token n).addString .permissive line
    obtain ⟨ms₂, e₂, h₂⟩ := h₁.free
    refine ⟨ms₂, ?_, h₂⟩
    simp only [PlainFlavor.toFlavor] at e₁
    simp only [Simple.run, MState.token, malloc_fst, e₁, Res.bind_ok, e₂]
  | semicolon => cases hst; exact h.insertSemicolon line

end Inv

mutual
theorem ReqLines.keeps (l : ReqLines) {ms st H k} (h : Inv root m₀ R ms st H k) :
    ∃ ms', l.run ms = .ok ms' ∧ Inv root m₀ R ms' (l.exec st) H (k + disablings l.tokens) := by
  cases l with
  | one l => exact l.keeps h
  | more ls l =>
    obtain ⟨ms₁, e₁, h₁⟩ := ls.keeps h
    obtain ⟨ms₂, e₂, h₂⟩ := l.keeps h₁
    exact ⟨ms₂, by simp only [ReqLines.run, e₁, Res.bind_ok, e₂],
      h₂.cast (by simp [ReqLines.tokens]; omega)⟩
theorem ReqLine.keeps (l : ReqLine) {ms st H k} (h : Inv root m₀ R ms st H k) :
    ∃ ms', l.run ms = .ok ms' ∧ Inv root m₀ R ms' (l.exec st) H (k + disablings l.tokens) := by
  cases l with
  | bare s => exact s.keeps h
  | withCommand s c =>
    obtain ⟨ms₁, e₁, h₁⟩ := s.keeps h
    obtain ⟨ms₂, e₂, h₂⟩ := h₁.command c
    exact ⟨ms₂, by simp only [ReqLine.run, e₁, Res.bind_ok, e₂],
      h₂.cast (by simp [ReqLine.tokens, commandCost_eq]; omega)⟩
theorem ReqStmt.keeps (l : ReqStmt) {ms st H k} (h : Inv root m₀ R ms st H k) :
    ∃ ms', l.run ms = .ok ms' ∧ Inv root m₀ R ms' (l.exec st) H (k + disablings l.tokens) := by
  cases l with
  | decls line fl kw hk names =>
    obtain ⟨p, ms₁, e₁, h₁⟩ := h.names names.builds
    obtain ⟨ps, hs, hl⟩ := h₁.list_at (List.mem_cons_self ..)
    rw [List.length_map] at hl
    obtain ⟨ms₂, e₂, h₂⟩ := Inv.declareLoop fl line _ hl h₁
    obtain ⟨ms₃, e₃, h₃⟩ := h₂.freeList
    exact ⟨ms₃, by simp only [ReqStmt.run, e₁, Res.bind_ok, e₂, e₃],
      h₃.cast (by simp [ReqStmt.tokens, tSemi])⟩
  | cls line n l =>
    obtain ⟨ms', e, h'⟩ := h.declareList l.builds .cls n line
    exact ⟨ms', by simp only [ReqStmt.run]; exact e, h'.cast (by simp [ReqStmt.tokens, tSemi])⟩
  | ifdef line neg q cond body =>
    obtain ⟨ms₁, e₁, h₁⟩ := (h.token cond).beginPlain .ifdef (by decide) line
    obtain ⟨ms₂, e₂, h₂⟩ := body.keeps h₁
    obtain ⟨ms₃, e₃, h₃⟩ := h₂.close .ifdef
    obtain ⟨ms₄, e₄, h₄⟩ := h₃.free
    refine ⟨ms₄, ?_, h₄.cast (by
      cases q <;> simp [ReqStmt.tokens, ifKeyword, tOpen, tTick, tQuote, tComma, tClose])⟩
    simp only [PlainFlavor.toFlavor] at e₁
    simp only [ReqStmt.run, MState.token, malloc_fst, e₁, Res.bind_ok, e₂, e₃, e₄]
  | comment => exact ⟨ms, rfl, h.cast (by simp [ReqStmt.tokens])⟩
end

mutual
theorem Lines.keeps (l : Lines) {ms st st' H k} (h : Inv root m₀ R ms st H k)
    (hst : l.exec st = .ok st') :
    ∃ ms', l.run ms = .ok ms' ∧ Inv root m₀ R ms' st' H (k + disablings l.tokens) := by
  cases l with
  | one l => exact l.keeps h hst
  | more ls l =>
    obtain ⟨st₁, hst₁, hst₂⟩ := Res.bind_eq_ok hst
    obtain ⟨ms₁, e₁, h₁⟩ := ls.keeps h hst₁
    obtain ⟨ms₂, e₂, h₂⟩ := l.keeps h₁ hst₂
    exact ⟨ms₂, by simp only [Lines.run, e₁, Res.bind_ok, e₂],
      h₂.cast (by simp [Lines.tokens]; omega)⟩
theorem Line.keeps (l : Line) {ms st st' H k} (h : Inv root m₀ R ms st H k)
    (hst : l.exec st = .ok st') :
    ∃ ms', l.run ms = .ok ms' ∧ Inv root m₀ R ms' st' H (k + disablings l.tokens) := by
  cases l with
  | bare s => exact s.keeps h hst
  | withCommand s c =>
    obtain ⟨st₁, hst₁, hst₂⟩ := Res.bind_eq_ok hst
    cases hst₂
    obtain ⟨ms₁, e₁, h₁⟩ := s.keeps h hst₁
    obtain ⟨ms₂, e₂, h₂⟩ := h₁.command c
    exact ⟨ms₂, by simp only [Line.run, e₁, Res.bind_ok, e₂],
      h₂.cast (by simp [Line.tokens, commandCost_eq]; omega)⟩
theorem Stmt.keeps (l : Stmt) {ms st st' H k} (h : Inv root m₀ R ms st H k)
    (hst : l.exec st = .ok st') :
    ∃ ms', l.run ms = .ok ms' ∧ Inv root m₀ R ms' st' H (k + disablings l.tokens) := by
  cases l with
  | silent s =>
    cases hst
    obtain ⟨ms₁, e₁, h₁⟩ := h.quiet s.clean
    exact ⟨ms₁, by simp only [Stmt.run, e₁], h₁.cast (by simp [Stmt.tokens])⟩
  | simple line s =>
    obtain ⟨ms₁, e₁, h₁⟩ := h.simple s line hst
    exact ⟨ms₁, by simp only [Stmt.run, e₁], h₁.cast (by simp [Stmt.tokens])⟩
  | optional line cmd body =>
    obtain ⟨st₁, hst₁, hst₂⟩ := Res.bind_eq_ok hst
    cases hst₂
    obtain ⟨c, ms₀, e₀, h₀⟩ := h.heldToken cmd
    obtain ⟨ms₁, e₁, h₁⟩ := h₀.beginPlain .optionalPolicy (by decide) line
    obtain ⟨ms₂, e₂, h₂⟩ := h₁.parentCommand (beginBlock_ups _ _ _)
    obtain ⟨ms₃, e₃, h₃⟩ := body.keeps h₂ hst₁
    obtain ⟨ms₄, e₄, h₄⟩ := h₃.close .optionalPolicy
    simp only [PlainFlavor.toFlavor] at e₁
    exact ⟨ms₄, by simp only [Stmt.run, e₀, e₁, e₂, e₃, e₄, Res.bind_ok],
      h₄.cast (by simp [Stmt.tokens, optCost_eq, tOpen, tTick, tQuote, tClose]; omega)⟩
  | optionalEmpty line cmd =>
    cases hst
    obtain ⟨c, ms₀, e₀, h₀⟩ := h.heldToken cmd
    obtain ⟨ms₁, e₁, h₁⟩ := h₀.beginPlain .optionalPolicy (by decide) line
    obtain ⟨ms₂, e₂, h₂⟩ := h₁.parentCommand (beginBlock_ups _ _ _)
    obtain ⟨ms₄, e₄, h₄⟩ := h₂.close .optionalPolicy
    simp only [PlainFlavor.toFlavor] at e₁
    exact ⟨ms₄, by simp only [Stmt.run, e₀, e₁, e₂, e₄, Res.bind_ok],
      h₄.cast (by simp [Stmt.tokens, optCost_eq, tOpen, tTick, tQuote, tClose])⟩
  | optionalElse line cmd body elseLine els =>
    obtain ⟨st₁, hst₁, hst₂⟩ := Res.bind_eq_ok hst
    obtain ⟨st₂, hst₃, hst₄⟩ := Res.bind_eq_ok hst₂
    cases hst₄
    obtain ⟨c, ms₀, e₀, h₀⟩ := h.heldToken cmd
    obtain ⟨ms₁, e₁, h₁⟩ := h₀.beginPlain .optionalPolicy (by decide) line
    obtain ⟨ms₂, e₂, h₂⟩ := h₁.parentCommand (beginBlock_ups _ _ _)
    obtain ⟨ms₃, e₃, h₃⟩ := body.keeps h₂ hst₁
    obtain ⟨ms₄, e₄, h₄⟩ := h₃.close .optionalPolicy
    obtain ⟨ms₅, e₅, h₅⟩ := h₄.beginPlain .optionalElse (by decide) elseLine
    obtain ⟨ms₆, e₆, h₆⟩ := els.keeps h₅ hst₃
    obtain ⟨ms₇, e₇, h₇⟩ := h₆.close .optionalElse
    simp only [PlainFlavor.toFlavor] at e₁ e₅
    exact ⟨ms₇, by simp only [Stmt.run, e₀, e₁, e₂, e₃, e₄, e₅, e₆, e₇, Res.bind_ok],
      h₇.cast (by simp [Stmt.tokens, optCost_eq, tOpen, tTick, tQuote, tClose, tComma]; omega)⟩
  | genRequire line cmd cmd' body =>
    cases hst
    obtain ⟨c, ms₀, e₀, h₀⟩ := h.heldToken cmd
    obtain ⟨ms₁, e₁, h₁⟩ := h₀.beginGenRequire line
    obtain ⟨ms₂, e₂, h₂⟩ := h₁.parentCommand (beginBlock_ups _ _ _)
    obtain ⟨p, ms₃, e₃, h₃⟩ := h₂.heldToken cmd'
    obtain ⟨ms₄, e₄, h₄⟩ := body.keeps h₃
    obtain ⟨ms₅, e₅, h₅⟩ := h₄.endGenRequire false
    obtain ⟨ms₆, e₆, h₆⟩ := h₅.lateCommand
    exact ⟨ms₆, by simp only [Stmt.run, e₀, e₁, e₂, e₃, e₄, e₅, e₆, Res.bind_ok],
      h₆.cast (by simp [Stmt.tokens, optCost_eq, tOpen, tTick, tQuote, tClose]; omega)⟩
  | genRequireUnquoted line cmd body =>
    cases hst
    obtain ⟨c, ms₀, e₀, h₀⟩ := h.heldToken cmd
    obtain ⟨ms₁, e₁, h₁⟩ := h₀.beginGenRequire line
    obtain ⟨ms₂, e₂, h₂⟩ := h₁.parentCommand (beginBlock_ups _ _ _)
    obtain ⟨ms₄, e₄, h₄⟩ := body.keeps h₂
    obtain ⟨ms₅, e₅, h₅⟩ := h₄.endGenRequire true
    exact ⟨ms₅, by simp only [Stmt.run, e₀, e₁, e₂, e₄, e₅, Res.bind_ok],
      h₅.cast (by simp [Stmt.tokens, optCost_eq, tOpen, tClose]; omega)⟩
  | require line cmd body =>
    cases hst
    obtain ⟨p, ms₁, e₁, h₁⟩ := h.heldToken cmd
    obtain ⟨ms₂, e₂, h₂⟩ := h₁.beginPlain .require (by decide) line
    obtain ⟨ms₃, e₃, h₃⟩ := h₂.earlyCommand (beginBlock_ups _ _ _)
    obtain ⟨ms₄, e₄, h₄⟩ := body.keeps h₃
    obtain ⟨ms₅, e₅, h₅⟩ := h₄.close .require
    obtain ⟨ms₆, e₆, h₆⟩ := h₅.freeHeld
    simp only [PlainFlavor.toFlavor] at e₂
    exact ⟨ms₆, by simp only [Stmt.run, e₁, e₂, e₃, e₄, e₅, e₆, Res.bind_ok],
      h₆.cast (by simp [Stmt.tokens, optCost_eq, tLeft, tRight]; omega)⟩
  | ifdef line neg cond args =>
    obtain ⟨st₁, hst₁, hst₂⟩ := Res.bind_eq_ok hst
    cases hst₂
    obtain ⟨ms₁, e₁, h₁⟩ := (h.token cond).beginPlain .ifdef (by decide) line
    obtain ⟨ms₂, e₂, h₂⟩ := args.keeps h₁ hst₁
    obtain ⟨ms₃, e₃, h₃⟩ := h₂.close .ifdef
    obtain ⟨ms₄, e₄, h₄⟩ := h₃.free
    simp only [PlainFlavor.toFlavor] at e₁
    exact ⟨ms₄, by simp only [Stmt.run, MState.token, malloc_fst, e₁, e₂, e₃, e₄, Res.bind_ok],
      h₄.cast (by simp [Stmt.tokens, ifKeyword, tOpen, tTick, tQuote, tComma, tClose])⟩
  | ifelse line args =>
    obtain ⟨st₁, hst₁, hst₂⟩ := Res.bind_eq_ok hst
    cases hst₂
    obtain ⟨ms₁, e₁, h₁⟩ := h.beginPlain .ifelse (by decide) line
    obtain ⟨ms₂, e₂, h₂⟩ := args.keeps h₁ hst₁
    obtain ⟨ms₃, e₃, h₃⟩ := h₂.close .ifelse
    simp only [PlainFlavor.toFlavor] at e₁
    exact ⟨ms₃, by simp only [Stmt.run, e₁, e₂, e₃, Res.bind_ok],
      h₃.cast (by simp [Stmt.tokens, tOpen, tClose])⟩
  | userdebugOrEng body =>
    obtain ⟨ms₁, e₁, h₁⟩ := body.keeps h hst
    exact ⟨ms₁, by simp only [Stmt.run, e₁],
      h₁.cast (by simp [Stmt.tokens, tOpen, tTick, tQuote, tClose])⟩
  | tunable line q cond args =>
    obtain ⟨st₁, hst₁, hst₂⟩ := Res.bind_eq_ok hst
    cases hst₂
    obtain ⟨ms₁, e₁, h₁⟩ := h.beginPlain .tunablePolicy (by decide) line
    obtain ⟨ms₂, e₂, h₂⟩ := h₁.quiet cond.clean
    obtain ⟨ms₃, e₃, h₃⟩ := args.keeps h₂ hst₁
    obtain ⟨ms₄, e₄, h₄⟩ := h₃.close .tunablePolicy
    simp only [PlainFlavor.toFlavor] at e₁
    exact ⟨ms₄, by simp only [Stmt.run, e₁, e₂, e₃, e₄, Res.bind_ok],
      h₄.cast (by cases q <;> simp [Stmt.tokens, tOpen, tTick, tQuote, tComma, tClose])⟩
  | boolean line cmd cond body =>
    obtain ⟨st₁, hst₁, hst₂⟩ := Res.bind_eq_ok hst
    cases hst₂
    obtain ⟨c, ms₀, e₀, h₀⟩ := h.heldToken cmd
    obtain ⟨ms₁, e₁, h₁⟩ := h₀.beginPlain .booleanPolicy (by decide) line
    obtain ⟨ms₂, e₂, h₂⟩ := h₁.parentCommand (beginBlock_ups _ _ _)
    obtain ⟨ms₃, e₃, h₃⟩ := h₂.quiet cond.clean
    obtain ⟨ms₄, e₄, h₄⟩ := body.keeps h₃ hst₁
    obtain ⟨ms₅, e₅, h₅⟩ := h₄.close .booleanPolicy
    simp only [PlainFlavor.toFlavor] at e₁
    exact ⟨ms₅, by simp only [Stmt.run, e₀, e₁, e₂, e₃, e₄, e₅, Res.bind_ok],
      h₅.cast (by simp [Stmt.tokens, optCost_eq, tOpen, tClose, tLeft, tRight]; omega)⟩
  | booleanElse line cmd cond body els =>
    obtain ⟨st₁, hst₁, hst₂⟩ := Res.bind_eq_ok hst
    obtain ⟨st₂, hst₃, hst₄⟩ := Res.bind_eq_ok hst₂
    cases hst₄
    obtain ⟨c, ms₀, e₀, h₀⟩ := h.heldToken cmd
    obtain ⟨ms₁, e₁, h₁⟩ := h₀.beginPlain .booleanPolicy (by decide) line
    obtain ⟨ms₂, e₂, h₂⟩ := h₁.parentCommand (beginBlock_ups _ _ _)
    obtain ⟨ms₃, e₃, h₃⟩ := h₂.quiet cond.clean
    obtain ⟨ms₄, e₄, h₄⟩ := body.keeps h₃ hst₁
    obtain ⟨ms₅, e₅, h₅⟩ := els.keeps h₄ hst₃
    obtain ⟨ms₆, e₆, h₆⟩ := h₅.close .booleanPolicy
    simp only [PlainFlavor.toFlavor] at e₁
    exact ⟨ms₆, by simp only [Stmt.run, e₀, e₁, e₂, e₃, e₄, e₅, e₆, Res.bind_ok],
      h₆.cast (by simp [Stmt.tokens, optCost_eq, tOpen, tClose, tLeft, tRight]; omega)⟩
  | define line q name content =>
    cases hst
    obtain ⟨ms₁, e₁, h₁⟩ := h.beginPlain .define (by decide) line
    obtain ⟨ms₂, e₂, h₂⟩ := h₁.quiet (dropToken_clean name)
    obtain ⟨ms₃, e₃, h₃⟩ := h₂.quiet content.clean
    obtain ⟨ms₄, e₄, h₄⟩ := h₃.close .define
    simp only [PlainFlavor.toFlavor] at e₁
    exact ⟨ms₄, by simp only [Stmt.run, e₁, e₂, e₃, e₄, Res.bind_ok],
      h₄.cast (by simp [Stmt.tokens, tOpen, tClose])⟩
theorem M4Args.keeps (l : M4Args) {ms st st' H k} (h : Inv root m₀ R ms st H k)
    (hst : l.exec st = .ok st') :
    ∃ ms', l.run ms = .ok ms' ∧ Inv root m₀ R ms' st' H (k + disablings l.tokens) := by
  cases l with
  | one line a =>
    obtain ⟨st₁, hst₁, hst₂⟩ := Res.bind_eq_ok hst
    cases hst₂
    obtain ⟨ms₁, e₁, h₁⟩ := h.beginPlain .m4Arg (by decide) line
    obtain ⟨ms₂, e₂, h₂⟩ := a.keeps h₁ hst₁
    obtain ⟨ms₃, e₃, h₃⟩ := h₂.close .m4Arg
    simp only [PlainFlavor.toFlavor] at e₁
    exact ⟨ms₃, by simp only [M4Args.run, e₁, e₂, e₃, Res.bind_ok], h₃⟩
  | more as line a =>
    obtain ⟨st₀, hst₀, hst⟩ := Res.bind_eq_ok hst
    obtain ⟨st₁, hst₁, hst₂⟩ := Res.bind_eq_ok hst
    cases hst₂
    obtain ⟨ms₀, e₀, h₀⟩ := as.keeps h hst₀
    obtain ⟨ms₁, e₁, h₁⟩ := h₀.beginPlain .m4Arg (by decide) line
    obtain ⟨ms₂, e₂, h₂⟩ := a.keeps h₁ hst₁
    obtain ⟨ms₃, e₃, h₃⟩ := h₂.close .m4Arg
    simp only [PlainFlavor.toFlavor] at e₁
    exact ⟨ms₃, by simp only [M4Args.run, e₀, e₁, e₂, e₃, Res.bind_ok],
      h₃.cast (by simp [M4Args.tokens, tComma]; omega)⟩
theorem M4Argument.keeps (l : M4Argument) {ms st st' H k} (h : Inv root m₀ R ms st H k)
    (hst : l.exec st = .ok st') :
    ∃ ms', l.run ms = .ok ms' ∧ Inv root m₀ R ms' st' H (k + disablings l.tokens) := by
  cases l with
  | empty => cases hst; exact ⟨ms, rfl, h⟩
  | emptyQuoted => cases hst; exact ⟨ms, rfl, h⟩
  | quoted body =>
    obtain ⟨ms₁, e₁, h₁⟩ := body.keeps h hst
    exact ⟨ms₁, by simp only [M4Argument.run, e₁],
      h₁.cast (by simp [M4Argument.tokens, tTick, tQuote])⟩
  | word s =>
    cases hst
    obtain ⟨ms₁, e₁, h₁⟩ := h.quiet (dropToken_clean s)
    exact ⟨ms₁, by simp only [M4Argument.run, e₁], h₁.cast (by simp [M4Argument.tokens])⟩
end

theorem body_keeps (l : Option Lines) {ms st st' H k} (h : Inv root m₀ R ms st H k)
    (hst : execBody l st = .ok st') :
    ∃ ms', runBody l ms = .ok ms' ∧
      Inv root m₀ R ms' st' H (k + disablings (match l with | none => [] | some b => b.tokens)) := by
  cases l with
  | none => cases hst; exact ⟨ms, rfl, h⟩
  | some b => exact b.keeps h hst

theorem IfDef.keeps (d : IfDef) {ms st st' H k} (h : Inv root m₀ R ms st H k)
    (hst : d.exec st = .ok st') :
    ∃ ms', d.run ms = .ok ms' ∧ Inv root m₀ R ms' st' H (k + disablings d.tokens) := by
  obtain ⟨st₁, hst₁, hst₂⟩ := Res.bind_eq_ok hst
  cases hst₂
  obtain ⟨ms₁, e₁, h₁⟩ := (h.token d.name).beginInterfaceDef d.isTemplate d.line
  obtain ⟨ms₂, e₂, h₂⟩ := h₁.free
  obtain ⟨p, ms₃, e₃, h₃⟩ := h₂.heldToken d.cmd
  obtain ⟨ms₄, e₄, h₄⟩ := body_keeps d.body h₃ hst₁
  obtain ⟨ms₅, e₅, h₅⟩ := h₄.endInterfaceDef
  obtain ⟨ms₆, e₆, h₆⟩ := h₅.lateCommand
  refine ⟨ms₆, by
    simp only [IfDef.run, MState.token, malloc_fst, e₁, e₂, e₃, e₄, e₅, e₆, Res.bind_ok],
    h₆.cast ?_⟩
  obtain ⟨line, t, name, cmd, _ | b⟩ := d <;>
    simp [IfDef.tokens, optCost_eq, tOpen, tTick, tQuote, tComma, tClose] <;> omega

theorem IfLine.keeps (l : IfLine) {ms st st' H k} (h : Inv root m₀ R ms st H k)
    (hst : l.exec st = .ok st') :
    ∃ ms', l.run ms = .ok ms' ∧ Inv root m₀ R ms' st' H (k + disablings l.tokens) := by
  cases l with
  | defn d => exact d.keeps h hst
  | comment line =>
    cases hst
    obtain ⟨ms', e, h'⟩ := h.insertComment line
    exact ⟨ms', e, h'.cast (by simp [IfLine.tokens])⟩

theorem ifLines_keeps (ls : List IfLine) : ∀ {ms st st' H k}, Inv root m₀ R ms st H k →
    execIfLines ls st = .ok st' →
    ∃ ms', runIfLines ls ms = .ok ms' ∧
      Inv root m₀ R ms' st' H (k + disablings (ls.flatMap IfLine.tokens)) := by
  induction ls with
  | nil => intro ms st st' H k h hst; cases hst; exact ⟨ms, rfl, h⟩
  | cons l ls ih =>
    intro ms st st' H k h hst
    obtain ⟨st₁, hst₁, hst₂⟩ := Res.bind_eq_ok hst
    obtain ⟨ms₁, e₁, h₁⟩ := l.keeps h hst₁
    obtain ⟨ms₂, e₂, h₂⟩ := ih h₁ hst₂
    exact ⟨ms₂, by simp only [runIfLines, e₁, e₂, Res.bind_ok], h₂.cast (by simp; omega)⟩

theorem comments_keep (ns : List Nat) : ∀ {ms st H k}, Inv root m₀ R ms st H k →
    ∃ ms', runComments ns ms = .ok ms' ∧ Inv root m₀ R ms' (execComments ns st) H k := by
  induction ns with
  | nil => intro ms st H k h; exact ⟨ms, rfl, h⟩
  | cons n ns ih =>
    intro ms st H k h
    obtain ⟨ms₁, e₁, h₁⟩ := h.insertComment n
    obtain ⟨ms₂, e₂, h₂⟩ := ih h₁
    exact ⟨ms₂, by simp only [runComments, e₁, e₂, Res.bind_ok], h₂⟩

theorem Header.keeps (d : Header) {ms st H k} (h : Inv root m₀ R ms st H k) :
    ∃ ms', d.run ms = .ok ms' ∧
      Inv root m₀ R ms' (st.insertHeader d.name (if d.isMacro then .macro else .bare) d.line) H k := by
  obtain ⟨ms₁, e₁, h₁⟩ := (h.token d.name).quiet (dropToken_clean d.version)
  obtain ⟨ms₂, e₂, h₂⟩ := h₁.insertHeader (if d.isMacro then .macro else .bare) d.line
  obtain ⟨ms₃, e₃, h₃⟩ := h₂.free
  exact ⟨ms₃, by simp only [Header.run, MState.token, malloc_fst, e₁, e₂, e₃, Res.bind_ok], h₃⟩

/-! ## Support files -/

/-- The lists built so far by a support file: `K` are those in the table, which begins with
`P₀`, and `F` those that nothing points to. -/
structure SptInv (root : Addr) (m₀ : Mem) (R : List Addr) (P₀ : Assoc (List Str)) (ms : MState)
    (st : PState) (t : Sptables) (k n : Nat) : Prop where
  lists : ∃ (K : List (Str × Option Addr × List Str)) (F : List (Option Addr × List Str)),
    Inv root m₀ R ms st (K.map (fun e => .names e.2.1 e.2.2) ++ F.map (fun e => .names e.1 e.2)) k ∧
    st.maps.permmacros = P₀ ++ K.map (fun e => (e.1, e.2.2)) ∧
    t.kept = K.map (fun e => (e.1, e.2.1)) ∧ t.forgotten = F.map (·.1) ∧
    K.length + F.length = n

theorem SptDef.keeps (d : SptDef) {P₀ ms st t k n} (h : SptInv root m₀ R P₀ ms st t k n) :
    ∃ ms' t', d.run ms t = .ok (ms', t') ∧
      SptInv root m₀ R P₀ ms' { st with maps := d.exec st.maps } t' k
        (n + if d.warn.isNone && endsWith d.name cs!"_perms" then 1 else 0) := by
  obtain ⟨⟨K, F, h, hP, hK, hF, hn⟩⟩ := h
  obtain ⟨name, list, warn⟩ := d
  obtain ⟨p, ms₁, e₁, h₁⟩ := (h.token name).names list.builds
  cases warn with
  | some w =>
    obtain ⟨ms₂, e₂, h₂⟩ := h₁.quiet w.clean
    obtain ⟨ms₃, e₃, h₃⟩ := h₂.swap.free
    obtain ⟨ms₄, e₄, h₄⟩ := h₃.freeList
    exact ⟨ms₄, t, by
      simp only [SptDef.run, MState.token, malloc_fst, e₁, e₂, e₃, e₄, Res.bind_ok],
      ⟨K, F, h₄, hP, hK, hF, hn⟩⟩
  | none =>
    have hw := h₁.word_at (a := ms.mem.top) (s := name) (by simp)
    by_cases hp : endsWith name cs!"_perms" = true
    · have hl := h₁.readList (p := p) (List.mem_cons_self ..)
      obtain ⟨ms₃, e₃, h₃⟩ := h₁.swap.free
      have hval : (list.value.map fun s => (s, false)).map (·.1) = list.value := by
        simp [List.map_map, Function.comp_def]
      simp only [SptDef.run, MState.token, malloc_fst, e₁, hw, hl, if_pos hp, Res.bind_ok, hval,
        giveList, SptDef.exec, h₁.maps]
      cases hfind : Assoc.find st.maps.permmacros name with
      | some v =>
        refine ⟨ms₃, { t with forgotten := t.forgotten ++ [p] }, by simp only [e₃, Res.bind_ok],
          ⟨K, F ++ [(p, list.value)], ?_, ?_, hK, by simp [hF], by simp [hp]; omega⟩⟩
        · have : Maps.insertPermmacro st.maps name list.value = st.maps := by
            simp only [Maps.insertPermmacro, Assoc.insertNew, hfind]
          rw [this]
          exact h₃.perm (by simpa using
            (List.perm_append_singleton _ (_ ++ _)).symm)
        · simp only [Maps.insertPermmacro, Assoc.insertNew, hfind]
          exact hP
      | none =>
        have h₄ := h₁.swap.setMaps (st.maps.insertPermmacro name list.value)
        obtain ⟨ms₅, e₅, h₅⟩ := h₄.free
        refine ⟨ms₅, { t with kept := t.kept ++ [(name, p)] }, by simp only [e₅, Res.bind_ok],
          ⟨K ++ [(name, p, list.value)], F, ?_, ?_, by simp [hK], hF, by simp [hp]; omega⟩⟩
        · exact h₅.perm (by simpa using List.perm_middle.symm)
        · simp only [Maps.insertPermmacro, Assoc.insertNew, hfind]
          simp [hP]
    · obtain ⟨ms₂, e₂, h₂⟩ := h₁.freeList
      obtain ⟨ms₃, e₃, h₃⟩ := h₂.free
      refine ⟨ms₃, t, by
        simp only [SptDef.run, MState.token, malloc_fst, e₁, hw, if_neg hp, e₂, e₃, Res.bind_ok],
        ⟨K, F, ?_, ?_, hK, hF, by simp [hp, hn]⟩⟩
      · simpa only [SptDef.exec, if_neg hp] using h₃
      · simpa only [SptDef.exec, if_neg hp] using hP

theorem sptLines_keep (ds : List (Option SptDef)) {P₀} : ∀ {ms st t k n},
    SptInv root m₀ R P₀ ms st t k n →
    ∃ ms' t', runSptLines ds ms t = .ok (ms', t') ∧
      SptInv root m₀ R P₀ ms' { st with maps := ds.foldl execSptLine st.maps } t' k
        (n + (ds.countP fun o => o.any fun d => d.warn.isNone && endsWith d.name cs!"_perms")) := by
  induction ds with
  | nil => intro ms st t k n h; exact ⟨ms, t, rfl, h⟩
  | cons d ds ih =>
    intro ms st t k n h
    cases d with
    | none =>
      obtain ⟨ms', t', e, h'⟩ := ih h
      refine ⟨ms', t', e, ?_⟩
      rw [List.countP_cons_of_neg (by simp)]
      exact h'
    | some d =>
      obtain ⟨ms₁, t₁, e₁, h₁⟩ := d.keeps h
      obtain ⟨ms₂, t₂, e₂, h₂⟩ := ih h₁
      refine ⟨ms₂, t₂, by simp only [runSptLines, e₁, Res.bind_ok, e₂], ?_⟩
      have : n + (if (d.warn.isNone && endsWith d.name cs!"_perms") = true then 1 else 0) +
          (ds.countP fun o => o.any fun d => d.warn.isNone && endsWith d.name cs!"_perms") =
          n + ((some d :: ds).countP fun o => o.any fun d =>
            d.warn.isNone && endsWith d.name cs!"_perms") := by
        rw [List.countP_cons]
        simp only [Option.any_some]
        omega
      rw [← this]
      exact h₂

/-! ## Access vector files -/

theorem perms_keep (ps : List (Option Str)) : ∀ {ms st H k}, Inv root m₀ R ms st H k →
    ∃ ms', runPerms ps ms = .ok ms' ∧
      Inv root m₀ R ms' { st with maps := ps.foldl (fun m o =>
        match o with
        | none => m
        | some s => m.insertDecl s avFileName .perm) st.maps } H k := by
  induction ps with
  | nil => intro ms st H k h; exact ⟨ms, rfl, h⟩
  | cons p ps ih =>
    intro ms st H k h
    cases p with
    | none => exact ih h
    | some s =>
      have h₁ := (h.token s).setMaps (st.maps.insertDecl s avFileName .perm)
      obtain ⟨ms₂, e₂, h₂⟩ := h₁.free
      obtain ⟨ms₃, e₃, h₃⟩ := ih h₂
      refine ⟨ms₃, ?_, h₃⟩
      simp only [runPerms, MState.token, malloc_fst, h.maps, e₂, e₃, Res.bind_ok]

theorem AvDef.keeps (d : AvDef) {ms st H k} (h : Inv root m₀ R ms st H k) :
    ∃ ms', d.run ms = .ok ms' ∧
      Inv root m₀ R ms' { st with maps := d.exec st.maps } H k := by
  cases d with
  | cls n p =>
    obtain ⟨ms₁, e₁, h₁⟩ := perms_keep p.all (h.token n)
    obtain ⟨ms₂, e₂, h₂⟩ := (h₁.setMaps ((p.exec st.maps).insertDecl n avFileName .cls)).free
    refine ⟨ms₂, ?_, h₂⟩
    simp only [AvDef.run, MState.token, malloc_fst, e₁, Res.bind_ok, h₁.maps]
    exact e₂
  | inherits n c =>
    obtain ⟨ms₂, e₂, h₂⟩ := (((h.token n).token c).swap.setMaps
      (st.maps.insertDecl n avFileName .cls)).free
    obtain ⟨ms₃, e₃, h₃⟩ := h₂.free
    refine ⟨ms₃, ?_, h₃⟩
    simp only [AvDef.run, MState.token, malloc_fst, h.maps, e₂, Res.bind_ok]
    exact e₃
  | inheritsPerms n c p =>
    obtain ⟨ms₁, e₁, h₁⟩ := perms_keep p.all ((h.token n).token c)
    obtain ⟨ms₂, e₂, h₂⟩ := (h₁.swap.setMaps ((p.exec st.maps).insertDecl n avFileName .cls)).free
    obtain ⟨ms₃, e₃, h₃⟩ := h₂.free
    refine ⟨ms₃, ?_, h₃⟩
    simp only [AvDef.run, MState.token, malloc_fst, e₁, Res.bind_ok, h₁.maps]
    exact (congrArg (· >>= _) e₂).trans e₃
  | common n p =>
    obtain ⟨ms₁, e₁, h₁⟩ := perms_keep p.all (h.token n)
    obtain ⟨ms₂, e₂, h₂⟩ := h₁.free
    exact ⟨ms₂, by simp only [AvDef.run, MState.token, malloc_fst, e₁, e₂, Res.bind_ok], h₂⟩

theorem avLines_keep (ds : List (Option AvDef)) : ∀ {ms st H k}, Inv root m₀ R ms st H k →
    ∃ ms', runAvLines ds ms = .ok ms' ∧
      Inv root m₀ R ms' { st with maps := ds.foldl execAvLine st.maps } H k := by
  induction ds with
  | nil => intro ms st H k h; exact ⟨ms, rfl, h⟩
  | cons d ds ih =>
    intro ms st H k h
    cases d with
    | none => exact ih h
    | some d =>
      obtain ⟨ms₁, e₁, h₁⟩ := d.keeps h
      obtain ⟨ms₂, e₂, h₂⟩ := ih h₁
      exact ⟨ms₂, by simp only [runAvLines, e₁, e₂, Res.bind_ok], h₂⟩

end Selint
