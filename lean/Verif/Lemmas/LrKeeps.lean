import Verif.Lemmas.LrDerives
/-!
# Tactics for the productions
-/

namespace Selint
namespace Lr

/-- What the action has computed. -/
macro "lr_eval" h:ident : tactic => `(tactic|
  simp only [evalAll, Cmd.eval, wordOf, markedOf, namesOf, avOf, ifKindOf, FVal.names,
    List.nil_append, List.append_nil, Nat.reduceSub, Nat.sub_self, List.getElem?_cons_zero,
    List.getElem?_cons_succ, Option.bind_some, Option.map_some, List.map_map, Function.comp_def,
    List.map_id', List.map_cons, List.map_nil, Option.some.injEq, Eff.mk.injEq] at $h:ident)

theorem parentCommand_none (st : PState) : st.parentCommand none = st := rfl

theorem execComments_nil (st : PState) : execComments [] st = st := rfl

/-- The tokens agree. -/
syntax "lr_toks" (" [" term,* "]")? : tactic
macro_rules
  | `(tactic| lr_toks) => `(tactic| lr_toks [])
  | `(tactic| lr_toks [$hs,*]) => `(tactic| first
    | rfl
    | (simp [spt_tokens, av_tokens, tComma, $[$hs:term],*]; done)
    | simp [SourceFile.tokens, spt_tokens, av_tokens, Header.tokens, Lines.tokens, Line.tokens,
        Stmt.tokens, Silent.tokens, Simple.tokens, Decl.tokens, SList.tokens, SlItem.tokens,
        XList.tokens, XItem.tokens, CommaList.tokens, Arg.tokens, Args.tokens, ArgCont.tokens,
        MlsRange.tokens, MlsLevel.tokens, MlsComponent.tokens, RawContext.tokens, Context.tokens,
        Condition.tokens, M4Elem.token, M4String.tokens, PortRange.tokens, maybeStringComma,
        ReqLines.tokens, ReqLine.tokens, ReqStmt.tokens, defineNameTokens, DefineContent.tokens,
        M4Args.tokens, M4Argument.tokens, IfDef.tokens, IfLine.tokens, SptDef.tokens,
        AvPerms_tokens, AvDef.tokens, AvPerms.all, avToken, sptLineTokens, avLineTokens,
        commandTokens, avKeyword, xavKeyword, ifKeyword, tOpen, tClose, tComma, tSemi, tColon,
        tTick, tQuote, tLeft, tRight, $[$hs:term],*])

/-- The states agree. -/
syntax "lr_effs" (" [" term,* "]")? : tactic
macro_rules
  | `(tactic| lr_effs) => `(tactic| lr_effs [])
  | `(tactic| lr_effs [$hs,*]) => `(tactic| first
    | rfl
    | assumption
    | (simp [SourceFile.exec, execComments_nil, execIfLines, execIfLines_append, Res.bind_ok,
        $[$hs:term],*]; done)
    | simp [SourceFile.exec, Lines.exec, Line.exec, Stmt.exec, Simple.exec, Decl.exec,
        ReqLines.exec, ReqLine.exec, ReqStmt.exec, M4Args.exec, M4Argument.exec, execBody,
        IfDef.exec, IfLine.exec, execIfLines, execIfLines_append, execComments, SptDef.exec,
        AvPerms_exec, AvDef.exec, AvPerms.all, avPermMaps, execAvLine, execSptLine, macroMaps,
        parentCommand_none, PState.lateCommand, Res.bind_ok, $[$hs:term],*])

/-- The values agree. -/
macro "lr_vals" : tactic => `(tactic| first
  | rfl
  | simp [FVal.names, SList.value, SlItem.value, XList.value, XItem.value, CommaList.value,
      Arg.value, Args.value, ArgCont.value, MlsRange.value, MlsLevel.value, MlsComponent.value])

end Lr
end Selint
