import Verif.Model.Grammar
/-!
# Derivations up to the grouping of conditions

The grammar of conditions is ambiguous; bison's precedences (parse.y:171-176) choose one grouping.
No action depends on it. `plain` forgets the conditions.
-/

namespace Selint

mutual
/-- The lines without their conditions. -/
def Lines.plain : Lines → Lines
  | .one l => .one l.plain
  | .more ls l => .more ls.plain l.plain
/-- The line without its conditions. -/
def Line.plain : Line → Line
  | .bare s => .bare s.plain
  | .withCommand s c => .withCommand s.plain c
/-- The statement without its conditions. -/
def Stmt.plain : Stmt → Stmt
  | .silent s => .silent s
  | .simple line s => .simple line s
  | .optional line cmd body => .optional line cmd body.plain
  | .optionalEmpty line cmd => .optionalEmpty line cmd
  | .optionalElse line cmd body l els => .optionalElse line cmd body.plain l els.plain
  | .genRequire line cmd cmd' body => .genRequire line cmd cmd' body
  | .genRequireUnquoted line cmd body => .genRequireUnquoted line cmd body
  | .require line cmd body => .require line cmd body
  | .ifdef line negated cond args => .ifdef line negated cond args.plain
  | .ifelse line args => .ifelse line args.plain
  | .userdebugOrEng body => .userdebugOrEng body.plain
  | .tunable line quoted _ args => .tunable line quoted (.name []) args.plain
  | .boolean line cmd _ body => .boolean line cmd (.name []) body.plain
  | .booleanElse line cmd _ body els => .booleanElse line cmd (.name []) body.plain els.plain
  | .define line quoted name content => .define line quoted name content
/-- The arguments without their conditions. -/
def M4Args.plain : M4Args → M4Args
  | .one line a => .one line a.plain
  | .more as line a => .more as.plain line a.plain
/-- The argument without its conditions. -/
def M4Argument.plain : M4Argument → M4Argument
  | .empty => .empty
  | .emptyQuoted => .emptyQuoted
  | .quoted body => .quoted body.plain
  | .word s => .word s
end

/-- The definition without its conditions. -/
def IfDef.plain (d : IfDef) : IfDef := { d with body := d.body.map Lines.plain }

/-- The line without its conditions. -/
def IfLine.plain : IfLine → IfLine
  | .defn d => .defn d.plain
  | .comment n => .comment n

/-- The file without its conditions. -/
def SourceFile.plain : SourceFile → SourceFile
  | .te cs h body => .te cs h body.plain
  | .iface cs d ls => .iface cs d.plain (ls.map IfLine.plain)
  | f => f

end Selint
