import Verif.Model.Grammar
/-!
# The line numbers of a derivation

`f.At ts`: the tokens `ts` (each with its line, as the scanner delivers it) are those of the
derivation `f`, and every line number in `f` is the one that bison computes. parse.y does not
define `YYLLOC_DEFAULT`, so by bison's manual (section "Default Action for Locations") the
first line of a production with a right-hand side is that of its first symbol; an action in
the middle of a production is an empty production, whose line is the last one of the symbol
before it.
-/

namespace Selint

/-- Tokens with their lines. -/
abbrev Located := List (Nat × Token)

namespace Located

/-- The tokens. -/
def toks (ts : Located) : List Token := ts.map Prod.snd

/-- The lines. -/
def lines (ts : Located) : List Nat := ts.map Prod.fst

/-- The line of the first token. -/
def first (ts : Located) : Option Nat := ts.lines.head?

/-- The line of the last token. -/
def last (ts : Located) : Option Nat := ts.lines.getLast?

/-- A production whose action runs at its end. -/
def whole (ts : Located) (tokens : List Token) (line : Nat) : Prop :=
  ts.toks = tokens ∧ ts.first = some line

end Located

mutual
/-- parse.y:572-576. -/
def ReqLines.At : ReqLines → Located → Prop
  | .one l, ts => l.At ts
  | .more ls l, ts => ∃ a b : Located, ts = a ++ b ∧ ls.At a ∧ l.At b
/-- parse.y:578-582. -/
def ReqLine.At : ReqLine → Located → Prop
  | .bare s, ts => s.At ts
  | .withCommand s c, ts => ∃ (a : Located) (n : Nat), ts = a ++ [(n, .command c)] ∧ s.At a
/-- parse.y:584-619. -/
def ReqStmt.At : ReqStmt → Located → Prop
  | .decls line _ kw _ names, ts => ts.whole (.kw kw :: (names.tokens ++ [tSemi])) line
  | .cls line n l, ts => ts.whole (.kw .cls :: .string n :: (l.tokens ++ [tSemi])) line
  | .ifdef line negated quoted cond body, ts =>
    ∃ o b c : Located, ts = o ++ b ++ c ∧
      o.toks = [ifKeyword negated, tOpen, tTick, .string cond, tQuote, tComma] ++
        (if quoted then [tTick] else []) ∧
      o.last = some line ∧ body.At b ∧ c.toks = (if quoted then [tQuote] else []) ++ [tClose]
  | .comment, ts => ts.toks = [.comment]
end

mutual
/-- parse.y:268-272. -/
def Lines.At : Lines → Located → Prop
  | .one l, ts => l.At ts
  | .more ls l, ts => ∃ a b : Located, ts = a ++ b ∧ ls.At a ∧ l.At b
/-- parse.y:274-278. -/
def Line.At : Line → Located → Prop
  | .bare s, ts => s.At ts
  | .withCommand s c, ts => ∃ (a : Located) (n : Nat), ts = a ++ [(n, .command c)] ∧ s.At a
/-- parse.y:280-347. -/
def Stmt.At : Stmt → Located → Prop
  | .silent s, ts => ts.toks = s.tokens
  | .simple line s, ts => ts.whole s.tokens line
  -- parse.y:530-547
  | .optional line cmd body, ts =>
    ∃ o b c : Located, ts = o ++ b ++ c ∧
      o.whole ([.kw .optionalPolicy, tOpen, tTick] ++ commandTokens cmd) line ∧ body.At b ∧
      c.toks = [tQuote, tClose]
  | .optionalEmpty line cmd, ts =>
    ∃ o c : Located, ts = o ++ c ∧
      o.whole ([.kw .optionalPolicy, tOpen, tTick] ++ commandTokens cmd) line ∧ c.toks = [tQuote, tClose]
  | .optionalElse line cmd body elseLine els, ts =>
    ∃ o b m e c : Located, ts = o ++ b ++ m ++ e ++ c ∧
      o.whole ([.kw .optionalPolicy, tOpen, tTick] ++ commandTokens cmd) line ∧ body.At b ∧
      m.toks = [tQuote, tComma, tTick] ∧ m.last = some elseLine ∧ els.At e ∧ c.toks = [tQuote, tClose]
  -- parse.y:549-570
  | .genRequire line cmd cmd' body, ts =>
    ∃ o m b c : Located, ts = o ++ m ++ b ++ c ∧
      o.whole ([.kw .genRequire, tOpen] ++ commandTokens cmd) line ∧ m.toks = tTick :: commandTokens cmd' ∧
      body.At b ∧ c.toks = [tQuote, tClose]
  | .genRequireUnquoted line cmd body, ts =>
    ∃ o b c : Located, ts = o ++ b ++ c ∧
      o.whole ([.kw .genRequire, tOpen] ++ commandTokens cmd) line ∧ body.At b ∧ c.toks = [tClose]
  | .require line cmd body, ts =>
    ∃ o b c : Located, ts = o ++ b ++ c ∧ o.toks = [.kw .require, tLeft] ++ commandTokens cmd ∧
      o.last = some line ∧ body.At b ∧ c.toks = [tRight]
  -- parse.y:635-638
  | .ifdef line negated cond args, ts =>
    ∃ o b c : Located, ts = o ++ b ++ c ∧
      o.toks = [ifKeyword negated, tOpen, tTick, .string cond, tQuote, tComma] ∧ o.last = some line ∧
      args.At line b ∧ c.toks = [tClose]
  -- parse.y:646-648
  | .ifelse line args, ts =>
    ∃ o b c : Located, ts = o ++ b ++ c ∧ o.toks = [.kw .ifelse, tOpen] ∧ o.last = some line ∧
      args.At line b ∧ c.toks = [tClose]
  | .userdebugOrEng body, ts =>
    ∃ o b c : Located, ts = o ++ b ++ c ∧ o.toks = [.kw .userdebugOrEng, tOpen, tTick] ∧ body.At b ∧
      c.toks = [tQuote, tClose]
  -- parse.y:789-795
  | .tunable line quoted cond args, ts =>
    ∃ (o m b c : Located) (prev : Nat), ts = o ++ m ++ b ++ c ∧
      o.toks = [.kw .tunablePolicy, tOpen] ++ (if quoted then [tTick] else []) ∧ o.last = some line ∧
      m.toks = cond.tokens ++ (if quoted then [tQuote] else []) ++ [tComma] ∧ m.last = some prev ∧
      args.At prev b ∧ c.toks = [tClose]
  -- parse.y:776-787
  | .boolean line cmd cond body, ts =>
    ∃ o m b c : Located, ts = o ++ m ++ b ++ c ∧ o.whole ([.kw .kwIf, tOpen] ++ commandTokens cmd) line ∧
      m.toks = cond.tokens ++ [tClose, tLeft] ∧ body.At b ∧ c.toks = [tRight]
  | .booleanElse line cmd cond body els, ts =>
    ∃ o m b n e c : Located, ts = o ++ m ++ b ++ n ++ e ++ c ∧
      o.whole ([.kw .kwIf, tOpen] ++ commandTokens cmd) line ∧ m.toks = cond.tokens ++ [tClose, tLeft] ∧
      body.At b ∧ n.toks = [tRight, .kw .kwElse, tLeft] ∧ els.At e ∧ c.toks = [tRight]
  -- parse.y:849-852
  | .define line quoted name content, ts =>
    ∃ o c : Located, ts = o ++ c ∧ o.toks = [.kw .define, tOpen] ∧ o.last = some line ∧
      c.toks = defineNameTokens quoted name ++ content.tokens ++ [tClose]
/-- parse.y:706-710; the number is the last line of the symbol before the arguments. -/
def M4Args.At : M4Args → Nat → Located → Prop
  | .one line a, prev, ts => line = prev ∧ a.At ts
  | .more as line a, prev, ts =>
    ∃ (x y : Located), ts = x ++ (line, tComma) :: y ∧ as.At prev x ∧ a.At y
/-- parse.y:712-720. -/
def M4Argument.At : M4Argument → Located → Prop
  | .empty, ts => ts = []
  | .emptyQuoted, ts => ts.toks = [tTick, tQuote]
  | .quoted body, ts =>
    ∃ (m n : Nat) (b : Located), ts = (m, tTick) :: (b ++ [(n, tQuote)]) ∧ body.At b
  | .word s, ts => ts.toks = [.string s]
end

/-- parse.y:934-957: `start_interface` is a production of its own. -/
def IfDef.At (d : IfDef) (ts : Located) : Prop :=
  ∃ o m b c : Located, ts = o ++ m ++ b ++ c ∧
    o.whole [.kw (if d.isTemplate then .template else .interface), tOpen, tTick, .string d.name, tQuote,
      tComma, tTick] d.line ∧
    m.toks = commandTokens d.cmd ∧
    (match d.body with | none => b = [] | some body => body.At b) ∧ c.toks = [tQuote, tClose]

/-- parse.y:928-932. -/
def IfLine.At : IfLine → Located → Prop
  | .defn d, ts => d.At ts
  | .comment line, ts => ts = [(line, .comment)]

/-- The lines of an interface file after the first definition. -/
def ifLinesAt : List IfLine → Located → Prop
  | [], ts => ts = []
  | l :: ls, ts => ∃ a b : Located, ts = a ++ b ∧ l.At a ∧ ifLinesAt ls b

/-- parse.y:229-237: leading comments. -/
def commentsAt (cs : List Nat) : Located := cs.map fun n => (n, .comment)

/-- parse.y:200-221. -/
def SourceFile.At : SourceFile → Located → Prop
  | .empty, ts => ts = []
  | .te cs h body, ts => ∃ a b : Located, ts = commentsAt cs ++ a ++ b ∧ a.whole h.tokens h.line ∧ body.At b
  | .iface cs d ls, ts => ∃ a b : Located, ts = commentsAt cs ++ a ++ b ∧ d.At a ∧ ifLinesAt ls b
  | .spt cs d ls, ts =>
    ∃ b : Located, ts = commentsAt cs ++ b ∧
      b.toks = d.tokens ++ ls.flatMap (fun | none => [.comment] | some d => d.tokens)
  | .av cs d ls, ts =>
    ∃ b : Located, ts = commentsAt cs ++ b ∧
      b.toks = d.tokens ++ ls.flatMap (fun | none => [.comment] | some d => d.tokens)
  | .comments c cs, ts => ts = commentsAt (c :: cs)

end Selint
