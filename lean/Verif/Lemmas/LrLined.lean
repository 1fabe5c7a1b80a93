import Verif.Lemmas.LrKeeps
import Verif.Model.LrLines
import Verif.Model.Location
/-!
# What a symbol on the parser's stack stands for, with lines

As `LrDerives.lean`, but the tokens carry their lines, and the lines in the derivations are those
that bison computes.
-/

namespace Selint
namespace Lr

/-- The value of a symbol and its lines. -/
structure Placed where
  v : FVal
  first : Nat
  last : Nat

/-- The last line of the topmost symbol. -/
def prevLine : List Placed → Nat
  | [] => 1
  | x :: _ => x.last

/-- The tokens are those of a statement, which changes the state. -/
def LStmtSeg (st : PState) (us : Located) (st' : PState) : Prop :=
  ∃ s : Stmt, s.At us ∧ s.exec st = .ok st'

/-- What a nonterminal stands for; `σ` are the values below it on the stack. -/
def LNtSeg (expected : PlainFlavor) (mod : Str) (maps : Maps) (n : Nt) (v : FVal) (a b : Nat)
    (σ : List Placed) (st : PState) (us : Located) (st' : PState) : Prop :=
  match n with
  | .selinuxFile =>
    σ = [] → st = PState.init expected mod maps →
      ∃ f : SourceFile, f.At us ∧ f.exec expected mod maps = .ok (some st')
  | .tePolicy => ∃ (h : Header) (b : Lines) (o u : Located), expected = .teFile ∧ us = o ++ u ∧
      o.whole h.tokens h.line ∧ b.At u ∧
      b.exec (st.insertHeader h.name (if h.isMacro then .macro else .bare) h.line) = .ok st'
  | .comments => ∃ (c : Nat) (cs : List Nat), us = commentsAt (c :: cs) ∧
      st' = execComments (c :: cs) st
  | .comment => us = [(a, .comment)] ∧ st' = st.insertComment a
  | .header => ∃ h : Header, expected = .teFile ∧ us.whole h.tokens h.line ∧
      st' = st.insertHeader h.name (if h.isMacro then .macro else .bare) h.line
  | .headerVersion => ∃ (b : Bool) (s : Str), us.toks = [if b then .number s else .versionNo s] ∧
      st' = st
  | .body | .lines => ∃ b : Lines, b.At us ∧ b.exec st = .ok st'
  | .line => ∃ l : Line, l.At us ∧ l.exec st = .ok st'
  | .refpolicywarn => ∃ s, us.toks = (Silent.refpolicywarn s).tokens ∧ st' = st
  | .avType => ∃ fl, v = .av fl ∧ us = [(a, .kw (avKeyword fl))] ∧ st' = st
  | .xpermAvType => ∃ fl, v = .av fl ∧ us = [(a, .kw (xavKeyword fl))] ∧ st' = st
  | .xpermList => ∃ l : XList, v = .names l.value ∧ us.toks = l.tokens ∧ st' = st
  | .xpermItems => ∃ (i : XItem) (is : List XItem), v = .names (i.value :: is.map XItem.value) ∧
      us.toks = i.tokens ++ is.flatMap XItem.tokens ∧ st' = st
  | .xpermItem => ∃ i : XItem, v = .word i.value ∧ us.toks = i.tokens ∧ st' = st
  | .stringList => ∃ l : SList, v = .names l.value ∧ us.toks = l.tokens ∧ st' = st
  | .strings => ∃ (i : SlItem) (is : List SlItem), v = .names (i.value :: is.map SlItem.value) ∧
      us.toks = i.tokens ++ is.flatMap SlItem.tokens ∧ st' = st
  | .slItem => ∃ i : SlItem, v = .word i.value ∧ us.toks = i.tokens ∧ st' = st
  | .commaStringList => ∃ l : CommaList, v = .names l.value ∧ us.toks = l.tokens ∧ st' = st
  | .optionalOpen => ∃ line cmd, us.whole ([.kw .optionalPolicy, tOpen, tTick] ++ commandTokens cmd) line ∧
      st' = (st.beginBlock (.plain .optionalPolicy none) line).parentCommand cmd
  | .genRequireBegin => ∃ line cmd, us.whole ([.kw .genRequire, tOpen] ++ commandTokens cmd) line ∧
      st' = (st.beginGenRequire line).parentCommand cmd
  | .booleanOpen => ∃ line cmd, us.whole ([.kw .kwIf, tOpen] ++ commandTokens cmd) line ∧
      st' = (st.beginBlock (.plain .booleanPolicy none) line).parentCommand cmd
  | .requireLines => ∃ l : ReqLines, l.At us ∧ st' = l.exec st
  | .requireLine => ∃ l : ReqLine, l.At us ∧ st' = l.exec st
  | .requireBare => ∃ s : ReqStmt, s.At us ∧ st' = s.exec st
  | .ifOrIfn => ∃ b, us.toks = [ifKeyword b] ∧ st' = st
  | .arbitraryM4String => ∃ s : M4String, us.toks = s.tokens ∧ st' = st
  | .m4StringElem => ∃ e : M4Elem, us.toks = [e.token] ∧ st' = st
  | .condition => ∃ c : Condition, us.toks = c.tokens ∧ st' = st
  | .m4Args => ∃ a : M4Args, a.At (prevLine σ) us ∧ a.exec st = .ok st'
  | .m4Argument => ∃ a : M4Argument, a.At us ∧ a.exec st = .ok st'
  | .arg => ∃ a : Arg, v = .names a.value ∧ us.toks = a.tokens ∧ st' = st
  | .args => ∃ a : Args, v = .list a.value ∧ us.toks = a.tokens ∧ st' = st
  | .mlsRange => ∃ r : MlsRange, v = .word r.value ∧ us.toks = r.tokens ∧ st' = st
  | .mlsLevel => ∃ r : MlsLevel, v = .word r.value ∧ us.toks = r.tokens ∧ st' = st
  | .mlsComponent => ∃ r : MlsComponent, v = .word r.value ∧ us.toks = r.tokens ∧ st' = st
  | .genfsconContext => ∃ (b : Bool) (c : Context),
      us.toks = (if b then [.fileType] else []) ++ c.tokens ∧ st' = st
  | .portRange => ∃ r : PortRange, us.toks = r.tokens ∧ st' = st
  | .twoIpAddrs => ∃ a b, (us.toks = [.ipv4 a, .ipv4 b] ∨ us.toks = [.ipv6 a, .ipv6 b]) ∧ st' = st
  | .defineName => ∃ b s, us.toks = defineNameTokens b s ∧ st' = st
  | .defineContent => ∃ c : DefineContent, us.toks = c.tokens ∧ st' = st
  | .defineExpansion => ∃ c : DefineContent, c.tokens = tComma :: us.toks ∧ st' = st
  | .maybeStringComma => ∃ o, us.toks = maybeStringComma o ∧ st' = st
  | .context => ∃ c : Context, us.toks = c.tokens ∧ st' = st
  | .rawContext => ∃ c : RawContext, us.toks = c.tokens ∧ st' = st
  | .ifFile => ∃ (d : IfDef) (ls : List IfLine) (st₁ : PState) (o u : Located),
      expected = .ifFile ∧ us = o ++ u ∧ d.At o ∧ ifLinesAt ls u ∧ d.exec st = .ok st₁ ∧
      execIfLines ls st₁ = .ok st'
  | .ifLines => ∃ ls : List IfLine, ifLinesAt ls us ∧ execIfLines ls st = .ok st'
  | .ifLine => ∃ l : IfLine, l.At us ∧ l.exec st = .ok st'
  | .interfaceDef => ∃ d : IfDef, expected = .ifFile ∧ d.At us ∧ d.exec st = .ok st'
  | .startInterface => ∃ (b : Bool) (name : Str) (line : Nat), expected = .ifFile ∧
      us.whole [.kw (if b then .template else .interface), tOpen, tTick, .string name, tQuote,
        tComma, tTick] line ∧ st' = st.beginInterfaceDef b name line
  | .endInterface => us.toks = [tQuote, tClose] ∧ st' = st.endInterfaceDef
  | .ifKeyword => ∃ b, v = .ifKind b ∧ us = [(a, .kw (if b then .template else .interface))] ∧ st' = st
  | .sptFile => ∃ (d : SptDef) (ls : List (Option SptDef)), expected = .sptFile ∧
      us.toks = d.tokens ++ ls.flatMap sptLineTokens ∧
      st' = { st with maps := ls.foldl execSptLine (d.exec st.maps) }
  | .sptLines => ∃ ls : List (Option SptDef),
      us.toks = ls.flatMap sptLineTokens ∧
      st' = { st with maps := ls.foldl execSptLine st.maps }
  | .sptLine => ∃ o : Option SptDef, us.toks = sptLineTokens o ∧
      st' = { st with maps := execSptLine st.maps o }
  | .supportDef => ∃ d : SptDef, expected = .sptFile ∧ us.toks = d.tokens ∧
      st' = { st with maps := d.exec st.maps }
  | .avFile => ∃ (d : AvDef) (ls : List (Option AvDef)),
      (∀ e, some e ∈ some d :: ls → e.isClass = true → expected = .avFile) ∧
      us.toks = d.tokens ++ ls.flatMap avLineTokens ∧
      st' = { st with maps := ls.foldl execAvLine (d.exec st.maps) }
  | .avContents => ∃ ls : List (Option AvDef),
      (∀ e, some e ∈ ls → e.isClass = true → expected = .avFile) ∧
      us.toks = ls.flatMap avLineTokens ∧
      st' = { st with maps := ls.foldl execAvLine st.maps }
  | .avContent => ∃ o : Option AvDef, (∀ e, o = some e → e.isClass = true → expected = .avFile) ∧
      us.toks = avLineTokens o ∧
      st' = { st with maps := execAvLine st.maps o }
  | .avDefinition | .avClassDefinition | .avCommonDefinition => ∃ d : AvDef,
      (d.isClass = true → expected = .avFile) ∧ us.toks = d.tokens ∧
      st' = { st with maps := d.exec st.maps }
  | .avPermissionList => ∃ p : AvPerms, us.toks = p.tokens ∧ st' = { st with maps := p.exec st.maps }
  | .avPermissions => ∃ p : AvPerms, us.toks = p.all.map avToken ∧
      st' = { st with maps := p.exec st.maps }
  | .avPermission => ∃ o : Option Str,
      us.toks = [avToken o] ∧ st' = { st with maps := avPermMaps st.maps o }
  | .midOptionalEnd => us = [] ∧ st' = st.endBlock .optionalPolicy
  | .midOptionalElse => us = [] ∧ b = prevLine σ ∧ st' = st.beginBlock (.plain .optionalElse none) b
  | .midRequire => us = [] ∧ b = prevLine σ ∧ st' = st.beginBlock (.plain .require none) b
  | .midRequireCommand => us = [] ∧ b = prevLine σ ∧ ∃ s, σ.head?.map Placed.v = some (.word s) ∧
      st' = (st.beginBlock (.plain .require none) b).parentCommand (some s)
  | .midReqIfdefQuoted | .midReqIfdef | .midIfdef =>
      us = [] ∧ b = prevLine σ ∧ st' = st.beginBlock (.plain .ifdef none) b
  | .midIfelse => us = [] ∧ b = prevLine σ ∧ st' = st.beginBlock (.plain .ifelse none) b
  | .midFirstArg | .midNextArg => us = [] ∧ b = prevLine σ ∧ st' = st.beginBlock (.plain .m4Arg none) b
  | .midTunableQuoted | .midTunable =>
      us = [] ∧ b = prevLine σ ∧ st' = st.beginBlock (.plain .tunablePolicy none) b
  | .midDefine => us = [] ∧ b = prevLine σ ∧ st' = st.beginBlock (.plain .define none) b
  | .bareLine | .declaration | .typeDeclaration | .boolDeclaration | .typeAlias | .typeAttribute
  | .roleAttribute | .rule | .xpermRule | .roleAllow | .roleTypes | .typeTransition
  | .rangeTransition | .roleTransition | .interfaceCall | .optionalBlock | .require
  | .m4SimpleMacro | .m4Call | .ifdef | .ifelse | .userdebugOrEng | .condExpr | .booleanBlock
  | .tunableBlock | .genfscon | .sid | .portcon | .netifcon | .nodecon | .fsUse | .define
  | .genUser | .permissive | .typebounds => LStmtSeg st us st'

/-- What a symbol stands for. -/
def LSeg (expected : PlainFlavor) (mod : Str) (maps : Maps) (s : Sym) (v : FVal) (a b : Nat)
    (σ : List Placed) (st : PState) (us : Located) (st' : PState) : Prop :=
  match s with
  | .t x => st' = st ∧ ∃ t : Option Token, tokenSym t = .t x ∧ v = tokenVal t ∧
      us = t.toList.map (fun t => (a, t)) ∧ a = b
  | .n n => LNtSeg expected mod maps n v a b σ st us st'

/-- What symbols stand for, from left to right. -/
def LSegs (expected : PlainFlavor) (mod : Str) (maps : Maps) : List Sym → List Placed →
    List Placed → PState → Located → PState → Prop
  | [], vals, _, st, us, st' => vals = [] ∧ us = [] ∧ st' = st
  | s :: ss, vals, σ, st, us, st' => ∃ v a b vals' us₁ us₂ st₁, vals = ⟨v, a, b⟩ :: vals' ∧
      us = us₁ ++ us₂ ∧ LSeg expected mod maps s v a b σ st us₁ st₁ ∧
      LSegs expected mod maps ss vals' (⟨v, a, b⟩ :: σ) st₁ us₂ st'

/-- `@$.first_line`, from the symbols on the right and those before. -/
def firstLine (vals σ : List Placed) : Nat :=
  match vals with
  | [] => prevLine σ
  | x :: _ => x.first

/-- `@$.last_line`. -/
def lastLine (vals σ : List Placed) : Nat := prevLine (vals.reverse ++ σ)

/-- Reducing a production keeps the symbols what they stand for. -/
def LRuleKeeps (expected : PlainFlavor) (mod : Str) (maps : Maps) (r : Rule) : Prop :=
  ∀ ⦃bvals vals σ : List Placed⦄ ⦃st : PState⦄ ⦃us : Located⦄ ⦃st₁ st' : PState⦄
    ⦃w : FVal⦄, bvals.length = r.before.length →
    LSegs expected mod maps r.rhs vals (bvals.reverse ++ σ) st us st₁ →
    evalAll expected (firstLine vals (bvals.reverse ++ σ)) ((bvals ++ vals).map Placed.v) r.action
      ⟨st₁, .none⟩ = some ⟨st', w⟩ →
    LNtSeg expected mod maps r.lhs w (firstLine vals (bvals.reverse ++ σ))
      (lastLine vals (bvals.reverse ++ σ)) (bvals.reverse ++ σ) st us st'

section
variable {expected : PlainFlavor} {mod : Str} {maps : Maps} {v : FVal} {a b : Nat}
  {σ : List Placed} {st st' : PState} {us : Located}

theorem lseg_kw (k : Keyword) (h : LSeg expected mod maps (.t (.kw k)) v a b σ st us st') :
    us = [(a, .kw k)] ∧ a = b ∧ st' = st := by
  obtain ⟨hs, t, ht, -, hu, hb⟩ := h
  refine ⟨?_, hb, hs⟩
  cases t with
  | none => cases ht
  | some t => cases t <;> simp [tokenSym, term] at ht; subst ht; exact hu

theorem lseg_p (p : Punct) (h : LSeg expected mod maps (.t (.p p)) v a b σ st us st') :
    us = [(a, .p p)] ∧ a = b ∧ st' = st := by
  obtain ⟨hs, t, ht, -, hu, hb⟩ := h
  refine ⟨?_, hb, hs⟩
  cases t with
  | none => cases ht
  | some t => cases t <;> simp [tokenSym, term] at ht; subst ht; exact hu

local macro "plain_seg" : tactic => `(tactic| (
  rename_i h
  obtain ⟨hs, t, ht, -, hu, hb⟩ := h
  refine ⟨?_, hb, hs⟩
  cases t with
  | none => cases ht
  | some t => cases t <;> simp [tokenSym, term] at ht; exact hu))

theorem lseg_comment : LSeg expected mod maps (.t .comment) v a b σ st us st' →
    us = [(a, .comment)] ∧ a = b ∧ st' = st := by intro h; plain_seg
theorem lseg_fileType : LSeg expected mod maps (.t .fileType) v a b σ st us st' →
    us = [(a, .fileType)] ∧ a = b ∧ st' = st := by intro h; plain_seg

local macro "word_seg" : tactic => `(tactic| (
  rename_i h
  obtain ⟨hs, t, ht, hv, hu, hb⟩ := h
  cases t with
  | none => cases ht
  | some t => cases t <;> simp [tokenSym, term] at ht; exact ⟨_, hv, hu, hb, hs⟩))

theorem lseg_string : LSeg expected mod maps (.t .string) v a b σ st us st' →
    ∃ s, v = .word s ∧ us = [(a, .string s)] ∧ a = b ∧ st' = st := by intro h; word_seg
theorem lseg_quoted : LSeg expected mod maps (.t .quoted) v a b σ st us st' →
    ∃ s, v = .word s ∧ us = [(a, .quoted s)] ∧ a = b ∧ st' = st := by intro h; word_seg
theorem lseg_number : LSeg expected mod maps (.t .number) v a b σ st us st' →
    ∃ s, v = .word s ∧ us = [(a, .number s)] ∧ a = b ∧ st' = st := by intro h; word_seg
theorem lseg_versionNo : LSeg expected mod maps (.t .versionNo) v a b σ st us st' →
    ∃ s, v = .word s ∧ us = [(a, .versionNo s)] ∧ a = b ∧ st' = st := by intro h; word_seg
theorem lseg_numString : LSeg expected mod maps (.t .numString) v a b σ st us st' →
    ∃ s, v = .word s ∧ us = [(a, .numString s)] ∧ a = b ∧ st' = st := by intro h; word_seg
theorem lseg_ipv4 : LSeg expected mod maps (.t .ipv4) v a b σ st us st' →
    ∃ s, v = .word s ∧ us = [(a, .ipv4 s)] ∧ a = b ∧ st' = st := by intro h; word_seg
theorem lseg_ipv6 : LSeg expected mod maps (.t .ipv6) v a b σ st us st' →
    ∃ s, v = .word s ∧ us = [(a, .ipv6 s)] ∧ a = b ∧ st' = st := by intro h; word_seg
theorem lseg_command : LSeg expected mod maps (.t .command) v a b σ st us st' →
    ∃ s, v = .word s ∧ us = [(a, .command s)] ∧ a = b ∧ st' = st := by intro h; word_seg

end

theorem ifLinesAt_append {ls ls' : List IfLine} : ∀ {us us' : Located}, ifLinesAt ls us →
    ifLinesAt ls' us' → ifLinesAt (ls ++ ls') (us ++ us') := by
  induction ls with
  | nil => intro us us' h h'; cases h; exact h'
  | cons l ls ih =>
    rintro us us' ⟨x, y, rfl, hx, hy⟩ h'
    exact ⟨x, y ++ us', by simp, hx, ih hy h'⟩

end Lr
end Selint
