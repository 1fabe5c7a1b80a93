import Verif.Lemmas.LrMachine
/-!
# What a symbol on the parser's stack stands for

For each symbol: the tokens it was made from, its value, and what its actions have done to the
functional state of the parser, in terms of derivations.
-/

namespace Selint
namespace Lr

/-- The symbol of a token. -/
def tokenSym : Option Token → Sym
  | none => .t .eof
  | some t => .t (term t).1

/-- The token of a permission, or a comment. -/
def avToken : Option Str → Token
  | none => .comment
  | some s => .string s

/-- The table entry for a permission. -/
def avPermMaps (m : Maps) : Option Str → Maps
  | none => m
  | some s => m.insertDecl s avFileName .perm

theorem AvPerms_tokens (p : AvPerms) : p.tokens = tLeft :: (p.all.map avToken ++ [tRight]) := by
  simp only [AvPerms.tokens]
  congr 2

theorem AvPerms_exec (p : AvPerms) (m : Maps) : p.exec m = p.all.foldl avPermMaps m := by
  simp only [AvPerms.exec]
  congr 1

/-- The tokens of a line of a support file. -/
def sptLineTokens : Option SptDef → List Token
  | none => [.comment]
  | some d => d.tokens

/-- The tokens of a line of an access vector file. -/
def avLineTokens : Option AvDef → List Token
  | none => [.comment]
  | some d => d.tokens

theorem spt_tokens (cs : List Nat) (d : SptDef) (ls : List (Option SptDef)) :
    (SourceFile.spt cs d ls).tokens =
      cs.map (fun _ => .comment) ++ d.tokens ++ ls.flatMap sptLineTokens := by
  simp only [SourceFile.tokens]
  congr 2

theorem av_tokens (cs : List Nat) (d : AvDef) (ls : List (Option AvDef)) :
    (SourceFile.av cs d ls).tokens =
      cs.map (fun _ => .comment) ++ d.tokens ++ ls.flatMap avLineTokens := by
  simp only [SourceFile.tokens]
  congr 2

theorem execIfLines_append (ls ls' : List IfLine) : ∀ st : PState,
    execIfLines (ls ++ ls') st = execIfLines ls st >>= execIfLines ls' := by
  induction ls with
  | nil => intro st; rfl
  | cons l ls ih =>
    intro st
    simp only [List.cons_append, execIfLines]
    cases h : l.exec st with
    | ok st₁ => exact ih st₁
    | ub => rfl

/-- The tokens are those of a statement, which changes the state. -/
def StmtSeg (st : PState) (us : List Token) (st' : PState) : Prop :=
  ∃ s : Stmt, us = s.tokens ∧ s.exec st = .ok st'

/-- What a nonterminal stands for; `σ` are the values below it on the stack. -/
def NtSeg (expected : PlainFlavor) (mod : Str) (maps : Maps) (n : Nt) (v : FVal) (σ : List FVal)
    (st : PState) (us : List Token) (st' : PState) : Prop :=
  match n with
  | .selinuxFile =>
    σ = [] → st = PState.init expected mod maps →
      ∃ f : SourceFile, us = f.tokens ∧ f.exec expected mod maps = .ok (some st')
  | .tePolicy => ∃ (h : Header) (b : Lines), expected = .teFile ∧ us = h.tokens ++ b.tokens ∧
      b.exec (st.insertHeader h.name (if h.isMacro then .macro else .bare) h.line) = .ok st'
  | .comments => ∃ (c : Nat) (cs : List Nat), us = .comment :: cs.map (fun _ => .comment) ∧
      st' = execComments (c :: cs) st
  | .comment => ∃ line, us = [.comment] ∧ st' = st.insertComment line
  | .header => ∃ h : Header, expected = .teFile ∧ us = h.tokens ∧
      st' = st.insertHeader h.name (if h.isMacro then .macro else .bare) h.line
  | .headerVersion => ∃ (b : Bool) (s : Str), us = [if b then .number s else .versionNo s] ∧
      st' = st
  | .body | .lines => ∃ b : Lines, us = b.tokens ∧ b.exec st = .ok st'
  | .line => ∃ l : Line, us = l.tokens ∧ l.exec st = .ok st'
  | .refpolicywarn => ∃ s, us = (Silent.refpolicywarn s).tokens ∧ st' = st
  | .avType => ∃ fl, v = .av fl ∧ us = [.kw (avKeyword fl)] ∧ st' = st
  | .xpermAvType => ∃ fl, v = .av fl ∧ us = [.kw (xavKeyword fl)] ∧ st' = st
  | .xpermList => ∃ l : XList, v = .names l.value ∧ us = l.tokens ∧ st' = st
  | .xpermItems => ∃ (i : XItem) (is : List XItem), v = .names (i.value :: is.map XItem.value) ∧
      us = i.tokens ++ is.flatMap XItem.tokens ∧ st' = st
  | .xpermItem => ∃ i : XItem, v = .word i.value ∧ us = i.tokens ∧ st' = st
  | .stringList => ∃ l : SList, v = .names l.value ∧ us = l.tokens ∧ st' = st
  | .strings => ∃ (i : SlItem) (is : List SlItem), v = .names (i.value :: is.map SlItem.value) ∧
      us = i.tokens ++ is.flatMap SlItem.tokens ∧ st' = st
  | .slItem => ∃ i : SlItem, v = .word i.value ∧ us = i.tokens ∧ st' = st
  | .commaStringList => ∃ l : CommaList, v = .names l.value ∧ us = l.tokens ∧ st' = st
  | .optionalOpen => ∃ line cmd, us = [.kw .optionalPolicy, tOpen, tTick] ++ commandTokens cmd ∧
      st' = (st.beginBlock (.plain .optionalPolicy none) line).parentCommand cmd
  | .genRequireBegin => ∃ line cmd, us = [.kw .genRequire, tOpen] ++ commandTokens cmd ∧
      st' = (st.beginGenRequire line).parentCommand cmd
  | .booleanOpen => ∃ line cmd, us = [.kw .kwIf, tOpen] ++ commandTokens cmd ∧
      st' = (st.beginBlock (.plain .booleanPolicy none) line).parentCommand cmd
  | .requireLines => ∃ l : ReqLines, us = l.tokens ∧ st' = l.exec st
  | .requireLine => ∃ l : ReqLine, us = l.tokens ∧ st' = l.exec st
  | .requireBare => ∃ s : ReqStmt, us = s.tokens ∧ st' = s.exec st
  | .ifOrIfn => ∃ b, us = [ifKeyword b] ∧ st' = st
  | .arbitraryM4String => ∃ s : M4String, us = s.tokens ∧ st' = st
  | .m4StringElem => ∃ e : M4Elem, us = [e.token] ∧ st' = st
  | .condition => ∃ c : Condition, us = c.tokens ∧ st' = st
  | .m4Args => ∃ a : M4Args, us = a.tokens ∧ a.exec st = .ok st'
  | .m4Argument => ∃ a : M4Argument, us = a.tokens ∧ a.exec st = .ok st'
  | .arg => ∃ a : Arg, v = .names a.value ∧ us = a.tokens ∧ st' = st
  | .args => ∃ a : Args, v = .list a.value ∧ us = a.tokens ∧ st' = st
  | .mlsRange => ∃ r : MlsRange, v = .word r.value ∧ us = r.tokens ∧ st' = st
  | .mlsLevel => ∃ r : MlsLevel, v = .word r.value ∧ us = r.tokens ∧ st' = st
  | .mlsComponent => ∃ r : MlsComponent, v = .word r.value ∧ us = r.tokens ∧ st' = st
  | .genfsconContext => ∃ (b : Bool) (c : Context),
      us = (if b then [.fileType] else []) ++ c.tokens ∧ st' = st
  | .portRange => ∃ r : PortRange, us = r.tokens ∧ st' = st
  | .twoIpAddrs => ∃ a b, (us = [.ipv4 a, .ipv4 b] ∨ us = [.ipv6 a, .ipv6 b]) ∧ st' = st
  | .defineName => ∃ b s, us = defineNameTokens b s ∧ st' = st
  | .defineContent => ∃ c : DefineContent, us = c.tokens ∧ st' = st
  | .defineExpansion => ∃ c : DefineContent, c.tokens = tComma :: us ∧ st' = st
  | .maybeStringComma => ∃ o, us = maybeStringComma o ∧ st' = st
  | .context => ∃ c : Context, us = c.tokens ∧ st' = st
  | .rawContext => ∃ c : RawContext, us = c.tokens ∧ st' = st
  | .ifFile => ∃ (d : IfDef) (ls : List IfLine) (st₁ : PState), expected = .ifFile ∧
      us = d.tokens ++ ls.flatMap IfLine.tokens ∧ d.exec st = .ok st₁ ∧
      execIfLines ls st₁ = .ok st'
  | .ifLines => ∃ ls : List IfLine, us = ls.flatMap IfLine.tokens ∧ execIfLines ls st = .ok st'
  | .ifLine => ∃ l : IfLine, us = l.tokens ∧ l.exec st = .ok st'
  | .interfaceDef => ∃ d : IfDef, expected = .ifFile ∧ us = d.tokens ∧ d.exec st = .ok st'
  | .startInterface => ∃ (b : Bool) (name : Str) (line : Nat), expected = .ifFile ∧
      us = [.kw (if b then .template else .interface), tOpen, tTick, .string name, tQuote, tComma,
        tTick] ∧ st' = st.beginInterfaceDef b name line
  | .endInterface => us = [tQuote, tClose] ∧ st' = st.endInterfaceDef
  | .ifKeyword => ∃ b, v = .ifKind b ∧ us = [.kw (if b then .template else .interface)] ∧ st' = st
  | .sptFile => ∃ (d : SptDef) (ls : List (Option SptDef)), expected = .sptFile ∧
      us = d.tokens ++ ls.flatMap sptLineTokens ∧
      st' = { st with maps := ls.foldl execSptLine (d.exec st.maps) }
  | .sptLines => ∃ ls : List (Option SptDef),
      us = ls.flatMap sptLineTokens ∧
      st' = { st with maps := ls.foldl execSptLine st.maps }
  | .sptLine => ∃ o : Option SptDef, us = sptLineTokens o ∧
      st' = { st with maps := execSptLine st.maps o }
  | .supportDef => ∃ d : SptDef, expected = .sptFile ∧ us = d.tokens ∧
      st' = { st with maps := d.exec st.maps }
  | .avFile => ∃ (d : AvDef) (ls : List (Option AvDef)),
      (∀ e, some e ∈ some d :: ls → e.isClass = true → expected = .avFile) ∧
      us = d.tokens ++ ls.flatMap avLineTokens ∧
      st' = { st with maps := ls.foldl execAvLine (d.exec st.maps) }
  | .avContents => ∃ ls : List (Option AvDef),
      (∀ e, some e ∈ ls → e.isClass = true → expected = .avFile) ∧
      us = ls.flatMap avLineTokens ∧
      st' = { st with maps := ls.foldl execAvLine st.maps }
  | .avContent => ∃ o : Option AvDef, (∀ e, o = some e → e.isClass = true → expected = .avFile) ∧
      us = avLineTokens o ∧
      st' = { st with maps := execAvLine st.maps o }
  | .avDefinition | .avClassDefinition | .avCommonDefinition => ∃ d : AvDef,
      (d.isClass = true → expected = .avFile) ∧ us = d.tokens ∧
      st' = { st with maps := d.exec st.maps }
  | .avPermissionList => ∃ p : AvPerms, us = p.tokens ∧ st' = { st with maps := p.exec st.maps }
  | .avPermissions => ∃ p : AvPerms, us = p.all.map avToken ∧
      st' = { st with maps := p.exec st.maps }
  | .avPermission => ∃ o : Option Str,
      us = [avToken o] ∧ st' = { st with maps := avPermMaps st.maps o }
  | .midOptionalEnd => us = [] ∧ st' = st.endBlock .optionalPolicy
  | .midOptionalElse => us = [] ∧ ∃ line, st' = st.beginBlock (.plain .optionalElse none) line
  | .midRequire => us = [] ∧ ∃ line, st' = st.beginBlock (.plain .require none) line
  | .midRequireCommand => us = [] ∧ ∃ line s, σ.head? = some (.word s) ∧
      st' = (st.beginBlock (.plain .require none) line).parentCommand (some s)
  | .midReqIfdefQuoted | .midReqIfdef | .midIfdef =>
      us = [] ∧ ∃ line, st' = st.beginBlock (.plain .ifdef none) line
  | .midIfelse => us = [] ∧ ∃ line, st' = st.beginBlock (.plain .ifelse none) line
  | .midFirstArg | .midNextArg => us = [] ∧ ∃ line, st' = st.beginBlock (.plain .m4Arg none) line
  | .midTunableQuoted | .midTunable =>
      us = [] ∧ ∃ line, st' = st.beginBlock (.plain .tunablePolicy none) line
  | .midDefine => us = [] ∧ ∃ line, st' = st.beginBlock (.plain .define none) line
  | .bareLine | .declaration | .typeDeclaration | .boolDeclaration | .typeAlias | .typeAttribute
  | .roleAttribute | .rule | .xpermRule | .roleAllow | .roleTypes | .typeTransition
  | .rangeTransition | .roleTransition | .interfaceCall | .optionalBlock | .require
  | .m4SimpleMacro | .m4Call | .ifdef | .ifelse | .userdebugOrEng | .condExpr | .booleanBlock
  | .tunableBlock | .genfscon | .sid | .portcon | .netifcon | .nodecon | .fsUse | .define
  | .genUser | .permissive | .typebounds => StmtSeg st us st'

/-- What a symbol stands for. -/
def Seg (expected : PlainFlavor) (mod : Str) (maps : Maps) (s : Sym) (v : FVal) (σ : List FVal)
    (st : PState) (us : List Token) (st' : PState) : Prop :=
  match s with
  | .t x => st' = st ∧ ∃ t : Option Token, tokenSym t = .t x ∧ v = tokenVal t ∧ us = t.toList
  | .n n => NtSeg expected mod maps n v σ st us st'

/-- What symbols stand for, from left to right. -/
def Segs (expected : PlainFlavor) (mod : Str) (maps : Maps) : List Sym → List FVal → List FVal →
    PState → List Token → PState → Prop
  | [], vals, _, st, us, st' => vals = [] ∧ us = [] ∧ st' = st
  | s :: ss, vals, σ, st, us, st' => ∃ v vals' us₁ us₂ st₁, vals = v :: vals' ∧ us = us₁ ++ us₂ ∧
      Seg expected mod maps s v σ st us₁ st₁ ∧
      Segs expected mod maps ss vals' (v :: σ) st₁ us₂ st'

/-- Reducing a production keeps the symbols what they stand for. -/
def RuleKeeps (expected : PlainFlavor) (mod : Str) (maps : Maps) (r : Rule) : Prop :=
  ∀ ⦃line : Nat⦄ ⦃bvals vals σ : List FVal⦄ ⦃st : PState⦄ ⦃us : List Token⦄ ⦃st₁ st' : PState⦄
    ⦃w : FVal⦄, bvals.length = r.before.length →
    Segs expected mod maps r.rhs vals (bvals.reverse ++ σ) st us st₁ →
    evalAll expected line (bvals ++ vals) r.action ⟨st₁, .none⟩ = some ⟨st', w⟩ →
    NtSeg expected mod maps r.lhs w (bvals.reverse ++ σ) st us st'

section
variable {expected : PlainFlavor} {mod : Str} {maps : Maps} {v : FVal} {σ : List FVal}
  {st st' : PState} {us : List Token}

theorem seg_kw (k : Keyword) (h : Seg expected mod maps (.t (.kw k)) v σ st us st') :
    us = [.kw k] ∧ st' = st := by
  obtain ⟨hs, t, ht, -, hu⟩ := h
  refine ⟨?_, hs⟩
  cases t with
  | none => cases ht
  | some t => cases t <;> simp [tokenSym, term] at ht; subst ht; exact hu

theorem seg_p (p : Punct) (h : Seg expected mod maps (.t (.p p)) v σ st us st') :
    us = [.p p] ∧ st' = st := by
  obtain ⟨hs, t, ht, -, hu⟩ := h
  refine ⟨?_, hs⟩
  cases t with
  | none => cases ht
  | some t => cases t <;> simp [tokenSym, term] at ht; subst ht; exact hu

theorem seg_comment (h : Seg expected mod maps (.t .comment) v σ st us st') :
    us = [.comment] ∧ st' = st := by
  obtain ⟨hs, t, ht, -, hu⟩ := h
  refine ⟨?_, hs⟩
  cases t with
  | none => cases ht
  | some t => cases t <;> simp [tokenSym, term] at ht; exact hu

theorem seg_fileType (h : Seg expected mod maps (.t .fileType) v σ st us st') :
    us = [.fileType] ∧ st' = st := by
  obtain ⟨hs, t, ht, -, hu⟩ := h
  refine ⟨?_, hs⟩
  cases t with
  | none => cases ht
  | some t => cases t <;> simp [tokenSym, term] at ht; exact hu

local macro "word_seg" : tactic => `(tactic| (
  rename_i h
  obtain ⟨hs, t, ht, hv, hu⟩ := h
  cases t with
  | none => cases ht
  | some t => cases t <;> simp [tokenSym, term] at ht; exact ⟨_, hv, hu, hs⟩))

theorem seg_string : Seg expected mod maps (.t .string) v σ st us st' →
    ∃ s, v = .word s ∧ us = [.string s] ∧ st' = st := by intro h; word_seg
theorem seg_quoted : Seg expected mod maps (.t .quoted) v σ st us st' →
    ∃ s, v = .word s ∧ us = [.quoted s] ∧ st' = st := by intro h; word_seg
theorem seg_number : Seg expected mod maps (.t .number) v σ st us st' →
    ∃ s, v = .word s ∧ us = [.number s] ∧ st' = st := by intro h; word_seg
theorem seg_versionNo : Seg expected mod maps (.t .versionNo) v σ st us st' →
    ∃ s, v = .word s ∧ us = [.versionNo s] ∧ st' = st := by intro h; word_seg
theorem seg_numString : Seg expected mod maps (.t .numString) v σ st us st' →
    ∃ s, v = .word s ∧ us = [.numString s] ∧ st' = st := by intro h; word_seg
theorem seg_ipv4 : Seg expected mod maps (.t .ipv4) v σ st us st' →
    ∃ s, v = .word s ∧ us = [.ipv4 s] ∧ st' = st := by intro h; word_seg
theorem seg_ipv6 : Seg expected mod maps (.t .ipv6) v σ st us st' →
    ∃ s, v = .word s ∧ us = [.ipv6 s] ∧ st' = st := by intro h; word_seg
theorem seg_command : Seg expected mod maps (.t .command) v σ st us st' →
    ∃ s, v = .word s ∧ us = [.command s] ∧ st' = st := by intro h; word_seg

theorem expect_bind {fs : List FVal} {line : Nat} {fl : PlainFlavor} {rs : List Release}
    {cs : List Cmd} {e r : Eff}
    (h : evalAll expected line fs (.expect fl rs :: cs) e = some r) :
    expected = fl ∧ evalAll expected line fs cs e = some r := by
  simp only [evalAll, Cmd.eval] at h
  split at h
  · exact ⟨‹_›, h⟩
  · cases h

theorem expectAllow_bind {fs : List FVal} {line n : Nat} {fl : AvFlavor} {rs : List Release}
    {cs : List Cmd} {e r : Eff} (hf : avOf fs n = some fl)
    (h : evalAll expected line fs (.expectAllow n rs :: cs) e = some r) :
    fl = .allow ∧ evalAll expected line fs cs e = some r := by
  simp only [evalAll, Cmd.eval, hf, Option.bind_some] at h
  split at h
  · exact ⟨‹_›, h⟩
  · cases h

theorem call_bind {line : Nat} {d : IfCallData} {w : FVal} {r : Eff}
    (h : ((match st.insertInterfaceCall d line with
      | .ok st => some ⟨st, w⟩
      | .ub => none : Option Eff).bind fun x => some x) = some r) :
    ∃ st', st.insertInterfaceCall d line = .ok st' ∧ some (Eff.mk st' w) = some r := by
  split at h
  · exact ⟨_, ‹_›, h⟩
  · cases h

theorem av_exec {cs : List Nat} {d : AvDef} {ls : List (Option AvDef)}
    (h : ∀ e, some e ∈ some d :: ls → e.isClass = true → expected = .avFile) :
    (SourceFile.av cs d ls).exec expected mod maps = .ok (some
      { execComments cs (PState.init expected mod maps) with
        maps := ls.foldl execAvLine (d.exec (execComments cs (PState.init expected mod maps)).maps) }) := by
  simp only [SourceFile.exec]
  rw [if_neg]
  rintro ⟨hne, ha⟩
  rw [List.any_eq_true] at ha
  obtain ⟨o, ho, hc⟩ := ha
  cases o with
  | none => cases hc
  | some e => exact hne (h e ho hc)

theorem namesOf_names {fs : List FVal} {n : Nat} {l : List Str} (h : fs[n - 1]? = some (.names l)) :
    namesOf fs n = some l := by
  simp [namesOf, h, FVal.names, Function.comp_def]

end

end Lr
end Selint
