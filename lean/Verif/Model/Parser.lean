import Verif.Model.Location
/-!
# A parser for the grammar (parse.y:199-1076)

bison's tables are not modelled. This parser decides the language of the grammar by recursive
descent and gives a derivation; `C68` proves that it finds one exactly if there is one, and that
all derivations of a text have the same effect. Parsers read a prefix of the tokens and return
what is left.
-/

namespace Selint

/-- A parser on tokens. -/
abbrev TokParser (α : Type) := List Token → Option (α × List Token)

/-- As often as possible, at most `n` times. -/
def pMany {α : Type} (p : TokParser α) : Nat → List Token → List α × List Token
  | 0, ts => ([], ts)
  | n + 1, ts =>
    match p ts with
    | none => ([], ts)
    | some (a, r) => (a :: (pMany p n r).1, (pMany p n r).2)

/-- As often as possible. -/
def pStar {α : Type} (p : TokParser α) (ts : List Token) : List α × List Token := pMany p ts.length ts

/-- One given token. -/
def pTok (t : Token) : List Token → Option (List Token)
  | [] => none
  | u :: r => if u = t then some r else none

/-- A `STRING`. -/
def pStr : TokParser Str
  | .string s :: r => some (s, r)
  | _ => none

/-! ## Lists of words -/

/-- parse.y:465-475. -/
def pSlItem : TokParser SlItem
  | .string s :: r => some (.word s, r)
  | .p .dash :: .string s :: r => some (.minus s, r)
  | .quoted s :: r => some (.quoted s, r)
  | _ => none

/-- parse.y:449-463. -/
def pSList : TokParser SList
  | .p .openCurly :: r => do
    let x ← pSlItem r
    let y := pStar pSlItem x.2
    let r ← pTok tRight y.2
    pure (.braces x.1 y.1, r)
  | .p .tilda :: r => do
    let x ← pSList r
    pure (.tilda x.1, x.2)
  | .p .star :: r => some (.star, r)
  | .string s :: r => some (.item (.word s), r)
  | .p .dash :: .string s :: r => some (.item (.minus s), r)
  | .quoted s :: r => some (.item (.quoted s), r)
  | _ => none

/-- parse.y:439-447. -/
def pXItem : TokParser XItem
  | .string s :: r => some (.word s, r)
  | .numString s :: r => some (.numString s, r)
  | .number s :: r => some (.number s, r)
  | .p .dash :: r => some (.dash, r)
  | _ => none

/-- parse.y:425-437. -/
def pXList : TokParser XList
  | .p .openCurly :: r => do
    let x ← pXItem r
    let y := pStar pXItem x.2
    let r ← pTok tRight y.2
    pure (.braces x.1 y.1, r)
  | .p .tilda :: r => do
    let x ← pXList r
    pure (.tilda x.1, x.2)
  | .string s :: r => some (.item (.word s), r)
  | .numString s :: r => some (.item (.numString s), r)
  | .number s :: r => some (.item (.number s), r)
  | .p .dash :: r => some (.item .dash, r)
  | _ => none

/-- `COMMA STRING`. -/
def pCommaStr : TokParser Str
  | .p .comma :: .string s :: r => some (s, r)
  | _ => none

/-- parse.y:477-481. -/
def pCommaList (ts : List Token) : Option (CommaList × List Token) := do
  let x ← pStr ts
  let y := pStar pCommaStr x.2
  pure (⟨x.1, y.1⟩, y.2)

/-- parse.y:722-730. -/
def pArg : TokParser Arg
  | .quoted s :: r => some (.quoted s, r)
  | .p .backtick :: .p .singleQuote :: r => some (.empty, r)
  | .p .backtick :: r => do
    let x ← pSlItem r
    let y := pStar pSlItem x.2
    let r ← pTok tQuote y.2
    pure (.words x.1 y.1, r)
  | ts => do
    let x ← pXList ts
    pure (.xperm x.1, x.2)

/-- parse.y:735-741. -/
def pArgCont : TokParser ArgCont
  | .p .comma :: r => do
    let x ← pArg r
    pure (.comma x.1, x.2)
  | ts => do
    let x ← pSlItem ts
    pure (.space x.1, x.2)

/-- parse.y:732-741. -/
def pArgs (ts : List Token) : Option (Args × List Token) := do
  let x ← pArg ts
  let y := pStar pArgCont x.2
  pure (⟨x.1, y.1⟩, y.2)

/-! ## Ranges, contexts, conditions, m4 text -/

/-- parse.y:761-768. -/
def pMlsComponent : TokParser MlsComponent
  | .string s :: .p .period :: .string t :: r => some (.dotted s t, r)
  | .string s :: r => some (.one s, r)
  | _ => none

/-- parse.y:752-759. -/
def pMlsLevel (ts : List Token) : Option (MlsLevel × List Token) := do
  let x ← pMlsComponent ts
  match x.2 with
  | .p .colon :: r => do
    let y ← pMlsComponent r
    pure (.pair x.1 y.1, y.2)
  | r => pure (.one x.1, r)

/-- parse.y:743-750. -/
def pMlsRange (ts : List Token) : Option (MlsRange × List Token) := do
  let x ← pMlsLevel ts
  match x.2 with
  | .p .dash :: r => do
    let y ← pMlsLevel r
    pure (.range x.1 y.1, y.2)
  | r => pure (.one x.1, r)

/-- parse.y:898-902. -/
def pRawContext : TokParser RawContext
  | .string u :: .p .colon :: .string ro :: .p .colon :: .string t :: .p .colon :: r => do
    let x ← pMlsRange r
    pure (⟨u, ro, t, some x.1⟩, x.2)
  | .string u :: .p .colon :: .string ro :: .p .colon :: .string t :: r => some (⟨u, ro, t, none⟩, r)
  | _ => none

/-- parse.y:889-896, after the first range. -/
def pContextEnd (c : RawContext) (x : MlsRange) : TokParser Context
  | .p .closeParen :: r => some (.gen1 c x, r)
  | .p .comma :: .p .closeParen :: r => some (.gen3 c x, r)
  | .p .comma :: r => do
    let y ← pMlsRange r
    let r ← pTok tClose y.2
    pure (.gen2 c x y.1, r)
  | _ => none

/-- parse.y:886-896. -/
def pContext : TokParser Context
  | .kw .genContext :: r => do
    let r ← pTok tOpen r
    let x ← pRawContext r
    match x.2 with
    | .p .closeParen :: r => pure (.gen x.1, r)
    | .p .comma :: r => do
      let y ← pMlsRange r
      pContextEnd x.1 y.1 y.2
    | _ => none
  | ts => do
    let x ← pRawContext ts
    pure (.raw x.1, x.2)

/-- The binary operators of conditions. -/
def condOp : Token → Option (Condition → Condition → Condition)
  | .p .and => some .and
  | .p .or => some .or
  | .p .xor => some .xor
  | .p .equal => some .equal
  | .p .notEqual => some .notEqual
  | _ => none

/-- After an operand of a condition. -/
def condRest (rec : List Token → Option (Condition × List Token)) (a : Condition) :
    List Token → Option (Condition × List Token)
  | [] => some (a, [])
  | t :: r =>
    match condOp t with
    | none => some (a, t :: r)
    | some op => do
      let x ← rec r
      pure (op a x.1, x.2)

/-- parse.y:688-704. The grammar leaves the grouping open; here all operators group to the
right. The grouping has no effect. -/
def pCondF : Nat → List Token → Option (Condition × List Token)
  | 0, _ => none
  | n + 1, .string s :: r => condRest (pCondF n) (.name s) r
  | n + 1, .p .not :: r => do
    let x ← pCondF n r
    condRest (pCondF n) (.not x.1) x.2
  | n + 1, .p .openParen :: r => do
    let x ← pCondF n r
    let r ← pTok tClose x.2
    condRest (pCondF n) (.paren x.1) r
  | _ + 1, _ => none

/-- parse.y:688-704. -/
def pCond (ts : List Token) : Option (Condition × List Token) := pCondF ts.length ts

/-- parse.y:666-686. -/
def pM4Elem : Token → Option M4Elem
  | .string s => some (.word s)
  | .p q => if h : q ∈ [.openParen, .closeParen, .openCurly, .closeCurly, .comma, .period, .colon,
      .semicolon, .dash] then some (.punct q h) else none
  | _ => none

/-- parse.y:658-664; a quote follows. -/
def pM4String : TokParser M4String
  | [] => none
  | .p .backtick :: r =>
    match r with
    | t :: .p .singleQuote :: r => do
      let e ← pM4Elem t
      pure (.quoted e, r)
    | _ => none
  | t :: r =>
    match pM4Elem t with
    | none => none
    | some e =>
      match pTok tQuote r with
      | some _ => some (.one e, r)
      | none => do
        let x ← pM4String r
        pure (.more e x.1, x.2)

/-! ## Statements without a node -/

/-- parse.y:817-825. -/
def pPortRange : TokParser PortRange
  | .numString s :: r => some (.numString s, r)
  | .number s :: .p .dash :: .number t :: r => some (.range s t, r)
  | .number s :: r => some (.number s, r)
  | _ => none

/-- parse.y:874-878. -/
def pMaybeStringComma : TokParser (Option Str)
  | .p .comma :: r => some (none, r)
  | .string s :: .p .comma :: r => some (some s, r)
  | _ => none

/-- parse.y:797-801, after the name. -/
def pGenfscon (numeric : Bool) (fs : Str) (r : List Token) : Option (Silent × List Token) := do
  let x ← pStr r
  match x.2 with
  | .fileType :: r => do
    let c ← pContext r
    pure (.genfscon numeric fs x.1 true c.1, c.2)
  | r => do
    let c ← pContext r
    pure (.genfscon numeric fs x.1 false c.1, c.2)

/-- parse.y:849-851. -/
def pFsUse (k : Keyword) (h : k = .fsUseTrans ∨ k = .fsUseXattr ∨ k = .fsUseTask) (r : List Token) :
    Option (Silent × List Token) := do
  let x ← pStr r
  let c ← pContext x.2
  let r ← pTok tSemi c.2
  pure (.fsUse k h x.1 c.1, r)

/-- parse.y:880-884, after the second range. -/
def pGenUserEnd (r : List Token) : Option (Option MlsRange × List Token) :=
  match r with
  | .p .comma :: r => do
    let y ← pMlsRange r
    let r ← pTok tClose y.2
    pure (some y.1, r)
  | r => do
    let r ← pTok tClose r
    pure (none, r)

/-- parse.y:880-884. -/
def pGenUser (r : List Token) : Option (Silent × List Token) := do
  let r ← pTok tOpen r
  let a ← pMaybeStringComma r
  let b ← pMaybeStringComma a.2
  let x ← pSlItem b.2
  let y := pStar pSlItem x.2
  let r ← pTok tComma y.2
  let r1 ← pMlsRange r
  let r ← pTok tComma r1.2
  let r2 ← pMlsRange r
  let z ← pGenUserEnd r2.2
  pure (.genUser a.1 b.1 x.1 y.1 r1.1 r2.1 z.1, z.2)

/-- The statements without a node. -/
def pSilent : TokParser Silent
  | .comment :: r => some (.comment, r)
  | .kw .genfscon :: .numString s :: r => pGenfscon true s r
  | .kw .genfscon :: .string s :: r => pGenfscon false s r
  | .kw .sid :: r => do
    let x ← pStr r
    let c ← pContext x.2
    pure (.sid x.1 c.1, c.2)
  | .kw .portcon :: r => do
    let x ← pStr r
    let y ← pPortRange x.2
    let c ← pContext y.2
    pure (.portcon x.1 y.1 c.1, c.2)
  | .kw .netifcon :: r => do
    let x ← pStr r
    let c ← pContext x.2
    let d ← pContext c.2
    pure (.netifcon x.1 c.1 d.1, d.2)
  | .kw .nodecon :: .ipv4 a :: .ipv4 b :: r => do
    let c ← pContext r
    pure (.nodecon4 a b c.1, c.2)
  | .kw .nodecon :: .ipv6 a :: .ipv6 b :: r => do
    let c ← pContext r
    pure (.nodecon6 a b c.1, c.2)
  | .kw .fsUseTrans :: r => pFsUse .fsUseTrans (.inl rfl) r
  | .kw .fsUseXattr :: r => pFsUse .fsUseXattr (.inr (.inl rfl)) r
  | .kw .fsUseTask :: r => pFsUse .fsUseTask (.inr (.inr rfl)) r
  | .kw .genUser :: r => pGenUser r
  | .kw .typebounds :: r => do
    let x ← pStr r
    let y ← pStr x.2
    let r ← pTok tSemi y.2
    pure (.typebounds x.1 y.1, r)
  | .kw .refpolicywarn :: r => do
    let r ← pTok tOpen r
    let r ← pTok tTick r
    let x ← pM4String r
    let r ← pTok tQuote x.2
    let r ← pTok tClose r
    pure (.refpolicywarn x.1, r)
  | _ => none

/-! ## Declarations and rules -/

/-- parse.y:363-374, after the name. -/
def pTypeDecl (n : Str) : TokParser Decl
  | .p .semicolon :: r => some (.type n, r)
  | .p .comma :: r => do
    let x ← pCommaList r
    let r ← pTok tSemi x.2
    pure (.typeAttrs n x.1, r)
  | .kw .alias :: r => do
    let x ← pSList r
    match x.2 with
    | .p .semicolon :: r => pure (.typeAlias n x.1, r)
    | .p .comma :: r => do
      let y ← pCommaList r
      let r ← pTok tSemi y.2
      pure (.typeAliasAttrs n x.1 y.1, r)
    | _ => none
  | _ => none

/-- `STRING SEMICOLON`. -/
def pStrSemi (r : List Token) : Option (Str × List Token) := do
  let x ← pStr r
  let r ← pTok tSemi x.2
  pure (x.1, r)

/-- `STRING COMMA STRING CLOSE_PAREN`. -/
def pStrStr (r : List Token) : Option ((Str × Str) × List Token) := do
  let x ← pStr r
  let r ← pTok tComma x.2
  let y ← pStr r
  let r ← pTok tClose y.2
  pure ((x.1, y.1), r)

/-- `SINGLE_QUOTE COMMA STRING CLOSE_PAREN`. -/
def pQuoteStr (r : List Token) : Option (Str × List Token) := do
  let r ← pTok tQuote r
  let r ← pTok tComma r
  let y ← pStr r
  let r ← pTok tClose y.2
  pure (y.1, r)

/-- parse.y:401-409. -/
def avOf : Keyword → Option AvFlavor
  | .allow => some .allow
  | .auditAllow => some .auditallow
  | .dontAudit => some .dontaudit
  | .neverAllow => some .neverallow
  | _ => none

/-- parse.y:415-423. -/
def xavOf : Keyword → Option AvFlavor
  | .allowXperm => some .allow
  | .auditAllowXperm => some .auditallow
  | .dontAuditXperm => some .dontaudit
  | .neverAllowXperm => some .neverallow
  | _ => none

/-- parse.y:397-399 and 483-494. -/
def pRule (fl : AvFlavor) (r : List Token) : Option (Simple × List Token) := do
  let s ← pSList r
  let t ← pSList s.2
  match t.2 with
  | .p .colon :: r => do
    let c ← pSList r
    let p ← pSList c.2
    let r ← pTok tSemi p.2
    pure (.rule fl s.1 t.1 c.1 p.1, r)
  | .p .semicolon :: r => if fl = .allow then some (.roleAllow s.1 t.1, r) else none
  | _ => none

/-- `string_list string_list COLON string_list`. -/
def pTriple (r : List Token) : Option ((SList × SList × SList) × List Token) := do
  let s ← pSList r
  let t ← pSList s.2
  let r ← pTok tColon t.2
  let c ← pSList r
  pure ((s.1, t.1, c.1), c.2)

/-- parse.y:411-413. -/
def pXRule (fl : AvFlavor) (r : List Token) : Option (Simple × List Token) := do
  let x ← pTriple r
  let o ← pStr x.2
  let p ← pXList o.2
  let r ← pTok tSemi p.2
  pure (.xrule fl x.1.1 x.1.2.1 x.1.2.2 o.1 p.1, r)

/-- parse.y:500-504. -/
def pTypeTransition (r : List Token) : Option (Simple × List Token) := do
  let x ← pTriple r
  let d ← pStr x.2
  match d.2 with
  | .quoted n :: r => do
    let r ← pTok tSemi r
    pure (.typeTransition x.1.1 x.1.2.1 x.1.2.2 d.1 (some n), r)
  | r => do
    let r ← pTok tSemi r
    pure (.typeTransition x.1.1 x.1.2.1 x.1.2.2 d.1 none, r)

/-- parse.y:515-519. -/
def pRoleTransition (r : List Token) : Option (Simple × List Token) := do
  let s ← pSList r
  let t ← pSList s.2
  match t.2 with
  | .p .colon :: r => do
    let c ← pSList r
    let d ← pStrSemi c.2
    pure (.roleTransitionClass s.1 t.1 c.1 d.1, d.2)
  | r => do
    let d ← pStrSemi r
    pure (.roleTransition s.1 t.1 d.1, d.2)

/-- parse.y:521-528 and 621-623. -/
def pCallOrMacro (n : Str) : TokParser Simple
  | .p .openParen :: .p .closeParen :: r => some (.call n none, r)
  | .p .openParen :: r => do
    let x ← pArgs r
    let r ← pTok tClose x.2
    pure (.call n (some x.1), r)
  | r => some (.simpleMacro n, r)

/-- The statements that begin with a keyword and add one node. -/
def pSimpleKw (k : Keyword) (r : List Token) : Option (Simple × List Token) :=
  match k with
  | .type => do
    let n ← pStr r
    let d ← pTypeDecl n.1 n.2
    pure (.decl d.1, d.2)
  | .attribute => do
    let n ← pStrSemi r
    pure (.decl (.attr n.1), n.2)
  | .cls => do
    let n ← pStr r
    let l ← pSList n.2
    let r ← pTok tSemi l.2
    pure (.decl (.cls n.1 l.1), r)
  | .role => do
    let n ← pStr r
    match n.2 with
    | .p .semicolon :: r => pure (.decl (.role n.1), r)
    | .kw .types :: r => do
      let l ← pSList r
      let r ← pTok tSemi l.2
      pure (.roleTypes n.1 l.1, r)
    | _ => none
  | .attributeRole => do
    let n ← pStrSemi r
    pure (.decl (.attributeRole n.1), n.2)
  | .bool => do
    let n ← pStrSemi r
    pure (.decl (.bool n.1), n.2)
  | .genBool => do
    let r ← pTok tOpen r
    let x ← pStrStr r
    pure (.decl (.genBool x.1.1 x.1.2), x.2)
  | .genTunable => do
    let r ← pTok tOpen r
    match r with
    | .p .backtick :: r => do
      let n ← pStr r
      let d ← pQuoteStr n.2
      pure (.decl (.genTunableQuoted n.1 d.1), d.2)
    | r => do
      let x ← pStrStr r
      pure (.decl (.genTunable x.1.1 x.1.2), x.2)
  | .typeAttribute => do
    let n ← pStr r
    let l ← pCommaList n.2
    let r ← pTok tSemi l.2
    pure (.typeAttribute n.1 l.1, r)
  | .roleAttribute => do
    let n ← pStr r
    let l ← pCommaList n.2
    let r ← pTok tSemi l.2
    pure (.roleAttribute n.1 l.1, r)
  | .typealias => do
    let n ← pStr r
    let r ← pTok (.kw .alias) n.2
    let l ← pSList r
    let r ← pTok tSemi l.2
    pure (.typeAlias n.1 l.1, r)
  | .typeTransition => pTypeTransition r
  | .typeMember => do
    let x ← pTriple r
    let d ← pStrSemi x.2
    pure (.typeMember x.1.1 x.1.2.1 x.1.2.2 d.1, d.2)
  | .typeChange => do
    let x ← pTriple r
    let d ← pStrSemi x.2
    pure (.typeChange x.1.1 x.1.2.1 x.1.2.2 d.1, d.2)
  | .rangeTransition => do
    let x ← pTriple r
    let d ← pMlsRange x.2
    let r ← pTok tSemi d.2
    pure (.rangeTransition x.1.1 x.1.2.1 x.1.2.2 d.1, r)
  | .roleTransition => pRoleTransition r
  | .permissive => do
    let n ← pStrSemi r
    pure (.permissive n.1, n.2)
  | k =>
    match avOf k with
    | some fl => pRule fl r
    | none =>
      match xavOf k with
      | some fl => pXRule fl r
      | none => none

/-- The statements that add one node. -/
def pSimple : TokParser Simple
  | .string n :: r => pCallOrMacro n r
  | .p .semicolon :: r => some (.semicolon, r)
  | .kw k :: r => pSimpleKw k r
  | _ => none

/-! ## Definitions in support and access vector files -/

/-- parse.y:999-1004: the optional warning. -/
def pWarn : TokParser (Option M4String)
  | .kw .refpolicywarn :: r => do
    let r ← pTok tOpen r
    let r ← pTok tTick r
    let x ← pM4String r
    let r ← pTok tQuote x.2
    let r ← pTok tClose r
    pure (some x.1, r)
  | r => some (none, r)

/-- parse.y:983-1004. -/
def pSptDef (r : List Token) : Option (SptDef × List Token) := do
  let r ← pTok (.kw .define) r
  let r ← pTok tOpen r
  let r ← pTok tTick r
  let n ← pStr r
  let r ← pTok tQuote n.2
  let r ← pTok tComma r
  let r ← pTok tTick r
  let l ← pSList r
  let w ← pWarn l.2
  let r ← pTok tQuote w.2
  let r ← pTok tClose r
  pure (⟨n.1, l.1, w.1⟩, r)

/-- parse.y:1072-1076. -/
def pAvPerm : TokParser (Option Str)
  | .string s :: r => some (some s, r)
  | .comment :: r => some (none, r)
  | _ => none

/-- parse.y:1062-1070. -/
def pAvPerms (r : List Token) : Option (AvPerms × List Token) := do
  let r ← pTok tLeft r
  let x ← pAvPerm r
  let y := pStar pAvPerm x.2
  let r ← pTok tRight y.2
  pure (⟨x.1, y.1⟩, r)

/-- parse.y:1026-1060. -/
def pAvDef : TokParser AvDef
  | .kw .common :: .string n :: r => do
    let p ← pAvPerms r
    pure (.common n p.1, p.2)
  | .kw .cls :: .string n :: .kw .inherits :: .string c :: r =>
    match r with
    | .p .openCurly :: _ => do
      let p ← pAvPerms r
      pure (.inheritsPerms n c p.1, p.2)
    | r => some (.inherits n c, r)
  | .kw .cls :: .string n :: r => do
    let p ← pAvPerms r
    pure (.cls n p.1, p.2)
  | _ => none

/-- A definition or a comment. -/
def pOrComment {α : Type} (p : TokParser α) : TokParser (Option α)
  | .comment :: r => some (none, r)
  | ts => do
    let x ← p ts
    pure (some x.1, x.2)

/-- parse.y:240-262. -/
def pHeader : TokParser (Str × Bool × Bool × Str)
  | .kw .policyModule :: .p .openParen :: .string n :: .p .comma :: .versionNo v :: .p .closeParen :: r =>
    some ((n, true, false, v), r)
  | .kw .policyModule :: .p .openParen :: .string n :: .p .comma :: .number v :: .p .closeParen :: r =>
    some ((n, true, true, v), r)
  | .kw .module :: .string n :: .versionNo v :: .p .semicolon :: r => some ((n, false, false, v), r)
  | .kw .module :: .string n :: .number v :: .p .semicolon :: r => some ((n, false, true, v), r)
  | _ => none

/-! ## Located parts -/

/-- Use a parser on tokens where the lines matter. -/
def lift {α : Type} (p : TokParser α) (ts : Located) : Option (α × Located) :=
  (p ts.toks).map fun x => (x.1, ts.drop (ts.length - x.2.length))

/-- One given token; its line. -/
def expect (t : Token) : Located → Option (Nat × Located)
  | [] => none
  | u :: r => if u.2 = t then some (u.1, r) else none

/-- A command, if there is one. -/
def pCommand : Located → Option Str × Located
  | (_, .command c) :: r => (some c, r)
  | r => (none, r)

/-- The next token. -/
def peek (ts : Located) : Option Token := ts.head?.map Prod.snd

/-- parse.y:585-603: the declarations by lists. -/
def reqFlavor : Keyword → Option DeclFlavor
  | .type => some .type
  | .attribute => some .attribute
  | .role => some .role
  | .attributeRole => some .attributeRole
  | .bool => some .bool
  | _ => none

theorem reqFlavor_keyword {k : Keyword} {fl : DeclFlavor} (h : reqFlavor k = some fl) :
    requireKeyword fl = some k := by
  cases k <;> simp only [reqFlavor, reduceCtorEq, Option.some.injEq] at h <;> subst h <;> rfl

/-- parse.y:610-616. -/
def pReqIf (rec : Located → Option (ReqLines × Located)) (negated : Bool) (r : Located) :
    Option (ReqStmt × Located) := do
  let x ← expect tOpen r
  let x ← expect tTick x.2
  let c ← lift pStr x.2
  let x ← expect tQuote c.2
  let x ← expect tComma x.2
  match expect tTick x.2 with
  | some y => do
    let b ← rec y.2
    let z ← expect tQuote b.2
    let z ← expect tClose z.2
    pure (.ifdef y.1 negated true c.1 b.1, z.2)
  | none => do
    let b ← rec x.2
    let z ← expect tClose b.2
    pure (.ifdef x.1 negated false c.1 b.1, z.2)

/-- parse.y:584-619. -/
def reqStep (rec : Located → Option (ReqLines × Located)) : Located → Option (ReqStmt × Located)
  | (_, .comment) :: r => some (.comment, r)
  | (_, .kw .ifdef) :: r => pReqIf rec false r
  | (_, .kw .ifndef) :: r => pReqIf rec true r
  | (line, .kw .cls) :: r => do
    let n ← lift pStr r
    let l ← lift pSList n.2
    let x ← expect tSemi l.2
    pure (.cls line n.1 l.1, x.2)
  | (line, .kw k) :: r =>
    match h : reqFlavor k with
    | none => none
    | some fl => do
      let l ← lift pCommaList r
      let x ← expect tSemi l.2
      pure (.decls line fl k (reqFlavor_keyword h) l.1, x.2)
  | _ => none

/-- parse.y:578-582. -/
def reqLine (rec : Located → Option (ReqLines × Located)) (ts : Located) :
    Option (ReqLine × Located) := do
  let x ← reqStep rec ts
  match pCommand x.2 with
  | (some c, r) => pure (.withCommand x.1 c, r)
  | (none, r) => pure (.bare x.1, r)

/-- A block ends here. -/
def atEnd (ts : Located) : Bool :=
  match peek ts with
  | none => true
  | some t => t = tQuote || t = tRight || t = tClose

/-- parse.y:572-576: the lines after the first one. -/
def reqMore (line : Located → Option (ReqLine × Located)) : Nat → ReqLines → Located →
    Option (ReqLines × Located)
  | n, acc, ts =>
    if atEnd ts then some (acc, ts)
    else
      match n with
      | 0 => none
      | n + 1 => do
        let x ← line ts
        reqMore line n (.more acc x.1) x.2

/-- parse.y:572-576; the number bounds the depth. -/
def reqLinesF : Nat → Located → Option (ReqLines × Located)
  | 0, _ => none
  | n + 1, ts => do
    let x ← reqLine (reqLinesF n) ts
    reqMore (reqLine (reqLinesF n)) x.2.length (.one x.1) x.2

/-- parse.y:572-576. -/
def pReqLines (ts : Located) : Option (ReqLines × Located) := reqLinesF (ts.length + 1) ts

/-- parse.y:712-720. -/
def pM4Argument (rec : Located → Option (Lines × Located)) : Located → Option (M4Argument × Located)
  | (_, .p .backtick) :: (_, .p .singleQuote) :: r => some (.emptyQuoted, r)
  | (_, .p .backtick) :: r => do
    let b ← rec r
    let x ← expect tQuote b.2
    pure (.quoted b.1, x.2)
  | (_, .string s) :: r => some (.word s, r)
  | r => some (.empty, r)

/-- parse.y:706-710: the arguments after the first one. -/
def m4More (rec : Located → Option (Lines × Located)) : Nat → M4Args → Located → Option (M4Args × Located)
  | n, acc, ts =>
    match expect tComma ts with
    | none => some (acc, ts)
    | some c =>
      match n with
      | 0 => none
      | n + 1 => do
        let x ← pM4Argument rec c.2
        m4More rec n (.more acc c.1 x.1) x.2

/-- parse.y:706-710, with the closing parenthesis. -/
def pM4Args (rec : Located → Option (Lines × Located)) (prev : Nat) (ts : Located) :
    Option (M4Args × Located) := do
  let x ← pM4Argument rec ts
  let y ← m4More rec x.2.length (.one prev x.1) x.2
  let z ← expect tClose y.2
  pure (y.1, z.2)

/-- parse.y:530-547. -/
def pOptional (rec : Located → Option (Lines × Located)) (line : Nat) (r : Located) :
    Option (Stmt × Located) := do
  let x ← expect tOpen r
  let x ← expect tTick x.2
  let c := pCommand x.2
  match expect tQuote c.2 with
  | some y => do
    let z ← expect tClose y.2
    pure (.optionalEmpty line c.1, z.2)
  | none => do
    let b ← rec c.2
    let y ← expect tQuote b.2
    match expect tClose y.2 with
    | some z => pure (.optional line c.1 b.1, z.2)
    | none => do
      let z ← expect tComma y.2
      let z ← expect tTick z.2
      let e ← rec z.2
      let y ← expect tQuote e.2
      let y ← expect tClose y.2
      pure (.optionalElse line c.1 b.1 z.1 e.1, y.2)

/-- parse.y:549-557 and 566-570. -/
def pGenRequire (line : Nat) (r : Located) : Option (Stmt × Located) := do
  let x ← expect tOpen r
  let c := pCommand x.2
  match expect tTick c.2 with
  | some y => do
    let d := pCommand y.2
    let b ← pReqLines d.2
    let z ← expect tQuote b.2
    let z ← expect tClose z.2
    pure (.genRequire line c.1 d.1 b.1, z.2)
  | none => do
    let b ← pReqLines c.2
    let z ← expect tClose b.2
    pure (.genRequireUnquoted line c.1 b.1, z.2)

/-- parse.y:559-564: the line is that of the last token before the action. -/
def pRequire (r : Located) : Option (Stmt × Located) := do
  let x ← expect tLeft r
  match x.2 with
  | (line, .command c) :: r => do
    let b ← pReqLines r
    let z ← expect tRight b.2
    pure (.require line (some c) b.1, z.2)
  | r => do
    let b ← pReqLines r
    let z ← expect tRight b.2
    pure (.require x.1 none b.1, z.2)

/-- parse.y:635-638. -/
def pIfdef (rec : Located → Option (Lines × Located)) (negated : Bool) (r : Located) :
    Option (Stmt × Located) := do
  let x ← expect tOpen r
  let x ← expect tTick x.2
  let c ← lift pStr x.2
  let x ← expect tQuote c.2
  let x ← expect tComma x.2
  let a ← pM4Args rec x.1 x.2
  pure (.ifdef x.1 negated c.1 a.1, a.2)

/-- parse.y:646-648. -/
def pIfelse (rec : Located → Option (Lines × Located)) (r : Located) : Option (Stmt × Located) := do
  let x ← expect tOpen r
  let a ← pM4Args rec x.1 x.2
  pure (.ifelse x.1 a.1, a.2)

/-- parse.y:654-656. -/
def pUserdebug (rec : Located → Option (Lines × Located)) (r : Located) : Option (Stmt × Located) := do
  let x ← expect tOpen r
  let x ← expect tTick x.2
  let b ← rec x.2
  let z ← expect tQuote b.2
  let z ← expect tClose z.2
  pure (.userdebugOrEng b.1, z.2)

/-- parse.y:789-795. -/
def pTunable (rec : Located → Option (Lines × Located)) (r : Located) : Option (Stmt × Located) := do
  let x ← expect tOpen r
  match expect tTick x.2 with
  | some y => do
    let c ← lift pCond y.2
    let z ← expect tQuote c.2
    let z ← expect tComma z.2
    let a ← pM4Args rec z.1 z.2
    pure (.tunable y.1 true c.1 a.1, a.2)
  | none => do
    let c ← lift pCond x.2
    let z ← expect tComma c.2
    let a ← pM4Args rec z.1 z.2
    pure (.tunable x.1 false c.1 a.1, a.2)

/-- parse.y:776-787. -/
def pBoolean (rec : Located → Option (Lines × Located)) (line : Nat) (r : Located) :
    Option (Stmt × Located) := do
  let x ← expect tOpen r
  let k := pCommand x.2
  let c ← lift pCond k.2
  let x ← expect tClose c.2
  let x ← expect tLeft x.2
  let b ← rec x.2
  let y ← expect tRight b.2
  match expect (.kw .kwElse) y.2 with
  | none => pure (.boolean line k.1 c.1 b.1, y.2)
  | some z => do
    let z ← expect tLeft z.2
    let e ← rec z.2
    let z ← expect tRight e.2
    pure (.booleanElse line k.1 c.1 b.1 e.1, z.2)

/-- parse.y:854-858. -/
def pDefineName : TokParser (Bool × Str)
  | .p .backtick :: .string s :: .p .singleQuote :: r => some ((true, s), r)
  | .string s :: r => some ((false, s), r)
  | _ => none

/-- parse.y:860-872. -/
def pDefineContent : TokParser DefineContent
  | .p .comma :: .p .backtick :: r => do
    let x ← pM4String r
    let r ← pTok tQuote x.2
    pure (.text x.1, r)
  | .p .comma :: .string s :: r => some (.word s, r)
  | .p .comma :: r => some (.empty, r)
  | r => some (.none, r)

/-- parse.y:849-852. -/
def pDefine (r : Located) : Option (Stmt × Located) := do
  let x ← expect tOpen r
  let n ← lift pDefineName x.2
  let c ← lift pDefineContent n.2
  let z ← expect tClose c.2
  pure (.define x.1 n.1.1 n.1.2 c.1, z.2)

/-- The other statements: without a node, or with one. -/
def pFlat (line : Nat) (ts : Located) : Option (Stmt × Located) :=
  match lift pSilent ts with
  | some x => some (.silent x.1, x.2)
  | none => (lift pSimple ts).map fun x => (.simple line x.1, x.2)

/-- parse.y:280-347; `rec` reads the lines of a block. -/
def stmtStep (rec : Located → Option (Lines × Located)) (ts : Located) : Option (Stmt × Located) :=
  match ts with
  | (line, .kw .optionalPolicy) :: r => pOptional rec line r
  | (line, .kw .genRequire) :: r => pGenRequire line r
  | (_, .kw .require) :: r => pRequire r
  | (_, .kw .ifdef) :: r => pIfdef rec false r
  | (_, .kw .ifndef) :: r => pIfdef rec true r
  | (_, .kw .ifelse) :: r => pIfelse rec r
  | (_, .kw .userdebugOrEng) :: r => pUserdebug rec r
  | (_, .kw .tunablePolicy) :: r => pTunable rec r
  | (line, .kw .kwIf) :: r => pBoolean rec line r
  | (_, .kw .define) :: r => pDefine r
  | (line, _) :: _ => pFlat line ts
  | [] => none

/-- parse.y:274-278. -/
def pLine (rec : Located → Option (Lines × Located)) (ts : Located) : Option (Line × Located) := do
  let x ← stmtStep rec ts
  match pCommand x.2 with
  | (some c, r) => pure (.withCommand x.1 c, r)
  | (none, r) => pure (.bare x.1, r)

/-- parse.y:268-272: the lines after the first one. -/
def linesMore (line : Located → Option (Line × Located)) : Nat → Lines → Located →
    Option (Lines × Located)
  | n, acc, ts =>
    if atEnd ts then some (acc, ts)
    else
      match n with
      | 0 => none
      | n + 1 => do
        let x ← line ts
        linesMore line n (.more acc x.1) x.2

/-- parse.y:268-272; the number bounds the depth. -/
def linesF : Nat → Located → Option (Lines × Located)
  | 0, _ => none
  | n + 1, ts => do
    let x ← pLine (linesF n) ts
    linesMore (pLine (linesF n)) x.2.length (.one x.1) x.2

/-- parse.y:268-272. -/
def pLines (ts : Located) : Option (Lines × Located) := linesF (ts.length + 1) ts

/-! ## Files -/

/-- parse.y:934-957, after the keyword. -/
def pIfDefBody (line : Nat) (isTemplate : Bool) (r : Located) : Option (IfDef × Located) := do
  let y ← expect tOpen r
  let y ← expect tTick y.2
  let n ← lift pStr y.2
  let y ← expect tQuote n.2
  let y ← expect tComma y.2
  let y ← expect tTick y.2
  let c := pCommand y.2
  match expect tQuote c.2 with
  | some z => do
    let z ← expect tClose z.2
    pure (⟨line, isTemplate, n.1, c.1, none⟩, z.2)
  | none => do
    let b ← pLines c.2
    let z ← expect tQuote b.2
    let z ← expect tClose z.2
    pure (⟨line, isTemplate, n.1, c.1, some b.1⟩, z.2)

/-- parse.y:934-962. -/
def pIfDef : Located → Option (IfDef × Located)
  | (line, .kw .interface) :: r => pIfDefBody line false r
  | (line, .kw .template) :: r => pIfDefBody line true r
  | _ => none

/-- parse.y:922-932; all tokens are read. -/
def pIfLines : Nat → Located → Option (List IfLine)
  | _, [] => some []
  | 0, _ => none
  | n + 1, (line, .comment) :: r => do
    let ls ← pIfLines n r
    pure (.comment line :: ls)
  | n + 1, ts => do
    let d ← pIfDef ts
    let ls ← pIfLines n d.2
    pure (.defn d.1 :: ls)

/-- Definitions and comments up to the end. -/
def pDefs {α : Type} (p : TokParser α) (ts : List Token) : Option (α × List (Option α)) := do
  let x ← p ts
  let y := pStar (pOrComment p) x.2
  if y.2.isEmpty then some (x.1, y.1) else none

/-- The leading comments. -/
def leadingComments : Located → List Nat × Located
  | (line, .comment) :: r => (line :: (leadingComments r).1, (leadingComments r).2)
  | r => ([], r)

/-- parse.y:200-221. -/
def pFile (ts : Located) : Option SourceFile :=
  let x := leadingComments ts
  match x.2 with
  | [] =>
    match x.1 with
    | [] => some .empty
    | c :: cs => some (.comments c cs)
  | (line, t) :: _ =>
    match t with
    | .kw .interface | .kw .template => do
      let d ← pIfDef x.2
      let ls ← pIfLines d.2.length d.2
      pure (.iface x.1 d.1 ls)
    | .kw .define => do
      let d ← pDefs pSptDef x.2.toks
      pure (.spt x.1 d.1 d.2)
    | .kw .cls | .kw .common => do
      let d ← pDefs pAvDef x.2.toks
      pure (.av x.1 d.1 d.2)
    | _ => do
      let h ← lift pHeader x.2
      let b ← pLines h.2
      if b.2.isEmpty then some (.te x.1 ⟨line, h.1.1, h.1.2.1, h.1.2.2.1, h.1.2.2.2⟩ b.1) else none

end Selint
