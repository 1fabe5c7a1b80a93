import Verif.Lemmas.ParseNodes
import Verif.Spec.Tables
import Verif.Props.MoreChecks
import Verif.Props.Template
import Verif.Props.Maps
import Verif.Lemmas.Basic
/-! # What the actions of a derivation do to the symbol tables -/

namespace Selint

open Spec

/-- What a call does to the tables; `t` is the enclosing template. -/
def callResult (t : Option Str) (mod : Str) (c : IfCallData) (m : Maps) : ExpRes :=
  match t with
  | some t => .done .success (m.insertTemplateCall t c)
  | none => expandTemplate c.name c.argStrs mod m

/-- A call of a file transition interface makes the interface `i` one. -/
def callMark (i : Option Str) (c : IfCallData) (e : SelintError) (m : Maps) : Maps :=
  match i with
  | some i => if e = .success ∧ filetransName c.name then m.markFiletrans i else m
  | none => m

/-- Record a fact; `t` is the enclosing template. -/
def Spec.Fact.record (t : Option Str) (mod : Str) (f : Fact) (m : Maps) : Res Maps :=
  match f with
  | .declares fl n =>
    match t with
    | some t => .ok (m.insertTemplateDecl t fl n)
    | none => .ok (if n.head? = some '$' then m else m.insertDecl n mod fl)
  | .aliases n =>
    match t with
    | some t => .ok (m.insertTemplateDecl t .type n)
    | none => .ok (m.insertDecl n mod .type)
  | .calls c i =>
    match callResult t mod c m with
    | .done e m' => .ok (callMark i c e m')
    | .ub => .ub
    | .fuel => .ub
  | .transforms i => .ok (m.markTransform i)
  | .filetrans i => .ok (m.markFiletrans i)
  | .roles i => .ok (m.markRole i)

/-- Record facts one after the other. -/
def recordAll (t : Option Str) (mod : Str) : List Fact → Maps → Res Maps
  | [], m => .ok m
  | f :: fs, m => do recordAll t mod fs (← f.record t mod m)

theorem recordAll_append {t : Option Str} {mod : Str} {as bs : List Fact} {m m₁ m₂ : Maps}
    (h₁ : recordAll t mod as m = .ok m₁) (h₂ : recordAll t mod bs m₁ = .ok m₂) :
    recordAll t mod (as ++ bs) m = .ok m₂ := by
  induction as generalizing m with
  | nil => cases h₁; exact h₂
  | cons a as ih =>
    obtain ⟨x, e, h⟩ := Res.bind_eq_ok h₁
    simp only [List.cons_append, recordAll, e, Res.bind_ok]
    exact ih h

/-! ## Names -/

theorem strrchr_suffix {n e : Str} (h : '_' ∉ e) : strrchr '_' n = some ('_' :: e) ↔ ('_' :: e) <:+ n := by
  rw [strrchr_some]
  constructor
  · rintro ⟨pre, ext, rfl, _, e⟩
    cases e
    exact ⟨pre, rfl⟩
  · rintro ⟨pre, rfl⟩
    exact ⟨pre, e, rfl, h, rfl⟩

theorem isFiletransIfName_iff (n : Str) : PState.isFiletransIfName n = true ↔ filetransName n := by
  unfold PState.isFiletransIfName filetransName
  by_cases h1 : n = cs!"filetrans_pattern"
  · simp [h1]
  · by_cases h2 : n = cs!"filetrans_add_pattern"
    · simp [h2]
    · rw [if_neg h1, if_neg h2]
      simp only [h1, h2, false_or]
      have := strrchr_suffix (n := n) (e := cs!"filetrans") (by decide)
      rw [← this]
      cases strrchr '_' n <;> simp

theorem isTransformInterface_iff (n : Str) : PState.isTransformInterface n = true ↔ transformName n := by
  unfold PState.isTransformInterface transformName
  have hd : ∀ e ∈ transformEndings, e.head? = some '_' ∧ '_' ∉ e.tail := by decide
  have hs : ∀ e ∈ transformEndings, ∃ r, e = '_' :: r ∧ '_' ∉ r := by
    intro e he
    obtain ⟨h1, h2⟩ := hd e he
    cases e with
    | nil => cases h1
    | cons c r => cases h1; exact ⟨r, rfl, h2⟩
  cases h : strrchr '_' n with
  | none =>
    simp only [Bool.false_eq_true, false_iff, not_exists, not_and]
    intro e he hsuf
    obtain ⟨r, rfl, hr⟩ := hs e he
    rw [← strrchr_suffix hr, h] at hsuf
    cases hsuf
  | some suffix =>
    simp only [strInSl_iff]
    constructor
    · intro hm
      refine ⟨suffix, hm, ?_⟩
      obtain ⟨r, rfl, hr⟩ := hs suffix hm
      exact (strrchr_suffix hr).1 h
    · rintro ⟨e, he, hsuf⟩
      obtain ⟨r, rfl, hr⟩ := hs e he
      rw [← strrchr_suffix hr, h] at hsuf
      cases hsuf
      exact he

theorem someParameter_iff (l : List Str) :
    PState.someParameter l = true ↔ ∃ t ∈ l, t.head? = some '$' := by
  induction l with
  | nil => simp [PState.someParameter]
  | cons a l ih =>
    simp only [PState.someParameter]
    split
    · rename_i h; simp [h]
    · rename_i h; simp [ih, h]

/-! ## Where the parser is -/

/-- The interface of whose body the cursor is in directly, from the enclosing nodes. -/
def upsInterface : List Frame → Option Str
  | [] => none
  | f :: _ =>
    match f.info.data with
    | .plain .interfaceDef s => s
    | _ => none

theorem parentInterface_eq (st : PState) : st.parentInterface = upsInterface st.loc.ups := by
  unfold PState.parentInterface Loc.parent? upsInterface
  cases st.loc.ups <;> rfl

/-- Where the cursor is: not in a require block, in template `t`, directly in interface `i`. -/
structure Ctx (st : PState) (t : Option Str) (mod : Str) (i : Option Str) : Prop where
  require : st.loc.isInRequire = false
  template : st.loc.getNameIfInTemplate = t
  module : st.module = mod
  interface : upsInterface st.loc.ups = i

theorem Ctx.congr {st st' : PState} {t : Option Str} {mod : Str} {i : Option Str} (h : Ctx st t mod i)
    (hu : st'.loc.ups = st.loc.ups) (hm : st'.module = st.module) : Ctx st' t mod i := by
  refine ⟨?_, ?_, hm.trans h.module, ?_⟩
  · have := h.require; unfold Loc.isInRequire at *; rw [hu]; exact this
  · have := h.template; unfold Loc.getNameIfInTemplate at *; rw [hu]; exact this
  · rw [hu]; exact h.interface

theorem Ctx.after {f : Build → Build} {st st' : PState} {t : Option Str} {mod : Str} {i : Option Str}
    (h : Ctx st t mod i) (b : Builds f st st') : Ctx st' t mod i := h.congr b.ups b.module

/-- The actions recorded the facts. -/
def Records (t : Option Str) (mod : Str) (fs : List Fact) (st st' : PState) : Prop :=
  recordAll t mod fs st.maps = .ok st'.maps

namespace Records

theorem refl {t : Option Str} {mod : Str} {st st' : PState} (h : st'.maps = st.maps) :
    Records t mod [] st st' := by unfold Records; rw [h]; rfl

theorem trans {t : Option Str} {mod : Str} {as bs : List Fact} {a b c : PState}
    (h₁ : Records t mod as a b) (h₂ : Records t mod bs b c) : Records t mod (as ++ bs) a c :=
  recordAll_append h₁ h₂

theorem one {t : Option Str} {mod : Str} {f : Fact} {a b : PState}
    (h : f.record t mod a.maps = .ok b.maps) : Records t mod [f] a b := by
  unfold Records
  simp only [recordAll, h, Res.bind_ok]

theorem congr {t : Option Str} {mod : Str} {fs : List Fact} {a b a' b' : PState}
    (h : Records t mod fs a b) (ha : a'.maps = a.maps) (hb : b'.maps = b.maps) :
    Records t mod fs a' b' := by
  unfold Records at *; rw [ha, hb]; exact h

end Records

theorem insertDeclaration_records {st : PState} {t : Option Str} {mod : Str} {i : Option Str}
    (hx : Ctx st t mod i) (fl : DeclFlavor) (n : Str) (as : List Str) (line : Nat) :
    Records t mod [.declares fl n] st (st.insertDeclaration fl n as line) := by
  refine Records.one ?_
  unfold PState.insertDeclaration PState.declareName Fact.record
  rw [hx.require, hx.template, hx.module]
  cases t with
  | some t => rfl
  | none =>
    simp only [Bool.false_eq_true, if_false]
    split <;> rfl

theorem insertAliases_records {t : Option Str} {mod : Str} {i : Option Str} (line : Nat) (as : List Str) :
    ∀ {st : PState}, Ctx st t mod i →
    Records t mod (as.map .aliases) st (st.insertAliases as .type line) := by
  induction as with
  | nil => intro st _; exact Records.refl rfl
  | cons a as ih =>
    intro st hx
    have hl := insertAlias_loc st .type line a
    have h₁ : Records t mod [.aliases a] st (st.insertAlias .type line a) := by
      refine Records.one ?_
      unfold PState.insertAlias Fact.record
      rw [hx.template, hx.module]
      cases t <;> rfl
    exact h₁.trans (ih (hx.congr (by rw [hl.2.2]; rfl) hl.1))

theorem Decl.exec_records {st : PState} {t : Option Str} {mod : Str} {i : Option Str}
    (hx : Ctx st t mod i) (d : Decl) (line : Nat) :
    Records t mod (declFacts d) st (d.exec line st) := by
  have al : ∀ n as l, Records t mod (.declares .type n :: l.map .aliases) st
      ((st.insertDeclaration .type n as line).insertAliases l .type line) := by
    intro n as l
    have h₁ := insertDeclaration_records hx .type n as line
    exact h₁.trans (insertAliases_records line l (hx.after (insertDeclaration_follows st .type n as line)))
  cases d with
  | typeAlias n l => exact al n [] l.value
  | typeAliasAttrs n l a => exact al n a.value l.value
  | _ => exact insertDeclaration_records hx _ _ _ line

theorem insertInterfaceCall_records {st st' : PState} {t : Option Str} {mod : Str} {i : Option Str}
    (hx : Ctx st t mod i) {c : IfCallData} {line : Nat} (h : st.insertInterfaceCall c line = .ok st') :
    Records t mod [.calls c i] st st' := by
  refine Records.one ?_
  unfold PState.insertInterfaceCall at h
  have hexp : st.expandCall c = callResult t mod c st.maps := by
    unfold PState.expandCall callResult
    rw [hx.template, hx.module]
    cases t <;> rfl
  unfold Fact.record
  dsimp only
  rw [← hexp]
  split at h
  · cases h
  · cases h
  · rename_i e m hm
    rw [hm]
    dsimp only
    have hp : ∀ m rs, PState.parentInterface { st with maps := m, rets := rs } = i := by
      intro m rs; rw [parentInterface_eq]; exact hx.interface
    by_cases he : e = .success
    · simp only [he, if_true] at h
      cases h
      unfold callMark
      by_cases hf : filetransName c.name
      · rw [if_pos ((isFiletransIfName_iff _).2 hf), hp]
        cases i <;> simp [hf, he, PState.statement, PState.grow]
      · rw [if_neg (fun h => hf ((isFiletransIfName_iff _).1 h))]
        cases i <;> simp [hf, PState.statement, PState.grow]
    · simp only [if_neg he] at h
      cases h
      unfold callMark
      cases i <;> simp [he]

theorem about_records {st : PState} {t : Option Str} {mod : Str} {i : Option Str} {f : Str → Fact}
    {g : Maps → Str → Maps} {p : Prop} [Decidable p] {data : NodeData} {line : Nat}
    (hf : ∀ s m, (f s).record t mod m = .ok (g m s)) :
    Records t mod (about i f p) st (PState.statement (match i with
      | some i => if p then { st with maps := g st.maps i } else st
      | none => st) data line) := by
  cases i with
  | none => exact Records.refl rfl
  | some i =>
    unfold about
    dsimp only
    split
    · exact Records.one (hf _ _)
    · exact Records.refl rfl

theorem insertTypeTransition_records {st : PState} {t : Option Str} {mod : Str} {i : Option Str}
    (hx : Ctx st t mod i) (d : TtData) (line : Nat) :
    Records t mod (about i .filetrans (cs!"process" ∉ d.objectClasses)) st
      (st.insertTypeTransition d line) := by
  unfold PState.insertTypeTransition
  rw [parentInterface_eq, hx.interface]
  by_cases h : cs!"process" ∈ d.objectClasses
  · rw [if_pos (strInSl_iff.2 h)]
    cases i <;> simp [about, h] <;> exact Records.refl rfl
  · rw [if_neg (fun e => h (strInSl_iff.1 e))]
    cases i with
    | none => exact Records.refl rfl
    | some i => simp only [about, h, not_false_eq_true, if_true]; exact Records.one rfl

theorem insertAttribute_records {st : PState} {t : Option Str} {mod : Str} {i : Option Str}
    (hx : Ctx st t mod i) (d : AttrData) (line : Nat) :
    Records t mod (attributeFacts mod i) st (st.insertAttribute d line) := by
  have hp : (st.statement (.attr d) line).parentInterface = i := by
    rw [parentInterface_eq]; exact hx.interface
  have hm : (st.statement (.attr d) line).module = mod := hx.module
  unfold PState.insertAttribute
  dsimp only
  rw [hp, hm]
  unfold attributeFacts
  cases i with
  | none => exact Records.refl rfl
  | some i =>
    dsimp only
    by_cases h : transformName i ∨ mod = cs!"mls" ∨ mod = cs!"mcs"
    · rw [if_pos h, if_pos]
      · exact Records.one rfl
      · simp only [Bool.or_eq_true, isTransformInterface_iff, decide_eq_true_eq]
        rcases h with h | h | h <;> simp [h]
    · rw [if_neg h, if_neg]
      · exact Records.refl rfl
      · simp only [Bool.or_eq_true, isTransformInterface_iff, decide_eq_true_eq]
        rintro ((h' | h') | h') <;> exact h (by simp [h'])

theorem Simple.exec_records {s : Simple} {line : Nat} {st st' : PState} {t : Option Str} {mod : Str}
    {i : Option Str} (hx : Ctx st t mod i) (h : s.exec line st = .ok st') :
    Records t mod (simpleFacts mod i s) st st' := by
  cases s <;> simp only [Simple.exec] at h
  case decl d => cases h; exact d.exec_records hx line
  case typeAttribute => cases h; exact insertAttribute_records hx _ _
  case roleAttribute => cases h; exact insertAttribute_records hx _ _
  case typeAlias n l =>
    cases h
    exact (insertAliases_records line l.value (hx.after (Builds.statement st _ line))).congr rfl rfl
  case rule fl s t' c p =>
    cases h
    unfold PState.insertAvRule
    rw [parentInterface_eq, hx.interface]
    have := about_records (st := st) (t := t) (mod := mod) (i := i) (f := .transforms) (g := Maps.markTransform)
      (p := strInSl cs!"associate" p.value = true) (data := .av ⟨fl, s.value, t'.value, c.value, p.value⟩)
      (line := line) (fun _ _ => rfl)
    unfold simpleFacts about at *
    simp only [strInSl_iff] at this ⊢
    exact this
  case roleTypes r l =>
    cases h
    unfold PState.insertRoleTypes
    rw [parentInterface_eq, hx.interface]
    have := about_records (st := st) (t := t) (mod := mod) (i := i) (f := .roles) (g := Maps.markRole)
      (p := PState.someParameter l.value = true) (data := .roleTypes ⟨r, l.value⟩)
      (line := line) (fun _ _ => rfl)
    unfold simpleFacts about at *
    simp only [someParameter_iff] at this ⊢
    exact this
  case typeTransition s t' c d n =>
    cases h; exact insertTypeTransition_records hx ⟨s.value, t'.value, c.value, d, n, .tt⟩ line
  case typeMember s t' c d =>
    cases h; exact insertTypeTransition_records hx ⟨s.value, t'.value, c.value, d, none, .tm⟩ line
  case typeChange s t' c d =>
    cases h; exact insertTypeTransition_records hx ⟨s.value, t'.value, c.value, d, none, .tc⟩ line
  case rangeTransition s t' c r =>
    cases h; exact insertTypeTransition_records hx ⟨s.value, t'.value, c.value, r.value, none, .rt⟩ line
  case call n a =>
    cases a with
    | none => exact insertInterfaceCall_records hx h
    | some a => exact insertInterfaceCall_records hx h
  all_goals (cases h; exact Records.refl rfl)

/-! ## Require blocks -/

theorem declare_in_require {st : PState} (h : st.loc.isInRequire = true) (fl : DeclFlavor) (n : Str)
    (as : List Str) (line : Nat) : (st.insertDeclaration fl n as line).maps = st.maps := by
  unfold PState.insertDeclaration PState.declareName
  rw [h]
  rfl

theorem isInRequire_congr {st st' : PState} (hu : st'.loc.ups = st.loc.ups)
    (h : st.loc.isInRequire = true) : st'.loc.isInRequire = true := by
  unfold Loc.isInRequire at *; rw [hu]; exact h

theorem declares_in_require (fl : DeclFlavor) (line : Nat) (ns : List Str) :
    ∀ st : PState, st.loc.isInRequire = true →
    (ns.foldl (fun st n => st.insertDeclaration fl n [] line) st).maps = st.maps := by
  induction ns with
  | nil => intro st _; rfl
  | cons n ns ih =>
    intro st h
    have hb := insertDeclaration_follows st fl n [] line
    exact (ih _ (isInRequire_congr hb.ups h)).trans (declare_in_require h fl n [] line)

theorem isInRequire_enter {st : PState} (data : NodeData) (line : Nat) (cmd : Option Str)
    (hc : ∀ c ∈ cmd, cs!"#selint-disable:" <+: c) (h : st.loc.isInRequire = true) :
    ((st.beginBlock data line).parentCommand cmd).loc.isInRequire = true := by
  rw [(Builds.begin_loc st data line cmd hc).1]
  unfold Loc.isInRequire at *
  simp [h]

theorem isInRequire_begin {st : PState} {data : NodeData} (line : Nat) (cmd : Option Str)
    (hc : ∀ c ∈ cmd, cs!"#selint-disable:" <+: c) (h : data.flavor = .genReq ∨ data.flavor = .require) :
    ((st.beginBlock data line).parentCommand cmd).loc.isInRequire = true := by
  rw [(Builds.begin_loc st data line cmd hc).1]
  unfold Loc.isInRequire
  rcases h with h | h <;> simp [NodeInfo.flavor, h]

mutual
theorem ReqLines.exec_maps : ∀ (d : ReqLines) (st : PState), st.loc.rights = [] →
    CommandsOk d.tokens → st.loc.isInRequire = true → (d.exec st).maps = st.maps
  | .one l, st, hr, hc, h => l.exec_maps st hr hc h
  | .more ls l, st, hr, hc, h => by
    rw [ReqLines.tokens, CommandsOk.append] at hc
    have hb := ls.exec_follows st hr hc.1
    exact (l.exec_maps _ hb.rights hc.2 (isInRequire_congr hb.ups h)).trans (ls.exec_maps st hr hc.1 h)
theorem ReqLine.exec_maps : ∀ (d : ReqLine) (st : PState), st.loc.rights = [] →
    CommandsOk d.tokens → st.loc.isInRequire = true → (d.exec st).maps = st.maps
  | .bare s, st, hr, hc, h => s.exec_maps st hr hc h
  | .withCommand s c, st, hr, hc, h => by
    rw [ReqLine.tokens, CommandsOk.append] at hc
    exact s.exec_maps st hr hc.1 h
theorem ReqStmt.exec_maps : ∀ (d : ReqStmt) (st : PState), st.loc.rights = [] →
    CommandsOk d.tokens → st.loc.isInRequire = true → (d.exec st).maps = st.maps
  | .decls line fl _ _ names, st, _, _, h => declares_in_require fl line names.value st h
  | .cls line n l, st, _, _, h => declare_in_require h _ _ _ line
  | .ifdef line neg quoted cond body, st, _, hc, h => by
    have hc' : CommandsOk body.tokens := by
      cases quoted <;> simp [ReqStmt.tokens, CommandsOk.append, CommandsOk.cons] at hc <;> simp [hc]
    exact body.exec_maps (st.beginBlock (.plain .ifdef none) line) rfl hc'
      (isInRequire_enter (.plain .ifdef none) line none (by simp) h)
  | .comment, st, _, _, _ => rfl
end

/-! ## Blocks -/

/-- The blocks inside which the parser still is in the same template and outside require. -/
def quietBlock : PlainFlavor → Bool
  | .optionalPolicy | .optionalElse | .ifdef | .ifelse | .tunablePolicy | .booleanPolicy | .m4Arg => true
  | _ => false

theorem Ctx.enter {st : PState} {t : Option Str} {mod : Str} {i : Option Str} (hx : Ctx st t mod i)
    {fl : PlainFlavor} (line : Nat) (cmd : Option Str)
    (hc : ∀ c ∈ cmd, cs!"#selint-disable:" <+: c) (hf : quietBlock fl = true) :
    Ctx ((st.beginBlock (.plain fl none) line).parentCommand cmd) t mod none := by
  obtain ⟨hl, hm, _, _⟩ := Builds.begin_loc st (.plain fl none) line cmd hc
  have h1 := hx.require
  have h2 := hx.template
  refine ⟨?_, ?_, hm.trans hx.module, ?_⟩
  · rw [hl]
    unfold Loc.isInRequire at *
    simp only [List.any_cons, h1, Bool.or_false]
    cases fl <;> simp [quietBlock] at hf <;> rfl
  · rw [hl]
    unfold Loc.getNameIfInTemplate at *
    rw [← h2]
    cases fl <;> simp [quietBlock] at hf <;> simp
  · rw [hl]
    cases fl <;> simp [quietBlock] at hf <;> rfl

theorem Records.block {st st₂ : PState} {t : Option Str} {mod : Str} {fs : List Fact} {data : NodeData}
    {line : Nat} {cmd : Option Str} {fl : NodeFlavor}
    (hc : ∀ c ∈ cmd, cs!"#selint-disable:" <+: c)
    (h : Records t mod fs ((st.beginBlock data line).parentCommand cmd) st₂) :
    Records t mod fs st (st₂.endBlock fl) :=
  h.congr (Builds.begin_loc st data line cmd hc).2.2.2.symm rfl

mutual
theorem Lines.exec_records : ∀ (d : Lines) (st st' : PState) (t : Option Str) (mod : Str) (i : Option Str),
    Ctx st t mod i → st.loc.rights = [] → CommandsOk d.tokens → d.exec st = .ok st' →
    Records t mod (linesFacts mod i d) st st'
  | .one l, st, st', t, mod, i, hx, hr, hc, h => l.exec_records st st' t mod i hx hr hc h
  | .more ls l, st, st', t, mod, i, hx, hr, hc, h => by
    rw [Lines.tokens, CommandsOk.append] at hc
    obtain ⟨st₁, h₁, h₂⟩ := Res.bind_eq_ok h
    have f₁ := ls.exec_follows st st₁ hr hc.1 h₁
    exact (ls.exec_records st st₁ t mod i hx hr hc.1 h₁).trans
      (l.exec_records _ _ t mod i (hx.after f₁) f₁.rights hc.2 h₂)
theorem Line.exec_records : ∀ (d : Line) (st st' : PState) (t : Option Str) (mod : Str) (i : Option Str),
    Ctx st t mod i → st.loc.rights = [] → CommandsOk d.tokens → d.exec st = .ok st' →
    Records t mod (lineFacts mod i d) st st'
  | .bare s, st, st', t, mod, i, hx, hr, hc, h => s.exec_records st st' t mod i hx hr hc h
  | .withCommand s c, st, st', t, mod, i, hx, hr, hc, h => by
    rw [Line.tokens, CommandsOk.append] at hc
    obtain ⟨st₁, h₁, h₂⟩ := Res.bind_eq_ok h
    cases h₂
    exact (s.exec_records st st₁ t mod i hx hr hc.1 h₁).congr rfl rfl
theorem Stmt.exec_records : ∀ (d : Stmt) (st st' : PState) (t : Option Str) (mod : Str) (i : Option Str),
    Ctx st t mod i → st.loc.rights = [] → CommandsOk d.tokens → d.exec st = .ok st' →
    Records t mod (stmtFacts mod i d) st st'
  | .silent _, st, st', t, mod, i, hx, hr, _, h => by cases h; exact Records.refl rfl
  | .simple line s, st, st', t, mod, i, hx, hr, _, h => Simple.exec_records hx h
  | .optional line cmd body, st, st', t, mod, i, hx, hr, hc, h => by
    simp only [Stmt.tokens, CommandsOk.append] at hc
    obtain ⟨st₁, h₁, h₂⟩ := Res.bind_eq_ok h
    cases h₂
    have hcmd := commandTokens_ok hc.1.1.2
    exact Records.block hcmd (body.exec_records _ _ t mod none (hx.enter line cmd hcmd rfl)
      (begin_rights _ _ _ _) hc.1.2 h₁)
  | .optionalEmpty line cmd, st, st', t, mod, i, hx, hr, hc, h => by
    simp only [Stmt.tokens, CommandsOk.append] at hc
    cases h
    exact Records.block (data := .plain .optionalPolicy none) (line := line)
      (commandTokens_ok hc.1.2) (Records.refl rfl)
  | .optionalElse line cmd body elseLine els, st, st', t, mod, i, hx, hr, hc, h => by
    simp only [Stmt.tokens, CommandsOk.append] at hc
    obtain ⟨st₁, h₁, h⟩ := Res.bind_eq_ok h
    obtain ⟨st₂, h₂, h⟩ := Res.bind_eq_ok h
    cases h
    have hcmd := commandTokens_ok hc.1.1.1.1.2
    have hb : Builds _ st (st₁.endBlock .optionalPolicy) := Builds.block hcmd
      (body.exec_follows _ _ (begin_rights _ _ _ _) hc.1.1.1.2 h₁) rfl
    exact (Records.block (fl := .optionalPolicy) hcmd
      (body.exec_records _ _ t mod none (hx.enter line cmd hcmd rfl)
        (begin_rights _ _ _ _) hc.1.1.1.2 h₁)).trans
      (Records.block (cmd := none) (by simp) (els.exec_records _ _ t mod none
        ((hx.after hb).enter elseLine none (by simp) rfl) rfl hc.1.2 h₂))
  | .genRequire line cmd cmd' body, st, st', t, mod, i, hx, hr, hc, h => by
    simp only [Stmt.tokens, CommandsOk.append, CommandsOk.cons] at hc
    have hcmd := commandTokens_ok hc.1.1.1.2
    have hm := body.exec_maps _ (begin_rights st (.genReq false) line _) hc.1.2
      (isInRequire_begin line cmd hcmd (Or.inl rfl))
    have hm' := hm.trans (Builds.begin_loc st (.genReq false) line cmd hcmd).2.2.2
    cases h
    refine Records.refl ?_
    cases cmd' <;> exact hm'
  | .genRequireUnquoted line cmd body, st, st', t, mod, i, hx, hr, hc, h => by
    simp only [Stmt.tokens, CommandsOk.append, CommandsOk.cons] at hc
    have hcmd := commandTokens_ok hc.1.1.2
    have hm := body.exec_maps _ (begin_rights st (.genReq false) line _) hc.1.2
      (isInRequire_begin line cmd hcmd (Or.inl rfl))
    have hm' := hm.trans (Builds.begin_loc st (.genReq false) line cmd hcmd).2.2.2
    cases h
    exact Records.refl hm'
  | .require line cmd body, st, st', t, mod, i, hx, hr, hc, h => by
    simp only [Stmt.tokens, CommandsOk.append, CommandsOk.cons] at hc
    have hcmd := commandTokens_ok hc.1.1.2
    have hm := body.exec_maps _ (begin_rights st (.plain .require none) line _) hc.1.2
      (isInRequire_begin line cmd hcmd (Or.inr rfl))
    have hm' := hm.trans (Builds.begin_loc st (.plain .require none) line cmd hcmd).2.2.2
    cases h
    exact Records.refl hm'
  | .ifdef line neg cond args, st, st', t, mod, i, hx, hr, hc, h => by
    have hc' : CommandsOk args.tokens := by
      simp [Stmt.tokens, CommandsOk.append, CommandsOk.cons] at hc; simp [hc]
    obtain ⟨st₁, h₁, h⟩ := Res.bind_eq_ok h
    cases h
    exact Records.block (cmd := none) (by simp) (args.exec_records _ _ t mod none
      (hx.enter line none (by simp) rfl) rfl hc' h₁)
  | .ifelse line args, st, st', t, mod, i, hx, hr, hc, h => by
    have hc' : CommandsOk args.tokens := by
      simp [Stmt.tokens, CommandsOk.append, CommandsOk.cons] at hc; simp [hc]
    obtain ⟨st₁, h₁, h⟩ := Res.bind_eq_ok h
    cases h
    exact Records.block (cmd := none) (by simp) (args.exec_records _ _ t mod none
      (hx.enter line none (by simp) rfl) rfl hc' h₁)
  | .userdebugOrEng body, st, st', t, mod, i, hx, hr, hc, h => by
    have hc' : CommandsOk body.tokens := by
      simp [Stmt.tokens, CommandsOk.append, CommandsOk.cons] at hc; simp [hc]
    exact body.exec_records st st' t mod i hx hr hc' h
  | .tunable line quoted cond args, st, st', t, mod, i, hx, hr, hc, h => by
    have hc' : CommandsOk args.tokens := by
      simp [Stmt.tokens, CommandsOk.append, CommandsOk.cons] at hc; simp [hc]
    obtain ⟨st₁, h₁, h⟩ := Res.bind_eq_ok h
    cases h
    exact Records.block (cmd := none) (by simp) (args.exec_records _ _ t mod none
      (hx.enter line none (by simp) rfl) rfl hc' h₁)
  | .boolean line cmd cond body, st, st', t, mod, i, hx, hr, hc, h => by
    simp only [Stmt.tokens, CommandsOk.append, CommandsOk.cons] at hc
    obtain ⟨st₁, h₁, h₂⟩ := Res.bind_eq_ok h
    cases h₂
    have hcmd := commandTokens_ok hc.1.1.1.1.2
    exact Records.block hcmd (body.exec_records _ _ t mod none (hx.enter line cmd hcmd rfl)
      (begin_rights _ _ _ _) hc.1.2 h₁)
  | .booleanElse line cmd cond body els, st, st', t, mod, i, hx, hr, hc, h => by
    simp only [Stmt.tokens, CommandsOk.append, CommandsOk.cons] at hc
    obtain ⟨st₁, h₁, h⟩ := Res.bind_eq_ok h
    obtain ⟨st₂, h₂, h⟩ := Res.bind_eq_ok h
    cases h
    have hcmd := commandTokens_ok hc.1.1.1.1.1.1.2
    have hx' := hx.enter line cmd hcmd (fl := .booleanPolicy) rfl
    have hb := body.exec_follows _ _ (begin_rights _ _ _ _) hc.1.1.1.2 h₁
    exact Records.block hcmd ((body.exec_records _ _ t mod none hx'
        (begin_rights _ _ _ _) hc.1.1.1.2 h₁).trans
      (els.exec_records _ _ t mod none (hx'.after hb) hb.rights hc.1.2 h₂))
  | .define line _ _ _, st, st', t, mod, i, hx, hr, hc, h => by
    cases h
    exact Records.refl rfl
theorem M4Args.exec_records : ∀ (d : M4Args) (st st' : PState) (t : Option Str) (mod : Str) (i : Option Str),
    Ctx st t mod i → st.loc.rights = [] → CommandsOk d.tokens → d.exec st = .ok st' →
    Records t mod (argsFacts mod d) st st'
  | .one line a, st, st', t, mod, i, hx, hr, hc, h => by
    obtain ⟨st₁, h₁, h⟩ := Res.bind_eq_ok h
    cases h
    exact Records.block (cmd := none) (by simp) (a.exec_records _ _ t mod
      (hx.enter line none (by simp) rfl) rfl hc h₁)
  | .more as line a, st, st', t, mod, i, hx, hr, hc, h => by
    simp only [M4Args.tokens, CommandsOk.append, CommandsOk.cons] at hc
    obtain ⟨st₁, h₁, h⟩ := Res.bind_eq_ok h
    obtain ⟨st₂, h₂, h⟩ := Res.bind_eq_ok h
    cases h
    have hb := as.exec_follows _ _ hr hc.1 h₁
    exact (as.exec_records _ _ t mod i hx hr hc.1 h₁).trans
      (Records.block (cmd := none) (by simp) (a.exec_records _ _ t mod
        ((hx.after hb).enter line none (by simp) rfl) rfl hc.2.2 h₂))
theorem M4Argument.exec_records : ∀ (d : M4Argument) (st st' : PState) (t : Option Str) (mod : Str),
    Ctx st t mod none → st.loc.rights = [] → CommandsOk d.tokens → d.exec st = .ok st' →
    Records t mod (argFacts mod d) st st'
  | .empty, st, st', t, mod, hx, hr, hc, h => by cases h; exact Records.refl rfl
  | .emptyQuoted, st, st', t, mod, hx, hr, hc, h => by cases h; exact Records.refl rfl
  | .quoted body, st, st', t, mod, hx, hr, hc, h => by
    have hc' : CommandsOk body.tokens := by
      simp [M4Argument.tokens, CommandsOk.append, CommandsOk.cons] at hc; simp [hc]
    exact body.exec_records st st' t mod none hx hr hc' h
  | .word _, st, st', t, mod, hx, hr, hc, h => by cases h; exact Records.refl rfl
end

/-! ## Files -/

/-- What a definition does to the tables. -/
def ifDefRecord (mod : Str) (d : IfDef) (m : Maps) : Res Maps :=
  recordAll (if d.isTemplate then some d.name else none) mod (ifDefFacts mod d)
    ((if d.isTemplate then m.insertTemplate d.name else m).insertIf d.name mod)

/-- What definitions do to the tables. -/
def ifDefsRecord (mod : Str) : List IfDef → Maps → Res Maps
  | [], m => .ok m
  | d :: ds, m => do ifDefsRecord mod ds (← ifDefRecord mod d m)

/-- The parser is at the top level of a file. -/
structure AtTop (st : PState) (mod : Str) : Prop where
  ups : st.loc.ups = []
  rights : st.loc.rights = []
  module : st.module = mod

theorem AtTop.ctx {st : PState} {mod : Str} (h : AtTop st mod) : Ctx st none mod none :=
  ⟨by simp [Loc.isInRequire, h.ups], by simp [Loc.getNameIfInTemplate, h.ups], h.module,
    by simp [upsInterface, h.ups]⟩

theorem AtTop.after {f : Build → Build} {st st' : PState} {mod : Str} (h : AtTop st mod)
    (b : Builds f st st') : AtTop st' mod :=
  ⟨b.ups.trans h.ups, b.rights, b.module.trans h.module⟩

theorem IfDef.exec_records {d : IfDef} {st st' : PState} {mod : Str} (ht : AtTop st mod)
    (hc : CommandsOk d.tokens) (h : d.exec st = .ok st') :
    ifDefRecord mod d st.maps = .ok st'.maps := by
  obtain ⟨line, isT, name, cmd, body⟩ := d
  simp only [IfDef.tokens, CommandsOk.append] at hc
  unfold IfDef.exec at h
  obtain ⟨st₂, h₂, h⟩ := Res.bind_eq_ok h
  have hcl : st'.maps = st₂.maps := by
    cases h
    have : st₂.endInterfaceDef.maps = st₂.maps := by
      unfold PState.endInterfaceDef; repeat' split
      all_goals rfl
    cases cmd <;> exact this
  unfold ifDefRecord ifDefFacts
  rw [hcl]
  dsimp only at *
  have hb : (st.beginInterfaceDef isT name line).maps =
      (if isT then st.maps.insertTemplate name else st.maps).insertIf name mod := by
    unfold PState.beginInterfaceDef; rw [ht.module]; rfl
  rw [← hb]
  cases body with
  | none => cases h₂; rfl
  | some b =>
    have hu : (st.beginInterfaceDef isT name line).loc.ups = [⟨st.loc.focus :: st.loc.lefts,
        ⟨.plain (if isT then .tempDef else .interfaceDef) (some name), none, line⟩, []⟩] := by
      show _ :: st.loc.ups = _
      rw [ht.ups]
    have hx : Ctx (st.beginInterfaceDef isT name line) (if isT then some name else none) mod
        (if isT then none else some name) := by
      refine ⟨?_, ?_, ht.module, ?_⟩
      · unfold Loc.isInRequire; rw [hu]; cases isT <;> rfl
      · unfold Loc.getNameIfInTemplate; rw [hu]; cases isT <;> rfl
      · rw [hu]; cases isT <;> rfl
    exact b.exec_records _ _ _ _ _ hx rfl hc.1.2 h₂

theorem execIfLines_records {mod : Str} (ls : List IfLine) : ∀ st st' : PState, AtTop st mod →
    CommandsOk (ls.flatMap IfLine.tokens) → execIfLines ls st = .ok st' →
    ifDefsRecord mod (ls.filterMap fun | .defn d => some d | .comment _ => none) st.maps = .ok st'.maps := by
  induction ls with
  | nil => intro st st' _ _ h; cases h; rfl
  | cons l ls ih =>
    intro st st' ht hc h
    rw [List.flatMap_cons, CommandsOk.append] at hc
    obtain ⟨st₁, h₁, h₂⟩ := Res.bind_eq_ok h
    cases l with
    | defn d =>
      have f₁ := IfDef.exec_follows hc.1 h₁
      have r₁ := IfDef.exec_records ht hc.1 h₁
      simp only [List.filterMap_cons, ifDefsRecord, r₁, Res.bind_ok]
      exact ih _ _ (ht.after f₁) hc.2 h₂
    | comment n =>
      cases h₁
      exact ih (st.insertComment n) _ (ht.after (Builds.statement st (.plain .comment none) n)) hc.2 h₂

theorem execComments_maps (cs : List Nat) : ∀ st : PState, (execComments cs st).maps = st.maps := by
  induction cs with
  | nil => intro st; rfl
  | cons c cs ih => intro st; exact ih _

theorem init_atTop (expected : PlainFlavor) (mod : Str) (m : Maps) :
    AtTop (PState.init expected mod m) mod := ⟨rfl, rfl, rfl⟩

theorem te_records {cs : List Nat} {hd : Header} {b : Lines} {expected : PlainFlavor} {mod : Str}
    {m : Maps} {st : PState} (hc : CommandsOk (SourceFile.te cs hd b).tokens)
    (h : (SourceFile.te cs hd b).exec expected mod m = .ok (some st)) :
    recordAll none mod (linesFacts mod none b) m = .ok st.maps := by
  unfold SourceFile.exec at h
  dsimp only at h
  split at h
  · cases h
  · obtain ⟨st₁, h₁, h⟩ := Res.bind_eq_ok h
    cases h
    simp only [SourceFile.tokens, CommandsOk.append] at hc
    have hb := (execComments_follows cs (PState.init expected mod m) rfl).trans
      (Builds.statement (execComments cs (PState.init expected mod m))
        (.header ⟨if hd.isMacro then .macro else .bare, hd.name⟩) hd.line)
    have hr := b.exec_records _ _ none mod none ((init_atTop expected mod m).after hb).ctx rfl hc.2 h₁
    exact hr.congr (execComments_maps cs (PState.init expected mod m)).symm rfl

theorem iface_records {cs : List Nat} {d : IfDef} {ls : List IfLine} {expected : PlainFlavor} {mod : Str}
    {m : Maps} {st : PState} (hc : CommandsOk (SourceFile.iface cs d ls).tokens)
    (h : (SourceFile.iface cs d ls).exec expected mod m = .ok (some st)) :
    ifDefsRecord mod (ifDefs d ls) m = .ok st.maps := by
  unfold SourceFile.exec at h
  dsimp only at h
  split at h
  · cases h
  · obtain ⟨st₁, h₁, h⟩ := Res.bind_eq_ok h
    obtain ⟨st₂, h₂, h⟩ := Res.bind_eq_ok h
    cases h
    simp only [SourceFile.tokens, CommandsOk.append] at hc
    have ht := (init_atTop expected mod m).after (execComments_follows cs (PState.init expected mod m) rfl)
    have f₁ := IfDef.exec_follows hc.1.2 h₁
    have r₁ := IfDef.exec_records ht hc.1.2 h₁
    rw [execComments_maps] at r₁
    have r₁' : ifDefRecord mod d m = .ok st₁.maps := r₁
    unfold ifDefs
    simp only [ifDefsRecord, r₁', Res.bind_ok]
    exact execIfLines_records ls _ _ (ht.after f₁) hc.2 h₂

/-! ## What recording does -/

/-- Where a declaration that an expansion enters comes from: `name`, or a template that is called
from it, declares a name that it is obtained from by substitution. -/
def Spec.InstanceOf (m : Maps) (name : Str) (x : DeclFlavor × Str) : Prop :=
  ∃ t, (t = name ∨ CallChain m name t) ∧ ∃ d as, (x.1, d) ∈ m.templateDecls t ∧ replaceM4 d as = .ok (some x.2)

theorem insertAll_template (mod : Str) (out : List (DeclFlavor × Str)) (m : Maps) :
    (insertAll mod out m).template = m.template := by
  induction out generalizing m with
  | nil => rfl
  | cons d out ih => exact (ih (m.insertDecl d.2 mod d.1)).trans (Maps.insertDecl_other ..).2.2.2.2.2.2.2

theorem decls_insertAll {mod : Str} {args : List (Option Str)} {ds : List (DeclFlavor × Str)}
    {m m' : Maps} {e : SelintError} (h : expandDecls mod args ds m = .done e m') :
    ∃ out, m' = insertAll mod out m ∧ (∀ n, expandDecls mod args ds n = .done e (insertAll mod out n)) ∧
      ∀ x ∈ out, ∃ d as, (x.1, d) ∈ ds ∧ replaceM4 d as = .ok (some x.2) := by
  induction ds generalizing m with
  | nil => simp [expandDecls] at h; exact ⟨[], h.2.symm, by simp [expandDecls, insertAll, h.1], by simp⟩
  | cons d ds ih =>
    obtain ⟨fl, d⟩ := d
    simp only [expandDecls] at h ⊢
    cases ha : allStrings args with
    | ub => simp [ha] at h
    | ok as =>
      simp only [ha] at h
      cases hr : replaceM4 d as with
      | ub => simp [hr] at h
      | ok o =>
        cases o with
        | none =>
          simp [hr] at h
          exact ⟨[], h.2.symm, by simp [insertAll, hr, h.1], by simp⟩
        | some s =>
          simp only [hr] at h
          obtain ⟨o, rfl, h2, h3⟩ := ih h
          refine ⟨(fl, s) :: o, rfl, fun n => by simp only [hr]; exact h2 _, fun x hx => ?_⟩
          rcases List.mem_cons.1 hx with rfl | hx
          · exact ⟨d, as, .head _, hr⟩
          · obtain ⟨d', as', h4, h5⟩ := h3 x hx
            exact ⟨d', as', .tail _ h4, h5⟩

mutual
theorem add_insertAll (m0 : Maps) (fuel : Nat) {name : Str} {args : List (Option Str)} {parents : List Str}
    {mod : Str} {m m' : Maps} {e : SelintError} (hT : m.template = m0.template)
    (h : addTemplateDeclarations fuel name args parents mod m = .done e m') :
    ∃ out, m' = insertAll mod out m ∧
      (∀ n, n.template = m0.template →
        addTemplateDeclarations fuel name args parents mod n = .done e (insertAll mod out n)) ∧
      ∀ x ∈ out, InstanceOf m0 name x := by
  cases fuel with
  | zero => simp [addTemplateDeclarations] at h
  | succ fuel =>
    simp only [add_succ] at h ⊢
    by_cases hp : strInSl name parents = true
    · simp only [hp, if_true, ExpRes.done.injEq] at h ⊢
      exact ⟨[], h.2.symm, by simp [insertAll, h.1], by simp⟩
    · simp only [hp, Bool.false_eq_true, if_false] at h ⊢
      rw [templateCalls_congr hT, templateDecls_congr hT] at h
      split at h
      · rename_i m1 h1
        obtain ⟨o₁, rfl, a1, a2⟩ := calls_insertAll m0 fuel _ hT h1
        obtain ⟨o₂, rfl, b1, b2⟩ := decls_insertAll h
        refine ⟨o₁ ++ o₂, (insertAll_append ..).symm, fun n hn => ?_, fun x hx => ?_⟩
        · rw [templateCalls_congr hn, templateDecls_congr hn, a1 n hn]
          simp only [b1, insertAll_append]
        · rcases List.mem_append.1 hx with hx | hx
          · obtain ⟨c, hc, t, h2, h3⟩ := a2 x hx
            refine ⟨t, Or.inr (chain_of hc ?_), h3⟩
            rcases h2 with rfl | h2
            · exact Or.inl rfl
            · exact Or.inr h2
          · exact ⟨name, Or.inl rfl, b2 x hx⟩
      · rename_i r hr
        obtain ⟨o₁, rfl, a1, a2⟩ := calls_insertAll m0 fuel _ hT h
        refine ⟨o₁, rfl, fun n hn => ?_, fun x hx => ?_⟩
        · rw [templateCalls_congr hn, a1 n hn]
          cases e <;> first | rfl | exact absurd h (hr _)
        · obtain ⟨c, hc, t, h2, h3⟩ := a2 x hx
          refine ⟨t, Or.inr (chain_of hc ?_), h3⟩
          rcases h2 with rfl | h2
          · exact Or.inl rfl
          · exact Or.inr h2
termination_by (fuel, 0)
theorem calls_insertAll (m0 : Maps) (fuel : Nat) {args : List (Option Str)} {chain : List Str} {mod : Str}
    (cs : List IfCallData) {m m' : Maps} {e : SelintError} (hT : m.template = m0.template)
    (h : expandCallsAt fuel args chain mod cs m = .done e m') :
    ∃ out, m' = insertAll mod out m ∧
      (∀ n, n.template = m0.template → expandCallsAt fuel args chain mod cs n = .done e (insertAll mod out n)) ∧
      ∀ x ∈ out, ∃ c ∈ cs, InstanceOf m0 c.name x := by
  cases cs with
  | nil =>
    simp [expandCallsAt_nil] at h
    exact ⟨[], h.2.symm, by simp [expandCallsAt_nil, insertAll, h.1], by simp⟩
  | cons c cs =>
    simp only [expandCallsAt_cons] at h ⊢
    split at h
    · simp at h
    · rename_i newArgs hna
      split at h
      · rename_i m1 h1
        obtain ⟨o₁, rfl, a1, a2⟩ := add_insertAll m0 fuel hT h1
        obtain ⟨o₂, rfl, b1, b2⟩ := calls_insertAll m0 fuel cs (by rw [insertAll_template, hT]) h
        refine ⟨o₁ ++ o₂, (insertAll_append ..).symm, fun n hn => ?_, fun x hx => ?_⟩
        · simp only [a1 n hn]
          rw [b1 _ (by rw [insertAll_template, hn]), insertAll_append]
        · rcases List.mem_append.1 hx with hx | hx
          · exact ⟨c, .head _, a2 x hx⟩
          · obtain ⟨c', h2, h3⟩ := b2 x hx
            exact ⟨c', .tail _ h2, h3⟩
      · rename_i r hr
        obtain ⟨o₁, rfl, a1, a2⟩ := add_insertAll m0 fuel hT h
        refine ⟨o₁, rfl, fun n hn => ?_, fun x hx => ⟨c, .head _, a2 x hx⟩⟩
        simp only [a1 n hn]
        cases e <;> first | rfl | exact absurd h (hr _)
termination_by (fuel, cs.length + 1)
end

theorem insertAll_declOps (mod : Str) (out : List (DeclFlavor × Str)) (m : Maps) :
    insertAll mod out m = (declOps mod out).foldl MapOp.apply m := by
  simp [insertAll, declOps, List.foldl_map, MapOp.apply]

theorem declOps_template (mod : Str) (out : List (DeclFlavor × Str)) (m : Maps) :
    ((declOps mod out).foldl MapOp.apply m).template = m.template := by
  induction out generalizing m with
  | nil => rfl
  | cons d out ih =>
    exact (ih (m.insertDecl d.2 mod d.1)).trans (Maps.insertDecl_other ..).2.2.2.2.2.2.2

theorem record_ops {f : Fact} {mod : Str} {m m' : Maps} (h : f.record none mod m = .ok m') :
    ∃ ops, FactOps m.template mod f ops ∧ m' = ops.foldl MapOp.apply m ∧ m'.template = m.template := by
  cases f with
  | declares fl n =>
    cases h
    refine ⟨_, rfl, ?_, ?_⟩
    · unfold declared declOps; split <;> rename_i hh <;> simp only [hh, if_true, if_false, List.map_nil, List.map_cons, List.foldl_nil, List.foldl_cons, MapOp.apply]
    · split
      · rfl
      · exact (Maps.insertDecl_other ..).2.2.2.2.2.2.2
  | aliases n =>
    cases h
    exact ⟨_, rfl, rfl, (Maps.insertDecl_other ..).2.2.2.2.2.2.2⟩
  | calls c i =>
    unfold Fact.record callResult at h
    dsimp only at h
    cases hx : expandTemplate c.name c.argStrs mod m with
    | ub => rw [hx] at h; cases h
    | fuel => rw [hx] at h; cases h
    | done e m₁ =>
      rw [hx] at h
      cases h
      obtain ⟨out, hout, hall, -⟩ := add_insertAll m _ rfl hx
      rw [insertAll_declOps] at hout
      refine ⟨_, ⟨e, out, fun n hn => ?_, rfl⟩, ?_, ?_⟩
      · rw [← insertAll_declOps, expandTemplate, hn]; exact hall n hn
      · rw [List.foldl_append, ← hout]
        unfold callMark
        cases i with
        | none => rfl
        | some i =>
          dsimp only
          split <;> rfl
      · have := declOps_template mod out m
        rw [← hout] at this
        rw [← this]
        unfold callMark Maps.markFiletrans
        repeat' split
        all_goals rfl
  | transforms i =>
    cases h
    exact ⟨_, rfl, rfl, by unfold Maps.markTransform; split <;> rfl⟩
  | filetrans i =>
    cases h
    exact ⟨_, rfl, rfl, by unfold Maps.markFiletrans; split <;> rfl⟩
  | roles i =>
    cases h
    exact ⟨_, rfl, rfl, by unfold Maps.markRole; split <;> rfl⟩

theorem recordAll_ops {fs : List Fact} {mod : Str} : ∀ {m m' : Maps},
    recordAll none mod fs m = .ok m' →
    ∃ ops, FactsOps m.template mod fs ops ∧ m' = ops.foldl MapOp.apply m := by
  induction fs with
  | nil => intro m m' h; cases h; exact ⟨[], rfl, rfl⟩
  | cons f fs ih =>
    intro m m' h
    obtain ⟨m₁, h₁, h₂⟩ := Res.bind_eq_ok h
    obtain ⟨a, ha, rfl, ht⟩ := record_ops h₁
    obtain ⟨b, hb, rfl⟩ := ih h₂
    rw [ht] at hb
    exact ⟨a ++ b, ⟨a, b, rfl, ha, hb⟩, by rw [List.foldl_append]⟩

/-- The facts that occur inside templates. -/
def plainFact : Fact → Bool
  | .calls _ (some _) | .transforms _ | .filetrans _ | .roles _ => false
  | _ => true

theorem simpleFacts_plain (mod : Str) (s : Simple) : ∀ f ∈ simpleFacts mod none s, plainFact f = true := by
  cases s with
  | decl d => cases d <;> simp [simpleFacts, declFacts, plainFact]
  | call n a => cases a <;> simp [simpleFacts, plainFact]
  | _ => simp [simpleFacts, about, attributeFacts, plainFact]

mutual
theorem linesFacts_plain (mod : Str) : ∀ d : Lines, ∀ f ∈ linesFacts mod none d, plainFact f = true
  | .one l => lineFacts_plain mod l
  | .more ls l => by
    intro f hf
    rcases List.mem_append.1 hf with h | h
    · exact linesFacts_plain mod ls f h
    · exact lineFacts_plain mod l f h
theorem lineFacts_plain (mod : Str) : ∀ d : Line, ∀ f ∈ lineFacts mod none d, plainFact f = true
  | .bare s => stmtFacts_plain mod s
  | .withCommand s _ => stmtFacts_plain mod s
theorem stmtFacts_plain (mod : Str) : ∀ d : Stmt, ∀ f ∈ stmtFacts mod none d, plainFact f = true
  | .silent _ => by simp [stmtFacts]
  | .simple _ s => simpleFacts_plain mod s
  | .optional _ _ body => linesFacts_plain mod body
  | .optionalEmpty _ _ => by simp [stmtFacts]
  | .optionalElse _ _ body _ els => by
    intro f hf
    rcases List.mem_append.1 hf with h | h
    · exact linesFacts_plain mod body f h
    · exact linesFacts_plain mod els f h
  | .genRequire _ _ _ _ => by simp [stmtFacts]
  | .genRequireUnquoted _ _ _ => by simp [stmtFacts]
  | .require _ _ _ => by simp [stmtFacts]
  | .ifdef _ _ _ args => argsFacts_plain mod args
  | .ifelse _ args => argsFacts_plain mod args
  | .userdebugOrEng body => linesFacts_plain mod body
  | .tunable _ _ _ args => argsFacts_plain mod args
  | .boolean _ _ _ body => linesFacts_plain mod body
  | .booleanElse _ _ _ body els => by
    intro f hf
    rcases List.mem_append.1 hf with h | h
    · exact linesFacts_plain mod body f h
    · exact linesFacts_plain mod els f h
  | .define _ _ _ _ => by simp [stmtFacts]
theorem argsFacts_plain (mod : Str) : ∀ d : M4Args, ∀ f ∈ argsFacts mod d, plainFact f = true
  | .one _ a => argFacts_plain mod a
  | .more as _ a => by
    intro f hf
    rcases List.mem_append.1 hf with h | h
    · exact argsFacts_plain mod as f h
    · exact argFacts_plain mod a f h
theorem argFacts_plain (mod : Str) : ∀ d : M4Argument, ∀ f ∈ argFacts mod d, plainFact f = true
  | .empty => by simp [argFacts]
  | .emptyQuoted => by simp [argFacts]
  | .quoted body => linesFacts_plain mod body
  | .word _ => by simp [argFacts]
end

theorem recordAll_template {t : Str} {mod : Str} {fs : List Fact} (hp : ∀ f ∈ fs, plainFact f = true) :
    ∀ {m m' : Maps}, recordAll (some t) mod fs m = .ok m' →
    m' = (fs.flatMap (templateFactOps t)).foldl MapOp.apply m := by
  induction fs with
  | nil => intro m m' h; cases h; rfl
  | cons f fs ih =>
    intro m m' h
    obtain ⟨m₁, h₁, h₂⟩ := Res.bind_eq_ok h
    rw [ih (fun g hg => hp g (List.mem_cons_of_mem _ hg)) h₂, List.flatMap_cons, List.foldl_append]
    congr 1
    have hf := hp f (by simp)
    cases f with
    | calls c i =>
      cases i with
      | none => cases h₁; rfl
      | some i => cases hf
    | transforms => cases hf
    | filetrans => cases hf
    | roles => cases hf
    | _ => cases h₁; rfl

theorem ifDefRecord_ops {mod : Str} {d : IfDef} {m m' : Maps} (h : ifDefRecord mod d m = .ok m') :
    ∃ ops, DefOps m mod d ops ∧ m' = ops.foldl MapOp.apply m := by
  unfold ifDefRecord at h
  unfold DefOps
  by_cases ht : d.isTemplate = true
  · simp only [ht, if_true] at h ⊢
    refine ⟨_, rfl, ?_⟩
    rw [List.foldl_append]
    refine recordAll_template ?_ h
    unfold ifDefFacts
    rw [ht]
    cases d.body with
    | none => simp
    | some b => exact linesFacts_plain mod b
  · simp only [ht, Bool.false_eq_true, if_false] at h ⊢
    obtain ⟨a, ha, e⟩ := recordAll_ops h
    exact ⟨_, ⟨a, rfl, ha⟩, e⟩

theorem ifDefsRecord_ops {mod : Str} {ds : List IfDef} : ∀ {m m' : Maps},
    ifDefsRecord mod ds m = .ok m' →
    ∃ ops, DefsOps mod m ds ops ∧ m' = ops.foldl MapOp.apply m := by
  induction ds with
  | nil => intro m m' h; cases h; exact ⟨[], rfl, rfl⟩
  | cons d ds ih =>
    intro m m' h
    obtain ⟨m₁, h₁, h₂⟩ := Res.bind_eq_ok h
    obtain ⟨a, ha, rfl⟩ := ifDefRecord_ops h₁
    obtain ⟨b, hb, rfl⟩ := ih h₂
    exact ⟨a ++ b, ⟨a, b, rfl, ha, hb⟩, by rw [List.foldl_append]⟩

theorem foldl_flatMap_ops {α : Type} (g : α → List MapOp) (step : Maps → α → Maps)
    (hs : ∀ m a, step m a = (g a).foldl MapOp.apply m) (l : List α) :
    ∀ m, l.foldl step m = (l.flatMap g).foldl MapOp.apply m := by
  induction l with
  | nil => intro m; rfl
  | cons a l ih => intro m; rw [List.foldl_cons, ih, List.flatMap_cons, List.foldl_append, hs]

theorem sptDef_ops (d : SptDef) (m : Maps) : d.exec m = (sptOps d).foldl MapOp.apply m := by
  unfold SptDef.exec sptOps
  have he : endsWith d.name cs!"_perms" = true ↔ cs!"_perms" <:+ d.name := endsWith_iff
  cases hw : d.warn with
  | some w => simp
  | none =>
    by_cases h : cs!"_perms" <:+ d.name
    · simp [he.2 h, h, MapOp.apply]
    · simp [Bool.eq_false_iff.2 (fun e => h (he.1 e)), h]

theorem avPerms_ops (p : AvPerms) (m : Maps) : p.exec m = (avPermsOps p).foldl MapOp.apply m := by
  unfold AvPerms.exec avPermsOps
  generalize p.all = l
  induction l generalizing m with
  | nil => rfl
  | cons o l ih =>
    cases o with
    | none => exact ih m
    | some s => exact ih _

theorem avDef_ops (d : AvDef) (m : Maps) : d.exec m = (avOps d).foldl MapOp.apply m := by
  cases d with
  | cls n p => simp [AvDef.exec, avOps, List.foldl_append, avPerms_ops, MapOp.apply, avModule, avFileName]
  | inherits n c => rfl
  | inheritsPerms n c p =>
    simp [AvDef.exec, avOps, List.foldl_append, avPerms_ops, MapOp.apply, avModule, avFileName]
  | common n p => exact avPerms_ops p m

theorem file_ops {f : SourceFile} {expected : PlainFlavor} {mod : Str} {m : Maps} {st : PState}
    (hc : CommandsOk f.tokens) (h : f.exec expected mod m = .ok (some st)) :
    ∃ ops, FileOps m mod f ops ∧ st.maps = ops.foldl MapOp.apply m := by
  cases f with
  | te cs hd b => exact recordAll_ops (te_records hc h)
  | iface cs d ls => exact ifDefsRecord_ops (iface_records hc h)
  | empty => cases h; exact ⟨[], rfl, rfl⟩
  | comments c cs => cases h; exact ⟨[], rfl, execComments_maps (c :: cs) _⟩
  | spt cs d ls =>
    unfold SourceFile.exec at h
    dsimp only at h
    split at h
    · cases h
    · cases h
      refine ⟨_, rfl, ?_⟩
      dsimp only
      rw [execComments_maps, ← foldl_flatMap_ops _ execSptLine]
      · rfl
      · intro m o
        cases o with
        | none => rfl
        | some d => exact sptDef_ops d m
  | av cs d ls =>
    unfold SourceFile.exec at h
    dsimp only at h
    split at h
    · cases h
    · cases h
      refine ⟨_, rfl, ?_⟩
      dsimp only
      rw [execComments_maps, ← foldl_flatMap_ops _ execAvLine]
      · rfl
      · intro m o
        cases o with
        | none => rfl
        | some d => exact avDef_ops d m

end Selint
