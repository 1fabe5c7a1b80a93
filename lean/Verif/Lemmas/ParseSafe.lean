import Verif.Lemmas.ParseTables
import Verif.Props.M4
import Verif.Spec.Tame
/-! # Expansions of tame templates are defined -/

namespace Selint

open Spec

theorem Spec.Fits.replace {args : List Str} {s : Str} (h : Fits args.length s) :
    ∃ r, replaceM4 s args = .ok (some r) := by
  obtain ⟨vs, h1, h2, h3⟩ := h
  obtain ⟨r, -, h⟩ := C21_safe_partial args h1 h2 h3
  exact ⟨r, h⟩

theorem Spec.Fits.mono {n k : Nat} {s : Str} (h : Fits n s) (hk : n ≤ k) : Fits k s := by
  obtain ⟨vs, h1, h2, h3⟩ := h
  exact ⟨vs, h1, h2, fun v hv => Nat.le_trans (h3 v hv) hk⟩

theorem allStrings_some (args : List Str) : allStrings (args.map some) = .ok args := by
  induction args with
  | nil => rfl
  | cons a as ih => simp [allStrings, ih]

theorem replaceM4List_fits {args : List Str} (frm : List Str) (h : ∀ a ∈ frm, Fits args.length a) :
    ∃ rs : List Str, rs.length = frm.length ∧ replaceM4List.go args frm = .ok (rs.map some) := by
  induction frm with
  | nil => exact ⟨[], rfl, rfl⟩
  | cons a frm ih =>
    obtain ⟨r, hr⟩ := (h a (by simp)).replace
    obtain ⟨rs, h1, h2⟩ := ih fun x hx => h x (by simp [hx])
    exact ⟨r :: rs, by simp [h1], by simp [replaceM4List.go, hr, h2]⟩

theorem replaceM4List_safe {args frm : List Str} (hne : frm ≠ []) (h : ∀ a ∈ frm, Fits args.length a) :
    ∃ rs : List Str, rs.length = frm.length ∧ replaceM4List (args.map some) frm = .ok (rs.map some) := by
  obtain ⟨rs, h1, h2⟩ := replaceM4List_fits frm h
  refine ⟨rs, h1, ?_⟩
  unfold replaceM4List
  split
  · exact absurd rfl hne
  · rw [allStrings_some]; exact h2

theorem expandDecls_safe {mod : Str} {args : List Str} (ds : List (DeclFlavor × Str)) :
    ∀ m, (∀ d ∈ ds, Fits args.length d.2) → ∃ m', expandDecls mod (args.map some) ds m = .done .success m' := by
  induction ds with
  | nil => intro m _; exact ⟨m, rfl⟩
  | cons d ds ih =>
    intro m h
    obtain ⟨r, hr⟩ := (h d (by simp)).replace
    obtain ⟨m', hm⟩ := ih (m.insertDecl r mod d.1) fun x hx => h x (by simp [hx])
    exact ⟨m', by simp [expandDecls, allStrings_some, hr, hm]⟩

theorem Spec.TameTables.congr {arity : Str → Nat} {m m' : Maps} (h : TameTables arity m)
    (hT : m'.template = m.template) : TameTables arity m' :=
  ⟨by intro t; rw [templateDecls_congr hT]; exact h.decls t,
    by intro t; rw [templateCalls_congr hT]; exact h.calls t⟩

mutual
theorem add_safe (arity : Str → Nat) (fuel : Nat) {name : Str} {args : List Str} {parents : List Str} {mod : Str}
    {m : Maps} (ht : TameTables arity m) (ha : arity name ≤ args.length) :
    addTemplateDeclarations fuel name (args.map some) parents mod m ≠ .ub ∧
    ∀ e m', addTemplateDeclarations fuel name (args.map some) parents mod m = .done e m' →
      e = .success ∨ e = .ifCallLoop := by
  cases fuel with
  | zero => simp [addTemplateDeclarations]
  | succ fuel =>
    simp only [add_succ]
    split
    · refine ⟨by simp, fun e m' h => ?_⟩
      cases h
      exact .inr rfl
    · have hc := calls_safe arity fuel (args := args) (chain := name :: parents) (mod := mod)
        (m.templateCalls name) (m := m) ht
        (fun c hc => ⟨(ht.calls name c hc).1, fun a h => ((ht.calls name c hc).2.1 a h).mono ha,
          (ht.calls name c hc).2.2⟩)
      split
      · rename_i m1 h1
        obtain ⟨out, hm, -⟩ := calls_insertAll m fuel _ rfl h1
        obtain ⟨m', h2⟩ := expandDecls_safe (mod := mod) (args := args) (m.templateDecls name) m1
          (fun d hd => (ht.decls name d hd).mono ha)
        rw [h2]
        refine ⟨by simp, fun e m'' h => ?_⟩
        cases h
        exact .inl rfl
      · exact hc
termination_by (fuel, 0)
theorem calls_safe (arity : Str → Nat) (fuel : Nat) {args : List Str} {chain : List Str} {mod : Str}
    (cs : List IfCallData) {m : Maps} (ht : TameTables arity m)
    (hcs : ∀ c ∈ cs, c.args ≠ [] ∧ (∀ a ∈ c.args, Fits args.length a.1) ∧ arity c.name ≤ c.args.length) :
    expandCallsAt fuel (args.map some) chain mod cs m ≠ .ub ∧
    ∀ e m', expandCallsAt fuel (args.map some) chain mod cs m = .done e m' → e = .success ∨ e = .ifCallLoop := by
  cases cs with
  | nil =>
    rw [expandCallsAt_nil]
    refine ⟨by simp, fun e m'' h => ?_⟩
    cases h
    exact .inl rfl
  | cons c cs =>
    obtain ⟨h1, h2, h3⟩ := hcs c (by simp)
    obtain ⟨rs, h4, h5⟩ := replaceM4List_safe (args := args) (frm := c.argStrs) (by simpa [IfCallData.argStrs] using h1)
      (by intro a ha; simp only [IfCallData.argStrs, List.mem_map] at ha; obtain ⟨x, hx, rfl⟩ := ha; exact h2 x hx)
    simp only [expandCallsAt_cons, h5]
    have hr := add_safe arity fuel (name := c.name) (args := rs) (parents := chain) (mod := mod) (m := m) ht
      (by rw [h4]; simpa [IfCallData.argStrs] using h3)
    split
    · rename_i m1 h6
      exact calls_safe arity fuel cs (ht.congr (add_template fuel h6)) fun x hx => hcs x (by simp [hx])
    · exact hr
termination_by (fuel, cs.length + 1)
end

/-- A call with enough arguments can be expanded. -/
theorem expandTemplate_safe {arity : Str → Nat} {name : Str} {args : List Str} {mod : Str} {m : Maps}
    (ht : TameTables arity m) (ha : arity name ≤ args.length) :
    ∃ e m', expandTemplate name args mod m = .done e m' ∧ (e = .success ∨ e = .ifCallLoop) ∧
      m'.template = m.template := by
  obtain ⟨h1, h2⟩ := add_safe arity (m.template.length + 2) (parents := []) (mod := mod) ht ha
  have h3 := (C18_terminates name (args.map some) mod m (m.template.length + 2) (by omega)).1
  unfold expandTemplate
  cases h : addTemplateDeclarations (m.template.length + 2) name (args.map some) [] mod m with
  | ub => exact absurd h h1
  | fuel => exact absurd h h3
  | done e m' =>
    exact ⟨e, _, rfl, h2 e _ h, add_template _ h⟩

/-! ## Recording tame facts -/

theorem templateDecls_upd (m : Maps) (n k : Str) (f : TemplateElem → TemplateElem) :
    (m.updTemplate n f).templateDecls k = if n = k then (f ⟨m.templateDecls k, m.templateCalls k⟩).declarations
      else m.templateDecls k := by
  have := lookUp_updTemplate m n k f
  unfold Maps.templateDecls Maps.templateCalls
  rw [this]
  by_cases h : n = k
  · simp only [h, if_true]
    cases m.lookUpTemplate k <;> rfl
  · simp only [h, if_false]

theorem templateCalls_upd (m : Maps) (n k : Str) (f : TemplateElem → TemplateElem) :
    (m.updTemplate n f).templateCalls k = if n = k then (f ⟨m.templateDecls k, m.templateCalls k⟩).calls
      else m.templateCalls k := by
  have := lookUp_updTemplate m n k f
  unfold Maps.templateDecls Maps.templateCalls
  rw [this]
  by_cases h : n = k
  · simp only [h, if_true]
    cases m.lookUpTemplate k <;> rfl
  · simp only [h, if_false]

namespace Spec.TameTables

variable {arity : Str → Nat} {m : Maps}

theorem insertDecl (h : TameTables arity m) (n mod : Str) (fl : DeclFlavor) : TameTables arity (m.insertDecl n mod fl) :=
  h.congr (Maps.insertDecl_other ..).2.2.2.2.2.2.2

theorem insertTemplate (h : TameTables arity m) (t : Str) : TameTables arity (m.insertTemplate t) := by
  constructor
  · intro k
    simp only [Maps.insertTemplate, templateDecls_upd, id_eq, ite_self]
    exact h.decls k
  · intro k
    simp only [Maps.insertTemplate, templateCalls_upd, id_eq, ite_self]
    exact h.calls k

theorem insertTemplateDecl (h : TameTables arity m) {t : Str} {fl : DeclFlavor} {n : Str} (hn : Fits (arity t) n) :
    TameTables arity (m.insertTemplateDecl t fl n) := by
  constructor
  · intro k
    simp only [Maps.insertTemplateDecl, templateDecls_upd]
    split
    · rename_i e
      subst e
      simp only [List.mem_append, List.mem_singleton]
      rintro d (hd | rfl)
      · exact h.decls _ d hd
      · exact hn
    · exact h.decls k
  · intro k
    simp only [Maps.insertTemplateDecl, templateCalls_upd, ite_self]
    exact h.calls k

theorem insertTemplateCall (h : TameTables arity m) {t : Str} {c : IfCallData}
    (hc : c.args ≠ [] ∧ (∀ a ∈ c.args, Fits (arity t) a.1) ∧ arity c.name ≤ c.args.length) :
    TameTables arity (m.insertTemplateCall t c) := by
  constructor
  · intro k
    simp only [Maps.insertTemplateCall, templateDecls_upd, ite_self]
    exact h.decls k
  · intro k
    simp only [Maps.insertTemplateCall, templateCalls_upd]
    split
    · rename_i e
      subst e
      simp only [List.mem_append, List.mem_singleton]
      rintro d (hd | rfl)
      · exact h.calls _ d hd
      · exact hc
    · exact h.calls k

theorem insertIf (h : TameTables arity m) (n mod : Str) : TameTables arity (m.insertIf n mod) := h.congr rfl

theorem markTransform (h : TameTables arity m) (n : Str) : TameTables arity (m.markTransform n) :=
  h.congr (by unfold Maps.markTransform; split <;> rfl)

theorem markFiletrans (h : TameTables arity m) (n : Str) : TameTables arity (m.markFiletrans n) :=
  h.congr (by unfold Maps.markFiletrans; split <;> rfl)

theorem markRole (h : TameTables arity m) (n : Str) : TameTables arity (m.markRole n) :=
  h.congr (by unfold Maps.markRole; split <;> rfl)

end Spec.TameTables

theorem record_safe {arity : Str → Nat} {t : Option Str} {mod : Str} {f : Fact} {m : Maps}
    (h : TameTables arity m) (hf : TameFact arity t f) :
    ∃ m', f.record t mod m = .ok m' ∧ TameTables arity m' := by
  cases f with
  | declares fl n =>
    cases t with
    | some t => exact ⟨_, rfl, h.insertTemplateDecl (hf t rfl)⟩
    | none =>
      refine ⟨_, rfl, ?_⟩
      split
      · exact h
      · exact h.insertDecl ..
  | aliases n =>
    cases t with
    | some t => exact ⟨_, rfl, h.insertTemplateDecl (hf t rfl)⟩
    | none => exact ⟨_, rfl, h.insertDecl ..⟩
  | calls c i =>
    have key : ∃ e m', callResult t mod c m = .done e m' ∧ TameTables arity m' := by
      cases t with
      | some t => exact ⟨_, _, rfl, h.insertTemplateCall ⟨(hf.2 t rfl).1, (hf.2 t rfl).2, hf.1⟩⟩
      | none =>
        obtain ⟨e, m', h1, -, h2⟩ := expandTemplate_safe (args := c.argStrs) (mod := mod) h
          (by simpa [IfCallData.argStrs] using hf.1)
        exact ⟨e, m', h1, h.congr h2⟩
    obtain ⟨e, m', h1, h2⟩ := key
    refine ⟨callMark i c e m', by simp [Fact.record, h1], ?_⟩
    unfold callMark
    cases i with
    | none => exact h2
    | some i =>
      dsimp only
      split
      · exact h2.markFiletrans i
      · exact h2
  | transforms i => exact ⟨_, rfl, h.markTransform i⟩
  | filetrans i => exact ⟨_, rfl, h.markFiletrans i⟩
  | roles i => exact ⟨_, rfl, h.markRole i⟩

theorem recordAll_safe {arity : Str → Nat} {t : Option Str} {mod : Str} (fs : List Fact) :
    ∀ {m : Maps}, TameTables arity m → (∀ f ∈ fs, TameFact arity t f) →
    ∃ m', recordAll t mod fs m = .ok m' ∧ TameTables arity m' := by
  induction fs with
  | nil => intro m h _; exact ⟨m, rfl, h⟩
  | cons f fs ih =>
    intro m h hf
    obtain ⟨m1, h1, h2⟩ := record_safe (mod := mod) h (hf f (by simp))
    obtain ⟨m2, h3, h4⟩ := ih h2 fun x hx => hf x (by simp [hx])
    exact ⟨m2, by simp [recordAll, h1, h3], h4⟩

theorem recordAll_split {t : Option Str} {mod : Str} {as bs : List Fact} {m m₂ : Maps}
    (h : recordAll t mod (as ++ bs) m = .ok m₂) :
    ∃ m₁, recordAll t mod as m = .ok m₁ ∧ recordAll t mod bs m₁ = .ok m₂ := by
  induction as generalizing m with
  | nil => exact ⟨m, rfl, h⟩
  | cons a as ih =>
    obtain ⟨x, e, h⟩ := Res.bind_eq_ok h
    obtain ⟨m₁, h1, h2⟩ := ih h
    exact ⟨m₁, by simp [recordAll, e, h1], h2⟩

/-! ## Actions whose facts can be recorded are defined -/

theorem insertInterfaceCall_defined {st : PState} {t : Option Str} {mod : Str} {i : Option Str}
    (hx : Ctx st t mod i) {c : IfCallData} {line : Nat} {m' : Maps}
    (h : recordAll t mod [.calls c i] st.maps = .ok m') : ∃ st', st.insertInterfaceCall c line = .ok st' := by
  have hexp : st.expandCall c = callResult t mod c st.maps := by
    unfold PState.expandCall callResult
    rw [hx.template, hx.module]
    cases t <;> rfl
  unfold PState.insertInterfaceCall
  rw [hexp]
  simp only [recordAll, Fact.record] at h
  cases hr : callResult t mod c st.maps with
  | ub => rw [hr] at h; cases h
  | fuel => rw [hr] at h; cases h
  | done e m =>
    dsimp only
    split
    · exact ⟨_, rfl⟩
    · exact ⟨_, rfl⟩

theorem Simple.exec_defined {s : Simple} {line : Nat} {st : PState} {t : Option Str} {mod : Str}
    {i : Option Str} {m' : Maps} (hx : Ctx st t mod i)
    (h : recordAll t mod (simpleFacts mod i s) st.maps = .ok m') : ∃ st', s.exec line st = .ok st' := by
  cases s
  case call n a =>
    cases a with
    | none => exact insertInterfaceCall_defined hx h
    | some a => exact insertInterfaceCall_defined hx h
  all_goals exact ⟨_, rfl⟩

/-- The tables after entering a block are the same. -/
theorem begin_maps {st : PState} {data : NodeData} {line : Nat} {cmd : Option Str}
    (hc : ∀ c ∈ cmd, cs!"#selint-disable:" <+: c) :
    ((st.beginBlock data line).parentCommand cmd).maps = st.maps := (Builds.begin_loc st data line cmd hc).2.2.2

mutual
theorem Lines.exec_defined : ∀ (d : Lines) (st : PState) (m' : Maps) (t : Option Str) (mod : Str) (i : Option Str),
    Ctx st t mod i → st.loc.rights = [] → CommandsOk d.tokens →
    recordAll t mod (linesFacts mod i d) st.maps = .ok m' → ∃ st', d.exec st = .ok st'
  | .one l, st, m', t, mod, i, hx, hr, hc, h => l.exec_defined st m' t mod i hx hr hc h
  | .more ls l, st, m', t, mod, i, hx, hr, hc, h => by
    rw [Lines.tokens, CommandsOk.append] at hc
    obtain ⟨m₁, h₁, h₂⟩ := recordAll_split h
    obtain ⟨st₁, e₁⟩ := ls.exec_defined st m₁ t mod i hx hr hc.1 h₁
    have f₁ := ls.exec_follows st st₁ hr hc.1 e₁
    have r₁ := ls.exec_records st st₁ t mod i hx hr hc.1 e₁
    have : m₁ = st₁.maps := by unfold Records at r₁; rw [h₁] at r₁; cases r₁; rfl
    subst this
    obtain ⟨st₂, e₂⟩ := l.exec_defined st₁ m' t mod i (hx.after f₁) f₁.rights hc.2 h₂
    exact ⟨st₂, by simp [Lines.exec, e₁, e₂]⟩
theorem Line.exec_defined : ∀ (d : Line) (st : PState) (m' : Maps) (t : Option Str) (mod : Str) (i : Option Str),
    Ctx st t mod i → st.loc.rights = [] → CommandsOk d.tokens →
    recordAll t mod (lineFacts mod i d) st.maps = .ok m' → ∃ st', d.exec st = .ok st'
  | .bare s, st, m', t, mod, i, hx, hr, hc, h => s.exec_defined st m' t mod i hx hr hc h
  | .withCommand s c, st, m', t, mod, i, hx, hr, hc, h => by
    rw [Line.tokens, CommandsOk.append] at hc
    obtain ⟨st₁, e₁⟩ := s.exec_defined st m' t mod i hx hr hc.1 h
    exact ⟨_, by simp only [Line.exec, e₁, Res.bind_ok]; rfl⟩
theorem Stmt.exec_defined : ∀ (d : Stmt) (st : PState) (m' : Maps) (t : Option Str) (mod : Str) (i : Option Str),
    Ctx st t mod i → st.loc.rights = [] → CommandsOk d.tokens →
    recordAll t mod (stmtFacts mod i d) st.maps = .ok m' → ∃ st', d.exec st = .ok st'
  | .silent _, st, _, _, _, _, _, _, _, _ => ⟨_, rfl⟩
  | .simple line s, st, m', t, mod, i, hx, hr, _, h => Simple.exec_defined hx h
  | .optional line cmd body, st, m', t, mod, i, hx, hr, hc, h => by
    simp only [Stmt.tokens, CommandsOk.append] at hc
    have hcmd := commandTokens_ok hc.1.1.2
    obtain ⟨st₁, e₁⟩ := body.exec_defined _ m' t mod none (hx.enter (fl := .optionalPolicy) line cmd hcmd rfl)
      (begin_rights _ _ _ _) hc.1.2 (by rw [begin_maps hcmd]; exact h)
    exact ⟨_, by simp only [Stmt.exec, e₁, Res.bind_ok]; rfl⟩
  | .optionalEmpty line cmd, st, _, _, _, _, _, _, _, _ => ⟨_, rfl⟩
  | .optionalElse line cmd body elseLine els, st, m', t, mod, i, hx, hr, hc, h => by
    simp only [Stmt.tokens, CommandsOk.append] at hc
    have hcmd := commandTokens_ok hc.1.1.1.1.2
    obtain ⟨m₁, h₁, h₂⟩ := recordAll_split h
    obtain ⟨st₁, e₁⟩ := body.exec_defined _ m₁ t mod none (hx.enter (fl := .optionalPolicy) line cmd hcmd rfl)
      (begin_rights _ _ _ _) hc.1.1.1.2 (by rw [begin_maps hcmd]; exact h₁)
    have r₁ := body.exec_records _ _ t mod none (hx.enter line cmd hcmd rfl)
        (begin_rights _ _ _ _) hc.1.1.1.2 e₁
    have : m₁ = st₁.maps := by unfold Records at r₁; rw [begin_maps hcmd, h₁] at r₁; cases r₁; rfl
    subst this
    have hb : Builds _ st (st₁.endBlock .optionalPolicy) := Builds.block hcmd
      (body.exec_follows _ _ (begin_rights _ _ _ _) hc.1.1.1.2 e₁) rfl
    obtain ⟨st₂, e₂⟩ := els.exec_defined
      ((st₁.endBlock .optionalPolicy).beginBlock (.plain .optionalElse none) elseLine) m' t mod none
      ((hx.after hb).enter elseLine none (by simp) rfl) rfl hc.1.2 h₂
    exact ⟨_, by simp only [Stmt.exec, e₁, e₂, Res.bind_ok]; rfl⟩
  | .genRequire .., st, _, _, _, _, _, _, _, _ => ⟨_, rfl⟩
  | .genRequireUnquoted .., st, _, _, _, _, _, _, _, _ => ⟨_, rfl⟩
  | .require .., st, _, _, _, _, _, _, _, _ => ⟨_, rfl⟩
  | .ifdef line neg cond args, st, m', t, mod, i, hx, hr, hc, h => by
    have hc' : CommandsOk args.tokens := by
      simp [Stmt.tokens, CommandsOk.append, CommandsOk.cons] at hc; simp [hc]
    obtain ⟨st₁, e₁⟩ := args.exec_defined (st.beginBlock (.plain .ifdef none) line) m' t mod none
      (hx.enter line none (by simp) rfl) rfl hc' h
    exact ⟨_, by simp only [Stmt.exec, e₁, Res.bind_ok]; rfl⟩
  | .ifelse line args, st, m', t, mod, i, hx, hr, hc, h => by
    have hc' : CommandsOk args.tokens := by
      simp [Stmt.tokens, CommandsOk.append, CommandsOk.cons] at hc; simp [hc]
    obtain ⟨st₁, e₁⟩ := args.exec_defined (st.beginBlock (.plain .ifelse none) line) m' t mod none
      (hx.enter line none (by simp) rfl) rfl hc' h
    exact ⟨_, by simp only [Stmt.exec, e₁, Res.bind_ok]; rfl⟩
  | .userdebugOrEng body, st, m', t, mod, i, hx, hr, hc, h => by
    have hc' : CommandsOk body.tokens := by
      simp [Stmt.tokens, CommandsOk.append, CommandsOk.cons] at hc; simp [hc]
    exact body.exec_defined st m' t mod i hx hr hc' h
  | .tunable line quoted cond args, st, m', t, mod, i, hx, hr, hc, h => by
    have hc' : CommandsOk args.tokens := by
      simp [Stmt.tokens, CommandsOk.append, CommandsOk.cons] at hc; simp [hc]
    obtain ⟨st₁, e₁⟩ := args.exec_defined (st.beginBlock (.plain .tunablePolicy none) line) m' t mod none
      (hx.enter line none (by simp) rfl) rfl hc' h
    exact ⟨_, by simp only [Stmt.exec, e₁, Res.bind_ok]; rfl⟩
  | .boolean line cmd cond body, st, m', t, mod, i, hx, hr, hc, h => by
    simp only [Stmt.tokens, CommandsOk.append, CommandsOk.cons] at hc
    have hcmd := commandTokens_ok hc.1.1.1.1.2
    obtain ⟨st₁, e₁⟩ := body.exec_defined _ m' t mod none (hx.enter (fl := .booleanPolicy) line cmd hcmd rfl)
      (begin_rights _ _ _ _) hc.1.2 (by rw [begin_maps hcmd]; exact h)
    exact ⟨_, by simp only [Stmt.exec, e₁, Res.bind_ok]; rfl⟩
  | .booleanElse line cmd cond body els, st, m', t, mod, i, hx, hr, hc, h => by
    simp only [Stmt.tokens, CommandsOk.append, CommandsOk.cons] at hc
    have hcmd := commandTokens_ok hc.1.1.1.1.1.1.2
    have hx' := hx.enter line cmd hcmd (fl := .booleanPolicy) rfl
    obtain ⟨m₁, h₁, h₂⟩ := recordAll_split h
    obtain ⟨st₁, e₁⟩ := body.exec_defined _ m₁ t mod none hx'
      (begin_rights _ _ _ _) hc.1.1.1.2 (by rw [begin_maps hcmd]; exact h₁)
    have r₁ := body.exec_records _ _ t mod none hx' (begin_rights _ _ _ _) hc.1.1.1.2 e₁
    have : m₁ = st₁.maps := by unfold Records at r₁; rw [begin_maps hcmd, h₁] at r₁; cases r₁; rfl
    subst this
    have hb := body.exec_follows _ _ (begin_rights _ _ _ _) hc.1.1.1.2 e₁
    obtain ⟨st₂, e₂⟩ := els.exec_defined st₁ m' t mod none (hx'.after hb) hb.rights hc.1.2 h₂
    exact ⟨_, by simp only [Stmt.exec, e₁, e₂, Res.bind_ok]; rfl⟩
  | .define .., st, _, _, _, _, _, _, _, _ => ⟨_, rfl⟩
theorem M4Args.exec_defined : ∀ (d : M4Args) (st : PState) (m' : Maps) (t : Option Str) (mod : Str) (i : Option Str),
    Ctx st t mod i → st.loc.rights = [] → CommandsOk d.tokens →
    recordAll t mod (argsFacts mod d) st.maps = .ok m' → ∃ st', d.exec st = .ok st'
  | .one line a, st, m', t, mod, i, hx, hr, hc, h => by
    obtain ⟨st₁, e₁⟩ := a.exec_defined (st.beginBlock (.plain .m4Arg none) line) m' t mod
      (hx.enter line none (by simp) rfl) rfl hc h
    exact ⟨_, by simp only [M4Args.exec, e₁, Res.bind_ok]; rfl⟩
  | .more as line a, st, m', t, mod, i, hx, hr, hc, h => by
    simp only [M4Args.tokens, CommandsOk.append, CommandsOk.cons] at hc
    obtain ⟨m₁, h₁, h₂⟩ := recordAll_split h
    obtain ⟨st₁, e₁⟩ := as.exec_defined st m₁ t mod i hx hr hc.1 h₁
    have r₁ := as.exec_records _ _ t mod i hx hr hc.1 e₁
    have : m₁ = st₁.maps := by unfold Records at r₁; rw [h₁] at r₁; cases r₁; rfl
    subst this
    have hb := as.exec_follows _ _ hr hc.1 e₁
    obtain ⟨st₂, e₂⟩ := a.exec_defined (st₁.beginBlock (.plain .m4Arg none) line) m' t mod
      ((hx.after hb).enter line none (by simp) rfl) rfl hc.2.2 h₂
    exact ⟨_, by simp only [M4Args.exec, e₁, e₂, Res.bind_ok]; rfl⟩
theorem M4Argument.exec_defined : ∀ (d : M4Argument) (st : PState) (m' : Maps) (t : Option Str) (mod : Str),
    Ctx st t mod none → st.loc.rights = [] → CommandsOk d.tokens →
    recordAll t mod (argFacts mod d) st.maps = .ok m' → ∃ st', d.exec st = .ok st'
  | .empty, st, _, _, _, _, _, _, _ => ⟨_, rfl⟩
  | .emptyQuoted, st, _, _, _, _, _, _, _ => ⟨_, rfl⟩
  | .quoted body, st, m', t, mod, hx, hr, hc, h => by
    have hc' : CommandsOk body.tokens := by
      simp [M4Argument.tokens, CommandsOk.append, CommandsOk.cons] at hc; simp [hc]
    exact body.exec_defined st m' t mod none hx hr hc' h
  | .word _, st, _, _, _, _, _, _, _ => ⟨_, rfl⟩
end

/-! ## Files -/

theorem IfDef.exec_defined {arity : Str → Nat} {d : IfDef} {st : PState} {mod : Str} (ht : AtTop st mod)
    (hc : CommandsOk d.tokens) (hm : TameTables arity st.maps)
    (hf : ∀ f ∈ ifDefFacts mod d, TameFact arity (if d.isTemplate then some d.name else none) f) :
    ∃ st', d.exec st = .ok st' ∧ TameTables arity st'.maps := by
  have hm₀ : TameTables arity ((if d.isTemplate then st.maps.insertTemplate d.name else st.maps).insertIf d.name mod) := by
    apply TameTables.insertIf
    split
    · exact hm.insertTemplate _
    · exact hm
  obtain ⟨m', h1, h2⟩ := recordAll_safe (mod := mod) _ hm₀ hf
  have key : ∃ st', d.exec st = .ok st' := by
    obtain ⟨line, isT, name, cmd, body⟩ := d
    have hc0 := hc
    simp only [IfDef.tokens, CommandsOk.append] at hc
    unfold IfDef.exec
    cases body with
    | none => exact ⟨_, rfl⟩
    | some b =>
      have hu : (st.beginInterfaceDef isT name line).loc.ups = [⟨st.loc.focus :: st.loc.lefts,
          ⟨.plain (if isT then .tempDef else .interfaceDef) (some name), none, line⟩, []⟩] := by
        show _ :: st.loc.ups = _
        rw [ht.ups]
      have hx : Ctx (st.beginInterfaceDef isT name line) (if isT then some name else none) mod
          (if isT then none else some name) := by
        refine ⟨?_, ?_, ht.module, ?_⟩
        · unfold Loc.isInRequire; rw [hu]; cases isT <;> rfl
        · unfold Loc.getNameIfInTemplate; rw [hu]; cases isT <;> rfl
        · rw [hu]; cases isT <;> rfl
      have hb : (st.beginInterfaceDef isT name line).maps =
          (if isT then st.maps.insertTemplate name else st.maps).insertIf name mod := by
        unfold PState.beginInterfaceDef; rw [ht.module]; rfl
      obtain ⟨st₁, e₁⟩ := b.exec_defined _ m' _ _ _ hx rfl hc.1.2 (by rw [hb]; exact h1)
      exact ⟨_, by simp only [execBody, e₁, Res.bind_ok]; rfl⟩
  obtain ⟨st', e⟩ := key
  refine ⟨st', e, ?_⟩
  have := IfDef.exec_records ht hc e
  unfold ifDefRecord at this
  rw [h1] at this
  cases this
  exact h2

theorem execIfLines_defined {arity : Str → Nat} {mod : Str} (ls : List IfLine) : ∀ st : PState, AtTop st mod →
    CommandsOk (ls.flatMap IfLine.tokens) → TameTables arity st.maps →
    (∀ d, .defn d ∈ ls → ∀ f ∈ ifDefFacts mod d, TameFact arity (if d.isTemplate then some d.name else none) f) →
    ∃ st', execIfLines ls st = .ok st' ∧ TameTables arity st'.maps := by
  induction ls with
  | nil => intro st _ _ h _; exact ⟨st, rfl, h⟩
  | cons l ls ih =>
    intro st ht hc hm hf
    rw [List.flatMap_cons, CommandsOk.append] at hc
    cases l with
    | defn d =>
      obtain ⟨st₁, h1, h2⟩ := IfDef.exec_defined ht hc.1 hm (hf d (by simp))
      have f₁ := IfDef.exec_follows hc.1 h1
      obtain ⟨st₂, h3, h4⟩ := ih st₁ (ht.after f₁) hc.2 h2 fun d' hd' => hf d' (by simp [hd'])
      exact ⟨st₂, by simp only [execIfLines, IfLine.exec, h1, Res.bind_ok]; exact h3, h4⟩
    | comment n =>
      exact ih (st.insertComment n) (ht.after (Builds.statement st (.plain .comment none) n)) hc.2 hm
        fun d' hd' => hf d' (by simp [hd'])

theorem SptDef.exec_template (d : SptDef) (m : Maps) : (d.exec m).template = m.template := by
  unfold SptDef.exec
  split
  · split <;> rfl
  · rfl

theorem spt_template (ls : List (Option SptDef)) : ∀ m : Maps, (ls.foldl execSptLine m).template = m.template := by
  induction ls with
  | nil => intro m; rfl
  | cons o ls ih =>
    intro m
    rw [List.foldl_cons, ih]
    cases o with
    | none => rfl
    | some d => exact d.exec_template m

theorem AvPerms.exec_template (p : AvPerms) (m : Maps) : (p.exec m).template = m.template := by
  unfold AvPerms.exec
  generalize p.all = l
  induction l generalizing m with
  | nil => rfl
  | cons o l ih =>
    rw [List.foldl_cons, ih]
    cases o with
    | none => rfl
    | some s => exact (Maps.insertDecl_other ..).2.2.2.2.2.2.2

theorem AvDef.exec_template (d : AvDef) (m : Maps) : (d.exec m).template = m.template := by
  have hi : ∀ (m : Maps) n a fl, (m.insertDecl n a fl).template = m.template :=
    fun _ _ _ _ => (Maps.insertDecl_other ..).2.2.2.2.2.2.2
  cases d <;> simp only [AvDef.exec, hi, AvPerms.exec_template]

theorem av_template (ls : List (Option AvDef)) : ∀ m : Maps, (ls.foldl execAvLine m).template = m.template := by
  induction ls with
  | nil => intro m; rfl
  | cons o ls ih =>
    intro m
    rw [List.foldl_cons, ih]
    cases o with
    | none => rfl
    | some d => exact d.exec_template m

/-- Parsing a tame file with tame tables is defined and leaves tame tables. -/
theorem SourceFile.exec_defined {arity : Str → Nat} {f : SourceFile} {expected : PlainFlavor} {mod : Str} {m : Maps}
    (hc : CommandsOk f.tokens) (hm : TameTables arity m) (hf : TameFile arity f) :
    ∃ r, f.exec expected mod m = .ok r ∧ ∀ st, r = some st → TameTables arity st.maps := by
  cases f with
  | empty => exact ⟨_, rfl, by rintro st ⟨⟩; exact hm⟩
  | te cs h b =>
    simp only [SourceFile.exec]
    split
    · exact ⟨none, rfl, by simp⟩
    · simp only [SourceFile.tokens, CommandsOk.append] at hc
      have hb := (execComments_follows cs (PState.init expected mod m) rfl).trans
        (Builds.statement (execComments cs (PState.init expected mod m))
          (.header ⟨if h.isMacro then .macro else .bare, h.name⟩) h.line)
      have hx := ((init_atTop expected mod m).after hb).ctx
      obtain ⟨m', h1, h2⟩ := recordAll_safe (mod := mod) _ hm (hf mod)
      have hmaps : (PState.statement (execComments cs (PState.init expected mod m))
          (.header ⟨if h.isMacro then .macro else .bare, h.name⟩) h.line).maps = m :=
        execComments_maps cs (PState.init expected mod m)
      obtain ⟨st₁, e₁⟩ := b.exec_defined _ m' none mod none hx rfl hc.2 (by rw [hmaps]; exact h1)
      have r₁ := b.exec_records _ _ none mod none hx rfl hc.2 e₁
      refine ⟨some st₁, ?_, ?_⟩
      · unfold PState.insertHeader
        simp only [e₁, Res.bind_ok]
      · rintro st ⟨⟩
        unfold Records at r₁
        rw [hmaps, h1] at r₁
        cases r₁
        exact h2
  | iface cs d ls =>
    simp only [SourceFile.exec]
    split
    · exact ⟨none, rfl, by simp⟩
    · simp only [SourceFile.tokens, CommandsOk.append] at hc
      have ht := (init_atTop expected mod m).after (execComments_follows cs (PState.init expected mod m) rfl)
      obtain ⟨st₁, h1, h2⟩ := IfDef.exec_defined ht hc.1.2 (by rw [execComments_maps]; exact hm)
        (hf mod d (by simp [ifDefs]))
      have f₁ := IfDef.exec_follows hc.1.2 h1
      obtain ⟨st₂, h3, h4⟩ := execIfLines_defined ls st₁ (ht.after f₁) hc.2 h2 (by
        intro d' hd'
        refine hf mod d' ?_
        simp only [ifDefs, List.mem_cons, List.mem_filterMap]
        exact .inr ⟨_, hd', rfl⟩)
      exact ⟨some st₂, by simp only [h1, h3, Res.bind_ok], by rintro st ⟨⟩; exact h4⟩
  | spt cs d ls =>
    simp only [SourceFile.exec]
    split
    · exact ⟨none, rfl, by simp⟩
    · refine ⟨_, rfl, ?_⟩
      rintro st ⟨⟩
      exact hm.congr (by dsimp only; rw [spt_template, SptDef.exec_template, execComments_maps]; rfl)
  | av cs d ls =>
    simp only [SourceFile.exec]
    split
    · exact ⟨none, rfl, by simp⟩
    · refine ⟨_, rfl, ?_⟩
      rintro st ⟨⟩
      exact hm.congr (by dsimp only; rw [av_template, AvDef.exec_template, execComments_maps]; rfl)
  | comments c cs =>
    refine ⟨_, rfl, ?_⟩
    rintro st ⟨⟩
    exact hm.congr (by rw [execComments_maps]; rfl)

end Selint
