import Verif.Lemmas.SortKey
import Verif.Lemmas.Enclosing
import Verif.Props.TeChecks
/-! # C34, C41, C42 and others: checks on if files -/

namespace Selint
open Spec

/-! ## C34: order of declarations in require blocks -/

theorem flavorOrderLoop_spec (a b : DeclFlavor) (hab : a ≠ b) (order : List DeclFlavor) :
    (flavorOrderLoop a b order < 0 ↔ FlavorBefore order a b) ∧
    (0 < flavorOrderLoop a b order ↔ FlavorBefore order b a) := by
  induction order with
  | nil => simp [flavorOrderLoop, FlavorBefore]
  | cons f fs ih =>
    have hstep : ∀ x y : DeclFlavor, x ≠ y → f ≠ x → f ≠ y →
        (FlavorBefore (f :: fs) x y ↔ FlavorBefore fs x y) := by
      intro x y hxy hx hy
      constructor
      · rintro ⟨h, bef, aft, h1, h2⟩
        cases bef with
        | nil => simp at h1; exact absurd h1.1 hx
        | cons z bef =>
          simp at h1
          exact ⟨h, bef, aft, h1.2, fun e => h2 (by simp [e])⟩
      · rintro ⟨h, bef, aft, rfl, h2⟩
        exact ⟨h, f :: bef, aft, rfl, by simp [h2, Ne.symm hy]⟩
    rw [flavorOrderLoop]
    by_cases h1 : a = f
    · subst h1
      rw [if_pos rfl]
      refine ⟨⟨fun _ => ⟨hab, [], fs, rfl, by simp⟩, fun _ => by decide⟩, ⟨fun h => by omega, ?_⟩⟩
      rintro ⟨h, bef, aft, h1, h2⟩
      cases bef with
      | nil => simp at h1; exact absurd h1.1 hab
      | cons z bef => simp at h1; exact absurd (by simp [h1.1]) h2
    · rw [if_neg h1]
      by_cases h2 : b = f
      · subst h2
        rw [if_pos rfl]
        refine ⟨⟨fun h => by omega, ?_⟩, ⟨fun _ => ⟨Ne.symm hab, [], fs, rfl, by simp⟩, fun _ => by decide⟩⟩
        rintro ⟨h, bef, aft, h1, h2⟩
        cases bef with
        | nil => simp at h1; exact absurd h1.1.symm hab
        | cons z bef => simp at h1; exact absurd (by simp [h1.1]) h2
      · rw [if_neg h2, hstep a b hab (Ne.symm h1) (Ne.symm h2),
          hstep b a (Ne.symm hab) (Ne.symm h2) (Ne.symm h1)]
        exact ih

theorem compareDeclarationFlavors_spec (a b : DeclFlavor) (config : ConfigCheckData) :
    (compareDeclarationFlavors a b config < 0 ↔ FlavorBefore config.orderRequires a b) ∧
    (0 < compareDeclarationFlavors a b config ↔ FlavorBefore config.orderRequires b a) := by
  unfold compareDeclarationFlavors
  by_cases h : a = b
  · rw [if_pos h]; simp [FlavorBefore, h]
  · rw [if_neg h]; exact flavorOrderLoop_spec a b h _

theorem flavorBefore_asymm {order : List DeclFlavor} {a b : DeclFlavor}
    (h : FlavorBefore order a b) : ¬ FlavorBefore order b a := by
  have hab := h.1
  have := flavorOrderLoop_spec a b hab order
  intro h2
  have h3 := this.1.2 h
  have h4 := this.2.2 h2
  omega

theorem compareDecls_spec (a b : DeclData) (config : ConfigCheckData)
    (ha : '\x00' ∉ a.name) (hb : '\x00' ∉ b.name) :
    (compareDecls a b config < 0 ↔ MayPrecede config a b) ∧
    (compareDecls a b config = 0 ↔ TakenAsRepeated config a b) := by
  unfold compareDecls MayPrecede TakenAsRepeated
  obtain ⟨h1, h2⟩ := compareDeclarationFlavors_spec a.flavor b.flavor config
  have hn := compareNames_spec a.name b.name [] ha hb
  simp only [List.getLast?_nil, List.nil_append] at hn
  rw [← h1, ← h2]
  simp only
  by_cases h3 : compareDeclarationFlavors a.flavor b.flavor config = 0
  · rw [if_neg (by simp [h3])]
    cases hs : config.orderingRequiresSameFlavor with
    | false => simp [h3]
    | true => simp [h3, hn.1, hn.2]
  · rw [if_pos h3]
    constructor
    · constructor
      · exact Or.inl
      · rintro (h | ⟨h, -⟩)
        · exact h
        · omega
    · constructor
      · exact fun h => absurd h h3
      · rintro ⟨h4, h5, -⟩; omega

theorem requireOrderLoop_spec (config : ConfigCheckData) (ts : List Tree) (p : DeclData)
    (ds : List DeclData) (h : ts.map (·.info.data) = ds.map .decl)
    (hnul : ∀ d ∈ p :: ds, '\x00' ∉ d.name) :
    Reports (requireOrderLoop config (some p) ts) fun r =>
      ∃ pd msg, FirstIn (fun pd => ¬ MayPrecede config pd.1 pd.2) (neighbours (p :: ds)) pd ∧
        RequireMessage config pd.1 pd.2 msg ∧ r = ⟨'C', 6, msg⟩ := by
  induction ts generalizing p ds with
  | nil =>
    cases ds with
    | nil => exact reports_none fun r ⟨pd, msg, h, _⟩ => not_firstIn_nil h
    | cons d ds => simp at h
  | cons t ts ih =>
    cases ds with
    | nil => simp at h
    | cons d ds =>
      simp only [List.map_cons, List.cons.injEq] at h
      unfold requireOrderLoop
      simp only [h.1]
      have hn : neighbours (p :: d :: ds) = (p, d) :: neighbours (d :: ds) := rfl
      obtain ⟨h1, h2⟩ := compareDecls_spec p d config (hnul p (by simp)) (hnul d (by simp))
      rw [hn]
      simp only [firstIn_cons]
      by_cases hlt : compareDecls p d config < 0
      · rw [if_neg (by omega), if_neg (by omega)]
        refine (ih d ds h.2 (fun x hx => hnul x (List.mem_cons_of_mem _ hx))).congr fun r => ?_
        simp [h1.1 hlt]
      · have hm := fun e => hlt (h1.2 e)
        by_cases h0 : compareDecls p d config = 0
        · rw [if_neg (by omega), if_pos h0]
          refine reports_result fun r => ?_
          constructor
          · rintro ⟨pd, msg, (⟨-, rfl⟩ | h), hmsg, rfl⟩
            · rcases hmsg with ⟨-, rfl⟩ | ⟨hn, -⟩
              · rfl
              · exact absurd (h2.1 h0) hn
            · exact absurd hm h.1
          · rintro rfl
            exact ⟨(p, d), _, Or.inl ⟨hm, rfl⟩, Or.inl ⟨h2.1 h0, rfl⟩, rfl⟩
        · rw [if_pos (by omega)]
          refine reports_result fun r => ?_
          have hno : ¬ TakenAsRepeated config p d := fun e => h0 (h2.2 e)
          constructor
          · rintro ⟨pd, msg, (⟨-, rfl⟩ | h), hmsg, rfl⟩
            · rcases hmsg with ⟨hn, -⟩ | ⟨-, rfl⟩
              · exact absurd hn hno
              · rfl
            · exact absurd hm h.1
          · rintro rfl
            exact ⟨(p, d), _, Or.inl ⟨hm, rfl⟩, Or.inr ⟨hno, rfl⟩, rfl⟩

/-- The node is a require block whose statements are the given declarations; the parser's
start marker is the first child. -/
def Spec.RequireOf (node : Loc) (decls : List DeclData) : Prop :=
  RequireBlock node ∧ ∃ start rest, node.focus.children = start :: rest ∧
    start.info.flavor = .startBlock ∧ rest.map (·.info.data) = decls.map .decl

/-- C34: C-006 reports a block of declarations iff some declaration may not precede the next;
the first such pair is named, and called a repetition iff the two are taken to be the same. -/
theorem C34_order (data : CheckData) (node : Loc) (decls : List DeclData)
    (h : RequireOf node decls) (hne : decls ≠ []) (hnul : ∀ d ∈ decls, '\x00' ∉ d.name) :
    Reports (checkUnorderedDeclarationInRequire data node) fun r =>
      ∃ pd msg, FirstIn (fun pd => ¬ MayPrecede data.config pd.1 pd.2) (neighbours decls) pd ∧
        RequireMessage data.config pd.1 pd.2 msg ∧ r = ⟨'C', 6, msg⟩ := by
  obtain ⟨hr, start, rest, h1, h2, h3⟩ := h
  unfold checkUnorderedDeclarationInRequire
  rw [if_neg (by simp [isRequireBlock_iff.2 hr]), h1]
  simp only [h2, ne_eq, not_true_eq_false, if_false]
  obtain ⟨d, ds, rfl⟩ := List.exists_cons_of_ne_nil hne
  cases rest with
  | nil => simp at h3
  | cons t ts =>
    simp only [List.map_cons, List.cons.injEq] at h3
    simp only
    unfold requireOrderLoop
    simp only [h3.1]
    exact requireOrderLoop_spec _ ts d ds h3.2 hnul

/-- C34: a block is accepted iff each declaration may precede its successor. -/
theorem C34_accepts (data : CheckData) (node : Loc) (decls : List DeclData)
    (h : RequireOf node decls) (hne : decls ≠ []) (hnul : ∀ d ∈ decls, '\x00' ∉ d.name) :
    checkUnorderedDeclarationInRequire data node = .ok none ↔
      ∀ pd ∈ neighbours decls, MayPrecede data.config pd.1 pd.2 := by
  rw [(C34_order data node decls h hne hnul).one.none_iff]
  constructor
  · intro hno pd hpd
    apply Classical.byContradiction
    intro hm
    obtain ⟨x, hx⟩ := FirstIn.exists_iff (P := fun pd : DeclData × DeclData =>
      ¬ MayPrecede data.config pd.1 pd.2).2 ⟨pd, hpd, hm⟩
    by_cases ht : TakenAsRepeated data.config x.1 x.2
    · exact hno _ ⟨x, _, hx, Or.inl ⟨ht, rfl⟩, rfl⟩
    · exact hno _ ⟨x, _, hx, Or.inr ⟨ht, rfl⟩, rfl⟩
  · rintro hall r ⟨pd, msg, hf, -⟩
    obtain ⟨pd, hpd, hm⟩ := FirstIn.exists_iff.1 ⟨pd, hf⟩
    exact hm (hall pd hpd)

/-- C34: a block without declarations is reported as empty. -/
theorem C34_empty (data : CheckData) (node : Loc) (h : RequireOf node []) :
    checkUnorderedDeclarationInRequire data node =
      .ok (some ⟨'C', 6, cs!"Empty require block"⟩) := by
  obtain ⟨hr, start, rest, h1, h2, h3⟩ := h
  cases rest with
  | nil =>
    unfold checkUnorderedDeclarationInRequire
    rw [if_neg (by simp [isRequireBlock_iff.2 hr]), h1]
    simp [h2, result]
  | cons t ts => simp at h3

/-- C34 (partial): for two declarations of equal flavor whose names without a final `_t`
differ before either ends, the order is that of the names without `_t`. Missing: names one of
which continues the other, for which the claim is false (below). -/
theorem C34_names_partial (config : ConfigCheckData) (a b : DeclData)
    (hs : config.orderingRequiresSameFlavor = true) (hf : a.flavor = b.flavor)
    (h1 : ¬ withoutT a.name <+: withoutT b.name) (h2 : ¬ withoutT b.name <+: withoutT a.name) :
    MayPrecede config a b ↔ withoutT a.name < withoutT b.name := by
  rw [← nameBefore_withoutT h1 h2]
  unfold MayPrecede
  rw [hf]
  have : ¬ FlavorBefore config.orderRequires b.flavor b.flavor := fun h => h.1 rfl
  simp [this, hs]

/-- A `gen_require` block with the given types, for examples. -/
def genRequireOf (types : List Str) : Loc :=
  ⟨.mk (teNode (.genReq false) 1) (.mk (teNode (.plain .startBlock none) 1) [] ::
    types.map fun t => .mk (teNode (.decl ⟨.type, t, []⟩) 2) []), [], [], []⟩

theorem genRequireOf_requireOf (types : List Str) :
    RequireOf (genRequireOf types) (types.map fun t => ⟨.type, t, []⟩) :=
  ⟨Or.inr rfl, _, _, rfl, rfl, by simp [teNode, Function.comp_def, Tree.info]⟩

/-- C34 is false of the order of names: `ssh_t` before `ssh2_t` is reported as unordered,
though `ssh` stands before `ssh2`. -/
theorem C34_false_stripped :
    withoutT cs!"ssh_t" < withoutT cs!"ssh2_t" ∧
    checkUnorderedDeclarationInRequire teData (genRequireOf [cs!"ssh_t", cs!"ssh2_t"]) =
      .ok (some ⟨'C', 6, cs!"Unordered declaration in require block (type ssh_t before type ssh2_t)"⟩) := by
  decide

/-- C34 is false of repetitions: two different types are reported as a repetition. -/
theorem C34_false_repeated :
    checkUnorderedDeclarationInRequire teData (genRequireOf [cs!"foo_t", cs!"foo__bar_t"]) =
      .ok (some ⟨'C', 6, cs!"Repeated declaration in require block (type foo__bar_t)"⟩) := by
  decide

/-- C34: a node that is no declaration before the first pair out of order is an internal
error. -/
theorem C34_internal (data : CheckData) (node : Loc) (start t : Tree) (rest : List Tree)
    (hr : RequireBlock node) (hc : node.focus.children = start :: t :: rest)
    (hs : start.info.flavor = .startBlock) (ht : ∀ d, t.info.data ≠ .decl d) :
    checkUnorderedDeclarationInRequire data node =
      .ok (some (internalError cs!"Non declaration node in require block")) := by
  unfold checkUnorderedDeclarationInRequire
  rw [if_neg (by simp [isRequireBlock_iff.2 hr]), hc]
  simp only [hs, ne_eq, not_true_eq_false, if_false]
  unfold requireOrderLoop
  cases hd : t.info.data with
  | decl d => exact absurd hd (ht d)
  | _ => rfl

example : RequireOf (genRequireOf [cs!"a_t", cs!"b_t"]) [⟨.type, cs!"a_t", []⟩, ⟨.type, cs!"b_t", []⟩] ∧
    checkUnorderedDeclarationInRequire teData (genRequireOf [cs!"a_t", cs!"b_t"]) = .ok none :=
  ⟨genRequireOf_requireOf _, by decide⟩

/-! ## C41: W-002 -/

theorem requiredFlavorName_iff {ops : List MapOp} {name kind : Str} :
    requiredFlavorName (tablesAfter ops) name = some kind ↔ KindOf ops name kind := by
  unfold requiredFlavorName KindOf
  rw [← isSome_lookUpDecl (k := name) (fl := .type), ← isSome_lookUpDecl (k := name) (fl := .attribute),
    ← isSome_lookUpDecl (k := name) (fl := .attributeRole), ← isSome_lookUpDecl (k := name) (fl := .role)]
  cases ((tablesAfter ops).lookUpDecl name .type).isSome <;>
  cases ((tablesAfter ops).lookUpDecl name .attribute).isSome <;>
  cases ((tablesAfter ops).lookUpDecl name .attributeRole).isSome <;>
  cases ((tablesAfter ops).lookUpDecl name .role).isSome <;> simp [eq_comm]

/-- A loop that stops at some element with a property, the property being a relation. -/
theorem reportsOne_loop {α : Type} {loop : List Str → CheckOut} {Q : Str → α → Prop}
    {mk : Str → α → CheckResult} (hnil : loop [] = noResult)
    (hskip : ∀ n ns, (∀ a, ¬ Q n a) → loop (n :: ns) = loop ns)
    (hstop : ∀ n ns a, Q n a → ∃ a', Q n a' ∧ loop (n :: ns) = .ok (some (mk n a'))) (names : List Str) :
    ReportsOne (loop names) fun r => ∃ n a, n ∈ names ∧ Q n a ∧ r = mk n a := by
  induction names with
  | nil => exact ⟨none, hnil, by simp, by simp⟩
  | cons n ns ih =>
    by_cases h : ∃ a, Q n a
    · obtain ⟨a, ha⟩ := h
      obtain ⟨a', ha', e⟩ := hstop n ns a ha
      refine ⟨_, e, ?_, ?_⟩
      · simp only [reduceCtorEq, false_iff]
        intro hno
        exact hno _ ⟨n, a', by simp, ha', rfl⟩
      · rintro r hr
        cases hr
        exact ⟨n, a', by simp, ha', rfl⟩
    · have h' : ∀ a, ¬ Q n a := fun a ha => h ⟨a, ha⟩
      rw [hskip n ns h']
      obtain ⟨o, e, h1, h2⟩ := ih
      refine ⟨o, e, ⟨fun ho => ?_, fun ho => ?_⟩, ?_⟩
      · rintro r ⟨x, a, hx, hq, rfl⟩
        rcases List.mem_cons.1 hx with rfl | hx
        · exact h' a hq
        · exact h1.1 ho _ ⟨x, a, hx, hq, rfl⟩
      · apply h1.2
        rintro r ⟨x, a, hx, hq, rfl⟩
        exact ho _ ⟨x, a, List.mem_cons_of_mem _ hx, hq, rfl⟩
      · intro r hr
        obtain ⟨x, a, hx, hq, rfl⟩ := h2 r hr
        exact ⟨x, a, List.mem_cons_of_mem _ hx, hq, rfl⟩

/-- C41: in an interface or template W-002 reports a statement iff it uses a known type,
attribute, role attribute or role other than `system_r` that no require block of the
definition that starts before the statement mentions. -/
theorem C41_required (ops : List MapOp) (data : CheckData) (node d : Loc)
    (hf : data.flavor = .ifFile) (hd : DefinitionAround d node) :
    ReportsOne (checkNameUsedButNotRequiredInIf (tablesAfter ops) data node) fun r =>
      ∃ name kind, Uses node.data name ∧
        (name ≠ cs!"system_r" ∧ KindOf ops name kind ∧
          ¬ ∃ b, RequireBlock b ∧ Encloses d b ∧ b.addr < node.addr ∧ BlockMentions b name) ∧
        r = ⟨'W', 2, kind ++ cs!" " ++ name ++ cs!" is used in interface but not required"⟩ := by
  obtain ⟨names, hn1, hn2⟩ := usedNames_ok node
  unfold checkNameUsedButNotRequiredInIf
  rw [if_neg (by simp [hf])]
  by_cases hnames : getNamesInNode node.info = []
  · rw [if_pos hnames]
    refine ⟨none, rfl, ?_, by simp⟩
    simp only [true_iff]
    rintro r ⟨name, kind, hu, -⟩
    have : ∃ w, Mentions node.info.data w ∧ NameOf w name := by
      cases hdd : node.data with
      | decl dd =>
        rw [hdd] at hu
        obtain ⟨w, hw, hx⟩ := hu
        exact ⟨w, by rw [show node.info.data = .decl dd from hdd]; exact .declAttr hw, hx⟩
      | _ =>
        rw [hdd] at hu
        obtain ⟨w, hw, hx⟩ := hu
        exact ⟨w, by rw [show node.info.data = _ from hdd]; exact hw, hx⟩
    rw [← C50_names_exact, hnames] at this
    simp at this
  · rw [if_neg hnames]
    have hnd : isDefinition node.info = false := by
      cases hx : isDefinition node.info with
      | false => rfl
      | true =>
        exfalso
        have h1 := isDefinition_iff.1 hx
        obtain ⟨y, hy⟩ := List.exists_mem_of_ne_nil _ hnames
        obtain ⟨w, hw, -⟩ := (C50_names_exact node.info y).1 hy
        have h1' : node.info.data.flavor = .interfaceDef ∨ node.info.data.flavor = .tempDef := h1
        generalize node.info.data = nd at hw h1'
        cases hw <;> simp [NodeData.flavor, PlainFlavor.toFlavor] at h1' <;>
          (split at h1' <;> simp at h1')
    have hfind : (node :: node.ancestors).find? (fun p => isDefinition p.info) = some d := by
      rw [List.find?_cons, hnd]
      exact find_definition_iff.2 hd
    rw [hfind, hn1]
    simp only [Res.bind_ok, ← hn2]
    refine reportsOne_loop (loop := notRequiredLoop (tablesAfter ops)
      (namesRequiredBefore node d.firstChild?))
      (Q := fun name kind => name ≠ cs!"system_r" ∧ KindOf ops name kind ∧
          ¬ ∃ b, RequireBlock b ∧ Encloses d b ∧ b.addr < node.addr ∧ BlockMentions b name)
      (mk := fun name kind => ⟨'W', 2, kind ++ cs!" " ++ name ++ cs!" is used in interface but not required"⟩)
      rfl ?_ ?_ names
    · intro n ns hno
      rw [notRequiredLoop]
      by_cases hreq : n ∈ namesRequiredBefore node d.firstChild?
      · rw [if_neg (by simpa [strInSl_iff] using hreq)]
      · rw [if_pos (by simpa [← strInSl_iff] using hreq)]
        by_cases hs : n = cs!"system_r"
        · rw [if_pos (by simp [hs])]
        · rw [if_neg (by simpa using hs)]
          cases hk : requiredFlavorName (tablesAfter ops) n with
          | none => rfl
          | some kind =>
            exact absurd ⟨hs, requiredFlavorName_iff.1 hk,
              fun e => hreq ((mem_namesRequiredBefore hd.2.1 n).2 e)⟩ (hno kind)
    · rintro n ns kind ⟨hs, hk, hno⟩
      refine ⟨kind, ⟨hs, hk, hno⟩, ?_⟩
      rw [notRequiredLoop]
      have hreq : n ∉ namesRequiredBefore node d.firstChild? :=
        fun e => hno ((mem_namesRequiredBefore hd.2.1 n).1 e)
      rw [if_pos (by simpa [← strInSl_iff] using hreq), if_neg (by simpa using hs),
        requiredFlavorName_iff.2 hk]
      rfl

/-- C41: statements outside definitions and statements in other files are not reported. -/
theorem C41_outside (m : Maps) (data : CheckData) (node : Loc)
    (h : data.flavor ≠ .ifFile ∨ (¬ Definition node ∧ ∀ d, ¬ DefinitionAround d node)) :
    checkNameUsedButNotRequiredInIf m data node = .ok none := by
  unfold checkNameUsedButNotRequiredInIf
  rcases h with h | ⟨h1, h2⟩
  · rw [if_pos h]; rfl
  · split
    · rfl
    · split
      · rfl
      · have : (node :: node.ancestors).find? (fun p => isDefinition p.info) = none := by
          rw [List.find?_cons]
          have : isDefinition node.info = false := by
            rw [← Bool.not_eq_true, isDefinition_iff]; exact h1
          rw [this]
          cases hf : node.ancestors.find? (fun p => isDefinition p.info) with
          | none => rfl
          | some d => exact absurd (find_definition_iff.1 hf) (h2 d)
        rw [this]; rfl

/-! ## C42: W-003 -/

theorem checkedRequireFlavor_iff {fl : DeclFlavor} {kind : Str} :
    checkedRequireFlavor fl = some kind ↔ CheckedKind fl kind := by
  cases fl <;> simp [checkedRequireFlavor, CheckedKind, eq_comm]

/-- C42: a type, attribute, role attribute or role required in an interface (whose name does
not end in `_stub`) or template is reported iff no statement after the outermost require
block around it, within the block that contains the require block, mentions it. -/
theorem C42_used (data : CheckData) (node d r : Loc) (dd : DeclData) (kind : Str)
    (hf : data.flavor = .ifFile) (hn : node.data = .decl dd) (hk : CheckedKind dd.flavor kind)
    (hd : DefinitionAround d node) (hr : OutermostRequire d r node)
    (hnm : d.flavor = .interfaceDef → ∃ nm, d.data = .plain .interfaceDef (some nm)) :
    ReportsOne (checkNameRequiredButNotUsedInIf data node) fun res =>
      (¬ ∃ nm, d.data = .plain .interfaceDef (some (nm ++ cs!"_stub"))) ∧
      ∃ w name, Mentions node.data w ∧ NameOf w name ∧ ¬ MentionedAfter r name ∧
        res = ⟨'W', 3, kind ++ cs!" " ++ name ++
          cs!" is listed in require block but not used in interface"⟩ := by
  have hnd : ¬ Definition node := by
    rintro (h | h) <;>
    · have : node.data.flavor = _ := h
      rw [hn] at this; cases this
  have hnr : ¬ RequireBlock node := by
    rintro (h | h) <;>
    · have : node.data.flavor = _ := h
      rw [hn] at this; cases this
  obtain ⟨req, h1, h2⟩ := climb_found hnd hnr hd
  have hreq : req = some r := (h2 r).2 hr
  unfold checkNameRequiredButNotUsedInIf
  rw [if_neg (by simp [hf])]
  simp only [hn, checkedRequireFlavor_iff.2 hk, h1, hreq, isDefinition_iff.2 hd.1]
  have main : ReportsOne (unusedCheck kind node r) fun res =>
      ∃ w name, Mentions node.data w ∧ NameOf w name ∧ ¬ MentionedAfter r name ∧
        res = ⟨'W', 3, kind ++ cs!" " ++ name ++
          cs!" is listed in require block but not used in interface"⟩ := by
    unfold unusedCheck
    have hne : getNamesInNode node.info ≠ [] := by
      rw [(C50_order node.info).2.2.2.2.1 dd hn]; simp
    split
    · rename_i h; exact absurd h hne
    · have := reportsOne_loop (α := Unit) (loop := unusedLoop kind
        (match r.next? with | none => [] | some n => namesUsed n 0))
        (Q := fun name _ => ¬ MentionedAfter r name)
        (mk := fun name _ => ⟨'W', 3, kind ++ cs!" " ++ name ++
          cs!" is listed in require block but not used in interface"⟩)
        rfl (by
          intro n ns hno
          have hm : MentionedAfter r n := Classical.byContradiction fun e => hno () e
          rw [unusedLoop, if_neg]
          simp only [Bool.not_eq_true', Bool.not_eq_false, strInSl_iff]
          exact (mem_namesUsed r n).2 hm) (by
          rintro n ns - hm
          refine ⟨(), hm, ?_⟩
          rw [unusedLoop, if_pos]
          · rfl
          · rw [Bool.not_eq_true', ← Bool.not_eq_true, strInSl_iff]
            exact fun e => hm ((mem_namesUsed r n).1 e))
        (getNamesInNode node.info)
      obtain ⟨o, e, h3, h4⟩ := this
      have hiff : ∀ res, (∃ n, ∃ _ : Unit, n ∈ getNamesInNode node.info ∧ ¬ MentionedAfter r n ∧
          res = (⟨'W', 3, kind ++ cs!" " ++ n ++
            cs!" is listed in require block but not used in interface"⟩ : CheckResult)) ↔
          ∃ w name, Mentions node.data w ∧ NameOf w name ∧ ¬ MentionedAfter r name ∧
            res = ⟨'W', 3, kind ++ cs!" " ++ name ++
              cs!" is listed in require block but not used in interface"⟩ := by
        intro res
        simp only [C50_names_exact]
        constructor
        · rintro ⟨n, -, ⟨w, hw, hx⟩, h5, h6⟩; exact ⟨w, n, hw, hx, h5, h6⟩
        · rintro ⟨w, n, hw, hx, h5, h6⟩; exact ⟨n, (), ⟨w, hw, hx⟩, h5, h6⟩
      refine ⟨o, e, ?_, fun res hres => (hiff res).1 (h4 res hres)⟩
      rw [h3]
      exact forall_congr' fun res => not_congr (hiff res)
  by_cases hi : d.flavor = .interfaceDef
  · rw [if_pos hi]
    obtain ⟨nm, hnm⟩ := hnm hi
    have hds : dataStr d.info = .ok nm := by
      unfold dataStr
      rw [show d.info.data = .plain .interfaceDef (some nm) from hnm]
    rw [hds, Res.bind_ok]
    by_cases hst : cs!"_stub" <:+ nm
    · rw [if_pos (endsWith_iff.2 hst)]
      refine ⟨none, rfl, ?_, by simp⟩
      simp only [true_iff]
      rintro res ⟨h3, -⟩
      obtain ⟨q, rfl⟩ := hst
      exact h3 ⟨q, hnm⟩
    · rw [if_neg (fun e => hst (endsWith_iff.1 e))]
      have hno : ¬ ∃ nm, d.data = .plain .interfaceDef (some (nm ++ cs!"_stub")) := by
        rintro ⟨q, hq⟩
        rw [hnm] at hq
        simp only [NodeData.plain.injEq, Option.some.injEq, true_and] at hq
        exact hst ⟨q, hq.symm⟩
      simp only [hno, not_false_eq_true, true_and]
      rw [← hn]; exact main
  · rw [if_neg hi]
    have hno : ¬ ∃ nm, d.data = .plain .interfaceDef (some (nm ++ cs!"_stub")) := by
      rintro ⟨q, hq⟩
      apply hi
      show d.data.flavor = _
      rw [hq]; rfl
    simp only [hno, not_false_eq_true, true_and]
    rw [← hn]; exact main

/-- C42: everything else is not reported: declarations in other files, of other classes,
outside definitions, or outside require blocks. -/
theorem C42_others (data : CheckData) (node : Loc) (dd : DeclData) (hn : node.data = .decl dd)
    (h : data.flavor ≠ .ifFile ∨ (∀ kind, ¬ CheckedKind dd.flavor kind) ∨
      (∀ d, ¬ DefinitionAround d node) ∨
      ∃ d, DefinitionAround d node ∧ ∀ r, ¬ OutermostRequire d r node) :
    checkNameRequiredButNotUsedInIf data node = .ok none := by
  have hnd : ¬ Definition node := by
    rintro (h | h) <;>
    · have : node.data.flavor = _ := h
      rw [hn] at this; cases this
  have hnr : ¬ RequireBlock node := by
    rintro (h | h) <;>
    · have : node.data.flavor = _ := h
      rw [hn] at this; cases this
  unfold checkNameRequiredButNotUsedInIf
  by_cases hf : data.flavor = .ifFile
  · rw [if_neg (by simp [hf]), hn]
    simp only
    cases hc : checkedRequireFlavor dd.flavor with
    | none => rfl
    | some kind =>
      simp only
      rcases h with h | h | h | ⟨d, h1, h2⟩
      · exact absurd hf h
      · exact absurd (checkedRequireFlavor_iff.1 hc) (h kind)
      · obtain ⟨top, req, e, ht⟩ := climb_not_found hnd h
        rw [e]
        have : isDefinition top.info = false := by
          rw [← Bool.not_eq_true, isDefinition_iff]; exact ht
        simp only [this]
        rfl
      · obtain ⟨req, e, h3⟩ := climb_found hnd hnr h1
        rw [e]
        cases req with
        | none => simp only [isDefinition_iff.2 h1.1]; rfl
        | some r => exact absurd ((h3 r).1 rfl) (h2 r)
  · rw [if_pos hf]; rfl

/-- The children of an interface that requires the types given and then has the rule
`allow a_t b_t:file read;`. -/
def ifInfo : NodeInfo := teNode (.plain .interfaceDef (some cs!"a_read")) 1

/-- The interface with the required declaration and the rule. -/
def ifTree : Tree :=
  .mk ifInfo [.mk (teNode (.plain .startBlock none) 1) [],
    .mk (teNode (.genReq false) 2) [.mk (teNode (.plain .startBlock none) 2) [],
      .mk (teNode (.decl ⟨.type, cs!"a_t", []⟩) 3) [], .mk (teNode (.decl ⟨.type, cs!"c_t", []⟩) 4) []],
    .mk (teNode (.av (teAllow [cs!"read"])) 6) []]

/-- The interface. -/
def ifDef : Loc := ⟨ifTree, [], [], []⟩

/-- The require block in it. -/
def ifReq : Loc :=
  ⟨.mk (teNode (.genReq false) 2) [.mk (teNode (.plain .startBlock none) 2) [],
      .mk (teNode (.decl ⟨.type, cs!"a_t", []⟩) 3) [], .mk (teNode (.decl ⟨.type, cs!"c_t", []⟩) 4) []],
    [.mk (teNode (.plain .startBlock none) 1) []], [.mk (teNode (.av (teAllow [cs!"read"])) 6) []],
    [⟨[], ifInfo, []⟩]⟩

/-- The second required declaration. -/
def ifDecl : Loc :=
  ⟨.mk (teNode (.decl ⟨.type, cs!"c_t", []⟩) 4) [],
    [.mk (teNode (.decl ⟨.type, cs!"a_t", []⟩) 3) [], .mk (teNode (.plain .startBlock none) 2) []], [],
    [⟨[.mk (teNode (.plain .startBlock none) 1) []], teNode (.genReq false) 2,
      [.mk (teNode (.av (teAllow [cs!"read"])) 6) []]⟩, ⟨[], ifInfo, []⟩]⟩

/-- The rule. -/
def ifRule : Loc :=
  ⟨.mk (teNode (.av (teAllow [cs!"read"])) 6) [],
    [.mk (teNode (.genReq false) 2) [.mk (teNode (.plain .startBlock none) 2) [],
      .mk (teNode (.decl ⟨.type, cs!"a_t", []⟩) 3) [], .mk (teNode (.decl ⟨.type, cs!"c_t", []⟩) 4) []],
     .mk (teNode (.plain .startBlock none) 1) []], [], [⟨[], ifInfo, []⟩]⟩

/-- The data of an if file. -/
def ifData : CheckData := ⟨cs!"a", cs!"a.if", .ifFile, ⟨.ref, [], true, false, []⟩⟩

example : ifData.flavor = .ifFile ∧ DefinitionAround ifDef ifRule ∧
    checkNameUsedButNotRequiredInIf (tablesAfter teOps) ifData ifRule =
      .ok (some ⟨'W', 2, cs!"Type b_t is used in interface but not required"⟩) :=
  ⟨rfl, find_definition_iff.1 (by with_unfolding_all rfl), by decide +kernel⟩

/-- The rule uses a name that the require block lists, so that the last clause of C41 does
distinguish. -/
example : Uses ifRule.data cs!"a_t" ∧ RequireBlock ifReq ∧ Encloses ifDef ifReq ∧
    ifReq.addr < ifRule.addr ∧ BlockMentions ifReq cs!"a_t" :=
  ⟨⟨cs!"a_t", .avSource (by simp [teAllow]), .inr ⟨rfl, by simp⟩⟩, .inr rfl,
    ⟨rfl, [1], by simp, rfl⟩, by decide +kernel,
    ⟨.mk (teNode (.decl ⟨.type, cs!"a_t", []⟩) 3) [], by simp [ifReq, Tree.children], cs!"a_t", .declName,
      .inr ⟨rfl, by simp⟩⟩⟩

theorem ifDecl_outermost : OutermostRequire ifDef ifReq ifDecl := by
  obtain ⟨req, h1, h2⟩ := climb_found (node := ifDecl) (d := ifDef)
    (by rintro (h | h) <;> cases h) (by rintro (h | h) <;> cases h) (find_definition_iff.1 (by with_unfolding_all rfl))
  have : climbToDefinition none (ifDecl :: ifDecl.ancestors) = some (ifDef, some ifReq) := by with_unfolding_all rfl
  rw [this] at h1
  simp only [Option.some.injEq, Prod.mk.injEq, true_and] at h1
  exact (h2 _).1 h1.symm

example : ifData.flavor = .ifFile ∧ DefinitionAround ifDef ifDecl ∧ OutermostRequire ifDef ifReq ifDecl ∧
    CheckedKind .type cs!"Type" ∧
    checkNameRequiredButNotUsedInIf ifData ifDecl =
      .ok (some ⟨'W', 3, cs!"Type c_t is listed in require block but not used in interface"⟩) :=
  ⟨rfl, find_definition_iff.1 (by with_unfolding_all rfl), ifDecl_outermost, .inl ⟨rfl, rfl⟩, by decide +kernel⟩

end Selint
