import Verif.Props.MoreChecks
import Verif.Props.Permissions
import Verif.Props.Places
/-! # C77: what the checks find at the places of the text -/

namespace Selint
open Spec

/-! ## Shape of the places -/

theorem nodeOk_bare {i : NodeInfo} {cs : List Tree} (h : NodeOk i cs) : NodeOk { i with exceptions := none } (bareList cs) := by
  unfold NodeOk at h ⊢
  rw [bareList_eq_map]
  split <;> simp_all
  all_goals
    obtain ⟨c, ⟨rest, rfl⟩, hc⟩ := h
    exact ⟨bare c, ⟨rest.map bare, by simp⟩, by rw [bare_info]; exact hc⟩

mutual
theorem treeOk_bare : ∀ t : Tree, TreeOk t → TreeOk (bare t)
  | .mk _ cs, h => ⟨nodeOk_bare h.1, forestOk_bare cs h.2⟩
theorem forestOk_bare : ∀ ts : List Tree, ForestOk ts → ForestOk (bareList ts)
  | [], _ => trivial
  | t :: ts, h => ⟨treeOk_bare t h.1, forestOk_bare ts h.2⟩
end

theorem fileNodes_ok {e : PlainFlavor} (he : e = .teFile ∨ e = .ifFile) (f : SourceFile) : ForestOk (fileNodes e f) := by
  rw [← buildFile_nodes f e [] (by simp)]
  refine forestOk_bare _ ((forestOk_iff _).2 fun t ht => ?_)
  exact (forestOk_iff _).1 (buildFile_ok f (he.elim .inl fun h => .inr (.inl h)) []) t (List.mem_reverse.1 ht)

theorem Spec.PlaceIn.ok {src : Sources} {kind : FileFlavor} {path : Str} {l : Loc} (h : PlaceIn src kind path l) : LocOk l := by
  obtain ⟨hk, s, f, -, -, h⟩ := h
  unfold LocOk
  rw [h]
  exact fileNodes_ok (rootOf_kind hk) f

theorem LocOk.require {l : Loc} (h : LocOk l) (hr : RequireBlock l) : l.focus.children ≠ [] := by
  have hn := h.node
  unfold NodeOk at hn
  have hr : l.info.data.flavor = .require ∨ l.info.data.flavor = .genReq := hr
  cases hd : l.info.data with
  | plain p s => rw [hd] at hn hr; intro e; cases p <;> simp_all [NodeData.flavor, PlainFlavor.toFlavor]
  | attr d => rw [hd] at hr; simp only [NodeData.flavor] at hr; split at hr <;> simp at hr
  | _ => rw [hd] at hn hr; intro e; simp_all [NodeData.flavor]

theorem LocOk.named {l : Loc} (h : LocOk l) (hd : l.flavor = .interfaceDef) : ∃ nm, l.data = .plain .interfaceDef (some nm) := by
  have hn := h.node
  unfold NodeOk at hn
  have hd : l.info.data.flavor = .interfaceDef := hd
  show ∃ nm, l.info.data = _
  cases he : l.info.data with
  | plain p s =>
    rw [he] at hn hd
    cases p <;> simp_all [NodeData.flavor, PlainFlavor.toFlavor]
    exact Option.ne_none_iff_exists'.1 hn
  | attr d => rw [he] at hd; simp only [NodeData.flavor] at hd; split at hd <;> simp at hd
  | _ => rw [he] at hd; simp [NodeData.flavor] at hd

/-! ## The tables as the result of insertions -/

theorem apply_transform (op : MapOp) (m : Maps) (tr : List Str) :
    ∃ tr', op.apply { m with transform := tr } = { op.apply m with transform := tr' } := by
  cases op with
  | decl n md fl =>
    refine ⟨tr, ?_⟩
    simp only [MapOp.apply, Maps.insertDecl]
    have : (({ m with transform := tr } : Maps).declTable fl).find n = (m.declTable fl).find n := by cases fl <;> rfl
    rw [this]
    cases (m.declTable fl).find n with
    | some _ => rfl
    | none => cases fl <;> rfl
  | transform n =>
    simp only [MapOp.apply, Maps.markTransform]
    split <;> split <;> exact ⟨_, rfl⟩
  | filetrans n =>
    refine ⟨tr, ?_⟩
    simp only [MapOp.apply, Maps.markFiletrans]
    split <;> rfl
  | role n =>
    refine ⟨tr, ?_⟩
    simp only [MapOp.apply, Maps.markRole]
    split <;> rfl
  | _ => exact ⟨tr, rfl⟩

theorem foldl_transform (ops : List MapOp) (m : Maps) (tr : List Str) :
    ∃ tr', ops.foldl MapOp.apply { m with transform := tr } = { ops.foldl MapOp.apply m with transform := tr' } := by
  induction ops generalizing m tr with
  | nil => exact ⟨tr, rfl⟩
  | cons op ops ih =>
    obtain ⟨tr', h⟩ := apply_transform op m tr
    rw [List.foldl_cons, h]
    exact ih ..

section
variable {w : Machine} {args : List Opt} {paths : List Str} {c : Course}

/-- The tables of the checks are made by insertions, but for the marks on transform interfaces. -/
theorem tables_ops (hc : c.Of w args paths) (hok : c.SupportOk w args) :
    ∃ ops tr, c.tables = { tablesAfter ops with transform := tr } ∧ ∃ s i t m m', ops = s ++ i ++ t ∧
      (∀ op ∈ s, noInterface op = true) ∧
      PolicyOps (w.sources c.settings.customFcMacros) .ifFile m (c.scan.ifs ++ c.scan.contextIf) i ∧
      PolicyOps (w.sources c.settings.customFcMacros) .teFile m' (c.scan.contextTe ++ c.scan.te) t := by
  obtain ⟨s, hs, hn⟩ := noInterface_start hc hok
  obtain ⟨i, t, -, marks, h1, -, -, -, h2, h⟩ := C73_history hc
  obtain ⟨tr, h'⟩ := foldl_transform t (i.foldl MapOp.apply c.scan.maps) marks
  refine ⟨s ++ i ++ t, tr, ?_, s, i, t, _, _, rfl, hn, h1, h2⟩
  rw [h, h', hs]
  simp [tablesAfter, List.foldl_append]

/-! ## Who defines an interface -/

/-- The interface file at `p`, of module `mod`, defines the interface or template. -/
def Spec.DefinedIn (src : Sources) (n p mod : Str) : Prop :=
  ∃ f, Contents src .ifFile p mod f ∧ ∃ d ∈ definitions f, d.name = n

/-- Of the interface files of the policy and its context, in this order, the first that defines the
interface or template is of module `mod`. -/
def Spec.Course.DefinedBy (c : Course) (w : Machine) (n mod : Str) : Prop :=
  ∃ p, FirstIn (fun p => ∃ mod, DefinedIn (w.sources c.settings.customFcMacros) n p mod) (c.scan.ifs ++ c.scan.contextIf) p ∧
    DefinedIn (w.sources c.settings.customFcMacros) n p mod

theorem policyOps_definesIf {src : Sources} {m : Maps} {ps : List Str} {ops : List MapOp} (h : PolicyOps src .ifFile m ps ops)
    (n mod : Str) : ops.findSome? (·.definesIf n) = some mod ↔
      ∃ p, FirstIn (fun p => ∃ mod, DefinedIn src n p mod) ps p ∧ DefinedIn src n p mod := by
  induction ps generalizing m ops with
  | nil =>
    cases h
    simp [FirstIn]
  | cons q ps ih =>
    obtain ⟨mod', f, a, b, h1, rfl, h2, h3⟩ := h
    have hq : ∀ md, DefinedIn src n q md ↔ md = mod' ∧ ∃ d ∈ definitions f, d.name = n := by
      intro md
      constructor
      · rintro ⟨g, hg, d, hd, hn⟩
        obtain ⟨rfl, h4⟩ := hg.ops h1
        have h5 := ((fileOps_defs hg.2.1 ((h4 m a).2 h2)).1 n md).2 ⟨d, hd, hn.symm, rfl⟩
        obtain ⟨d', h6, h7, -⟩ := ((fileOps_defs h1.2.1 h2).1 n md).1 h5
        exact ⟨rfl, d', h6, h7.symm⟩
      · rintro ⟨rfl, d, hd, hn⟩
        exact ⟨f, h1, d, hd, hn⟩
    rw [List.findSome?_append]
    cases ha : a.findSome? (·.definesIf n) with
    | some md =>
      obtain ⟨d, hd, hn, rfl⟩ := ((fileOps_defs h1.2.1 h2).1 n md).1 (definesIf_some ha)
      rw [Option.some_or, Option.some.injEq]
      constructor
      · rintro rfl
        exact ⟨q, ⟨[], ps, rfl, ⟨_, (hq _).2 ⟨rfl, d, hd, hn.symm⟩⟩, by simp⟩, (hq _).2 ⟨rfl, d, hd, hn.symm⟩⟩
      · rintro ⟨p, ⟨bf, af, e, h4, h5⟩, h6⟩
        cases bf with
        | nil => cases e; exact ((hq _).1 h6).1.symm
        | cons x bf => cases e; exact absurd ⟨_, (hq _).2 ⟨rfl, d, hd, hn.symm⟩⟩ (h5 _ (.head _))
    | none =>
      have hno : ¬∃ md, DefinedIn src n q md := by
        rintro ⟨md, hd⟩
        obtain ⟨rfl, d, hd, hn⟩ := (hq md).1 hd
        exact definesIf_isSome (((fileOps_defs h1.2.1 h2).1 n md).2 ⟨d, hd, hn.symm, rfl⟩) ha
      rw [Option.none_or, ih h3]
      constructor
      · rintro ⟨p, ⟨bf, af, rfl, h4, h5⟩, h6⟩
        refine ⟨p, ⟨q :: bf, af, rfl, h4, fun y hy => ?_⟩, h6⟩
        rcases List.mem_cons.1 hy with rfl | hy
        · exact hno
        · exact h5 y hy
      · rintro ⟨p, ⟨bf, af, e, h4, h5⟩, h6⟩
        cases bf with
        | nil => cases e; exact absurd h4 hno
        | cons x bf => cases e; exact ⟨p, ⟨bf, af, rfl, h4, fun y hy => h5 y (.tail _ hy)⟩, h6⟩

/-- **C77 (whose interface).** The module that an interface or template is looked up as is that of the
first interface file that defines it. -/
theorem C77_interface_module (hc : c.Of w args paths) (hok : c.SupportOk w args) (n mod : Str) :
    c.tables.lookUpIf n = some mod ↔ c.DefinedBy w n mod := by
  obtain ⟨i, t, files, marks, h1, -, -, -, h2, h3⟩ := C73_history hc
  have ht : t.findSome? (·.definesIf n) = none := by
    cases hs : t.findSome? (·.definesIf n) with
    | none => rfl
    | some md => exact absurd (definesIf_some hs) ((policyOps_no_defs h2).1 _ _)
  have e : c.tables.lookUpIf n = (c.scan.maps.lookUpIf n).or (i.findSome? (·.definesIf n)) := by
    rw [h3, lookUpIf_foldl, ht, Option.or_none, ← lookUpIf_foldl]; rfl
  rw [e, (C76_nothing hc hok n).1, Option.none_or]
  exact policyOps_definesIf h1 n mod

/-- The module configuration gives the module this status: -s is given, and the first entry for the
module in the file that was found says so. -/
def Spec.Course.StatusOf (c : Course) (w : Machine) (args : List Opt) (mod status : Str) : Prop :=
  (optionsOf args).sourceFlag = true ∧ ∃ mods, ModsSay w c.scan.modulesConf mods ∧
    FirstIn (fun e => e.1 = mod) mods (mod, status)

theorem mods_course (hc : c.Of w args paths) : c.tables.mods = c.scan.maps.mods := by
  obtain ⟨i, t, files, marks, h1, -, -, -, h2, h3⟩ := C73_history hc
  rw [h3, (foldl_fromPolicy (policyOps_fromPolicy h2) _).2.1]
  exact (foldl_fromPolicy (policyOps_fromPolicy h1) _).2.1

theorem find_firstIn {l : List (Str × Str)} {n s : Str} :
    (l.find? (·.1 = n)).map (·.2) = some s ↔ FirstIn (fun e => e.1 = n) l (n, s) := by
  rw [Option.map_eq_some_iff]
  constructor
  · rintro ⟨⟨a, b⟩, h, rfl⟩
    rw [List.find?_eq_some_iff_append] at h
    obtain ⟨h1, bf, af, rfl, h2⟩ := h
    simp only [decide_eq_true_eq] at h1
    subst h1
    exact ⟨bf, af, rfl, rfl, fun y hy => by simpa using h2 y hy⟩
  · rintro ⟨bf, af, rfl, -, h2⟩
    refine ⟨(n, s), ?_, rfl⟩
    rw [List.find?_eq_some_iff_append]
    exact ⟨by simp, bf, af, rfl, fun y hy => by simpa using h2 y hy⟩

/-- **C77 (status of a module).** The status that a module is looked up with is that of the module
configuration; no policy file changes it. -/
theorem C77_status (hc : c.Of w args paths) (hok : c.SupportOk w args) (mod status : Str) :
    c.tables.lookUpMod mod = some status ↔ c.StatusOf w args mod status := by
  have e : c.tables.lookUpMod mod = c.scan.maps.lookUpMod mod := by unfold Maps.lookUpMod; rw [mods_course hc]
  rw [e]
  unfold Course.StatusOf
  by_cases hs : (optionsOf args).sourceFlag = true
  · obtain hs' | ⟨av, mods, sets, g1, g2, g3⟩ := hok
    · rw [hs] at hs'; cases hs'
    · constructor
      · intro h
        rw [(C76_source_modules hc hs g1 g2 g3 mod).1, find_firstIn] at h
        exact ⟨hs, mods, g2, h⟩
      · rintro ⟨-, mods', g2', h⟩
        rw [(C76_source_modules hc hs g1 g2' g3 mod).1, find_firstIn]
        exact h
  · rw [(C76_kernel_modules hc (by simpa using hs)).1]
    simp [hs]

/-! ## The checks -/

theorem finds_reports {out : CheckOut} {P : CheckResult → Prop} (h : Reports out P) (res : CheckResult) :
    (∃ s, stateless .init out = .ok (s, some res)) ↔ P res := by
  obtain ⟨o, rfl, h⟩ := h
  rw [← h]
  simp [stateless]

theorem finds_reportsOne {out : CheckOut} {P : CheckResult → Prop} (h : ReportsOne out P) :
    (∀ res, (∃ s, stateless .init out = .ok (s, some res)) → P res) ∧
      ((∃ res, P res) → ∃ res s, stateless .init out = .ok (s, some res)) := by
  obtain ⟨o, rfl, h1, h2⟩ := h
  refine ⟨?_, ?_⟩
  · rintro res ⟨s, hs⟩
    refine h2 res ?_
    simp only [stateless, Res.bind_ok, Res.pure_eq, Res.ok.injEq, Prod.mk.injEq] at hs
    exact hs.2
  · rintro ⟨res, hp⟩
    cases o with
    | none => exact absurd hp (h1.1 rfl res)
    | some r => exact ⟨r, _, rfl⟩

theorem tables_ne (h : c.tables = { tablesAfter ops with transform := tr }) :
    (∀ n, c.tables.lookUpIf n = (tablesAfter ops).lookUpIf n) ∧ (∀ n, c.tables.lookUpMod n = (tablesAfter ops).lookUpMod n) ∧
      (∀ n fl, c.tables.lookUpDecl n fl = (tablesAfter ops).lookUpDecl n fl) ∧
      ∀ n, c.tables.lookUpTemplate n = (tablesAfter ops).lookUpTemplate n := by
  rw [h]
  exact ⟨fun _ => rfl, fun _ => rfl, fun n fl => by cases fl <;> rfl, fun _ => rfl⟩

variable {x : PolicyFile} {l : Loc}

/-- **C77 (W-005).** At a call in the text, W-005 finds something exactly if the interface is defined by
another module that the module configuration knows and that is not in the base, and no block around the
call is an optional block. -/
theorem C77_optional (hc : c.Of w args paths) (hok : c.SupportOk w args) {d : IfCallData} (hd : l.data = .ifCall d)
    {kind : FileFlavor} {path : Str} (res : CheckResult) :
    Finds .moduleIfCallInOptional c.tables (c.dataFor kind path) l res ↔
      ∃ mod status, c.DefinedBy w d.name mod ∧ mod ≠ cutLastDot (basename path) ∧ c.StatusOf w args mod status ∧
        status ≠ cs!"base" ∧ (¬∃ b, Encloses b l ∧ b.flavor = .optionalPolicy) ∧
        res = ⟨'W', 5, cs!"Call to interface " ++ d.name ++ cs!" defined in module " ++ mod ++
          cs!" should be in optional_policy block"⟩ := by
  obtain ⟨ops, tr, ht, -⟩ := tables_ops hc hok
  obtain ⟨e1, e2, -, -⟩ := tables_ne ht
  have hrun : checkModuleIfCallInOptional c.tables (c.dataFor kind path) l =
      checkModuleIfCallInOptional (tablesAfter ops) (c.dataFor kind path) l := by rw [ht]; rfl
  unfold Finds
  simp only [CheckFn.run, hrun]
  rw [finds_reports (C43_optional ops _ l d hd)]
  simp only [← C77_interface_module hc hok, ← C77_status hc hok, e1, e2, lookUpIf_some_iff, lookUpMod_some_iff]
  rfl

/-- The name is taken for a symbol of class `fl` of module `mod`: for a type, else for an attribute, else
for a role attribute. -/
def Spec.Course.Explicit (c : Course) (name mod : Str) (fl : DeclFlavor) : Prop :=
  c.tables.lookUpDecl name fl = some mod ∧
    (fl = .type ∨
     fl = .attribute ∧ c.tables.lookUpDecl name .type = none ∨
     fl = .attributeRole ∧ c.tables.lookUpDecl name .type = none ∧ c.tables.lookUpDecl name .attribute = none)

/-- W-001: the statement at `l` uses a symbol of another module that no require block in scope lists. -/
def Spec.Course.Unrequired (c : Course) (own : Str) (l : Loc) (name mod : Str) : Prop :=
  Uses l.data name ∧ ∃ fl, c.Explicit name mod fl ∧ mod ≠ own ∧ ¬∃ r, InScope r l ∧ RequireBlock r ∧ ListsSymbol r name fl

/-- **C77 (W-001).** In the text of a te file, W-001 finds something at a statement exactly if it uses a type,
attribute or role attribute of another module that no require block in scope in the text lists; and it
names one. -/
theorem C77_explicit (hc : c.Of w args paths) (hok : c.SupportOk w args) {path : Str}
    (hl : PlaceIn (w.sources c.settings.customFcMacros) .teFile path l) :
    (∀ res, Finds .noExplicitDeclaration c.tables (c.dataFor .teFile path) l res →
      ∃ name mod, c.Unrequired (cutLastDot (basename path)) l name mod ∧
        res = ⟨'W', 1, cs!"No explicit declaration for " ++ name ++ cs!" from module " ++ mod ++
          cs!".  You should access it via interface call or use a require block."⟩) ∧
    ((∃ name mod, c.Unrequired (cutLastDot (basename path)) l name mod) →
      ∃ res, Finds .noExplicitDeclaration c.tables (c.dataFor .teFile path) l res) := by
  obtain ⟨ops, tr, ht, -⟩ := tables_ops hc hok
  obtain ⟨-, -, e3, -⟩ := tables_ne ht
  have hrun : checkNoExplicitDeclaration c.tables (c.dataFor .teFile path) l =
      checkNoExplicitDeclaration (tablesAfter ops) (c.dataFor .teFile path) l := by
    unfold checkNoExplicitDeclaration
    have : ∀ ns, explicitLoop c.tables (c.dataFor .teFile path) l ns = explicitLoop (tablesAfter ops) (c.dataFor .teFile path) l ns := by
      intro ns
      induction ns with
      | nil => rfl
      | cons n ns ih => simp only [explicitLoop, explicitFlavor, e3, ih]
    simp only [this]
  have key := C40_explicit ops (c.dataFor .teFile path) l rfl fun r hr hb => by
    refine LocOk.require ?_ hb
    unfold LocOk
    rw [hr.1]
    exact hl.ok
  have hu : ∀ name mod, (Uses l.data name ∧ NotRequired ops (c.dataFor .teFile path).modName l name mod) ↔
      c.Unrequired (cutLastDot (basename path)) l name mod := by
    intro name mod
    unfold NotRequired Course.Unrequired Course.Explicit ExplicitSymbol
    simp only [e3, lookUpDecl_some_iff, lookUpDecl_none_iff]
    rfl
  unfold Finds
  simp only [CheckFn.run, hrun]
  obtain ⟨k1, k2⟩ := finds_reportsOne key
  refine ⟨fun res h => ?_, fun ⟨name, mod, h⟩ => ?_⟩
  · obtain ⟨name, mod, h1, h2, h3⟩ := k1 res h
    exact ⟨name, mod, (hu name mod).1 ⟨h1, h2⟩, h3⟩
  · obtain ⟨h1, h2⟩ := (hu name mod).2 h
    exact k2 ⟨_, name, mod, h1, h2, rfl⟩

/-- An interface file of the policy or of its context defines the template. -/
def Spec.Course.DefinesTemplate (c : Course) (w : Machine) (n : Str) : Prop :=
  ∃ mod f, c.Says w mod f ∧ ∃ d ∈ definitions f, d.name = n ∧ d.isTemplate = true

/-- **C77 (which names are templates).** The templates that the checks know are those that the interface
files define. -/
theorem C77_templates (hc : c.Of w args paths) (hok : c.SupportOk w args) (n : Str) :
    (c.tables.lookUpTemplate n).isSome = true ↔ c.DefinesTemplate w n := by
  obtain ⟨ops, tr, ht, s, i, t, m, m', rfl, hs, hi, htt⟩ := tables_ops hc hok
  rw [(tables_ne ht).2.2.2, isSome_lookUpTemplate]
  obtain ⟨-, n0, n1, n2⟩ := policyOps_no_defs htt
  have e1 : ∀ op, (op ∈ s ++ i ++ t ↔ op ∈ s ∨ op ∈ i ∨ op ∈ t) := fun op => by simp
  have s0 : MapOp.template n ∉ s := fun h => by have := hs _ h; cases this
  have s1 : ∀ fl x, MapOp.templateDecl n fl x ∉ s := fun fl x h => by have := hs _ h; cases this
  have s2 : ∀ d, MapOp.templateCall n d ∉ s := fun d h => by have := hs _ h; cases this
  unfold KnownTemplate
  simp only [e1, s0, s1, s2, n0, n1, n2, false_or, or_false]
  constructor
  · have key : ∀ op, op ∈ i → (op = .template n ∨ (∃ fl x, op = .templateDecl n fl x) ∨ ∃ d, op = .templateCall n d) →
        c.DefinesTemplate w n := by
      intro op ho hk
      obtain ⟨p, hp, mod, f, pre, a, post, h4, -, h5, h6⟩ := policyOps_elim hi ho
      obtain ⟨-, d2, d3, d4⟩ := fileOps_defs h4.2.1 h5
      rcases hk with rfl | ⟨fl, x, rfl⟩ | ⟨d, rfl⟩
      · obtain ⟨d, hd, e, he⟩ := (d2 _).1 h6
        exact ⟨mod, f, .inl ⟨p, hp, h4⟩, d, hd, e.symm, he⟩
      · obtain ⟨d, hd, e, he, -⟩ := (d3 _ _ _).1 h6
        exact ⟨mod, f, .inl ⟨p, hp, h4⟩, d, hd, e.symm, he⟩
      · obtain ⟨d, hd, e, he, -⟩ := (d4 _ _).1 h6
        exact ⟨mod, f, .inl ⟨p, hp, h4⟩, d, hd, e.symm, he⟩
    rintro (h | ⟨fl, x, h⟩ | ⟨d, h⟩)
    · exact key _ h (.inl rfl)
    · exact key _ h (.inr (.inl ⟨fl, x, rfl⟩))
    · exact key _ h (.inr (.inr ⟨d, rfl⟩))
  · rintro ⟨mod, f, ⟨p, hp, hf⟩ | ⟨p, hp, hf⟩, d, hd, rfl, hit⟩
    · obtain ⟨pre, a, post, rfl, h5⟩ := policyOps_intro hi hp hf
      have := ((fileOps_defs hf.2.1 h5).2.1 d.name).2 ⟨d, hd, rfl, hit⟩
      exact .inl (by simp [this])
    · rw [te_no_defs hf.2.1] at hd; cases hd

/-- **C77 (S-004).** At a call in the text of an interface file, S-004 finds something exactly if the innermost
definition around it is that of an interface and the called is a template. -/
theorem C77_calls_template (hc : c.Of w args paths) (hok : c.SupportOk w args) {d : IfCallData} (hd : l.data = .ifCall d)
    {path : Str} (hl : PlaceIn (w.sources c.settings.customFcMacros) .ifFile path l) (res : CheckResult) :
    Finds .ifCallsTemplate c.tables (c.dataFor .ifFile path) l res ↔
      ∃ p nm, DefinitionAround p l ∧ p.data = .plain .interfaceDef (some nm) ∧ c.DefinesTemplate w d.name ∧
        res = ⟨'S', 4, cs!"interface " ++ nm ++ cs!" calls template " ++ d.name⟩ := by
  obtain ⟨ops, tr, ht, -⟩ := tables_ops hc hok
  have hrun : checkIfCallsTemplate c.tables (c.dataFor .ifFile path) l =
      checkIfCallsTemplate (tablesAfter ops) (c.dataFor .ifFile path) l := by rw [ht]; rfl
  unfold Finds
  simp only [CheckFn.run, hrun]
  by_cases hp : ∃ p, DefinitionAround p l
  · obtain ⟨p, hp⟩ := hp
    have huniq : ∀ q, DefinitionAround q l → q = p := by
      intro q hq
      have h1 := find_definition_iff.2 hq
      rw [find_definition_iff.2 hp] at h1
      cases h1; rfl
    have hpo : LocOk p := by unfold LocOk; rw [hp.2.1.1]; exact hl.ok
    rw [finds_reports (C61_calls_template ops _ l p d rfl hd hp hpo.named)]
    simp only [← isSome_lookUpTemplate, ← (tables_ne ht).2.2.2, C77_templates hc hok]
    constructor
    · rintro ⟨nm, h1, h2, h3⟩; exact ⟨p, nm, hp, h1, h2, h3⟩
    · rintro ⟨q, nm, hq, h1, h2, h3⟩
      cases huniq q hq
      exact ⟨nm, h1, h2, h3⟩
  · rw [C61_calls_template_outside _ _ _ (.inr fun p h => hp ⟨p, h⟩)]
    constructor
    · rintro ⟨s, h⟩; simp [stateless] at h
    · rintro ⟨p, nm, h, -⟩; exact absurd ⟨p, h⟩ hp

/-- **C77 (S-005).** At a declaration in the text, S-005 finds something exactly if the file is an interface
file and of the definitions and require blocks around the declaration the innermost is the definition of an
interface. -/
theorem C77_declaration {d : DeclData} (hd : l.data = .decl d) {kind : FileFlavor} {path : Str} (res : CheckResult) :
    Finds .declInIf c.tables (c.dataFor kind path) l res ↔
      (kind = .ifFile ∧ DirectlyInInterface l) ∧ res = ⟨'S', 5, cs!"Declaration of " ++ d.name ++ cs!" in interface"⟩ := by
  unfold Finds
  simp only [CheckFn.run]
  rw [finds_reports (C61_declaration _ l d hd)]
  rfl

/-- What kind of symbol W-002 takes a name for. -/
def Spec.Course.KindOf (c : Course) (name kind : Str) : Prop :=
  let known fl := c.tables.lookUpDecl name fl ≠ none
  (known .type ∧ kind = cs!"Type") ∨
  (¬known .type ∧ known .attribute ∧ kind = cs!"Attribute") ∨
  (¬known .type ∧ ¬known .attribute ∧ known .attributeRole ∧ kind = cs!"Role Attribute") ∨
  (¬known .type ∧ ¬known .attribute ∧ ¬known .attributeRole ∧ known .role ∧ kind = cs!"Role")

/-- W-002: the statement at `l`, in the definition `d`, uses a symbol that no require block before it in the
definition mentions. -/
def Spec.Course.UsedUnrequired (c : Course) (d l : Loc) (name kind : Str) : Prop :=
  Uses l.data name ∧ name ≠ cs!"system_r" ∧ c.KindOf name kind ∧
    ¬∃ b, RequireBlock b ∧ Encloses d b ∧ b.addr < l.addr ∧ BlockMentions b name

/-- **C77 (W-002).** In the text of an interface file, W-002 finds something at a statement in a definition
exactly if it uses a symbol that no require block before it in the definition mentions; and it names one. -/
theorem C77_used (hc : c.Of w args paths) (hok : c.SupportOk w args) {path : Str} {d : Loc} (hd : DefinitionAround d l) :
    (∀ res, Finds .nameUsedButNotRequiredInIf c.tables (c.dataFor .ifFile path) l res →
      ∃ name kind, c.UsedUnrequired d l name kind ∧
        res = ⟨'W', 2, kind ++ cs!" " ++ name ++ cs!" is used in interface but not required"⟩) ∧
    ((∃ name kind, c.UsedUnrequired d l name kind) →
      ∃ res, Finds .nameUsedButNotRequiredInIf c.tables (c.dataFor .ifFile path) l res) := by
  obtain ⟨ops, tr, ht, -⟩ := tables_ops hc hok
  obtain ⟨-, -, e3, -⟩ := tables_ne ht
  have hrun : checkNameUsedButNotRequiredInIf c.tables (c.dataFor .ifFile path) l =
      checkNameUsedButNotRequiredInIf (tablesAfter ops) (c.dataFor .ifFile path) l := by
    unfold checkNameUsedButNotRequiredInIf
    have : ∀ req ns, notRequiredLoop c.tables req ns = notRequiredLoop (tablesAfter ops) req ns := by
      intro req ns
      induction ns with
      | nil => rfl
      | cons n ns ih => simp only [notRequiredLoop, requiredFlavorName, e3, ih]
    simp only [this]
  have hk : ∀ name kind, KindOf ops name kind ↔ c.KindOf name kind := by
    intro name kind
    unfold KindOf Course.KindOf
    simp only [e3, ← isSome_lookUpDecl, Option.isSome_iff_ne_none]
  unfold Finds
  simp only [CheckFn.run, hrun]
  obtain ⟨k1, k2⟩ := finds_reportsOne (C41_required ops (c.dataFor .ifFile path) l d rfl hd)
  refine ⟨fun res h => ?_, fun ⟨name, kind, h1, h2, h3, h4⟩ => ?_⟩
  · obtain ⟨name, kind, h1, ⟨h2, h3, h4⟩, h5⟩ := k1 res h
    exact ⟨name, kind, ⟨h1, h2, (hk name kind).1 h3, h4⟩, h5⟩
  · exact k2 ⟨_, name, kind, h1, ⟨h2, (hk name kind).2 h3, h4⟩, rfl⟩

/-- **C77 (W-011).** At a declaration in the text of an interface file, W-011 finds something exactly if the
declaration stands in a require block, is of a class that is looked at, and the symbol is not one of the own
module (nor, for a role, of the module `kernel`); it says whose it is, if anyone's. -/
theorem C77_own (hc : c.Of w args paths) (hok : c.SupportOk w args) {path : Str} {d : DeclData} (hd : l.data = .decl d)
    (res : CheckResult) :
    Finds .requiredDeclarationOwn c.tables (c.dataFor .ifFile path) l res ↔
      OwnershipChecked l d ∧ c.tables.lookUpDecl d.name d.flavor ≠ some (cutLastDot (basename path)) ∧
      ¬(d.flavor = .role ∧ c.tables.lookUpDecl d.name d.flavor = some cs!"kernel") ∧
      ((c.tables.lookUpDecl d.name d.flavor = none ∧
        res = ⟨'W', 11, cs!"Definition of declared " ++ declFlavorToString d.flavor ++ cs!" " ++
          d.name ++ cs!" not found in any module"⟩) ∨
       ∃ mod, c.tables.lookUpDecl d.name d.flavor = some mod ∧
        res = ⟨'W', 11, cs!"Definition of declared " ++ declFlavorToString d.flavor ++ cs!" " ++
          d.name ++ cs!" not found in own module, but in module " ++ mod⟩) := by
  obtain ⟨ops, tr, ht, -⟩ := tables_ops hc hok
  obtain ⟨-, -, e3, -⟩ := tables_ne ht
  have hrun : checkRequiredDeclarationOwn c.tables (c.dataFor .ifFile path) l =
      checkRequiredDeclarationOwn (tablesAfter ops) (c.dataFor .ifFile path) l := by
    unfold checkRequiredDeclarationOwn
    simp only [e3]
  unfold Finds
  simp only [CheckFn.run, hrun]
  rw [finds_reports (C62_own ops _ l d rfl hd)]
  unfold OwnSymbol
  simp only [e3, ← lookUpDecl_some_iff, ← lookUpDecl_none_iff, not_or, ne_eq, and_assoc]
  rfl

end

/-! ## Whole runs -/

section
variable {w : Machine} {args : List Opt} {paths : List Str} {c : Course} {r : MainResult}

/-- A call that should be in an optional block: at `l`, in a file of module `own`. -/
def Spec.Course.NotOptional (c : Course) (w : Machine) (args : List Opt) (own : Str) (l : Loc) (d : IfCallData) (mod : Str) : Prop :=
  l.data = .ifCall d ∧ c.DefinedBy w d.name mod ∧ mod ≠ own ∧ (∃ status, c.StatusOf w args mod status ∧ status ≠ cs!"base") ∧
    ¬∃ b, Encloses b l ∧ b.flavor = .optionalPolicy

theorem flavor_call {l : Loc} (h : l.flavor = .ifCall) : ∃ d, l.data = .ifCall d := by
  have h : l.info.data.flavor = .ifCall := h
  show ∃ d, l.info.data = _
  cases he : l.info.data with
  | ifCall d => exact ⟨d, rfl⟩
  | plain p s => rw [he] at h; cases p <;> simp [NodeData.flavor, PlainFlavor.toFlavor] at h
  | attr d => rw [he] at h; simp only [NodeData.flavor] at h; split at h <;> simp at h
  | _ => rw [he] at h; simp [NodeData.flavor] at h

/-- **C77 (calls outside of optional blocks).** What W-005 reports is exactly this: calls in the text of the
checked te and interface files to interfaces of modules outside the base and other than the own, with no optional block
around them. -/
theorem C77_optional_run (h : selintMain w args paths = .ok r) (hr : Reaches w.config args paths.length) (h70 : r.status ≠ 70)
    (ho : Opt.summaryOnly ∉ args) (hc : c.Of w args paths) (hok : c.SupportOk w args) {row : CheckRow} (hrow : row ∈ checkTable)
    (hs : row.sev = 'W') (hn : row.num = 5) :
    (∀ f ∈ r.findings, f.result.severity = 'W' → f.result.checkId = 5 → c.Selects row ∧
      ∃ x ∈ c.files, f.filename = basename x.path ∧ ∃ l d mod, PlaceIn (w.sources c.settings.customFcMacros) x.kind x.path l ∧
        f.lineno = l.info.lineno ∧ c.NotOptional w args (cutLastDot (basename x.path)) l d mod ∧
        f.result.message = cs!"Call to interface " ++ d.name ++ cs!" defined in module " ++ mod ++
          cs!" should be in optional_policy block") ∧
    ∀ x ∈ c.files, ∀ l d mod, c.Selects row → PlaceIn (w.sources c.settings.customFcMacros) x.kind x.path l →
      ¬DisabledIn (w.sources c.settings.customFcMacros) x.path row.id → ¬Faulty c.tables d.name →
      c.NotOptional w args (cutLastDot (basename x.path)) l d mod →
      ⟨basename x.path, l.info.lineno, 'W', 5, cs!"Call to interface " ++ d.name ++ cs!" defined in module " ++ mod ++
          cs!" should be in optional_policy block"⟩ ∈ r.findings := by
  have hrow' : row.fn = .moduleIfCallInOptional ∧ row.on = [.ifCall] := by
    revert hs hn
    revert row
    decide
  obtain ⟨hfn, hon⟩ := hrow'
  have hp : row.fn ∈ placeChecks := by rw [hfn]; decide
  refine ⟨fun f hf e1 e2 => ?_, fun x hx l d mod hsel hl hd hft hno => ?_⟩
  · obtain ⟨h1, x, hx, h2, l, h3, h4, h5, h6⟩ := C77_reported h hr h70 ho hc hrow hp (e1.trans hs.symm) (e2.trans hn.symm) hf
    rw [hon, List.mem_singleton] at h4
    obtain ⟨d, hd⟩ := flavor_call h4
    rw [hfn, C77_optional hc hok hd] at h6
    obtain ⟨mod, status, g1, g2, g3, g4, g5, g6⟩ := h6
    exact ⟨h1, x, hx, h2, l, d, mod, h3, h5, ⟨hd, g1, g2, ⟨status, g3, g4⟩, g5⟩, by rw [g6]⟩
  · obtain ⟨g0, g1, g2, ⟨status, g3, g4⟩, g5⟩ := hno
    refine C77_found h hr h70 ho hc hrow hp hsel hx hl ?_ ?_ hd hs.symm hn.symm ?_
    · rw [hon, List.mem_singleton]
      show l.data.flavor = _
      rw [g0]; rfl
    · rintro d' e
      rw [g0] at e; cases e; exact hft
    · rw [hfn, C77_optional hc hok g0]
      exact ⟨mod, status, g1, g2, g3, g4, g5, rfl⟩

end

/-! ## C77 is about something -/

/-- An interface of module `bar`. -/
def barText : Str := cs!"interface(`bar_x',`\n\tbar_y($1)\n')\n"
/-- Module `foo` calls it twice, once in an optional block. -/
def fooText : Str := cs!"policy_module(foo, 1.0)\nbar_x(foo_t)\noptional_policy(`\n\tbar_x(foo_t)\n')\n"

/-- A machine with these files and a module configuration. -/
def exOptional : Machine :=
  { exSupport with
    fs := fun p => if p = cs!"mod" then .dir (.cons cs!"access_vectors" .file (.cons cs!"bar.if" .file (.cons cs!"foo.te" .file
      (.cons cs!"modules.conf" .file (.cons cs!"obj_perm_sets.spt" .file .nil))))) else .file
    text := fun name => if name = cs!"mod/foo.te" then some fooText else if name = cs!"mod/bar.if" then some barText
      else exSupport.text name
    confLines := fun name => if name = cs!"mod/modules.conf" then some [(cs!"bar = module\n", [])] else none }

theorem optional_mods : ModsSay exOptional (some cs!"mod/modules.conf") [(cs!"bar", cs!"module")] := by
  refine .inr ⟨_, rfl, [some (cs!"bar", cs!"module")], rfl, ?_, rfl⟩
  intro i hi
  have : i = 0 := by simp at hi; omega
  subst this
  exact .entry { shape := ⟨[], [' '], [' '], ['\n'], [], rfl, by simp, by simp [isWs], by simp [isWs], by simp [isWs], by simp, by simp,
                   by simp [IsTrailer]⟩
                 nameWord := by simp [IsWord, isWs], statusWord := by simp [IsWord, isWs], noComment := by simp }

/-- What the example looks at. -/
def optionalLook (c : Course) : Bool × List Str × List Str × List Str × List Str × List Str :=
  (c.settings.opts == optionsOf [.recursive, .source] && atLeast 'W' c.settings.severity &&
      isCheckEnabled cs!"W-005" c.settings.enableConf && c.tables.lookUpIf cs!"bar_x" == some cs!"bar" &&
      c.tables.lookUpMod cs!"bar" == some cs!"module" && c.scan.accessVectors == some cs!"mod/access_vectors" &&
      c.scan.modulesConf == some cs!"mod/modules.conf" && c.scan.objPermSets == some cs!"mod/obj_perm_sets.spt" && c.tables.template.isEmpty,
    c.scan.te, c.scan.ifs, c.scan.fc, c.scan.contextTe, c.scan.contextIf)

/-- The place of the first call in the text. -/
theorem foo_place : ∃ f t1 t2 t4 i, ParsesTo fooText f ∧ fileNodes .teFile f = [t1, t2, .mk i [], t4] ∧
    i = ⟨.ifCall ⟨cs!"bar_x", [(cs!"foo_t", false)]⟩, none, 2⟩ := by
  obtain ⟨ts, hts⟩ : ∃ ts, lexFile fooText = some ts := by
    cases h : lexFile fooText with
    | some ts => exact ⟨ts, rfl⟩
    | none => exact absurd h (by decide +kernel)
  have hv : ((lexFile fooText).bind pFile).map (fun f => (fileNodes .teFile f).map fun t => (t.info, t.children.isEmpty)) =
      some [(⟨.plain .teFile none, none, 0⟩, true), (⟨.header ⟨.macro, cs!"foo"⟩, none, 1⟩, true),
        (⟨.ifCall ⟨cs!"bar_x", [(cs!"foo_t", false)]⟩, none, 2⟩, true), (⟨.plain .optionalPolicy none, none, 3⟩, false)] := by
    decide +kernel
  rw [hts, Option.bind_some] at hv
  obtain ⟨f, hf, hv⟩ := Option.map_eq_some_iff.1 hv
  refine ⟨f, ?_⟩
  generalize hg : fileNodes .teFile f = ns at hv ⊢
  match ns, congrArg List.length hv with
  | [t1, t2, .mk i cs, t4], _ =>
    simp only [List.map_cons, List.map_nil, List.cons.injEq, Prod.mk.injEq, Tree.info, Tree.children, List.isEmpty_iff] at hv
    obtain ⟨-, -, ⟨h1, rfl⟩, -⟩ := hv
    exact ⟨t1, t2, t4, i, ⟨ts, hts, C68_sound hf⟩, rfl, h1⟩

set_option synthInstance.maxSize 1000 in
/-- `selint -r -s mod` on this machine meets the hypotheses of C77_optional_run: the call outside of the
optional block is reported. -/
example : ∃ r, selintMain exOptional [.recursive, .source] [cs!"mod"] = .ok r ∧
    (⟨cs!"foo.te", 2, ⟨'W', 5, cs!"Call to interface bar_x defined in module bar should be in optional_policy block"⟩⟩ : Finding) ∈
      r.findings := by
  obtain ⟨r, hm, h70⟩ : ∃ r, selintMain exOptional [.recursive, .source] [cs!"mod"] = .ok r ∧ r.status ≠ 70 := by
    cases h : selintMain exOptional [.recursive, .source] [cs!"mod"] with
    | ub =>
      have : (match selintMain exOptional [.recursive, .source] [cs!"mod"] with | .ok _ => true | .ub => false) = true := by
        decide +kernel
      rw [h] at this; cases this
    | ok r =>
      have : (match selintMain exOptional [.recursive, .source] [cs!"mod"] with
        | .ok r => r.status | .ub => 70) ≠ 70 := by decide +kernel
      rw [h] at this
      exact ⟨r, rfl, this⟩
  have h : (courseOf exOptional [.recursive, .source] [cs!"mod"]).map optionalLook =
      some (true, [cs!"mod/foo.te"], [cs!"mod/bar.if"], [], [], []) := by decide +kernel
  simp only [optionalLook, Option.map_eq_some_iff, Prod.mk.injEq, beq_iff_eq, Bool.and_eq_true, List.isEmpty_iff] at h
  obtain ⟨c, h1, ⟨⟨⟨⟨⟨⟨⟨⟨h2, h3⟩, h4⟩, h5⟩, h6⟩, g5⟩, g6⟩, g7⟩, h10⟩, h11, h12, h13, h14, h15⟩ := h
  have hc := courseOf_of h1 h2
  have hok : c.SupportOk exOptional [.recursive, .source] := by
    obtain ⟨s1, -, s3⟩ := support_says (w := exSupport) rfl rfl rfl
    exact .inr ⟨_, _, _, by rw [g5]; exact s1, by rw [g6]; exact optional_mods, by rw [g7]; exact s3⟩
  have hfiles : c.files.map (fun x => (x.kind, x.path)) = [(.teFile, cs!"mod/foo.te"), (.ifFile, cs!"mod/bar.if")] := by
    rw [(C72_files hc).1, h11, h12, h13]; rfl
  obtain ⟨x, hx, hkp⟩ : ∃ x ∈ c.files, (x.kind, x.path) = (.teFile, cs!"mod/foo.te") := by
    have : (FileFlavor.teFile, cs!"mod/foo.te") ∈ c.files.map fun x => (x.kind, x.path) := by rw [hfiles]; simp
    simpa only [List.mem_map] using this
  simp only [Prod.mk.injEq] at hkp
  have hreach : Reaches exOptional.config [.recursive, .source] 1 := exMachine_reaches (by decide) (by simp) (by decide)
  obtain ⟨f, t1, t2, t4, i, hp, hn, rfl⟩ := foo_place
  refine ⟨r, hm, ?_⟩
  have := (C77_optional_run (row := ⟨'W', 5, .moduleIfCallInOptional, [.ifCall], fun _ => true⟩) hm hreach h70 (by simp) hc hok
    (by simp [checkTable]) rfl rfl).2 x hx
    ⟨.mk ⟨.ifCall ⟨cs!"bar_x", [(cs!"foo_t", false)]⟩, none, 2⟩ [], [t2, t1], [t4], []⟩ ⟨cs!"bar_x", [(cs!"foo_t", false)]⟩ cs!"bar"
    ⟨h3, h4, rfl⟩ ⟨.inl hkp.1, fooText, f, by rw [hkp.2]; rfl, hp, by rw [hkp.1]; exact hn.symm⟩ ?_ ?_ ⟨rfl, ?_, ?_, ⟨cs!"module", ?_, ?_⟩, ?_⟩
  · rw [hkp.2] at this; exact this
  · rintro ⟨s, ts, k, cmd, e, u1, u2, u3, -⟩
    rw [hkp.2] at u1
    cases u1
    have : (lexFile fooText).all (fun ts => ts.all fun t => match t.2 with | .command _ => false | _ => true) = true := by
      decide +kernel
    rw [u2] at this
    simp only [Option.all_some, List.all_eq_true] at this
    exact absurd (this _ u3) (by simp)
  · refine not_faulty ?_
    unfold Maps.lookUpTemplate; rw [h10]; rfl
  · exact (C77_interface_module hc hok _ _).1 h5
  · rw [hkp.2]; decide
  · exact (C77_status hc hok _ _).1 h6
  · decide
  · rintro ⟨b, hb, -⟩
    have := mem_ancestors_iff.2 hb
    rw [SamePlace.ancestors_none rfl] at this
    cases this

end Selint
