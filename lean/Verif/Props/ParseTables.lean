import Verif.Lemmas.ParseTables
/-! # C13, C63, C64: what parsing records in the symbol tables -/

namespace Selint

open Spec

/-! ## Histories of insertions -/

theorem lookUpDecl_foldl (ops : List MapOp) (k : Str) (fl : DeclFlavor) (m : Maps) :
    (ops.foldl MapOp.apply m).lookUpDecl k fl =
      (m.lookUpDecl k fl).or (ops.findSome? (·.declares k fl)) := by
  refine find_foldl (fun m => m.declTable fl) (fun k op => op.declares k fl) ?_ ops m k
  intro m op k
  rw [apply_declTable]
  cases op with
  | decl n md g =>
    simp only [MapOp.declares]
    by_cases hg : fl = g
    · subst hg; simp [Assoc.find_insertNew]
    · simp [hg, Ne.symm hg]
  | _ => simp [MapOp.declares]

theorem declares_some {ops : List MapOp} {k : Str} {fl : DeclFlavor} {md : Str}
    (h : ops.findSome? (·.declares k fl) = some md) : MapOp.decl k md fl ∈ ops := by
  obtain ⟨op, hop, h'⟩ := List.exists_of_findSome?_eq_some h
  clear h
  have h := h'; clear h'
  cases op with
  | decl n md' g =>
    simp only [MapOp.declares] at h
    split at h
    · rename_i hh
      obtain ⟨rfl, rfl⟩ := hh
      cases h
      exact hop
    · cases h
  | _ => cases h

theorem declares_isSome {ops : List MapOp} {k : Str} {fl : DeclFlavor} {md : Str}
    (h : MapOp.decl k md fl ∈ ops) : ∃ md', ops.findSome? (·.declares k fl) = some md' := by
  have : (ops.findSome? (·.declares k fl)).isSome = true := by
    rw [List.findSome?_isSome_iff]
    exact ⟨_, h, by simp [MapOp.declares]⟩
  exact Option.isSome_iff_exists.1 this

/-- Where a recorded name comes from: it is declared, or a call that is made expands to a
declaration of it. -/
def Source (mod : Str) (fs : List Fact) (T : Assoc TemplateElem → Prop) (x : DeclFlavor × Str) : Prop :=
  x ∈ fs.flatMap declared ∨
    ∃ c i, Fact.calls c i ∈ fs ∧ ∃ T', T T' ∧ ∃ e out, Expansion T' mod c e out ∧ x ∈ out

theorem Source.mono {mod : Str} {fs gs : List Fact} {T U : Assoc TemplateElem → Prop}
    {x : DeclFlavor × Str} (h : Source mod fs T x) (hs : ∀ f ∈ fs, f ∈ gs) (hT : ∀ t, T t → U t) :
    Source mod gs U x := by
  rcases h with h | ⟨c, i, hc, T', ht, e, out, hx⟩
  · obtain ⟨f, hf, hx⟩ := List.mem_flatMap.1 h
    exact Or.inl (List.mem_flatMap.2 ⟨f, hs f hf, hx⟩)
  · exact Or.inr ⟨c, i, hs _ hc, T', hT _ ht, e, out, hx⟩

theorem decl_mem_declOps {mod n md : Str} {fl : DeclFlavor} {ds : List (DeclFlavor × Str)} :
    MapOp.decl n md fl ∈ declOps mod ds ↔ (fl, n) ∈ ds ∧ md = mod := by
  simp only [declOps, List.mem_map, MapOp.decl.injEq]
  constructor
  · rintro ⟨⟨f, x⟩, h, rfl, rfl, rfl⟩; exact ⟨h, rfl⟩
  · rintro ⟨h, rfl⟩; exact ⟨_, h, rfl, rfl, rfl⟩

theorem factOps_decl {T : Assoc TemplateElem} {mod : Str} {f : Fact} {ops : List MapOp}
    (h : FactOps T mod f ops) {n md : Str} {fl : DeclFlavor} :
    (MapOp.decl n md fl ∈ ops → md = mod ∧ Source mod [f] (· = T) (fl, n)) ∧
    ((fl, n) ∈ declared f → MapOp.decl n mod fl ∈ ops) := by
  have plain : ops = declOps mod (declared f) →
      (MapOp.decl n md fl ∈ ops → md = mod ∧ Source mod [f] (· = T) (fl, n)) ∧
      ((fl, n) ∈ declared f → MapOp.decl n mod fl ∈ ops) := by
    rintro rfl
    refine ⟨fun h => ?_, fun h => decl_mem_declOps.2 ⟨h, rfl⟩⟩
    obtain ⟨h, e⟩ := decl_mem_declOps.1 h
    exact ⟨e, Or.inl (by simpa using h)⟩
  cases f with
  | declares g x => exact plain h
  | aliases x => exact plain h
  | calls c i =>
    obtain ⟨e, out, hx, rfl⟩ := h
    refine ⟨fun h => ?_, fun h => by simp [declared] at h⟩
    rcases List.mem_append.1 h with h | h
    · obtain ⟨h, e'⟩ := decl_mem_declOps.1 h
      exact ⟨e', Or.inr ⟨c, i, by simp, T, rfl, e, out, hx, h⟩⟩
    · cases i with
      | none => simp at h
      | some i => dsimp only at h; split at h <;> simp at h
  | transforms i => cases h; simp [declared]
  | filetrans i => cases h; simp [declared]
  | roles i => cases h; simp [declared]

theorem factsOps_decl {T : Assoc TemplateElem} {mod : Str} {fs : List Fact} {n md : Str} {fl : DeclFlavor} :
    ∀ {ops : List MapOp}, FactsOps T mod fs ops →
    (MapOp.decl n md fl ∈ ops → md = mod ∧ Source mod fs (· = T) (fl, n)) ∧
    ((fl, n) ∈ fs.flatMap declared → MapOp.decl n mod fl ∈ ops) := by
  induction fs with
  | nil => rintro ops rfl; simp
  | cons f fs ih =>
    rintro ops ⟨a, b, rfl, ha, hb⟩
    constructor
    · intro h
      rcases List.mem_append.1 h with h | h
      · obtain ⟨e, hs⟩ := (factOps_decl ha).1 h
        exact ⟨e, hs.mono (by simp) (fun _ h => h)⟩
      · obtain ⟨e, hs⟩ := (ih hb).1 h
        exact ⟨e, hs.mono (fun f hf => List.mem_cons_of_mem _ hf) (fun _ h => h)⟩
    · intro h
      rw [List.flatMap_cons] at h
      rcases List.mem_append.1 h with h | h
      · exact List.mem_append_left _ ((factOps_decl (md := mod) ha).2 h)
      · exact List.mem_append_right _ ((ih hb).2 h)

theorem templateFactOps_decl {t n md : Str} {fl : DeclFlavor} {f : Fact} :
    MapOp.decl n md fl ∉ templateFactOps t f := by
  simp [templateFactOps]

theorem defOps_decl {m : Maps} {mod : Str} {d : IfDef} {ops : List MapOp} (h : DefOps m mod d ops)
    {n md : Str} {fl : DeclFlavor} :
    (MapOp.decl n md fl ∈ ops → d.isTemplate = false ∧ md = mod ∧
      Source mod (ifDefFacts mod d) (· = m.template) (fl, n)) ∧
    (d.isTemplate = false → (fl, n) ∈ (ifDefFacts mod d).flatMap declared → MapOp.decl n mod fl ∈ ops) := by
  unfold DefOps at h
  by_cases ht : d.isTemplate = true
  · simp only [ht, if_true] at h
    subst h
    refine ⟨fun h => ?_, fun h => by simp [ht] at h⟩
    rcases List.mem_append.1 h with h | h
    · simp at h
    · obtain ⟨f, _, hf⟩ := List.mem_flatMap.1 h
      exact absurd hf templateFactOps_decl
  · simp only [ht, Bool.false_eq_true, if_false] at h
    obtain ⟨a, rfl, ha⟩ := h
    constructor
    · intro h
      rcases List.mem_cons.1 h with h | h
      · cases h
      · obtain ⟨e, hs⟩ := (factsOps_decl ha).1 h
        exact ⟨by simpa using ht, e, hs⟩
    · intro _ h
      exact List.mem_cons_of_mem _ ((factsOps_decl (md := mod) ha).2 h)

theorem defsOps_decl {mod : Str} {ds : List IfDef} {n md : Str} {fl : DeclFlavor} :
    ∀ {m : Maps} {ops : List MapOp}, DefsOps mod m ds ops →
    (MapOp.decl n md fl ∈ ops → md = mod ∧
      Source mod ((ds.filter (!·.isTemplate)).flatMap (ifDefFacts mod))
        (fun T => ∃ pre, pre <+: ops ∧ T = (pre.foldl MapOp.apply m).template) (fl, n)) ∧
    ((fl, n) ∈ ((ds.filter (!·.isTemplate)).flatMap (ifDefFacts mod)).flatMap declared →
      MapOp.decl n mod fl ∈ ops) := by
  induction ds with
  | nil => rintro m ops rfl; simp
  | cons d ds ih =>
    rintro m ops ⟨a, b, rfl, ha, hb⟩
    constructor
    · intro h
      rcases List.mem_append.1 h with h | h
      · obtain ⟨ht, e, hs⟩ := (defOps_decl ha).1 h
        refine ⟨e, hs.mono ?_ (fun _ h => ⟨[], List.nil_prefix, h⟩)⟩
        intro f hf
        rw [List.filter_cons_of_pos (by simp [ht]), List.flatMap_cons]
        exact List.mem_append_left _ hf
      · obtain ⟨e, hs⟩ := (ih hb).1 h
        refine ⟨e, hs.mono ?_ ?_⟩
        case refine_2 =>
          rintro T ⟨pre, h1, h2⟩
          exact ⟨a ++ pre, List.prefix_append_right_inj a |>.2 h1, by rw [List.foldl_append, h2]⟩
        intro f hf
        rw [List.filter_cons]
        split
        · rw [List.flatMap_cons]; exact List.mem_append_right _ hf
        · exact hf
    · intro h
      rw [List.filter_cons] at h
      split at h
      · rename_i ht
        rw [List.flatMap_cons, List.flatMap_append] at h
        rcases List.mem_append.1 h with h | h
        · exact List.mem_append_left _ ((defOps_decl (md := mod) ha).2 (by simpa using ht) h)
        · exact List.mem_append_right _ ((ih hb).2 h)
      · exact List.mem_append_right _ ((ih hb).2 h)

/-- A te or interface file. -/
def isPolicy : SourceFile → Bool
  | .te _ _ _ | .iface _ _ _ => true
  | _ => false

theorem fileOps_decl {m : Maps} {mod : Str} {f : SourceFile} (hp : isPolicy f = true) {ops : List MapOp}
    (h : FileOps m mod f ops) {n md : Str} {fl : DeclFlavor} :
    (MapOp.decl n md fl ∈ ops → md = mod ∧ Source mod (fileFacts mod f)
      (fun T => ∃ pre, pre <+: ops ∧ T = (pre.foldl MapOp.apply m).template) (fl, n)) ∧
    ((fl, n) ∈ (fileFacts mod f).flatMap declared → MapOp.decl n mod fl ∈ ops) := by
  cases f with
  | te cs hd b =>
    refine ⟨fun hm => ?_, (factsOps_decl (md := mod) h).2⟩
    obtain ⟨e, hs⟩ := (factsOps_decl h).1 hm
    exact ⟨e, hs.mono (fun _ h => h) (fun _ h => ⟨[], List.nil_prefix, h⟩)⟩
  | iface cs d ls => exact defsOps_decl h
  | _ => cases hp

/-! ## C13 -/

/-- **C13**, in full detail: for every accepted file, what parsing does to the symbol tables
is exactly the sequence of insertions `FileOps` gives for the file, in source order: nothing
for what is in a require block; in a template only insertions into the template's own lists;
elsewhere one entry under the current module for every declaration whose name is not a
parameter, and for every call the declarations its expansion enters. -/
theorem C13_history {f : SourceFile} {expected : PlainFlavor} {mod : Str} {m : Maps} {st : PState}
    (hc : CommandsOk f.tokens) (h : f.exec expected mod m = .ok (some st)) :
    ∃ ops, FileOps m mod f ops ∧ st.maps = ops.foldl MapOp.apply m := file_ops hc h

/-- Is the statement a require block? -/
def Stmt.isRequires : Stmt → Bool
  | .genRequire _ _ _ _ | .genRequireUnquoted _ _ _ | .require _ _ _ => true
  | _ => false

/-- **C13**, require blocks: wherever a require block is, whatever it contains, no symbol
table changes. -/
theorem C13_require {d : Stmt} {st st' : PState} (hb : Stmt.isRequires d = true)
    (hc : CommandsOk d.tokens) (h : d.exec st = .ok st') : st'.maps = st.maps := by
  cases d with
  | genRequire line cmd cmd' body =>
    simp only [Stmt.tokens, CommandsOk.append, CommandsOk.cons] at hc
    have hcmd := commandTokens_ok hc.1.1.1.2
    have hm := body.exec_maps _ (begin_rights st (.genReq false) line _) hc.1.2
      (isInRequire_begin line cmd hcmd (Or.inl rfl))
    have hm' := hm.trans (Builds.begin_loc st (.genReq false) line cmd hcmd).2.2.2
    cases h
    cases cmd' <;> exact hm'
  | genRequireUnquoted line cmd body =>
    simp only [Stmt.tokens, CommandsOk.append, CommandsOk.cons] at hc
    have hcmd := commandTokens_ok hc.1.1.2
    have hm := body.exec_maps _ (begin_rights st (.genReq false) line _) hc.1.2
      (isInRequire_begin line cmd hcmd (Or.inl rfl))
    cases h
    exact hm.trans (Builds.begin_loc st (.genReq false) line cmd hcmd).2.2.2
  | require line cmd body =>
    simp only [Stmt.tokens, CommandsOk.append, CommandsOk.cons] at hc
    have hcmd := commandTokens_ok hc.1.1.2
    have hm := body.exec_maps _ (begin_rights st (.plain .require none) line _) hc.1.2
      (isInRequire_begin line cmd hcmd (Or.inr rfl))
    cases h
    exact hm.trans (Builds.begin_loc st (.plain .require none) line cmd hcmd).2.2.2
  | _ => cases hb

theorem templateOps_lookUp (t : Str) (fs : List Fact) : ∀ (m : Maps),
    (m.lookUpTemplate t).isSome = true →
    ((fs.flatMap (templateFactOps t)).foldl MapOp.apply m).lookUpTemplate t =
      some ⟨m.templateDecls t ++ fs.flatMap templateDeclared, m.templateCalls t ++ fs.flatMap called⟩ := by
  have step : ∀ (ops : List MapOp) (m : Maps), (m.lookUpTemplate t).isSome = true →
      (∀ op ∈ ops, op.mentionsTemplate t = true) →
      (ops.foldl MapOp.apply m).lookUpTemplate t =
        some ⟨m.templateDecls t ++ ops.filterMap (·.addsDecl t), m.templateCalls t ++ ops.filterMap (·.addsCall t)⟩ := by
    intro ops
    induction ops with
    | nil =>
      intro m h _
      obtain ⟨x, hx⟩ := Option.isSome_iff_exists.1 h
      simp [hx, Maps.templateDecls, Maps.templateCalls]
    | cons op ops ih =>
      intro m h hall
      have hop := hall op (by simp)
      obtain ⟨x, hx⟩ := Option.isSome_iff_exists.1 h
      have he : (op.apply m).lookUpTemplate t =
          some ⟨x.declarations ++ (op.addsDecl t).toList, x.calls ++ (op.addsCall t).toList⟩ := by
        rw [apply_template, opTemplate, hop, hx]; rfl
      rw [List.foldl_cons, ih _ (by rw [he]; rfl) (fun o ho => hall o (List.mem_cons_of_mem _ ho))]
      simp only [Maps.templateDecls, Maps.templateCalls, he, hx, List.filterMap_cons]
      cases op.addsDecl t <;> cases op.addsCall t <;> simp
  intro m h
  rw [step _ m h]
  · congr 2
    · rw [List.filterMap_flatMap]
      congr 1
      congr 1
      funext f
      cases f <;> simp [templateFactOps, templateDeclared, called, MapOp.addsDecl]
    · rw [List.filterMap_flatMap]
      congr 1
      congr 1
      funext f
      cases f <;> simp [templateFactOps, templateDeclared, called, MapOp.addsCall]
  · intro op hop
    obtain ⟨f, _, hf⟩ := List.mem_flatMap.1 hop
    cases f <;> simp [templateFactOps, templateDeclared, called] at hf <;> simp [hf, MapOp.mentionsTemplate]

/-- **C13**, templates: the definition of a template adds exactly the declarations of its
body, in order, to the template's own declaration list (and its calls to the list of calls).
No declaration table changes, and no other template. -/
theorem C13_template {d : IfDef} {st st' : PState} (ht : d.isTemplate = true)
    (htop : st.loc.ups = []) (hr : st.loc.rights = []) (hc : CommandsOk d.tokens)
    (h : d.exec st = .ok st') :
    st'.maps.templateDecls d.name =
      st.maps.templateDecls d.name ++ (ifDefFacts st.module d).flatMap templateDeclared ∧
    st'.maps.templateCalls d.name =
      st.maps.templateCalls d.name ++ (ifDefFacts st.module d).flatMap called ∧
    (∀ fl n, st'.maps.lookUpDecl n fl = st.maps.lookUpDecl n fl) ∧
    ∀ k, k ≠ d.name → st'.maps.lookUpTemplate k = st.maps.lookUpTemplate k := by
  obtain ⟨ops, hops, hm⟩ := ifDefRecord_ops (IfDef.exec_records ⟨htop, hr, rfl⟩ hc h)
  have hd := hops
  unfold DefOps at hops
  simp only [ht, if_true] at hops
  subst hops
  have hbase : ∀ k, ((st.maps.insertTemplate d.name).insertIf d.name st.module).lookUpTemplate k =
      if d.name = k then some ((st.maps.lookUpTemplate k).getD ⟨[], []⟩) else st.maps.lookUpTemplate k :=
    fun k => lookUp_updTemplate st.maps d.name k id
  have hl := templateOps_lookUp d.name (ifDefFacts st.module d)
    ((st.maps.insertTemplate d.name).insertIf d.name st.module) (by rw [hbase]; simp)
  have hm' : st'.maps = ((ifDefFacts st.module d).flatMap (templateFactOps d.name)).foldl MapOp.apply
      ((st.maps.insertTemplate d.name).insertIf d.name st.module) := by
    rw [hm, List.foldl_append]; rfl
  have hb1 : ((st.maps.insertTemplate d.name).insertIf d.name st.module).templateDecls d.name =
      st.maps.templateDecls d.name := by
    unfold Maps.templateDecls; rw [hbase]; cases st.maps.lookUpTemplate d.name <;> simp
  have hb2 : ((st.maps.insertTemplate d.name).insertIf d.name st.module).templateCalls d.name =
      st.maps.templateCalls d.name := by
    unfold Maps.templateCalls; rw [hbase]; cases st.maps.lookUpTemplate d.name <;> simp
  rw [← hm', hb1, hb2] at hl
  refine ⟨?_, ?_, ?_, ?_⟩
  · rw [Maps.templateDecls, hl]
  · rw [Maps.templateCalls, hl]
  · intro fl n
    rw [hm, lookUpDecl_foldl]
    have : List.findSome? (·.declares n fl) ([MapOp.template d.name, .iface d.name st.module] ++
        (ifDefFacts st.module d).flatMap (templateFactOps d.name)) = none := by
      cases hs : List.findSome? (·.declares n fl) ([MapOp.template d.name, .iface d.name st.module] ++
        (ifDefFacts st.module d).flatMap (templateFactOps d.name)) with
      | none => rfl
      | some md =>
        have := (defOps_decl hd).1 (declares_some hs)
        rw [ht] at this
        cases this.1
    rw [this, Option.or_none]
  · intro k hk
    have gen : ∀ (ops : List MapOp) (m : Maps), (∀ op ∈ ops, op.mentionsTemplate k = false) →
        (ops.foldl MapOp.apply m).lookUpTemplate k = m.lookUpTemplate k := by
      intro ops
      induction ops with
      | nil => intro m _; rfl
      | cons op ops ih =>
        intro m ho
        rw [List.foldl_cons, ih _ (fun o h => ho o (List.mem_cons_of_mem _ h)), apply_template, opTemplate,
          ho op (by simp)]
        simp
    rw [hm]
    apply gen
    intro op hop
    rcases List.mem_append.1 hop with h | h
    · simp only [List.mem_cons, List.not_mem_nil, or_false] at h
      rcases h with rfl | rfl
      · simp [MapOp.mentionsTemplate, Ne.symm hk]
      · rfl
    · obtain ⟨f, _, hf⟩ := List.mem_flatMap.1 h
      cases f <;> simp [templateFactOps, templateDeclared, called] at hf <;>
        simp [hf, MapOp.mentionsTemplate, Ne.symm hk]

/-- **C13**, other declarations: every name that a te or interface file declares outside
require blocks and templates, unless it is a parameter, is known afterwards, under the
current module unless it was known before. -/
theorem C13_recorded {f : SourceFile} {expected : PlainFlavor} {mod : Str} {m : Maps} {st : PState}
    (hp : isPolicy f = true) (hc : CommandsOk f.tokens) (h : f.exec expected mod m = .ok (some st))
    {fl : DeclFlavor} {n : Str} (hd : (fl, n) ∈ (fileFacts mod f).flatMap declared) :
    st.maps.lookUpDecl n fl = some ((m.lookUpDecl n fl).getD mod) := by
  obtain ⟨ops, hops, hm⟩ := file_ops hc h
  rw [hm, lookUpDecl_foldl]
  obtain ⟨md, hs⟩ := declares_isSome ((fileOps_decl (md := mod) hp hops).2 hd)
  have := ((fileOps_decl hp hops).1 (declares_some hs)).1
  subst this
  rw [hs]
  cases m.lookUpDecl n fl <;> simp

/-- **C13**, nothing else: a name that is known after a te or interface file was known before,
with the same module, or it is recorded under the current module and the file declares it
outside require blocks and templates or makes a call that expands to a declaration of it, with
the templates that are known at some moment of the parse. -/
theorem C13_only {f : SourceFile} {expected : PlainFlavor} {mod : Str} {m : Maps} {st : PState}
    (hp : isPolicy f = true) (hc : CommandsOk f.tokens) (h : f.exec expected mod m = .ok (some st))
    {fl : DeclFlavor} {n md : Str} (hk : st.maps.lookUpDecl n fl = some md) :
    m.lookUpDecl n fl = some md ∨ m.lookUpDecl n fl = none ∧ md = mod ∧
      ((fl, n) ∈ (fileFacts mod f).flatMap declared ∨
        ∃ c i, Fact.calls c i ∈ fileFacts mod f ∧ ∃ pre post : List MapOp, FileOps m mod f (pre ++ post) ∧
          st.maps = (pre ++ post).foldl MapOp.apply m ∧ ∃ e out, Expansion (pre.foldl MapOp.apply m).template mod c e out ∧ (fl, n) ∈ out) := by
  obtain ⟨ops, hops, hm⟩ := file_ops hc h
  rw [hm, lookUpDecl_foldl] at hk
  cases hb : m.lookUpDecl n fl with
  | some x => rw [hb] at hk; exact Or.inl hk
  | none =>
    rw [hb, Option.none_or] at hk
    obtain ⟨e, hs⟩ := (fileOps_decl hp hops).1 (declares_some hk)
    refine Or.inr ⟨rfl, e, ?_⟩
    rcases hs with hs | ⟨c, i, hc, T, ⟨pre, ⟨post, rfl⟩, rfl⟩, e, out, hx⟩
    · exact Or.inl hs
    · exact Or.inr ⟨c, i, hc, pre, post, hops, hm, e, out, hx⟩

/-! ## A file that meets the hypotheses -/

/-- ```
policy_module(foo, 1.0)
type foo_t alias bar_t;
gen_require(`
	type a_t;
')
optional_policy(`
	gen_tunable(b, false)
	tmpl(x)
')
type foo_t;
``` -/
def tablesExample : SourceFile :=
  .te [] ⟨1, cs!"foo", true, false, cs!"1.0"⟩
    (.more (.more (.more (.one (.bare (.simple 2 (.decl (.typeAlias cs!"foo_t" (.item (.word cs!"bar_t")))))))
      (.bare (.genRequire 3 none none (.one (.bare (.decls 4 .type .type rfl ⟨cs!"a_t", []⟩))))))
      (.bare (.optional 6 none
        (.more (.one (.bare (.simple 7 (.decl (.genTunable cs!"b" cs!"false")))))
          (.bare (.simple 8 (.call cs!"tmpl" (some ⟨.xperm (.item (.word cs!"x")), []⟩))))))))
      (.bare (.simple 10 (.decl (.type cs!"foo_t")))))

/-- ```
template(`tmpl',`
	type $1_t;
')
``` -/
def templateExample : SourceFile :=
  .iface [] ⟨1, true, cs!"tmpl", none, some (.one (.bare (.simple 2 (.decl (.type cs!"$1_t")))))⟩ []

example : CommandsOk tablesExample.tokens ∧ isPolicy tablesExample = true ∧
    CommandsOk templateExample.tokens ∧ isPolicy templateExample = true := by decide

/-- The template enters no name but is recorded. -/
example : ∃ st, templateExample.exec .ifFile cs!"base" {} = .ok (some st) ∧
    st.maps = { ({} : Maps) with
      ifs := [(cs!"tmpl", cs!"base")], template := [(cs!"tmpl", ⟨[(.type, cs!"$1_t")], []⟩)] } :=
  ⟨_, by with_unfolding_all rfl, by with_unfolding_all rfl⟩

/-- The required type is not entered; the other names are, also the one in the template that
is called. -/
example : ∃ st, tablesExample.exec .teFile cs!"foo" { ({} : Maps) with
      template := [(cs!"tmpl", ⟨[(.type, cs!"$1_t")], []⟩)] } = .ok (some st) ∧
    st.maps.type = [(cs!"foo_t", cs!"foo"), (cs!"bar_t", cs!"foo"), (cs!"x_t", cs!"foo")] ∧
    st.maps.bool = [(cs!"b", cs!"foo")] :=
  ⟨_, by with_unfolding_all rfl, by with_unfolding_all rfl, by with_unfolding_all rfl⟩

example : (fileFacts cs!"foo" tablesExample).flatMap declared =
    [(.type, cs!"foo_t"), (.type, cs!"bar_t"), (.bool, cs!"b"), (.type, cs!"foo_t")] := by decide

/-! ## C63: properties of interfaces -/

theorem marks_foldl (T : Maps → List Str) (mk : Str → MapOp) (k : Str)
    (hstep : ∀ m op, k ∈ T (op.apply m) ↔ k ∈ T m ∨ op = mk k) (ops : List MapOp) :
    ∀ m, k ∈ T (ops.foldl MapOp.apply m) ↔ k ∈ T m ∨ mk k ∈ ops := by
  induction ops with
  | nil => intro m; simp
  | cons op ops ih =>
    intro m
    rw [List.foldl_cons, ih, hstep, List.mem_cons]
    grind

theorem transform_foldl (ops : List MapOp) (m : Maps) (k : Str) :
    k ∈ (ops.foldl MapOp.apply m).transform ↔ k ∈ m.transform ∨ MapOp.transform k ∈ ops := by
  refine marks_foldl Maps.transform MapOp.transform k ?_ ops m
  intro m op
  cases op with
  | decl n md fl => simp [MapOp.apply, (Maps.insertDecl_other m n md fl).2.2.2.1]
  | transform n => simp only [MapOp.apply, Maps.markTransform]; split <;> simp <;> grind
  | filetrans n => simp only [MapOp.apply, Maps.markFiletrans]; split <;> simp
  | role n => simp only [MapOp.apply, Maps.markRole]; split <;> simp
  | _ => simp [MapOp.apply, Maps.insertMod, Maps.insertModLayer, Maps.insertIf, Maps.insertPermmacro,
      Maps.insertTemplate, Maps.insertTemplateDecl, Maps.insertTemplateCall, Maps.updTemplate]

theorem filetrans_foldl (ops : List MapOp) (m : Maps) (k : Str) :
    k ∈ (ops.foldl MapOp.apply m).filetrans ↔ k ∈ m.filetrans ∨ MapOp.filetrans k ∈ ops := by
  refine marks_foldl Maps.filetrans MapOp.filetrans k ?_ ops m
  intro m op
  cases op with
  | decl n md fl => simp [MapOp.apply, (Maps.insertDecl_other m n md fl).2.2.2.2.1]
  | transform n => simp only [MapOp.apply, Maps.markTransform]; split <;> simp
  | filetrans n => simp only [MapOp.apply, Maps.markFiletrans]; split <;> simp <;> grind
  | role n => simp only [MapOp.apply, Maps.markRole]; split <;> simp
  | _ => simp [MapOp.apply, Maps.insertMod, Maps.insertModLayer, Maps.insertIf, Maps.insertPermmacro,
      Maps.insertTemplate, Maps.insertTemplateDecl, Maps.insertTemplateCall, Maps.updTemplate]

theorem role_foldl (ops : List MapOp) (m : Maps) (k : Str) :
    k ∈ (ops.foldl MapOp.apply m).roleIf ↔ k ∈ m.roleIf ∨ MapOp.role k ∈ ops := by
  refine marks_foldl Maps.roleIf MapOp.role k ?_ ops m
  intro m op
  cases op with
  | decl n md fl => simp [MapOp.apply, (Maps.insertDecl_other m n md fl).2.2.2.2.2.1]
  | transform n => simp only [MapOp.apply, Maps.markTransform]; split <;> simp
  | filetrans n => simp only [MapOp.apply, Maps.markFiletrans]; split <;> simp
  | role n => simp only [MapOp.apply, Maps.markRole]; split <;> simp <;> grind
  | _ => simp [MapOp.apply, Maps.insertMod, Maps.insertModLayer, Maps.insertIf, Maps.insertPermmacro,
      Maps.insertTemplate, Maps.insertTemplateDecl, Maps.insertTemplateCall, Maps.updTemplate]

theorem expansion_code {T : Assoc TemplateElem} {mod : Str} {c : IfCallData} {e e' : SelintError}
    {out out' : List (DeclFlavor × Str)} (h : Expansion T mod c e out) (h' : Expansion T mod c e' out') :
    e = e' := by
  have := (h { template := T } rfl).symm.trans (h' { template := T } rfl)
  simp only [ExpRes.done.injEq] at this
  exact this.1

/-- The declarations that an expansion enters are determined by the call and the templates. -/
theorem expansion_unique {T : Assoc TemplateElem} {mod : Str} {c : IfCallData} {e e' : SelintError}
    {out out' : List (DeclFlavor × Str)} (h : Expansion T mod c e out) (h' : Expansion T mod c e' out')
    (x : DeclFlavor × Str) : x ∈ out ↔ x ∈ out' := by
  have := (h { template := T } rfl).symm.trans (h' { template := T } rfl)
  simp only [ExpRes.done.injEq, ← insertAll_declOps] at this
  have h1 : ∀ o, (insertAll mod o { template := T }).lookUpDecl x.2 x.1 = if x ∈ o then some mod else none := by
    intro o
    have h2 : (({ template := T } : Maps).lookUpDecl x.2 x.1) = none := by
      obtain ⟨fl, n⟩ := x
      cases fl <;> rfl
    rw [lookUp_insertAll, h2, Option.none_or]
  have h3 := (h1 out).symm.trans (this.2 ▸ h1 out')
  by_cases ha : x ∈ out <;> by_cases hb : x ∈ out' <;> simp [ha, hb] at h3 ⊢

/-- A fact that makes the interface a file transition interface, when the template table is `T`. -/
def FiletransFact (T : Assoc TemplateElem) (mod k : Str) : Fact → Prop
  | .filetrans i => i = k
  | .calls c inside => inside = some k ∧ filetransName c.name ∧ ∃ out, Expansion T mod c .success out
  | _ => False

theorem factOps_marks {T : Assoc TemplateElem} {mod : Str} {f : Fact} {ops : List MapOp}
    (h : FactOps T mod f ops) (k : Str) :
    (MapOp.transform k ∈ ops ↔ f = .transforms k) ∧ (MapOp.role k ∈ ops ↔ f = .roles k) ∧
    (MapOp.filetrans k ∈ ops ↔ FiletransFact T mod k f) := by
  have nd : ∀ (ds : List (DeclFlavor × Str)) (o : MapOp), (∀ n md fl, o ≠ .decl n md fl) → o ∉ declOps mod ds := by
    intro ds o ho hm
    simp only [declOps, List.mem_map] at hm
    obtain ⟨d, _, rfl⟩ := hm
    exact ho _ _ _ rfl
  cases f with
  | declares g x => cases h; simp [nd, FiletransFact]
  | aliases x => cases h; simp [nd, FiletransFact]
  | transforms i => cases h; simp [FiletransFact, eq_comm]
  | filetrans i => cases h; simp [FiletransFact, eq_comm]
  | roles i => cases h; simp [FiletransFact, eq_comm]
  | calls c i =>
    obtain ⟨e, out, hx, rfl⟩ := h
    cases i with
    | none => simp [nd, FiletransFact]
    | some i =>
      by_cases hh : e = .success ∧ filetransName c.name
      · simp only [hh.1, hh.2, and_self, if_true]
        refine ⟨by simp [nd], by simp [nd], ?_⟩
        simp only [List.mem_append, nd _ (MapOp.filetrans k) (by simp), false_or, List.mem_singleton,
          MapOp.filetrans.injEq, FiletransFact, Option.some.injEq]
        exact ⟨fun h => ⟨h.symm, hh.2, out, hh.1 ▸ hx⟩, fun h => h.1.symm⟩
      · simp only [hh, if_false, List.append_nil]
        refine ⟨by simp [nd], by simp [nd], ?_⟩
        simp only [nd _ (MapOp.filetrans k) (by simp), false_iff, FiletransFact]
        rintro ⟨_, h1, out', h2⟩
        exact hh ⟨expansion_code hx h2, h1⟩

theorem factsOps_marks {T : Assoc TemplateElem} {mod : Str} {fs : List Fact} (k : Str) :
    ∀ {ops : List MapOp}, FactsOps T mod fs ops →
    (MapOp.transform k ∈ ops ↔ .transforms k ∈ fs) ∧ (MapOp.role k ∈ ops ↔ .roles k ∈ fs) ∧
    (MapOp.filetrans k ∈ ops ↔ ∃ f ∈ fs, FiletransFact T mod k f) := by
  induction fs with
  | nil => rintro ops rfl; simp
  | cons f fs ih =>
    rintro ops ⟨a, b, rfl, ha, hb⟩
    obtain ⟨a1, a2, a3⟩ := factOps_marks ha k
    obtain ⟨b1, b2, b3⟩ := ih hb
    simp only [List.mem_append, List.mem_cons, a1, a2, a3, b1, b2, b3]
    exact ⟨by simp [eq_comm], by simp [eq_comm], by simp⟩

/-- **C63**: the definition of an interface marks an interface as transforming its argument,
as a role interface or as a file transition interface exactly if its body says so: a rule
that allows `associate` or (in an interface with one of the documented name endings, or in
module mls or mcs) an attribute statement; a role-types statement with a parameter; a type
transition for another class than `process` or a successful call of a file transition
interface. Only direct statements of the body count, not those in blocks. -/
theorem C63_interface {d : IfDef} {st st' : PState} (ht : d.isTemplate = false)
    (htop : st.loc.ups = []) (hr : st.loc.rights = []) (hc : CommandsOk d.tokens)
    (h : d.exec st = .ok st') (k : Str) :
    (st'.maps.isTransform k = true ↔
      st.maps.isTransform k = true ∨ .transforms k ∈ ifDefFacts st.module d) ∧
    (st'.maps.isRole k = true ↔ st.maps.isRole k = true ∨ .roles k ∈ ifDefFacts st.module d) ∧
    (st'.maps.isFiletrans k = true ↔ st.maps.isFiletrans k = true ∨
      ∃ f ∈ ifDefFacts st.module d, FiletransFact st.maps.template st.module k f) := by
  obtain ⟨ops, hops, hm⟩ := ifDefRecord_ops (IfDef.exec_records ⟨htop, hr, rfl⟩ hc h)
  unfold DefOps at hops
  simp only [ht, Bool.false_eq_true, if_false] at hops
  obtain ⟨a, rfl, ha⟩ := hops
  obtain ⟨a1, a2, a3⟩ := factsOps_marks k ha
  unfold Maps.isTransform Maps.isRole Maps.isFiletrans
  simp only [decide_eq_true_eq]
  rw [hm, transform_foldl, role_foldl, filetrans_foldl]
  simp only [List.mem_cons, reduceCtorEq, false_or, a1, a2, a3, and_self]

/-- **C63**, templates and te files: nothing else marks an interface. -/
theorem C63_others {f : SourceFile} {expected : PlainFlavor} {mod : Str} {m : Maps} {st : PState}
    (hf : match f with
      | .iface _ d ls => ∀ d' ∈ ifDefs d ls, d'.isTemplate = true
      | _ => True)
    (hc : CommandsOk f.tokens) (h : f.exec expected mod m = .ok (some st)) (k : Str) :
    st.maps.isTransform k = m.isTransform k ∧ st.maps.isRole k = m.isRole k ∧
      st.maps.isFiletrans k = m.isFiletrans k := by
  obtain ⟨ops, hops, hm⟩ := file_ops hc h
  have key : MapOp.transform k ∉ ops ∧ MapOp.role k ∉ ops ∧ MapOp.filetrans k ∉ ops := by
    cases f with
    | te cs hd b =>
      obtain ⟨a1, a2, a3⟩ := factsOps_marks k hops
      have hp := linesFacts_plain mod b
      rw [a1, a2, a3]
      refine ⟨fun h => ?_, fun h => ?_, ?_⟩
      · cases hp _ h
      · cases hp _ h
      · rintro ⟨f, hf, h⟩
        have := hp f hf
        cases f with
        | filetrans => cases this
        | calls c i => obtain ⟨rfl, _⟩ := h; cases this
        | _ => exact h
    | iface cs d ls =>
      dsimp only at hf
      have gen : ∀ (ds : List IfDef) (m : Maps) (ops : List MapOp), (∀ d' ∈ ds, d'.isTemplate = true) →
          DefsOps mod m ds ops →
          MapOp.transform k ∉ ops ∧ MapOp.role k ∉ ops ∧ MapOp.filetrans k ∉ ops := by
        intro ds
        induction ds with
        | nil => rintro m ops _ rfl; simp
        | cons d ds ih =>
          rintro m ops hd ⟨a, b, rfl, ha, hb⟩
          unfold DefOps at ha
          simp only [hd d (by simp), if_true] at ha
          subst ha
          obtain ⟨h1, h2, h3⟩ := ih _ _ (fun d' h => hd d' (List.mem_cons_of_mem _ h)) hb
          simp [h1, h2, h3, templateFactOps]
      exact gen _ _ _ hf hops
    | spt cs d ls =>
      have : ∀ op ∈ ops, ∃ n p, op = MapOp.permmacro n p := by
        intro op hop
        rw [show ops = _ from hops] at hop
        obtain ⟨o, _, ho⟩ := List.mem_flatMap.1 hop
        cases o with
        | none => simp at ho
        | some d =>
          simp only [Option.map_some, Option.getD_some, sptOps] at ho
          split at ho
          · exact ⟨_, _, by simpa using ho⟩
          · simp at ho
      refine ⟨fun h => ?_, fun h => ?_, fun h => ?_⟩ <;> (obtain ⟨_, _, e⟩ := this _ h; cases e)
    | av cs d ls =>
      have : ∀ op ∈ ops, ∃ n md fl, op = MapOp.decl n md fl := by
        intro op hop
        rw [show ops = _ from hops] at hop
        obtain ⟨o, _, ho⟩ := List.mem_flatMap.1 hop
        have hpm : ∀ (p : AvPerms), op ∈ avPermsOps p → ∃ n md fl, op = MapOp.decl n md fl := by
          intro p hp
          simp only [avPermsOps, List.mem_filterMap] at hp
          obtain ⟨o, _, ho⟩ := hp
          cases o with
          | none => cases ho
          | some s => cases ho; exact ⟨_, _, _, rfl⟩
        cases o with
        | none => simp at ho
        | some d =>
          simp only [Option.map_some, Option.getD_some] at ho
          cases d <;> simp only [avOps, List.mem_append, List.mem_singleton] at ho
          · rcases ho with ho | ho
            · exact hpm _ ho
            · exact ⟨_, _, _, ho⟩
          · exact ⟨_, _, _, ho⟩
          · rcases ho with ho | ho
            · exact hpm _ ho
            · exact ⟨_, _, _, ho⟩
          · exact hpm _ ho
      refine ⟨fun h => ?_, fun h => ?_, fun h => ?_⟩ <;> (obtain ⟨_, _, _, e⟩ := this _ h; cases e)
    | empty => cases hops; simp
    | comments => cases hops; simp
  unfold Maps.isTransform Maps.isRole Maps.isFiletrans
  refine ⟨?_, ?_, ?_⟩ <;> rw [hm] <;> simp only [decide_eq_decide]
  · rw [transform_foldl]; simp [key.1]
  · rw [role_foldl]; simp [key.2.1]
  · rw [filetrans_foldl]; simp [key.2.2]

/-- ```
interface(`a_file',`
	typeattribute $1 file_type;
	optional_policy(`
		allow $1 fs_t:filesystem associate;
	')
	b_filetrans($1)
')
``` -/
def marksExample : IfDef :=
  ⟨1, false, cs!"a_file", none, some (.more (.more
    (.one (.bare (.simple 2 (.typeAttribute cs!"$1" ⟨cs!"file_type", []⟩))))
    (.bare (.optional 3 none (.one (.bare (.simple 4 (.roleTypes cs!"r" (.item (.word cs!"$1")))))))))
    (.bare (.simple 6 (.call cs!"b_filetrans" (some ⟨.xperm (.item (.word cs!"$1")), []⟩)))))⟩

example : CommandsOk marksExample.tokens ∧ (SourceFile.iface [] marksExample []).exec .ifFile cs!"m" {} ≠ .ub := by
  constructor
  · decide
  · with_unfolding_all (intro h; cases h)

/-- The role statement inside the optional block does not count. -/
example : ∃ st, (SourceFile.iface [] marksExample []).exec .ifFile cs!"m" {} = .ok (some st) ∧
    st.maps.isTransform cs!"a_file" = true ∧ st.maps.isFiletrans cs!"a_file" = true ∧
    st.maps.isRole cs!"a_file" = false :=
  ⟨_, by with_unfolding_all rfl, by with_unfolding_all rfl, by with_unfolding_all rfl,
    by with_unfolding_all rfl⟩

/-! ## C64: support files and access vectors -/

/-- **C64**, support files: after a support file, a permission macro is known exactly if it
was known before or the file defines it, its name ends in `_perms` and it is not deprecated;
the first definition counts. No declaration is entered. -/
theorem C64_support {cs : List Nat} {d : SptDef} {ds : List (Option SptDef)} {expected : PlainFlavor}
    {mod : Str} {m : Maps} {st : PState} (hc : CommandsOk (SourceFile.spt cs d ds).tokens)
    (h : (SourceFile.spt cs d ds).exec expected mod m = .ok (some st)) (k : Str) :
    st.maps.permmacros.find k = (m.permmacros.find k).or
      (((some d :: ds).filterMap id).findSome? fun d =>
        if d.name = k ∧ d.warn = none ∧ cs!"_perms" <:+ d.name then some d.list.value else none) ∧
    ∀ fl n, st.maps.lookUpDecl n fl = m.lookUpDecl n fl := by
  obtain ⟨ops, hops, hm⟩ := file_ops hc h
  have hops : ops = (some d :: ds).flatMap fun o => (o.map sptOps).getD [] := hops
  constructor
  · rw [hm, find_foldl Maps.permmacros (fun k op => op.definesPermmacro k)
      (fun m op k => apply_permmacros m op k)]
    congr 1
    rw [hops]
    generalize (some d :: ds) = l
    induction l with
    | nil => rfl
    | cons o l ih =>
      rw [List.flatMap_cons, List.findSome?_append, ih]
      cases o with
      | none => simp
      | some d =>
        simp only [Option.map_some, Option.getD_some, List.filterMap_cons, id, List.findSome?_cons, sptOps]
        by_cases h1 : d.warn = none ∧ cs!"_perms" <:+ d.name
        · by_cases h2 : d.name = k
          · rw [if_pos h1, if_pos ⟨h2, h1⟩]
            simp [MapOp.definesPermmacro, h2]
          · rw [if_pos h1, if_neg (fun h => h2 h.1)]
            simp [MapOp.definesPermmacro, h2]
        · rw [if_neg h1, if_neg (fun h => h1 h.2)]
          simp
  · intro fl n
    rw [hm, lookUpDecl_foldl]
    have : ops.findSome? (·.declares n fl) = none := by
      cases hs : ops.findSome? (·.declares n fl) with
      | none => rfl
      | some md =>
        have hmem := declares_some hs
        rw [hops] at hmem
        obtain ⟨o, _, ho⟩ := List.mem_flatMap.1 hmem
        cases o with
        | none => simp at ho
        | some d =>
          simp only [Option.map_some, Option.getD_some, sptOps] at ho
          split at ho <;> simp at ho
    rw [this, Option.or_none]

/-- The permissions and classes an access vector definition defines. -/
def avNames : AvDef → List (DeclFlavor × Str)
  | .cls n p | .inheritsPerms n _ p => (p.all.filterMap id).map (fun s => (.perm, s)) ++ [(.cls, n)]
  | .inherits n _ => [(.cls, n)]
  | .common _ p => (p.all.filterMap id).map fun s => (.perm, s)

/-- **C64**, access vectors: after an access vector file, a class or permission is known
exactly if it was known before or the file defines it. Names of commons are not classes. -/
theorem C64_access_vectors {cs : List Nat} {d : AvDef} {ds : List (Option AvDef)}
    {expected : PlainFlavor} {mod : Str} {m : Maps} {st : PState}
    (hc : CommandsOk (SourceFile.av cs d ds).tokens)
    (h : (SourceFile.av cs d ds).exec expected mod m = .ok (some st)) (fl : DeclFlavor) (n : Str) :
    st.maps.lookUpDecl n fl = (m.lookUpDecl n fl).or
      (if (fl, n) ∈ ((some d :: ds).filterMap id).flatMap avNames then some cs!"__av_file__" else none) := by
  obtain ⟨ops, hops, hm⟩ := file_ops hc h
  have hops : ops = (some d :: ds).flatMap fun o => (o.map avOps).getD [] := hops
  have e : ops = declOps avModule (((some d :: ds).filterMap id).flatMap avNames) := by
    have hp : ∀ p : AvPerms, avPermsOps p = declOps avModule ((p.all.filterMap id).map fun s => (.perm, s)) := by
      intro p
      unfold avPermsOps declOps
      generalize p.all = l
      induction l with
      | nil => rfl
      | cons o l ih => cases o <;> simp [ih]
    rw [hops]
    generalize (some d :: ds) = l
    induction l with
    | nil => rfl
    | cons o l ih =>
      rw [List.flatMap_cons, ih]
      cases o with
      | none => simp
      | some d => cases d <;> simp [avOps, avNames, hp, declOps]
  rw [hm, e, ← insertAll_declOps, lookUp_insertAll]
  rfl

/-- A support file with a permission set, a deprecated one, a comment and another macro. -/
def sptExample : SourceFile :=
  .spt [] ⟨cs!"r_file_perms", .braces (.word cs!"read") [], none⟩
    [some ⟨cs!"old_perms", .item (.word cs!"read"), some (.one (.word cs!"text"))⟩, none,
      some ⟨cs!"other", .item (.word cs!"x"), none⟩]

example : CommandsOk sptExample.tokens := by decide

example : ∃ st, sptExample.exec .sptFile cs!"m" {} = .ok (some st) ∧
    st.maps = { ({} : Maps) with permmacros := [(cs!"r_file_perms", [cs!"read"])] } :=
  ⟨_, by with_unfolding_all rfl, by with_unfolding_all rfl⟩

/-- An access vector file with a common, a class that inherits from it and a comment. -/
def avExample : SourceFile :=
  .av [] (.common cs!"file" ⟨some cs!"read", [none, some cs!"write"]⟩)
    [none, some (.inheritsPerms cs!"dir" cs!"file" ⟨some cs!"search", []⟩)]

example : CommandsOk avExample.tokens := by decide

example : ∃ st, avExample.exec .avFile cs!"m" {} = .ok (some st) ∧
    st.maps = { ({} : Maps) with
      cls := [(cs!"dir", cs!"__av_file__")],
      perm := [(cs!"read", cs!"__av_file__"), (cs!"write", cs!"__av_file__"), (cs!"search", cs!"__av_file__")] } :=
  ⟨_, by with_unfolding_all rfl, by with_unfolding_all rfl⟩

/-- A quirk: the file that begins with a `common` is accepted whatever kind of file was
expected, and its permissions are entered. -/
theorem C64_false_kind : ∃ st,
    (SourceFile.av [] (.common cs!"file" ⟨some cs!"read", []⟩) []).exec .teFile cs!"m" {} = .ok (some st) ∧
    st.maps.lookUpDecl cs!"read" .perm = some cs!"__av_file__" :=
  ⟨_, by with_unfolding_all rfl, by with_unfolding_all rfl⟩

end Selint
