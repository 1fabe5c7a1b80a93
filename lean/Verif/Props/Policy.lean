import Verif.Props.Complete
import Verif.Props.ParseTables
/-! # C73: the files of a policy are analysed together -/

namespace Selint
open Spec

/-! ## What a policy says -/

/-- The module of a file is its base name without the last three characters. -/
def Spec.ModuleOf (path mod : Str) : Prop := ∃ suffix : Str, suffix.length = 3 ∧ basename path = mod ++ suffix

/-- What can be in a file of a kind. (Definitions of permissions for several classes are accepted
everywhere.) -/
def Spec.FitsKind : FileFlavor → SourceFile → Prop
  | .teFile, .te _ _ _ => True
  | .ifFile, .iface _ _ _ => True
  | _, .av _ d ds => ∀ a ∈ (some d :: ds).filterMap id, ∃ n p, a = .common n p
  | _, .empty => True
  | _, .comments _ _ => True
  | _, _ => False

/-- The file at `path`, of module `mod`, is there and has the content `f`. -/
def Spec.Contents (src : Sources) (kind : FileFlavor) (path mod : Str) (f : SourceFile) : Prop :=
  ModuleOf path mod ∧ FitsKind kind f ∧ ∃ s, src.text path = some s ∧ ParsesTo s f

/-- The insertions that files stand for, one after the other; every file sees the templates of
those before it. -/
def Spec.PolicyOps (src : Sources) (kind : FileFlavor) : Maps → List Str → List MapOp → Prop
  | _, [], ops => ops = []
  | m, p :: ps, ops => ∃ mod f a b, Contents src kind p mod f ∧ ops = a ++ b ∧ FileOps m mod f a ∧
      PolicyOps src kind (a.foldl MapOp.apply m) ps b

theorem exec_fits {f : SourceFile} {mod : Str} {m : Maps} {st : PState} {kind : PlainFlavor} {k : FileFlavor}
    (hk : kind = .teFile ∧ k = .teFile ∨ kind = .ifFile ∧ k = .ifFile)
    (h : f.exec kind mod m = .ok (some st)) : FitsKind k f := by
  have hav : ∀ cs d ds, f = .av cs d ds → ∀ a ∈ (some d :: ds).filterMap id, ∃ n p, a = AvDef.common n p := by
    rintro cs d ds rfl a ha
    have hne : kind ≠ .avFile := by rcases hk with ⟨rfl, -⟩ | ⟨rfl, -⟩ <;> simp
    unfold SourceFile.exec at h
    dsimp only at h
    split at h
    · cases h
    · rename_i hn
      simp only [hne, ne_eq, not_false_eq_true, true_and, List.any_eq_true, not_exists, not_and] at hn
      obtain ⟨o, ho, e⟩ := List.mem_filterMap.1 ha
      simp only [id] at e
      subst e
      have := hn _ ho
      cases a <;> simp [AvDef.isClass] at this ⊢
  cases f with
  | te cs hd b =>
    unfold SourceFile.exec at h
    dsimp only at h
    split at h
    · cases h
    · rcases hk with ⟨-, rfl⟩ | ⟨rfl, -⟩
      · trivial
      · simp at *
  | iface cs d ls =>
    unfold SourceFile.exec at h
    dsimp only at h
    split at h
    · cases h
    · rcases hk with ⟨rfl, -⟩ | ⟨-, rfl⟩
      · simp at *
      · trivial
  | spt cs d ls =>
    unfold SourceFile.exec at h
    dsimp only at h
    split at h
    · cases h
    · rcases hk with ⟨rfl, -⟩ | ⟨rfl, -⟩ <;> simp at *
  | av cs d ds => rcases hk with ⟨-, rfl⟩ | ⟨-, rfl⟩ <;> exact hav cs d ds rfl
  | empty => rcases hk with ⟨-, rfl⟩ | ⟨-, rfl⟩ <;> trivial
  | comments c cs => rcases hk with ⟨-, rfl⟩ | ⟨-, rfl⟩ <;> trivial

theorem parseOneFile_module {src : Sources} {name : Str} {flavor : PlainFlavor} {m m' : Maps}
    {ts : List Tree} (h : parseOneFile src name flavor m = .ok (some (ts, m'))) :
    ∃ s f mod st, src.text name = some s ∧ ParsesTo s f ∧ ModuleOf name mod ∧
      f.exec flavor mod m = .ok (some st) ∧ ts = st.loc.unzip ∧ m' = st.maps := by
  unfold parseOneFile at h
  cases h1 : moduleOfFile name with
  | ub => rw [h1] at h; cases h
  | ok mod =>
    rw [h1] at h
    simp only [Res.bind_ok] at h
    have hmod : ModuleOf name mod := by
      unfold moduleOfFile at h1
      split at h1
      · rename_i hl
        cases h1
        refine ⟨(basename name).drop ((basename name).length - 3), by rw [List.length_drop]; omega, ?_⟩
        have : ((basename name).dropLast.dropLast.dropLast) = (basename name).take ((basename name).length - 3) := by
          simp only [List.dropLast_eq_take, List.take_take, List.length_take]
          congr 1
          omega
        rw [this, List.take_append_drop]
      · cases h1
    cases h2 : src.text name with
    | none => rw [h2] at h; cases h
    | some s =>
      rw [h2] at h
      simp only at h
      cases h3 : lexFile s with
      | none => rw [h3] at h; cases h
      | some toks =>
        rw [h3] at h
        simp only [Option.bind_some] at h
        cases h4 : pFile toks with
        | none => rw [h4] at h; cases h
        | some f =>
          rw [h4] at h
          simp only at h
          cases h5 : f.exec flavor mod m with
          | ub => rw [h5] at h; cases h
          | ok o =>
            rw [h5] at h
            simp only [Res.bind_ok] at h
            cases o with
            | none => cases h
            | some st =>
              cases h
              exact ⟨s, f, mod, st, rfl, ⟨toks, h3, C68_sound h4⟩, hmod, h5, rfl, rfl⟩

/-- Reading files of a kind does to the tables what they say. -/
theorem readAll_ops {src : Sources} {suppress : Bool} {config : ConfigCheckData} {kind : FileFlavor}
    (hk : kind = .teFile ∨ kind = .ifFile) {names : List Str} {m m' : Maps} {xs : List PolicyFile}
    (h : readAll (wholeProgram src suppress config) kind names m = some (xs, m')) :
    ∃ ops, PolicyOps src kind m names ops ∧ m' = ops.foldl MapOp.apply m := by
  induction names generalizing m xs with
  | nil => cases h; exact ⟨[], rfl, rfl⟩
  | cons n ns ih =>
    simp only [readAll] at h
    split at h
    · cases h
    · rename_i hne
      simp only [Option.map_eq_some_iff] at h
      obtain ⟨⟨ys, m₁⟩, h1, h2⟩ := h
      cases h2
      obtain ⟨b, hb, hm⟩ := ih h1
      obtain ⟨fl, hfl, hp⟩ : ∃ fl : PlainFlavor, (fl = .teFile ∧ kind = .teFile ∨ fl = .ifFile ∧ kind = .ifFile) ∧
          (wholeProgram src suppress config).parser (fileNode kind) n m = parseResult m (parseOneFile src n fl m) := by
        rcases hk with rfl | rfl
        · exact ⟨.teFile, .inl ⟨rfl, rfl⟩, rfl⟩
        · exact ⟨.ifFile, .inr ⟨rfl, rfl⟩, rfl⟩
      rw [hp] at hne hb hm
      obtain ⟨s, f, mod, st, ht, hps, hmod, hx, -, hm2⟩ := parseOneFile_module (parseResult_ne (m := m) hne rfl)
      obtain ⟨a, ha, hm3⟩ := file_ops hps.tokens.1 hx
      have hm4 : (parseResult m (parseOneFile src n fl m)).2 = a.foldl MapOp.apply m := hm2.trans hm3
      rw [hm4] at hb hm
      exact ⟨a ++ b, ⟨mod, f, a, b, ⟨hmod, exec_fits hfl hx, s, ht, hps⟩, rfl, ha, hb⟩, by rw [List.foldl_append]; exact hm⟩

theorem readAll_fc {src : Sources} {suppress : Bool} {config : ConfigCheckData} {names : List Str} {m m' : Maps}
    {xs : List PolicyFile} (h : readAll (wholeProgram src suppress config) .fcFile names m = some (xs, m')) :
    m' = m := by
  induction names generalizing m xs with
  | nil => cases h; rfl
  | cons n ns ih =>
    simp only [readAll] at h
    split at h
    · cases h
    · simp only [Option.map_eq_some_iff] at h
      obtain ⟨⟨ys, m₁⟩, h1, h2⟩ := h
      cases h2
      refine (ih h1).trans ?_
      simp only [Program.parser, fileNode, wholeProgram, if_true]
      split <;> rfl

theorem readAll_treeOf {src : Sources} {suppress : Bool} {config : ConfigCheckData} {kind : FileFlavor}
    {names : List Str} {m m' : Maps} {xs : List PolicyFile}
    (h : readAll (wholeProgram src suppress config) kind names m = some (xs, m')) :
    xs.map (·.path) = names ∧ ∀ x ∈ xs, TreeOf src x := by
  obtain ⟨h1, h2⟩ := readAll_mem h
  refine ⟨?_, fun x hx => ?_⟩
  · have := congrArg (List.map Prod.snd) h1
    simpa [List.map_map, Function.comp_def] using this
  · obtain ⟨e, -, h3, m₀, h4⟩ := h2 x hx
    exact parser_treeOf (e ▸ h4) h3

theorem Spec.PolicyOps.append {src : Sources} {kind : FileFlavor} {ps qs : List Str} {m : Maps} {a b : List MapOp}
    (ha : PolicyOps src kind m ps a) (hb : PolicyOps src kind (a.foldl MapOp.apply m) qs b) :
    PolicyOps src kind m (ps ++ qs) (a ++ b) := by
  induction ps generalizing m a with
  | nil => cases ha; exact hb
  | cons p ps ih =>
    obtain ⟨mod, f, x, y, h1, rfl, h2, h3⟩ := ha
    rw [List.foldl_append] at hb
    exact ⟨mod, f, x, y ++ b, h1, by simp, h2, ih h3 hb⟩

section
variable {w : Machine} {args : List Opt} {paths : List Str} {c : Course}

/-- **C73 (history).** The tables that the checks see are made by what the files say: all interface
files, of the policy and of its context, then, after the marking of C22, all te files, of the
context and of the policy. Nothing else changes them. -/
theorem C73_history (hc : c.Of w args paths) :
    ∃ (i t : List MapOp) (files : List PolicyFile) (marks : List Str),
      PolicyOps (w.sources c.settings.customFcMacros) .ifFile c.scan.maps (c.scan.ifs ++ c.scan.contextIf) i ∧
      files.map (·.path) = c.scan.ifs ++ c.scan.contextIf ∧
      (∀ x ∈ files, TreeOf (w.sources c.settings.customFcMacros) x) ∧
      (∀ n, n ∈ marks ↔ Transform (files.map (·.trees)) (fun k => k ∈ (i.foldl MapOp.apply c.scan.maps).transform) n) ∧
      PolicyOps (w.sources c.settings.customFcMacros) .teFile
        { i.foldl MapOp.apply c.scan.maps with transform := marks } (c.scan.contextTe ++ c.scan.te) t ∧
      c.tables = t.foldl MapOp.apply { i.foldl MapOp.apply c.scan.maps with transform := marks } := by
  have h := hc.read
  simp only [readPolicy, Option.bind_eq_bind, Option.bind_eq_some_iff, Option.pure_def, Option.some.injEq, Prod.mk.injEq] at h
  obtain ⟨⟨i, m1⟩, h1, ⟨ci, m2⟩, h2, ⟨ct, m3⟩, h3, ⟨t, m4⟩, h4, ⟨f, m5⟩, h5, -, rfl⟩ := h
  obtain ⟨oi, a1, rfl⟩ := readAll_ops (.inr rfl) h1
  obtain ⟨oc, a2, rfl⟩ := readAll_ops (.inr rfl) h2
  obtain ⟨i1, i2⟩ := readAll_treeOf h1
  obtain ⟨c1, c2⟩ := readAll_treeOf h2
  obtain ⟨m', b1, b2, b3⟩ := C22_least_fixpoint ((i ++ ci).map (·.trees))
    (oc.foldl MapOp.apply (oi.foldl MapOp.apply c.scan.maps))
  rw [List.map_map] at b1
  have b1' : markTransformInterfaces ((i ++ ci).map fun x => Loc.ofForest x.trees)
      (oc.foldl MapOp.apply (oi.foldl MapOp.apply c.scan.maps)) = some m' := b1
  simp only [b1', Option.getD_some] at h3
  obtain ⟨o3, a3, rfl⟩ := readAll_ops (.inl rfl) h3
  obtain ⟨o4, a4, rfl⟩ := readAll_ops (.inl rfl) h4
  have h6 := readAll_fc h5
  refine ⟨oi ++ oc, o3 ++ o4, i ++ ci, m'.transform, a1.append a2, by rw [List.map_append, i1, c1], ?_, ?_, ?_, ?_⟩
  · intro x hx
    rcases List.mem_append.1 hx with hx | hx
    · exact i2 x hx
    · exact c2 x hx
  · intro n
    rw [List.foldl_append]
    have := b2 n
    simpa [Maps.isTransform] using this
  · rw [List.foldl_append, ← b3]
    exact a3.append a4
  · rw [List.foldl_append, List.foldl_append, ← b3]
    exact h6

end

/-! ## Who says it -/

theorem defOps_plain {m : Maps} {mod : Str} {d : IfDef} {ops : List MapOp} :
    DefOps m mod d.plain ops ↔ DefOps m mod d ops := by
  unfold DefOps
  simp only [ifDefFacts_plain_eq]
  rfl

theorem defsOps_plain {mod : Str} {ds : List IfDef} : ∀ {m : Maps} {ops : List MapOp},
    DefsOps mod m (ds.map IfDef.plain) ops ↔ DefsOps mod m ds ops := by
  induction ds with
  | nil => exact Iff.rfl
  | cons d ds ih => intro m ops; simp only [List.map_cons, DefsOps, defOps_plain, ih]

theorem fileOps_plain {m : Maps} {mod : Str} {f : SourceFile} {ops : List MapOp} :
    FileOps m mod f.plain ops ↔ FileOps m mod f ops := by
  cases f with
  | te cs h b => simp only [SourceFile.plain, FileOps, linesFacts_plain_eq]
  | iface cs d ls => simp only [SourceFile.plain, FileOps, ifDefs_plain_eq, defsOps_plain]
  | _ => exact Iff.rfl

section
variable {src : Sources} {kind : FileFlavor}

theorem Spec.Contents.ops {p mod mod' : Str} {f f' : SourceFile} (h : Contents src kind p mod f)
    (h' : Contents src kind p mod' f') : mod = mod' ∧ ∀ m ops, FileOps m mod f ops ↔ FileOps m mod f' ops := by
  obtain ⟨⟨s1, l1, e1⟩, -, t, ht, hf⟩ := h
  obtain ⟨⟨s2, l2, e2⟩, -, t', ht', hf'⟩ := h'
  rw [ht] at ht'
  cases ht'
  refine ⟨?_, fun m ops => ?_⟩
  · have := e1.symm.trans e2
    exact (List.append_inj' this (l1.trans l2.symm)).1
  · rw [← fileOps_plain, C68_unambiguous_text hf hf', fileOps_plain]

/-- Every insertion is one of some file. -/
theorem policyOps_elim {ps : List Str} {m : Maps} {ops : List MapOp} (h : PolicyOps src kind m ps ops) {op : MapOp}
    (ho : op ∈ ops) : ∃ p ∈ ps, ∃ mod f pre a post, Contents src kind p mod f ∧ ops = pre ++ a ++ post ∧
      FileOps (pre.foldl MapOp.apply m) mod f a ∧ op ∈ a := by
  induction ps generalizing m ops with
  | nil => cases h; cases ho
  | cons p ps ih =>
    obtain ⟨mod, f, a, b, h1, rfl, h2, h3⟩ := h
    rcases List.mem_append.1 ho with ho | ho
    · exact ⟨p, .head _, mod, f, [], a, b, h1, rfl, h2, ho⟩
    · obtain ⟨q, hq, mod', f', pre, a', post, h4, rfl, h5, h6⟩ := ih h3 ho
      exact ⟨q, .tail _ hq, mod', f', a ++ pre, a', post, h4, by simp, by rw [List.foldl_append]; exact h5, h6⟩

/-- The insertions of every file are among them. -/
theorem policyOps_intro {ps : List Str} {m : Maps} {ops : List MapOp} (h : PolicyOps src kind m ps ops) {p mod : Str}
    {f : SourceFile} (hp : p ∈ ps) (hf : Contents src kind p mod f) :
    ∃ pre a post, ops = pre ++ a ++ post ∧ FileOps (pre.foldl MapOp.apply m) mod f a := by
  induction ps generalizing m ops with
  | nil => cases hp
  | cons q ps ih =>
    obtain ⟨mod', f', a, b, h1, rfl, h2, h3⟩ := h
    rcases List.mem_cons.1 hp with rfl | hp
    · obtain ⟨rfl, h4⟩ := hf.ops h1
      exact ⟨[], a, b, rfl, (h4 _ _).2 h2⟩
    · obtain ⟨pre, a', post, rfl, h5⟩ := ih h3 hp
      exact ⟨a ++ pre, a', post, by simp, by rw [List.foldl_append]; exact h5⟩

end

/-! ## Declarations -/

theorem factsOps_calls {T : Assoc TemplateElem} {mod : Str} {fs : List Fact} {c : IfCallData} {i : Option Str}
    {e : SelintError} {out : List (DeclFlavor × Str)} {x : DeclFlavor × Str} (hx : Expansion T mod c e out) (hm : x ∈ out) :
    ∀ {ops : List MapOp}, FactsOps T mod fs ops → Fact.calls c i ∈ fs → MapOp.decl x.2 mod x.1 ∈ ops := by
  induction fs with
  | nil => intro ops _ h; cases h
  | cons f fs ih =>
    rintro ops ⟨a, b, rfl, ha, hb⟩ h
    rcases List.mem_cons.1 h with rfl | h
    · obtain ⟨e', out', h1, rfl⟩ := ha
      refine List.mem_append_left _ (List.mem_append_left _ (decl_mem_declOps.2 ⟨?_, rfl⟩))
      exact (expansion_unique hx h1 x).1 hm
    · exact List.mem_append_right _ (ih hb h)

theorem av_mem {cs : List Nat} {d : AvDef} {ds : List (Option AvDef)} {m : Maps} {mod : Str} {ops : List MapOp}
    (h : FileOps m mod (.av cs d ds) ops) (hk : ∀ a ∈ (some d :: ds).filterMap id, ∃ n p, a = AvDef.common n p)
    {op : MapOp} (ho : op ∈ ops) : ∃ s, op = .decl s avModule .perm ∧
      ∃ n p, AvDef.common n p ∈ (some d :: ds).filterMap id ∧ some s ∈ p.all := by
  have h' : ops = (some d :: ds).flatMap fun o => (o.map avOps).getD [] := h
  subst h'
  obtain ⟨o, h1, h2⟩ := List.mem_flatMap.1 ho
  cases o with
  | none => cases h2
  | some a =>
    have h3 : a ∈ (some d :: ds).filterMap id := List.mem_filterMap.2 ⟨some a, h1, rfl⟩
    obtain ⟨n, p, rfl⟩ := hk a h3
    simp only [Option.map_some, Option.getD_some, avOps, avPermsOps, List.mem_filterMap, Option.map_eq_some_iff] at h2
    obtain ⟨o', h4, s, rfl, rfl⟩ := h2
    exact ⟨s, rfl, n, p, h3, h4⟩

/-! ## Interfaces and templates -/

theorem declOps_plain {mod : Str} {ds : List (DeclFlavor × Str)} {op : MapOp} (h : op ∈ declOps mod ds) :
    ∃ n fl, op = .decl n mod fl := by
  simp only [declOps, List.mem_map] at h
  obtain ⟨d, -, rfl⟩ := h
  exact ⟨_, _, rfl⟩

/-- The insertions of facts outside templates are of declarations and marks. -/
theorem factsOps_kinds {T : Assoc TemplateElem} {mod : Str} {fs : List Fact} :
    ∀ {ops : List MapOp}, FactsOps T mod fs ops → ∀ op ∈ ops,
      (∃ n fl, op = .decl n mod fl) ∨ (∃ i, op = .transform i ∨ op = .filetrans i ∨ op = .role i) := by
  induction fs with
  | nil => rintro ops rfl op h; cases h
  | cons f fs ih =>
    rintro ops ⟨a, b, rfl, ha, hb⟩ op h
    rcases List.mem_append.1 h with h | h
    · cases f with
      | declares fl n => cases ha; exact .inl (declOps_plain h)
      | aliases n => cases ha; exact .inl (declOps_plain h)
      | transforms i => cases ha; exact .inr ⟨i, .inl (List.mem_singleton.1 h)⟩
      | filetrans i => cases ha; exact .inr ⟨i, .inr (.inl (List.mem_singleton.1 h))⟩
      | roles i => cases ha; exact .inr ⟨i, .inr (.inr (List.mem_singleton.1 h))⟩
      | calls c i =>
        obtain ⟨e, out, -, rfl⟩ := ha
        rcases List.mem_append.1 h with h | h
        · exact .inl (declOps_plain h)
        · cases i with
          | none => cases h
          | some i =>
            simp only at h
            split at h
            · exact .inr ⟨i, .inr (.inl (List.mem_singleton.1 h))⟩
            · cases h
    · exact ih hb op h

/-- What the definition of an interface or template enters besides declarations and marks. -/
theorem defOps_kinds {m : Maps} {mod : Str} {d : IfDef} {ops : List MapOp} (h : DefOps m mod d ops) :
    (∀ n md, MapOp.iface n md ∈ ops ↔ n = d.name ∧ md = mod) ∧
    (∀ n, MapOp.template n ∈ ops ↔ n = d.name ∧ d.isTemplate = true) ∧
    (∀ t fl x, MapOp.templateDecl t fl x ∈ ops ↔
      t = d.name ∧ d.isTemplate = true ∧ (fl, x) ∈ (ifDefFacts mod d).flatMap templateDeclared) ∧
    (∀ t c, MapOp.templateCall t c ∈ ops ↔
      t = d.name ∧ d.isTemplate = true ∧ c ∈ (ifDefFacts mod d).flatMap called) := by
  unfold DefOps at h
  by_cases ht : d.isTemplate = true
  · simp only [ht, if_true] at h
    subst h
    have hd : ∀ t fl x, MapOp.templateDecl t fl x ∈ (ifDefFacts mod d).flatMap (templateFactOps d.name) ↔
        t = d.name ∧ (fl, x) ∈ (ifDefFacts mod d).flatMap templateDeclared := by
      intro t fl x
      simp only [List.mem_flatMap, templateFactOps, List.mem_append, List.mem_map]
      constructor
      · rintro ⟨f, hf, ⟨a, ha, e⟩ | ⟨a, ha, e⟩⟩
        · cases e; exact ⟨rfl, f, hf, ha⟩
        · cases e
      · rintro ⟨rfl, f, hf, ha⟩; exact ⟨f, hf, .inl ⟨_, ha, rfl⟩⟩
    have hc : ∀ t c, MapOp.templateCall t c ∈ (ifDefFacts mod d).flatMap (templateFactOps d.name) ↔
        t = d.name ∧ c ∈ (ifDefFacts mod d).flatMap called := by
      intro t c
      simp only [List.mem_flatMap, templateFactOps, List.mem_append, List.mem_map]
      constructor
      · rintro ⟨f, hf, ⟨a, ha, e⟩ | ⟨a, ha, e⟩⟩
        · cases e
        · cases e; exact ⟨rfl, f, hf, ha⟩
      · rintro ⟨rfl, f, hf, ha⟩; exact ⟨f, hf, .inr ⟨_, ha, rfl⟩⟩
    have ho : ∀ op ∈ (ifDefFacts mod d).flatMap (templateFactOps d.name),
        (∃ fl x, op = .templateDecl d.name fl x) ∨ ∃ c, op = .templateCall d.name c := by
      intro op h
      simp only [List.mem_flatMap, templateFactOps, List.mem_append, List.mem_map] at h
      obtain ⟨f, -, ⟨a, -, rfl⟩ | ⟨a, -, rfl⟩⟩ := h
      · exact .inl ⟨_, _, rfl⟩
      · exact .inr ⟨_, rfl⟩
    refine ⟨fun n md => ?_, fun n => ?_, fun t fl x => ?_, fun t c => ?_⟩
    · simp only [List.mem_append, List.mem_cons, MapOp.iface.injEq, List.not_mem_nil, or_false, reduceCtorEq, false_or]
      constructor
      · rintro (h | h)
        · exact h
        · rcases ho _ h with ⟨_, _, e⟩ | ⟨_, e⟩ <;> cases e
      · exact .inl
    · simp only [List.mem_append, List.mem_cons, MapOp.template.injEq, List.not_mem_nil, or_false, reduceCtorEq, ht, and_true]
      constructor
      · rintro (h | h)
        · exact h
        · rcases ho _ h with ⟨_, _, e⟩ | ⟨_, e⟩ <;> cases e
      · exact .inl
    · simp [hd, ht]
    · simp [hc, ht]
  · simp only [ht, Bool.false_eq_true, if_false] at h
    obtain ⟨a, rfl, ha⟩ := h
    have ho := factsOps_kinds ha
    refine ⟨fun n md => ?_, fun n => ?_, fun t fl x => ?_, fun t c => ?_⟩
    · simp only [List.mem_cons, MapOp.iface.injEq]
      constructor
      · rintro (h | h)
        · exact h
        · rcases ho _ h with ⟨_, _, e⟩ | ⟨_, e | e | e⟩ <;> cases e
      · exact .inl
    · simp only [List.mem_cons, reduceCtorEq, false_or, ht, and_false, iff_false]
      intro h
      rcases ho _ h with ⟨_, _, e⟩ | ⟨_, e | e | e⟩ <;> cases e
    · simp only [List.mem_cons, reduceCtorEq, false_or, ht, false_and, and_false, iff_false]
      intro h
      rcases ho _ h with ⟨_, _, e⟩ | ⟨_, e | e | e⟩ <;> cases e
    · simp only [List.mem_cons, reduceCtorEq, false_or, ht, false_and, and_false, iff_false]
      intro h
      rcases ho _ h with ⟨_, _, e⟩ | ⟨_, e | e | e⟩ <;> cases e

theorem defsOps_mem {mod : Str} {ds : List IfDef} {P : MapOp → IfDef → Prop} {op : MapOp}
    (hP : ∀ m d ops, DefOps m mod d ops → (op ∈ ops ↔ P op d)) : ∀ {m : Maps} {ops : List MapOp},
    DefsOps mod m ds ops → (op ∈ ops ↔ ∃ d ∈ ds, P op d) := by
  induction ds with
  | nil => rintro m ops rfl; simp
  | cons d ds ih =>
    rintro m ops ⟨a, b, rfl, ha, hb⟩
    rw [List.mem_append, hP m d a ha, ih hb]
    simp

/-- The definitions in an interface file; none in any other file. -/
def Spec.definitions : SourceFile → List IfDef
  | .iface _ d ls => ifDefs d ls
  | _ => []

theorem fileOps_defs {kind : FileFlavor} {m : Maps} {mod : Str} {f : SourceFile} (hk : FitsKind kind f) {ops : List MapOp}
    (h : FileOps m mod f ops) :
    (∀ n md, MapOp.iface n md ∈ ops ↔ ∃ d ∈ definitions f, n = d.name ∧ md = mod) ∧
    (∀ n, MapOp.template n ∈ ops ↔ ∃ d ∈ definitions f, n = d.name ∧ d.isTemplate = true) ∧
    (∀ t fl x, MapOp.templateDecl t fl x ∈ ops ↔ ∃ d ∈ definitions f,
      t = d.name ∧ d.isTemplate = true ∧ (fl, x) ∈ (ifDefFacts mod d).flatMap templateDeclared) ∧
    (∀ t c, MapOp.templateCall t c ∈ ops ↔ ∃ d ∈ definitions f,
      t = d.name ∧ d.isTemplate = true ∧ c ∈ (ifDefFacts mod d).flatMap called) := by
  cases f with
  | te cs hd b =>
    have ho := factsOps_kinds h
    simp only [definitions, List.not_mem_nil, false_and, exists_false, iff_false]
    refine ⟨fun _ _ h => ?_, fun _ h => ?_, fun _ _ _ h => ?_, fun _ _ h => ?_⟩ <;>
      rcases ho _ h with ⟨_, _, e⟩ | ⟨_, e | e | e⟩ <;> cases e
  | iface cs d ls =>
    exact ⟨fun n md => defsOps_mem (P := fun _ d => n = d.name ∧ md = mod) (fun m d ops hd => (defOps_kinds hd).1 n md) h,
      fun n => defsOps_mem (P := fun _ d => n = d.name ∧ d.isTemplate = true) (fun m d ops hd => (defOps_kinds hd).2.1 n) h,
      fun t fl x => defsOps_mem (P := fun _ d => t = d.name ∧ d.isTemplate = true ∧
        (fl, x) ∈ (ifDefFacts mod d).flatMap templateDeclared) (fun m d ops hd => (defOps_kinds hd).2.2.1 t fl x) h,
      fun t c => defsOps_mem (P := fun _ d => t = d.name ∧ d.isTemplate = true ∧
        c ∈ (ifDefFacts mod d).flatMap called) (fun m d ops hd => (defOps_kinds hd).2.2.2 t c) h⟩
  | spt cs d ds => cases kind <;> exact hk.elim
  | av cs d ds =>
    have ho := fun op (ho : op ∈ ops) => av_mem h (by cases kind <;> exact hk) ho
    simp only [definitions, List.not_mem_nil, false_and, exists_false, iff_false]
    refine ⟨fun _ _ h => ?_, fun _ h => ?_, fun _ _ _ h => ?_, fun _ _ h => ?_⟩ <;>
      obtain ⟨_, e, -⟩ := ho _ h <;> cases e
  | empty => cases h; simp [definitions]
  | comments c cs => cases h; simp [definitions]

/-! ## The tables -/

theorem lookUpIf_foldl (ops : List MapOp) (k : Str) (m : Maps) :
    (ops.foldl MapOp.apply m).lookUpIf k = (m.lookUpIf k).or (ops.findSome? (·.definesIf k)) := by
  refine find_foldl (fun m => m.ifs) (fun k op => op.definesIf k) ?_ ops m k
  intro m op k
  cases op with
  | iface n md =>
    simp only [MapOp.apply, Maps.insertIf, MapOp.definesIf, Assoc.find_insertNew]
  | decl n md fl => simp [MapOp.apply, (Maps.insertDecl_other m n md fl).2.2.1, MapOp.definesIf]
  | transform n => simp only [MapOp.apply, Maps.markTransform]; split <;> simp [MapOp.definesIf]
  | filetrans n => simp only [MapOp.apply, Maps.markFiletrans]; split <;> simp [MapOp.definesIf]
  | role n => simp only [MapOp.apply, Maps.markRole]; split <;> simp [MapOp.definesIf]
  | _ => simp [MapOp.apply, MapOp.definesIf, Maps.insertMod, Maps.insertModLayer, Maps.insertPermmacro,
      Maps.insertTemplate, Maps.insertTemplateDecl, Maps.insertTemplateCall, Maps.updTemplate]

theorem definesIf_some {ops : List MapOp} {k md : Str} (h : ops.findSome? (·.definesIf k) = some md) :
    MapOp.iface k md ∈ ops := by
  obtain ⟨op, hop, h'⟩ := List.exists_of_findSome?_eq_some h
  clear h
  have h := h'; clear h'
  cases op with
  | iface n md' =>
    simp only [MapOp.definesIf] at h
    split at h
    · rename_i hh; subst hh; cases h; exact hop
    · cases h
  | _ => cases h

theorem definesIf_isSome {ops : List MapOp} {k md : Str} (h : MapOp.iface k md ∈ ops) :
    ops.findSome? (·.definesIf k) ≠ none := by
  intro hn
  rw [List.findSome?_eq_none_iff] at hn
  have := hn _ h
  simp [MapOp.definesIf] at this

theorem templateDecls_apply (m : Maps) (op : MapOp) (t : Str) :
    (op.apply m).templateDecls t = m.templateDecls t ++ (op.addsDecl t).toList := by
  unfold Maps.templateDecls
  rw [apply_template, opTemplate]
  by_cases hm : op.mentionsTemplate t = true
  · simp only [hm, if_true]
    cases m.lookUpTemplate t <;> rfl
  · simp only [hm, Bool.false_eq_true, if_false]
    have : op.addsDecl t = none := by
      cases op <;> simp_all [MapOp.mentionsTemplate, MapOp.addsDecl]
    rw [this]
    simp

theorem templateCalls_apply (m : Maps) (op : MapOp) (t : Str) :
    (op.apply m).templateCalls t = m.templateCalls t ++ (op.addsCall t).toList := by
  unfold Maps.templateCalls
  rw [apply_template, opTemplate]
  by_cases hm : op.mentionsTemplate t = true
  · simp only [hm, if_true]
    cases m.lookUpTemplate t <;> rfl
  · simp only [hm, Bool.false_eq_true, if_false]
    have : op.addsCall t = none := by
      cases op <;> simp_all [MapOp.mentionsTemplate, MapOp.addsCall]
    rw [this]
    simp

theorem templateDecls_foldl (ops : List MapOp) (t : Str) (x : DeclFlavor × Str) : ∀ m : Maps,
    x ∈ (ops.foldl MapOp.apply m).templateDecls t ↔ x ∈ m.templateDecls t ∨ MapOp.templateDecl t x.1 x.2 ∈ ops := by
  induction ops with
  | nil => intro m; simp
  | cons op ops ih =>
    intro m
    rw [List.foldl_cons, ih, templateDecls_apply, List.mem_append, List.mem_cons, or_assoc]
    refine or_congr Iff.rfl (or_congr ?_ Iff.rfl)
    cases op <;> simp [MapOp.addsDecl]
    rename_i n fl d
    by_cases h : n = t
    · subst h; simp [Prod.ext_iff, eq_comm]
    · simp [h, Ne.symm h]

theorem templateCalls_foldl (ops : List MapOp) (t : Str) (x : IfCallData) : ∀ m : Maps,
    x ∈ (ops.foldl MapOp.apply m).templateCalls t ↔ x ∈ m.templateCalls t ∨ MapOp.templateCall t x ∈ ops := by
  induction ops with
  | nil => intro m; simp
  | cons op ops ih =>
    intro m
    rw [List.foldl_cons, ih, templateCalls_apply, List.mem_append, List.mem_cons, or_assoc]
    refine or_congr Iff.rfl (or_congr ?_ Iff.rfl)
    cases op <;> simp [MapOp.addsCall]
    rename_i n c
    by_cases h : n = t
    · subst h; simp [eq_comm]
    · simp [h, Ne.symm h]

theorem template_foldl {ops : List MapOp} (h : ∀ n fl x c, MapOp.template n ∉ ops ∧ MapOp.templateDecl n fl x ∉ ops ∧
    MapOp.templateCall n c ∉ ops) : ∀ m : Maps, (ops.foldl MapOp.apply m).template = m.template := by
  induction ops with
  | nil => intro m; rfl
  | cons op ops ih =>
    intro m
    rw [List.foldl_cons, ih fun n fl x c => ⟨fun h' => (h n fl x c).1 (.tail _ h'), fun h' => (h n fl x c).2.1 (.tail _ h'),
      fun h' => (h n fl x c).2.2 (.tail _ h')⟩]
    cases op with
    | decl n md fl => exact (Maps.insertDecl_other ..).2.2.2.2.2.2.2
    | transform n => simp only [MapOp.apply, Maps.markTransform]; split <;> rfl
    | filetrans n => simp only [MapOp.apply, Maps.markFiletrans]; split <;> rfl
    | role n => simp only [MapOp.apply, Maps.markRole]; split <;> rfl
    | template n => exact absurd (.head _) (h n .type [] ⟨[], []⟩).1
    | templateDecl n fl x => exact absurd (.head _) (h n fl x ⟨[], []⟩).2.1
    | templateCall n c => exact absurd (.head _) (h n .type [] c).2.2
    | _ => rfl

theorem Spec.InstanceOf.mono {m m' : Maps} (hd : ∀ t, ∀ x ∈ m.templateDecls t, x ∈ m'.templateDecls t)
    (hc : ∀ t, ∀ x ∈ m.templateCalls t, x ∈ m'.templateCalls t) {n : Str} {x : DeclFlavor × Str}
    (h : InstanceOf m n x) : InstanceOf m' n x := by
  have hch : ∀ a b, CallChain m a b → CallChain m' a b := by
    intro a b h
    induction h with
    | one h => obtain ⟨c, h1, h2⟩ := h; exact .one ⟨c, hc _ _ h1, h2⟩
    | step h _ ih => obtain ⟨c, h1, h2⟩ := h; exact .step ⟨c, hc _ _ h1, h2⟩ ih
  obtain ⟨t, h1, d, as, h2, h3⟩ := h
  exact ⟨t, h1.imp id (hch _ _), d, as, hd _ _ h2, h3⟩

/-- What an expansion enters are instances of declarations in templates. -/
theorem expansion_instance {m : Maps} {mod : Str} {c : IfCallData} {e : SelintError} {out : List (DeclFlavor × Str)}
    (h : Expansion m.template mod c e out) {x : DeclFlavor × Str} (hx : x ∈ out) : InstanceOf m c.name x := by
  have h1 := h m rfl
  obtain ⟨out', -, h2, h3⟩ := add_insertAll m _ rfl h1
  have h4 : Expansion m.template mod c e out' := by
    intro n hn
    rw [← insertAll_declOps, expandTemplate, hn]
    exact h2 n hn
  exact h3 x ((expansion_unique h h4 x).1 hx)

section
variable {w : Machine} {args : List Opt} {paths : List Str} {c : Course}

/-- A te or interface file of the policy or its context has this content. -/
def Spec.Course.Says (c : Course) (w : Machine) (mod : Str) (f : SourceFile) : Prop :=
  (∃ p ∈ c.scan.ifs ++ c.scan.contextIf, Contents (w.sources c.settings.customFcMacros) .ifFile p mod f) ∨
  ∃ p ∈ c.scan.contextTe ++ c.scan.te, Contents (w.sources c.settings.customFcMacros) .teFile p mod f

theorem te_no_defs {f : SourceFile} (h : FitsKind .teFile f) : definitions f = [] := by
  cases f <;> first | rfl | exact h.elim

theorem policyOps_no_defs {src : Sources} {m : Maps} {ps : List Str} {ops : List MapOp} (h : PolicyOps src .teFile m ps ops) :
    (∀ n md, MapOp.iface n md ∉ ops) ∧ (∀ n, MapOp.template n ∉ ops) ∧ (∀ t fl x, MapOp.templateDecl t fl x ∉ ops) ∧
    ∀ t c, MapOp.templateCall t c ∉ ops := by
  refine ⟨fun n md h' => ?_, fun n h' => ?_, fun t fl x h' => ?_, fun t c h' => ?_⟩
  all_goals
    obtain ⟨p, -, mod, f, pre, a, post, h1, -, h2, h3⟩ := policyOps_elim h h'
    obtain ⟨d1, d2, d3, d4⟩ := fileOps_defs h1.2.1 h2
    have hd := te_no_defs h1.2.1
  · rw [d1, hd] at h3; simp at h3
  · rw [d2, hd] at h3; simp at h3
  · rw [d3, hd] at h3; simp at h3
  · rw [d4, hd] at h3; simp at h3

/-- **C73 (interfaces).** An interface or template is known to the checks exactly if an interface
file of the policy or of its context defines it. -/
theorem C73_interfaces (hc : c.Of w args paths) (n : Str) :
    c.tables.lookUpIf n ≠ none ↔ c.scan.maps.lookUpIf n ≠ none ∨
      ∃ mod f, c.Says w mod f ∧ ∃ d ∈ definitions f, d.name = n := by
  obtain ⟨i, t, files, marks, h1, -, -, -, h2, h3⟩ := C73_history hc
  have ht : t.findSome? (·.definesIf n) = none := by
    cases hs : t.findSome? (·.definesIf n) with
    | none => rfl
    | some md => exact absurd (definesIf_some hs) ((policyOps_no_defs h2).1 _ _)
  have e : c.tables.lookUpIf n = (c.scan.maps.lookUpIf n).or (i.findSome? (·.definesIf n)) := by
    rw [h3, lookUpIf_foldl, ht, Option.or_none, ← lookUpIf_foldl]; rfl
  rw [e]
  have key : i.findSome? (·.definesIf n) ≠ none ↔ ∃ mod f, c.Says w mod f ∧ ∃ d ∈ definitions f, d.name = n := by
    constructor
    · intro h
      cases hs : i.findSome? (·.definesIf n) with
      | none => exact absurd hs h
      | some md =>
        obtain ⟨p, hp, mod, f, pre, a, post, h4, -, h5, h6⟩ := policyOps_elim h1 (definesIf_some hs)
        obtain ⟨d, hd, e, -⟩ := ((fileOps_defs h4.2.1 h5).1 _ _).1 h6
        exact ⟨mod, f, .inl ⟨p, hp, h4⟩, d, hd, e.symm⟩
    · rintro ⟨mod, f, ⟨p, hp, hf⟩ | ⟨p, hp, hf⟩, d, hd, rfl⟩
      · obtain ⟨pre, a, post, rfl, h5⟩ := policyOps_intro h1 hp hf
        have h6 := ((fileOps_defs hf.2.1 h5).1 d.name mod).2 ⟨d, hd, rfl, rfl⟩
        exact definesIf_isSome (by simp only [List.mem_append]; exact .inl (.inr h6))
      · rw [te_no_defs hf.2.1] at hd; cases hd
  rw [← key]
  cases c.scan.maps.lookUpIf n <;> simp

/-- **C73 (templates).** The body of a template consists of what the interface files say in
definitions of it. -/
theorem C73_templates (hc : c.Of w args paths) (t : Str) :
    (∀ x, x ∈ c.tables.templateDecls t ↔ x ∈ c.scan.maps.templateDecls t ∨
      ∃ mod f, c.Says w mod f ∧ ∃ d ∈ definitions f, t = d.name ∧ d.isTemplate = true ∧
        x ∈ (ifDefFacts mod d).flatMap templateDeclared) ∧
    ∀ x, x ∈ c.tables.templateCalls t ↔ x ∈ c.scan.maps.templateCalls t ∨
      ∃ mod f, c.Says w mod f ∧ ∃ d ∈ definitions f, t = d.name ∧ d.isTemplate = true ∧
        x ∈ (ifDefFacts mod d).flatMap called := by
  obtain ⟨i, tt, files, marks, h1, -, -, -, h2, h3⟩ := C73_history hc
  obtain ⟨-, -, n1, n2⟩ := policyOps_no_defs h2
  refine ⟨fun x => ?_, fun x => ?_⟩
  · rw [h3, templateDecls_foldl]
    simp only [n1, or_false]
    have : ({ i.foldl MapOp.apply c.scan.maps with transform := marks } : Maps).templateDecls t =
      (i.foldl MapOp.apply c.scan.maps).templateDecls t := rfl
    rw [this, templateDecls_foldl]
    refine or_congr Iff.rfl ⟨fun h => ?_, ?_⟩
    · obtain ⟨p, hp, mod, f, pre, a, post, h4, -, h5, h6⟩ := policyOps_elim h1 h
      exact ⟨mod, f, .inl ⟨p, hp, h4⟩, ((fileOps_defs h4.2.1 h5).2.2.1 _ _ _).1 h6⟩
    · rintro ⟨mod, f, ⟨p, hp, hf⟩ | ⟨p, hp, hf⟩, h⟩
      · obtain ⟨pre, a, post, rfl, h5⟩ := policyOps_intro h1 hp hf
        have h6 := ((fileOps_defs hf.2.1 h5).2.2.1 _ _ _).2 h
        simp only [List.mem_append]; exact .inl (.inr h6)
      · obtain ⟨d, hd, -⟩ := h
        rw [te_no_defs hf.2.1] at hd; cases hd
  · rw [h3, templateCalls_foldl]
    simp only [n2, or_false]
    have : ({ i.foldl MapOp.apply c.scan.maps with transform := marks } : Maps).templateCalls t =
      (i.foldl MapOp.apply c.scan.maps).templateCalls t := rfl
    rw [this, templateCalls_foldl]
    refine or_congr Iff.rfl ⟨fun h => ?_, ?_⟩
    · obtain ⟨p, hp, mod, f, pre, a, post, h4, -, h5, h6⟩ := policyOps_elim h1 h
      exact ⟨mod, f, .inl ⟨p, hp, h4⟩, ((fileOps_defs h4.2.1 h5).2.2.2 _ _).1 h6⟩
    · rintro ⟨mod, f, ⟨p, hp, hf⟩ | ⟨p, hp, hf⟩, h⟩
      · obtain ⟨pre, a, post, rfl, h5⟩ := policyOps_intro h1 hp hf
        have h6 := ((fileOps_defs hf.2.1 h5).2.2.2 _ _).2 h
        simp only [List.mem_append]; exact .inl (.inr h6)
      · obtain ⟨d, hd, -⟩ := h
        rw [te_no_defs hf.2.1] at hd; cases hd

theorem tables_decl {i t : List MapOp} {m : Maps} {marks : List Str} (n : Str) (fl : DeclFlavor) :
    (t.foldl MapOp.apply { i.foldl MapOp.apply m with transform := marks }).lookUpDecl n fl =
      (m.lookUpDecl n fl).or ((i ++ t).findSome? (·.declares n fl)) := by
  have : ({ i.foldl MapOp.apply m with transform := marks } : Maps).lookUpDecl n fl =
    (i.foldl MapOp.apply m).lookUpDecl n fl := by cases fl <;> rfl
  rw [lookUpDecl_foldl, this, lookUpDecl_foldl, List.findSome?_append, Option.or_assoc]

theorem declares_ne {ops : List MapOp} {k md : Str} {fl : DeclFlavor} (h : MapOp.decl k md fl ∈ ops) :
    ops.findSome? (·.declares k fl) ≠ none := by
  obtain ⟨md', h'⟩ := declares_isSome h
  rw [h']; simp

theorem facts_isPolicy {f : SourceFile} {mod : Str} {x : Fact} (h : x ∈ fileFacts mod f) : isPolicy f = true := by
  cases f <;> first | rfl | cases h

/-- **C73 (declarations are seen).** Whatever a te or interface file of the policy or its context
declares, outside require blocks and templates, is known to the checks of all files. -/
theorem C73_declared (hc : c.Of w args paths) {mod : Str} {f : SourceFile} (hf : c.Says w mod f) {fl : DeclFlavor} {n : Str}
    (hd : (fl, n) ∈ (fileFacts mod f).flatMap declared) : c.tables.lookUpDecl n fl ≠ none := by
  obtain ⟨i, t, files, marks, h1, -, -, -, h2, h3⟩ := C73_history hc
  have hp : isPolicy f = true := by
    obtain ⟨x, hx, -⟩ := List.mem_flatMap.1 hd
    exact facts_isPolicy hx
  have key : ∃ md, MapOp.decl n md fl ∈ i ++ t := by
    rcases hf with ⟨p, hm, hf⟩ | ⟨p, hm, hf⟩
    · obtain ⟨pre, a, post, rfl, h5⟩ := policyOps_intro h1 hm hf
      have := (fileOps_decl (md := mod) hp h5).2 hd
      exact ⟨mod, by simp [this]⟩
    · obtain ⟨pre, a, post, rfl, h5⟩ := policyOps_intro h2 hm hf
      have := (fileOps_decl (md := mod) hp h5).2 hd
      exact ⟨mod, by simp [this]⟩
  obtain ⟨md, key⟩ := key
  rw [h3, tables_decl]
  cases c.scan.maps.lookUpDecl n fl with
  | some x => simp
  | none => simpa using declares_ne key

/-- **C73 (templates are expanded).** What a call in a te file expands to, with the templates of all
interface files, is known to the checks of all files. -/
theorem C73_expanded (hc : c.Of w args paths) {p mod : Str} (hm : p ∈ c.scan.contextTe ++ c.scan.te) {cs : List Nat}
    {hd : Header} {b : Lines} (hf : Contents (w.sources c.settings.customFcMacros) .teFile p mod (.te cs hd b))
    {cl : IfCallData} {ins : Option Str} (hcall : Fact.calls cl ins ∈ linesFacts mod none b) {e : SelintError}
    {out : List (DeclFlavor × Str)} (hx : Expansion c.tables.template mod cl e out) {fl : DeclFlavor} {n : Str}
    (ho : (fl, n) ∈ out) : c.tables.lookUpDecl n fl ≠ none := by
  obtain ⟨i, t, files, marks, h1, -, -, -, h2, h3⟩ := C73_history hc
  obtain ⟨-, n0, n1, n2⟩ := policyOps_no_defs h2
  obtain ⟨pre, a, post, rfl, h5⟩ := policyOps_intro h2 hm hf
  have hT : c.tables.template = (pre.foldl MapOp.apply { i.foldl MapOp.apply c.scan.maps with transform := marks }).template := by
    rw [h3, template_foldl fun n fl x c => ⟨n0 n, n1 n fl x, n2 n c⟩, template_foldl (ops := pre) fun n fl x c =>
      ⟨fun h => n0 n (by simp [h]), fun h => n1 n fl x (by simp [h]), fun h => n2 n c (by simp [h])⟩]
  rw [hT] at hx
  have key := factsOps_calls hx ho h5 hcall
  rw [h3, tables_decl]
  cases c.scan.maps.lookUpDecl n fl with
  | some x => simp
  | none =>
    have : MapOp.decl n mod fl ∈ i ++ (pre ++ a ++ post) := by simp [key]
    simpa using declares_ne this

/-- The file consists of definitions of common permissions, one of which has the permission. -/
def Spec.CommonPerm (f : SourceFile) (s : Str) : Prop :=
  ∃ cs d ds n p, f = .av cs d ds ∧ AvDef.common n p ∈ (some d :: ds).filterMap id ∧ some s ∈ p.all

/-- **C73 (and by whom).** A symbol is known as one of a module only if the support files say so, or a te or
interface file of this module declares it outside require blocks and templates, or makes a call of a
template that, or another template called from it, has a declaration of which it is an instance; or it
is a permission that a file defines. -/
theorem C73_module (hc : c.Of w args paths) {fl : DeclFlavor} {n md : Str} (h : c.tables.lookUpDecl n fl = some md) :
    c.scan.maps.lookUpDecl n fl = some md ∨
      (∃ f, c.Says w md f ∧ ((fl, n) ∈ (fileFacts md f).flatMap declared ∨
        ∃ cl ins, Fact.calls cl ins ∈ fileFacts md f ∧ InstanceOf c.tables cl.name (fl, n))) ∨
      fl = .perm ∧ ∃ mod f, c.Says w mod f ∧ CommonPerm f n := by
  obtain ⟨i, t, files, marks, h1, -, -, -, h2, h3⟩ := C73_history hc
  rw [h3, tables_decl] at h
  cases hs : c.scan.maps.lookUpDecl n fl with
  | some x => rw [hs, Option.some_or] at h; exact .inl h
  | none =>
    right
    rw [hs, Option.none_or] at h
    have hop := declares_some h
    have hmem : ∀ (m0 : Maps) (src : Sources) (kind : FileFlavor) (ps : List Str) (ops : List MapOp),
        PolicyOps src kind m0 ps ops → MapOp.decl n md fl ∈ ops →
        (∀ pre post, ops = pre ++ post → ∀ cl, InstanceOf (pre.foldl MapOp.apply m0) cl (fl, n) → InstanceOf c.tables cl (fl, n)) →
        ∃ p ∈ ps, ∃ mod f, Contents src kind p mod f ∧ (mod = md ∧ ((fl, n) ∈ (fileFacts md f).flatMap declared ∨
          ∃ cl ins, Fact.calls cl ins ∈ fileFacts md f ∧ InstanceOf c.tables cl.name (fl, n)) ∨
          fl = .perm ∧ CommonPerm f n) := by
      intro m0 src kind ps ops hP hop hmono
      obtain ⟨p, hp, mod, f, pre, a, post, h4, rfl, h5, h6⟩ := policyOps_elim hP hop
      refine ⟨p, hp, mod, f, h4, ?_⟩
      by_cases hpol : isPolicy f = true
      · obtain ⟨rfl, hsrc⟩ := (fileOps_decl hpol h5).1 h6
        refine .inl ⟨rfl, ?_⟩
        rcases hsrc with hsrc | ⟨cl, ins, h7, T, ⟨pre', ⟨post', rfl⟩, rfl⟩, e, out, h8, h9⟩
        · exact .inl hsrc
        · refine .inr ⟨cl, ins, h7, ?_⟩
          refine hmono (pre ++ pre') (post' ++ post) (by simp) _ ?_
          rw [List.foldl_append]
          exact expansion_instance h8 h9
      · cases f with
        | te _ _ _ => exact absurd rfl hpol
        | iface _ _ _ => exact absurd rfl hpol
        | spt _ _ _ => exact absurd h4.2.1 (by cases kind <;> exact id)
        | empty => cases h5; cases h6
        | comments _ _ => cases h5; cases h6
        | av cs d ds =>
          obtain ⟨s, e, nm, p, h7, h8⟩ := av_mem h5 (by cases kind <;> exact h4.2.1) h6
          cases e
          exact .inr ⟨rfl, cs, d, ds, nm, p, rfl, h7, h8⟩
    have hsub : ∀ (a b : List MapOp) (m0 : Maps), (∀ t, ∀ x ∈ (a.foldl MapOp.apply m0).templateDecls t,
        x ∈ ((a ++ b).foldl MapOp.apply m0).templateDecls t) ∧ (∀ t, ∀ x ∈ (a.foldl MapOp.apply m0).templateCalls t,
        x ∈ ((a ++ b).foldl MapOp.apply m0).templateCalls t) := by
      intro a b m0
      rw [List.foldl_append]
      exact ⟨fun t x hx => (templateDecls_foldl ..).2 (.inl hx), fun t x hx => (templateCalls_foldl ..).2 (.inl hx)⟩
    rcases List.mem_append.1 hop with hop | hop
    · obtain ⟨p, hp, mod, f, h4, h5⟩ := hmem _ _ _ _ _ h1 hop (by
        intro pre post e cl hin
        subst e
        have h6 := hsub pre post c.scan.maps
        refine (hin.mono h6.1 h6.2).mono ?_ ?_
        · intro t' x hx
          rw [h3, templateDecls_foldl]
          exact .inl hx
        · intro t' x hx
          rw [h3, templateCalls_foldl]
          exact .inl hx)
      rcases h5 with ⟨rfl, h5⟩ | ⟨h5, h6⟩
      · exact .inl ⟨f, .inl ⟨p, hp, h4⟩, h5⟩
      · exact .inr ⟨h5, mod, f, .inl ⟨p, hp, h4⟩, h6⟩
    · obtain ⟨p, hp, mod, f, h4, h5⟩ := hmem _ _ _ _ _ h2 hop (by
        intro pre post e cl hin
        have h6 := hsub pre post { i.foldl MapOp.apply c.scan.maps with transform := marks }
        have := hin.mono h6.1 h6.2
        rwa [← e, ← h3] at this)
      rcases h5 with ⟨rfl, h5⟩ | ⟨h5, h6⟩
      · exact .inl ⟨f, .inr ⟨p, hp, h4⟩, h5⟩
      · exact .inr ⟨h5, mod, f, .inr ⟨p, hp, h4⟩, h6⟩

/-- **C73 (and nothing else).** What is known to the checks was known from the support files, or it
is a permission that a file defines, or a te or interface file declares it outside require blocks
and templates, or makes a call of a template that, or another template called from it, has a
declaration of which it is an instance. -/
theorem C73_only (hc : c.Of w args paths) {fl : DeclFlavor} {n : Str} (h : c.tables.lookUpDecl n fl ≠ none) :
    c.scan.maps.lookUpDecl n fl ≠ none ∨ ∃ mod f, c.Says w mod f ∧
      ((fl, n) ∈ (fileFacts mod f).flatMap declared ∨
        (∃ cl ins, Fact.calls cl ins ∈ fileFacts mod f ∧ InstanceOf c.tables cl.name (fl, n)) ∨
        fl = .perm ∧ CommonPerm f n) := by
  obtain ⟨md, h⟩ := Option.ne_none_iff_exists'.1 h
  rcases C73_module hc h with h | ⟨f, h1, h2 | h2⟩ | ⟨h1, mod, f, h2, h3⟩
  · exact .inl (by rw [h]; simp)
  · exact .inr ⟨md, f, h1, .inl h2⟩
  · exact .inr ⟨md, f, h1, .inr (.inl h2)⟩
  · exact .inr ⟨mod, f, h2, .inr (.inr ⟨h1, h3⟩)⟩

end

/-! ## C73 is about something -/

/-- The course of a run, computed. -/
def Spec.courseOf (w : Machine) (args : List Opt) (paths : List Str) : Option Course :=
  match settings w.config (optionsOf args) paths.length with
  | .exit _ => none
  | .go st =>
    match loadSupport w (optionsOf args) (collect w st paths) with
    | .ub => none
    | .ok s =>
      (readPolicy ((⟨st, s, [], {}⟩ : Course).program w) s.te s.ifs s.fc s.contextTe s.contextIf s.maps).map
        fun x => ⟨st, s, x.1, x.2⟩

theorem courseOf_of {w : Machine} {args : List Opt} {paths : List Str} {c : Course}
    (h : courseOf w args paths = some c) (ho : c.settings.opts = optionsOf args) : c.Of w args paths := by
  unfold courseOf at h
  cases h1 : settings w.config (optionsOf args) paths.length with
  | exit e => rw [h1] at h; cases h
  | go st =>
    rw [h1] at h
    dsimp only at h
    cases h2 : loadSupport w (optionsOf args) (collect w st paths) with
    | ub => rw [h2] at h; cases h
    | ok s =>
      rw [h2] at h
      simp only [Option.map_eq_some_iff] at h
      obtain ⟨⟨fs, m⟩, h3, rfl⟩ := h
      exact ⟨h1, ho, h2, h3⟩

theorem expansion_exists {T : Assoc TemplateElem} {mod : Str} {c : IfCallData} {e : SelintError} {m : Maps}
    (h : expandTemplate c.name c.argStrs mod { template := T } = .done e m) :
    ∃ out, Expansion T mod c e out ∧ ∀ x, m.lookUpDecl x.2 x.1 ≠ none → x ∈ out := by
  obtain ⟨out, rfl, h2, -⟩ := add_insertAll { template := T } _ rfl h
  refine ⟨out, fun m hm => ?_, fun x hx => ?_⟩
  · have := h2 m hm
    rw [insertAll_declOps] at this
    rw [← this, expandTemplate, hm]
  · have h0 : (({ template := T } : Maps).lookUpDecl x.2 x.1) = none := by
      obtain ⟨fl, n⟩ := x
      cases fl <;> rfl
    rw [lookUp_insertAll, h0, Option.none_or] at hx
    by_cases hm : x ∈ out
    · exact hm
    · simp [hm] at hx

/-- What the example looks at. -/
def exView (c : Course) : Bool × List Str × List Str × Option Str × Option Str × Option Str :=
  (c.settings.opts == optionsOf [.recursive, .fail], c.scan.ifs, c.scan.te,
    (match expandTemplate cs!"foo_template" [cs!"bar", cs!"baz"] cs!"foo" { template := c.tables.template } with
      | .done _ m => m.lookUpDecl cs!"bar_t" .type
      | _ => none),
    c.scan.maps.lookUpDecl cs!"bar_t" .type, c.tables.lookUpDecl cs!"x_t" .type)

set_option synthInstance.maxSize 1000 in
/-- In the run of `selint -r -F mod` on the example machine, the interface file defines a template
that declares a type; the te file calls it; so the type is known, and the one of the fc file is not. -/
example : ∃ (c : Course) (cl : IfCallData) (e : SelintError) (out : List (DeclFlavor × Str)),
    c.Of exMachine [.recursive, .fail] [cs!"mod"] ∧
    c.Says exMachine cs!"foo" templateFile ∧ (∃ d ∈ definitions templateFile, d.name = cs!"foo_template") ∧
    c.Says exMachine cs!"foo" callerFile ∧ Fact.calls cl none ∈ fileFacts cs!"foo" callerFile ∧
    Expansion c.tables.template cs!"foo" cl e out ∧ (.type, cs!"bar_t") ∈ out ∧
    c.scan.maps.lookUpDecl cs!"bar_t" .type = none ∧ c.tables.lookUpDecl cs!"x_t" .type = none := by
  have h : (courseOf exMachine [.recursive, .fail] [cs!"mod"]).map exView =
      some (true, [cs!"mod/foo.if"], [cs!"mod/foo.te"], some cs!"foo", none, none) := by decide +kernel
  simp only [exView, Option.map_eq_some_iff, Prod.mk.injEq, beq_iff_eq] at h
  obtain ⟨c, h1, h2, h3, h4, h5, h6, h7⟩ := h
  have hT : ∃ e m, expandTemplate cs!"foo_template" [cs!"bar", cs!"baz"] cs!"foo" { template := c.tables.template } = .done e m ∧
      m.lookUpDecl cs!"bar_t" .type = some cs!"foo" := by
    cases he : expandTemplate cs!"foo_template" [cs!"bar", cs!"baz"] cs!"foo" { template := c.tables.template } with
    | done e m => rw [he] at h5; exact ⟨e, m, rfl, h5⟩
    | ub => rw [he] at h5; cases h5
    | fuel => rw [he] at h5; cases h5
  obtain ⟨e, m, h8, h9⟩ := hT
  obtain ⟨out, h10, h11⟩ := expansion_exists (c := ⟨cs!"foo_template", [(cs!"bar", false), (cs!"baz", false)]⟩) h8
  refine ⟨c, _, e, out, courseOf_of h1 h2, .inl ⟨cs!"mod/foo.if", by simp [h3], ⟨cs!".if", rfl, by decide⟩, trivial, _, rfl, template_parses⟩,
    ⟨_, List.mem_cons_self .., rfl⟩,
    .inr ⟨cs!"mod/foo.te", by simp [h4], ⟨cs!".te", rfl, by decide⟩, trivial, _, rfl, caller_parses⟩, ?_, h10,
    h11 (.type, cs!"bar_t") (by simp [h9]), h6, h7⟩
  decide

end Selint
