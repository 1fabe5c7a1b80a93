import Verif.Lemmas.Start
/-!
# C76: what is known before the policy is read
-/

namespace Selint

open Spec

/-! ## Support files -/

/-- The access vector file that was found defines this. Without one, and if it cannot be opened,
nothing is defined. -/
def Spec.AvSays (w : Machine) : Option Str → List AvDef → Prop
  | none, ds => ds = []
  | some p, ds => (w.text p = none ∧ ds = []) ∨ ∃ s f, w.text p = some s ∧ ParsesTo s f ∧ avDefs f = some ds

/-- The file of permission sets that was found defines this. -/
def Spec.SetsSay (w : Machine) : Option Str → List SptDef → Prop
  | none, ds => ds = []
  | some p, ds => (w.text p = none ∧ ds = []) ∨ ∃ s f, w.text p = some s ∧ ParsesTo s f ∧ sptDefs f = some ds

/-- The module configuration file that was found says this. -/
def Spec.ModsSay (w : Machine) : Option Str → List (Str × Str) → Prop
  | none, ms => ms = []
  | some p, ms => (w.confLines p = none ∧ ms = []) ∨ ∃ lines, w.confLines p = some lines ∧ ConfSays lines ms

theorem loadSupportFile_ops {w : Machine} {p s : Str} {f : SourceFile} (ht : w.text p = some s) (hp : ParsesTo s f)
    {flavor : PlainFlavor} (m : Maps) {ops : List MapOp}
    (hops : ∀ m ops', FileOps m p f ops' → ops' = ops) (hx : ∃ st, f.exec flavor p m = .ok (some st)) :
    loadSupportFile w flavor p m = .ok (ops.foldl MapOp.apply m) := by
  obtain ⟨ts, g, h1, h2, h3⟩ := C68_text hp
  obtain ⟨st, hx⟩ := hx
  obtain ⟨ops', h4, h5⟩ := file_ops hp.tokens.1 hx
  unfold loadSupportFile
  rw [ht]
  simp only [h1, Option.bind_some, h2]
  rw [h3, hx, Res.bind_ok]
  dsimp only
  rw [h5, hops _ _ h4]

theorem av_load {w : Machine} {path : Option Str} {ds : List AvDef} (h : AvSays w path ds) (m : Maps) :
    ifFound path (loadSupportFile w .avFile) m = .ok ((ds.flatMap avOps).foldl MapOp.apply m) := by
  cases path with
  | none => cases h; rfl
  | some p =>
    rcases h with ⟨h1, rfl⟩ | ⟨s, f, h1, h2, h3⟩
    · simp [ifFound, loadSupportFile, h1]
    · refine loadSupportFile_ops h1 h2 m (fun m' ops' ho => ?_) ?_
      · cases f <;> simp only [avDefs, Option.some.injEq, reduceCtorEq] at h3
        · subst h3; exact ho
        · subst h3
          rename_i d l
          have ho : ops' = (some d :: l).flatMap fun o => (o.map avOps).getD [] := ho
          rw [ho]
          generalize some d :: l = l
          induction l with
          | nil => rfl
          | cons o l ih => cases o <;> simp [ih]
        · subst h3; exact ho
      · cases f <;> simp only [avDefs, Option.some.injEq, reduceCtorEq] at h3
        all_goals exact ⟨_, rfl⟩

theorem sets_load {w : Machine} {path : Option Str} {ds : List SptDef} (h : SetsSay w path ds) (m : Maps) :
    ifFound path (loadSupportFile w .sptFile) m = .ok ((ds.flatMap sptOps).foldl MapOp.apply m) := by
  cases path with
  | none => cases h; rfl
  | some p =>
    rcases h with ⟨h1, rfl⟩ | ⟨s, f, h1, h2, h3⟩
    · simp [ifFound, loadSupportFile, h1]
    · refine loadSupportFile_ops h1 h2 m (fun m' ops' ho => ?_) ?_
      · cases f <;> simp only [sptDefs, Option.some.injEq, reduceCtorEq] at h3
        · subst h3; exact ho
        · subst h3
          rename_i d l
          have ho : ops' = (some d :: l).flatMap fun o => (o.map sptOps).getD [] := ho
          rw [ho]
          generalize some d :: l = l
          induction l with
          | nil => rfl
          | cons o l ih => cases o <;> simp [ih]
        · subst h3; exact ho
      · cases f <;> simp only [sptDefs, Option.some.injEq, reduceCtorEq] at h3
        all_goals exact ⟨_, rfl⟩

theorem mods_load {w : Machine} {path : Option Str} {ms : List (Str × Str)} (h : ModsSay w path ms) (m : Maps) :
    ifFound path (loadModules w) m = .ok ((ms.map fun e => MapOp.mod e.1 e.2).foldl MapOp.apply m) := by
  cases path with
  | none => cases h; rfl
  | some p =>
    rcases h with ⟨h1, rfl⟩ | ⟨lines, h1, said, h2, h3, rfl⟩
    · simp [ifFound, loadModules, h1]
    · simp only [ifFound, loadModules, h1]
      rw [C45_file_partial m lines said h2 h3, Res.bind_ok, List.foldl_map]
      rfl

/-! ## The history of the tables -/

section
variable {w : Machine} {args : List Opt} {paths : List Str} {c : Course}

/-- What the scan enters: the assumed users and roles, and the layers of the interface files it finds. -/
theorem scan_history (hc : c.Of w args paths) : ∃ es : List FtsEnt,
    (collect w c.settings paths).ifs = es.map (·.path) ∧
    (collect w c.settings paths).maps =
      tablesAfter (declOps cs!"__assumed__" (assumed w.config (optionsOf args)) ++ es.map layerOp) := by
  obtain ⟨es, h1, h2⟩ := collect_layered w c.settings paths
  refine ⟨es, by simpa using h1, ?_⟩
  rw [h2]
  dsimp only
  rw [settings_ops hc.settings, tablesAfter, ← List.foldl_append]
  rfl

/-- **C76 (history, with -s).** Before the policy is read, the tables hold the assumed users and roles,
the layers of the interface files, what the access vector file defines, what the module configuration
says and the permission sets, in this order, and nothing else. -/
theorem C76_source_history (hc : c.Of w args paths) (hs : (optionsOf args).sourceFlag = true) {av : List AvDef} {mods : List (Str × Str)}
    {sets : List SptDef} (h1 : AvSays w c.scan.accessVectors av) (h2 : ModsSay w c.scan.modulesConf mods)
    (h3 : SetsSay w c.scan.objPermSets sets) : ∃ es : List FtsEnt, c.scan.ifs = es.map (·.path) ∧
    c.scan.maps = tablesAfter (declOps cs!"__assumed__" (assumed w.config (optionsOf args)) ++ es.map layerOp ++
      (av.flatMap avOps ++ mods.map (fun e => .mod e.1 e.2) ++ sets.flatMap sptOps)) := by
  obtain ⟨es, h4, h5⟩ := scan_history hc
  have h := hc.scan
  unfold loadSupport at h
  rw [if_pos hs] at h
  have key : c.scan.accessVectors = (collect w c.settings paths).accessVectors ∧
      c.scan.modulesConf = (collect w c.settings paths).modulesConf ∧
      c.scan.objPermSets = (collect w c.settings paths).objPermSets := by
    cases e1 : ifFound (collect w c.settings paths).accessVectors (loadSupportFile w .avFile) (collect w c.settings paths).maps with
    | ub => rw [e1] at h; cases h
    | ok m1 =>
      rw [e1, Res.bind_ok] at h
      cases e2 : ifFound (collect w c.settings paths).modulesConf (loadModules w) m1 with
      | ub => rw [e2] at h; cases h
      | ok m2 =>
        rw [e2, Res.bind_ok] at h
        cases e3 : ifFound (collect w c.settings paths).objPermSets (loadSupportFile w .sptFile) m2 with
        | ub => rw [e3] at h; cases h
        | ok m3 =>
          rw [e3, Res.bind_ok] at h
          simp only [Res.ok.injEq] at h
          rw [← h]
          exact ⟨rfl, rfl, rfl⟩
  rw [key.1] at h1
  rw [key.2.1] at h2
  rw [key.2.2] at h3
  rw [av_load h1, Res.bind_ok, mods_load h2, Res.bind_ok, sets_load h3, Res.bind_ok] at h
  simp only [Res.ok.injEq] at h
  refine ⟨es, by rw [← h]; exact h4, ?_⟩
  rw [← h]
  dsimp only
  rw [h5]
  simp [tablesAfter, List.foldl_append]

/-- **C76 (history, without -s).** Before the policy is read, the tables hold the assumed users and
roles, the layers of the interface files, the classes and permissions of the running kernel and the
layers of the development headers, in this order, and nothing else. -/
theorem C76_kernel_history (hc : c.Of w args paths) (hs : (optionsOf args).sourceFlag = false) : ∃ (es : List FtsEnt) (ops : List MapOp),
    c.scan.ifs = es.map (·.path) ∧
    (∀ op ∈ ops, ∃ n fl, op = .decl n (if fl = .cls then cs!"class" else cs!"perm") fl ∧ KernelHas w.kernel fl n) ∧
    (∀ fl n, KernelHas w.kernel fl n → ∃ md, MapOp.decl n md fl ∈ ops) ∧
    c.scan.maps = tablesAfter (declOps cs!"__assumed__" (assumed w.config (optionsOf args)) ++ es.map layerOp ++
      (ops ++ (headers w).map layerOp)) := by
  obtain ⟨es, h4, h5⟩ := scan_history hc
  obtain ⟨ops, h6, h7, h8⟩ := kernel_ops w.kernel (collect w c.settings paths).maps
  have h := hc.scan
  unfold loadSupport at h
  rw [if_neg (by simp [hs]), headers_load] at h
  simp only [Res.ok.injEq] at h
  refine ⟨es, ops, by rw [← h]; exact h4, h7, h8, ?_⟩
  rw [← h]
  dsimp only
  rw [h6, h5]
  simp [tablesAfter, List.foldl_append]

/-! ## What is known -/

theorem declares_iff {ops : List MapOp} {n : Str} {fl : DeclFlavor} :
    (tablesAfter ops).lookUpDecl n fl ≠ none ↔ ∃ md, MapOp.decl n md fl ∈ ops := by
  unfold tablesAfter
  rw [lookUpDecl_foldl]
  have : (({} : Maps).lookUpDecl n fl) = none := by cases fl <;> rfl
  rw [this, Option.none_or]
  constructor
  · intro h
    cases hs : ops.findSome? (·.declares n fl) with
    | none => exact absurd hs h
    | some md => exact ⟨md, declares_some hs⟩
  · rintro ⟨md, h⟩
    obtain ⟨md', h'⟩ := declares_isSome h
    rw [h']; simp

theorem mem_declOps {mod n md : Str} {fl : DeclFlavor} {ds : List (DeclFlavor × Str)} :
    MapOp.decl n md fl ∈ declOps mod ds ↔ md = mod ∧ (fl, n) ∈ ds := by
  unfold declOps
  simp only [List.mem_map, MapOp.decl.injEq, Prod.exists]
  constructor
  · rintro ⟨a, b, h1, rfl, rfl, rfl⟩; exact ⟨rfl, h1⟩
  · rintro ⟨rfl, h⟩; exact ⟨fl, n, h, rfl, rfl, rfl⟩

theorem not_layer {n md : Str} {fl : DeclFlavor} {es : List FtsEnt} : MapOp.decl n md fl ∉ es.map layerOp := by
  simp [layerOp]

theorem mem_avPerms {p : AvPerms} {n md : Str} {fl : DeclFlavor} :
    MapOp.decl n md fl ∈ avPermsOps p ↔ md = avModule ∧ (fl, n) ∈ (p.all.filterMap id).map fun s => (DeclFlavor.perm, s) := by
  unfold avPermsOps
  simp only [List.mem_filterMap, List.mem_map, Prod.mk.injEq, Option.map_eq_some_iff, MapOp.decl.injEq]
  constructor
  · rintro ⟨o, h1, s, rfl, rfl, rfl, rfl⟩
    exact ⟨rfl, _, ⟨_, h1, rfl⟩, rfl, rfl⟩
  · rintro ⟨rfl, s, ⟨o, h1, rfl⟩, rfl, rfl⟩
    exact ⟨some s, h1, s, rfl, rfl, rfl, rfl⟩

theorem mem_avOps {d : AvDef} {n md : Str} {fl : DeclFlavor} :
    MapOp.decl n md fl ∈ avOps d ↔ md = avModule ∧ (fl, n) ∈ avNames d := by
  cases d <;> simp only [avOps, avNames, List.mem_append, mem_avPerms, List.mem_singleton, MapOp.decl.injEq, Prod.mk.injEq] <;> grind

theorem not_sptOps {d : SptDef} {n md : Str} {fl : DeclFlavor} : MapOp.decl n md fl ∉ sptOps d := by
  unfold sptOps; split <;> simp

/-- **C76 (declarations, with -s).** Before the policy is read, the names known are the assumed users
and roles, and the classes and permissions of the access vector file. -/
theorem C76_source_declared (hc : c.Of w args paths) (hs : (optionsOf args).sourceFlag = true) {av : List AvDef} {mods : List (Str × Str)}
    {sets : List SptDef} (h1 : AvSays w c.scan.accessVectors av) (h2 : ModsSay w c.scan.modulesConf mods)
    (h3 : SetsSay w c.scan.objPermSets sets) (fl : DeclFlavor) (n : Str) :
    c.scan.maps.lookUpDecl n fl ≠ none ↔
      (fl, n) ∈ assumed w.config (optionsOf args) ∨ ∃ d ∈ av, (fl, n) ∈ avNames d := by
  obtain ⟨es, -, h⟩ := C76_source_history hc hs h1 h2 h3
  rw [h, declares_iff]
  simp only [List.mem_append, mem_declOps, layerOp, List.mem_flatMap, mem_avOps, not_sptOps, List.mem_map, reduceCtorEq,
    and_false, exists_false, or_false]
  grind

/-- **C76 (declarations, without -s).** Before the policy is read, the names known are the assumed users
and roles, and the classes and permissions of the running kernel. -/
theorem C76_kernel_declared (hc : c.Of w args paths) (hs : (optionsOf args).sourceFlag = false) (fl : DeclFlavor) (n : Str) :
    c.scan.maps.lookUpDecl n fl ≠ none ↔
      (fl, n) ∈ assumed w.config (optionsOf args) ∨ KernelHas w.kernel fl n := by
  obtain ⟨es, ops, -, h1, h2, h⟩ := C76_kernel_history hc hs
  rw [h, declares_iff]
  simp only [List.mem_append, mem_declOps, not_layer, or_false]
  constructor
  · rintro ⟨md, ⟨-, h⟩ | h⟩
    · exact .inl h
    · obtain ⟨n', fl', h3, h4⟩ := h1 _ h
      cases h3
      exact .inr h4
  · rintro (h | h)
    · exact ⟨_, .inl ⟨rfl, h⟩⟩
    · obtain ⟨md, h⟩ := h2 _ _ h
      exact ⟨md, .inr h⟩

theorem declOps_no {α : Type} {f : MapOp → Option α} (hf : ∀ n md fl, f (.decl n md fl) = none) (mod : Str)
    (ds : List (DeclFlavor × Str)) : (declOps mod ds).findSome? f = none := by
  rw [List.findSome?_eq_none_iff]
  intro op hop
  obtain ⟨d, -, rfl⟩ := List.mem_map.1 hop
  exact hf ..

theorem layers_no {α : Type} {f : MapOp → Option α} (hf : ∀ n l, f (.layer n l) = none) (es : List FtsEnt) :
    (es.map layerOp).findSome? f = none := by
  simp [layerOp, hf]

/-- **C76 (modules and permission sets, with -s).** The modules are those of the module configuration, the
first entry counts; the permission sets are those of the file of permission sets that are not deprecated
and whose name ends in `_perms`, the first definition counts. -/
theorem C76_source_modules (hc : c.Of w args paths) (hs : (optionsOf args).sourceFlag = true) {av : List AvDef} {mods : List (Str × Str)}
    {sets : List SptDef} (h1 : AvSays w c.scan.accessVectors av) (h2 : ModsSay w c.scan.modulesConf mods)
    (h3 : SetsSay w c.scan.objPermSets sets) (n : Str) :
    c.scan.maps.lookUpMod n = (mods.find? (·.1 = n)).map (·.2) ∧
    c.scan.maps.lookUpPermmacro n = ((sets.find? fun d => d.name = n ∧ d.warn = none ∧ cs!"_perms" <:+ d.name).map
      (·.list.value)).filter (· ≠ []) := by
  obtain ⟨es, -, h⟩ := C76_source_history hc hs h1 h2 h3
  have hav : ∀ {α : Type} {f : MapOp → Option α}, (∀ n md fl, f (.decl n md fl) = none) → (av.flatMap avOps).findSome? f = none := by
    intro α f hf
    rw [List.findSome?_eq_none_iff]
    intro op hop
    obtain ⟨d, -, hd⟩ := List.mem_flatMap.1 hop
    have hp : ∀ p : AvPerms, op ∈ avPermsOps p → f op = none := by
      intro p h
      unfold avPermsOps at h
      simp only [List.mem_filterMap, Option.map_eq_some_iff] at h
      obtain ⟨o, -, s, -, rfl⟩ := h
      exact hf ..
    cases d <;> simp only [avOps, List.mem_append, List.mem_singleton] at hd
    · rcases hd with h | rfl
      · exact hp _ h
      · exact hf ..
    · subst hd; exact hf ..
    · rcases hd with h | rfl
      · exact hp _ h
      · exact hf ..
    · exact hp _ hd
  obtain ⟨g1, -, -, g2⟩ := C14_maps_first_wins (declOps cs!"__assumed__" (assumed w.config (optionsOf args)) ++ es.map layerOp ++
      (av.flatMap avOps ++ mods.map (fun e => .mod e.1 e.2) ++ sets.flatMap sptOps)) n
  rw [h, g1, g2]
  simp only [List.findSome?_append]
  constructor
  · rw [declOps_no (fun _ _ _ => rfl), layers_no (fun _ _ => rfl), hav (fun _ _ _ => rfl)]
    have : (sets.flatMap sptOps).findSome? (·.setsMod n) = none := by
      rw [List.findSome?_eq_none_iff]
      intro op hop
      obtain ⟨d, -, hd⟩ := List.mem_flatMap.1 hop
      unfold sptOps at hd
      split at hd
      · simp at hd; subst hd; rfl
      · cases hd
    rw [this]
    simp only [Option.or_none, Option.none_or]
    clear g1 g2 h h2 this
    induction mods with
    | nil => rfl
    | cons e mods ih =>
      rw [List.map_cons, List.findSome?_cons, List.find?_cons, ih]
      by_cases he : e.1 = n <;> simp [he, MapOp.setsMod]
  · rw [declOps_no (fun _ _ _ => rfl), layers_no (fun _ _ => rfl), hav (fun _ _ _ => rfl)]
    have : (mods.map fun e => MapOp.mod e.1 e.2).findSome? (·.definesPermmacro n) = none := by
      rw [List.findSome?_eq_none_iff]
      intro op hop
      obtain ⟨e, -, rfl⟩ := List.mem_map.1 hop
      rfl
    rw [this]
    simp only [Option.none_or]
    congr 1
    clear g1 g2 h h3 this
    induction sets with
    | nil => rfl
    | cons d sets ih =>
      rw [List.flatMap_cons, List.findSome?_append, ih, sptOps, List.find?_cons]
      by_cases h1 : d.warn = none ∧ cs!"_perms" <:+ d.name
      · rw [if_pos h1]
        by_cases h2 : d.name = n
        · rw [decide_eq_true ⟨h2, h1⟩]
          simp [MapOp.definesPermmacro, h2]
        · rw [decide_eq_false (fun h => h2 h.1)]
          simp [MapOp.definesPermmacro, h2]
      · rw [if_neg h1, decide_eq_false (fun h => h1 h.2)]
        simp

/-! ## Nothing else -/

/-- Whatever is read beside the policy can be read: without -s and context paths, or every support file
that was found is of its kind. -/
def Spec.Course.SupportOk (c : Course) (w : Machine) (args : List Opt) : Prop :=
  (optionsOf args).sourceFlag = false ∨ ∃ av mods sets, AvSays w c.scan.accessVectors av ∧
    ModsSay w c.scan.modulesConf mods ∧ SetsSay w c.scan.objPermSets sets

/-- An insertion that is not about interfaces and templates. -/
def noInterface : MapOp → Bool
  | .decl _ _ _ | .layer _ _ | .mod _ _ | .permmacro _ _ => true
  | _ => false

theorem noInterface_start (hc : c.Of w args paths) (ho : c.SupportOk w args) :
    ∃ ops, c.scan.maps = tablesAfter ops ∧ ∀ op ∈ ops, noInterface op = true := by
  have hd : ∀ {mod ds op}, op ∈ declOps mod ds → noInterface op = true := by
    intro mod ds op h
    obtain ⟨d, -, rfl⟩ := List.mem_map.1 h
    rfl
  have hl : ∀ {es : List FtsEnt} {op}, op ∈ es.map layerOp → noInterface op = true := by
    intro es op h
    obtain ⟨d, -, rfl⟩ := List.mem_map.1 h
    rfl
  have hp : ∀ {p : AvPerms} {op}, op ∈ avPermsOps p → noInterface op = true := by
    intro p op h
    unfold avPermsOps at h
    simp only [List.mem_filterMap, Option.map_eq_some_iff] at h
    obtain ⟨o, -, s, -, rfl⟩ := h
    rfl
  by_cases hs : (optionsOf args).sourceFlag = true
  · obtain hs' | ⟨av, mods, sets, h1, h2, h3⟩ := ho
    · rw [hs] at hs'; cases hs'
    · obtain ⟨es, -, h⟩ := C76_source_history hc hs h1 h2 h3
      refine ⟨_, h, fun op hop => ?_⟩
      simp only [List.mem_append] at hop
      rcases hop with (h | h) | (h | h) | h
      · exact hd h
      · exact hl h
      · obtain ⟨d, -, h⟩ := List.mem_flatMap.1 h
        cases d <;> simp only [avOps, List.mem_append, List.mem_singleton] at h
        · rcases h with h | rfl
          · exact hp h
          · rfl
        · subst h; rfl
        · rcases h with h | rfl
          · exact hp h
          · rfl
        · exact hp h
      · obtain ⟨d, -, rfl⟩ := List.mem_map.1 h; rfl
      · obtain ⟨d, -, h⟩ := List.mem_flatMap.1 h
        unfold sptOps at h
        split at h
        · simp only [List.mem_singleton] at h; subst h; rfl
        · cases h
  · obtain ⟨es, ops, -, h1, -, h⟩ := C76_kernel_history hc (by simpa using hs)
    refine ⟨_, h, fun op hop => ?_⟩
    simp only [List.mem_append] at hop
    rcases hop with (h | h) | h | h
    · exact hd h
    · exact hl h
    · obtain ⟨n, fl, rfl, -⟩ := h1 _ h; rfl
    · exact hl h

/-- **C76 (nothing else).** Before the policy is read, no interface and no template is known and no
interface is marked. -/
theorem C76_nothing (hc : c.Of w args paths) (ho : c.SupportOk w args) (n : Str) :
    c.scan.maps.lookUpIf n = none ∧ c.scan.maps.lookUpTemplate n = none ∧ c.scan.maps.isTransform n = false ∧
      c.scan.maps.isFiletrans n = false ∧ c.scan.maps.isRole n = false := by
  obtain ⟨ops, h, hn⟩ := noInterface_start hc ho
  rw [h]
  obtain ⟨m1, m2, m3⟩ := C14_marks ops n
  refine ⟨?_, ?_, ?_, ?_, ?_⟩
  · rw [(C14_maps_first_wins ops n).2.2.1, List.findSome?_eq_none_iff]
    intro op hop
    have := hn op hop
    cases op <;> first | rfl | cases this
  · cases ht : (tablesAfter ops).lookUpTemplate n with
    | none => rfl
    | some t =>
      obtain h1 | ⟨op, h1, h2⟩ := lookUpTemplate_foldl (ops := ops) (m := {}) (n := n) (by
        show (tablesAfter ops).lookUpTemplate n ≠ none
        rw [ht]; simp)
      · exact absurd rfl h1
      · have := hn op h1
        cases op <;> simp_all [noInterface, MapOp.mentionsTemplate]
  · rw [Bool.eq_false_iff]; intro h1; cases hn _ (m1.1 h1)
  · rw [Bool.eq_false_iff]; intro h1; cases hn _ (m2.1 h1)
  · rw [Bool.eq_false_iff]; intro h1; cases hn _ (m3.1 h1)

/-- **C76 (only users, roles, classes and permissions).** No other name is known before the policy is
read, and only an assumed user or role. -/
theorem C76_only (hc : c.Of w args paths) (ho : c.SupportOk w args) {fl : DeclFlavor} (h1 : fl ≠ .cls) (h2 : fl ≠ .perm) (n : Str) :
    c.scan.maps.lookUpDecl n fl ≠ none ↔ (fl, n) ∈ assumed w.config (optionsOf args) := by
  by_cases hs : (optionsOf args).sourceFlag = true
  · obtain hs' | ⟨av, mods, sets, g1, g2, g3⟩ := ho
    · rw [hs] at hs'; cases hs'
    · rw [C76_source_declared hc hs g1 g2 g3]
      refine or_iff_left ?_
      rintro ⟨d, -, h⟩
      cases d <;> simp only [avNames, List.mem_append, List.mem_map, List.mem_singleton, Prod.mk.injEq] at h <;> grind
  · rw [C76_kernel_declared hc (by simpa using hs)]
    refine or_iff_left ?_
    intro h
    rcases hk : w.kernel with _ | _ | es <;> rw [hk] at h <;> cases fl <;> first | exact h.elim | exact h1 rfl | exact h2 rfl

theorem assumed_flavor {w : ConfigWorld} {o : Options} {fl : DeclFlavor} {n : Str} (h : (fl, n) ∈ assumed w o) :
    fl = .user ∨ fl = .role := by
  unfold assumed at h
  split at h
  · split at h
    · simp at h; grind
    · cases h
  · simp at h; grind

/-- **C76 (types).** No type, attribute or boolean is known before the policy is read. -/
theorem C76_types (hc : c.Of w args paths) (ho : c.SupportOk w args) {fl : DeclFlavor}
    (hf : fl ∉ [DeclFlavor.user, .role, .cls, .perm]) (n : Str) : c.scan.maps.lookUpDecl n fl = none := by
  simp only [List.mem_cons, List.not_mem_nil, or_false, not_or] at hf
  cases h : c.scan.maps.lookUpDecl n fl with
  | none => rfl
  | some md =>
    have := (C76_only hc ho hf.2.2.1 hf.2.2.2 n).1 (by rw [h]; simp)
    rcases assumed_flavor this with h | h
    · exact absurd h hf.1
    · exact absurd h hf.2.1

/-- **C76 (without -s).** Without the option, no module and no permission set is known: the modules are
known by their layers only, and E-007 is never selected. -/
theorem C76_kernel_modules (hc : c.Of w args paths) (hs : (optionsOf args).sourceFlag = false) :
    (∀ n, c.scan.maps.lookUpMod n = none) ∧ c.scan.maps.permmacros = [] ∧
    ∀ row ∈ checkTable, row.sev = 'E' → row.num = 7 → ¬c.Selects row := by
  obtain ⟨es, ops, -, h1, -, h⟩ := C76_kernel_history hc hs
  have hno : ∀ {α : Type} {f : MapOp → Option α}, (∀ n md fl, f (.decl n md fl) = none) → (∀ n l, f (.layer n l) = none) →
      (declOps cs!"__assumed__" (assumed w.config (optionsOf args)) ++ es.map layerOp ++
        (ops ++ (headers w).map layerOp)).findSome? f = none := by
    intro α f hf hg
    simp only [List.findSome?_append, declOps_no hf, layers_no hg, Option.or_none, Option.none_or]
    rw [List.findSome?_eq_none_iff]
    intro op hop
    obtain ⟨n, fl, rfl, -⟩ := h1 _ hop
    exact hf ..
  have hp : c.scan.maps.permmacros = [] := by
    have : ∀ n, c.scan.maps.permmacros.find n = none := by
      intro n
      rw [h]
      refine (find_foldl Maps.permmacros MapOp.definesPermmacro (fun m op k => apply_permmacros m op k) _ {} n).trans ?_
      rw [hno (fun _ _ _ => rfl) (fun _ _ => rfl)]
      rfl
    cases hl : c.scan.maps.permmacros with
    | nil => rfl
    | cons e l =>
      have := this e.1
      rw [hl] at this
      simp [Assoc.find] at this
  refine ⟨fun n => ?_, hp, fun row hrow h2 h3 h4 => ?_⟩
  · rw [h, (C14_maps_first_wins _ n).1, hno (fun _ _ _ => rfl) (fun _ _ => rfl)]
  · have : ∀ row ∈ checkTable, row.sev = 'E' → row.num = 7 → row = ⟨'E', 7, .unknownPermission, [.avRule],
        fun m => m.perm ≠ [] ∧ m.permmacros ≠ []⟩ := by
      intro row hrow h2 h3
      simp only [checkTable, List.mem_cons, List.not_mem_nil, or_false] at hrow
      rcases hrow with rfl | rfl | rfl | rfl | rfl | rfl | rfl | rfl | rfl | rfl | rfl | rfl | rfl | rfl | rfl | rfl | rfl | rfl |
        rfl | rfl | rfl | rfl | rfl | rfl | rfl | rfl | rfl | rfl | rfl | rfl | rfl | rfl | rfl | rfl | rfl | rfl | rfl | rfl |
        rfl | rfl | rfl | rfl | rfl <;> first | rfl | exact absurd h2 (by decide) | exact absurd h3 (by decide)
    have := this row hrow h2 h3
    subst this
    have := h4.2.2
    simp [hp] at this

/-! ## What this says about the checks -/

/-- **C76 (W-010).** A call to a name with the prefix of a known module that no policy file defines is
reported in its line, if W-010 is selected and no command of the file names it. -/
theorem C76_unknown_found {r : MainResult} (h : selintMain w args paths = .ok r) (hr : Reaches w.config args paths.length)
    (h70 : r.status ≠ 70) (ho : Opt.summaryOnly ∉ args) (hc : c.Of w args paths) (hok : c.SupportOk w args)
    {row : CheckRow} (hrow : row ∈ checkTable)
    (hsev : row.sev = 'W') (hnum : row.num = 10) (hsel : c.Selects row) {x : PolicyFile} (hx : x ∈ c.files) {k : Nat} {n : Str}
    (hcall : CallIn (w.sources c.settings.customFcMacros) x.kind x.path k n)
    (hd : ¬DisabledIn (w.sources c.settings.customFcMacros) x.path cs!"W-010")
    (hn : n ≠ cs!"domain_auto_transition_pattern" ∧ n ≠ cs!"domain_transition_pattern") (hp : ModulePrefixed c.tables n)
    (hu : ∀ mod f, c.Says w mod f → ∀ d ∈ definitions f, d.name ≠ n) :
    (⟨basename x.path, k, ⟨'W', 10, cs!"Call to " ++ n ++ cs!" can not be referenced to any interface"⟩⟩ : Finding) ∈ r.findings :=
  C74_unknown_found h hr h70 ho hc hrow hsev hnum hsel hx hcall hd hn hp
    ⟨(C76_nothing hc hok n).1, (C76_nothing hc hok n).2.1⟩ hu

/-- **C76 (E-005).** The type of a file context that no policy file introduces is reported with the line
of the entry. -/
theorem C76_fc_undeclared {r : MainResult} (h : selintMain w args paths = .ok r) (hr : Reaches w.config args paths.length)
    (h70 : r.status ≠ 70) (ho : Opt.summaryOnly ∉ args) (hc : c.Of w args paths) (hok : c.SupportOk w args)
    {row : CheckRow} (hrow : row ∈ checkTable) (hsev : row.sev = 'E')
    (hnum : row.num = 5) (hsel : c.Selects row) {path : Str} (hp : path ∈ c.scan.fc) {n : Nat} {ctx : SelContext}
    (hl : FcContextIn (w.sources c.settings.customFcMacros) path n ctx) (hi : ¬c.Introduces w .type ctx.type) :
    (⟨basename path, n, ⟨'E', 5, cs!"Nonexistent type (" ++ ctx.type ++ cs!") listed in fc_entry"⟩⟩ : Finding) ∈ r.findings :=
  C74_fc_undeclared h hr h70 ho hc hrow hsev hnum hsel hp hl (C76_types hc hok (by decide) _) hi

/-- **C76 (interfaces).** At the end, exactly the interfaces and templates are known that a policy file
defines. -/
theorem C76_interfaces (hc : c.Of w args paths) (hok : c.SupportOk w args) (n : Str) :
    c.tables.lookUpIf n ≠ none ↔ ∃ mod f, c.Says w mod f ∧ ∃ d ∈ definitions f, d.name = n := by
  rw [C73_interfaces hc n, (C76_nothing hc hok n).1]
  simp

/-- The word stands for a class that is not known: it is no parameter, does not end in `_class_set`, and
no table has it. -/
def Spec.NoClass (m : Maps) (k : Str) : Prop :=
  ¬(∃ d rest, k = '$' :: d :: rest ∧ d.isDigit = true) ∧ ¬cs!"_class_set" <:+ k ∧ m.lookUpDecl k .cls = none

theorem unknownClassLoop_iff (m : Maps) (l : List Str) (res : CheckResult) : unknownClassLoop m l = .ok (some res) ↔
    ∃ k, FirstIn (NoClass m) l k ∧ res = ⟨'E', 8, cs!"Unknown class " ++ k ++ cs!" used"⟩ := by
  induction l with
  | nil => simp [unknownClassLoop, noResult, FirstIn]
  | cons k l ih =>
    have hpar : (k.head? = some '$' && ((k[1]?).map Char.isDigit).getD false) = true ↔
        ∃ d rest, k = '$' :: d :: rest ∧ d.isDigit = true := by
      rcases k with _ | ⟨x, _ | ⟨y, t⟩⟩ <;> simp [and_assoc]
    have hfirst : ∀ y, FirstIn (NoClass m) (k :: l) y ↔ (NoClass m k ∧ y = k) ∨ (¬NoClass m k ∧ FirstIn (NoClass m) l y) := by
      intro y
      constructor
      · rintro ⟨b, a, h1, h2, h3⟩
        cases b with
        | nil => cases h1; exact .inl ⟨h2, rfl⟩
        | cons z b =>
          cases h1
          exact .inr ⟨h3 _ List.mem_cons_self, b, a, rfl, h2, fun y hy => h3 y (List.mem_cons_of_mem _ hy)⟩
      · rintro (⟨h1, rfl⟩ | ⟨h1, b, a, rfl, h2, h3⟩)
        · exact ⟨[], l, rfl, h1, by simp⟩
        · exact ⟨k :: b, a, rfl, h2, by simpa using ⟨h1, h3⟩⟩
    have hno : NoClass m k ↔ ¬((k.head? = some '$' && ((k[1]?).map Char.isDigit).getD false) = true) ∧
        ¬endsWith k cs!"_class_set" = true ∧ ¬(m.lookUpDecl k .cls).isSome = true := by
      unfold NoClass
      rw [hpar, endsWith_iff]
      cases m.lookUpDecl k .cls <;> simp
    simp only [hfirst]
    unfold unknownClassLoop
    by_cases h : NoClass m k
    · have h' := hno.1 h
      rw [if_neg h'.1, if_neg h'.2.1, if_neg h'.2.2]
      simp only [h, true_and, not_true, false_and, or_false, exists_eq_left, result]
      simp [eq_comm]
    · simp only [h, false_and, not_false_eq_true, true_and, false_or]
      rw [← ih]
      rw [hno] at h
      split
      · rfl
      · split
        · rfl
        · split
          · rfl
          · simp_all

theorem finds_E8 {m : Maps} {data : CheckData} {d : NodeData} {res : CheckResult} (hd : d.flavor ∈ [NodeFlavor.avRule, .rtRule, .ttRule]) :
    FindsIn .unknownClass m data d res ↔ ∃ classes k, ClassesOf d classes ∧ FirstIn (NoClass m) classes k ∧
      res = ⟨'E', 8, cs!"Unknown class " ++ k ++ cs!" used"⟩ := by
  have hrun : FindsIn .unknownClass m data d res ↔ checkUnknownClass m (alone d) = .ok (some res) := by
    unfold FindsIn Finds
    simp only [CheckFn.run, stateless]
    cases checkUnknownClass m (alone d) with
    | ub => simp
    | ok o => simp
  rw [hrun]
  unfold checkUnknownClass
  have : (alone d).data = d := rfl
  rw [this]
  cases d with
  | av a =>
    simp only [unknownClassLoop_iff]
    exact ⟨fun ⟨k, h⟩ => ⟨_, k, .av a, h⟩, by rintro ⟨_, k, h1, h2⟩; cases h1; exact ⟨k, h2⟩⟩
  | rt a =>
    simp only [unknownClassLoop_iff]
    exact ⟨fun ⟨k, h⟩ => ⟨_, k, .rt a, h⟩, by rintro ⟨_, k, h1, h2⟩; cases h1; exact ⟨k, h2⟩⟩
  | tt a =>
    simp only [unknownClassLoop_iff]
    exact ⟨fun ⟨k, h⟩ => ⟨_, k, .tt a, h⟩, by rintro ⟨_, k, h1, h2⟩; cases h1; exact ⟨k, h2⟩⟩
  | plain f => cases f <;> simp [NodeData.flavor, PlainFlavor.toFlavor] at hd
  | attr a => obtain ⟨n, as, fl⟩ := a; cases fl <;> simp [NodeData.flavor] at hd
  | _ => simp [NodeData.flavor] at hd

/-- What the system says: with -s or a context path the access vector file, otherwise the kernel. -/
def Spec.Course.SystemHas (c : Course) (w : Machine) (args : List Opt) (fl : DeclFlavor) (n : Str) : Prop :=
  if (optionsOf args).sourceFlag = true then ∃ av, AvSays w c.scan.accessVectors av ∧ ∃ d ∈ av, (fl, n) ∈ avNames d
  else KernelHas w.kernel fl n

theorem systemHas_iff (hc : c.Of w args paths) (hok : c.SupportOk w args) {fl : DeclFlavor} (hf : fl = .cls ∨ fl = .perm) (n : Str) :
    c.scan.maps.lookUpDecl n fl ≠ none ↔ c.SystemHas w args fl n := by
  have ha : (fl, n) ∉ assumed w.config (optionsOf args) := by
    intro h
    rcases assumed_flavor h with rfl | rfl <;> rcases hf with h | h <;> cases h
  unfold Spec.Course.SystemHas
  by_cases hs : (optionsOf args).sourceFlag = true
  · rw [if_pos hs]
    obtain hs' | ⟨av, mods, sets, g1, g2, g3⟩ := hok
    · rw [hs] at hs'; cases hs'
    · constructor
      · intro h
        rcases (C76_source_declared hc hs g1 g2 g3 fl n).1 h with h | h
        · exact absurd h ha
        · exact ⟨av, g1, h⟩
      · rintro ⟨av', g1', h⟩
        exact (C76_source_declared hc hs g1' g2 g3 fl n).2 (.inr h)
  · rw [if_neg hs, C76_kernel_declared hc (by simpa using hs), or_iff_right ha]

/-- **C76 (classes).** At the end of parsing, a class is known only if the system has it or a policy file
introduces it; and what the system has or a policy file declares is known. -/
theorem C76_classes (hc : c.Of w args paths) (hok : c.SupportOk w args) (n : Str) :
    (c.tables.lookUpDecl n .cls ≠ none → c.SystemHas w args .cls n ∨ c.Introduces w .cls n) ∧
    (c.SystemHas w args .cls n → c.tables.lookUpDecl n .cls ≠ none) ∧
    ∀ mod f, c.Says w mod f → (.cls, n) ∈ (fileFacts mod f).flatMap declared → c.tables.lookUpDecl n .cls ≠ none := by
  refine ⟨fun h => ?_, fun h => ?_, fun mod f h1 h2 => C73_declared hc h1 h2⟩
  · rcases C73_only hc h with h1 | ⟨mod, f, h1, h2 | h2 | ⟨h2, -⟩⟩
    · exact .inl ((systemHas_iff hc hok (.inl rfl) n).1 h1)
    · exact .inr ⟨mod, f, h1, .inl h2⟩
    · exact .inr ⟨mod, f, h1, .inr h2⟩
    · cases h2
  · have h := (systemHas_iff hc hok (.inl rfl) n).2 h
    obtain ⟨i, t, files, marks, -, -, -, -, -, h3⟩ := C73_history hc
    rw [h3, tables_decl]
    cases hl : c.scan.maps.lookUpDecl n .cls with
    | none => exact absurd hl h
    | some md => simp

theorem row_E8 : ∀ row ∈ checkTable, row.sev = 'E' → row.num = 8 → row.fn = .unknownClass ∧ row.on = [.avRule, .rtRule, .ttRule] := by
  decide

/-- **C76 (E-008, what is reported).** An E-008 finding is about a rule in the text of the file, in the
reported line, with a class that neither the system has nor a policy file declares. -/
theorem C76_class_reported {r : MainResult} (h : selintMain w args paths = .ok r) (hr : Reaches w.config args paths.length)
    (h70 : r.status ≠ 70) (ho : Opt.summaryOnly ∉ args) (hc : c.Of w args paths) (hok : c.SupportOk w args) {f : Finding}
    (hs : f.result.severity = 'E') (hn : f.result.checkId = 8) (hf : f ∈ r.findings) :
    ∃ x ∈ c.files, f.filename = basename x.path ∧ ∃ d classes k, RuleIn (w.sources c.settings.customFcMacros) x.path f.lineno d ∧
      ClassesOf d classes ∧ k ∈ classes ∧ f.result = ⟨'E', 8, cs!"Unknown class " ++ k ++ cs!" used"⟩ ∧
      ¬c.SystemHas w args .cls k ∧ ∀ mod f, c.Says w mod f → (.cls, k) ∉ (fileFacts mod f).flatMap declared := by
  obtain ⟨-, x, hx, h1, d, h2, h3, h4⟩ := C75_reported h hr h70 ho hc
    (row := ⟨'E', 8, .unknownClass, [.avRule, .rtRule, .ttRule], fun m => m.cls ≠ []⟩) (by simp [checkTable]) (by decide) (by decide) hs hn hf
  obtain ⟨classes, k, h5, ⟨b, a, h6, h7, -⟩, h8⟩ := (finds_E8 h2).1 h3
  refine ⟨x, hx, h1, d, classes, k, h4, h5, by rw [h6]; simp, h8, fun hsys => ?_, fun mod f hm hd => ?_⟩
  · exact (C76_classes hc hok k).2.1 hsys h7.2.2
  · exact (C76_classes hc hok k).2.2 mod f hm hd h7.2.2

theorem firstIn_exists {α : Type} {P : α → Prop} {l : List α} {x : α} (hx : x ∈ l) (hp : P x) : ∃ y, FirstIn P l y := by
  induction l with
  | nil => cases hx
  | cons a l ih =>
    by_cases h : P a
    · exact ⟨a, [], l, rfl, h, by simp⟩
    · rcases List.mem_cons.1 hx with rfl | hx
      · exact absurd hp h
      · obtain ⟨y, b, c, rfl, h1, h2⟩ := ih hx
        exact ⟨y, a :: b, c, rfl, h1, by simpa using ⟨h, h2⟩⟩

/-- **C76 (E-008, nothing is missed).** A rule with a class that the system does not have and no policy
file introduces is reported in its line, if E-008 is selected and no command of the file names it. (The
finding names the first such class of the rule.) -/
theorem C76_class_found {r : MainResult} (h : selintMain w args paths = .ok r) (hr : Reaches w.config args paths.length)
    (h70 : r.status ≠ 70) (ho : Opt.summaryOnly ∉ args) (hc : c.Of w args paths) (hok : c.SupportOk w args)
    {row : CheckRow} (hrow : row ∈ checkTable) (hsev : row.sev = 'E') (hnum : row.num = 8) (hsel : c.Selects row)
    {x : PolicyFile} (hx : x ∈ c.files) (hk : x.kind = .teFile ∨ x.kind = .ifFile) {n : Nat} {d : NodeData}
    (hj : RuleIn (w.sources c.settings.customFcMacros) x.path n d)
    (hd : ¬DisabledIn (w.sources c.settings.customFcMacros) x.path cs!"E-008") {classes : List Str} (hcl : ClassesOf d classes)
    {k : Str} (hm : k ∈ classes) (hpar : ¬∃ d rest, k = '$' :: d :: rest ∧ d.isDigit = true) (hset : ¬cs!"_class_set" <:+ k)
    (hsys : ¬c.SystemHas w args .cls k) (hi : ¬c.Introduces w .cls k) :
    ∃ k', FirstIn (NoClass c.tables) classes k' ∧
      (⟨basename x.path, n, ⟨'E', 8, cs!"Unknown class " ++ k' ++ cs!" used"⟩⟩ : Finding) ∈ r.findings := by
  obtain ⟨hfn, hon⟩ := row_E8 row hrow hsev hnum
  have hid : row.id = cs!"E-008" := by unfold CheckRow.id; rw [hsev, hnum]
  have hno : NoClass c.tables k := by
    refine ⟨hpar, hset, ?_⟩
    cases hl : c.tables.lookUpDecl k .cls with
    | none => rfl
    | some md =>
      rcases (C76_classes hc hok k).1 (by rw [hl]; simp) with h1 | h1
      · exact absurd h1 hsys
      · exact absurd h1 hi
  obtain ⟨k', hk'⟩ := firstIn_exists hm hno
  refine ⟨k', hk', ?_⟩
  have hfl : d.flavor ∈ [NodeFlavor.avRule, .rtRule, .ttRule] := by
    cases hcl <;> simp [NodeData.flavor]
  refine C75_found h hr h70 ho hc hrow (by rw [hfn]; decide) hsel hx hk hj (by rw [hon]; exact hfl) (hid ▸ hd) hsev.symm hnum.symm ?_
  rw [hfn]
  exact (finds_E8 hfl).2 ⟨classes, k', hcl, hk', rfl⟩

end

/-! ## C76 is about something -/

/-- A te file whose rule has a class that the kernel of the example does not have. -/
def classText : Str := cs!"policy_module(foo, 1.0)\nallow a_t b_t:{ dir puppet } read;\n"

/-- Its derivation. -/
def classFile : SourceFile :=
  .te [] ⟨1, cs!"foo", true, false, cs!"1.0"⟩ (.one (.bare (.simple 2 (.rule .allow (.item (.word cs!"a_t"))
    (.item (.word cs!"b_t")) (.braces (.word cs!"dir") [.word cs!"puppet"]) (.item (.word cs!"read"))))))

theorem class_parses : ParsesTo classText classFile :=
  ⟨(lexFile classText).getD [], by decide +kernel, C68_sound rfl⟩

theorem class_only {f : SourceFile} (h : ParsesTo classText f) : f = classFile := by
  have h := C68_unambiguous_text h class_parses
  cases f with
  | te cs d ls =>
    cases ls with
    | one l =>
      cases l with
      | bare s => cases s <;> simp_all [classFile, SourceFile.plain, Lines.plain, Line.plain, Stmt.plain]
      | _ => simp_all [classFile, SourceFile.plain, Lines.plain, Line.plain]
    | more ls l => simp_all [classFile, SourceFile.plain, Lines.plain]
  | _ => simp_all [classFile, SourceFile.plain]

/-- A machine with this file and a kernel that knows one class with one permission. -/
def exKernel : Machine where
  config := ⟨fun _ => false, fun _ => none, cs!"/etc/selint.conf"⟩
  fs := fun p => if p = cs!"mod" then .dir (.cons cs!"foo.te" .file .nil) else .file
  text := fun name => if name = cs!"mod/foo.te" then some classText else none
  fcLines := fun _ => none
  confLines := fun _ => none
  kernel := some (.dir (.cons cs!"dir" (.dir (.cons cs!"index" .file (.cons cs!"perms" (.dir (.cons cs!"read" .file .nil)) .nil))) .nil))
  devel := none
  broken := fun _ _ m => m

example : KernelHas exKernel.kernel .cls cs!"dir" ∧ KernelHas exKernel.kernel .perm cs!"read" ∧
    ¬KernelHas exKernel.kernel .perm cs!"index" ∧ ¬KernelHas exKernel.kernel .cls cs!"perms" :=
  ⟨⟨by decide, _, .here ..⟩, ⟨by decide, .deeper _ _ (.there _ _ (.deeper _ _ (.here ..)))⟩, fun h => h.1 rfl, fun h => h.1 rfl⟩

example : (headers { exKernel with devel := some (.dir (.cons cs!"kernel" (.dir (.cons cs!"files.if" .file .nil)) .nil)) }).map (fun e => (e.path, e.name, e.parentName)) =
    [(cs!"/usr/share/selinux/devel/kernel/files.if", cs!"files.if", cs!"kernel")] := by decide +kernel

theorem puppet_unknown : ¬KernelHas exKernel.kernel .cls cs!"puppet" := by
  rintro ⟨-, d, h⟩
  cases h with
  | there _ _ h => cases h
  | deeper _ _ h =>
    cases h with
    | there _ _ h =>
      cases h with
      | there _ _ h => cases h
      | deeper _ _ h =>
        cases h with
        | there _ _ h => cases h

/-- What the example looks at. -/
def kernelLook (c : Course) : Bool × List Str × List Str × List Str × List Str × List Str :=
  (c.settings.opts == optionsOf [.recursive] && atLeast 'E' c.settings.severity &&
      isCheckEnabled cs!"E-008" c.settings.enableConf && !c.scan.maps.cls.isEmpty && c.tables.template.isEmpty,
    c.scan.te, c.scan.ifs, c.scan.fc, c.scan.contextTe, c.scan.contextIf)

set_option synthInstance.maxSize 1000 in
/-- `selint -r mod` on this machine meets the hypotheses of C76_class_found; the rule is reported, with
the class that the kernel does not have. -/
example : ∃ r, selintMain exKernel [.recursive] [cs!"mod"] = .ok r ∧
    (⟨cs!"foo.te", 2, ⟨'E', 8, cs!"Unknown class puppet used"⟩⟩ : Finding) ∈ r.findings := by
  obtain ⟨r, hm, h70⟩ : ∃ r, selintMain exKernel [.recursive] [cs!"mod"] = .ok r ∧ r.status ≠ 70 := by
    cases h : selintMain exKernel [.recursive] [cs!"mod"] with
    | ub =>
      have : (match selintMain exKernel [.recursive] [cs!"mod"] with | .ok _ => true | .ub => false) = true := by
        decide +kernel
      rw [h] at this; cases this
    | ok r =>
      have : (match selintMain exKernel [.recursive] [cs!"mod"] with
        | .ok r => r.status | .ub => 70) ≠ 70 := by decide +kernel
      rw [h] at this
      exact ⟨r, rfl, this⟩
  have h : (courseOf exKernel [.recursive] [cs!"mod"]).map kernelLook =
      some (true, [cs!"mod/foo.te"], [], [], [], []) := by decide +kernel
  simp only [kernelLook, Option.map_eq_some_iff, Prod.mk.injEq, beq_iff_eq, Bool.and_eq_true, List.isEmpty_iff,
    Bool.not_eq_true', List.isEmpty_eq_false_iff] at h
  obtain ⟨c, h1, ⟨⟨⟨⟨h2, h3⟩, h4⟩, h5⟩, h6⟩, h7, h8, h9, h10, h11⟩ := h
  have hc := courseOf_of h1 h2
  have hok : c.SupportOk exKernel [.recursive] := .inl (by decide)
  have hfiles : c.files.map (fun x => (x.kind, x.path)) = [(.teFile, cs!"mod/foo.te")] := by
    rw [(C72_files hc).1, h7, h8, h9]; rfl
  obtain ⟨x, hx, hkp⟩ : ∃ x ∈ c.files, (x.kind, x.path) = (.teFile, cs!"mod/foo.te") := by
    have : (FileFlavor.teFile, cs!"mod/foo.te") ∈ c.files.map fun x => (x.kind, x.path) := by rw [hfiles]; simp
    simpa only [List.mem_map] using this
  simp only [Prod.mk.injEq] at hkp
  have hreach : Reaches exKernel.config [.recursive] 1 := exMachine_reaches (by decide) (by simp) (by decide)
  obtain ⟨ts, ht⟩ : ∃ ts, lexFile classText = some ts := by
    cases h : lexFile classText with
    | some ts => exact ⟨ts, rfl⟩
    | none => exact absurd h (by decide +kernel)
  have hall : (lexFile classText).all (fun ts => ts.all fun t => match t.2 with | .command _ => false | _ => true) = true := by
    decide +kernel
  have hsays : ∀ mod f, c.Says exKernel mod f → f = classFile := by
    rintro mod f (⟨p, hp, -⟩ | ⟨p, -, -, -, s, h3, h4⟩)
    · simp [h8, h11] at hp
    · simp only [Machine.sources, exKernel] at h3
      split at h3
      · cases h3; exact class_only h4
      · cases h3
  have hrule : RuleIn (exKernel.sources c.settings.customFcMacros) x.path 2
      (.av ⟨.allow, [cs!"a_t"], [cs!"b_t"], [cs!"dir", cs!"puppet"], [cs!"read"]⟩) := by
    refine ⟨classText, ts, [.kw .allow, .string cs!"a_t", .string cs!"b_t", tColon, tLeft, .string cs!"dir", .string cs!"puppet",
      tRight, .string cs!"read"], by rw [hkp.2]; rfl, ht, ?_, ?_⟩
    · have : (lexFile classText).all (fun ts => (rulesIn ts).contains
        (2, [.kw .allow, .string cs!"a_t", .string cs!"b_t", tColon, tLeft, .string cs!"dir", .string cs!"puppet",
          tRight, .string cs!"read"])) = true := by
        decide +kernel
      rw [ht] at this
      simpa using this
    · rfl
  obtain ⟨k', ⟨b, a, e, hk, -⟩, hin⟩ := C76_class_found (k := cs!"puppet") hm hreach h70 (by simp) hc hok
    (row := ⟨'E', 8, .unknownClass, [.avRule, .rtRule, .ttRule], fun m => m.cls ≠ []⟩) (by simp [checkTable]) rfl rfl
    ⟨h3, h4, by simpa using h5⟩ hx (.inl hkp.1) hrule
    (by
      rintro ⟨s, ts', k, cmd, e, t1, t2, t3, -⟩
      rw [hkp.2] at t1
      cases t1
      rw [t2] at hall
      simp only [Option.all_some, List.all_eq_true] at hall
      exact absurd (hall _ t3) (by simp))
    (.av _) (by simp) (by rintro ⟨d, rest, h, -⟩; cases h) (by decide) puppet_unknown
    (by
      rintro ⟨mod, f, hf, hd⟩
      cases hsays mod f hf
      rcases hd with hd | ⟨cl, ins, -, t, -, d, as, hd, -⟩
      · exact absurd hd (by simp [fileFacts, classFile, linesFacts, lineFacts, stmtFacts, simpleFacts, about])
      · unfold Maps.templateDecls Maps.lookUpTemplate at hd; rw [h6] at hd; cases hd)
  have hdir : ¬NoClass c.tables cs!"dir" := fun h =>
    (C76_classes hc hok _).2.1 (show KernelHas exKernel.kernel .cls cs!"dir" from ⟨by decide, _, .here ..⟩) h.2.2
  have : k' = cs!"puppet" := by
    have hmem : k' ∈ [cs!"dir", cs!"puppet"] := by rw [show [cs!"dir", cs!"puppet"] = b ++ k' :: a from e]; simp
    simp only [List.mem_cons, List.not_mem_nil, or_false] at hmem
    rcases hmem with rfl | rfl
    · exact absurd hk hdir
    · rfl
  subst this
  refine ⟨r, hm, ?_⟩
  rw [hkp.2] at hin
  exact hin

/-- An access vector file. -/
def avText : Str := cs!"common file\n{\n\tread\n}\n\nclass dir\ninherits file\n{\n\tsearch\n}\n"

/-- A file of permission sets. -/
def setsText : Str := cs!"define(`r_dir_perms',`{ read search }')\n"

/-- A machine with all three support files. -/
def exSupport : Machine where
  config := ⟨fun _ => false, fun _ => none, cs!"/etc/selint.conf"⟩
  fs := fun p => if p = cs!"mod" then .dir (.cons cs!"access_vectors" .file (.cons cs!"modules.conf" .file
    (.cons cs!"obj_perm_sets.spt" .file .nil))) else .file
  text := fun name => if name = cs!"mod/access_vectors" then some avText
    else if name = cs!"mod/obj_perm_sets.spt" then some setsText else none
  fcLines := fun _ => none
  confLines := fun name => if name = cs!"mod/modules.conf" then some [(cs!"kernel = base\n", [])] else none
  kernel := none
  devel := none
  broken := fun _ _ m => m

/-- What such support files say. -/
theorem support_says {w : Machine} (h1 : w.text cs!"mod/access_vectors" = some avText) (h2 : w.text cs!"mod/obj_perm_sets.spt" = some setsText)
    (h3 : w.confLines cs!"mod/modules.conf" = some [(cs!"kernel = base\n", [])]) :
    AvSays w (some cs!"mod/access_vectors")
      [.common cs!"file" ⟨some cs!"read", []⟩, .inheritsPerms cs!"dir" cs!"file" ⟨some cs!"search", []⟩] ∧
    ModsSay w (some cs!"mod/modules.conf") [(cs!"kernel", cs!"base")] ∧
    SetsSay w (some cs!"mod/obj_perm_sets.spt") [⟨cs!"r_dir_perms", .braces (.word cs!"read") [.word cs!"search"], none⟩] := by
  refine ⟨.inr ⟨avText, .av [] (.common cs!"file" ⟨some cs!"read", []⟩) [some (.inheritsPerms cs!"dir" cs!"file" ⟨some cs!"search", []⟩)],
    h1, ⟨(lexFile avText).getD [], by decide +kernel, C68_sound rfl⟩, rfl⟩,
    .inr ⟨_, h3, [some (cs!"kernel", cs!"base")], rfl, ?_, rfl⟩,
    .inr ⟨setsText, .spt [] ⟨cs!"r_dir_perms", .braces (.word cs!"read") [.word cs!"search"], none⟩ [],
      h2, ⟨(lexFile setsText).getD [], by decide +kernel, C68_sound rfl⟩, rfl⟩⟩
  intro i hi
  have : i = 0 := by simp at hi; omega
  subst this
  exact .entry { shape := ⟨[], [' '], [' '], ['\n'], [], rfl, by simp, by simp [isWs], by simp [isWs], by simp [isWs], by simp, by simp,
                   by simp [IsTrailer]⟩
                 nameWord := by simp [IsWord, isWs], statusWord := by simp [IsWord, isWs], noComment := by simp }

/-- They are found. -/
example : let s := collect exSupport ⟨optionsOf [.recursive, .source], 'C', [], [], [], defaultCheckData, {}⟩ [cs!"mod"]
    s.accessVectors = some cs!"mod/access_vectors" ∧ s.modulesConf = some cs!"mod/modules.conf" ∧
      s.objPermSets = some cs!"mod/obj_perm_sets.spt" := by decide +kernel

end Selint
