import Verif.Props.Start
/-!
# C76: unknown permissions
-/

namespace Selint

open Spec

/-- The word stands for a permission that is not known: it is no operator, no generated name
`all_…_perms`, and neither a permission nor a permission set. -/
def Spec.NoPerm (m : Maps) (k : Str) : Prop :=
  k ≠ cs!"*" ∧ k ≠ cs!"~" ∧ ¬(cs!"all_" <+: k ∧ cs!"_perms" <:+ k) ∧ m.lookUpDecl k .perm = none ∧ m.lookUpPermmacro k = none

theorem unknownPermLoop_iff (m : Maps) (l : List Str) (res : CheckResult) : unknownPermLoop m l = .ok (some res) ↔
    ∃ k, FirstIn (NoPerm m) l k ∧ res = ⟨'E', 7, cs!"Unknown permission " ++ k ++ cs!" used"⟩ := by
  induction l with
  | nil => simp [unknownPermLoop, noResult, FirstIn]
  | cons k l ih =>
    have hno : NoPerm m k ↔ ¬((strcmp k cs!"*" = 0 || strcmp k cs!"~" = 0) = true) ∧
        ¬((cs!"all_").isPrefixOf k && endsWith k cs!"_perms") = true ∧ ¬(m.lookUpDecl k .perm).isSome = true ∧
        ¬(m.lookUpPermmacro k).isSome = true := by
      unfold NoPerm
      rw [← endsWith_iff, ← List.isPrefixOf_iff_prefix]
      cases m.lookUpDecl k .perm <;> cases m.lookUpPermmacro k <;> simp [and_assoc]
    simp only [firstIn_cons]
    unfold unknownPermLoop
    by_cases h : NoPerm m k
    · have h' := hno.1 h
      rw [if_neg h'.1, if_neg h'.2.1, if_neg h'.2.2.1, if_neg h'.2.2.2]
      simp only [h, true_and, not_true, false_and, or_false, exists_eq_left, result]
      simp [eq_comm]
    · simp only [h, false_and, not_false_eq_true, true_and, false_or]
      rw [← ih]
      rw [hno] at h
      split
      · rfl
      · split
        · rfl
        · split
          · rfl
          · split
            · rfl
            · simp_all

theorem finds_E7 {m : Maps} {data : CheckData} {d : NodeData} {res : CheckResult} (hd : d.flavor ∈ [NodeFlavor.avRule]) :
    FindsIn .unknownPermission m data d res ↔ ∃ a k, d = .av a ∧ FirstIn (NoPerm m) a.perms k ∧
      res = ⟨'E', 7, cs!"Unknown permission " ++ k ++ cs!" used"⟩ := by
  have hrun : FindsIn .unknownPermission m data d res ↔ checkUnknownPermission m (alone d) = .ok (some res) := by
    unfold FindsIn Finds
    simp only [CheckFn.run, stateless]
    cases checkUnknownPermission m (alone d) with
    | ub => simp
    | ok o => simp
  rw [hrun]
  unfold checkUnknownPermission
  have : (alone d).data = d := rfl
  rw [this]
  cases d with
  | av a =>
    simp only [unknownPermLoop_iff]
    exact ⟨fun ⟨k, h⟩ => ⟨a, k, rfl, h⟩, by rintro ⟨_, k, h1, h2⟩; cases h1; exact ⟨k, h2⟩⟩
  | plain f => cases f <;> simp [NodeData.flavor, PlainFlavor.toFlavor] at hd
  | attr a => obtain ⟨n, as, fl⟩ := a; cases fl <;> simp [NodeData.flavor] at hd
  | _ => simp [NodeData.flavor] at hd

section
variable {w : Machine} {args : List Opt} {paths : List Str} {c : Course}

theorem policyOps_fromPolicy {src : Sources} {kind : FileFlavor} {m : Maps} {ps : List Str} {ops : List MapOp}
    (h : PolicyOps src kind m ps ops) : ∀ op ∈ ops, fromPolicy op = true := by
  intro op ho
  obtain ⟨p, hp, mod, f, pre, a, post, h4, rfl, h5, h6⟩ := policyOps_elim h ho
  exact fileOps_fromPolicy (fun cs d ds e => by subst e; exact absurd h4.2.1 (by cases kind <;> exact id)) h5 op h6

/-- The permission sets known at the end are those known at the start. -/
theorem permmacros_course (hc : c.Of w args paths) : c.tables.permmacros = c.scan.maps.permmacros := by
  obtain ⟨i, t, files, marks, h1, -, -, -, h2, h3⟩ := C73_history hc
  rw [h3, (foldl_fromPolicy (policyOps_fromPolicy h2) _).1]
  exact (foldl_fromPolicy (policyOps_fromPolicy h1) _).1

/-- The file of permission sets defines the name, not as a deprecated one, and it ends in `_perms`. -/
def Spec.Course.SetDefined (c : Course) (w : Machine) (n : Str) : Prop :=
  ∃ sets, SetsSay w c.scan.objPermSets sets ∧ ∃ d ∈ sets, d.name = n ∧ d.warn = none ∧ cs!"_perms" <:+ d.name

theorem setDefined_iff (hc : c.Of w args paths) (hs : (optionsOf args).sourceFlag = true) (hok : c.SupportOk w args) (n : Str) :
    c.tables.lookUpPermmacro n ≠ none ↔ c.SetDefined w n := by
  have e : c.tables.lookUpPermmacro n = c.scan.maps.lookUpPermmacro n := by
    unfold Maps.lookUpPermmacro; rw [permmacros_course hc]
  rw [e]
  obtain hs' | ⟨av, mods, sets, g1, g2, g3⟩ := hok
  · rw [hs] at hs'; cases hs'
  · have key : ∀ sets, SetsSay w c.scan.objPermSets sets → (c.scan.maps.lookUpPermmacro n ≠ none ↔
        ∃ d ∈ sets, d.name = n ∧ d.warn = none ∧ cs!"_perms" <:+ d.name) := by
      intro sets g3
      rw [(C76_source_modules hc hs g1 g2 g3 n).2]
      cases hf : sets.find? fun d => d.name = n ∧ d.warn = none ∧ cs!"_perms" <:+ d.name with
      | none =>
        rw [List.find?_eq_none] at hf
        simp only [Option.map_none, Option.filter_none, ne_eq, not_true, false_iff]
        rintro ⟨d, hd, h⟩
        exact hf d hd (by simpa using h)
      | some d =>
        have h1 := List.find?_some hf
        have h2 := List.mem_of_find?_eq_some hf
        simp only [Option.map_some, Option.filter_some, SList.value_ne, ne_eq, not_false_eq_true, decide_true, if_true,
          reduceCtorEq, true_iff]
        exact ⟨d, h2, by simpa using h1⟩
    exact ⟨fun h => ⟨sets, g3, (key sets g3).1 h⟩, fun ⟨sets', g3', h⟩ => (key sets' g3').2 h⟩

/-- **C76 (permissions).** At the end of parsing, a permission is known only if the system has it, a policy
file introduces it or has it in a definition of common permissions; and what the system has is known. -/
theorem C76_permissions (hc : c.Of w args paths) (hok : c.SupportOk w args) (n : Str) :
    (c.tables.lookUpDecl n .perm ≠ none → c.SystemHas w args .perm n ∨ c.Introduces w .perm n ∨
      ∃ mod f, c.Says w mod f ∧ CommonPerm f n) ∧
    (c.SystemHas w args .perm n → c.tables.lookUpDecl n .perm ≠ none) := by
  refine ⟨fun h => ?_, fun h => ?_⟩
  · rcases C73_only hc h with h1 | ⟨mod, f, h1, h2 | h2 | ⟨-, h2⟩⟩
    · exact .inl ((systemHas_iff hc hok (.inr rfl) n).1 h1)
    · exact .inr (.inl ⟨mod, f, h1, .inl h2⟩)
    · exact .inr (.inl ⟨mod, f, h1, .inr h2⟩)
    · exact .inr (.inr ⟨mod, f, h1, h2⟩)
  · have h := (systemHas_iff hc hok (.inr rfl) n).2 h
    obtain ⟨i, t, files, marks, -, -, -, -, -, h3⟩ := C73_history hc
    rw [h3, tables_decl]
    cases hl : c.scan.maps.lookUpDecl n .perm with
    | none => exact absurd hl h
    | some x => simp

theorem row_E7 : ∀ row ∈ checkTable, row.sev = 'E' → row.num = 7 → row.fn = .unknownPermission ∧ row.on = [.avRule] := by
  decide

/-- **C76 (E-007, what is reported).** An E-007 finding is about an access vector rule in the text of the
file, in the reported line, with a permission that is not in the access vector file, not among the
permission sets and no generated name. -/
theorem C76_perm_reported {r : MainResult} (h : selintMain w args paths = .ok r) (hr : Reaches w.config args paths.length)
    (h70 : r.status ≠ 70) (ho : Opt.summaryOnly ∉ args) (hc : c.Of w args paths) (hok : c.SupportOk w args) {f : Finding}
    (hs : f.result.severity = 'E') (hn : f.result.checkId = 7) (hf : f ∈ r.findings) :
    (optionsOf args).sourceFlag = true ∧
    ∃ x ∈ c.files, f.filename = basename x.path ∧ ∃ a k, RuleIn (w.sources c.settings.customFcMacros) x.path f.lineno (.av a) ∧
      k ∈ a.perms ∧ f.result = ⟨'E', 7, cs!"Unknown permission " ++ k ++ cs!" used"⟩ ∧ k ≠ cs!"*" ∧ k ≠ cs!"~" ∧
      ¬(cs!"all_" <+: k ∧ cs!"_perms" <:+ k) ∧ ¬c.SystemHas w args .perm k ∧ ¬c.SetDefined w k := by
  obtain ⟨h0, x, hx, h1, d, h2, h3, h4⟩ := C75_reported h hr h70 ho hc
    (row := ⟨'E', 7, .unknownPermission, [.avRule], fun m => m.perm ≠ [] ∧ m.permmacros ≠ []⟩) (by simp [checkTable]) (by decide)
    (by decide) hs hn hf
  have hsrc : (optionsOf args).sourceFlag = true := by
    cases hsf : (optionsOf args).sourceFlag with
    | true => rfl
    | false => exact absurd h0 ((C76_kernel_modules hc hsf).2.2 _ (by simp [checkTable]) rfl rfl)
  obtain ⟨a, k, rfl, ⟨b, e, h6, h7, -⟩, h8⟩ := (finds_E7 h2).1 h3
  refine ⟨hsrc, x, hx, h1, a, k, h4, by rw [h6]; simp, h8, h7.1, h7.2.1, h7.2.2.1, fun hsys => ?_, fun hset => ?_⟩
  · exact (C76_permissions hc hok k).2 hsys h7.2.2.2.1
  · exact (setDefined_iff hc hsrc hok k).2 hset h7.2.2.2.2

/-- **C76 (E-007, nothing is missed).** An access vector rule with a permission that is not in the access
vector file, not among the permission sets, not introduced by a policy file and no generated name is
reported in its line, if E-007 is selected and no command of the file names it. (The finding names the
first such permission of the rule.) -/
theorem C76_perm_found {r : MainResult} (h : selintMain w args paths = .ok r) (hr : Reaches w.config args paths.length)
    (h70 : r.status ≠ 70) (ho : Opt.summaryOnly ∉ args) (hc : c.Of w args paths) (hok : c.SupportOk w args)
    {row : CheckRow} (hrow : row ∈ checkTable) (hsev : row.sev = 'E') (hnum : row.num = 7) (hsel : c.Selects row)
    {x : PolicyFile} (hx : x ∈ c.files) (hk : x.kind = .teFile ∨ x.kind = .ifFile) {n : Nat} {a : AvData}
    (hj : RuleIn (w.sources c.settings.customFcMacros) x.path n (.av a))
    (hd : ¬DisabledIn (w.sources c.settings.customFcMacros) x.path cs!"E-007")
    {k : Str} (hm : k ∈ a.perms) (hstar : k ≠ cs!"*") (htilde : k ≠ cs!"~") (hall : ¬(cs!"all_" <+: k ∧ cs!"_perms" <:+ k))
    (hsys : ¬c.SystemHas w args .perm k) (hset : ¬c.SetDefined w k) (hi : ¬c.Introduces w .perm k)
    (hcom : ∀ mod f, c.Says w mod f → ¬CommonPerm f k) :
    ∃ k', FirstIn (NoPerm c.tables) a.perms k' ∧
      (⟨basename x.path, n, ⟨'E', 7, cs!"Unknown permission " ++ k' ++ cs!" used"⟩⟩ : Finding) ∈ r.findings := by
  obtain ⟨hfn, hon⟩ := row_E7 row hrow hsev hnum
  have hid : row.id = cs!"E-007" := by unfold CheckRow.id; rw [hsev, hnum]
  have hsrc : (optionsOf args).sourceFlag = true := by
    cases hsf : (optionsOf args).sourceFlag with
    | true => rfl
    | false => exact absurd hsel ((C76_kernel_modules hc hsf).2.2 _ hrow hsev hnum)
  have hno : NoPerm c.tables k := by
    refine ⟨hstar, htilde, hall, ?_, ?_⟩
    · cases hl : c.tables.lookUpDecl k .perm with
      | none => rfl
      | some md =>
        rcases (C76_permissions hc hok k).1 (by rw [hl]; simp) with h1 | h1 | ⟨mod, f, h1, h2⟩
        · exact absurd h1 hsys
        · exact absurd h1 hi
        · exact absurd h2 (hcom mod f h1)
    · cases hl : c.tables.lookUpPermmacro k with
      | none => rfl
      | some l => exact absurd ((setDefined_iff hc hsrc hok k).1 (by rw [hl]; simp)) hset
  obtain ⟨k', hk'⟩ := firstIn_exists hm hno
  refine ⟨k', hk', ?_⟩
  have hfl : (NodeData.av a).flavor ∈ [NodeFlavor.avRule] := by simp [NodeData.flavor]
  refine C75_found h hr h70 ho hc hrow (by rw [hfn]; decide) hsel hx hk hj (by rw [hon]; exact hfl) (hid ▸ hd) hsev.symm hnum.symm ?_
  rw [hfn]
  exact (finds_E7 hfl).2 ⟨a, k', rfl, hk', rfl⟩

end

/-! ## C76 is about something -/

/-- A te file whose rule has a permission that nobody defines. -/
def permText : Str := cs!"policy_module(foo, 1.0)\nallow a_t b_t:dir { read r_dir_perms puppet };\n"

/-- Its derivation. -/
def permFile : SourceFile :=
  .te [] ⟨1, cs!"foo", true, false, cs!"1.0"⟩ (.one (.bare (.simple 2 (.rule .allow (.item (.word cs!"a_t"))
    (.item (.word cs!"b_t")) (.item (.word cs!"dir")) (.braces (.word cs!"read") [.word cs!"r_dir_perms", .word cs!"puppet"])))))

theorem perm_parses : ParsesTo permText permFile :=
  ⟨(lexFile permText).getD [], by decide +kernel, C68_sound rfl⟩

theorem perm_only {f : SourceFile} (h : ParsesTo permText f) : f = permFile := by
  have h := C68_unambiguous_text h perm_parses
  cases f with
  | te cs d ls =>
    cases ls with
    | one l =>
      cases l with
      | bare s => cases s <;> simp_all [permFile, SourceFile.plain, Lines.plain, Line.plain, Stmt.plain]
      | _ => simp_all [permFile, SourceFile.plain, Lines.plain, Line.plain]
    | more ls l => simp_all [permFile, SourceFile.plain, Lines.plain]
  | _ => simp_all [permFile, SourceFile.plain]

/-- A machine with this file, an access vector file, a module configuration and permission sets. -/
def exPerms : Machine :=
  { exSupport with
    fs := fun p => if p = cs!"mod" then .dir (.cons cs!"access_vectors" .file (.cons cs!"foo.te" .file (.cons cs!"modules.conf" .file
      (.cons cs!"obj_perm_sets.spt" .file .nil)))) else .file
    text := fun name => if name = cs!"mod/foo.te" then some permText else exSupport.text name }

/-- What the example looks at. -/
def permLook (c : Course) : Bool × List Str × List Str × List Str × List Str × List Str :=
  (c.settings.opts == optionsOf [.recursive, .source] && atLeast 'E' c.settings.severity &&
      isCheckEnabled cs!"E-007" c.settings.enableConf && !c.scan.maps.perm.isEmpty && !c.scan.maps.permmacros.isEmpty && (c.tables.lookUpPermmacro cs!"puppet").isNone &&
      (c.tables.lookUpPermmacro cs!"r_dir_perms").isSome && (c.tables.lookUpDecl cs!"read" .perm).isSome &&
      (c.scan.maps.lookUpDecl cs!"puppet" .perm).isNone && c.scan.accessVectors == some cs!"mod/access_vectors" &&
      c.scan.modulesConf == some cs!"mod/modules.conf" && c.scan.objPermSets == some cs!"mod/obj_perm_sets.spt" && c.tables.template.isEmpty,
    c.scan.te, c.scan.ifs, c.scan.fc, c.scan.contextTe, c.scan.contextIf)

set_option synthInstance.maxSize 1000 in
/-- `selint -r -s mod` on this machine meets the hypotheses of C76_perm_found; the rule is reported, with
the permission that nobody defines. -/
example : ∃ r, selintMain exPerms [.recursive, .source] [cs!"mod"] = .ok r ∧
    (⟨cs!"foo.te", 2, ⟨'E', 7, cs!"Unknown permission puppet used"⟩⟩ : Finding) ∈ r.findings := by
  obtain ⟨r, hm, h70⟩ : ∃ r, selintMain exPerms [.recursive, .source] [cs!"mod"] = .ok r ∧ r.status ≠ 70 := by
    cases h : selintMain exPerms [.recursive, .source] [cs!"mod"] with
    | ub =>
      have : (match selintMain exPerms [.recursive, .source] [cs!"mod"] with | .ok _ => true | .ub => false) = true := by
        decide +kernel
      rw [h] at this; cases this
    | ok r =>
      have : (match selintMain exPerms [.recursive, .source] [cs!"mod"] with
        | .ok r => r.status | .ub => 70) ≠ 70 := by decide +kernel
      rw [h] at this
      exact ⟨r, rfl, this⟩
  have h : (courseOf exPerms [.recursive, .source] [cs!"mod"]).map permLook =
      some (true, [cs!"mod/foo.te"], [], [], [], []) := by decide +kernel
  simp only [permLook, Option.map_eq_some_iff, Prod.mk.injEq, beq_iff_eq, Bool.and_eq_true, List.isEmpty_iff,
    Bool.not_eq_true', List.isEmpty_eq_false_iff] at h
  obtain ⟨c, h1, ⟨⟨⟨⟨⟨⟨⟨⟨⟨⟨⟨⟨h2, h3⟩, h4⟩, h5⟩, h5'⟩, g1⟩, g2⟩, g3⟩, g4⟩, g5⟩, g6⟩, g7⟩, h6⟩, h7, h8, h9, h10, h11⟩ := h
  have hc := courseOf_of h1 h2
  have hok : c.SupportOk exPerms [.recursive, .source] := by
    obtain ⟨s1, s2, s3⟩ := support_says (w := exPerms) rfl rfl rfl
    exact .inr ⟨_, _, _, by rw [g5]; exact s1, by rw [g6]; exact s2, by rw [g7]; exact s3⟩
  have hfiles : c.files.map (fun x => (x.kind, x.path)) = [(.teFile, cs!"mod/foo.te")] := by
    rw [(C72_files hc).1, h7, h8, h9]; rfl
  obtain ⟨x, hx, hkp⟩ : ∃ x ∈ c.files, (x.kind, x.path) = (.teFile, cs!"mod/foo.te") := by
    have : (FileFlavor.teFile, cs!"mod/foo.te") ∈ c.files.map fun x => (x.kind, x.path) := by rw [hfiles]; simp
    simpa only [List.mem_map] using this
  simp only [Prod.mk.injEq] at hkp
  have hreach : Reaches exPerms.config [.recursive, .source] 1 := exMachine_reaches (by decide) (by simp) (by decide)
  obtain ⟨ts, ht⟩ : ∃ ts, lexFile permText = some ts := by
    cases h : lexFile permText with
    | some ts => exact ⟨ts, rfl⟩
    | none => exact absurd h (by decide +kernel)
  have hall : (lexFile permText).all (fun ts => ts.all fun t => match t.2 with | .command _ => false | _ => true) = true := by
    decide +kernel
  have hpath : ∀ p ∈ c.scan.contextTe ++ c.scan.te, p = cs!"mod/foo.te" := by simp [h7, h10]
  have hsays : ∀ mod f, c.Says exPerms mod f → f = permFile := by
    rintro mod f (⟨p, hp, -⟩ | ⟨p, hp, -, -, s, h3, h4⟩)
    · simp [h8, h11] at hp
    · rw [hpath p hp] at h3
      cases h3
      exact perm_only h4
  have hrule : RuleIn (exPerms.sources c.settings.customFcMacros) x.path 2
      (.av ⟨.allow, [cs!"a_t"], [cs!"b_t"], [cs!"dir"], [cs!"read", cs!"r_dir_perms", cs!"puppet"]⟩) := by
    refine ⟨permText, ts, [.kw .allow, .string cs!"a_t", .string cs!"b_t", tColon, .string cs!"dir", tLeft, .string cs!"read",
      .string cs!"r_dir_perms", .string cs!"puppet", tRight], by rw [hkp.2]; rfl, ht, ?_, ?_⟩
    · have : (lexFile permText).all (fun ts => (rulesIn ts).contains
        (2, [.kw .allow, .string cs!"a_t", .string cs!"b_t", tColon, .string cs!"dir", tLeft, .string cs!"read",
          .string cs!"r_dir_perms", .string cs!"puppet", tRight])) = true := by
        decide +kernel
      rw [ht] at this
      simpa using this
    · rfl
  obtain ⟨k', ⟨b, a, e, hk, -⟩, hin⟩ := C76_perm_found (k := cs!"puppet") hm hreach h70 (by simp) hc hok
    (row := ⟨'E', 7, .unknownPermission, [.avRule], fun m => m.perm ≠ [] ∧ m.permmacros ≠ []⟩) (by simp [checkTable]) rfl rfl
    ⟨h3, h4, by simpa using ⟨h5, h5'⟩⟩ hx (.inl hkp.1) hrule
    (by
      rintro ⟨s, ts', k, cmd, e, t1, t2, t3, -⟩
      rw [hkp.2] at t1
      cases t1
      rw [t2] at hall
      simp only [Option.all_some, List.all_eq_true] at hall
      exact absurd (hall _ t3) (by simp))
    (by simp) (by decide) (by decide) (by decide)
    (fun h => (systemHas_iff hc hok (.inr rfl) _).2 h (by simpa using g4))
    (fun h => (setDefined_iff hc (by decide) hok _).2 h (by simpa using g1))
    (by
      rintro ⟨mod, f, hf, hd⟩
      cases hsays mod f hf
      rcases hd with hd | ⟨cl, ins, -, t, -, d, as, hd, -⟩
      · exact absurd hd (by simp [fileFacts, permFile, linesFacts, lineFacts, stmtFacts, simpleFacts, about])
      · unfold Maps.templateDecls Maps.lookUpTemplate at hd; rw [h6] at hd; cases hd)
    (by
      rintro mod f hf ⟨cs, d, ds, n, p, e, -⟩
      cases hsays mod f hf
      cases e)
  have : k' = cs!"puppet" := by
    have hmem : k' ∈ [cs!"read", cs!"r_dir_perms", cs!"puppet"] := by
      rw [show [cs!"read", cs!"r_dir_perms", cs!"puppet"] = b ++ k' :: a from e]; simp
    simp only [List.mem_cons, List.not_mem_nil, or_false] at hmem
    rcases hmem with rfl | rfl | rfl
    · rw [hk.2.2.2.1] at g3; cases g3
    · rw [hk.2.2.2.2] at g2; cases g2
    · rfl
  subst this
  refine ⟨r, hm, ?_⟩
  rw [hkp.2] at hin
  exact hin

end Selint
