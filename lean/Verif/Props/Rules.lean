import Verif.Props.Words
import Verif.Props.Statements
/-! # C75: the rules of a run are the rules of the texts -/

namespace Selint
open Spec

variable {f : SourceFile} {expected : PlainFlavor} {mod : Str} {m : Maps} {st : PState}

theorem sift_rules (is : List NodeInfo) (as : List Bool) : ((sift is as).1).filter isRule = is.filter isRule := by
  induction is generalizing as with
  | nil => rfl
  | cons i is ih =>
    by_cases h : (callOf i).isSome
    · have hn : isRule i = false := by
        unfold callOf at h
        split at h
        · rename_i c hc
          simp [isRule, NodeInfo.flavor, hc, NodeData.flavor, ruleFlavors]
        · cases h
      rcases as with _ | ⟨_ | _, as⟩ <;> simp only [sift, h, if_true, List.filter_cons, ih, hn, Bool.false_eq_true, if_false]
    · simp only [sift, h, Bool.false_eq_true, if_false, List.filter_cons, ih]

theorem matched_rules {xs : List (Nat × List Token)} {is : List NodeInfo} (h : Matched RuleOf xs is) :
    xs.map (fun x => (x.1, readRule x.2)) = is.map fun i => (i.lineno, some i.data) := by
  induction h with
  | nil => rfl
  | cons hx _ ih =>
    obtain ⟨d, h1, rfl⟩ := hx
    rw [List.map_cons, List.map_cons, ih, h1]

theorem matched_bare {xs : List (Nat × List Token)} {is : List NodeInfo} (h : Matched RuleOf xs is) {i : NodeInfo} (hi : i ∈ is) :
    i.exceptions = none := by
  induction h with
  | nil => cases hi
  | cons hx _ ih =>
    obtain ⟨d, -, rfl⟩ := hx
    rcases List.mem_cons.1 hi with rfl | hi
    · rfl
    · exact ih hi

theorem filter_bare (is : List NodeInfo) :
    (is.filter isRule).map (fun i => (i.lineno, some i.data)) =
      ((is.map bareInfo).filter isRule).map fun i => (i.lineno, some i.data) := by
  induction is with
  | nil => rfl
  | cons i is ih =>
    have : isRule (bareInfo i) = isRule i := rfl
    simp only [List.map_cons, List.filter_cons, this]
    split
    · rw [List.map_cons, List.map_cons, ih]; rfl
    · exact ih

/-- **C75 (rules of a file).** The nodes of rules in the tree of an accepted te or interface file are, in
the same order, the rules of its text: each stands in the line of its first word and says what the words
up to the semicolon say. -/
theorem C75_rules {s : Str} {ts : Located} (ht : lexFile s = some ts) (hp : ParsesTo s f)
    (he : expected = .teFile ∨ expected = .ifFile) (h : f.exec expected mod m = .ok (some st)) :
    ((Tree.preorderList st.loc.unzip).filter isRule).map (fun i => (i.lineno, some i.data)) =
      (rulesIn ts).map fun x => (x.1, readRule x.2) := by
  obtain ⟨ts', h1, h2⟩ := id hp
  rw [ht] at h1; cases h1
  obtain ⟨segs, h3, h4⟩ := SourceFile.shows h2 expected (by rcases he with rfl | rfl <;> rfl) []
  rw [List.append_nil, show rulesIn [] = [] from rfl, List.append_nil] at h3
  rw [h3, matched_rules h4, filter_bare, C74_order hp.tokens.1 h, sift_rules]

/-- The text of the file at `path` has a rule in line `n` that says `d`. -/
def Spec.RuleIn (src : Sources) (path : Str) (n : Nat) (d : NodeData) : Prop :=
  ∃ s ts r, src.text path = some s ∧ lexFile s = some ts ∧ (n, r) ∈ rulesIn ts ∧ readRule r = some d

theorem Spec.StatementIn.rule {src : Sources} {kind : FileFlavor} {path : Str} {n : Nat} {d : NodeData}
    (hd : d.flavor ∈ ruleFlavors) (h : StatementIn src kind path ⟨d, none, n⟩) : RuleIn src path n d := by
  obtain ⟨hk, s, f, h1, ⟨ts, h2, h3⟩, h4⟩ := h
  obtain ⟨segs, h5, h6⟩ := SourceFile.shows h3 (rootOf kind) (by rcases hk with rfl | rfl <;> rfl) []
  rw [List.append_nil, show rulesIn [] = [] from rfl, List.append_nil] at h5
  have hm : (n, some d) ∈ segs.map fun x => (x.1, readRule x.2) := by
    rw [matched_rules h6]
    exact List.mem_map.2 ⟨_, List.mem_filter.2 ⟨h4, by simpa [isRule, NodeInfo.flavor] using hd⟩, rfl⟩
  obtain ⟨⟨n', r⟩, h7, h8⟩ := List.mem_map.1 hm
  simp only [Prod.mk.injEq] at h8
  obtain ⟨rfl, h8⟩ := h8
  exact ⟨s, ts, r, h1, h2, h5 ▸ h7, h8⟩

theorem Spec.RuleIn.statement {src : Sources} {kind : FileFlavor} {path : Str} {n : Nat} {d : NodeData}
    (hk : kind = .teFile ∨ kind = .ifFile) {f : SourceFile} {s : Str} (hs : src.text path = some s) (hp : ParsesTo s f)
    (h : RuleIn src path n d) : StatementIn src kind path ⟨d, none, n⟩ ∧ d.flavor ∈ ruleFlavors := by
  obtain ⟨s', ts, r, h1, h2, h3, h4⟩ := h
  rw [hs] at h1; cases h1
  obtain ⟨ts', h1, h5⟩ := id hp
  rw [h2] at h1; cases h1
  obtain ⟨segs, h6, h7⟩ := SourceFile.shows h5 (rootOf kind) (by rcases hk with rfl | rfl <;> rfl) []
  rw [List.append_nil, show rulesIn [] = [] from rfl, List.append_nil] at h6
  have hm : (n, some d) ∈ segs.map fun x => (x.1, readRule x.2) := by
    rw [← h4]; exact List.mem_map.2 ⟨(n, r), h6 ▸ h3, rfl⟩
  rw [matched_rules h7] at hm
  obtain ⟨i, hi, e⟩ := List.mem_map.1 hm
  simp only [Prod.mk.injEq, Option.some.injEq] at e
  obtain ⟨rfl, rfl⟩ := e
  obtain ⟨hi, hr⟩ := List.mem_filter.1 hi
  have hx := matched_bare h7 (List.mem_filter.2 ⟨hi, hr⟩)
  refine ⟨⟨hk, s, f, hs, hp, ?_⟩, by simpa [isRule, NodeInfo.flavor] using hr⟩
  rw [← hx]; exact hi

section
variable {w : Machine} {args : List Opt} {paths : List Str} {c : Course} {r : MainResult}

/-- **C75 (rules of a run).** So it is with every te and interface file of a run. -/
theorem C75_run (hc : c.Of w args paths) {x : PolicyFile} (hx : x ∈ c.files) (hk : x.kind = .teFile ∨ x.kind = .ifFile) :
    ∃ s ts, w.text x.path = some s ∧ lexFile s = some ts ∧
      ((Tree.preorderList x.trees).filter isRule).map (fun i => (i.lineno, some i.data)) =
        (rulesIn ts).map fun y => (y.1, readRule y.2) := by
  obtain ⟨s, f, mod, m, st, h1, h2, h3, h4, -⟩ := hc.readFrom x hx hk
  obtain ⟨ts, h5, h6⟩ := id h2
  refine ⟨s, ts, h1, h5, ?_⟩
  rw [h4]
  exact C75_rules h5 h2 (by rcases hk with h | h <;> simp [h, rootOf]) h3

/-- **C75 (findings are about rules that are written).** A finding of a check that looks only at rules
is about a rule in the text of the named file, in the reported line. -/
theorem C75_reported (h : selintMain w args paths = .ok r) (hr : Reaches w.config args paths.length) (h70 : r.status ≠ 70)
    (ho : Opt.summaryOnly ∉ args) (hc : c.Of w args paths) {row : CheckRow} (hrow : row ∈ checkTable)
    (hloc : row.fn ∈ localChecks) (hon : ∀ fl ∈ row.on, fl ∈ ruleFlavors) {f : Finding} (hs : f.result.severity = row.sev)
    (hn : f.result.checkId = row.num) (hf : f ∈ r.findings) :
    c.Selects row ∧ ∃ x ∈ c.files, f.filename = basename x.path ∧ ∃ d : NodeData, d.flavor ∈ row.on ∧
      FindsIn row.fn c.tables (c.dataFor x.kind x.path) d f.result ∧
      RuleIn (w.sources c.settings.customFcMacros) x.path f.lineno d := by
  obtain ⟨h1, x, hx, h2, d, h3, h4, h5⟩ := C74_reported h hr h70 ho hc hrow hloc hs hn hf
  refine ⟨h1, x, hx, h2, d, h3, h4, ?_⟩
  rcases h5 with h5 | ⟨-, ls, inp, -, -, -, ⟨e, h6, -⟩ | ⟨h6, -⟩⟩
  · exact h5.rule (hon _ h3)
  · rw [h6] at h3; exact absurd (hon _ h3) (by simp [NodeData.flavor, ruleFlavors])
  · rw [h6] at h3; exact absurd (hon _ h3) (by simp [NodeData.flavor, PlainFlavor.toFlavor, ruleFlavors])

/-- **C75 (no rule is missed).** Whatever a selected check finds in a rule that is written in a te or
interface file of the run is reported in the line of the rule, unless a command of the file names the check. -/
theorem C75_found (h : selintMain w args paths = .ok r) (hr : Reaches w.config args paths.length) (h70 : r.status ≠ 70)
    (ho : Opt.summaryOnly ∉ args) (hc : c.Of w args paths) {row : CheckRow} (hrow : row ∈ checkTable)
    (hloc : row.fn ∈ localChecks) (hsel : c.Selects row) {x : PolicyFile} (hx : x ∈ c.files)
    (hk : x.kind = .teFile ∨ x.kind = .ifFile) {n : Nat} {d : NodeData}
    (hj : RuleIn (w.sources c.settings.customFcMacros) x.path n d) (hon : d.flavor ∈ row.on)
    (hd : ¬DisabledIn (w.sources c.settings.customFcMacros) x.path row.id) {res : CheckResult}
    (hs : res.severity = row.sev) (hn : res.checkId = row.num)
    (hf : FindsIn row.fn c.tables (c.dataFor x.kind x.path) d res) :
    (⟨basename x.path, n, res⟩ : Finding) ∈ r.findings := by
  obtain ⟨s, f, mod, m, st, h1, h2, h3, h4, -⟩ := hc.readFrom x hx hk
  obtain ⟨h5, h6⟩ := hj.statement hk h1 h2
  refine C74_found h hr h70 ho hc hrow hloc hsel hx h5 hon ?_ hd hs hn hf
  rintro cl rfl
  exact absurd h6 (by simp [NodeData.flavor, ruleFlavors])

/-! ## C-007 -/

/-- A rule that names a type twice where it could say `self`: one source, the same one target, which is
a known type, or looks like one where the name is put together from a parameter. -/
def Spec.NamesItself (m : Maps) (d : NodeData) : Prop :=
  ∃ fl cls perms t, (d = .av ⟨fl, [t], [t], cls, perms⟩ ∨ ∃ op, d = .xav ⟨fl, [t], [t], cls, perms⟩ op) ∧ t ≠ cs!"self" ∧
    (t.head? = some '$' ∧ cs!"_t" <:+ t ∨ t.head? ≠ some '$' ∧ m.lookUpDecl t .type ≠ none)

theorem noSelf_iff {m : Maps} {src tgt : List Str} {res : CheckResult} :
    noSelfBody m src tgt = .ok (some res) ↔ (∃ t, src = [t] ∧ tgt = [t] ∧ t ≠ cs!"self" ∧
      (t.head? = some '$' ∧ cs!"_t" <:+ t ∨ t.head? ≠ some '$' ∧ m.lookUpDecl t .type ≠ none)) ∧
      res = ⟨'C', 7, cs!"Recommend use of self keyword instead of redundant type"⟩ := by
  unfold noSelfBody
  rcases src with _ | ⟨s, ss⟩
  · simp
  rcases tgt with _ | ⟨t, ts⟩
  · simp
  dsimp only
  by_cases h1 : ss = [] ∧ ts = [] ∧ t ≠ cs!"self" ∧ s = t
  · obtain ⟨rfl, rfl, h3, rfl⟩ := h1
    rw [if_neg (by simpa [strcmp_eq_zero] using h3)]
    have hw := @endsWith_iff s cs!"_t"
    by_cases hd : s.head? = some '$'
    · rw [if_pos hd]
      by_cases he : cs!"_t" <:+ s
      · rw [if_neg (by simp [hw.2 he])]
        simp [result, h3, hd, he, eq_comm]
      · rw [if_pos (by rw [Bool.not_eq_true', ← Bool.not_eq_true, hw]; exact he)]
        simp [noResult, hd, he]
    · rw [if_neg hd]
      cases hl : m.lookUpDecl s .type with
      | none => simp [noResult, hd, hl]
      | some v => simp [result, h3, hd, hl, eq_comm]
  · rw [if_pos (by simp only [strcmp_eq_zero, Bool.or_eq_true, decide_eq_true_eq, ne_eq]; grind)]
    simp only [noResult]
    constructor
    · intro h; cases h
    · rintro ⟨⟨u, h2, h3, h4, -⟩, -⟩
      cases h2; cases h3
      exact absurd ⟨rfl, rfl, h4, rfl⟩ h1

theorem finds_self {m : Maps} {data : CheckData} {d : NodeData} {res : CheckResult} (hd : d.flavor ∈ [NodeFlavor.avRule, .xavRule]) :
    FindsIn .noSelf m data d res ↔
      NamesItself m d ∧ res = ⟨'C', 7, cs!"Recommend use of self keyword instead of redundant type"⟩ := by
  have hrun : FindsIn .noSelf m data d res ↔ checkNoSelf m (alone d) = .ok (some res) := by
    unfold FindsIn Finds
    simp only [CheckFn.run, stateless]
    cases checkNoSelf m (alone d) with
    | ub => simp
    | ok o => simp
  rw [hrun]
  unfold checkNoSelf
  have : (alone d).data = d := rfl
  rw [this]
  cases d with
  | av a =>
    obtain ⟨fl, ss, ts, cl, ps⟩ := a
    simp only [noSelf_iff, NamesItself]
    grind
  | xav a op =>
    obtain ⟨fl, ss, ts, cl, ps⟩ := a
    simp only [noSelf_iff, NamesItself]
    grind
  | plain f => cases f <;> simp [NodeData.flavor, PlainFlavor.toFlavor] at hd
  | attr a => obtain ⟨n, as, fl⟩ := a; cases fl <;> simp [NodeData.flavor] at hd
  | _ => simp [NodeData.flavor] at hd

theorem row_C7 : ∀ row ∈ checkTable, row.sev = 'C' → row.num = 7 → row.fn = .noSelf ∧ row.on = [.avRule, .xavRule] := by
  decide

/-- **C75 (C-007, what is reported).** A C-007 finding is about a rule in the text of the file, in the
reported line, that names a type twice where it could say `self`. -/
theorem C75_self_reported (h : selintMain w args paths = .ok r) (hr : Reaches w.config args paths.length) (h70 : r.status ≠ 70)
    (ho : Opt.summaryOnly ∉ args) (hc : c.Of w args paths) {f : Finding} (hs : f.result.severity = 'C')
    (hn : f.result.checkId = 7) (hf : f ∈ r.findings) :
    ∃ x ∈ c.files, f.filename = basename x.path ∧ ∃ d, RuleIn (w.sources c.settings.customFcMacros) x.path f.lineno d ∧
      NamesItself c.tables d := by
  obtain ⟨-, x, hx, h1, d, h2, h3, h4⟩ := C75_reported h hr h70 ho hc
    (row := ⟨'C', 7, .noSelf, [.avRule, .xavRule], fun _ => true⟩) (by simp [checkTable]) (by decide) (by decide) hs hn hf
  exact ⟨x, hx, h1, d, h4, ((finds_self h2).1 h3).1⟩

/-- **C75 (C-007, nothing is missed).** A rule that names a type twice is reported in its line, if C-007
is selected and no command of the file names it. -/
theorem C75_self_found (h : selintMain w args paths = .ok r) (hr : Reaches w.config args paths.length) (h70 : r.status ≠ 70)
    (ho : Opt.summaryOnly ∉ args) (hc : c.Of w args paths) {row : CheckRow} (hrow : row ∈ checkTable) (hsev : row.sev = 'C')
    (hnum : row.num = 7) (hsel : c.Selects row) {x : PolicyFile} (hx : x ∈ c.files)
    (hk : x.kind = .teFile ∨ x.kind = .ifFile) {n : Nat} {d : NodeData}
    (hj : RuleIn (w.sources c.settings.customFcMacros) x.path n d)
    (hd : ¬DisabledIn (w.sources c.settings.customFcMacros) x.path cs!"C-007") (hi : NamesItself c.tables d) :
    (⟨basename x.path, n, ⟨'C', 7, cs!"Recommend use of self keyword instead of redundant type"⟩⟩ : Finding) ∈ r.findings := by
  obtain ⟨hfn, hon⟩ := row_C7 row hrow hsev hnum
  have hid : row.id = cs!"C-007" := by unfold CheckRow.id; rw [hsev, hnum]
  have hfl : d.flavor ∈ [NodeFlavor.avRule, .xavRule] := by
    obtain ⟨fl, cl, ps, t, rfl | ⟨op, rfl⟩, -⟩ := id hi <;> simp [NodeData.flavor]
  refine C75_found h hr h70 ho hc hrow (by rw [hfn]; decide) hsel hx hk hj (by rw [hon]; exact hfl) (hid ▸ hd) hsev.symm hnum.symm ?_
  rw [hfn]
  exact (finds_self hfl).2 ⟨hi, rfl⟩

end

/-! ## C75 is about something -/

/-- Three rules, one of them in a block, and other things. -/
def rulesText : Str :=
  cs!"policy_module(foo, 1.0)\ntype a_t;\nallow a_t { b_t -c_t }:file ~{ read write };\noptional_policy(`\n\tfoo_call(a_t)\n\ttype_transition a_t\n\t\tb_t:file c_t \"x\";\n')\nallow a_t a_t:file read;\n"

/-- What the rules in the text say. -/
example : (lexFile rulesText).map (fun ts => (rulesIn ts).map fun x => (x.1, readRule x.2)) = some
    [(3, some (.av ⟨.allow, [cs!"a_t"], [cs!"b_t", cs!"-c_t"], [cs!"file"], [cs!"~", cs!"read", cs!"write"]⟩)),
     (6, some (.tt ⟨[cs!"a_t"], [cs!"b_t"], [cs!"file"], cs!"c_t", some cs!"\"x\"", .tt⟩)),
     (9, some (.av ⟨.allow, [cs!"a_t"], [cs!"a_t"], [cs!"file"], [cs!"read"]⟩))] := by decide +kernel

/-- A machine whose policy is this file. -/
def exRules : Machine where
  config := ⟨fun _ => false, fun _ => none, cs!"/etc/selint.conf"⟩
  fs := fun p => if p = cs!"mod" then .dir (.cons cs!"foo.te" .file (.cons cs!"modules.conf" .file .nil)) else .file
  text := fun name => if name = cs!"mod/foo.te" then some rulesText else none
  fcLines := fun _ => none
  confLines := fun name => if name = cs!"mod/modules.conf" then some [(cs!"foo = module\n", [])] else none
  kernel := none
  devel := none
  broken := fun _ _ m => m

/-- What the example looks at. -/
def ruleLook (c : Course) : Bool × List Str × List Str × List Str :=
  (c.settings.opts == optionsOf [.recursive, .source] && atLeast 'C' c.settings.severity &&
      isCheckEnabled cs!"C-007" c.settings.enableConf && (c.tables.lookUpDecl cs!"a_t" .type).isSome,
    c.scan.te, c.scan.ifs, c.scan.fc)

/-- `selint -r -s mod` on this machine meets the hypotheses of C75_self_found: the last rule is reported. -/
example : ∃ r, selintMain exRules [.recursive, .source] [cs!"mod"] = .ok r ∧
    (⟨cs!"foo.te", 9, ⟨'C', 7, cs!"Recommend use of self keyword instead of redundant type"⟩⟩ : Finding) ∈ r.findings := by
  obtain ⟨r, hm, h70⟩ : ∃ r, selintMain exRules [.recursive, .source] [cs!"mod"] = .ok r ∧ r.status ≠ 70 := by
    cases h : selintMain exRules [.recursive, .source] [cs!"mod"] with
    | ub =>
      have : (match selintMain exRules [.recursive, .source] [cs!"mod"] with | .ok _ => true | .ub => false) = true := by
        decide +kernel
      rw [h] at this; cases this
    | ok r =>
      have : (match selintMain exRules [.recursive, .source] [cs!"mod"] with
        | .ok r => r.status | .ub => 70) ≠ 70 := by decide +kernel
      rw [h] at this
      exact ⟨r, rfl, this⟩
  have h : (courseOf exRules [.recursive, .source] [cs!"mod"]).map ruleLook =
      some (true, [cs!"mod/foo.te"], [], []) := by decide +kernel
  simp only [ruleLook, Option.map_eq_some_iff, Prod.mk.injEq, beq_iff_eq, Bool.and_eq_true, Option.isSome_iff_ne_none] at h
  obtain ⟨c, h1, ⟨⟨⟨h2, h3⟩, h4⟩, h5⟩, h6, h7, h8⟩ := h
  have hc := courseOf_of h1 h2
  have hfiles : c.files.map (fun x => (x.kind, x.path)) = [(.teFile, cs!"mod/foo.te")] := by
    rw [(C72_files hc).1, h6, h7, h8]; rfl
  obtain ⟨x, hx, hkp⟩ : ∃ x ∈ c.files, (x.kind, x.path) = (.teFile, cs!"mod/foo.te") := by
    have : (FileFlavor.teFile, cs!"mod/foo.te") ∈ c.files.map fun x => (x.kind, x.path) := by rw [hfiles]; simp
    simpa only [List.mem_map] using this
  simp only [Prod.mk.injEq] at hkp
  refine ⟨r, hm, ?_⟩
  have hreach : Reaches exRules.config [.recursive, .source] 1 := exMachine_reaches (by decide) (by simp) (by decide)
  obtain ⟨ts, ht⟩ : ∃ ts, lexFile rulesText = some ts := by
    cases h : lexFile rulesText with
    | some ts => exact ⟨ts, rfl⟩
    | none => exact absurd h (by decide +kernel)
  have hall : (lexFile rulesText).all (fun ts => ts.all fun t => match t.2 with | .command _ => false | _ => true) = true := by
    decide +kernel
  have := C75_self_found (n := 9) (d := .av ⟨.allow, [cs!"a_t"], [cs!"a_t"], [cs!"file"], [cs!"read"]⟩) hm hreach h70 (by simp) hc
    (row := ⟨'C', 7, .noSelf, [.avRule, .xavRule], fun _ => true⟩) (by simp [checkTable]) rfl rfl ⟨h3, h4, rfl⟩ hx (.inl hkp.1)
    ?_ ?_ ⟨.allow, _, _, cs!"a_t", .inl rfl, by decide, .inr ⟨by decide, h5⟩⟩
  · rw [hkp.2] at this; exact this
  · refine ⟨rulesText, ts, [.kw .allow, .string cs!"a_t", .string cs!"a_t", tColon, .string cs!"file", .string cs!"read"],
      by rw [hkp.2]; rfl, ht, ?_, ?_⟩
    · have : (lexFile rulesText).all (fun ts => (rulesIn ts).contains
        (9, [.kw .allow, .string cs!"a_t", .string cs!"a_t", tColon, .string cs!"file", .string cs!"read"])) = true := by
        decide +kernel
      rw [ht] at this
      simpa using this
    · rfl
  · rintro ⟨s, ts', k, cmd, e, t1, t2, t3, -⟩
    rw [hkp.2] at t1
    cases t1
    rw [t2] at hall
    simp only [Option.all_some, List.all_eq_true] at hall
    exact absurd (hall _ t3) (by simp)

end Selint
