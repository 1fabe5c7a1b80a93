import Verif.Lemmas.Checks
/-! # C33, C40, C43, C51 and others: checks on te files -/

namespace Selint
open Spec

/-! ## C33: order of permissions -/

/-- `Misordered` as a test. -/
def misorderedB (pc : Str × Str) : Bool :=
  decide (pc.1 ≠ cs!"~") && decide (pc.2 ≠ cs!"-") && !decide (pc.1 < pc.2)

theorem permsLoop_eq (kind p : Str) (l : List Str) :
    permsLoop kind (some p) l = match (neighbours (p :: l)).find? misorderedB with
      | none => noResult
      | some pc => .ok (some ⟨'C', 5, misorderedMessage kind pc⟩) := by
  induction l generalizing p with
  | nil => simp [permsLoop, neighbours]
  | cons c l ih =>
    rw [permsLoop, ih c]
    have hcons : neighbours (p :: c :: l) = (p, c) :: neighbours (c :: l) := rfl
    rw [hcons, List.find?_cons, misorderedB]
    have h1 : (strcmp p cs!"~" ≠ 0 && strcmp c cs!"-" ≠ 0) =
        (decide (p ≠ cs!"~") && decide (c ≠ cs!"-")) := by simp
    rw [h1]
    by_cases hx : (decide (p ≠ cs!"~") && decide (c ≠ cs!"-")) = true
    · rw [if_pos hx]
      simp only [hx, Bool.true_and]
      by_cases hlt : p < c
      · have := strcmp_lt_iff.2 hlt
        rw [if_neg (by omega), if_neg (by omega)]
        simp [hlt]
      · have h2 : ¬ strcmp p c < 0 := fun h => hlt (strcmp_lt_iff.1 h)
        simp only [hlt, decide_false, Bool.not_false]
        by_cases he : p = c
        · subst he
          simp [result, misorderedMessage]
        · have h3 : strcmp p c ≠ 0 := fun h => he (strcmp_eq_zero.1 h)
          rw [if_pos (by omega)]
          simp [result, misorderedMessage, he]
    · rw [if_neg hx]
      simp only [Bool.not_eq_true] at hx
      simp only [hx, Bool.false_and]

/-- C33: C-005 reports exactly the statements with two neighbouring permissions out of order,
and the first such pair. -/
theorem C33_order (node : Loc) (kind : Str) (perms : List Str)
    (hp : PermsOf node.data kind perms) :
    Reports (checkUnorderedPerms node) fun r =>
      ∃ pc, FirstIn Misordered (neighbours perms) pc ∧ r = ⟨'C', 5, misorderedMessage kind pc⟩ := by
  have key : ∀ perms, Reports (permsLoop kind none perms) fun r =>
      ∃ pc, FirstIn Misordered (neighbours perms) pc ∧ r = ⟨'C', 5, misorderedMessage kind pc⟩ := by
    intro perms
    refine reports_find (p := misorderedB) (by simp [misorderedB, Misordered, and_assoc]) (neighbours perms) (fun pc => ⟨'C', 5, misorderedMessage kind pc⟩) ?_
    cases perms with
    | nil => rfl
    | cons c l => rw [permsLoop, permsLoop_eq]; cases List.find? misorderedB (neighbours (c :: l)) <;> rfl
  unfold checkUnorderedPerms
  revert hp
  cases hd : node.data with
  | decl d => rintro ⟨⟩; rename_i h; simp only [h, ne_eq, not_true_eq_false, if_false]; exact key _
  | _ => rintro ⟨⟩ <;> exact key _

/-- C33: declarations of something else than a class are not looked at. -/
theorem C33_other_declarations (node : Loc) (d : DeclData) (hd : node.data = .decl d)
    (h : d.flavor ≠ .cls) : checkUnorderedPerms node = .ok none := by
  unfold checkUnorderedPerms; rw [hd]; simp [h, noResult]

theorem pairwise_of_neighbours {l : List Str} (h : ∀ pc ∈ neighbours l, pc.1 < pc.2) :
    l.Pairwise (· < ·) := by
  induction l with
  | nil => exact .nil
  | cons a l ih =>
    cases l with
    | nil => simp
    | cons b l =>
      have hab : a < b := h (a, b) (by simp [neighbours])
      have ih' := ih (fun pc hpc => h pc (by
        show pc ∈ (a, b) :: neighbours (b :: l)
        exact List.mem_cons_of_mem _ hpc))
      rw [List.pairwise_cons]
      refine ⟨fun x hx => ?_, ih'⟩
      rcases List.mem_cons.1 hx with rfl | hx
      · exact hab
      · exact List.lt_trans hab ((List.pairwise_cons.1 ih').1 x hx)

/-- C33: a statement without `~` and `-` is not reported iff its permissions are sorted and
free of repetitions. -/
theorem C33_sorted (node : Loc) (kind : Str) (perms : List Str)
    (hp : PermsOf node.data kind perms) (h1 : cs!"~" ∉ perms) (h2 : cs!"-" ∉ perms) :
    checkUnorderedPerms node = .ok none ↔ perms.Pairwise (· < ·) := by
  rw [(C33_order node kind perms hp).one.none_iff]
  have hmem : ∀ pc ∈ neighbours perms, pc.1 ∈ perms ∧ pc.2 ∈ perms := by
    rintro ⟨a, b⟩ h
    have := List.of_mem_zip h
    exact ⟨this.1, List.mem_of_mem_tail this.2⟩
  constructor
  · intro h
    apply pairwise_of_neighbours
    intro pc hpc
    apply Decidable.byContradiction
    intro hlt
    obtain ⟨x, hx⟩ := FirstIn.exists_iff (P := Misordered).2 ⟨pc, hpc,
      fun e => h1 (e ▸ (hmem pc hpc).1), fun e => h2 (e ▸ (hmem pc hpc).2), hlt⟩
    exact h ⟨'C', 5, misorderedMessage kind x⟩ ⟨x, hx, rfl⟩
  · rintro h r ⟨pc, hf, -⟩
    obtain ⟨pc, hpc, -, -, hlt⟩ := FirstIn.exists_iff.1 ⟨pc, hf⟩
    refine hlt ?_
    clear hf hlt hmem
    clear hp h1 h2
    induction perms with
    | nil => simp [neighbours] at hpc
    | cons a l ih =>
      cases l with
      | nil => simp [neighbours] at hpc
      | cons b l =>
        rw [List.pairwise_cons] at h
        rcases List.mem_cons.1 (show pc ∈ (a, b) :: neighbours (b :: l) from hpc) with rfl | hpc
        · exact h.1 b (by simp)
        · exact ih h.2 hpc

/-! ## C40: W-001 -/

theorem declLists_iff {name : Str} {fl : DeclFlavor} {i : NodeInfo} :
    declLists name fl i = true ↔
      ∃ d, i.data = .decl d ∧ d.flavor = fl ∧ (d.name = name ∨ name ∈ d.attrs) := by
  unfold declLists
  cases i.data with
  | decl d =>
    simp only [Bool.and_eq_true, beq_iff_eq, Bool.or_eq_true, strcmp_eq_zero, List.any_eq_true,
      NodeData.decl.injEq, exists_eq_left']
    exact and_congr Iff.rfl (or_congr eq_comm (by simp))
  | _ => simp

theorem requireBlockLists_ok {r : Loc} {name : Str} {fl : DeclFlavor}
    (h : RequireBlock r → r.focus.children ≠ []) :
    ∃ b, requireBlockLists r name fl = .ok b ∧ (b = true ↔ RequireBlock r ∧ ListsSymbol r name fl) := by
  unfold requireBlockLists
  by_cases hr : isRequireBlock r.info = true
  · rw [if_pos hr]
    split
    · rename_i e; exact absurd e (h (isRequireBlock_iff.1 hr))
    · refine ⟨_, rfl, ?_⟩
      rw [List.any_eq_true]
      simp only [declLists_iff, ListsSymbol, isRequireBlock_iff.1 hr, true_and]
  · rw [if_neg hr]
    refine ⟨false, rfl, ?_⟩
    simp only [Bool.false_eq_true, false_iff]
    rintro ⟨h1, -⟩
    exact hr (isRequireBlock_iff.2 h1)

/-- What `has_require` looks for, and where. -/
theorem hasRequire_ok (l : Loc) (name : Str) (fl : DeclFlavor)
    (h : ∀ r, InScope r l → RequireBlock r → r.focus.children ≠ []) :
    ∃ b, hasRequire l name fl = .ok b ∧
      (b = true ↔ ∃ r, InScope r l ∧ RequireBlock r ∧ ListsSymbol r name fl) := by
  have self : InScope l l := inScope_step.2 (Or.inl rfl)
  obtain ⟨b, hb1, hb2⟩ := requireBlockLists_ok (name := name) (fl := fl) (h l self)
  rw [hasRequire, hb1, Res.bind_ok]
  cases b with
  | true => exact ⟨true, rfl, by simp only [true_iff]; exact ⟨l, self, (hb2.1 rfl).1, (hb2.1 rfl).2⟩⟩
  | false =>
    simp only [Bool.false_eq_true, if_false]
    have hnot : ∀ r, r = l → ¬ (RequireBlock r ∧ ListsSymbol r name fl) := by
      rintro r rfl hh; have := hb2.2 hh; cases this
    cases hp : l.prev? with
    | some p =>
      simp only
      obtain ⟨b, h1, h2⟩ := hasRequire_ok p name fl
        (fun r hr => h r (inScope_step.2 (Or.inr (Or.inl ⟨p, hp, hr⟩))))
      refine ⟨b, h1, h2.trans ⟨?_, ?_⟩⟩
      · rintro ⟨r, hr, h3⟩
        exact ⟨r, inScope_step.2 (Or.inr (Or.inl ⟨p, hp, hr⟩)), h3⟩
      · rintro ⟨r, hr, h3⟩
        rcases inScope_step.1 hr with rfl | ⟨p', hp', hr⟩ | ⟨hn, -⟩
        · exact absurd h3 (hnot r rfl)
        · rw [hp] at hp'; cases hp'; exact ⟨r, hr, h3⟩
        · rw [hp] at hn; cases hn
    | none =>
      simp only
      cases hq : l.parent? with
      | none =>
        simp only
        refine ⟨false, rfl, ?_⟩
        simp only [Bool.false_eq_true, false_iff]
        rintro ⟨r, hr, h3⟩
        rcases inScope_step.1 hr with rfl | ⟨p', hp', hr⟩ | ⟨hn, p', hp', hr⟩
        · exact absurd h3 (hnot r rfl)
        · rw [hp] at hp'; cases hp'
        · rw [hq] at hp'; cases hp'
      | some p =>
        simp only
        obtain ⟨b, h1, h2⟩ := hasRequire_ok p name fl
          (fun r hr => h r (inScope_step.2 (Or.inr (Or.inr ⟨hp, p, hq, hr⟩))))
        refine ⟨b, h1, h2.trans ⟨?_, ?_⟩⟩
        · rintro ⟨r, hr, h3⟩
          exact ⟨r, inScope_step.2 (Or.inr (Or.inr ⟨hp, p, hq, hr⟩)), h3⟩
        · rintro ⟨r, hr, h3⟩
          rcases inScope_step.1 hr with rfl | ⟨p', hp', hr⟩ | ⟨hn, p', hp', hr⟩
          · exact absurd h3 (hnot r rfl)
          · rw [hp] at hp'; cases hp'
          · rw [hq] at hp'; cases hp'; exact ⟨r, hr, h3⟩
termination_by l.backSteps
decreasing_by
  · exact Loc.backSteps_parent (by assumption)
  · exact Loc.backSteps_prev (by assumption)

theorem explicitFlavor_iff {ops : List MapOp} {name mod : Str} {fl : DeclFlavor} :
    explicitFlavor (tablesAfter ops) name = some (mod, fl) ↔ ExplicitSymbol ops name mod fl := by
  unfold explicitFlavor ExplicitSymbol
  simp only [← lookUpDecl_none_iff, ← lookUpDecl_some_iff]
  split
  · rename_i md h1
    constructor
    · intro h; cases h; exact ⟨h1, Or.inl rfl⟩
    · rintro ⟨h2, rfl | ⟨rfl, h3⟩ | ⟨rfl, h3, h4⟩⟩
      · rw [h1] at h2; cases h2; rfl
      · rw [h1] at h3; cases h3
      · rw [h1] at h3; cases h3
  · rename_i h1
    split
    · rename_i md h5
      constructor
      · intro h; cases h; exact ⟨h5, Or.inr (Or.inl ⟨rfl, h1⟩)⟩
      · rintro ⟨h2, rfl | ⟨rfl, h3⟩ | ⟨rfl, h3, h4⟩⟩
        · rw [h1] at h2; cases h2
        · rw [h5] at h2; cases h2; rfl
        · rw [h5] at h4; cases h4
    · rename_i h5
      split
      · rename_i md h6
        constructor
        · intro h; cases h; exact ⟨h6, Or.inr (Or.inr ⟨rfl, h1, h5⟩)⟩
        · rintro ⟨h2, rfl | ⟨rfl, h3⟩ | ⟨rfl, h3, h4⟩⟩
          · rw [h1] at h2; cases h2
          · rw [h5] at h2; cases h2
          · rw [h6] at h2; cases h2; rfl
      · rename_i h6
        simp only [reduceCtorEq, false_iff]
        rintro ⟨h2, rfl | ⟨rfl, h3⟩ | ⟨rfl, h3, h4⟩⟩
        · rw [h1] at h2; cases h2
        · rw [h5] at h2; cases h2
        · rw [h6] at h2; cases h2

/-- W-001: a name that is used without being required. -/
def Spec.NotRequired (ops : List MapOp) (modName : Str) (node : Loc) (name mod : Str) : Prop :=
  ∃ fl, ExplicitSymbol ops name mod fl ∧ mod ≠ modName ∧
    ¬ ∃ r, InScope r node ∧ RequireBlock r ∧ ListsSymbol r name fl

/-- C40: in a te file W-001 reports a statement iff it uses a type, attribute or role
attribute of another module that no require block in scope lists. Blocks always have children
(the parser enters a marker), which the hypothesis says. -/
theorem C40_explicit (ops : List MapOp) (data : CheckData) (node : Loc)
    (hf : data.flavor = .teFile)
    (hb : ∀ r, InScope r node → RequireBlock r → r.focus.children ≠ []) :
    ReportsOne (checkNoExplicitDeclaration (tablesAfter ops) data node) fun r =>
      ∃ name mod, Uses node.data name ∧ NotRequired ops data.modName node name mod ∧
        r = ⟨'W', 1, cs!"No explicit declaration for " ++ name ++ cs!" from module " ++ mod ++
          cs!".  You should access it via interface call or use a require block."⟩ := by
  unfold checkNoExplicitDeclaration
  rw [if_neg (by simp [hf])]
  obtain ⟨names, h1, h2⟩ := usedNames_ok node
  rw [h1, Res.bind_ok]
  simp only [← h2]
  clear h1 h2
  induction names with
  | nil => exact ⟨none, rfl, by simp, by simp⟩
  | cons n names ih =>
    have skip : (∀ mod, ¬ NotRequired ops data.modName node n mod) →
        ∀ {o}, ReportsOne o (fun r => ∃ name mod, name ∈ names ∧
          NotRequired ops data.modName node name mod ∧ r = ⟨'W', 1, cs!"No explicit declaration for "
            ++ name ++ cs!" from module " ++ mod ++
          cs!".  You should access it via interface call or use a require block."⟩) →
        ReportsOne o (fun r => ∃ name mod, name ∈ n :: names ∧
          NotRequired ops data.modName node name mod ∧ r = ⟨'W', 1, cs!"No explicit declaration for "
            ++ name ++ cs!" from module " ++ mod ++
          cs!".  You should access it via interface call or use a require block."⟩) := by
      rintro hno o ⟨o', e, h3, h4⟩
      refine ⟨o', e, ⟨fun h => ?_, fun h => ?_⟩, ?_⟩
      · rintro r ⟨name, mod, hm, h5, h6⟩
        rcases List.mem_cons.1 hm with rfl | hm
        · exact hno _ h5
        · exact h3.1 h r ⟨name, mod, hm, h5, h6⟩
      · apply h3.2
        rintro r ⟨name, mod, hm, h5, h6⟩
        exact h r ⟨name, mod, List.mem_cons_of_mem _ hm, h5, h6⟩
      · intro r hr
        obtain ⟨name, mod, hm, h5, h6⟩ := h4 r hr
        exact ⟨name, mod, List.mem_cons_of_mem _ hm, h5, h6⟩
    unfold explicitLoop
    cases he : explicitFlavor (tablesAfter ops) n with
    | none =>
      refine skip ?_ ih
      rintro mod ⟨fl, hs, -⟩
      rw [explicitFlavor_iff.2 hs] at he; cases he
    | some mf =>
      obtain ⟨mod, fl⟩ := mf
      simp only
      have hs := explicitFlavor_iff.1 he
      have huniq : ∀ mod' fl', ExplicitSymbol ops n mod' fl' → mod' = mod ∧ fl' = fl := by
        intro mod' fl' h'
        have := explicitFlavor_iff.2 h'
        rw [he] at this; cases this; exact ⟨rfl, rfl⟩
      by_cases hm : mod = data.modName
      · rw [if_neg (by simp [hm])]
        refine skip ?_ ih
        rintro mod' ⟨fl', hs', hne, -⟩
        exact hne ((huniq _ _ hs').1.trans hm)
      · rw [if_pos (by simp only [ne_eq, strcmp_eq_zero]; exact fun e => hm e.symm)]
        obtain ⟨b, hb1, hb2⟩ := hasRequire_ok node n fl hb
        rw [hb1, Res.bind_ok]
        cases b with
        | true =>
          simp only [if_true]
          refine skip ?_ ih
          rintro mod' ⟨fl', hs', -, hno⟩
          obtain ⟨-, rfl⟩ := huniq _ _ hs'
          exact hno (hb2.1 rfl)
        | false =>
          simp only [Bool.false_eq_true, if_false]
          refine ⟨_, rfl, by
            simp only [reduceCtorEq, false_iff]
            intro h
            exact h _ ⟨n, mod, by simp, ⟨fl, hs, hm, fun h => by have := hb2.2 h; cases this⟩, rfl⟩, ?_⟩
          intro r hr
          cases hr
          exact ⟨n, mod, by simp, ⟨fl, hs, hm, fun h => by have := hb2.2 h; cases this⟩, rfl⟩

/-- C40: other files are not looked at. -/
theorem C40_other_files (m : Maps) (data : CheckData) (node : Loc) (hf : data.flavor ≠ .teFile) :
    checkNoExplicitDeclaration m data node = .ok none := by
  simp [checkNoExplicitDeclaration, hf, noResult]

/-! ## C43: W-005 -/

/-- C43: a call is reported iff the interface belongs to another module, whose status is
known and not `base`, and no block around the call is an optional block. -/
theorem C43_optional (ops : List MapOp) (data : CheckData) (node : Loc) (d : IfCallData)
    (hd : node.data = .ifCall d) :
    Reports (checkModuleIfCallInOptional (tablesAfter ops) data node) fun r =>
      ∃ mod status, InterfaceIn ops d.name mod ∧ mod ≠ data.modName ∧ StatusIs ops mod status ∧
        status ≠ cs!"base" ∧ (¬ ∃ b, Encloses b node ∧ b.flavor = .optionalPolicy) ∧
        r = ⟨'W', 5, cs!"Call to interface " ++ d.name ++ cs!" defined in module " ++ mod ++
          cs!" should be in optional_policy block"⟩ := by
  unfold checkModuleIfCallInOptional
  simp only [hd, ← lookUpIf_some_iff, ← lookUpMod_some_iff, ← mem_ancestors_iff]
  cases h1 : (tablesAfter ops).lookUpIf d.name with
  | none => exact reports_none (by simp)
  | some mod =>
    simp only
    by_cases hm : mod = data.modName
    · rw [if_pos (by simp [hm])]
      refine reports_none ?_
      rintro r ⟨mod', s, h, h2, -⟩
      cases h; exact h2 hm
    · rw [if_neg (by simpa using hm)]
      cases h2 : (tablesAfter ops).lookUpMod mod with
      | none =>
        refine reports_none ?_
        rintro r ⟨mod', s, h, -, h3, -⟩
        cases h; rw [h2] at h3; cases h3
      | some status =>
        simp only
        by_cases hs : status = cs!"base"
        · rw [if_pos (by simp [hs])]
          refine reports_none ?_
          rintro r ⟨mod', s, h, -, h3, h4, -⟩
          cases h; rw [h2] at h3; cases h3; exact h4 hs
        · rw [if_neg (by simpa using hs)]
          by_cases ho : ∃ b ∈ node.ancestors, b.flavor = .optionalPolicy
          · rw [if_pos (by simpa using ho)]
            refine reports_none ?_
            rintro r ⟨mod', s, h, -, h3, h4, h5, -⟩
            exact h5 ho
          · rw [if_neg (by simpa using ho)]
            apply reports_result
            intro r
            constructor
            · rintro ⟨mod', s, h, -, h3, h4, h5, rfl⟩
              cases h; rfl
            · rintro rfl
              exact ⟨mod, status, rfl, hm, h2, hs, ho, rfl⟩

/-! ## C51 -/

/-- C51 for W-006: exactly the calls without arguments. -/
theorem C51_empty_call (node : Loc) (d : IfCallData) (hd : node.data = .ifCall d) :
    Reports (checkEmptyIfCallArg node) fun r => d.args = [] ∧
      r = ⟨'W', 6, cs!"Call to interface " ++ d.name ++ cs!" with empty argument"⟩ := by
  unfold checkEmptyIfCallArg
  rw [hd]
  by_cases h : d.args = []
  · simp only [h, if_true]; exact reports_result (by simp)
  · simp only [h, if_false]; exact reports_none (by simp)

/-- C51 for W-008: exactly the allow rules with a wildcard or a complement. -/
theorem C51_risky (node : Loc) (d : AvData) (hd : node.data = .av d) :
    Reports (checkRiskyAllowPerm node) fun r =>
      d.flavor = .allow ∧ (cs!"*" ∈ d.perms ∨ cs!"~" ∈ d.perms) ∧
      r = ⟨'W', 8, cs!"Allow rule with complement or wildcard permission"⟩ := by
  unfold checkRiskyAllowPerm
  rw [hd]
  by_cases h : d.flavor = .allow
  · simp only [h, ne_eq, not_true_eq_false, if_false, true_and]
    generalize d.perms = l
    induction l with
    | nil => exact reports_none (by simp)
    | cons p l ih =>
      rw [riskyLoop]
      by_cases hp : p = cs!"*" ∨ p = cs!"~"
      · rw [if_pos (by simpa using hp)]
        refine reports_result fun r => ?_
        rcases hp with rfl | rfl <;> simp
      · rw [if_neg (by simpa using hp)]
        refine ih.congr fun r => ?_
        simp only [not_or] at hp
        simp [List.mem_cons, Ne.symm hp.1, Ne.symm hp.2]
  · simp only [ne_eq, h, not_false_eq_true, if_true]; exact reports_none (by simp)

/-- C51 for E-007: the first unknown permission of an access vector rule is reported. -/
theorem C51_unknown_permission (ops : List MapOp) (node : Loc) (d : AvData)
    (hd : node.data = .av d) :
    Reports (checkUnknownPermission (tablesAfter ops) node) fun r =>
      ∃ p, FirstIn (UnknownPermission ops) d.perms p ∧
        r = ⟨'E', 7, cs!"Unknown permission " ++ p ++ cs!" used"⟩ := by
  unfold checkUnknownPermission
  rw [hd]
  refine reports_find (p := fun p => !((strcmp p cs!"*" = 0 || strcmp p cs!"~" = 0) ||
    ((cs!"all_").isPrefixOf p && endsWith p cs!"_perms") ||
    ((tablesAfter ops).lookUpDecl p .perm).isSome || ((tablesAfter ops).lookUpPermmacro p).isSome))
    (fun p => ?_) d.perms (fun p => ⟨'E', 7, cs!"Unknown permission " ++ p ++ cs!" used"⟩) ?_
  · unfold UnknownPermission
    rw [← isSome_lookUpDecl, ← isSome_lookUpPermmacro, ← endsWith_iff, ← List.isPrefixOf_iff_prefix]
    simp only [Bool.not_eq_true', Bool.or_eq_false_iff, decide_eq_false_iff_not,
      strcmp_eq_zero, Bool.not_eq_true, and_assoc, ne_eq]
    rw [← Bool.and_eq_true, Bool.not_eq_true]
  · show unknownPermLoop (tablesAfter ops) d.perms = _
    generalize d.perms = l
    induction l with
    | nil => rfl
    | cons p l ih =>
      rw [unknownPermLoop, List.find?_cons]
      generalize (strcmp p cs!"*" = 0 || strcmp p cs!"~" = 0) = a1
      generalize ((cs!"all_").isPrefixOf p && endsWith p cs!"_perms") = a2
      generalize ((tablesAfter ops).lookUpDecl p .perm).isSome = a3
      generalize ((tablesAfter ops).lookUpPermmacro p).isSome = a4
      cases a1 <;> cases a2 <;> cases a3 <;> cases a4 <;>
        simp only [Bool.or_true, Bool.or_false, Bool.not_true,
          Bool.not_false, if_true, if_false, Bool.false_eq_true, ih] <;> rfl

/-- C51 is false of E-007 for parameters: a permission given by an interface parameter is
reported as unknown. -/
theorem C51_false_permission_parameter (ops : List MapOp) (node : Loc) (d : AvData)
    (hd : node.data = .av d) (hp : d.perms = [cs!"$2"])
    (h1 : ¬ DeclaredIn ops .perm cs!"$2") (h2 : ¬ KnownPermMacro ops cs!"$2") :
    checkUnknownPermission (tablesAfter ops) node =
      .ok (some ⟨'E', 7, cs!"Unknown permission $2 used"⟩) := by
  obtain ⟨o, ho, hr⟩ := C51_unknown_permission ops node d hd
  have hx : ¬ (cs!"all_" <+: cs!"$2" ∧ cs!"_perms" <:+ cs!"$2") := by decide
  rw [ho, (hr _).2 ⟨cs!"$2", ⟨[], [], hp, ⟨by decide, by decide, hx, h1, h2⟩, by simp⟩, rfl⟩]
  rfl

/-- C51 for E-008: the first unknown class of a rule is reported. -/
theorem C51_unknown_class (ops : List MapOp) (node : Loc) (classes : List Str)
    (hc : ClassesOf node.data classes) :
    Reports (checkUnknownClass (tablesAfter ops) node) fun r =>
      ∃ c, FirstIn (UnknownClass ops) classes c ∧
        r = ⟨'E', 8, cs!"Unknown class " ++ c ++ cs!" used"⟩ := by
  have key : ∀ l, Reports (unknownClassLoop (tablesAfter ops) l) fun r =>
      ∃ c, FirstIn (UnknownClass ops) l c ∧
        r = ⟨'E', 8, cs!"Unknown class " ++ c ++ cs!" used"⟩ := by
    intro l
    refine reports_find (p := fun c => !((c.head? = some '$' &&
      ((c[1]?).map Char.isDigit).getD false) || endsWith c cs!"_class_set" ||
      ((tablesAfter ops).lookUpDecl c .cls).isSome))
      (fun c => ?_) l (fun c => ⟨'E', 8, cs!"Unknown class " ++ c ++ cs!" used"⟩) ?_
    · unfold UnknownClass
      rw [← isSome_lookUpDecl, ← endsWith_iff]
      have : (c.head? = some '$' && ((c[1]?).map Char.isDigit).getD false) = true ↔
          ∃ d rest, c = '$' :: d :: rest ∧ d.isDigit = true := by
        rcases c with _ | ⟨x, _ | ⟨y, t⟩⟩ <;> simp [and_assoc]
      rw [← this]
      simp only [Bool.not_eq_true', Bool.or_eq_false_iff, Bool.not_eq_true, and_assoc]
    · induction l with
      | nil => rfl
      | cons c l ih =>
        rw [unknownClassLoop, List.find?_cons]
        generalize (c.head? = some '$' && ((c[1]?).map Char.isDigit).getD false) = a1
        generalize endsWith c cs!"_class_set" = a2
        generalize ((tablesAfter ops).lookUpDecl c .cls).isSome = a3
        cases a1 <;> cases a2 <;> cases a3 <;>
          simp only [Bool.or_true, Bool.or_false, Bool.not_true,
            Bool.not_false, if_true, if_false, Bool.false_eq_true, ih] <;> rfl
  unfold checkUnknownClass
  revert hc
  cases hd : node.data <;> rintro ⟨⟩ <;> exact key _

/-- C51 for E-009: exactly the blocks without a statement. -/
theorem C51_empty_block (node : Loc) :
    Reports (checkEmptyBlock node) fun r =>
      (∀ t ∈ node.focus.children, NoStatement t) ∧ r = ⟨'E', 9, cs!"Empty block found"⟩ := by
  unfold checkEmptyBlock
  have : (node.focus.children.all fun t => t.info.flavor == .startBlock || t.info.flavor == .comment
      || t.info.flavor == .semicolon) = true ↔ ∀ t ∈ node.focus.children, NoStatement t := by
    simp [NoStatement, or_assoc]
  by_cases h : ∀ t ∈ node.focus.children, NoStatement t
  · rw [if_pos (this.2 h)]; exact reports_result fun r => by simp only [and_iff_right h]
  · rw [if_neg (fun e => h (this.1 e))]; exact reports_none fun r hr => h hr.1

theorem startsWithModulePrefix_iff {m : Maps} {before rest : Str} :
    startsWithModulePrefix m before rest = true ↔
      ∃ p s, rest = p ++ '_' :: s ∧ isModulePrefix m (before ++ p) = true := by
  induction rest generalizing before with
  | nil => simp [startsWithModulePrefix]
  | cons c rest ih =>
    rw [startsWithModulePrefix]
    have hrec : startsWithModulePrefix m (before ++ [c]) rest = true ↔
        ∃ p s, c :: rest = c :: p ++ '_' :: s ∧ isModulePrefix m (before ++ c :: p) = true := by
      rw [ih]; simp
    constructor
    · intro h
      have : (c = '_' ∧ isModulePrefix m before = true) ∨
          startsWithModulePrefix m (before ++ [c]) rest = true := by
        split at h
        · split at h
          · left; constructor <;> assumption
          · right; exact h
        · right; exact h
      rcases this with ⟨rfl, h⟩ | h
      · exact ⟨[], rest, rfl, by rwa [List.append_nil]⟩
      · obtain ⟨p, s, h1, h2⟩ := hrec.1 h
        exact ⟨c :: p, s, h1, h2⟩
    · rintro ⟨p, s, h1, h2⟩
      cases p with
      | nil =>
        simp only [List.nil_append, List.cons.injEq] at h1
        rw [if_pos h1.1, if_pos (by simpa using h2)]
      | cons x p =>
        have hx : c = x := by simpa using (List.cons.inj h1).1
        subst hx
        have := hrec.2 ⟨p, s, h1, h2⟩
        rw [this]; simp

/-- C51 for W-010: exactly the calls whose name starts with a known module (or abbreviation)
and an underscore and is the name of no known interface; two macros of the reference policy
are exempt. -/
theorem C51_unknown_interface (ops : List MapOp) (node : Loc) (d : IfCallData)
    (hd : node.data = .ifCall d) :
    Reports (checkUnknownInterfaceCall (tablesAfter ops) node) fun r =>
      HasModulePrefix ops d.name ∧ ¬ KnownInterface ops d.name ∧
      d.name ≠ cs!"domain_auto_transition_pattern" ∧ d.name ≠ cs!"domain_transition_pattern" ∧
      r = ⟨'W', 10, cs!"Call to " ++ d.name ++ cs!" can not be referenced to any interface"⟩ := by
  unfold checkUnknownInterfaceCall
  simp only [hd]
  have hm : macrosWithModulePrefix.any (strcmp d.name · == 0) = true ↔
      d.name = cs!"domain_auto_transition_pattern" ∨ d.name = cs!"domain_transition_pattern" := by
    simp [macrosWithModulePrefix]
  have hp : startsWithModulePrefix (tablesAfter ops) [] d.name = true ↔
      HasModulePrefix ops d.name := by
    rw [startsWithModulePrefix_iff]
    unfold HasModulePrefix
    have : ∀ p, isModulePrefix (tablesAfter ops) ([] ++ p) = true ↔
        (KnownModule ops p ∨ ∃ full, (p, full) ∈ abbreviations ∧ KnownModule ops full) := by
      intro p
      rw [List.nil_append, isModulePrefix, Bool.or_eq_true, isSome_lookUpMod, List.any_eq_true]
      refine or_congr Iff.rfl ⟨?_, ?_⟩
      · rintro ⟨⟨a, f⟩, h1, h2⟩
        simp only [Bool.and_eq_true, beq_iff_eq, strcmp_eq_zero, isSome_lookUpMod] at h2
        obtain ⟨rfl, h2⟩ := h2
        exact ⟨f, h1, h2⟩
      · rintro ⟨f, h1, h2⟩
        exact ⟨(p, f), h1, by simp [isSome_lookUpMod, h2]⟩
    simp only [this]
  by_cases h1 : d.name = cs!"domain_auto_transition_pattern" ∨ d.name = cs!"domain_transition_pattern"
  · rw [if_pos (hm.2 h1)]
    exact reports_none fun r hr => h1.elim hr.2.2.1 hr.2.2.2.1
  · rw [if_neg (fun e => h1 (hm.1 e))]
    simp only [not_or] at h1
    by_cases h2 : HasModulePrefix ops d.name
    · rw [if_neg (by simp [hp.2 h2])]
      by_cases h3 : KnownInterface ops d.name
      · rw [if_pos (isSome_lookUpIf.2 h3)]
        exact reports_none fun r hr => hr.2.1 h3
      · rw [if_neg (fun e => h3 (isSome_lookUpIf.1 e))]
        exact reports_result fun r => by simp [h1, h2, h3]
    · rw [if_pos (by simpa using fun e => h2 (hp.1 e))]
      exact reports_none fun r hr => h2 hr.1

/-! ## Non-vacuity -/

/-- A statement on a line. -/
def teNode (d : NodeData) (line : Nat) : NodeInfo := ⟨d, none, line⟩

/-- A node alone in its file. -/
def teLoc (d : NodeData) : Loc := ⟨.mk (teNode d 1) [], [], [], []⟩

/-- `allow a_t b_t:file { read getattr };` -/
def teAllow (perms : List Str) : AvData :=
  ⟨.allow, [cs!"a_t"], [cs!"b_t"], [cs!"file"], perms⟩

/-- A history: two types, an interface of a module in state `module`, a class, permissions. -/
def teOps : List MapOp :=
  [.decl cs!"a_t" cs!"a" .type, .decl cs!"b_t" cs!"b" .type, .iface cs!"b_read" cs!"b",
   .mod cs!"a" cs!"module", .mod cs!"b" cs!"module", .decl cs!"file" cs!"" .cls,
   .decl cs!"read" cs!"" .perm, .permmacro cs!"rw_perms" [cs!"read"]]

/-- The data of the te file of module `a`. -/
def teData : CheckData := ⟨cs!"a", cs!"a.te", .teFile, ⟨.ref, [], true, false, []⟩⟩

example : checkUnorderedPerms (teLoc (.av (teAllow [cs!"read", cs!"getattr"]))) =
    .ok (some ⟨'C', 5, cs!"Permissions in av rule not ordered (read before getattr)"⟩) := by decide

example : PermsOf (teLoc (.av (teAllow [cs!"getattr", cs!"read"]))).data cs!"av rule"
    [cs!"getattr", cs!"read"] := .av _

/-- A te file: `gen_require(` type c_t; `)` and in a block the rule. -/
def teForest : List Tree :=
  [.mk (teNode (.genReq false) 1) [.mk (teNode (.plain .startBlock none) 1) [],
      .mk (teNode (.decl ⟨.type, cs!"c_t", []⟩) 2) []],
   .mk (teNode (.plain .optionalPolicy none) 4) [.mk (teNode (.plain .startBlock none) 4) [],
      .mk (teNode (.av (teAllow [cs!"read"])) 5) []]]

/-- The rule in `teForest`. -/
def teRule : Loc :=
  ⟨.mk (teNode (.av (teAllow [cs!"read"])) 5) [], [.mk (teNode (.plain .startBlock none) 4) []], [],
    [⟨[.mk (teNode (.genReq false) 1) [.mk (teNode (.plain .startBlock none) 1) [],
        .mk (teNode (.decl ⟨.type, cs!"c_t", []⟩) 2) []]], teNode (.plain .optionalPolicy none) 4, []⟩]⟩

example : teData.flavor = .teFile ∧
    (∀ r, InScope r teRule → RequireBlock r → r.focus.children ≠ []) ∧
    checkNoExplicitDeclaration (tablesAfter teOps) teData teRule =
      .ok (some ⟨'W', 1, cs!"No explicit declaration for b_t from module b.  You should access it via interface call or use a require block."⟩) := by
  refine ⟨rfl, ?_, by decide +kernel⟩
  intro r hr hb
  have hall : ∀ head ∈ Loc.ofForest teForest, ∀ r ∈ head.walk,
      isRequireBlock r.info = true → r.focus.children ≠ [] := by decide +kernel
  have hu : r.unzip = teForest := hr.1
  exact hall _ rfl r ((C09_traversal (ts := teForest) rfl).1 r |>.2 hu) (isRequireBlock_iff.2 hb)

example : checkModuleIfCallInOptional (tablesAfter teOps) teData
    (teLoc (.ifCall ⟨cs!"b_read", [(cs!"a_t", false)]⟩)) =
    .ok (some ⟨'W', 5, cs!"Call to interface b_read defined in module b should be in optional_policy block"⟩) := by
  decide +kernel

example : checkUnknownInterfaceCall (tablesAfter teOps)
    (teLoc (.ifCall ⟨cs!"b_write", [(cs!"a_t", false)]⟩)) =
    .ok (some ⟨'W', 10, cs!"Call to b_write can not be referenced to any interface"⟩) := by
  decide +kernel

example : checkUnknownPermission (tablesAfter teOps)
    (teLoc (.av (teAllow [cs!"read", cs!"all_file_perms", cs!"rw_perms", cs!"raed"]))) =
    .ok (some ⟨'E', 7, cs!"Unknown permission raed used"⟩) := by decide +kernel

example : ¬ DeclaredIn teOps .perm cs!"$2" ∧ ¬ KnownPermMacro teOps cs!"$2" := by
  rw [← isSome_lookUpDecl, ← isSome_lookUpPermmacro]
  decide +kernel

end Selint
