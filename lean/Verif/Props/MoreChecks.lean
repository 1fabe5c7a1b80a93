import Verif.Props.IfChecks
import Verif.Props.PermMacro
/-! # What further checks report (C55–C62) -/

namespace Selint
open Spec

theorem reports_if {C : Prop} {out : CheckOut} {r0 : CheckResult} (h1 : C → out = .ok (some r0))
    (h2 : ¬ C → out = noResult) : Reports out fun r => C ∧ r = r0 := by
  by_cases hc : C
  · rw [h1 hc]; exact ⟨_, rfl, fun r => by simp [hc, eq_comm]⟩
  · rw [h2 hc]; exact reports_none fun r h => hc h.1

theorem head_eq_some {s : Str} {c : Char} : s.head? = some c ↔ ∃ rest, s = c :: rest := by
  cases s <;> simp

/-! ## C55: C-007 -/

/-- C55: C-007 reports a rule iff its one target repeats its one source, which is a known type
or a parameter named like one, and is not `self`. -/
theorem C55_self (ops : List MapOp) (node : Loc) (d : AvData)
    (hn : node.data = .av d ∨ ∃ op, node.data = .xav d op)
    (hs : d.sources ≠ []) (ht : d.targets ≠ []) :
    Reports (checkNoSelf (tablesAfter ops) node) fun r =>
      RedundantTarget ops d.sources d.targets ∧
      r = ⟨'C', 7, cs!"Recommend use of self keyword instead of redundant type"⟩ := by
  have hb : checkNoSelf (tablesAfter ops) node = noSelfBody (tablesAfter ops) d.sources d.targets := by
    unfold checkNoSelf
    rcases hn with h | ⟨op, h⟩ <;> rw [h]
  rw [hb]
  obtain ⟨s, ss, hs⟩ := List.exists_cons_of_ne_nil hs
  obtain ⟨t, ts, ht⟩ := List.exists_cons_of_ne_nil ht
  rw [hs, ht]
  unfold noSelfBody RedundantTarget
  have hdecl := @isSome_lookUpDecl ops s .type
  by_cases h1 : ss = [] ∧ ts = [] ∧ t ≠ cs!"self" ∧ s = t
  · obtain ⟨rfl, rfl, h3, rfl⟩ := h1
    have hc : ((([] : List Str) ≠ [] || ([] : List Str) ≠ [] || strcmp s cs!"self" = 0 ||
        strcmp s s ≠ 0) = true) ↔ False := by
      simp only [ne_eq, strcmp_eq_zero, h3, not_true, decide_false, Bool.or_false, Bool.false_eq_true]
    simp only [hc, if_false]
    by_cases hd : s.head? = some '$'
    · have hd' := head_eq_some.1 hd
      simp only [hd, if_true]
      by_cases he : cs!"_t" <:+ s
      · rw [if_neg (by simp [endsWith_iff.2 he])]
        exact reports_result fun r => by
          constructor
          · exact fun h => h.2
          · exact fun h => ⟨⟨s, rfl, rfl, h3, .inl ⟨hd', he⟩⟩, h⟩
      · rw [if_pos (by rw [Bool.not_eq_true', ← Bool.not_eq_true, endsWith_iff]; exact he)]
        refine reports_none ?_
        rintro r ⟨⟨t, h, -, -, h4⟩, -⟩
        cases h
        rcases h4 with h4 | h4
        · exact he h4.2
        · exact h4.1 hd'
    · have hd' := fun h => hd (head_eq_some.2 h)
      simp only [hd, if_false]
      by_cases he : DeclaredIn ops .type s
      · have := hdecl.2 he
        rw [if_neg (by simp [Option.isSome_iff_ne_none.1 this])]
        exact reports_result fun r => by
          constructor
          · exact fun h => h.2
          · exact fun h => ⟨⟨s, rfl, rfl, h3, .inr ⟨hd', he⟩⟩, h⟩
      · have : ¬ ((tablesAfter ops).lookUpDecl s .type).isSome = true := fun h => he (hdecl.1 h)
        rw [if_pos (by simpa using this)]
        refine reports_none ?_
        rintro r ⟨⟨t, h, -, -, h4⟩, -⟩
        cases h
        rcases h4 with h4 | h4
        · exact hd' h4.1
        · exact he h4.2
  · dsimp only; rw [if_pos]
    · refine reports_none ?_
      rintro r ⟨⟨u, h, h2, h3, -⟩, -⟩
      simp only [List.cons.injEq] at h h2
      exact h1 ⟨h.2, h2.2, h2.1 ▸ h3, h.1.trans h2.1.symm⟩
    · simp only [ne_eq, Bool.or_eq_true, decide_eq_true_eq, strcmp_eq_zero]
      by_cases a : ss = []
      · by_cases b : ts = []
        · by_cases c : t = cs!"self"
          · exact .inl (.inr c)
          · exact .inr fun e => h1 ⟨a, b, c, e⟩
        · exact .inl (.inl (.inr b))
      · exact .inl (.inl (.inl a))

/-! ## C56: S-001, S-003, S-006, W-009 -/

theorem requireLoop_eq (ts : List Tree) (C : Prop)
    (hC : C ↔ ∃ t ∈ ts, ∃ d, t.info.data = .decl d ∧ d.flavor ≠ .cls ∧ d.flavor ≠ .perm) :
    (C → requireLoop ts = result 'S' 1 cs!"Require block used in te file (use an interface call instead)") ∧
    (¬ C → requireLoop ts = noResult) := by
  induction ts generalizing C with
  | nil => exact ⟨fun h => by simpa using hC.1 h, fun _ => rfl⟩
  | cons t ts ih =>
    obtain ⟨i1, i2⟩ := ih _ Iff.rfl
    cases hd : t.info.data with
    | decl d =>
      by_cases h : d.flavor ≠ .cls ∧ d.flavor ≠ .perm
      · have : requireLoop (t :: ts) = result 'S' 1 cs!"Require block used in te file (use an interface call instead)" := by
          rw [requireLoop, hd]; simp only; rw [if_pos (by simpa using h)]
        exact ⟨fun _ => this, fun hc => absurd (hC.2 ⟨t, by simp, d, hd, h⟩) hc⟩
      · have e : requireLoop (t :: ts) = requireLoop ts := by
          rw [requireLoop, hd]; simp only; rw [if_neg (by simpa using h)]
        rw [e]
        have : C ↔ ∃ t ∈ ts, ∃ d, t.info.data = .decl d ∧ d.flavor ≠ .cls ∧ d.flavor ≠ .perm := by
          rw [hC]
          constructor
          · rintro ⟨u, hu, d', h1, h2⟩
            rcases List.mem_cons.1 hu with rfl | hu
            · rw [hd] at h1; cases h1; exact absurd h2 h
            · exact ⟨u, hu, d', h1, h2⟩
          · rintro ⟨u, hu, h⟩; exact ⟨u, List.mem_cons_of_mem _ hu, h⟩
        rw [this]; exact ⟨i1, i2⟩
    | _ =>
      have e : requireLoop (t :: ts) = requireLoop ts := by rw [requireLoop, hd]
      rw [e]
      have : C ↔ ∃ t ∈ ts, ∃ d, t.info.data = .decl d ∧ d.flavor ≠ .cls ∧ d.flavor ≠ .perm := by
        rw [hC]
        constructor
        · rintro ⟨u, hu, d', h1, h2⟩
          rcases List.mem_cons.1 hu with rfl | hu
          · rw [hd] at h1; cases h1
          · exact ⟨u, hu, d', h1, h2⟩
        · rintro ⟨u, hu, h⟩; exact ⟨u, List.mem_cons_of_mem _ hu, h⟩
      rw [this]; exact ⟨i1, i2⟩

/-- C56: S-001 reports a require block of a te file iff it requires something else than
classes and permissions. -/
theorem C56_require_block (data : CheckData) (node : Loc) :
    Reports (checkRequireBlock data node) fun r =>
      (data.flavor = .teFile ∧ RequiresSymbol node) ∧
      r = ⟨'S', 1, cs!"Require block used in te file (use an interface call instead)"⟩ := by
  apply reports_if
  · rintro ⟨h, h1⟩
    unfold checkRequireBlock
    rw [if_neg (by simp [h])]
    exact (requireLoop_eq _ _ Iff.rfl).1 h1
  · intro h
    unfold checkRequireBlock
    split
    · rfl
    · rename_i hf
      exact (requireLoop_eq _ _ Iff.rfl).2 fun h1 => h ⟨Classical.not_not.1 hf, h1⟩

/-- C56: S-006 reports a header iff it is a bare module statement. -/
theorem C56_bare_module (node : Loc) (d : HeaderData) (hn : node.data = .header d) :
    Reports (checkBareModuleStatement node) fun r =>
      d.flavor = .bare ∧ r = ⟨'S', 6, cs!"Bare module statement (use `policy_module()` instead)"⟩ := by
  unfold checkBareModuleStatement
  rw [hn]
  cases hd : d.flavor with
  | bare =>
    simp only [hd]
    exact reports_result fun r => ⟨fun h => h.2, fun h => ⟨trivial, h⟩⟩
  | _ =>
    simp only [hd]
    exact reports_none fun r h => by cases h.1

theorem strrchr_some {c : Char} {s e : Str} :
    strrchr c s = some e ↔ ∃ pre ext, s = pre ++ c :: ext ∧ c ∉ ext ∧ e = c :: ext := by
  induction s generalizing e with
  | nil => simp [strrchr]
  | cons h hs ih =>
    rw [strrchr]
    cases hr : strrchr c hs with
    | some r =>
      obtain ⟨pre, ext, h1, h2, h3⟩ := ih.1 hr
      simp only [Option.some.injEq]
      constructor
      · rintro rfl; exact ⟨h :: pre, ext, by simp [h1], h2, h3⟩
      · rintro ⟨pre', ext', h4, h5, h6⟩
        cases pre' with
        | nil =>
          simp only [List.nil_append, List.cons.injEq] at h4
          rw [← h4.2, h1] at h5; simp at h5
        | cons x pre' =>
          simp only [List.cons_append, List.cons.injEq] at h4
          have := ih.2 ⟨pre', ext', h4.2, h5, h6⟩
          rw [hr] at this; cases this; rfl
    | none =>
      have hno : c ∉ hs := by
        intro hm
        have : ∃ pre ext, hs = pre ++ c :: ext ∧ c ∉ ext := by
          clear ih hr
          induction hs with
          | nil => cases hm
          | cons x xs ihx =>
            by_cases hx : c ∈ xs
            · obtain ⟨p, q, h1, h2⟩ := ihx hx
              exact ⟨x :: p, q, by simp [h1], h2⟩
            · rcases List.mem_cons.1 hm with rfl | hm
              · exact ⟨[], xs, rfl, hx⟩
              · exact absurd hm hx
        obtain ⟨p, q, h1, h2⟩ := this
        have := ih.2 ⟨p, q, h1, h2, rfl⟩
        rw [hr] at this; cases this
      simp only
      by_cases hc : h = c
      · subst hc
        simp only [if_true, Option.some.injEq]
        constructor
        · rintro rfl; exact ⟨[], hs, rfl, hno, rfl⟩
        · rintro ⟨pre, ext, h1, h2, rfl⟩
          cases pre with
          | nil => simpa using h1
          | cons x pre =>
            simp only [List.cons_append, List.cons.injEq] at h1
            rw [h1.2] at hno; simp at hno
      · simp only [hc, if_false]
        constructor
        · rintro ⟨⟩
        · rintro ⟨pre, ext, h1, h2, rfl⟩
          cases pre with
          | nil => simp only [List.nil_append, List.cons.injEq] at h1; exact absurd h1.1 hc
          | cons x pre =>
            simp only [List.cons_append, List.cons.injEq] at h1
            rw [h1.2] at hno; simp at hno

theorem stem_iff {filename stem : Str} : Stem filename stem ↔
    stem = filename.take (stemLen filename) := by
  unfold Stem stemLen
  cases hr : strrchr '.' filename with
  | some e =>
    obtain ⟨pre, ext, h1, h2, rfl⟩ := strrchr_some.1 hr
    simp only
    have ht : filename.take (filename.length - ('.' :: ext).length) = pre := by
      rw [h1, List.length_append, Nat.add_sub_cancel, List.take_left]
    rw [ht]
    constructor
    · rintro (⟨ext', h3, h4⟩ | ⟨h3, -⟩)
      · have := strrchr_some.2 ⟨stem, ext', h3, h4, rfl⟩
        rw [hr] at this
        simp only [Option.some.injEq, List.cons.injEq, true_and] at this
        subst this
        exact (List.append_cancel_right (h1.symm.trans h3)).symm
      · rw [h1] at h3; simp at h3
    · rintro rfl; exact .inl ⟨ext, h1, h2⟩
  | none =>
    simp only [List.take_length]
    have hno : '.' ∉ filename := by
      intro hm
      have : ∃ e, strrchr '.' filename = some e := by
        clear hr
        induction filename with
        | nil => cases hm
        | cons x xs ih =>
          rw [strrchr]
          cases hx : strrchr '.' xs with
          | some r => exact ⟨r, rfl⟩
          | none =>
            rcases List.mem_cons.1 hm with rfl | hm
            · exact ⟨_, if_pos rfl⟩
            · obtain ⟨e, he⟩ := ih hm
              rw [hx] at he; cases he
      obtain ⟨e, he⟩ := this
      rw [hr] at he; cases he
    constructor
    · rintro (⟨ext, h3, -⟩ | ⟨-, h⟩)
      · rw [h3] at hno; simp at hno
      · exact h.symm
    · rintro rfl; exact .inr ⟨hno, rfl⟩

/-- C56: W-009 reports a header iff the name of the module is not the name of the file without
its extension. -/
theorem C56_file_name (data : CheckData) (node : Loc) (d : HeaderData) (hn : node.data = .header d) :
    Reports (checkModuleFileNameMismatch data node) fun r =>
      ¬ Stem data.filename d.moduleName ∧
      r = ⟨'W', 9, cs!"Module name " ++ d.moduleName ++ cs!" does not match file name " ++
        data.filename⟩ := by
  have hlen : stemLen data.filename ≤ data.filename.length := by
    unfold stemLen
    split
    · exact Nat.sub_le _ _
    · exact Nat.le_refl _
  unfold checkModuleFileNameMismatch
  rw [hn]
  simp only
  rw [stem_iff]
  generalize stemLen data.filename = len at hlen ⊢
  apply reports_if
  · intro h
    rw [if_pos]
    · rfl
    · simp only [ne_eq, decide_not, Bool.or_eq_true, Bool.not_eq_true', decide_eq_false_iff_not]
      by_cases hl : d.moduleName.length = len
      · right
        rw [← hl, List.take_length, hl]; exact h
      · exact .inl hl
  · intro h
    rw [Classical.not_not] at h
    rw [if_neg]
    rw [h]
    simp [List.length_take, List.take_take, Nat.min_eq_left hlen]

/-! ## C57: S-009 -/

theorem endsWithSuffixPerms_iff {perm c : Str} (hp : cs!"_perms" <:+ perm) :
    endsWithSuffixPerms perm c = true ↔ c ++ cs!"_perms" <:+ perm := by
  obtain ⟨q, rfl⟩ := hp
  have hr : c ++ cs!"_perms" <:+ q ++ cs!"_perms" ↔ c <:+ q := by
    constructor
    · rintro ⟨w, h⟩
      rw [← List.append_assoc] at h
      exact ⟨w, List.append_cancel_right h⟩
    · rintro ⟨w, rfl⟩; exact ⟨w, by simp⟩
  rw [hr]
  unfold endsWithSuffixPerms
  have hlen : (q ++ cs!"_perms").length = q.length + 6 := by simp
  rw [hlen]
  by_cases hl : q.length < c.length
  · rw [if_pos (by omega)]
    simp only [Bool.false_eq_true, false_iff]
    exact fun h => by have := h.length_le; omega
  · rw [if_neg (by omega), show q.length + 6 - (c.length + 6) = q.length - c.length by omega,
      List.drop_append_of_le_length (by omega), List.isPrefixOf_iff_prefix]
    have hd : (q.drop (q.length - c.length)).length = c.length := by simp; omega
    constructor
    · rintro ⟨w, h⟩
      have : c = q.drop (q.length - c.length) := List.append_inj_left h hd.symm
      rw [this]; exact List.drop_suffix _ _
    · intro h
      rw [← List.suffix_iff_eq_drop.1 h]
      exact List.prefix_append _ _

theorem classAlias_some {c a : Str} : classAlias c = some a ↔
    (c = cs!"chr_file" ∧ a = cs!"term") ∨ (c = cs!"process" ∧ a = cs!"signal") := by
  unfold classAlias
  simp only [strcmp_eq_zero]
  by_cases h1 : c = cs!"chr_file"
  · subst h1; simp [eq_comm]
  · by_cases h2 : c = cs!"process"
    · subst h2; simp [eq_comm]
    · simp [h1, h2]

theorem endsWithAllSuffixPerms_iff {perm : Str} {cs : List Str} (hp : cs!"_perms" <:+ perm) :
    endsWithAllSuffixPerms perm cs = true ↔ ∀ c ∈ cs, NamedFor perm c := by
  induction cs with
  | nil => simp [endsWithAllSuffixPerms]
  | cons c cs ih =>
    rw [List.forall_mem_cons, ← ih, endsWithAllSuffixPerms]
    unfold NamedFor
    rw [← endsWithSuffixPerms_iff hp]
    cases h1 : endsWithSuffixPerms perm c with
    | true => simp
    | false =>
      simp only [Bool.not_false, if_true, Bool.false_eq_true, false_or]
      cases ha : classAlias c with
      | none =>
        have : ∀ a, ¬ (c = cs!"chr_file" ∧ a = cs!"term" ∨ c = cs!"process" ∧ a = cs!"signal") := by
          intro a h
          have := classAlias_some.2 h
          rw [ha] at this; cases this
        simp only [Bool.false_eq_true, false_iff, not_and]
        rintro (⟨h, -⟩ | ⟨h, -⟩)
        · exact (this cs!"term" (.inl ⟨h, rfl⟩)).elim
        · exact (this cs!"signal" (.inr ⟨h, rfl⟩)).elim
      | some a =>
        have key : (c = cs!"chr_file" ∧ cs!"term_perms" <:+ perm ∨
            c = cs!"process" ∧ cs!"signal_perms" <:+ perm) ↔ endsWithSuffixPerms perm a = true := by
          rw [endsWithSuffixPerms_iff hp]
          rcases classAlias_some.1 ha with ⟨rfl, rfl⟩ | ⟨rfl, rfl⟩
          · simp
          · simp
        rw [key]
        simp only
        cases he : endsWithSuffixPerms perm a <;> simp

theorem allNetlink_iff {cs : List Str} :
    allNetlinkSocketClasses cs = true ↔ ∀ c ∈ cs, cs!"netlink_" <+: c := by
  induction cs with
  | nil => simp [allNetlinkSocketClasses]
  | cons c cs ih =>
    rw [List.forall_mem_cons, ← ih, allNetlinkSocketClasses, ← List.isPrefixOf_iff_prefix]
    cases (cs!"netlink_").isPrefixOf c <;> simp

theorem allSocket_iff {cs : List Str} :
    allSocketClasses cs = true ↔ ∀ c ∈ cs, cs!"_socket" <:+ c := by
  induction cs with
  | nil => simp [allSocketClasses]
  | cons c cs ih =>
    rw [List.forall_mem_cons, ← ih, allSocketClasses, ← endsWith_iff]
    cases endsWith c cs!"_socket" <;> simp

theorem mismatchReported_iff {classes : List Str} {perm : Str} :
    mismatchReported classes perm = true ↔ MismatchedMacro classes perm := by
  unfold mismatchReported MismatchedMacro
  by_cases hp : cs!"_perms" <:+ perm
  · rw [if_neg (by simp [endsWith_iff.2 hp])]
    simp only [hp, true_and]
    unfold MacroFits
    have hfile : fileSuffixClasses.any (endsWithSuffixPerms perm) = true ↔
        ∃ f ∈ specialFiles, f ++ cs!"_perms" <:+ perm := by
      simp only [List.any_eq_true, endsWithSuffixPerms_iff hp]
      exact Iff.rfl
    rw [← endsWithAllSuffixPerms_iff hp, ← hfile, ← allNetlink_iff, ← allSocket_iff, ← endsWith_iff,
      ← endsWith_iff, ← strInSl_iff]
    cases endsWithAllSuffixPerms perm classes <;> cases strInSl cs!"file" classes <;>
      cases fileSuffixClasses.any (endsWithSuffixPerms perm) <;>
      cases allNetlinkSocketClasses classes <;> cases allSocketClasses classes <;>
      cases endsWith perm cs!"_socket_perms" <;> cases endsWith perm cs!"netlink_socket_perms" <;> simp
  · rw [if_pos (by rw [Bool.not_eq_true', ← Bool.not_eq_true, endsWith_iff]; exact hp)]
    simp [hp]

/-- C57: S-009 reports the first permission macro of a rule that does not fit the rule's
classes, and nothing else; a rule whose first class is a set of classes is not looked at. -/
theorem C57_macro_mismatch (node : Loc) (d : AvData) (c : Str) (cs : List Str)
    (hn : node.data = .av d) (hc : d.objectClasses = c :: cs) :
    Reports (checkPermMacroClassMismatch node) fun r =>
      ¬ cs!"_class_set" <:+ c ∧ ∃ perm, FirstIn (MismatchedMacro (c :: cs)) d.perms perm ∧
        r = ⟨'S', 9, cs!"Permission macro " ++ perm ++ cs!" does not match class " ++
          (if cs ≠ [] then cs!"(multi class av rule)" else c)⟩ := by
  unfold checkPermMacroClassMismatch
  rw [hn]
  simp only [hc]
  by_cases hset : cs!"_class_set" <:+ c
  · rw [if_pos (endsWith_iff.2 hset)]
    exact reports_none fun r h => h.1 hset
  · rw [if_neg (fun h => hset (endsWith_iff.1 h))]
    simp only [hset, not_false_eq_true, true_and]
    refine reports_find (fun x => mismatchReported_iff) d.perms (fun perm => ⟨'S', 9, _⟩) ?_
    induction d.perms with
    | nil => rfl
    | cons p ps ih =>
      rw [mismatchLoop, List.find?_cons]
      cases mismatchReported (c :: cs) p with
      | true => rfl
      | false => simpa using ih

/-! ## C58: S-010 -/

/-- C58: S-010 looks at `allow` rules with one class that is no set of classes. -/
def Spec.OneClass (d : AvData) (c : Str) : Prop :=
  d.flavor = .allow ∧ d.objectClasses = [c] ∧ ¬ cs!"_class_set" <:+ c

/-- C58: called one rule after another, S-010 ends normally (if no permission macro refers to
itself). It reports a rule iff the rule is an `allow` rule with one class and the macro that
does best for it is not written there already; then it suggests that macro. -/
theorem C58_suggests {m : Maps} {st : PmState} (hst : PmStateOk m st) (hc : ∀ c, ¬ OnCycle m c)
    (node : Loc) (d : AvData) (hn : node.data = .av d) (hcls : d.objectClasses ≠ []) :
    ∃ st' out, checkPermMacroAvailable m node st = .ok (st', out) ∧ PmStateOk m st' ∧
      ∀ r, out = some r ↔ ∃ c e, OneClass d c ∧ Chosen m c d.perms e ∧ e.1 ∉ d.perms ∧
        r = ⟨'S', 10, suggestion m d.perms e⟩ := by
  unfold checkPermMacroAvailable
  rw [hn]
  simp only
  obtain ⟨c, cs, hcs⟩ := List.exists_cons_of_ne_nil hcls
  by_cases hone : OneClass d c
  · obtain ⟨h1, h2, h3⟩ := hone
    have hcs' : cs = [] := by rw [hcs] at h2; simpa using h2
    subst hcs'
    rw [if_neg (by simp [h1])]
    have hset : endsWith c cs!"_class_set" = false := by
      rw [← Bool.not_eq_true, endsWith_iff]; exact h3
    simp only [hcs, ne_eq, not_true, decide_false, hset, Bool.or_false, Bool.false_eq_true, if_false]
    obtain ⟨st', res, hp⟩ := C24_no_crash hst c d.perms hc
    rw [hp, Res.bind_ok]
    have hst' := C24_state_ok hst hp
    obtain ⟨h4, h5, h6⟩ := C25_suggestion_best hst hp
    have key : ∀ r, (res.map fun s => (⟨'S', 10, s⟩ : CheckResult)) = some r ↔
        ∃ c e, OneClass d c ∧ Chosen m c d.perms e ∧ e.1 ∉ d.perms ∧
        r = ⟨'S', 10, suggestion m d.perms e⟩ := by
      intro r
      constructor
      · intro hr
        have : res.isSome := by cases res <;> simp_all
        obtain ⟨e, he, hin⟩ := h6.1 this
        rw [h4 e he, if_neg hin] at hr
        simp only [Option.map_some, Option.some.injEq] at hr
        exact ⟨c, e, ⟨h1, h2, h3⟩, he, hin, hr.symm⟩
      · rintro ⟨c', e, ⟨-, h7, -⟩, he, hin, rfl⟩
        rw [h2] at h7
        cases h7
        rw [h4 e he, if_neg hin]; rfl
    cases res with
    | none => exact ⟨st', none, rfl, .inr hst', key⟩
    | some s => exact ⟨st', _, rfl, .inr hst', key⟩
  · refine ⟨st, none, ?_, hst, ?_⟩
    · by_cases h1 : d.flavor = .allow
      · rw [if_neg (by simp [h1])]
        simp only [hcs]
        rw [if_pos]
        simp only [ne_eq, decide_not, Bool.or_eq_true, Bool.not_eq_true', decide_eq_false_iff_not,
          endsWith_iff]
        by_cases h2 : cs = []
        · exact .inr (Classical.byContradiction fun h3 => hone ⟨h1, by rw [hcs, h2], h3⟩)
        · exact .inl h2
      · rw [if_pos h1]
    · intro r
      simp only [reduceCtorEq, false_iff]
      rintro ⟨c', e, h, -⟩
      have := h.2.1
      rw [hcs] at this
      simp only [List.cons.injEq] at this
      rw [← this.1] at h
      exact hone h

/-! ## C59: W-007 -/

theorem knownSymbol_iff {ops : List MapOp} {p arg : Str} :
    (arg.head? ≠ some '-' || knownSymbol (tablesAfter ops) p) = true ↔ SpaceMatters ops p arg := by
  unfold SpaceMatters knownSymbol
  simp only [Bool.or_eq_true, decide_eq_true_eq, isSome_lookUpDecl, ne_eq, head_eq_some, or_assoc]

theorem spaceLoop_spec (ops : List MapOp) (call : Str) (args : List (Str × Bool)) :
    ∀ (rest done : List (Str × Bool)) (prev : Option Str), args = done ++ rest →
      prev = (done.getLast?).map (·.1) →
      (∀ pos p k, pos + 1 < done.length → ¬ SpaceAt ops args pos p k) →
      Reports (spaceLoop (tablesAfter ops) call prev (1 + done.countP (fun a => !a.2)) rest) fun r =>
        ∃ pos p k, SpaceAt ops args pos p k ∧ (∀ pos' < pos, ∀ p' k', ¬ SpaceAt ops args pos' p' k') ∧
          r = ⟨'W', 7, cs!"Argument no. " ++ natToStr k ++ cs!" '" ++ p ++
            cs!" ...' of call to interface " ++ call ++ cs!" contains unquoted space"⟩ := by
  intro rest
  induction rest with
  | nil =>
    intro done prev ha hp hno
    rw [spaceLoop]
    refine reports_none ?_
    rintro r ⟨pos, p, k, h, -⟩
    refine hno pos p k ?_ h
    obtain ⟨before, b, arg, after, h1, h2, -⟩ := h
    rw [List.append_nil] at ha
    rw [← ha, h1, ← h2]; simp
  | cons a rest ih =>
    obtain ⟨s, space⟩ := a
    intro done prev ha hp hno
    have ha' : args = (done ++ [(s, space)]) ++ rest := by simp [ha]
    have hp' : some s = ((done ++ [(s, space)]).getLast?).map (·.1) := by simp
    -- positions up to the last but one of `done ++ [(s, space)]`
    have hstep : (∀ p k, ¬ (done.length = 0 → False) ∨ ¬ SpaceAt ops args (done.length - 1) p k) →
        ∀ pos p k, pos + 1 < (done ++ [(s, space)]).length → ¬ SpaceAt ops args pos p k := by
      intro h pos p k hlt
      simp only [List.length_append, List.length_cons, List.length_nil] at hlt
      by_cases hl : pos + 1 < done.length
      · exact hno pos p k hl
      · have : pos = done.length - 1 := by omega
        subst this
        rcases h p k with h | h
        · omega
        · exact h
    rw [spaceLoop.eq_def]
    simp only
    by_cases hsp : space = true
    · subst hsp
      rw [if_pos rfl]
      have hcount : (done ++ [(s, true)]).countP (fun a => !a.2) = done.countP (fun a => !a.2) := by
        simp [List.countP_append]
      cases hl : done.getLast? with
      | none =>
        rw [hl] at hp
        simp only [hp, Option.map_none]
        have hd : done = [] := by simpa using hl
        rw [← hcount]
        exact ih _ _ ha' hp' (hstep fun p k => .inl (by simp [hd]))
      | some q =>
        obtain ⟨p, b⟩ := q
        rw [hl] at hp
        simp only [hp, Option.map_some]
        obtain ⟨before, hd⟩ : ∃ before, done = before ++ [(p, b)] := by
          obtain ⟨l, hl'⟩ := List.getLast?_eq_some_iff.1 hl
          exact ⟨l, hl'⟩
        have hargs : args = before ++ (p, b) :: (s, true) :: rest := by rw [ha, hd]; simp
        by_cases hm : SpaceMatters ops p s
        · rw [if_pos (knownSymbol_iff.2 hm)]
          have hat : SpaceAt ops args before.length p (done.countP (fun a => !a.2)) :=
            ⟨before, b, s, rest, hargs, rfl, hm, by rw [hd]⟩
          refine reports_result fun r => ⟨?_, ?_⟩
          · rintro ⟨pos, p', k, h1, h2, rfl⟩
            have hpos : pos = before.length := by
              rcases Nat.lt_trichotomy pos before.length with h | h | h
              · exact absurd h1 (hno pos p' k (by rw [hd]; simp; omega))
              · exact h
              · exact absurd hat (h2 _ h _ _)
            obtain ⟨bf, b', arg, after, h3, h4, -, h6⟩ := h1
            have := List.append_inj (hargs.symm.trans h3) (by omega)
            simp only [List.cons.injEq, Prod.mk.injEq] at this
            obtain ⟨rfl, ⟨rfl, rfl⟩, -⟩ := this
            rw [h6, Nat.add_sub_cancel_left, hd]
          · rintro rfl
            refine ⟨before.length, p, _, hat, ?_, by rw [Nat.add_sub_cancel_left]⟩
            intro pos' h p' k'
            exact hno pos' p' k' (by rw [hd]; simp; omega)
        · rw [if_neg (fun h => hm (knownSymbol_iff.1 h)), ← hcount]
          refine ih _ _ ha' hp' (hstep fun p' k => .inr ?_)
          rintro ⟨bf, b', arg, after, h3, h4, h5, -⟩
          have hlen : before.length = bf.length := by rw [h4, hd]; simp
          have := List.append_inj (hargs.symm.trans h3) hlen
          simp only [List.cons.injEq, Prod.mk.injEq] at this
          obtain ⟨rfl, ⟨rfl, rfl⟩, ⟨rfl, -⟩, -⟩ := this
          exact hm h5
    · have hsp : space = false := by simpa using hsp
      subst hsp
      rw [if_neg (by simp)]
      have hcount : (done ++ [(s, false)]).countP (fun a => !a.2) = done.countP (fun a => !a.2) + 1 := by
        simp [List.countP_append]
      rw [Nat.add_assoc, ← hcount]
      refine ih _ _ ha' hp' (hstep fun p k => ?_)
      by_cases hz : done.length = 0
      · exact .inl (by simp [hz])
      · right
        rintro ⟨bf, b', arg, after, h3, h4, -⟩
        have hlen : done.length = (bf ++ [(p, b')]).length := by simp; omega
        have := List.append_inj (t₁ := (s, false) :: rest) (t₂ := (arg, true) :: after)
          (by rw [← ha, h3]; simp) hlen
        simp at this

/-- C59: W-007 reports a call iff an unquoted space that matters separates two words of its
arguments; it names the first such place by the word before the space and the number of the
argument the word belongs to. -/
theorem C59_unquoted_space (ops : List MapOp) (node : Loc) (d : IfCallData)
    (hn : node.data = .ifCall d) :
    Reports (checkSpaceIfCallArg (tablesAfter ops) node) fun r =>
      ∃ pos p k, SpaceAt ops d.args pos p k ∧
        (∀ pos' < pos, ∀ p' k', ¬ SpaceAt ops d.args pos' p' k') ∧
        r = ⟨'W', 7, cs!"Argument no. " ++ natToStr k ++ cs!" '" ++ p ++
          cs!" ...' of call to interface " ++ d.name ++ cs!" contains unquoted space"⟩ := by
  unfold checkSpaceIfCallArg
  rw [hn]
  exact spaceLoop_spec ops d.name d.args d.args [] none (by simp) (by simp) (by simp)

/-! ## C60: E-006, E-010 -/

/-- C60: E-006 reports a declaration iff its name is that of a known interface. -/
theorem C60_nameclash (ops : List MapOp) (node : Loc) (d : DeclData) (hn : node.data = .decl d) :
    Reports (checkDeclarationInterfaceNameclash (tablesAfter ops) node) fun r =>
      KnownInterface ops d.name ∧
      r = ⟨'E', 6, cs!"Declaration with name " ++ d.name ++ cs!" clashes with same named interface"⟩ := by
  unfold checkDeclarationInterfaceNameclash
  rw [hn]
  apply reports_if
  · intro h; simp only [isSome_lookUpIf.2 h, if_true]; rfl
  · intro h
    have : ¬ ((tablesAfter ops).lookUpIf d.name).isSome = true := fun h' => h (isSome_lookUpIf.1 h')
    simp only
    rw [if_neg this]

theorem isIfelseArgument_eq (l : Loc) : isIfelseArgument (l :: l.ancestors) =
    (l :: l.ancestors).find? fun a =>
      a.flavor == .m4Arg && a.parent?.any (fun p => p.flavor == .ifelse) := by
  generalize hn : l.ups.length = n
  induction n generalizing l with
  | zero =>
    have hp : l.parent? = none := by
      unfold Loc.parent?; rw [List.length_eq_zero_iff.1 hn]
    have ha : l.ancestors = [] := by rw [Loc.ancestors]; split <;> simp_all
    rw [ha]
    simp [isIfelseArgument, hp]
  | succ n ih =>
    cases hp : l.parent? with
    | none =>
      have ha : l.ancestors = [] := by rw [Loc.ancestors]; split <;> simp_all
      rw [ha]
      simp [isIfelseArgument, hp]
    | some p =>
      have ha : l.ancestors = p :: p.ancestors := by
        rw [Loc.ancestors]; split <;> simp_all
      have hpl : p.ups.length = n := by
        unfold Loc.parent? at hp
        split at hp
        · cases hp
        · rename_i heq; cases hp; rw [heq] at hn; simpa using hn
      rw [ha, List.find?_cons, ← ih p hpl, isIfelseArgument, hp]
      simp only [Option.any_some, ← Bool.beq_eq_decide_eq]
      cases (l.flavor == .m4Arg && p.flavor == .ifelse) <;> rfl

theorem isComparisonArgument_iff {l : Loc} : isComparisonArgument l = true ↔ InComparison l := by
  have hq : ∀ a : Loc, (a.flavor == .m4Arg && a.parent?.any (fun p => p.flavor == .ifelse)) = true ↔
      a.flavor = .m4Arg ∧ ∃ i, a.parent? = some i ∧ i.flavor = .ifelse := by
    intro a
    simp only [Bool.and_eq_true, beq_iff_eq, Option.any_eq_true]
  -- the innermost one
  have hfind : ∀ d, isIfelseArgument (l :: l.ancestors) = some d ↔
      (d.flavor = .m4Arg ∧ ∃ i, d.parent? = some i ∧ i.flavor = .ifelse) ∧ (d = l ∨ Encloses d l) ∧
      ∀ a, (a = l ∨ Encloses a l) → Encloses d a → a.flavor = .m4Arg →
        ∀ i, a.parent? = some i → i.flavor ≠ .ifelse := by
    intro d
    rw [isIfelseArgument_eq, List.find?_cons]
    cases hl : (l.flavor == .m4Arg && l.parent?.any (fun p => p.flavor == .ifelse)) with
    | true =>
      have hl' := (hq l).1 hl
      simp only [Option.some.injEq]
      constructor
      · rintro rfl
        refine ⟨hl', .inl rfl, ?_⟩
        rintro a (rfl | ha) hda
        · exact absurd hda encloses_irrefl
        · exact absurd hda (encloses_asymm ha)
      · rintro ⟨-, rfl | h1, h2⟩
        · rfl
        · obtain ⟨h3, i, h4, h5⟩ := hl'
          exact absurd h5 (h2 l (.inl rfl) h1 h3 i h4)
    | false =>
      have hl' : ¬ (l.flavor = .m4Arg ∧ ∃ i, l.parent? = some i ∧ i.flavor = .ifelse) :=
        fun h => by rw [(hq l).2 h] at hl; cases hl
      simp only
      constructor
      · intro h
        obtain ⟨h1, h2, h3⟩ := find_ancestor_iff.1 h
        refine ⟨(hq d).1 h1, .inr h2, ?_⟩
        rintro a (rfl | ha) hda hm i hi hif
        · exact hl' ⟨hm, i, hi, hif⟩
        · rcases h3 a ((hq a).2 ⟨hm, i, hi, hif⟩) ha with rfl | h
          · exact encloses_irrefl hda
          · exact encloses_asymm h hda
      · rintro ⟨h1, h2, h3⟩
        rcases h2 with rfl | h2
        · exact absurd h1 hl'
        · cases hf : l.ancestors.find? fun a =>
              a.flavor == .m4Arg && a.parent?.any (fun p => p.flavor == .ifelse) with
          | none =>
            have := List.find?_eq_none.1 hf d (mem_ancestors_iff.2 h2)
            exact absurd ((hq d).2 h1) this
          | some e =>
            obtain ⟨h4, h5, h6⟩ := find_ancestor_iff.1 hf
            rcases h6 d ((hq d).2 h1) h2 with rfl | h
            · rfl
            · obtain ⟨h7, i, h8, h9⟩ := (hq e).1 h4
              exact absurd h9 (h3 e (.inr h5) h h7 i h8)
  unfold isComparisonArgument InComparison
  have hmod : ∀ n : Nat, ((n % 3 == 1 || n % 3 == 2) = true) ↔ n % 3 ≠ 0 := by
    intro n
    simp only [Bool.or_eq_true, beq_iff_eq]; omega
  have hnext : ∀ a : Loc, a.next?.isSome = true ↔ a.rights ≠ [] := by
    intro a; unfold Loc.next?; split <;> simp_all
  constructor
  · intro h
    cases hf : isIfelseArgument (l :: l.ancestors) with
    | none => rw [hf] at h; cases h
    | some arg =>
      rw [hf] at h
      simp only [Bool.and_eq_true] at h
      obtain ⟨⟨h1, i, h2, h3⟩, h4, h5⟩ := (hfind arg).1 hf
      exact ⟨arg, i, h4, h1, h2, h3, h5, (hnext _).1 h.1, (hmod _).1 h.2⟩
  · rintro ⟨arg, i, h4, h1, h2, h3, h5, h6, h7⟩
    have hf := (hfind arg).2 ⟨⟨h1, i, h2, h3⟩, h4, h5⟩
    rw [hf]
    simp only [Bool.and_eq_true]
    exact ⟨(hnext _).2 h6, (hmod _).2 h7⟩

/-- C60: E-010 reports a stray word iff it is not configured as a macro and does not stand
in an argument of `ifelse` that is compared with another. -/
theorem C60_stray_word (data : CheckData) (node : Loc) (f : PlainFlavor) (name : Str)
    (hn : node.data = .plain f (some name)) :
    Reports (checkStrayWord data node) fun r =>
      (name ∉ data.config.customTeSimpleMacros ∧ ¬ InComparison node) ∧
      r = ⟨'E', 10, cs!"Found stray word " ++ name ++ cs!". If it is a simple m4 macro please add an selint-disable comment or ignore in the SELint configuration file."⟩ := by
  unfold checkStrayWord
  rw [hn]
  apply reports_if
  · rintro ⟨h1, h2⟩
    simp only
    rw [if_neg (fun h => h1 (strInSl_iff.1 h)), if_neg (fun h => h2 (isComparisonArgument_iff.1 h))]
    rfl
  · intro h
    simp only
    by_cases h1 : name ∈ data.config.customTeSimpleMacros
    · rw [if_pos (strInSl_iff.2 h1)]
    · rw [if_neg (fun h => h1 (strInSl_iff.1 h)), if_pos]
      rw [isComparisonArgument_iff]
      exact Classical.byContradiction fun h2 => h ⟨h1, h2⟩

/-! ## C61: C-004, S-004, S-005, S-008 -/

/-- C61: C-004 reports a definition iff the node before it is no comment. -/
theorem C61_comment (node : Loc) (f : PlainFlavor) (name : Str)
    (hn : node.data = .plain f (some name)) (hd : Definition node) :
    Reports (checkInterfaceDefinitionsHaveComment node) fun r =>
      (¬ ∃ p, node.prev? = some p ∧ p.flavor = .comment) ∧
      r = ⟨'C', 4, cs!"No comment before interface definition for " ++ name⟩ := by
  unfold checkInterfaceDefinitionsHaveComment
  rw [if_neg (by simp [isDefinition_iff.2 hd])]
  have hs : dataStr node.info = .ok name := by
    unfold dataStr; rw [show node.info.data = _ from hn]
  simp only [hs, Res.bind_ok]
  cases hp : node.prev? with
  | none => exact reports_result fun r => by simp
  | some p =>
    by_cases hc : p.flavor = .comment
    · simp only [hc, ne_eq, not_true, if_false]
      exact reports_none fun r h => h.1 ⟨p, rfl, hc⟩
    · simp only [hc, ne_eq, not_false_eq_true, if_true]
      exact reports_result fun r => by simp [hc]

theorem isSome_lookUpTemplate {ops : List MapOp} {k : Str} :
    ((tablesAfter ops).lookUpTemplate k).isSome = true ↔ KnownTemplate ops k := by
  rw [C14_templates]
  have : ops.any (·.mentionsTemplate k) = true ↔ KnownTemplate ops k := by
    rw [List.any_eq_true]
    unfold KnownTemplate
    constructor
    · rintro ⟨op, h1, h2⟩
      cases op <;> simp only [MapOp.mentionsTemplate, decide_eq_true_eq, Bool.false_eq_true] at h2 <;> subst h2
      · exact .inl h1
      · exact .inr (.inl ⟨_, _, h1⟩)
      · exact .inr (.inr ⟨_, h1⟩)
    · rintro (h | ⟨_, _, h⟩ | ⟨_, h⟩) <;> exact ⟨_, h, by simp [MapOp.mentionsTemplate]⟩
  rw [← this]
  cases ops.any (·.mentionsTemplate k) <;> simp

/-- C61: S-004 reports a call in an if file iff the innermost definition around it is an
interface and what it calls is a known template. -/
theorem C61_calls_template (ops : List MapOp) (data : CheckData) (node p : Loc) (d : IfCallData)
    (hf : data.flavor = .ifFile) (hn : node.data = .ifCall d) (hp : DefinitionAround p node)
    (hnm : p.flavor = .interfaceDef → ∃ nm, p.data = .plain .interfaceDef (some nm)) :
    Reports (checkIfCallsTemplate (tablesAfter ops) data node) fun r =>
      ∃ nm, p.data = .plain .interfaceDef (some nm) ∧ KnownTemplate ops d.name ∧
        r = ⟨'S', 4, cs!"interface " ++ nm ++ cs!" calls template " ++ d.name⟩ := by
  unfold checkIfCallsTemplate
  rw [if_neg (by simp [hf]), find_definition_iff.2 hp]
  simp only [hn]
  by_cases hi : p.flavor = .interfaceDef
  · obtain ⟨nm, hnm⟩ := hnm hi
    have hs : dataStr p.info = .ok nm := by
      unfold dataStr; rw [show p.info.data = _ from hnm]
    by_cases ht : KnownTemplate ops d.name
    · rw [if_pos (by simp [hi, isSome_lookUpTemplate.2 ht]), hs, Res.bind_ok]
      refine reports_result fun r => ⟨?_, ?_⟩
      · rintro ⟨nm', h1, -, h2⟩
        rw [hnm] at h1; cases h1; exact h2
      · intro h; exact ⟨nm, hnm, ht, h⟩
    · rw [if_neg]
      · exact reports_none fun r ⟨_, _, h, _⟩ => ht h
      · simp only [Bool.and_eq_true, not_and]
        exact fun _ h => ht (isSome_lookUpTemplate.1 h)
  · rw [if_neg (by simp [hi])]
    refine reports_none fun r ⟨nm, h, _⟩ => hi ?_
    show p.data.flavor = _
    rw [h]; rfl

/-- C61: no call outside definitions or in other files is reported by S-004. -/
theorem C61_calls_template_outside (m : Maps) (data : CheckData) (node : Loc)
    (h : data.flavor ≠ .ifFile ∨ ∀ p, ¬ DefinitionAround p node) :
    checkIfCallsTemplate m data node = .ok none := by
  unfold checkIfCallsTemplate
  rcases h with h | h
  · rw [if_pos h]; rfl
  · split
    · rfl
    · cases hf : node.ancestors.find? (fun p => isDefinition p.info) with
      | none => rfl
      | some p => exact absurd (find_definition_iff.1 hf) (h p)

theorem declInIfLoop_eq (ls : List Loc) : declInIfLoop ls =
    (ls.find? fun p => isDefinition p.info || isRequireBlock p.info).any (fun p => p.flavor == .interfaceDef) := by
  induction ls with
  | nil => rfl
  | cons p ps ih =>
    rw [declInIfLoop, List.find?_cons]
    cases h1 : isDefinition p.info with
    | true => simp
    | false =>
      cases h2 : isRequireBlock p.info with
      | true =>
        simp only [Bool.false_eq_true, if_false, if_true, Bool.or_true, Option.any_some]
        have := isRequireBlock_iff.1 h2
        rcases this with h | h <;> simp [h]
      | false => simpa using ih

theorem declInIfLoop_iff {l : Loc} : declInIfLoop l.ancestors = true ↔ DirectlyInInterface l := by
  rw [declInIfLoop_eq]
  have hq : ∀ b : Loc, (isDefinition b.info || isRequireBlock b.info) = true ↔ Definition b ∨ RequireBlock b := by
    intro b; rw [Bool.or_eq_true, isDefinition_iff, isRequireBlock_iff]
  simp only [Option.any_eq_true, beq_iff_eq, find_ancestor_iff, hq]
  unfold DirectlyInInterface
  constructor
  · rintro ⟨d, ⟨h1, h2, h3⟩, h4⟩; exact ⟨d, h4, h2, h3⟩
  · rintro ⟨d, h4, h2, h3⟩; exact ⟨d, ⟨.inl (.inl h4), h2, h3⟩, h4⟩

/-- C61: S-005 reports a declaration in an if file iff of the definitions and require blocks
around it the innermost is the definition of an interface. -/
theorem C61_declaration (data : CheckData) (node : Loc) (d : DeclData) (hn : node.data = .decl d) :
    Reports (checkDeclInIf data node) fun r =>
      (data.flavor = .ifFile ∧ DirectlyInInterface node) ∧
      r = ⟨'S', 5, cs!"Declaration of " ++ d.name ++ cs!" in interface"⟩ := by
  unfold checkDeclInIf
  apply reports_if
  · rintro ⟨h1, h2⟩
    rw [if_neg (by simp [h1]), if_neg (by simp [declInIfLoop_iff.2 h2]), hn]
    rfl
  · intro h
    split
    · rfl
    · rename_i hf
      rw [if_pos]
      rw [Bool.not_eq_true', ← Bool.not_eq_true, declInIfLoop_iff]
      exact fun h2 => h ⟨Classical.not_not.1 hf, h2⟩

/-- C61: S-008 reports a `gen_require` block iff its argument is not quoted. -/
theorem C61_unquoted (node : Loc) (u : Bool) (hn : node.data = .genReq u) :
    Reports (checkUnquotedGenRequireBlock node) fun r =>
      u = true ∧ r = ⟨'S', 8, cs!"Gen require block unquoted"⟩ := by
  unfold checkUnquotedGenRequireBlock
  rw [hn]
  apply reports_if
  · intro h; simp only [h, if_true]; rfl
  · intro h; simp only [h]; rfl

/-! ## C62: W-011 -/

theorem isInRequire_iff {l : Loc} : l.isInRequire = true ↔ ∃ r, RequireBlock r ∧ Encloses r l := by
  unfold Loc.isInRequire
  rw [← Loc.any_ancestors l (fun i => i.flavor == .genReq || i.flavor == .require), List.any_eq_true]
  constructor
  · rintro ⟨r, h1, h2⟩
    refine ⟨r, ?_, mem_ancestors_iff.1 h1⟩
    simp only [Bool.or_eq_true, beq_iff_eq] at h2
    exact h2.symm
  · rintro ⟨r, h1, h2⟩
    refine ⟨r, mem_ancestors_iff.2 h2, ?_⟩
    simp only [Bool.or_eq_true, beq_iff_eq]
    exact h1.symm

/-- C62: W-011 reports a required declaration in an if file iff it is not declared, or declared
first in another module (roles: other than `kernel`). -/
theorem C62_own (ops : List MapOp) (data : CheckData) (node : Loc) (d : DeclData)
    (hf : data.flavor = .ifFile) (hn : node.data = .decl d) :
    Reports (checkRequiredDeclarationOwn (tablesAfter ops) data node) fun r =>
      OwnershipChecked node d ∧ ¬ OwnSymbol ops data.modName d ∧
      ((¬ DeclaredIn ops d.flavor d.name ∧
        r = ⟨'W', 11, cs!"Definition of declared " ++ declFlavorToString d.flavor ++ cs!" " ++
          d.name ++ cs!" not found in any module"⟩) ∨
       ∃ mod, FirstDeclaredBy ops d.flavor d.name mod ∧
        r = ⟨'W', 11, cs!"Definition of declared " ++ declFlavorToString d.flavor ++ cs!" " ++
          d.name ++ cs!" not found in own module, but in module " ++ mod⟩) := by
  unfold checkRequiredDeclarationOwn OwnershipChecked OwnSymbol
  rw [if_neg (by simp [hf]), hn]
  simp only
  by_cases hc : d.flavor = .cls ∨ d.flavor = .perm ∨ d.flavor = .user
  · rw [if_pos (by simpa [or_assoc] using hc)]
    refine reports_none fun r h => ?_
    obtain ⟨⟨h1, h2, h3, -⟩, -⟩ := h
    rcases hc with h | h | h
    · exact h1 h
    · exact h2 h
    · exact h3 h
  · rw [if_neg (by simpa [or_assoc] using hc)]
    have hc' : d.flavor ≠ .cls ∧ d.flavor ≠ .perm ∧ d.flavor ≠ .user :=
      ⟨fun h => hc (.inl h), fun h => hc (.inr (.inl h)), fun h => hc (.inr (.inr h))⟩
    by_cases hd : d.name.head? = some '$'
    · rw [if_pos hd]
      exact reports_none fun r h => h.1.2.2.2.1 (head_eq_some.1 hd)
    · rw [if_neg hd]
      have hd' := fun h => hd (head_eq_some.2 h)
      by_cases hr : ∃ r, RequireBlock r ∧ Encloses r node
      · rw [if_neg (by simp [isInRequire_iff.2 hr])]
        cases hl : (tablesAfter ops).lookUpDecl d.name d.flavor with
        | none =>
          have hno := (lookUpDecl_none_iff ops d.name d.flavor).1 hl
          have hno' : ∀ md, ¬ FirstDeclaredBy ops d.flavor d.name md := by
            rintro md h
            have := (lookUpDecl_some_iff ops d.name md d.flavor).2 h
            rw [hl] at this; cases this
          refine reports_result fun r => ⟨?_, ?_⟩
          · rintro ⟨-, -, ⟨-, h⟩ | ⟨md, h, -⟩⟩
            · exact h
            · exact absurd h (hno' md)
          · intro h
            exact ⟨⟨hc'.1, hc'.2.1, hc'.2.2, hd', hr⟩,
              fun h => h.elim (hno' _) (fun h => hno' _ h.2), .inl ⟨hno, h⟩⟩
        | some md =>
          have hfd := (lookUpDecl_some_iff ops d.name md d.flavor).1 hl
          have huniq : ∀ md', FirstDeclaredBy ops d.flavor d.name md' ↔ md' = md := by
            intro md'
            rw [← lookUpDecl_some_iff, hl, Option.some.injEq, eq_comm]
          simp only [strcmp_eq_zero]
          simp only [huniq]
          by_cases ho : md = data.modName
          · rw [if_pos ho]
            exact reports_none fun r h => h.2.1 (.inl ho.symm)
          · rw [if_neg ho]
            by_cases hk : d.flavor = .role ∧ md = cs!"kernel"
            · rw [if_pos (by simpa using hk)]
              exact reports_none fun r h => h.2.1 (.inr ⟨hk.1, hk.2.symm⟩)
            · rw [if_neg (by simpa using hk)]
              have hdecl : DeclaredIn ops d.flavor d.name := by
                rw [← isSome_lookUpDecl, hl]; rfl
              refine reports_result fun r => ⟨?_, ?_⟩
              · rintro ⟨-, -, ⟨h, -⟩ | ⟨md', rfl, h⟩⟩
                · exact absurd hdecl h
                · exact h
              · intro h
                exact ⟨⟨hc'.1, hc'.2.1, hc'.2.2, hd', hr⟩,
                  fun h => h.elim (fun h => ho h.symm) (fun h => hk ⟨h.1, h.2.symm⟩), .inr ⟨md, rfl, h⟩⟩
      · rw [if_pos]
        · exact reports_none fun r h => hr h.1.2.2.2.2
        · rw [Bool.not_eq_true', ← Bool.not_eq_true, isInRequire_iff]; exact hr

/-- C62: W-011 reports nothing in other files. -/
theorem C62_other_files (m : Maps) (data : CheckData) (node : Loc) (h : data.flavor ≠ .ifFile) :
    checkRequiredDeclarationOwn m data node = .ok none := by
  unfold checkRequiredDeclarationOwn; rw [if_pos h]; rfl

/-! ## Cases -/

example : (teAllow []).sources ≠ [] ∧ (teAllow []).targets ≠ [] ∧
    checkNoSelf (tablesAfter teOps) (teLoc (.av ⟨.allow, [cs!"a_t"], [cs!"a_t"], [cs!"file"], []⟩)) =
      .ok (some ⟨'C', 7, cs!"Recommend use of self keyword instead of redundant type"⟩) ∧
    checkNoSelf (tablesAfter teOps) (teLoc (.av ⟨.allow, [cs!"$1"], [cs!"$1"], [cs!"file"], []⟩)) =
      .ok none := by decide +kernel

example : checkRequireBlock teData (genRequireOf [cs!"b_t"]) =
    .ok (some ⟨'S', 1, cs!"Require block used in te file (use an interface call instead)"⟩) := by
  decide +kernel

example : checkModuleFileNameMismatch teData (teLoc (.header ⟨.macro, cs!"b"⟩)) =
      .ok (some ⟨'W', 9, cs!"Module name b does not match file name a.te"⟩) ∧
    checkModuleFileNameMismatch teData (teLoc (.header ⟨.macro, cs!"a"⟩)) = .ok none := by
  decide +kernel

example : Stem cs!"a.b.te" cs!"a.b" := .inl ⟨cs!"te", rfl, by decide⟩

example : checkPermMacroClassMismatch (teLoc (.av ⟨.allow, [cs!"a_t"], [cs!"b_t"], [cs!"file"],
      [cs!"read", cs!"read_file_perms", cs!"read_lnk_file_perms", cs!"read_dir_perms"]⟩)) =
      .ok (some ⟨'S', 9, cs!"Permission macro read_lnk_file_perms does not match class file"⟩) ∧
    checkPermMacroClassMismatch (teLoc (.av ⟨.allow, [cs!"a_t"], [cs!"b_t"], [cs!"chr_file"],
      [cs!"rw_inherited_term_perms"]⟩)) = .ok none := by decide +kernel

example : OneClass (teAllow [cs!"read"]) cs!"file" := ⟨rfl, rfl, by decide⟩

example : checkSpaceIfCallArg (tablesAfter teOps) (teLoc (.ifCall ⟨cs!"b_read",
      [(cs!"x", false), (cs!"a_t", false), (cs!"b_t", true)]⟩)) =
    .ok (some ⟨'W', 7, cs!"Argument no. 2 'a_t ...' of call to interface b_read contains unquoted space"⟩) := by
  decide +kernel

example : checkDeclarationInterfaceNameclash (tablesAfter teOps) (teLoc (.decl ⟨.type, cs!"b_read", []⟩)) =
    .ok (some ⟨'E', 6, cs!"Declaration with name b_read clashes with same named interface"⟩) := by
  decide +kernel

/-- The word that is argument `k` of three of an `ifelse`, counted from zero. -/
def ifelseWord (k : Nat) : Loc :=
  let arg : Tree := .mk (teNode (.plain .m4Arg none) 1) [.mk (teNode (.plain .m4SimpleMacro (some cs!"w")) 1) []]
  ⟨.mk (teNode (.plain .m4SimpleMacro (some cs!"w")) 1) [], [], [],
    [⟨List.replicate k arg ++ [.mk (teNode (.plain .startBlock none) 1) []], teNode (.plain .m4Arg none) 1,
      List.replicate (2 - k) arg⟩, ⟨[], teNode (.plain .ifelse none) 1, []⟩]⟩

example : (checkStrayWord teData (ifelseWord 0) = .ok none) ∧ (checkStrayWord teData (ifelseWord 1) = .ok none) ∧
    checkStrayWord teData (ifelseWord 2) ≠ .ok none := by decide +kernel

example : ifDef.data = .plain .interfaceDef (some cs!"a_read") ∧ Definition ifDef ∧
    checkInterfaceDefinitionsHaveComment ifDef =
      .ok (some ⟨'C', 4, cs!"No comment before interface definition for a_read"⟩) :=
  ⟨rfl, .inl rfl, by decide +kernel⟩

/-- A call in the place of the rule of the interface. -/
def ifCallLoc : Loc := { ifRule with focus := .mk (teNode (.ifCall ⟨cs!"a_template", []⟩) 6) [] }

example : ∃ p, DefinitionAround p ifCallLoc ∧ p.data = .plain .interfaceDef (some cs!"a_read") ∧
    checkIfCallsTemplate (tablesAfter [.template cs!"a_template"]) ifData ifCallLoc =
      .ok (some ⟨'S', 4, cs!"interface a_read calls template a_template"⟩) :=
  ⟨_, find_definition_iff.1 (by with_unfolding_all rfl), rfl, by decide +kernel⟩

/-- A declaration in the place of the rule of the interface. -/
def ifDeclLoc : Loc := { ifRule with focus := .mk (teNode (.decl ⟨.type, cs!"d_t", []⟩) 6) [] }

example : checkDeclInIf ifData ifDeclLoc = .ok (some ⟨'S', 5, cs!"Declaration of d_t in interface"⟩) ∧
    checkDeclInIf ifData ifDecl = .ok none := by decide +kernel

example : checkRequiredDeclarationOwn (tablesAfter [.decl cs!"c_t" cs!"c" .type]) ifData ifDecl =
    .ok (some ⟨'W', 11, cs!"Definition of declared type c_t not found in own module, but in module c"⟩) := by
  decide +kernel

end Selint
