import Verif.Lemmas.LalrEnds
/-!
# What the tables reduce is on the stack

An item in a state says what is on the stack below it: the part of the production before the
place, and below that a state with the item at the beginning.
-/

namespace Selint
namespace Lr
open Spec

theorem option_any {α : Type} {o : Option α} {f : α → Bool} :
    o.any f = true ↔ ∃ a, o = some a ∧ f a = true := by
  cases o <;> simp

/-- The tokens that occur in the grammar, in the order of their numbers. -/
def termTable : List Term := [
  .kw .alias, .kw .allow, .kw .allowXperm, .kw .attribute, .kw .attributeRole, .kw .auditAllow,
  .kw .auditAllowXperm, .kw .bool, .kw .cls, .kw .common, .kw .define, .kw .dontAudit,
  .kw .dontAuditXperm, .kw .fsUseTask, .kw .fsUseTrans, .kw .fsUseXattr, .kw .genBool,
  .kw .genContext, .kw .genRequire, .kw .genTunable, .kw .genUser, .kw .genfscon, .kw .ifdef,
  .kw .ifelse, .kw .ifndef, .kw .inherits, .kw .interface, .kw .kwElse, .kw .kwIf, .kw .module,
  .kw .netifcon, .kw .neverAllow, .kw .neverAllowXperm, .kw .nodecon, .kw .optionalPolicy,
  .kw .permissive, .kw .policyModule, .kw .portcon, .kw .rangeTransition, .kw .refpolicywarn,
  .kw .require, .kw .role, .kw .roleAttribute, .kw .roleTransition, .kw .sid, .kw .template,
  .kw .tunablePolicy, .kw .type, .kw .typeAttribute, .kw .typeChange, .kw .typeMember,
  .kw .typeTransition, .kw .typealias, .kw .typebounds, .kw .types, .kw .userdebugOrEng, .p .and,
  .p .backtick, .p .closeCurly, .p .closeParen, .p .colon, .p .comma, .p .dash, .p .equal,
  .p .not, .p .notEqual, .p .openCurly, .p .openParen, .p .or, .p .period, .p .semicolon,
  .p .singleQuote, .p .star, .p .tilda, .p .xor, .command, .comment, .fileType, .ipv4, .ipv6,
  .numString, .number, .quoted, .string, .versionNo, .eof]

/-- The nonterminals, in the order of their numbers. -/
def ntTable: List Nt := [
  .arbitraryM4String, .arg, .args, .avClassDefinition, .avCommonDefinition, .avContent,
  .avContents, .avDefinition, .avFile, .avPermission, .avPermissionList, .avPermissions, .avType,
  .bareLine, .body, .boolDeclaration, .booleanBlock, .booleanOpen, .commaStringList, .comment,
  .comments, .condExpr, .condition, .context, .declaration, .define, .defineContent,
  .defineExpansion, .defineName, .endInterface, .fsUse, .genRequireBegin, .genUser, .genfscon,
  .genfsconContext, .header, .headerVersion, .ifFile, .ifKeyword, .ifLine, .ifLines, .ifOrIfn,
  .ifdef, .ifelse, .interfaceCall, .interfaceDef, .line, .lines, .m4Args, .m4Argument, .m4Call,
  .m4SimpleMacro, .m4StringElem, .maybeStringComma, .midDefine, .midFirstArg, .midIfdef,
  .midIfelse, .midNextArg, .midOptionalElse, .midOptionalEnd, .midReqIfdef, .midReqIfdefQuoted,
  .midRequire, .midRequireCommand, .midTunable, .midTunableQuoted, .mlsComponent, .mlsLevel,
  .mlsRange, .netifcon, .nodecon, .optionalBlock, .optionalOpen, .permissive, .portRange,
  .portcon, .rangeTransition, .rawContext, .refpolicywarn, .require, .requireBare, .requireLine,
  .requireLines, .roleAllow, .roleAttribute, .roleTransition, .roleTypes, .rule, .selinuxFile,
  .sid, .slItem, .sptFile, .sptLine, .sptLines, .startInterface, .stringList, .strings,
  .supportDef, .tePolicy, .tunableBlock, .twoIpAddrs, .typeAlias, .typeAttribute,
  .typeDeclaration, .typeTransition, .typebounds, .userdebugOrEng, .xpermAvType, .xpermItem,
  .xpermItems, .xpermList, .xpermRule]

theorem Term.code_table (x : Term) : x.code = 99 ∨ termTable[x.code]? = some x := by
  cases x with
  | kw k => cases k <;> first | exact .inr rfl | exact .inl rfl
  | p k => cases k <;> first | exact .inr rfl | exact .inl rfl
  | _ => first | exact .inr rfl | exact .inl rfl

theorem Nt.code_table (x : Nt) : ntTable[x.code - 100]? = some x := by
  cases x <;> rfl

/-- A symbol of the grammar has a number of its own. -/
theorem Sym.code_inj {x y : Sym} (h : x.code = y.code) (hy : y.code ≠ 99) : x = y := by
  cases x with
  | t x =>
    cases y with
    | t y =>
      have h : x.code = y.code := h
      have hy : y.code ≠ 99 := hy
      have h₁ := x.code_table.resolve_left (by rw [h]; exact hy)
      have h₂ := y.code_table.resolve_left hy
      rw [h, h₂] at h₁
      cases h₁
      rfl
    | n y =>
      have h : x.code = y.code := h
      have := x.code_lt
      have := y.code_ge
      omega
  | n x =>
    cases y with
    | t y =>
      have h : x.code = y.code := h
      have := y.code_lt
      have := x.code_ge
      omega
    | n y =>
      have h : x.code = y.code := h
      have h₁ := x.code_table
      rw [h, y.code_table] at h₁
      cases h₁
      rfl

/-- The symbols to the left of actions in the middle of a production. -/
def befores : List (Nat × List Nat) := [
  (112, [173, 147, 71, 61]), (113, [173, 147, 71, 61, 160, 57]), (120, [40, 66]),
  (122, [40, 66, 75]), (136, [141, 67, 57, 83, 71, 61, 57]), (138, [141, 67, 57, 83, 71, 61]),
  (146, [141, 67, 57, 83, 71, 61]), (150, [23, 67]), (177, [148, 61]), (202, [46, 67, 57]),
  (204, [46, 67]), (222, [10, 67])]

/-- The symbols to the left of a production. -/
def beforeOf (p : Nat) : List Nat := ((befores.find? (·.1 == p)).map (·.2)).getD []

theorem befores_checked : (List.range 283).all (fun p =>
    (rules[p]?).all fun r => decide (r.before.map Sym.code = beforeOf p) &&
      (!r.onlyFirst || p == 0)) = true := by decide +kernel

theorem symbols_known : ∀ r ∈ rules, ∀ s ∈ r.before ++ r.rhs, s.code ≠ 99 := by decide +kernel

/-- What is checked of a way from a state to another. -/
def checkEdge (u : Nat) (x : Nat × Nat) : Bool :=
  (itemsAt x.2).all fun i => i.2.1 == 0 ||
    ((codedRule i.1).any fun r => r.2[i.2.1 - 1]? == some x.1) &&
      (itemsAt u).any fun j => j.1 == i.1 && j.2.1 + 1 == i.2.1

/-- What is checked of a production that begins in a state. -/
def checkBegin (u : Nat) (i : Nat × Nat × Nat) : Bool :=
  i.2.1 != 0 || (
    ((codedRule i.1).all fun r => (lalrGoto u r.1).isSome) &&
    (i.1 != 0 || u == 0) &&
    ((beforeOf i.1).isEmpty || (itemsAt u).any fun j =>
      (codedRule j.1).any fun r => decide ((beforeOf i.1).length ≤ j.2.1) &&
        decide (j.2.1 ≤ r.2.length) &&
        ((r.2.take j.2.1).drop (j.2.1 - (beforeOf i.1).length) == beforeOf i.1)))

/-- What is checked of a state. -/
def checkBelow (u : Nat) (row : LalrRow) : Bool :=
  row.shifts.all (checkEdge u) && row.gotos.all (checkEdge u) && (itemsAt u).all (checkBegin u) &&
  (row.reductions.map (·.2) ++ row.default.toList).all fun p =>
    (codedRule p).all fun r => (itemsAt u).any fun j => j.1 == p && j.2.1 == r.2.length

theorem below_checked : (List.range 24).all (fun i => (List.range 25).all fun j =>
    (lalrRow (25 * i + j)).all (checkBelow (25 * i + j))) = true := by decide +kernel

theorem zero_checked : (itemsAt 0).all (fun i => i.2.1 == 0) = true := by decide +kernel

/-- Every state with items has a row. -/
theorem items_rows : (List.range 24).all (fun i => (List.range 25).all fun j =>
    (itemsAt (25 * i + j)).isEmpty || (lalrRow (25 * i + j)).isSome) = true ∧
    lalrItems.length = 24 := by decide +kernel

theorem row_below {s : Nat} {row : LalrRow} (h : lalrRow s = some row) :
    checkBelow s row = true := by
  obtain ⟨i, hi, -, hii⟩ := row_place h
  have := List.all_eq_true.1 (List.all_eq_true.1 below_checked i (List.mem_range.2 hi)) (s % 25)
    (List.mem_range.2 (Nat.mod_lt _ (by omega)))
  have e : 25 * i + s % 25 = s := by omega
  rw [e, h] at this
  exact this

theorem item_row {s : Nat} {i : Nat × Nat × Nat} (h : i ∈ itemsAt s) : ∃ row, lalrRow s = some row := by
  have hlt : s / 25 < 24 := by
    rw [← items_rows.2]
    simp only [itemsAt] at h
    cases hl : lalrItems[s / 25]? with
    | none => rw [hl] at h; cases h
    | some x => exact (List.getElem?_eq_some_iff.1 hl).1
  have := List.all_eq_true.1 (List.all_eq_true.1 items_rows.1 (s / 25) (List.mem_range.2 hlt))
    (s % 25) (List.mem_range.2 (Nat.mod_lt _ (by omega)))
  have e : 25 * (s / 25) + s % 25 = s := by omega
  rw [e] at this
  cases hr : lalrRow s with
  | some row => exact ⟨row, rfl⟩
  | none =>
    rw [hr] at this
    simp only [Option.isSome_none, Bool.or_false, List.isEmpty_iff] at this
    rw [this] at h
    cases h

/-- What an item says of the way to its state. -/
theorem edge_of {u s x p d l : Nat} (hx : (∃ x', lalrAction u x = some x' ∧ x' = .shift s) ∨
      lalrGoto u x = some s) (h : (p, d + 1, l) ∈ itemsAt s) :
    (∃ r, codedRule p = some r ∧ r.2[d]? = some x) ∧ ∃ l', (p, d, l') ∈ itemsAt u := by
  have key : checkEdge u (x, s) = true := by
    rcases hx with ⟨_, ha, rfl⟩ | hg
    · simp only [lalrAction] at ha
      split at ha
      · cases ha
      · simp only [Option.bind_eq_some_iff] at ha
        obtain ⟨row, hrow, ha⟩ := ha
        split at ha
        · rename_i y hy
          cases ha
          have hc := row_below hrow
          simp only [checkBelow, Bool.and_eq_true] at hc
          have := List.all_eq_true.1 hc.1.1.1 y (List.mem_of_find?_eq_some hy)
          have hyx : y.1 = x := by simpa using List.find?_some hy
          rw [← hyx]
          exact this
        · split at ha
          · cases ha
          · simp only [Option.map_eq_some_iff] at ha
            obtain ⟨q, hq, ha⟩ := ha
            cases ha
    · simp only [lalrGoto, Option.bind_eq_some_iff, Option.map_eq_some_iff] at hg
      obtain ⟨row, hrow, y, hy, rfl⟩ := hg
      have hc := row_below hrow
      simp only [checkBelow, Bool.and_eq_true] at hc
      have := List.all_eq_true.1 hc.1.1.2 y (List.mem_of_find?_eq_some hy)
      have hyx : y.1 = x := by simpa using List.find?_some hy
      rw [← hyx]
      exact this
  have := List.all_eq_true.1 key _ h
  simp only [Bool.or_eq_true, beq_iff_eq, Nat.add_one_ne_zero, false_or, Bool.and_eq_true,
    option_any, Nat.add_sub_cancel, List.any_eq_true] at this
  obtain ⟨⟨r, hr, hrx⟩, ⟨p', d', l'⟩, hm, rfl, hd⟩ := this
  have hd : d' = d := Nat.add_right_cancel hd
  subst hd
  exact ⟨⟨r, hr, hrx⟩, l', hm⟩

/-- The part of a production before the place of an item is on the stack. -/
theorem Linked.walk {p : Nat} {r : Nat × List Nat} (hr : codedRule p = some r) :
    ∀ {d l : Nat} {stk : List (Nat × Sym)}, Linked stk → (p, d, l) ∈ itemsAt (topState stk) →
    ∃ ps rest, stk = ps ++ rest ∧ ps.map (fun x => x.2.code) = (r.2.take d).reverse ∧
      ps.length = d ∧ Linked rest ∧ ∃ l', (p, 0, l') ∈ itemsAt (topState rest)
  | 0, l, stk, hk, h => ⟨[], stk, rfl, by simp, rfl, hk, l, h⟩
  | d + 1, l, stk, hk, h => by
    have key : ∀ {s : Nat} {x : Sym} {stk' : List (Nat × Sym)}, Linked stk' →
        ((∃ x', lalrAction (topState stk') x.code = some x' ∧ x' = .shift s) ∨
          lalrGoto (topState stk') x.code = some s) → (p, d + 1, l) ∈ itemsAt s →
        ∃ ps rest, (s, x) :: stk' = ps ++ rest ∧
          ps.map (fun x => x.2.code) = (r.2.take (d + 1)).reverse ∧ ps.length = d + 1 ∧
          Linked rest ∧ ∃ l', (p, 0, l') ∈ itemsAt (topState rest) := by
      intro s x stk' hk' hx hi
      obtain ⟨⟨r', hr', hrx⟩, l', hl'⟩ := edge_of hx hi
      rw [hr] at hr'
      cases hr'
      obtain ⟨ps, rest, rfl, hps, hlen, hrest, hl⟩ := Linked.walk hr hk' hl'
      refine ⟨(s, x) :: ps, rest, rfl, ?_, by simp [hlen], hrest, hl⟩
      rw [List.take_add_one, hrx]
      simp [hps]
    cases hk with
    | nil =>
      have := List.all_eq_true.1 zero_checked _ h
      simp at this
    | tok hk' ha => exact key hk' (.inl ⟨_, ha, rfl⟩) h
    | nt hk' hg => exact key hk' (.inr hg) h

/-- What is to be reduced is on the stack, and the state below knows what follows. -/
theorem Linked.fits {stk : List (Nat × Sym)} {a p : Nat} {r : Rule} {c : Config} (hk : Linked stk)
    (hc : c.stack.map Entry.sym = stk.map (·.2))
    (ha : lalrAction (topState stk) a = some (.reduce p)) (hr : rules[p]? = some r) :
    c.fits r = true ∧ r.rhs.length ≤ stk.length ∧
      ∃ s', lalrGoto (topState (stk.drop r.rhs.length)) r.lhs.code = some s' := by
  obtain ⟨row, hrow, hp⟩ := action_reduce ha
  have hb := row_below hrow
  simp only [checkBelow, Bool.and_eq_true] at hb
  have h₁ := List.all_eq_true.1 hb.2 p hp
  have hcr := codedRule_eq hr
  rw [hcr] at h₁
  simp only [Option.all_some, List.any_eq_true, Bool.and_eq_true, beq_iff_eq,
    List.length_map] at h₁
  obtain ⟨⟨p', d, l⟩, hm, rfl, hd⟩ := h₁
  have hd : d = r.rhs.length := hd
  subst hd
  obtain ⟨ps, rest, rfl, hps, hlen, hrest, l', hl'⟩ := hk.walk hcr hm
  have hrm : r ∈ rules := List.mem_of_getElem? hr
  have hdrop : (ps ++ rest).drop r.rhs.length = rest := List.drop_left' hlen
  rw [List.take_of_length_le (by simp), ← List.map_reverse] at hps
  -- the state below
  obtain ⟨row', hrow'⟩ := item_row hl'
  have hb' := row_below hrow'
  simp only [checkBelow, Bool.and_eq_true] at hb'
  have hbeg := List.all_eq_true.1 hb'.1.2 _ hl'
  simp only [checkBegin, hcr, Option.all_some, bne_self_eq_false, Bool.false_or, Bool.and_eq_true,
    Option.isSome_iff_exists, Bool.or_eq_true, bne_iff_ne, beq_iff_eq, List.isEmpty_iff] at hbeg
  obtain ⟨⟨hg, hz⟩, hbef⟩ := hbeg
  have hbc := List.all_eq_true.1 befores_checked p' (List.mem_range.2 (rule_index hr))
  rw [hr] at hbc
  simp only [Option.all_some, Bool.and_eq_true, decide_eq_true_eq, Bool.or_eq_true,
    Bool.not_eq_true', beq_iff_eq] at hbc
  refine ⟨?_, by simp; omega, by rw [hdrop]; exact hg⟩
  -- the symbols to the left
  have hleft : ∃ qs rest', rest = qs ++ rest' ∧
      qs.map (fun x => x.2.code) = (r.before.map Sym.code).reverse := by
    rw [hbc.1]
    rcases hbef with hbef | hbef
    · exact ⟨[], rest, rfl, by simp [hbef]⟩
    · simp only [List.any_eq_true, option_any, Bool.and_eq_true, decide_eq_true_eq,
        beq_iff_eq] at hbef
      obtain ⟨⟨q, d, l''⟩, hq, rq, hrq, ⟨hle, hle'⟩, heq⟩ := hbef
      obtain ⟨qs, rest', rfl, hqs, hql, -, -⟩ := hrest.walk hrq hq
      refine ⟨qs.take (beforeOf p').length, qs.drop (beforeOf p').length ++ rest', ?_, ?_⟩
      · rw [← List.append_assoc, List.take_append_drop]
      · rw [List.map_take, hqs, List.take_reverse, List.length_take, Nat.min_eq_left hle', heq]
  obtain ⟨qs, rest', rfl, hqs⟩ := hleft
  have hsyms : ∀ {xs : List (Nat × Sym)} {ys : List Sym}, (∀ s ∈ ys, s.code ≠ 99) →
      xs.map (fun x => x.2.code) = ys.map Sym.code → xs.map (·.2) = ys := by
    intro xs
    induction xs with
    | nil =>
      intro ys _ h
      cases ys with
      | nil => rfl
      | cons y ys => cases h
    | cons x xs ih =>
      intro ys hys h
      cases ys with
      | nil => cases h
      | cons y ys =>
        simp only [List.map_cons, List.cons.injEq] at h ⊢
        exact ⟨Sym.code_inj h.1 (hys y (List.mem_cons_self ..)),
          ih (fun s hs => hys s (List.mem_cons_of_mem _ hs)) h.2⟩
  have hknown := symbols_known r hrm
  have e₁ : ps.map (·.2) = r.rhs.reverse := hsyms
    (fun s hs => hknown s (List.mem_append.2 (.inr (List.mem_reverse.1 hs)))) hps
  have e₂ : qs.map (·.2) = r.before.reverse := hsyms
    (fun s hs => hknown s (List.mem_append.2 (.inl (List.mem_reverse.1 hs))))
    (by rw [hqs, List.map_reverse])
  have hfirst : r.onlyFirst = true → c.stack = [] := by
    intro ho
    have hp0 : p' = 0 := by
      rcases hbc.2 with h | h
      · rw [ho] at h; cases h
      · exact h
    have hz : topState (qs ++ rest') = 0 := by
      rcases hz with h | h
      · exact absurd hp0 h
      · exact h
    have hnil := hrest.first hz
    have hrhs := rules_first r hrm ho
    rw [hnil] at hc
    rw [hrhs] at hlen
    have := List.length_eq_zero_iff.1 hlen
    subst this
    simpa using hc
  simp only [Config.fits, Bool.and_eq_true, decide_eq_true_eq, Bool.or_eq_true, Bool.not_eq_true',
    List.isEmpty_iff]
  refine ⟨⟨hrm, ?_⟩, ?_⟩
  · rw [List.map_reverse, List.map_take, hc, List.map_append, List.map_append, e₁, e₂,
      ← List.append_assoc, List.take_left' (by simp; omega)]
    simp
  · cases ho : r.onlyFirst with
    | false => exact .inl rfl
    | true => exact .inr (hfirst ho)

theorem reductions_checked : (List.range 24).all (fun i => (List.range 25).all fun j =>
    (lalrRow (25 * i + j)).all fun row =>
      (row.reductions.map (·.2) ++ row.default.toList).all (· < 283)) = true := by decide +kernel

/-- The tables name productions. -/
theorem action_rule {s a p : Nat} (h : lalrAction s a = some (.reduce p)) :
    ∃ r, rules[p]? = some r := by
  obtain ⟨row, hrow, hp⟩ := action_reduce h
  obtain ⟨i, hi, -, hii⟩ := row_place hrow
  have := List.all_eq_true.1 (List.all_eq_true.1 reductions_checked i (List.mem_range.2 hi)) (s % 25)
    (List.mem_range.2 (Nat.mod_lt _ (by omega)))
  have e : 25 * i + s % 25 = s := by omega
  rw [e, hrow] at this
  have := List.all_eq_true.1 this p hp
  rw [decide_eq_true_eq, ← rules_length] at this
  exact ⟨_, List.getElem?_eq_getElem this⟩

/-- What `yyparse` does is what the tables say: it reads, shifts or reduces, and it stops only at the
end, because the tables have nothing to do, or because an action says so. -/
theorem Follows.rejects {l₀ : Lined} {ts : Located} {d : Drive} (h : Follows l₀ ts d)
    (hs : d.step = .ok .reject) :
    (∃ e s rest, d.l.c.look = some e ∧ d.states = s :: rest ∧ lalrAction s e.sym.code = none) ∨
    ∃ r l, d.l.step (.reduce r) = some (.ok (.error l)) := by
  simp only [Drive.step] at hs
  split at hs
  · rename_i hlook
    have key : ∀ {n t states rest}, d.make (.read n t) states rest ≠ .ok .reject := by
      intro n t states rest hm
      simp only [Drive.make, Lined.step, Config.step, hlook] at hm
      cases hm
    split at hs
    · exact absurd hs key
    · exact absurd hs key
  · rename_i e hlook
    obtain ⟨stk, hk, hss, he⟩ := h.stack
    split at hs
    · rename_i hst
      rw [hss] at hst
      simp at hst
    · rename_i s rest hst
      have htop : topState stk = s := by
        rw [hss] at hst
        cases stk with
        | nil => exact (List.cons.inj hst).1
        | cons x stk => exact (List.cons.inj hst).1
      split at hs
      · rename_i ha
        exact .inl ⟨e, s, rest, hlook, hst, ha⟩
      · cases hs
      · simp only [Drive.make, Lined.step, Config.step, hlook] at hs
        cases hs
      · rename_i p ha
        obtain ⟨r, hr⟩ := action_rule ha
        rw [← htop] at ha
        obtain ⟨hfit, hlen, s', hg⟩ := hk.fits he ha hr
        rw [hr] at hs
        simp only [Drive.reduceBy] at hs
        have hds : d.states.drop r.rhs.length =
            topState (stk.drop r.rhs.length) :: (stk.map Prod.fst ++ [0]).drop (r.rhs.length + 1) := by
          rw [hss, ← List.drop_drop, List.drop_append_of_le_length (by simpa using hlen),
            ← List.map_drop]
          cases stk.drop r.rhs.length <;> rfl
        rw [hds] at hs
        simp only [hg] at hs
        refine .inr ⟨r, ?_⟩
        simp only [Drive.make] at hs
        split at hs
        · rename_i hnone
          simp only [Lined.step, Config.step, hfit, if_true] at hnone
          split at hnone
          · rename_i hc
            cases hc
          all_goals cases hnone
        · cases hs
        · cases hs
        · rename_i l hl
          exact ⟨l, hl⟩

end Lr
end Selint
