import Verif.Props.PlaceChecks
import Verif.Lemmas.NulFree
import Verif.Spec.Catalogue
/-! # C79: the catalogue of the checks is what the checks do -/

namespace Selint
open Spec

/-! ## One place -/

/-- At this place the check complains exactly about what the catalogue lists under its number; if that is
more than one thing, about one of them. -/
def Spec.Agrees (fn : CheckFn) (sev : Char) (num : Nat) (m : Maps) (data : CheckData) (l : Loc) : Prop :=
  (∀ res, res.severity = sev → Finds fn m data l res → Complaint m data l res ∧ res.checkId = num) ∧
  ((∃ res, Complaint m data l res ∧ res.severity = sev ∧ res.checkId = num) →
    ∃ res, res.severity = sev ∧ res.checkId = num ∧ Finds fn m data l res)

section
variable {fn : CheckFn} {sev : Char} {num : Nat} {m : Maps} {data : CheckData} {l : Loc}

theorem finds_out {out : CheckOut} (hrun : ∀ s, fn.run m data l s = stateless s out) (res : CheckResult) :
    Finds fn m data l res ↔ out = .ok (some res) := by
  unfold Finds
  simp only [hrun, stateless]
  cases out with
  | ub => simp
  | ok o => simp

theorem agrees_one {out : CheckOut} {P : CheckResult → Prop} (hrun : ∀ s, fn.run m data l s = stateless s out)
    (hr : ReportsOne out P) (h1 : ∀ res, P res → Complaint m data l res ∧ res.severity = sev ∧ res.checkId = num)
    (h2 : ∀ res, Complaint m data l res → res.severity = sev → res.checkId = num → P res) : Agrees fn sev num m data l := by
  obtain ⟨o, ho, hn, hs⟩ := hr
  have key : ∀ res, Finds fn m data l res ↔ o = some res := fun res => by
    rw [finds_out hrun, ho]; simp
  refine ⟨fun res _ hf => ?_, ?_⟩
  · obtain ⟨a, -, b⟩ := h1 res (hs res ((key res).1 hf))
    exact ⟨a, b⟩
  · rintro ⟨res, hc, e1, e2⟩
    have hp := h2 res hc e1 e2
    cases o with
    | none => exact absurd hp (hn.1 rfl res)
    | some r =>
      obtain ⟨-, b, d⟩ := h1 r (hs r rfl)
      exact ⟨r, b, d, (key r).2 rfl⟩

theorem agrees_reports {out : CheckOut} {P : CheckResult → Prop} (hrun : ∀ s, fn.run m data l s = stateless s out)
    (hr : Reports out P) (h1 : ∀ res, P res → Complaint m data l res ∧ res.severity = sev ∧ res.checkId = num)
    (h2 : ∀ res, Complaint m data l res → res.severity = sev → res.checkId = num → P res) : Agrees fn sev num m data l :=
  agrees_one hrun hr.one h1 h2

theorem agrees_iff {P : CheckResult → Prop} (hf : ∀ res, Finds fn m data l res ↔ P res)
    (h1 : ∀ res, P res → Complaint m data l res ∧ res.severity = sev ∧ res.checkId = num)
    (h2 : ∀ res, Complaint m data l res → res.severity = sev → res.checkId = num → P res) : Agrees fn sev num m data l :=
  ⟨fun res _ h => ⟨(h1 res ((hf res).1 h)).1, (h1 res ((hf res).1 h)).2.2⟩,
    fun ⟨res, h, e1, e2⟩ => ⟨res, e1, e2, (hf res).2 (h2 res h e1 e2)⟩⟩

/-- The check finds nothing and the catalogue lists nothing. -/
theorem agrees_none {out : CheckOut} (hrun : ∀ s, fn.run m data l s = stateless s out) (ho : out = .ok none)
    (h : ∀ res, Complaint m data l res → res.severity = sev → res.checkId = num → False) : Agrees fn sev num m data l :=
  agrees_reports (P := fun _ => False) hrun ⟨none, ho, by simp⟩ (fun _ h => h.elim) h

end

/-- What the tables say, and what was put into them. -/
structure Behind (m : Maps) (ops : List MapOp) : Prop where
  ex : ∃ tr, m = { tablesAfter ops with transform := tr }

namespace Behind
variable {m : Maps} {ops : List MapOp}

theorem decl (h : Behind m ops) (n : Str) (fl : DeclFlavor) : m.lookUpDecl n fl = (tablesAfter ops).lookUpDecl n fl := by
  obtain ⟨tr, rfl⟩ := h.ex; cases fl <;> rfl

theorem iface (h : Behind m ops) (n : Str) : m.lookUpIf n = (tablesAfter ops).lookUpIf n := by
  obtain ⟨tr, rfl⟩ := h.ex; rfl

theorem mod (h : Behind m ops) (n : Str) : m.lookUpMod n = (tablesAfter ops).lookUpMod n := by
  obtain ⟨tr, rfl⟩ := h.ex; rfl

theorem template (h : Behind m ops) (n : Str) : m.lookUpTemplate n = (tablesAfter ops).lookUpTemplate n := by
  obtain ⟨tr, rfl⟩ := h.ex; rfl

theorem declared (h : Behind m ops) (fl : DeclFlavor) (n : Str) : Declared m fl n ↔ DeclaredIn ops fl n := by
  unfold Declared
  rw [h.decl, ← isSome_lookUpDecl, Option.isSome_iff_ne_none]

theorem first (h : Behind m ops) (fl : DeclFlavor) (n md : Str) : m.lookUpDecl n fl = some md ↔ FirstDeclaredBy ops fl n md := by
  rw [h.decl, lookUpDecl_some_iff]

end Behind

/-- Only the entries with this number are left. -/
macro "entries" h:ident hs:ident hn:ident : tactic => `(tactic| (
  cases $h:ident <;> first
    | (exfalso; simp at $hs:ident; done)
    | (exfalso; simp at $hn:ident; done)
    | skip))

section
variable {m : Maps} {data : CheckData} {l : Loc}

theorem LocOk.defined {l : Loc} (h : LocOk l) (hd : Definition l) : ∃ fl nm, l.data = .plain fl (some nm) := by
  have hn := h.node
  unfold NodeOk at hn
  have hd : l.info.data.flavor = .interfaceDef ∨ l.info.data.flavor = .tempDef := hd
  show ∃ fl nm, l.info.data = _
  cases he : l.info.data with
  | plain p s =>
    rw [he] at hn hd
    cases p <;> simp_all [NodeData.flavor, PlainFlavor.toFlavor, Option.ne_none_iff_exists']
  | attr d => rw [he] at hd; simp only [NodeData.flavor] at hd; split at hd <;> simp at hd
  | _ => rw [he] at hd; simp [NodeData.flavor] at hd

theorem cat_C4 (hl : LocOk l) (hon : l.flavor ∈ [NodeFlavor.interfaceDef, .tempDef]) :
    Agrees .interfaceDefinitionsHaveComment 'C' 4 m data l := by
  have hd : Definition l := by simpa [Definition] using hon
  obtain ⟨fl, nm, he⟩ := hl.defined hd
  refine agrees_reports (fun s => rfl) (C61_comment l fl nm he hd) ?_ ?_
  · rintro res ⟨h1, rfl⟩
    exact ⟨.comment hd he h1, rfl, rfl⟩
  · intro res h hs hn
    entries h hs hn
    rename_i h1 h2 h3
    rw [he] at h2; cases h2
    exact ⟨h3, rfl⟩

theorem permsOf_unique {d : NodeData} {k k' : Str} {p p' : List Str} (h : PermsOf d k p) (h' : PermsOf d k' p') : k = k' ∧ p = p' := by
  cases h <;> cases h' <;> exact ⟨rfl, rfl⟩

theorem cat_C5 (hon : l.flavor ∈ [NodeFlavor.avRule, .xavRule, .decl]) : Agrees .unorderedPerms 'C' 5 m data l := by
  have key : (∃ kind perms, PermsOf l.data kind perms) ∨ ∃ d, l.data = .decl d ∧ d.flavor ≠ .cls := by
    simp only [List.mem_cons, List.not_mem_nil, or_false] at hon
    rcases hon with h | h | h
    · obtain ⟨d, e⟩ := data_av h; exact .inl ⟨_, _, by rw [e]; exact .av d⟩
    · obtain ⟨d, o, e⟩ := data_xav h; exact .inl ⟨_, _, by rw [e]; exact .xav d o⟩
    · obtain ⟨d, e⟩ := data_decl h
      by_cases hc : d.flavor = .cls
      · exact .inl ⟨_, _, by rw [e]; exact .cls d hc⟩
      · exact .inr ⟨d, e, hc⟩
  rcases key with ⟨kind, perms, hp⟩ | ⟨d, hd, hc⟩
  · refine agrees_reports (fun s => rfl) (C33_order l kind perms hp) ?_ ?_
    · rintro res ⟨pc, h1, rfl⟩
      exact ⟨.permissions hp h1, rfl, rfl⟩
    · intro res h hs hn
      entries h hs hn
      rename_i h1 h2
      obtain ⟨rfl, rfl⟩ := permsOf_unique hp h1
      exact ⟨_, h2, rfl⟩
  · refine agrees_none (fun s => rfl) (C33_other_declarations l d hd hc) ?_
    intro res h hs hn
    entries h hs hn
    rename_i h1 h2
    rw [hd] at h1
    cases h1
    contradiction

theorem cat_C7 (hon : l.flavor ∈ [NodeFlavor.avRule, .xavRule]) : Agrees .noSelf 'C' 7 m data l := by
  have hf : ∀ res, Finds .noSelf m data l res ↔ _ := fun res =>
    (finds_local (by decide)).trans (finds_self (d := l.data) hon)
  refine agrees_iff hf ?_ ?_
  · rintro res ⟨⟨fl, cls, perms, t, h1, h2, h3⟩, rfl⟩
    refine ⟨?_, rfl, rfl⟩
    rcases h1 with h1 | ⟨op, h1⟩
    · exact .self (.inl h1) rfl rfl h2 h3
    · exact .self (.inr ⟨op, h1⟩) rfl rfl h2 h3
  · intro res h hs hn
    entries h hs hn
    rename_i d t h1 h2 h3 h4 h5
    obtain ⟨fl, src, tgt, cls, perms⟩ := d
    simp only at h2 h3
    subst h2 h3
    exact ⟨⟨fl, cls, perms, t, h1, h4, h5⟩, rfl⟩

theorem cat_S1 (hon : l.flavor ∈ [NodeFlavor.require, .genReq]) : Agrees .requireBlock 'S' 1 m data l := by
  have hr : RequireBlock l := by simpa [RequireBlock] using hon
  refine agrees_reports (fun s => rfl) (C56_require_block data l) ?_ ?_
  · rintro res ⟨⟨h1, h2⟩, rfl⟩
    exact ⟨.requireInTe h1 hr h2, rfl, rfl⟩
  · intro res h hs hn
    entries h hs hn
    rename_i h1 h2 h3
    exact ⟨⟨h1, h3⟩, rfl⟩

theorem cat_S3 (hon : l.flavor ∈ [NodeFlavor.semicolon]) : Agrees .uselessSemicolon 'S' 3 m data l := by
  refine agrees_reports (P := fun r => r = ⟨'S', 3, cs!"Unnecessary semicolon"⟩) (fun s => rfl) ⟨_, rfl, fun r => by simp [eq_comm]⟩ ?_ ?_
  · rintro res rfl
    exact ⟨.semicolon (by simpa using hon), rfl, rfl⟩
  · intro res h hs hn
    entries h hs hn
    rfl

theorem cat_S4 {ops : List MapOp} (hm : Behind m ops) (hl : LocOk l) (hon : l.flavor ∈ [NodeFlavor.ifCall]) : Agrees .ifCallsTemplate 'S' 4 m data l := by
  obtain ⟨d, hd⟩ := data_ifCall (l := l) (by simpa using hon)
  have hrun : checkIfCallsTemplate m data l = checkIfCallsTemplate (tablesAfter ops) data l := by
    obtain ⟨tr, rfl⟩ := hm.ex; rfl
  by_cases hp : data.flavor = .ifFile ∧ ∃ p, DefinitionAround p l
  · obtain ⟨hf, p, hp⟩ := hp
    have hpo : LocOk p := by unfold LocOk; rw [hp.2.1.1]; exact hl
    refine agrees_reports (fun s => congrArg (stateless s) hrun) (C61_calls_template ops _ l p d hf hd hp hpo.named) ?_ ?_
    · rintro res ⟨nm, h1, h2, rfl⟩
      refine ⟨.callsTemplate hf hd hp h1 ?_, rfl, rfl⟩
      rw [hm.template, ← Option.isSome_iff_ne_none, isSome_lookUpTemplate]; exact h2
    · intro res h hs hn
      entries h hs hn
      rename_i d' q nm h1 h2 h3 h4 h5
      rw [hd] at h2; cases h2
      have e : q = p := by
        have h1 := find_definition_iff.2 h3
        rw [find_definition_iff.2 hp] at h1
        cases h1; rfl
      subst e
      refine ⟨nm, h4, ?_, rfl⟩
      rw [hm.template, ← Option.isSome_iff_ne_none, isSome_lookUpTemplate] at h5; exact h5
  · refine agrees_none (fun s => rfl) (C61_calls_template_outside m data l ?_) ?_
    · by_cases hf : data.flavor = .ifFile
      · exact .inr fun p h => hp ⟨hf, p, h⟩
      · exact .inl hf
    · intro res h hs hn
      entries h hs hn
      rename_i h1 h2 h3 h4 h5
      exact hp ⟨h1, _, h3⟩

theorem cat_S5 (hon : l.flavor ∈ [NodeFlavor.decl]) : Agrees .declInIf 'S' 5 m data l := by
  obtain ⟨d, hd⟩ := data_decl (l := l) (by simpa using hon)
  refine agrees_reports (fun s => rfl) (C61_declaration data l d hd) ?_ ?_
  · rintro res ⟨⟨h1, h2⟩, rfl⟩
    exact ⟨.declares h1 hd h2, rfl, rfl⟩
  · intro res h hs hn
    entries h hs hn
    rename_i h1 h2 h3
    rw [hd] at h2; cases h2
    exact ⟨⟨h1, h3⟩, rfl⟩

theorem cat_S6 (hon : l.flavor ∈ [NodeFlavor.header]) : Agrees .bareModuleStatement 'S' 6 m data l := by
  obtain ⟨d, hd⟩ := data_header (l := l) (by simpa using hon)
  refine agrees_reports (fun s => rfl) (C56_bare_module l d hd) ?_ ?_
  · rintro res ⟨h1, rfl⟩
    exact ⟨.bareModule hd h1, rfl, rfl⟩
  · intro res h hs hn
    entries h hs hn
    rename_i h1 h2
    rw [hd] at h1; cases h1
    exact ⟨h2, rfl⟩

theorem cat_S8 (hon : l.flavor ∈ [NodeFlavor.genReq]) : Agrees .unquotedGenRequireBlock 'S' 8 m data l := by
  obtain ⟨u, hd⟩ := data_genReq (l := l) (by simpa using hon)
  refine agrees_reports (fun s => rfl) (C61_unquoted l u hd) ?_ ?_
  · rintro res ⟨rfl, rfl⟩
    exact ⟨.unquoted hd, rfl, rfl⟩
  · intro res h hs hn
    entries h hs hn
    rename_i h1
    rw [hd] at h1; cases h1
    exact ⟨rfl, rfl⟩

theorem cat_S9 (hl : LocOk l) (hon : l.flavor ∈ [NodeFlavor.avRule]) : Agrees .permMacroClassMismatch 'S' 9 m data l := by
  obtain ⟨d, hd⟩ := data_av (l := l) (by simpa using hon)
  have hne : d.objectClasses ≠ [] := by
    have hn := hl.node
    unfold NodeOk at hn
    rw [show l.info.data = _ from hd] at hn
    exact hn.2.2
  obtain ⟨c, cs, hcs⟩ := List.exists_cons_of_ne_nil hne
  refine agrees_reports (fun s => rfl) (C57_macro_mismatch l d c cs hd hcs) ?_ ?_
  · rintro res ⟨h1, perm, h2, rfl⟩
    exact ⟨.macroMismatch hd hcs h1 h2, rfl, rfl⟩
  · intro res h hs hn
    entries h hs hn
    rename_i h1 h2 h3 h4
    rw [hd] at h1; cases h1
    rw [hcs] at h2; cases h2
    exact ⟨h3, _, h4, rfl⟩

theorem cat_W1 {ops : List MapOp} (hm : Behind m ops) (hl : LocOk l) (hon : l.flavor ∈ namingNodes) :
    Agrees .noExplicitDeclaration 'W' 1 m data l := by
  by_cases hf : data.flavor = .teFile
  · have hrun : checkNoExplicitDeclaration m data l = checkNoExplicitDeclaration (tablesAfter ops) data l := by
      unfold checkNoExplicitDeclaration
      have : ∀ ns, explicitLoop m data l ns = explicitLoop (tablesAfter ops) data l ns := by
        intro ns
        induction ns with
        | nil => rfl
        | cons n ns ih => simp only [explicitLoop, explicitFlavor, hm.decl, ih]
      simp only [this]
    have key := C40_explicit ops data l hf fun r hr hb => by
      refine LocOk.require ?_ hb
      unfold LocOk
      rw [hr.1]
      exact hl
    have ht : ∀ name mod fl, TakenFor m name mod fl ↔ ExplicitSymbol ops name mod fl := fun name mod fl => by
      unfold TakenFor ExplicitSymbol
      simp only [hm.first, hm.declared]
    refine agrees_one (fun s => congrArg (stateless s) hrun) key ?_ ?_
    · rintro res ⟨name, mod, h1, ⟨fl, h2, h3, h4⟩, rfl⟩
      exact ⟨.foreign hf hon h1 ((ht _ _ _).2 h2) h3 h4, rfl, rfl⟩
    · intro res h hs hn
      entries h hs hn
      rename_i h1 h2 h3 h4 h5 h6
      exact ⟨_, _, h3, ⟨_, (ht _ _ _).1 h4, h5, h6⟩, rfl⟩
  · refine agrees_none (fun s => rfl) (C40_other_files m data l hf) ?_
    intro res h hs hn
    entries h hs hn
    contradiction

theorem not_definition {l : Loc} (hon : l.flavor ∈ namingNodes) : ¬Definition l := by
  rintro (h | h) <;> rw [h] at hon <;> revert hon <;> decide

theorem cat_W2 {ops : List MapOp} (hm : Behind m ops) (hon : l.flavor ∈ namingNodes) :
    Agrees .nameUsedButNotRequiredInIf 'W' 2 m data l := by
  have hk : ∀ name kind, KindOf ops name kind ↔ KindIn m name kind := by
    intro name kind
    unfold KindOf KindIn
    simp only [hm.declared]
  by_cases hp : data.flavor = .ifFile ∧ ∃ p, DefinitionAround p l
  · obtain ⟨hf, d, hd⟩ := hp
    have hrun : checkNameUsedButNotRequiredInIf m data l = checkNameUsedButNotRequiredInIf (tablesAfter ops) data l := by
      unfold checkNameUsedButNotRequiredInIf
      have : ∀ req ns, notRequiredLoop m req ns = notRequiredLoop (tablesAfter ops) req ns := by
        intro req ns
        induction ns with
        | nil => rfl
        | cons n ns ih => simp only [notRequiredLoop, requiredFlavorName, hm.decl, ih]
      simp only [this]
    refine agrees_one (fun s => congrArg (stateless s) hrun) (C41_required ops data l d hf hd) ?_ ?_
    · rintro res ⟨name, kind, h1, ⟨h2, h3, h4⟩, rfl⟩
      exact ⟨.notRequired hf hon hd h1 h2 ((hk _ _).1 h3) h4, rfl, rfl⟩
    · intro res h hs hn
      entries h hs hn
      rename_i q name kind h1 h2 h3 h4 h5 h6 h7
      have e : q = d := by
        have h1 := find_definition_iff.2 h3
        rw [find_definition_iff.2 hd] at h1
        cases h1; rfl
      subst e
      exact ⟨name, kind, h4, ⟨h5, (hk _ _).2 h6, h7⟩, rfl⟩
  · refine agrees_none (fun s => rfl) (C41_outside m data l ?_) ?_
    · by_cases hf : data.flavor = .ifFile
      · exact .inr ⟨not_definition hon, fun p h => hp ⟨hf, p, h⟩⟩
      · exact .inl hf
    · intro res h hs hn
      entries h hs hn
      rename_i h1 h2 h3 h4 h5 h6 h7
      exact hp ⟨h1, _, h3⟩

theorem cat_W3 (hl : LocOk l) (hon : l.flavor ∈ [NodeFlavor.decl]) : Agrees .nameRequiredButNotUsedInIf 'W' 3 m data l := by
  obtain ⟨dd, hd⟩ := data_decl (l := l) (by simpa using hon)
  by_cases hc : data.flavor = .ifFile ∧ (∃ kind, CheckedKind dd.flavor kind) ∧ ∃ d, DefinitionAround d l ∧ ∃ r, OutermostRequire d r l
  · obtain ⟨hf, ⟨kind, hk⟩, d, h1, r, h2⟩ := hc
    have hpo : LocOk d := by unfold LocOk; rw [h1.2.1.1]; exact hl
    refine agrees_one (fun s => rfl) (C42_used data l d r dd kind hf hd hk h1 h2 hpo.named) ?_ ?_
    · rintro res ⟨h3, w, name, h4, h5, h6, rfl⟩
      exact ⟨.notUsed hf hd hk h1 h2 h3 h4 h5 h6, rfl, rfl⟩
    · intro res h hs hn
      entries h hs hn
      rename_i d' r' dd' kind' w name g1 g2 g3 g4 g5 g6 g7 g8 g9
      have e : d' = d := by
        have h3 := find_definition_iff.2 g4
        rw [find_definition_iff.2 h1] at h3
        cases h3; rfl
      subst e
      rw [hd] at g2; cases g2
      have ek : kind' = kind := by
        unfold CheckedKind at hk g3
        rcases hk with ⟨a, b⟩ | ⟨a, b⟩ | ⟨a, b⟩ | ⟨a, b⟩ <;> rw [a] at g3 <;> simp at g3 <;> rw [b, g3]
      subst ek
      have er : r' = r := by
        rcases h2.2.2.2 r' g5.1 g5.2.1 g5.2.2.1 with e | e
        · exact e
        · rcases g5.2.2.2 r h2.1 h2.2.1 h2.2.2.1 with e' | e'
          · exact e'.symm
          · exact absurd e (encloses_asymm e')
      subst er
      exact ⟨g6, w, name, g7, g8, g9, rfl⟩
  · refine agrees_none (fun s => rfl) (C42_others data l dd hd ?_) ?_
    · by_cases hf : data.flavor = .ifFile
      · by_cases hk : ∃ kind, CheckedKind dd.flavor kind
        · by_cases hq : ∃ d, DefinitionAround d l
          · obtain ⟨d, hq⟩ := hq
            exact .inr (.inr (.inr ⟨d, hq, fun r hr => hc ⟨hf, hk, d, hq, r, hr⟩⟩))
          · exact .inr (.inr (.inl fun d h => hq ⟨d, h⟩))
        · exact .inr (.inl fun kind h => hk ⟨kind, h⟩)
      · exact .inl hf
    · intro res h hs hn
      entries h hs hn
      rename_i h1 h2 h3 h4 h5 h6 h7 h8 h9
      rw [hd] at h2; cases h2
      exact hc ⟨h1, ⟨_, h3⟩, _, h4, _, h5⟩

theorem cat_W5 {ops : List MapOp} (hm : Behind m ops) (hon : l.flavor ∈ [NodeFlavor.ifCall]) :
    Agrees .moduleIfCallInOptional 'W' 5 m data l := by
  obtain ⟨d, hd⟩ := data_ifCall (l := l) (by simpa using hon)
  have hrun : checkModuleIfCallInOptional m data l = checkModuleIfCallInOptional (tablesAfter ops) data l := by
    obtain ⟨tr, rfl⟩ := hm.ex; rfl
  refine agrees_reports (fun s => congrArg (stateless s) hrun) (C43_optional ops data l d hd) ?_ ?_
  · rintro res ⟨mod, status, h1, h2, h3, h4, h5, rfl⟩
    refine ⟨.notOptional hd ?_ h2 ?_ h4 h5, rfl, rfl⟩
    · rw [hm.iface, lookUpIf_some_iff]; exact h1
    · rw [hm.mod, lookUpMod_some_iff]; exact h3
  · intro res h hs hn
    entries h hs hn
    rename_i h1 h2 h3 h4 h5 h6
    rw [hd] at h1; cases h1
    rw [hm.iface, lookUpIf_some_iff] at h2
    rw [hm.mod, lookUpMod_some_iff] at h4
    exact ⟨_, _, h2, h3, h4, h5, h6, rfl⟩

theorem cat_W6 (hon : l.flavor ∈ [NodeFlavor.ifCall]) : Agrees .emptyIfCallArg 'W' 6 m data l := by
  obtain ⟨d, hd⟩ := data_ifCall (l := l) (by simpa using hon)
  refine agrees_reports (fun s => rfl) (C51_empty_call l d hd) ?_ ?_
  · rintro res ⟨h1, rfl⟩
    exact ⟨.noArgument hd h1, rfl, rfl⟩
  · intro res h hs hn
    entries h hs hn
    rename_i h1 h2
    rw [hd] at h1; cases h1
    exact ⟨h2, rfl⟩

theorem cat_W7 {ops : List MapOp} (hm : Behind m ops) (hon : l.flavor ∈ [NodeFlavor.ifCall]) : Agrees .spaceIfCallArg 'W' 7 m data l := by
  obtain ⟨d, hd⟩ := data_ifCall (l := l) (by simpa using hon)
  have hrun : checkSpaceIfCallArg m l = checkSpaceIfCallArg (tablesAfter ops) l := by
    unfold checkSpaceIfCallArg
    have : ∀ call prev i args, spaceLoop m call prev i args = spaceLoop (tablesAfter ops) call prev i args := by
      intro call prev i args
      induction args generalizing prev i with
      | nil => rfl
      | cons a args ih =>
        have hk : ∀ p, knownSymbol m p = knownSymbol (tablesAfter ops) p := fun p => by simp only [knownSymbol, hm.decl]
        unfold spaceLoop
        cases a.2 with
        | false => simp only [Bool.false_eq_true, if_false, ih]
        | true => cases prev <;> simp only [hk, ih]
    simp only [this]
  have he : ∀ pos p k, SpaceFollows m d.args pos p k ↔ SpaceAt ops d.args pos p k := fun pos p k => by
    unfold SpaceFollows SpaceAt SpaceCounts SpaceMatters
    simp only [hm.declared]
  refine agrees_reports (fun s => congrArg (stateless s) hrun) (C59_unquoted_space ops l d hd) ?_ ?_
  · rintro res ⟨pos, p, k, h1, h2, rfl⟩
    simp only [← he] at h1 h2
    exact ⟨.space hd h1 h2, rfl, rfl⟩
  · intro res h hs hn
    entries h hs hn
    rename_i h1 h2 h3
    rw [hd] at h1; cases h1
    simp only [he] at h2 h3
    exact ⟨_, _, _, h2, h3, rfl⟩

theorem cat_W8 (hon : l.flavor ∈ [NodeFlavor.avRule]) : Agrees .riskyAllowPerm 'W' 8 m data l := by
  obtain ⟨d, hd⟩ := data_av (l := l) (by simpa using hon)
  refine agrees_reports (fun s => rfl) (C51_risky l d hd) ?_ ?_
  · rintro res ⟨h1, h2, rfl⟩
    exact ⟨.risky hd h1 h2, rfl, rfl⟩
  · intro res h hs hn
    entries h hs hn
    rename_i h1 h2 h3
    rw [hd] at h1; cases h1
    exact ⟨h2, h3, rfl⟩

theorem cat_W9 (hon : l.flavor ∈ [NodeFlavor.header]) : Agrees .moduleFileNameMismatch 'W' 9 m data l := by
  obtain ⟨d, hd⟩ := data_header (l := l) (by simpa using hon)
  refine agrees_reports (fun s => rfl) (C56_file_name data l d hd) ?_ ?_
  · rintro res ⟨h1, rfl⟩
    exact ⟨.moduleName hd h1, rfl, rfl⟩
  · intro res h hs hn
    entries h hs hn
    rename_i h1 h2
    rw [hd] at h1; cases h1
    exact ⟨h2, rfl⟩

theorem cat_W11 {ops : List MapOp} (hm : Behind m ops) (hon : l.flavor ∈ [NodeFlavor.decl]) : Agrees .requiredDeclarationOwn 'W' 11 m data l := by
  obtain ⟨d, hd⟩ := data_decl (l := l) (by simpa using hon)
  by_cases hf : data.flavor = .ifFile
  · have hrun : checkRequiredDeclarationOwn m data l = checkRequiredDeclarationOwn (tablesAfter ops) data l := by
      unfold checkRequiredDeclarationOwn
      simp only [hm.decl]
    refine agrees_reports (fun s => congrArg (stateless s) hrun) (C62_own ops data l d hf hd) ?_ ?_
    · rintro res ⟨h1, h2, ⟨h3, rfl⟩ | ⟨mod, h3, rfl⟩⟩
      · refine ⟨.ownNowhere hf hd h1 ?_, rfl, rfl⟩
        rw [hm.decl, lookUpDecl_none_iff]; exact h3
      · unfold OwnSymbol at h2
        refine ⟨.ownElsewhere hf hd h1 ((hm.first _ _ _).2 h3) ?_ ?_, rfl, rfl⟩
        · rintro rfl; exact h2 (.inl h3)
        · rintro ⟨a, rfl⟩; exact h2 (.inr ⟨a, h3⟩)
    · intro res h hs hn
      unfold OwnSymbol
      simp only [← hm.first]
      entries h hs hn
      · rename_i h1 h2 h3 h4
        rw [hd] at h2; cases h2
        refine ⟨h3, by simp [h4], .inl ⟨?_, rfl⟩⟩
        rw [hm.decl, lookUpDecl_none_iff] at h4; exact h4
      · rename_i mod h1 h2 h3 h4 h5 h6
        rw [hd] at h2; cases h2
        refine ⟨h3, ?_, .inr ⟨_, h4, rfl⟩⟩
        simp only [h4, Option.some.injEq]
        rintro (rfl | ⟨a, rfl⟩)
        · exact h5 rfl
        · exact h6 ⟨a, rfl⟩
  · refine agrees_none (fun s => rfl) (C62_other_files m data l hf) ?_
    intro res h hs hn
    entries h hs hn <;> contradiction

theorem cat_E6 {ops : List MapOp} (hm : Behind m ops) (hon : l.flavor ∈ [NodeFlavor.decl]) : Agrees .declarationInterfaceNameclash 'E' 6 m data l := by
  obtain ⟨d, hd⟩ := data_decl (l := l) (by simpa using hon)
  have hrun : checkDeclarationInterfaceNameclash m l = checkDeclarationInterfaceNameclash (tablesAfter ops) l := by
    obtain ⟨tr, rfl⟩ := hm.ex; rfl
  have hk : ∀ n, m.lookUpIf n ≠ none ↔ KnownInterface ops n := fun n => by
    rw [hm.iface, ← Option.isSome_iff_ne_none, isSome_lookUpIf]
  refine agrees_reports (fun s => congrArg (stateless s) hrun) (C60_nameclash ops l d hd) ?_ ?_
  · rintro res ⟨h1, rfl⟩
    exact ⟨.nameclash hd ((hk _).2 h1), rfl, rfl⟩
  · intro res h hs hn
    entries h hs hn
    rename_i h1 h2
    rw [hd] at h1; cases h1
    exact ⟨(hk _).1 h2, rfl⟩

theorem cat_E9 (hon : l.flavor ∈ [NodeFlavor.optionalPolicy, .genReq, .require]) : Agrees .emptyBlock 'E' 9 m data l := by
  refine agrees_reports (fun s => rfl) (C51_empty_block l) ?_ ?_
  · rintro res ⟨h1, rfl⟩
    refine ⟨.emptyBlock ?_ h1, rfl, rfl⟩
    unfold RequireBlock
    simp only [List.mem_cons, List.not_mem_nil, or_false] at hon
    rcases hon with h | h | h
    · exact .inl h
    · exact .inr (.inr h)
    · exact .inr (.inl h)
  · intro res h hs hn
    entries h hs hn
    rename_i h1 h2
    exact ⟨h2, rfl⟩

theorem cat_E10 (hl : LocOk l) (hon : l.flavor ∈ [NodeFlavor.m4SimpleMacro]) : Agrees .strayWord 'E' 10 m data l := by
  obtain ⟨s, hd⟩ := data_word (l := l) (by simpa using hon)
  obtain ⟨nm, rfl⟩ : ∃ nm, s = some nm := by
    have hn := hl.node
    unfold NodeOk at hn
    rw [show l.info.data = _ from hd] at hn
    exact Option.ne_none_iff_exists'.1 hn
  refine agrees_reports (fun s => rfl) (C60_stray_word data l _ nm hd) ?_ ?_
  · rintro res ⟨⟨h1, h2⟩, rfl⟩
    exact ⟨.word hd h1 h2, rfl, rfl⟩
  · intro res h hs hn
    entries h hs hn
    rename_i h1 h2 h3
    rw [hd] at h1; cases h1
    exact ⟨⟨h2, h3⟩, rfl⟩

theorem firstIn_congr {α : Type} {P Q : α → Prop} (h : ∀ x, P x ↔ Q x) {xs : List α} {x : α} : FirstIn P xs x ↔ FirstIn Q xs x := by
  have : P = Q := funext fun x => propext (h x)
  rw [this]

theorem cat_W10 (hon : l.flavor ∈ [NodeFlavor.ifCall]) : Agrees .unknownInterfaceCall 'W' 10 m data l := by
  have hf : ∀ res, Finds .unknownInterfaceCall m data l res ↔ _ := fun res =>
    (finds_local (by decide)).trans (finds_W10 (d := l.data) (List.mem_singleton.1 hon))
  refine agrees_iff hf ?_ ?_
  · rintro res ⟨cl, h1, h2, h3, h4, h5, rfl⟩
    exact ⟨.unknownCall h1 h2 h3 h4 h5, rfl, rfl⟩
  · intro res h hs hn
    entries h hs hn
    rename_i h1 h2 h3 h4 h5
    exact ⟨_, h1, h2, h3, h4, h5, rfl⟩

theorem noPerm_iff (k : Str) : NoPerm m k ↔ k ≠ cs!"*" ∧ k ≠ cs!"~" ∧ ¬(cs!"all_" <+: k ∧ cs!"_perms" <:+ k) ∧ ¬Declared m .perm k ∧
    m.lookUpPermmacro k = none := by
  unfold NoPerm Declared
  simp only [ne_eq, Classical.not_not]

theorem noClass_iff (k : Str) : NoClass m k ↔ ¬(∃ d rest, k = '$' :: d :: rest ∧ d.isDigit = true) ∧ ¬cs!"_class_set" <:+ k ∧
    ¬Declared m .cls k := by
  unfold NoClass Declared
  simp only [ne_eq, Classical.not_not]

theorem cat_E7 (hon : l.flavor ∈ [NodeFlavor.avRule]) : Agrees .unknownPermission 'E' 7 m data l := by
  have hf : ∀ res, Finds .unknownPermission m data l res ↔ _ := fun res =>
    (finds_local (by decide)).trans (finds_E7 (d := l.data) hon)
  refine agrees_iff hf ?_ ?_
  · rintro res ⟨a, k, h1, h2, rfl⟩
    exact ⟨.permission h1 ((firstIn_congr noPerm_iff).1 h2), rfl, rfl⟩
  · intro res h hs hn
    entries h hs hn
    rename_i h1 h2
    exact ⟨_, _, h1, (firstIn_congr noPerm_iff).2 h2, rfl⟩

theorem cat_E8 (hon : l.flavor ∈ [NodeFlavor.avRule, .rtRule, .ttRule]) : Agrees .unknownClass 'E' 8 m data l := by
  have hf : ∀ res, Finds .unknownClass m data l res ↔ _ := fun res =>
    (finds_local (by decide)).trans (finds_E8 (d := l.data) hon)
  refine agrees_iff hf ?_ ?_
  · rintro res ⟨cs, k, h1, h2, rfl⟩
    exact ⟨.objectClass h1 ((firstIn_congr noClass_iff).1 h2), rfl, rfl⟩
  · intro res h hs hn
    entries h hs hn
    rename_i h1 h2
    exact ⟨_, _, h1, (firstIn_congr noClass_iff).2 h2, rfl⟩

/-! ## C-006 -/

theorem requireOrder_lead (config : ConfigCheckData) (ts : List Tree) (p : DeclData)
    (hnul : ∀ d ∈ p :: leadingDecls ts, '\x00' ∉ d.name) :
    ∃ o, requireOrderLoop config (some p) ts = .ok o ∧ ∀ r, r.severity = 'C' → (o = some r ↔
      ∃ pd msg, FirstIn (fun pd => ¬MayPrecede config pd.1 pd.2) (neighbours (p :: leadingDecls ts)) pd ∧
        RequireMessage config pd.1 pd.2 msg ∧ r = ⟨'C', 6, msg⟩) := by
  have hone : ∀ (p : DeclData) (r : CheckResult), ¬∃ pd msg, FirstIn (fun pd => ¬MayPrecede config pd.1 pd.2) (neighbours [p]) pd ∧
      RequireMessage config pd.1 pd.2 msg ∧ r = ⟨'C', 6, msg⟩ := fun p r ⟨pd, msg, h, _⟩ => not_firstIn_nil h
  induction ts generalizing p with
  | nil => exact ⟨none, rfl, fun r _ => by simpa [leadingDecls] using hone p r⟩
  | cons t ts ih =>
    cases hd : t.info.data with
    | decl d =>
      have e : leadingDecls (t :: ts) = d :: leadingDecls ts := by rw [leadingDecls, hd]
      rw [e] at hnul ⊢
      obtain ⟨o, ho, hi⟩ := ih d (fun x hx => hnul x (List.mem_cons_of_mem _ hx))
      unfold requireOrderLoop
      simp only [hd]
      have hn : neighbours (p :: d :: leadingDecls ts) = (p, d) :: neighbours (d :: leadingDecls ts) := rfl
      obtain ⟨h1, h2⟩ := compareDecls_spec p d config (hnul p (by simp)) (hnul d (by simp))
      rw [hn]
      simp only [firstIn_cons]
      by_cases hlt : compareDecls p d config < 0
      · rw [if_neg (by omega), if_neg (by omega)]
        refine ⟨o, ho, fun r hr => ?_⟩
        rw [hi r hr]
        simp [h1.1 hlt]
      · have hm := fun e => hlt (h1.2 e)
        by_cases h0 : compareDecls p d config = 0
        · rw [if_neg (by omega), if_pos h0]
          refine ⟨_, rfl, fun r _ => ?_⟩
          rw [Option.some.injEq]
          constructor
          · rintro rfl
            exact ⟨(p, d), _, Or.inl ⟨hm, rfl⟩, Or.inl ⟨h2.1 h0, rfl⟩, rfl⟩
          · rintro ⟨pd, msg, (⟨-, rfl⟩ | h), hmsg, rfl⟩
            · rcases hmsg with ⟨-, rfl⟩ | ⟨hn, -⟩
              · rfl
              · exact absurd (h2.1 h0) hn
            · exact absurd hm h.1
        · rw [if_pos (by omega)]
          refine ⟨_, rfl, fun r _ => ?_⟩
          rw [Option.some.injEq]
          have hno : ¬ TakenAsRepeated config p d := fun e => h0 (h2.2 e)
          constructor
          · rintro rfl
            exact ⟨(p, d), _, Or.inl ⟨hm, rfl⟩, Or.inr ⟨hno, rfl⟩, rfl⟩
          · rintro ⟨pd, msg, (⟨-, rfl⟩ | h), hmsg, rfl⟩
            · rcases hmsg with ⟨hn, -⟩ | ⟨-, rfl⟩
              · exact absurd hn hno
              · rfl
            · exact absurd hm h.1
    | _ =>
      have e : leadingDecls (t :: ts) = [] := by rw [leadingDecls, hd]
      rw [e]
      unfold requireOrderLoop
      simp only [hd]
      refine ⟨_, rfl, fun r hr => ?_⟩
      constructor
      · intro h; cases h; exact absurd hr (by decide)
      · intro h; exact absurd h (hone p r)

theorem LocOk.start {l : Loc} (h : LocOk l) (hr : RequireBlock l) :
    ∃ first rest, l.focus.children = first :: rest ∧ first.info.flavor = .startBlock := by
  have hn := h.node
  unfold NodeOk at hn
  have hr : l.info.data.flavor = .require ∨ l.info.data.flavor = .genReq := hr
  cases hd : l.info.data with
  | plain p s => rw [hd] at hn hr; cases p <;> simp_all [NodeData.flavor, PlainFlavor.toFlavor]
  | attr d => rw [hd] at hr; simp only [NodeData.flavor] at hr; split at hr <;> simp at hr
  | _ => rw [hd] at hn hr; simp_all [NodeData.flavor]

theorem cat_C6 (hl : LocOk l) (hnul : ∀ d ∈ leadingDecls l.focus.children.tail, '\x00' ∉ d.name)
    (hon : l.flavor ∈ [NodeFlavor.require, .genReq]) : Agrees .unorderedDeclarationInRequire 'C' 6 m data l := by
  have hr : RequireBlock l := by simpa [RequireBlock] using hon
  obtain ⟨first, rest, h1, h2⟩ := hl.start hr
  have htail : l.focus.children.tail = rest := by rw [h1]; rfl
  rw [htail] at hnul
  have key : ∃ o, checkUnorderedDeclarationInRequire data l = .ok o ∧ ∀ r, r.severity = 'C' → (o = some r ↔
      (∃ pd msg, FirstIn (fun pd => ¬MayPrecede data.config pd.1 pd.2) (neighbours (leadingDecls rest)) pd ∧
        RequireMessage data.config pd.1 pd.2 msg ∧ r = ⟨'C', 6, msg⟩) ∨ rest = [] ∧ r = ⟨'C', 6, cs!"Empty require block"⟩) := by
    unfold checkUnorderedDeclarationInRequire
    rw [if_neg (by simp [isRequireBlock_iff.2 hr]), h1]
    simp only [h2, ne_eq, not_true_eq_false, if_false]
    cases rest with
    | nil =>
      refine ⟨_, rfl, fun r _ => ?_⟩
      rw [Option.some.injEq]
      constructor
      · rintro rfl; exact .inr ⟨rfl, rfl⟩
      · rintro (⟨pd, msg, h, -⟩ | ⟨-, rfl⟩)
        · exact absurd h not_firstIn_nil
        · rfl
    | cons t ts =>
      simp only [reduceCtorEq, false_and, or_false]
      cases hd : t.info.data with
      | decl d =>
        have e : leadingDecls (t :: ts) = d :: leadingDecls ts := by rw [leadingDecls, hd]
        rw [e] at hnul ⊢
        unfold requireOrderLoop
        simp only [hd]
        exact requireOrder_lead _ ts d hnul
      | _ =>
        have e : leadingDecls (t :: ts) = [] := by rw [leadingDecls, hd]
        rw [e]
        unfold requireOrderLoop
        simp only [hd]
        refine ⟨_, rfl, fun r hr => ?_⟩
        constructor
        · intro h; cases h; exact absurd hr (by decide)
        · rintro ⟨pd, msg, h, -⟩; exact absurd h not_firstIn_nil
  obtain ⟨o, ho, hk⟩ := key
  have hf : ∀ res, Finds .unorderedDeclarationInRequire m data l res ↔ o = some res := fun res => by
    rw [finds_out (fun s => rfl), ho, Res.ok.injEq]
  refine ⟨fun res hs h => ?_, ?_⟩
  · rcases (hk res hs).1 ((hf res).1 h) with ⟨pd, msg, h1, h2, rfl⟩ | ⟨h1, rfl⟩
    · exact ⟨.requires hr (by rw [htail]; exact h1) h2, rfl⟩
    · exact ⟨.requiresNothing hr (by rw [htail]; exact h1), rfl⟩
  · rintro ⟨res, h, hs, hn⟩
    refine ⟨res, hs, hn, (hf res).2 ((hk res hs).2 ?_)⟩
    entries h hs hn
    · rename_i h1 h2 h3
      rw [htail] at h2
      exact .inl ⟨_, _, h2, h3, rfl⟩
    · rename_i h1 h2
      rw [htail] at h2
      exact .inr ⟨h2, rfl⟩

end

/-! ## The places of the texts -/

theorem leadingDecls_mem {ts : List Tree} {d : DeclData} (h : d ∈ leadingDecls ts) : ∃ t ∈ ts, t.info.data = .decl d := by
  induction ts with
  | nil => cases h
  | cons t ts ih =>
    rw [leadingDecls] at h
    split at h
    · rename_i d' e
      rcases List.mem_cons.1 h with rfl | h
      · exact ⟨t, List.mem_cons_self, e⟩
      · obtain ⟨u, hu, e⟩ := ih h
        exact ⟨u, List.mem_cons_of_mem _ hu, e⟩
    · cases h

theorem Spec.PlaceIn.clean {src : Sources} {kind : FileFlavor} {path : Str} {l : Loc} (h : PlaceIn src kind path l) :
    ∀ d ∈ leadingDecls l.focus.children.tail, '\x00' ∉ d.name := by
  intro d hd
  obtain ⟨t, ht, e⟩ := leadingDecls_mem hd
  obtain ⟨-, s, f, -, hp, hu⟩ := h
  obtain ⟨ls, rs, hsp⟩ := List.append_of_mem (List.mem_of_mem_tail ht)
  have hinfo : t.info ∈ Tree.preorderList (fileNodes (rootOf kind) f) := by
    refine loc_of_info.2 ⟨⟨t, ls.reverse, rs, ⟨l.lefts, l.info, l.rights⟩ :: l.ups⟩, ?_, rfl⟩
    rw [← hu]
    obtain ⟨⟨i, cs⟩, lefts, rights, ups⟩ := l
    have hsp : cs = ls ++ t :: rs := hsp
    subst hsp
    simp [Loc.unzip, Loc.siblings, Loc.plug, Loc.info, Tree.info]
  exact hp.clean _ _ hinfo d e

section
variable {w : Machine} {args : List Opt} {paths : List Str} {c : Course} {r : MainResult}

/-- **C79.** At every place of the text of a te or interface file, each of the checks that are called there
complains exactly about what the catalogue lists under its number. -/
theorem C79_finds (hc : c.Of w args paths) (hok : c.SupportOk w args) {row : CheckRow} (hrow : row ∈ checkTable)
    (hfn : row.fn ∈ catalogued) {kind : FileFlavor} {path : Str} {l : Loc}
    (hl : PlaceIn (w.sources c.settings.customFcMacros) kind path l) (hon : l.flavor ∈ row.on) :
    Agrees row.fn row.sev row.num c.tables (c.dataFor kind path) l := by
  obtain ⟨ops, tr, ht, -⟩ := tables_ops hc hok
  have hm : Behind c.tables ops := ⟨⟨tr, ht⟩⟩
  have h1 := hl.ok
  have h2 := hl.clean
  clear ht
  revert row
  simp only [checkTable, List.forall_mem_cons, List.not_mem_nil, false_imp_iff, implies_true, and_true]
  exact ⟨fun h _ => absurd h (by decide), fun _ h => cat_C4 h1 h, fun _ h => cat_C5 h, fun _ h => cat_C6 h1 h2 h, fun _
    h => cat_C7 h, fun _ h => cat_S1 h, fun h _ => absurd h (by decide), fun _ h => cat_S3 h, fun _ h =>
    cat_S4 hm h1 h, fun _ h => cat_S5 h, fun _ h => cat_S6 h, fun h _ => absurd h (by decide), fun _ h =>
    cat_S8 h, fun _ h => cat_S9 h1 h, fun h _ => absurd h (by decide), fun _ h => cat_W1 hm h1 h, fun _ h =>
    cat_W2 hm h, fun _ h => cat_W3 h1 h, fun h _ => absurd h (by decide), fun _ h => cat_W5 hm h, fun _ h =>
    cat_W6 h, fun _ h => cat_W7 hm h, fun _ h => cat_W8 h, fun _ h => cat_W9 h, fun _ h => cat_W10 h, fun _ h
    => cat_W11 hm h, fun h _ => absurd h (by decide), fun h _ => absurd h (by decide), fun h _ => absurd h (by
    decide), fun h _ => absurd h (by decide), fun _ h => cat_E6 hm h, fun _ h => cat_E7 h, fun _ h => cat_E8
    h, fun _ h => cat_E9 h, fun _ h => cat_E10 h1 h⟩

/-- Checks of the catalogue that look at more of the file than the blocks around a statement and what they
require: C-004, W-003 and E-009. -/
def Spec.lookingAround : List CheckFn := [.interfaceDefinitionsHaveComment, .nameRequiredButNotUsedInIf, .emptyBlock]

/-- No call in the text of the file is of a template that cannot be expanded. -/
def Spec.Course.Unbroken (c : Course) (src : Sources) (kind : FileFlavor) (path : Str) : Prop :=
  ∀ s f, src.text path = some s → ParsesTo s f → ∀ d ∈ callsOf (fileNodes (rootOf kind) f), ¬Faulty c.tables d.name

theorem catalogued_rows : ∀ row ∈ checkTable, row.fn ∈ catalogued →
    NodeFlavor.cleanup ∉ row.on ∧ NodeFlavor.fcFile ∉ row.on ∧ NodeFlavor.fcEntry ∉ row.on ∧ NodeFlavor.error ∉ row.on ∧
      row.fn ≠ .teOrder ∧ row.fn ≠ .permMacroAvailable := by decide

theorem catalogued_split : ∀ fn ∈ catalogued, fn ∉ lookingAround → fn ∈ localChecks ∨ fn ∈ placeChecks := by decide

theorem unbroken_trees (hc : c.Of w args paths) {x : PolicyFile} (hx : x ∈ c.files) (hk : x.kind = .teFile ∨ x.kind = .ifFile)
    (hu : c.Unbroken (w.sources c.settings.customFcMacros) x.kind x.path) :
    ∃ s f, (w.sources c.settings.customFcMacros).text x.path = some s ∧ ParsesTo s f ∧
      ∀ g, ParsesTo s g → x.trees.map bare = fileNodes (rootOf x.kind) g := by
  obtain ⟨s, f, mod, m, st, h1, h2, h3, h4, h5⟩ := hc.readFrom x hx hk
  refine ⟨s, f, h1, h2, fun g hg => ?_⟩
  rw [← C68_deterministic hg h2] at h3
  have hw := (tree_without hg.tokens.1 (rootOf_kind hk) h3).mono (Q := c.Lost) fun d hd => hd.mono h5
  rw [← h4] at hw
  exact bareList_eq_map _ ▸ hw.bareList (hu s g h1 hg)

theorem disabled_of_exception (hc : c.Of w args paths) {x : PolicyFile} (hx : x ∈ c.files)
    (hk : x.kind = .teFile ∨ x.kind = .ifFile) {l : Loc} (hl : l.unzip = x.trees) {ex id : Str}
    (he : l.info.exceptions = some ex) (hid : id <:+: ex) : DisabledIn (w.sources c.settings.customFcMacros) x.path id := by
  obtain ⟨s, f, mod, m, st, h1, h2, h3, h4, h5⟩ := hc.readFrom x hx hk
  obtain ⟨cmd, hc1, hc2⟩ := C74_exceptions h2.tokens.1 h3 (loc_of_info.2 ⟨l, hl.trans h4, rfl⟩) he
  obtain ⟨ts, hl, ha⟩ := h2
  rw [← f.at_toks ha] at hc1
  obtain ⟨⟨n, t⟩, hm, rfl⟩ := List.mem_map.1 hc1
  exact ⟨s, ts, n, cmd, ex, h1, hl, hm, hc2, hid⟩

theorem finds_bare {fn : CheckFn} (h : fn ≠ .teOrder) {m : Maps} {data : CheckData} {l : Loc} {res : CheckResult} :
    Finds fn m data (bareLoc l) res ↔ Finds fn m data l res := by
  unfold Finds
  rw [CheckFn.run_bare h]

/-- **C79 (no false finding).** Every finding that is printed by a check of the catalogue is a complaint of the
catalogue about a place of the text of a checked file, in the line of the finding. -/
theorem C79_reported (h : selintMain w args paths = .ok r) (hr : Reaches w.config args paths.length) (h70 : r.status ≠ 70)
    (ho : Opt.summaryOnly ∉ args) (hc : c.Of w args paths) (hok : c.SupportOk w args) {row : CheckRow}
    (hrow : row ∈ checkTable) (hfn : row.fn ∈ catalogued)
    (hq : row.fn ∈ lookingAround → ∀ x ∈ c.files, c.Unbroken (w.sources c.settings.customFcMacros) x.kind x.path)
    {f : Finding} (hs : f.result.severity = row.sev) (hn : f.result.checkId = row.num) (hf : f ∈ r.findings) :
    c.Selects row ∧ ∃ x ∈ c.files, f.filename = basename x.path ∧
      ∃ l, PlaceIn (w.sources c.settings.customFcMacros) x.kind x.path l ∧ f.lineno = l.info.lineno ∧
        Complaint c.tables (c.dataFor x.kind x.path) l f.result := by
  have hrows := catalogued_rows row hrow hfn
  obtain ⟨h1, x, hx, h2, hk, l, h3, h4, -, h5, h6⟩ := (findings_places h hr h70 ho hc hrow hrows hs hn).1 hf
  suffices hp : ∃ l', PlaceIn (w.sources c.settings.customFcMacros) x.kind x.path l' ∧ bareInfo l.info = l'.info ∧
      Finds row.fn c.tables (c.dataFor x.kind x.path) l' f.result by
    obtain ⟨l', h7, h8, h9⟩ := hp
    have hon : l'.flavor ∈ row.on := by
      have : l'.info.flavor = l.info.flavor := by rw [← h8]; rfl
      exact (show l'.flavor = l.flavor from this) ▸ h4
    exact ⟨h1, x, hx, h2, l', h7, by rw [h5, ← h8]; rfl, ((C79_finds hc hok hrow hfn h7 hon).1 _ hs h9).1⟩
  by_cases ha : row.fn ∈ lookingAround
  · obtain ⟨s, g, t1, t2, t3⟩ := unbroken_trees hc hx hk (hq ha x hx)
    exact ⟨bareLoc l, ⟨hk, s, g, t1, t2, by rw [bareLoc_unzip, h3, t3 g t2]⟩, by simp [Loc.info], (finds_bare hrows.2.2.2.2.1).2 h6⟩
  · obtain ⟨l', h7, h8⟩ := place_of_node hc hx hk h3
    refine ⟨l', h7, h8.info, ?_⟩
    rcases catalogued_split _ hfn ha with hp | hp
    · rw [finds_local hp, ← h8.info]; exact (finds_local hp).1 h6
    · exact (finds_same h8 hp).1 h6

/-- **C79 (nothing is missed).** If the catalogue has a complaint of a selected check about a place of the text
of a checked file, a complaint of the check about the place is printed; unless a command in the file excepts
something from the check, or the statement there is a call of a template that cannot be expanded. -/
theorem C79_found (h : selintMain w args paths = .ok r) (hr : Reaches w.config args paths.length) (h70 : r.status ≠ 70)
    (ho : Opt.summaryOnly ∉ args) (hc : c.Of w args paths) (hok : c.SupportOk w args) {row : CheckRow}
    (hrow : row ∈ checkTable) (hfn : row.fn ∈ catalogued) (hsel : c.Selects row) {x : PolicyFile} (hx : x ∈ c.files)
    (hq : row.fn ∈ lookingAround → c.Unbroken (w.sources c.settings.customFcMacros) x.kind x.path) {l : Loc}
    (hl : PlaceIn (w.sources c.settings.customFcMacros) x.kind x.path l) (hon : l.flavor ∈ row.on)
    (ht : ∀ d, l.data = .ifCall d → ¬Faulty c.tables d.name)
    (hd : ¬DisabledIn (w.sources c.settings.customFcMacros) x.path row.id) {res : CheckResult}
    (hs : res.severity = row.sev) (hn : res.checkId = row.num)
    (hf : Complaint c.tables (c.dataFor x.kind x.path) l res) :
    ∃ res', Complaint c.tables (c.dataFor x.kind x.path) l res' ∧ res'.severity = row.sev ∧ res'.checkId = row.num ∧
      ⟨basename x.path, l.info.lineno, res'⟩ ∈ r.findings := by
  have hrows := catalogued_rows row hrow hfn
  obtain ⟨k1, k2⟩ := C79_finds hc hok hrow hfn hl hon
  obtain ⟨res', hs', hn', hf'⟩ := k2 ⟨res, hf, hs, hn⟩
  refine ⟨res', (k1 _ hs' hf').1, hs', hn', ?_⟩
  suffices hp : ∃ l₀ : Loc, l₀.unzip = x.trees ∧ bareInfo l₀.info = l.info ∧
      Finds row.fn c.tables (c.dataFor x.kind x.path) l₀ res' by
    obtain ⟨l₀, h1, h2, h3⟩ := hp
    have hfl : l₀.flavor = l.flavor := by
      have : l₀.info.flavor = l.info.flavor := by rw [← h2]; rfl
      exact this
    refine (findings_places h hr h70 ho hc hrow hrows hs' hn').2
      ⟨hsel, x, hx, rfl, hl.1, l₀, h1, hfl ▸ hon, fun e he hi => hd (disabled_of_exception hc hx hl.1 h1 he hi), ?_, h3⟩
    show l.info.lineno = _
    rw [← h2]; rfl
  by_cases ha : row.fn ∈ lookingAround
  · obtain ⟨s, g, t1, t2, t3⟩ := unbroken_trees hc hx hl.1 (hq ha)
    obtain ⟨-, s', g', t1', t2', hu⟩ := hl
    rw [t1] at t1'; cases t1'
    rw [← t3 g' t2'] at hu
    obtain ⟨l₀, h1, rfl⟩ := bareLoc_of_unzip hu
    exact ⟨l₀, h1, by simp [Loc.info], (finds_bare hrows.2.2.2.2.1).1 hf'⟩
  · obtain ⟨l₀, h1, h2, -⟩ := node_of_place hc hx hl ht
    refine ⟨l₀, h1, h2.info, ?_⟩
    rcases catalogued_split _ hfn ha with hp | hp
    · rw [finds_local hp, ← h2.info] at hf'; exact (finds_local hp).2 hf'
    · exact (finds_same h2 hp).2 hf'

end

/-! ## C79 is about something -/

/-- What the example looks at. -/
def commentLook (c : Course) : Bool × List Str × List Str × List Str × List Str × List Str :=
  (c.settings.opts == optionsOf [.recursive, .source] && atLeast 'C' c.settings.severity &&
      isCheckEnabled cs!"C-004" c.settings.enableConf && c.scan.accessVectors == some cs!"mod/access_vectors" &&
      c.scan.modulesConf == some cs!"mod/modules.conf" && c.scan.objPermSets == some cs!"mod/obj_perm_sets.spt" && c.tables.template.isEmpty,
    c.scan.te, c.scan.ifs, c.scan.fc, c.scan.contextTe, c.scan.contextIf)

/-- The place of the interface in the text. -/
theorem bar_place : ∃ f t1 t2, ParsesTo barText f ∧ fileNodes .ifFile f = [t1, t2] ∧
    t1.info = ⟨.plain .ifFile none, none, 0⟩ ∧ t2.info = ⟨.plain .interfaceDef (some cs!"bar_x"), none, 1⟩ := by
  obtain ⟨ts, hts⟩ : ∃ ts, lexFile barText = some ts := by
    cases h : lexFile barText with
    | some ts => exact ⟨ts, rfl⟩
    | none => exact absurd h (by decide +kernel)
  have hv : ((lexFile barText).bind pFile).map (fun f => (fileNodes .ifFile f).map fun t => t.info) =
      some [⟨.plain .ifFile none, none, 0⟩, ⟨.plain .interfaceDef (some cs!"bar_x"), none, 1⟩] := by
    decide +kernel
  rw [hts, Option.bind_some] at hv
  obtain ⟨f, hf, hv⟩ := Option.map_eq_some_iff.1 hv
  refine ⟨f, ?_⟩
  generalize hg : fileNodes .ifFile f = ns at hv ⊢
  match ns, congrArg List.length hv with
  | [t1, t2], _ =>
    simp only [List.map_cons, List.map_nil, List.cons.injEq, and_true] at hv
    exact ⟨t1, t2, ⟨ts, hts, C68_sound hf⟩, rfl, hv.1, hv.2⟩

set_option synthInstance.maxSize 1000 in
/-- `selint -r -s mod` on the machine of C77 meets the hypotheses of C79_found: that the interface has no comment
is reported. -/
example : ∃ r res, selintMain exOptional [.recursive, .source] [cs!"mod"] = .ok r ∧ res.severity = 'C' ∧ res.checkId = 4 ∧
    (⟨cs!"bar.if", 1, res⟩ : Finding) ∈ r.findings := by
  obtain ⟨r, hm, h70⟩ : ∃ r, selintMain exOptional [.recursive, .source] [cs!"mod"] = .ok r ∧ r.status ≠ 70 := by
    cases h : selintMain exOptional [.recursive, .source] [cs!"mod"] with
    | ub =>
      have : (match selintMain exOptional [.recursive, .source] [cs!"mod"] with | .ok _ => true | .ub => false) = true := by
        decide +kernel
      rw [h] at this; cases this
    | ok r =>
      have : (match selintMain exOptional [.recursive, .source] [cs!"mod"] with
        | .ok r => r.status | .ub => 70) ≠ 70 := by decide +kernel
      rw [h] at this
      exact ⟨r, rfl, this⟩
  have h : (courseOf exOptional [.recursive, .source] [cs!"mod"]).map commentLook =
      some (true, [cs!"mod/foo.te"], [cs!"mod/bar.if"], [], [], []) := by decide +kernel
  simp only [commentLook, Option.map_eq_some_iff, Prod.mk.injEq, beq_iff_eq, Bool.and_eq_true, List.isEmpty_iff] at h
  obtain ⟨c, h1, ⟨⟨⟨⟨⟨⟨h2, h3⟩, h4⟩, g5⟩, g6⟩, g7⟩, h10⟩, h11, h12, h13, h14, h15⟩ := h
  have hc := courseOf_of h1 h2
  have hok : c.SupportOk exOptional [.recursive, .source] := by
    obtain ⟨s1, -, s3⟩ := support_says (w := exSupport) rfl rfl rfl
    exact .inr ⟨_, _, _, by rw [g5]; exact s1, by rw [g6]; exact optional_mods, by rw [g7]; exact s3⟩
  have hfiles : c.files.map (fun x => (x.kind, x.path)) = [(.teFile, cs!"mod/foo.te"), (.ifFile, cs!"mod/bar.if")] := by
    rw [(C72_files hc).1, h11, h12, h13]; rfl
  obtain ⟨x, hx, hkp⟩ : ∃ x ∈ c.files, (x.kind, x.path) = (.ifFile, cs!"mod/bar.if") := by
    have : (FileFlavor.ifFile, cs!"mod/bar.if") ∈ c.files.map fun x => (x.kind, x.path) := by rw [hfiles]; simp
    simpa only [List.mem_map] using this
  simp only [Prod.mk.injEq] at hkp
  have hreach : Reaches exOptional.config [.recursive, .source] 1 := exMachine_reaches (by decide) (by simp) (by decide)
  obtain ⟨f, t1, t2, hp, hn, e1, e2⟩ := bar_place
  have hdata : (⟨t2, [t1], [], []⟩ : Loc).data = .plain .interfaceDef (some cs!"bar_x") := by
    show t2.info.data = _
    rw [e2]
  have hnf : ∀ n, ¬Faulty c.tables n := fun n => not_faulty (by unfold Maps.lookUpTemplate; rw [h10]; rfl)
  obtain ⟨res, -, r1, r2, r3⟩ := C79_found (row := ⟨'C', 4, .interfaceDefinitionsHaveComment, [.interfaceDef, .tempDef], fun _ => true⟩)
    hm hreach h70 (by simp) hc hok (by simp [checkTable]) (by decide) ⟨h3, h4, rfl⟩ hx
    (fun _ _ _ _ _ d _ => hnf d.name) (l := ⟨t2, [t1], [], []⟩)
    ⟨.inr hkp.1, barText, f, by rw [hkp.2]; rfl, hp, by rw [hkp.1]; exact hn.symm⟩
    (by rw [show (⟨t2, [t1], [], []⟩ : Loc).flavor = t2.info.flavor from rfl, e2]; decide) (fun d _ => hnf d.name)
    (by
      rintro ⟨s, ts, k, cmd, e, u1, u2, u3, -⟩
      rw [hkp.2] at u1
      cases u1
      have : (lexFile barText).all (fun ts => ts.all fun t => match t.2 with | .command _ => false | _ => true) = true := by
        decide +kernel
      rw [u2] at this
      simp only [Option.all_some, List.all_eq_true] at this
      exact absurd (this _ u3) (by simp))
    (res := ⟨'C', 4, cs!"No comment before interface definition for " ++ cs!"bar_x"⟩) rfl rfl
    (.comment (by unfold Definition; rw [show (⟨t2, [t1], [], []⟩ : Loc).flavor = t2.info.flavor from rfl, e2]; decide) hdata
      (by
        rintro ⟨p, h, hp⟩
        cases h
        rw [show Loc.flavor _ = t1.info.flavor from rfl, e1] at hp
        cases hp))
  refine ⟨r, res, hm, r1, r2, ?_⟩
  rw [hkp.2, show (⟨t2, [t1], [], []⟩ : Loc).info.lineno = t2.info.lineno from rfl, e2] at r3
  exact r3

end Selint
