import Verif.Lemmas.Kept
/-! # What a check answers does not depend on calls that are left out -/

namespace Selint
namespace Spec

variable {P : IfCallData → Prop} {l l' : Loc}

/-- The checks that look at the surroundings of a node but not at calls there. -/
def placeChecks : List CheckFn :=
  [.unorderedDeclarationInRequire, .requireBlock, .ifCallsTemplate, .declInIf, .noExplicitDeclaration,
    .nameUsedButNotRequiredInIf, .moduleIfCallInOptional, .requiredDeclarationOwn, .strayWord]

namespace SamePlace

theorem isDef (h : SamePlace P l l') : isDefinition l.info = isDefinition l'.info := by rw [← h.info]; rfl

theorem isReq (h : SamePlace P l l') : isRequireBlock l.info = isRequireBlock l'.info := by rw [← h.info]; rfl

theorem str (h : SamePlace P l l') : dataStr l.info = dataStr l'.info := by rw [← h.info]; rfl

theorem names (h : SamePlace P l l') : getNamesInNode l.info = getNamesInNode l'.info := by rw [← h.info]; rfl

theorem used (h : SamePlace P l l') : usedNames l = usedNames l' := by
  unfold usedNames
  rw [h.names, h.data]

theorem requireLoop (h : Without P ts us) : Selint.requireLoop ts = Selint.requireLoop us := by
  induction h with
  | nil => rfl
  | @keep i j cs ds ts us hi hc hcs hts ih1 ih2 =>
    have : i.data = j.data := by rw [← hi]; rfl
    simp only [Selint.requireLoop, Tree.info_mk, this, ih2]
  | @drop j c ts us hj hp _ ih =>
    rw [ih]
    unfold callOf at hj
    split at hj
    · rename_i e
      simp only [Selint.requireLoop, Tree.info_mk, e]
    · cases hj

theorem requireOrderLoop (config : ConfigCheckData) (h : Matched (WithoutIn P) ts us) (p : Option DeclData) :
    Selint.requireOrderLoop config p ts = Selint.requireOrderLoop config p us := by
  induction h generalizing p with
  | nil => rfl
  | @cons t u ts us h1 _ ih =>
    have : t.info.data = u.info.data := by rw [← h1.1]; rfl
    simp only [Selint.requireOrderLoop, this, ih]

theorem declInIfLoop (h : Matched (SamePlace P) ls ls') : Selint.declInIfLoop ls = Selint.declInIfLoop ls' := by
  induction h with
  | nil => rfl
  | cons h1 _ ih => simp only [Selint.declInIfLoop, ih, h1.isDef, h1.isReq, h1.flavor]

theorem explicitLoop (h : SamePlace P l l') (m : Maps) (data : CheckData) (names : List Str) :
    Selint.explicitLoop m data l names = Selint.explicitLoop m data l' names := by
  induction names with
  | nil => rfl
  | cons n ns ih => simp only [Selint.explicitLoop, ih, h.hasRequire]

theorem isInRequire_ancestors (l : Loc) :
    l.isInRequire = l.ancestors.any fun a => a.flavor == .genReq || a.flavor == .require := by
  fun_induction Loc.ancestors l with
  | case1 l hp =>
    obtain ⟨t, ls, rs, ups⟩ := l
    cases ups with
    | nil => rfl
    | cons f fs => cases hp
  | case2 l p hp ih =>
    obtain ⟨t, ls, rs, ups⟩ := l
    cases ups with
    | nil => cases hp
    | cons f fs =>
      cases hp
      rw [List.any_cons, ← ih]
      rfl

theorem inRequire (h : SamePlace P l l') : l.isInRequire = l'.isInRequire := by
  rw [isInRequire_ancestors, isInRequire_ancestors]
  exact Matched.any h.ancestors fun a b hab => by rw [hab.flavor]

/-- Inside of a closed block nothing is missing. -/
theorem inClosed (h : SamePlace P l l') (hp : l'.parent? = some p') (hc : closed p'.info = true) :
    l.lefts.length = l'.lefts.length ∧ l.next?.isSome = l'.next?.isSome := by
  obtain ⟨t, ls, rs, ups⟩ := l
  obtain ⟨t', ls', rs', ups'⟩ := l'
  cases ups' with
  | nil => cases hp
  | cons f' fs' =>
    cases hp
    have ha := h.around
    have hl := h.lefts
    have hr := h.rights
    generalize hs : Loc.siblings ⟨t, ls, rs, ups⟩ = s at ha
    generalize hs' : Loc.siblings ⟨t', ls', rs', f' :: fs'⟩ = s' at ha
    simp only at ha hl hr
    cases ha with
    | cons hl' hf hr' hu =>
      have hq := hf.2.1 hc
      rw [← hs'] at hq
      simp only [Loc.siblings, Tree.children] at hq
      have h1 := Matched.length (hl.quiet fun t ht => hq t (by simp at ht ⊢; exact .inl ht))
      have h2 := Matched.length (hr.quiet fun t ht => hq t (by simp [ht]))
      simp only [List.length_reverse] at h1
      refine ⟨h1, ?_⟩
      unfold Loc.next?
      cases rs <;> cases rs' <;> simp_all

theorem ancestors_some {p : Loc} (h : l.parent? = some p) : l.ancestors = p :: p.ancestors := by
  rw [Loc.ancestors]
  split
  · simp_all
  · rename_i x hx
    rw [h] at hx; cases hx; rfl

theorem ancestors_none (h : l.parent? = none) : l.ancestors = [] := by
  rw [Loc.ancestors]
  split <;> simp_all

theorem ifelseArgument (h : SamePlace P l l') :
    (isIfelseArgument (l :: l.ancestors) = none ∧ isIfelseArgument (l' :: l'.ancestors) = none) ∨
      ∃ a a' p', isIfelseArgument (l :: l.ancestors) = some a ∧ isIfelseArgument (l' :: l'.ancestors) = some a' ∧
        SamePlace P a a' ∧ a'.parent? = some p' ∧ closed p'.info = true := by
  fun_induction Loc.ancestors l generalizing l' with
  | case1 l hp =>
    rcases h.parent with ⟨-, h2⟩ | ⟨p, p', h1, -, -⟩
    · rw [ancestors_none h2]
      exact .inl ⟨rfl, rfl⟩
    · simp_all
  | case2 l p hp ih =>
    rcases h.parent with ⟨h1, -⟩ | ⟨q, p', h1, h2, h3⟩
    · simp_all
    · rw [hp] at h1; cases h1
      rw [ancestors_some h2, isIfelseArgument, isIfelseArgument, h.flavor, h3.flavor]
      split
      · rename_i hb
        refine .inr ⟨l, l', p', rfl, rfl, h, h2, ?_⟩
        have : p'.info.flavor = .ifelse := by simp at hb; exact hb.2
        simp [closed, this]
      · exact ih h3

theorem comparison (h : SamePlace P l l') : isComparisonArgument l = isComparisonArgument l' := by
  unfold isComparisonArgument
  rcases h.ifelseArgument with ⟨h1, h2⟩ | ⟨a, a', p', h1, h2, h3, h4, h5⟩
  · rw [h1, h2]
  · obtain ⟨h6, h7⟩ := h3.inClosed h4 h5
    rw [h1, h2]
    simp only [h6, h7]

theorem required (h : SamePlace P l l') {d d' : Loc} (hd : l.ancestors.find? (fun p => isDefinition p.info) = some d)
    (hd' : l'.ancestors.find? (fun p => isDefinition p.info) = some d') :
    namesRequiredBefore l d.firstChild? = namesRequiredBefore l' d'.firstChild? := by
  rw [required_eq hd, required_eq hd']
  exact Around.before h.lefts h.around

theorem names_definition {i : NodeInfo} (h : isDefinition i = true) : getNamesInNode i = [] := by
  obtain ⟨d, e, n⟩ := i
  unfold isDefinition at h
  simp only [NodeInfo.flavor, Bool.or_eq_true, beq_iff_eq] at h
  cases d
  case plain fl s => cases fl <;> simp_all [NodeData.flavor, getNamesInNode, PlainFlavor.toFlavor]
  case attr a =>
    exfalso
    simp only [NodeData.flavor] at h
    split at h <;> simp at h
  all_goals simp [NodeData.flavor] at h

/-- These checks find the same at the same place. -/
theorem run (h : SamePlace P l l') {fn : CheckFn} (hfn : fn ∈ placeChecks) (m : Maps) (data : CheckData) (s : Statics) :
    fn.run m data l s = fn.run m data l' s := by
  simp only [placeChecks, List.mem_cons, List.not_mem_nil, or_false] at hfn
  rcases hfn with rfl | rfl | rfl | rfl | rfl | rfl | rfl | rfl | rfl
  · simp only [CheckFn.run, checkUnorderedDeclarationInRequire, h.isReq]
    split
    · rfl
    · rename_i hr
      have hm := h.focus.children (by
        have : isRequireBlock l'.focus.info = true := by simpa [Loc.info] using hr
        simp [closed, this])
      generalize l.focus.children = ts at hm ⊢
      generalize l'.focus.children = us at hm ⊢
      cases hm with
      | nil => rfl
      | @cons t u ts us h1 h2 =>
        have e : t.info.flavor = u.info.flavor := by rw [← h1.1]; rfl
        simp only [e]
        split
        · rfl
        · cases h2 with
          | nil => rfl
          | cons h3 h4 =>
            simp only
            rw [requireOrderLoop _ (.cons h3 h4)]
  · simp only [CheckFn.run, checkRequireBlock]
    rw [requireLoop h.focus.2.2]
  · simp only [CheckFn.run, checkIfCallsTemplate, h.data]
    rcases Matched.find h.ancestors (fun a b (hab : SamePlace P a b) => hab.isDef) with ⟨h1, h2⟩ | ⟨a, b, h1, h2, h3⟩
    · rw [h1, h2]
    · rw [h1, h2]
      simp only [h3.flavor, h3.str]
  · simp only [CheckFn.run, checkDeclInIf, h.data, declInIfLoop h.ancestors]
  · simp only [CheckFn.run, checkNoExplicitDeclaration, h.used, h.explicitLoop]
  · simp only [CheckFn.run, checkNameUsedButNotRequiredInIf, h.used, h.names]
    split
    · rfl
    · split
      · rfl
      · rename_i hn
        have hl' : isDefinition l'.info = false := by
          cases hd : isDefinition l'.info with
          | false => rfl
          | true =>
            exact absurd (names_definition hd) hn
        have hl : isDefinition l.info = false := by rw [h.isDef, hl']
        rw [List.find?_cons, List.find?_cons, hl, hl']
        rcases Matched.find h.ancestors (fun a b (hab : SamePlace P a b) => hab.isDef) with ⟨h1, h2⟩ | ⟨a, b, h1, h2, h3⟩
        · rw [h1, h2]
        · rw [h1, h2]
          simp only [h.required h1 h2]
  · simp only [CheckFn.run, checkModuleIfCallInOptional, h.data]
    rw [Matched.any h.ancestors fun a b hab => by rw [hab.flavor]]
  · simp only [CheckFn.run, checkRequiredDeclarationOwn, h.data, h.inRequire]
  · simp only [CheckFn.run, checkStrayWord, h.data, h.comparison]

end SamePlace
end Spec
end Selint
