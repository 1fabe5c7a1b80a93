import Verif.Spec.Maps
import Verif.Lemmas.Maps
/-! # C14: symbol tables -/

namespace Selint

open Spec

theorem apply_declTable (m : Maps) (op : MapOp) (g : DeclFlavor) :
    (op.apply m).declTable g = match op with
      | .decl n md fl => if g = fl then Assoc.insertNew (m.declTable fl) n md else m.declTable g
      | _ => m.declTable g := by
  cases op with
  | decl n md fl => exact Maps.insertDecl_table m n md fl g
  | transform n => simp only [MapOp.apply, Maps.markTransform]; split <;> cases g <;> rfl
  | filetrans n => simp only [MapOp.apply, Maps.markFiletrans]; split <;> cases g <;> rfl
  | role n => simp only [MapOp.apply, Maps.markRole]; split <;> cases g <;> rfl
  | _ => cases g <;> rfl

/-- **C14 (declarations).** After any history of insertions (of any kind), a symbol of a
class is known iff some insertion declared it in that class, and its module is that of the
*first* such insertion. In particular insertions of other classes have no influence. -/
theorem C14_decl_first_wins (ops : List MapOp) (k : Str) (fl : DeclFlavor) :
    (tablesAfter ops).lookUpDecl k fl = ops.findSome? (·.declares k fl) := by
  suffices h : ∀ m : Maps, (ops.foldl MapOp.apply m).lookUpDecl k fl =
      (m.lookUpDecl k fl).or (ops.findSome? (·.declares k fl)) by
    have := h {}
    rw [tablesAfter, this]
    cases fl <;> rfl
  intro m
  induction ops generalizing m with
  | nil => simp
  | cons op ops ih =>
    rw [List.foldl_cons, ih, List.findSome?_cons]
    have h1 : (op.apply m).lookUpDecl k fl =
        (m.lookUpDecl k fl).or (op.declares k fl) := by
      unfold Maps.lookUpDecl
      rw [apply_declTable]
      cases op with
      | decl n md g =>
        simp only [MapOp.declares]
        by_cases hg : fl = g
        · subst hg; simp [Assoc.find_insertNew]
        · simp [hg, Ne.symm hg]
      | _ => simp [MapOp.declares]
    rw [h1]
    cases m.lookUpDecl k fl <;> cases op.declares k fl <;> simp

/-- **C14 (counts).** The size of a class is the number of different names declared in it. -/
theorem C14_count_distinct (ops : List MapOp) (fl : DeclFlavor) :
    ∃ names : List Str, names.Nodup ∧ (∀ k, k ∈ names ↔ ∃ md, MapOp.decl k md fl ∈ ops) ∧
      (tablesAfter ops).declCount fl = names.length := by
  have hnd : ∀ (ops : List MapOp) (m : Maps), ((m.declTable fl).map (·.1)).Nodup →
      (((ops.foldl MapOp.apply m).declTable fl).map (·.1)).Nodup := by
    intro ops
    induction ops with
    | nil => intro m h; exact h
    | cons op ops ih =>
      intro m h
      rw [List.foldl_cons]
      apply ih
      rw [apply_declTable]
      cases op with
      | decl n md g =>
        simp only
        by_cases hg : fl = g
        · subst hg
          simp only [if_true]
          unfold Assoc.insertNew
          cases hf : (m.declTable fl).find n with
          | some _ => exact h
          | none =>
            rw [Assoc.find_eq_none_iff] at hf
            simp only [List.map_append, List.map_cons, List.map_nil]
            rw [List.nodup_append]
            refine ⟨h, by simp, ?_⟩
            intro a ha b hb
            simp only [List.mem_singleton] at hb
            subst hb; intro hab; subst hab; exact hf ha
        · simp [hg, h]
      | _ => exact h
  refine ⟨((tablesAfter ops).declTable fl).map (·.1), hnd ops {} (by cases fl <;> simp [Maps.declTable]), ?_, ?_⟩
  · intro k
    rw [← Assoc.find_isSome_iff]
    have := C14_decl_first_wins ops k fl
    unfold Maps.lookUpDecl at this
    rw [this, List.findSome?_isSome_iff]
    constructor
    · rintro ⟨op, hmem, h⟩
      cases op with
      | decl n md g =>
        simp only [MapOp.declares] at h
        split at h
        · rename_i hh; obtain ⟨rfl, rfl⟩ := hh; exact ⟨md, hmem⟩
        · simp at h
      | _ => simp [MapOp.declares] at h
    · rintro ⟨md, h⟩
      exact ⟨_, h, by simp [MapOp.declares]⟩
  · simp [Maps.declCount]

/-- A table reached by `find` through a projection `T` behaves "first wins" if every
operation does on it. -/
theorem find_foldl {β : Type} (T : Maps → Assoc β) (sel : Str → MapOp → Option β)
    (hstep : ∀ m op k, (T (op.apply m)).find k = ((T m).find k).or (sel k op))
    (ops : List MapOp) (m : Maps) (k : Str) :
    (T (ops.foldl MapOp.apply m)).find k = ((T m).find k).or (ops.findSome? (sel k)) := by
  induction ops generalizing m with
  | nil => simp
  | cons op ops ih =>
    rw [List.foldl_cons, ih, hstep, List.findSome?_cons]
    cases (T m).find k <;> cases sel k op <;> simp

theorem apply_mods (m : Maps) (op : MapOp) (k : Str) :
    ((op.apply m).mods).find k = (m.mods.find k).or (op.setsMod k) := by
  cases op with
  | mod n s => simp [MapOp.apply, Maps.insertMod, Assoc.find_insertNew, MapOp.setsMod]
  | decl n md fl => simp [MapOp.apply, (Maps.insertDecl_other m n md fl).1, MapOp.setsMod]
  | transform n => simp only [MapOp.apply, Maps.markTransform]; split <;> simp [MapOp.setsMod]
  | filetrans n => simp only [MapOp.apply, Maps.markFiletrans]; split <;> simp [MapOp.setsMod]
  | role n => simp only [MapOp.apply, Maps.markRole]; split <;> simp [MapOp.setsMod]
  | _ => simp [MapOp.apply, MapOp.setsMod, Maps.insertModLayer, Maps.insertIf, Maps.insertTemplate,
      Maps.insertTemplateDecl, Maps.insertTemplateCall, Maps.updTemplate, Maps.insertPermmacro]

theorem apply_layers (m : Maps) (op : MapOp) (k : Str) :
    ((op.apply m).modLayers).find k = (m.modLayers.find k).or (op.setsLayer k) := by
  cases op with
  | layer n s => simp [MapOp.apply, Maps.insertModLayer, Assoc.find_insertNew, MapOp.setsLayer]
  | decl n md fl => simp [MapOp.apply, (Maps.insertDecl_other m n md fl).2.1, MapOp.setsLayer]
  | transform n => simp only [MapOp.apply, Maps.markTransform]; split <;> simp [MapOp.setsLayer]
  | filetrans n => simp only [MapOp.apply, Maps.markFiletrans]; split <;> simp [MapOp.setsLayer]
  | role n => simp only [MapOp.apply, Maps.markRole]; split <;> simp [MapOp.setsLayer]
  | _ => simp [MapOp.apply, MapOp.setsLayer, Maps.insertMod, Maps.insertIf, Maps.insertTemplate,
      Maps.insertTemplateDecl, Maps.insertTemplateCall, Maps.updTemplate, Maps.insertPermmacro]

theorem apply_ifs (m : Maps) (op : MapOp) (k : Str) :
    ((op.apply m).ifs).find k = (m.ifs.find k).or (op.definesIf k) := by
  cases op with
  | iface n s => simp [MapOp.apply, Maps.insertIf, Assoc.find_insertNew, MapOp.definesIf]
  | decl n md fl => simp [MapOp.apply, (Maps.insertDecl_other m n md fl).2.2.1, MapOp.definesIf]
  | transform n => simp only [MapOp.apply, Maps.markTransform]; split <;> simp [MapOp.definesIf]
  | filetrans n => simp only [MapOp.apply, Maps.markFiletrans]; split <;> simp [MapOp.definesIf]
  | role n => simp only [MapOp.apply, Maps.markRole]; split <;> simp [MapOp.definesIf]
  | _ => simp [MapOp.apply, MapOp.definesIf, Maps.insertMod, Maps.insertModLayer, Maps.insertTemplate,
      Maps.insertTemplateDecl, Maps.insertTemplateCall, Maps.updTemplate, Maps.insertPermmacro]

theorem apply_permmacros (m : Maps) (op : MapOp) (k : Str) :
    ((op.apply m).permmacros).find k = (m.permmacros.find k).or (op.definesPermmacro k) := by
  cases op with
  | permmacro n s => simp [MapOp.apply, Maps.insertPermmacro, Assoc.find_insertNew, MapOp.definesPermmacro]
  | decl n md fl =>
    simp [MapOp.apply, (Maps.insertDecl_other m n md fl).2.2.2.2.2.2.1, MapOp.definesPermmacro]
  | transform n => simp only [MapOp.apply, Maps.markTransform]; split <;> simp [MapOp.definesPermmacro]
  | filetrans n => simp only [MapOp.apply, Maps.markFiletrans]; split <;> simp [MapOp.definesPermmacro]
  | role n => simp only [MapOp.apply, Maps.markRole]; split <;> simp [MapOp.definesPermmacro]
  | _ => simp [MapOp.apply, MapOp.definesPermmacro, Maps.insertMod, Maps.insertModLayer, Maps.insertIf,
      Maps.insertTemplate, Maps.insertTemplateDecl, Maps.insertTemplateCall, Maps.updTemplate]

/-- **C14 (modules, layers, interfaces, permission macros).** The first insertion wins and
nothing else has influence. A permission macro with an empty definition is not found. -/
theorem C14_maps_first_wins (ops : List MapOp) (k : Str) :
    (tablesAfter ops).lookUpMod k = ops.findSome? (·.setsMod k) ∧
    (tablesAfter ops).lookUpModLayer k = ops.findSome? (·.setsLayer k) ∧
    (tablesAfter ops).lookUpIf k = ops.findSome? (·.definesIf k) ∧
    (tablesAfter ops).lookUpPermmacro k =
      (ops.findSome? (·.definesPermmacro k)).filter (· ≠ []) := by
  refine ⟨?_, ?_, ?_, ?_⟩
  · exact (find_foldl Maps.mods MapOp.setsMod (fun m op k => apply_mods m op k) ops {} k).trans
      (by simp)
  · exact (find_foldl Maps.modLayers MapOp.setsLayer (fun m op k => apply_layers m op k) ops {} k).trans
      (by simp)
  · exact (find_foldl Maps.ifs MapOp.definesIf (fun m op k => apply_ifs m op k) ops {} k).trans
      (by simp)
  · have := (find_foldl Maps.permmacros MapOp.definesPermmacro
      (fun m op k => apply_permmacros m op k) ops {} k).trans
      (by simp : _ = ops.findSome? (·.definesPermmacro k))
    unfold Maps.lookUpPermmacro tablesAfter
    rw [this]
    cases ops.findSome? (·.definesPermmacro k) with
    | none => rfl
    | some p => cases p <;> rfl

/-- **C14 (interface properties).** An interface has a property iff it was marked. -/
theorem C14_marks (ops : List MapOp) (k : Str) :
    ((tablesAfter ops).isTransform k = true ↔ MapOp.transform k ∈ ops) ∧
    ((tablesAfter ops).isFiletrans k = true ↔ MapOp.filetrans k ∈ ops) ∧
    ((tablesAfter ops).isRole k = true ↔ MapOp.role k ∈ ops) := by
  have gen : ∀ (T : Maps → List Str) (mk : Str → MapOp),
      (∀ m op, k ∈ T (op.apply m) ↔ k ∈ T m ∨ op = mk k) → T {} = [] →
      (k ∈ T (tablesAfter ops) ↔ mk k ∈ ops) := by
    intro T mk hstep h0
    suffices h : ∀ m, k ∈ T (ops.foldl MapOp.apply m) ↔ k ∈ T m ∨ mk k ∈ ops by
      rw [tablesAfter, h {}, h0]; simp
    clear h0
    induction ops with
    | nil => intro m; simp
    | cons op ops ih =>
      intro m
      rw [List.foldl_cons, ih, hstep, List.mem_cons]
      grind
  refine ⟨?_, ?_, ?_⟩
  · unfold Maps.isTransform
    rw [decide_eq_true_eq]
    refine gen Maps.transform MapOp.transform ?_ rfl
    intro m op
    cases op with
    | decl n md fl => simp [MapOp.apply, (Maps.insertDecl_other m n md fl).2.2.2.1]
    | transform n => simp only [MapOp.apply, Maps.markTransform]; split <;> simp <;> grind
    | filetrans n => simp only [MapOp.apply, Maps.markFiletrans]; split <;> simp
    | role n => simp only [MapOp.apply, Maps.markRole]; split <;> simp
    | _ => simp [MapOp.apply, Maps.insertMod, Maps.insertModLayer, Maps.insertIf, Maps.insertPermmacro,
        Maps.insertTemplate, Maps.insertTemplateDecl, Maps.insertTemplateCall, Maps.updTemplate]
  · unfold Maps.isFiletrans
    rw [decide_eq_true_eq]
    refine gen Maps.filetrans MapOp.filetrans ?_ rfl
    intro m op
    cases op with
    | decl n md fl => simp [MapOp.apply, (Maps.insertDecl_other m n md fl).2.2.2.2.1]
    | transform n => simp only [MapOp.apply, Maps.markTransform]; split <;> simp
    | filetrans n => simp only [MapOp.apply, Maps.markFiletrans]; split <;> simp <;> grind
    | role n => simp only [MapOp.apply, Maps.markRole]; split <;> simp
    | _ => simp [MapOp.apply, Maps.insertMod, Maps.insertModLayer, Maps.insertIf, Maps.insertPermmacro,
        Maps.insertTemplate, Maps.insertTemplateDecl, Maps.insertTemplateCall, Maps.updTemplate]
  · unfold Maps.isRole
    rw [decide_eq_true_eq]
    refine gen Maps.roleIf MapOp.role ?_ rfl
    intro m op
    cases op with
    | decl n md fl => simp [MapOp.apply, (Maps.insertDecl_other m n md fl).2.2.2.2.2.1]
    | transform n => simp only [MapOp.apply, Maps.markTransform]; split <;> simp
    | filetrans n => simp only [MapOp.apply, Maps.markFiletrans]; split <;> simp
    | role n => simp only [MapOp.apply, Maps.markRole]; split <;> simp <;> grind
    | _ => simp [MapOp.apply, Maps.insertMod, Maps.insertModLayer, Maps.insertIf, Maps.insertPermmacro,
        Maps.insertTemplate, Maps.insertTemplateDecl, Maps.insertTemplateCall, Maps.updTemplate]

/-- The effect of one operation on a template's entry. -/
def opTemplate (k : Str) (op : MapOp) (o : Option TemplateElem) : Option TemplateElem :=
  if op.mentionsTemplate k then
    let t := o.getD ⟨[], []⟩
    some ⟨t.declarations ++ (op.addsDecl k).toList, t.calls ++ (op.addsCall k).toList⟩
  else o

theorem lookUp_updTemplate (m : Maps) (n k : Str) (f : TemplateElem → TemplateElem) :
    (m.updTemplate n f).lookUpTemplate k =
      if n = k then some (f ((m.lookUpTemplate k).getD ⟨[], []⟩)) else m.lookUpTemplate k := by
  unfold Maps.updTemplate Maps.lookUpTemplate
  simp only [Assoc.find_modify, Assoc.find_insertNew]
  by_cases h : n = k
  · subst h
    cases m.template.find n <;> simp
  · simp [h]

theorem apply_template (m : Maps) (op : MapOp) (k : Str) :
    (op.apply m).lookUpTemplate k = opTemplate k op (m.lookUpTemplate k) := by
  unfold opTemplate
  cases op with
  | decl n md fl =>
    simp [MapOp.apply, Maps.lookUpTemplate, (Maps.insertDecl_other m n md fl).2.2.2.2.2.2.2,
      MapOp.mentionsTemplate]
  | transform n =>
    simp only [MapOp.apply, Maps.markTransform]; split <;> simp [Maps.lookUpTemplate, MapOp.mentionsTemplate]
  | filetrans n =>
    simp only [MapOp.apply, Maps.markFiletrans]; split <;> simp [Maps.lookUpTemplate, MapOp.mentionsTemplate]
  | role n =>
    simp only [MapOp.apply, Maps.markRole]; split <;> simp [Maps.lookUpTemplate, MapOp.mentionsTemplate]
  | template n =>
    simp only [MapOp.apply, Maps.insertTemplate, lookUp_updTemplate, MapOp.mentionsTemplate,
      MapOp.addsDecl, MapOp.addsCall, decide_eq_true_eq]
    split <;> simp
  | templateDecl n fl d =>
    simp only [MapOp.apply, Maps.insertTemplateDecl, lookUp_updTemplate, MapOp.mentionsTemplate,
      MapOp.addsDecl, MapOp.addsCall, decide_eq_true_eq]
    split <;> simp
  | templateCall n c =>
    simp only [MapOp.apply, Maps.insertTemplateCall, lookUp_updTemplate, MapOp.mentionsTemplate,
      MapOp.addsDecl, MapOp.addsCall, decide_eq_true_eq]
    split <;> simp
  | _ => simp [MapOp.apply, Maps.insertMod, Maps.insertModLayer, Maps.insertIf, Maps.insertPermmacro,
      Maps.lookUpTemplate, MapOp.mentionsTemplate]

/-- **C14 (templates).** A template is known iff some insertion mentioned it; its
declarations and calls are those inserted for it, in order. -/
theorem C14_templates (ops : List MapOp) (k : Str) :
    (tablesAfter ops).lookUpTemplate k =
      if ops.any (·.mentionsTemplate k) then
        some ⟨ops.filterMap (·.addsDecl k), ops.filterMap (·.addsCall k)⟩
      else none := by
  suffices h : ∀ m : Maps, (ops.foldl MapOp.apply m).lookUpTemplate k =
      if ops.any (·.mentionsTemplate k) then
        let t := (m.lookUpTemplate k).getD ⟨[], []⟩
        some ⟨t.declarations ++ ops.filterMap (·.addsDecl k), t.calls ++ ops.filterMap (·.addsCall k)⟩
      else m.lookUpTemplate k by
    rw [tablesAfter, h {}]; rfl
  intro m
  induction ops generalizing m with
  | nil => simp
  | cons op ops ih =>
    rw [List.foldl_cons, ih, apply_template]
    have hd : op.mentionsTemplate k = false → op.addsDecl k = none ∧ op.addsCall k = none := by
      intro h
      cases op <;> simp_all [MapOp.mentionsTemplate, MapOp.addsDecl, MapOp.addsCall]
    have hfm1 : (op :: ops).filterMap (·.addsDecl k) =
        (op.addsDecl k).toList ++ ops.filterMap (·.addsDecl k) := by
      rw [List.filterMap_cons]; cases op.addsDecl k <;> simp
    have hfm2 : (op :: ops).filterMap (·.addsCall k) =
        (op.addsCall k).toList ++ ops.filterMap (·.addsCall k) := by
      rw [List.filterMap_cons]; cases op.addsCall k <;> simp
    rw [hfm1, hfm2, List.any_cons]
    unfold opTemplate
    cases hm : op.mentionsTemplate k with
    | false => simp [hd hm]
    | true =>
      simp only [if_true, Bool.true_or, Option.getD_some, List.append_assoc]
      split
      · rfl
      · rename_i hany
        have hnone : ∀ o ∈ ops, o.addsDecl k = none ∧ o.addsCall k = none := by
          intro o ho
          have : o.mentionsTemplate k = false := by
            cases hh : o.mentionsTemplate k with
            | false => rfl
            | true => exact absurd (List.any_eq_true.mpr ⟨o, ho, hh⟩) hany
          cases o <;> simp_all [MapOp.mentionsTemplate, MapOp.addsDecl, MapOp.addsCall]
        have e1 : ops.filterMap (·.addsDecl k) = [] := by
          rw [List.filterMap_eq_nil_iff]; exact fun o ho => (hnone o ho).1
        have e2 : ops.filterMap (·.addsCall k) = [] := by
          rw [List.filterMap_eq_nil_iff]; exact fun o ho => (hnone o ho).2
        rw [e1, e2]; simp

/-- **C14 (template calls).** A node counts as a call of a template iff it is a call of a name that
was entered as a template, or as one of whose contents something was recorded. -/
theorem C14_template_call (ops : List MapOp) (n : NodeInfo) :
    isTemplateCall (tablesAfter ops) n = true ↔
      ∃ d, n.data = .ifCall d ∧ ∃ op ∈ ops, op.mentionsTemplate d.name = true := by
  unfold isTemplateCall
  split
  · rename_i d hd
    rw [C14_templates]
    constructor
    · intro h
      split at h
      · rename_i ha; exact ⟨d, hd, List.any_eq_true.1 ha⟩
      · cases h
    · rintro ⟨d', h1, h2⟩
      rw [hd] at h1
      cases h1
      rw [if_pos (List.any_eq_true.2 h2)]
      rfl
  · rename_i h
    constructor
    · intro h'; cases h'
    · rintro ⟨d, h1, -⟩; exact absurd h1 (h d)

/-- Non-vacuity: two modules declare `a_t`; a role of the same name; an unrelated mark. -/
def exOps : List MapOp :=
  [.decl cs!"a_t" cs!"m1" .type, .transform cs!"a_t", .decl cs!"a_t" cs!"m2" .type,
   .decl cs!"a_t" cs!"m3" .role, .templateDecl cs!"t" .type cs!"$1_t", .template cs!"t"]
example : (tablesAfter exOps).lookUpDecl cs!"a_t" .type = some cs!"m1" ∧
    (tablesAfter exOps).lookUpDecl cs!"a_t" .role = some cs!"m3" ∧
    (tablesAfter exOps).lookUpDecl cs!"a_t" .user = none ∧
    (tablesAfter exOps).declCount .type = 1 ∧
    (tablesAfter exOps).templateDecls cs!"t" = [(.type, cs!"$1_t")] ∧
    isTemplateCall (tablesAfter exOps) ⟨.ifCall ⟨cs!"t", []⟩, none, 1⟩ = true ∧
    isTemplateCall (tablesAfter exOps) ⟨.ifCall ⟨cs!"a_t", []⟩, none, 1⟩ = false := by decide

end Selint
