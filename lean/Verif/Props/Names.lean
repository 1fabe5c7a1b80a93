import Verif.Spec.Names
import Verif.Model.Tree
/-! # C50: the names used by a statement -/

namespace Selint

open Spec

theorem stripDash_iff (w x : Str) : stripDash w = x ↔ NameOf w x := by
  unfold stripDash NameOf
  split
  · rename_i s
    constructor
    · rintro rfl; exact Or.inl rfl
    · rintro (h | ⟨_, h⟩)
      · simpa using h
      · exact absurd rfl (h s)
  · rename_i h
    constructor
    · rintro rfl; exact Or.inr ⟨rfl, fun t ht => h t ht⟩
    · rintro (h' | h')
      · exact absurd h' (h x)
      · exact h'.1

theorem mem_map_stripDash (l : List Str) (x : Str) :
    x ∈ l.map stripDash ↔ ∃ w ∈ l, NameOf w x := by
  simp only [List.mem_map, stripDash_iff]

/-- **C50 (content).** A name is extracted from a statement iff the statement mentions it,
possibly with an exclusion dash. -/
theorem C50_names_exact (n : NodeInfo) (x : Str) :
    x ∈ getNamesInNode n ↔ ∃ w, Mentions n.data w ∧ NameOf w x := by
  unfold getNamesInNode
  simp only [mem_map_stripDash]
  constructor
  · rintro ⟨w, hw, hx⟩
    refine ⟨w, ?_, hx⟩
    split at hw
    · rename_i d h; rw [h]; simp only [List.mem_append] at hw
      rcases hw with hw | hw
      · exact .avSource hw
      · exact .avTarget hw
    · rename_i d op h; rw [h]; simp only [List.mem_append] at hw
      rcases hw with hw | hw
      · exact .xavSource hw
      · exact .xavTarget hw
    · rename_i d h; rw [h]; simp only [List.mem_append, List.mem_singleton] at hw
      rcases hw with (hw | hw) | rfl
      · exact .ttSource hw
      · exact .ttTarget hw
      · exact .ttDefault
    · rename_i d h; rw [h]; simp only [List.mem_append, List.mem_singleton] at hw
      rcases hw with (hw | hw) | rfl
      · exact .rtSource hw
      · exact .rtTarget hw
      · exact .rtDefault
    · rename_i d h; rw [h]; simp only [List.mem_cons] at hw
      rcases hw with rfl | hw
      · exact .declName
      · exact .declAttr hw
    · rename_i d h; rw [h]; simp only [IfCallData.argStrs, List.mem_map] at hw
      obtain ⟨⟨a, b⟩, hm, rfl⟩ := hw
      exact .callArg hm
    · rename_i d h; rw [h]; simp only [List.mem_append] at hw
      rcases hw with hw | hw
      · exact .allowFrom hw
      · exact .allowTo hw
    · rename_i d h; rw [h]; simp only [List.mem_cons] at hw
      rcases hw with rfl | hw
      · exact .rtypesRole
      · exact .rtypesType hw
    · rename_i d h; rw [h]; simp only [List.mem_cons] at hw
      rcases hw with rfl | hw
      · exact .attrType
      · exact .attrAttr hw
    · rename_i s h; rw [h]; simp only [List.mem_singleton] at hw; subst hw; exact .alias
    · rename_i s h; rw [h]; simp only [List.mem_singleton] at hw; subst hw; exact .typeAlias
    · rename_i s h; rw [h]; simp only [List.mem_singleton] at hw; subst hw; exact .permissive
    · simp at hw
  · rintro ⟨w, hm, hx⟩
    refine ⟨w, ?_, hx⟩
    generalize n.data = dat at hm
    cases hm <;> simp_all [IfCallData.argStrs]
    rename_i b h; cases b <;> simp [h]

/-- **C50 (order).** The order is that of the statement: sources, targets, result; role
before types; declared name before attributes; arguments in call order. -/
theorem C50_order (n : NodeInfo) :
    (∀ d, n.data = .av d → getNamesInNode n = d.sources.map stripDash ++ d.targets.map stripDash) ∧
    (∀ d op, n.data = .xav d op → getNamesInNode n = d.sources.map stripDash ++ d.targets.map stripDash) ∧
    (∀ d, n.data = .tt d → getNamesInNode n =
      d.sources.map stripDash ++ d.targets.map stripDash ++ [stripDash d.defaultType]) ∧
    (∀ d, n.data = .rt d → getNamesInNode n =
      d.sources.map stripDash ++ d.targets.map stripDash ++ [stripDash d.defaultRole]) ∧
    (∀ d, n.data = .decl d → getNamesInNode n = stripDash d.name :: d.attrs.map stripDash) ∧
    (∀ d, n.data = .ifCall d → getNamesInNode n = d.args.map fun a => stripDash a.1) ∧
    (∀ d, n.data = .roleAllow d → getNamesInNode n = d.frm.map stripDash ++ d.to.map stripDash) ∧
    (∀ d, n.data = .roleTypes d → getNamesInNode n = stripDash d.role :: d.types.map stripDash) ∧
    (∀ d, n.data = .attr d → getNamesInNode n = stripDash d.type :: d.attrs.map stripDash) := by
  unfold getNamesInNode
  refine ⟨?_, ?_, ?_, ?_, ?_, ?_, ?_, ?_, ?_⟩ <;> intros <;> simp_all [IfCallData.argStrs]

/-- The names listed in a require block are those of its direct children. -/
theorem C50_required (t : Tree) (x : Str) :
    x ∈ getNamesRequired t ↔ ∃ c ∈ t.children, ∃ w, Mentions c.info.data w ∧ NameOf w x := by
  unfold getNamesRequired
  simp only [List.mem_flatMap, C50_names_exact]

/-- Non-vacuity: `allow { a_t -b_t } self:file read;`. -/
example : getNamesInNode ⟨.av ⟨.allow, [cs!"a_t", cs!"-b_t"], [cs!"self"], [cs!"file"], [cs!"read"]⟩, none, 1⟩
    = [cs!"a_t", cs!"b_t", cs!"self"] := by decide

end Selint
