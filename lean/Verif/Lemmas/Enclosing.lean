import Verif.Spec.IfChecks
import Verif.Model.IfChecks
import Verif.Lemmas.Checks
/-! # Lemmas: definitions and require blocks around a statement, and what follows them -/

namespace Selint
open Spec

theorem isDefinition_iff {l : Loc} : isDefinition l.info = true ↔ Definition l := by
  simp [isDefinition, Definition, Loc.flavor, Loc.info]

theorem encloses_trans {a b c : Loc} (h1 : Encloses a b) (h2 : Encloses b c) : Encloses a c := by
  obtain ⟨u1, s, hs, e1⟩ := h1
  obtain ⟨u2, t, ht, e2⟩ := h2
  exact ⟨u1.trans u2, s ++ t, by simp [hs], by rw [e2, e1]; simp⟩

theorem encloses_irrefl {a : Loc} : ¬ Encloses a a := by
  rintro ⟨-, s, hs, e⟩
  have := congrArg List.length e
  rw [List.length_append] at this
  exact hs (List.length_eq_zero_iff.1 (by omega))

theorem encloses_asymm {a b : Loc} (h1 : Encloses a b) : ¬ Encloses b a :=
  fun h2 => encloses_irrefl (encloses_trans h1 h2)

/-- The ancestors are listed from the inside out. -/
theorem ancestors_pairwise (l : Loc) : l.ancestors.Pairwise fun a b => Encloses b a := by
  fun_induction Loc.ancestors l with
  | case1 => exact .nil
  | case2 l p h ih => exact List.pairwise_cons.2 ⟨fun b hb => mem_ancestors_iff.1 hb, ih⟩

/-- The first ancestor with a property is the innermost one. -/
theorem find_ancestor_iff {P : Loc → Bool} {l d : Loc} :
    l.ancestors.find? P = some d ↔
      P d = true ∧ Encloses d l ∧ ∀ d', P d' = true → Encloses d' l → d' = d ∨ Encloses d' d := by
  have fwd : ∀ d, l.ancestors.find? P = some d → P d = true ∧ Encloses d l ∧
      ∀ d', P d' = true → Encloses d' l → d' = d ∨ Encloses d' d := by
    intro d h
    obtain ⟨h1, b, a, h2, h3⟩ := List.find?_eq_some_iff_append.1 h
    have hpw := ancestors_pairwise l
    refine ⟨h1, mem_ancestors_iff.1 (by simp [h2]), fun d' hd' he => ?_⟩
    have := mem_ancestors_iff.2 he
    rw [h2] at this hpw
    rcases List.mem_append.1 this with hb | hb
    · have := h3 d' hb; rw [hd'] at this; simp at this
    · rcases List.mem_cons.1 hb with rfl | hb
      · exact Or.inl rfl
      · exact Or.inr ((List.pairwise_cons.1 (List.pairwise_append.1 hpw).2.1).1 d' hb)
  refine ⟨fwd d, fun ⟨h1, h2, h3⟩ => ?_⟩
  cases hf : l.ancestors.find? P with
  | none =>
    rw [List.find?_eq_none] at hf
    exact absurd h1 (hf d (mem_ancestors_iff.2 h2))
  | some e =>
    obtain ⟨h4, h5, h6⟩ := fwd e hf
    rcases h3 e h4 h5 with rfl | he
    · rfl
    · rcases h6 d h1 h2 with rfl | he'
      · rfl
      · exact absurd he (encloses_asymm he')

theorem find_definition_iff {l d : Loc} :
    l.ancestors.find? (fun p => isDefinition p.info) = some d ↔ DefinitionAround d l := by
  rw [find_ancestor_iff]
  simp only [isDefinition_iff, DefinitionAround]

theorem children_of_encloses {a l : Loc} (h : Encloses a l) : a.focus.children ≠ [] := by
  have := mem_ancestors_iff.2 h
  clear h
  fun_induction Loc.ancestors l with
  | case1 => simp at this
  | case2 l p h ih =>
    rcases List.mem_cons.1 this with rfl | hm
    · unfold Loc.parent? at h
      split at h
      · cases h
      · cases h; simp [Tree.children]
    · exact ih hm

/-! ## Positions inside a definition -/

theorem between_prefix {p r s : List Nat} (h1 : ¬ r < p ++ [0]) (h2 : r < p ++ s) :
    ∃ t, t ≠ [] ∧ r = p ++ t := by
  induction p generalizing r with
  | nil =>
    refine ⟨r, ?_, rfl⟩
    rintro rfl
    exact h1 (by simp)
  | cons x p ih =>
    cases r with
    | nil => exact absurd (by simp) h1
    | cons y r =>
      rw [List.cons_append, List.cons_lt_cons_iff] at h1 h2
      simp only [not_or, not_and] at h1
      rcases h2 with h2 | ⟨rfl, h2⟩
      · exact absurd h2 h1.1
      · obtain ⟨t, ht, rfl⟩ := ih (h1.2 rfl) h2
        exact ⟨t, ht, rfl⟩

theorem not_lt_first {p t : List Nat} (ht : t ≠ []) : ¬ p ++ t < p ++ [0] := by
  induction p with
  | nil =>
    obtain ⟨x, xs, rfl⟩ := List.exists_cons_of_ne_nil ht
    rw [List.nil_append, List.nil_append, List.cons_lt_cons_iff]
    simp
  | cons x p ih =>
    rw [List.cons_append, List.cons_append, List.cons_lt_cons_iff]
    simp only [Nat.lt_irrefl, true_and, false_or]
    exact ih

/-- The nodes that the search for require blocks passes. -/
theorem mem_before {d c node r : Loc} (hc : d.firstChild? = some c) (hn : Encloses d node) :
    r ∈ c.walk.takeWhile (fun x => x.path ≠ node.path) ↔ Encloses d r ∧ r.addr < node.addr := by
  have hu := Loc.unzip_firstChild hc
  have ha := Loc.addr_firstChild hc
  have hin : ∀ x, Encloses d x → x ∈ c.walk := by
    rintro x ⟨hx, s, hs, e⟩
    exact Loc.mem_walk.2 ⟨hx.symm.trans hu.symm, by rw [ha, e]; exact not_lt_first hs⟩
  rw [Loc.mem_takeWhile (hin node hn)]
  constructor
  · rintro ⟨h1, h2⟩
    obtain ⟨h3, h4⟩ := Loc.mem_walk.1 h1
    rw [ha] at h4
    obtain ⟨hd, s, hs, e⟩ := hn
    have h2' := h2
    rw [e] at h2'
    obtain ⟨t, ht, e2⟩ := between_prefix h4 h2'
    exact ⟨⟨(h3.trans hu).symm, t, ht, e2⟩, h2⟩
  · rintro ⟨h1, h2⟩
    exact ⟨hin r h1, h2⟩

/-- The names that W-002 takes as required. -/
theorem mem_namesRequiredBefore {d node : Loc} (hn : Encloses d node) (x : Str) :
    x ∈ namesRequiredBefore node d.firstChild? ↔
      ∃ r, RequireBlock r ∧ Encloses d r ∧ r.addr < node.addr ∧ BlockMentions r x := by
  cases hc : d.firstChild? with
  | none =>
    have := children_of_encloses hn
    unfold Loc.firstChild? at hc
    split at hc
    · contradiction
    · cases hc
  | some c =>
    simp only [namesRequiredBefore, List.mem_flatMap, List.mem_filter, mem_before hc hn,
      C50_required, isRequireBlock_iff, BlockMentions]
    constructor
    · rintro ⟨r, ⟨⟨h1, h2⟩, h3⟩, h4⟩; exact ⟨r, h3, h1, h2, h4⟩
    · rintro ⟨r, h3, h1, h2, h4⟩; exact ⟨r, ⟨⟨h1, h2⟩, h3⟩, h4⟩

/-! ## Climbing to the definition -/

theorem climbToDefinition_spec (l : List Loc) (req : Option Loc) (hl : l ≠ []) :
    ∃ pre d post, l = pre ++ d :: post ∧ (∀ x ∈ pre, ¬ Definition x) ∧
      (Definition d ∨ post = []) ∧
      climbToDefinition req l =
        some (d, ((pre.filter fun x => isRequireBlock x.info).getLast?).or req) := by
  induction l generalizing req with
  | nil => exact absurd rfl hl
  | cons c l ih =>
    cases l with
    | nil => exact ⟨[], c, [], rfl, by simp, Or.inr rfl, rfl⟩
    | cons up rest =>
      rw [climbToDefinition]
      by_cases hd : isDefinition c.info = true
      · rw [if_pos hd]
        exact ⟨[], c, up :: rest, rfl, by simp, Or.inl (isDefinition_iff.1 hd), rfl⟩
      · rw [if_neg hd]
        obtain ⟨pre, d, post, h1, h2, h3, h4⟩ :=
          ih (if isRequireBlock c.info then some c else req) (by simp)
        refine ⟨c :: pre, d, post, by rw [h1]; rfl, ?_, h3, ?_⟩
        · intro x hx
          rcases List.mem_cons.1 hx with rfl | hx
          · exact fun e => hd (isDefinition_iff.2 e)
          · exact h2 x hx
        · rw [h4]
          by_cases hr : isRequireBlock c.info = true
          · rw [if_pos hr, List.filter_cons_of_pos (by simpa using hr), List.getLast?_cons]
            cases hg : (pre.filter fun x => isRequireBlock x.info).getLast? <;> rfl
          · rw [if_neg hr, List.filter_cons_of_neg (by simpa using hr)]

/-- What W-003 finds around a declaration. -/
theorem climb_found {node d : Loc} (hnd : ¬ Definition node) (hnr : ¬ RequireBlock node)
    (hd : DefinitionAround d node) :
    ∃ req, climbToDefinition none (node :: node.ancestors) = some (d, req) ∧
      ∀ r, req = some r ↔ OutermostRequire d r node := by
  obtain ⟨pre, e, post, h1, h2, h3, h4⟩ := climbToDefinition_spec (node :: node.ancestors) none (by simp)
  cases pre with
  | nil =>
    simp only [List.nil_append, List.cons.injEq] at h1
    exfalso
    rcases h3 with h3 | h3
    · exact hnd (h1.1 ▸ h3)
    · have := mem_ancestors_iff.2 hd.2.1
      rw [h1.2, h3] at this
      simp at this
  | cons n pre =>
    simp only [List.cons_append, List.cons.injEq] at h1
    obtain ⟨rfl, hanc⟩ := h1
    have hmem := mem_ancestors_iff.2 hd.2.1
    have hpw := ancestors_pairwise node
    rw [hanc] at hmem hpw
    obtain ⟨hp1, hp2, hp3⟩ := List.pairwise_append.1 hpw
    have hde : d = e := by
      rcases List.mem_append.1 hmem with h | h
      · exact absurd hd.1 (h2 d (List.mem_cons_of_mem _ h))
      · rcases List.mem_cons.1 h with h | h
        · exact h
        · rcases h3 with h3 | h3
          · rcases hd.2.2 e h3 (mem_ancestors_iff.1 (by simp [hanc])) with rfl | hx
            · rfl
            · exact absurd hx (encloses_asymm ((List.pairwise_cons.1 hp2).1 d h))
          · rw [h3] at h; simp at h
    subst hde
    refine ⟨_, h4, fun r => ?_⟩
    rw [List.filter_cons_of_neg (by simpa using fun e => hnr (isRequireBlock_iff.1 e)), Option.or_none]
    have hin : ∀ r, r ∈ pre.filter (fun x => isRequireBlock x.info) ↔
        RequireBlock r ∧ Encloses d r ∧ Encloses r node := by
      intro r
      rw [List.mem_filter, isRequireBlock_iff]
      constructor
      · rintro ⟨h5, h6⟩
        exact ⟨h6, hp3 r h5 d (by simp), mem_ancestors_iff.1 (by rw [hanc]; simp [h5])⟩
      · rintro ⟨h5, h6, h7⟩
        refine ⟨?_, h5⟩
        have := mem_ancestors_iff.2 h7
        rw [hanc] at this
        rcases List.mem_append.1 this with h | h
        · exact h
        · rcases List.mem_cons.1 h with rfl | h
          · exact absurd h6 encloses_irrefl
          · exact absurd h6 (encloses_asymm ((List.pairwise_cons.1 hp2).1 r h))
    have hpf : (pre.filter fun x => isRequireBlock x.info).Pairwise fun a b => Encloses b a :=
      hp1.sublist List.filter_sublist
    generalize hL : pre.filter (fun x => isRequireBlock x.info) = L at hin hpf
    constructor
    · intro h
      obtain ⟨L', rfl⟩ := List.getLast?_eq_some_iff.1 h
      obtain ⟨h5, h6, h7⟩ := (hin r).1 (by simp)
      refine ⟨h5, h6, h7, fun r' h8 h9 h10 => ?_⟩
      have := (hin r').2 ⟨h8, h9, h10⟩
      rcases List.mem_append.1 this with h | h
      · exact Or.inr ((List.pairwise_append.1 hpf).2.2 r' h r (by simp))
      · left; simpa using h
    · rintro ⟨h5, h6, h7, h8⟩
      have hrL := (hin r).2 ⟨h5, h6, h7⟩
      rcases List.eq_nil_or_concat L with rfl | ⟨L', z, rfl⟩
      · simp at hrL
      · rw [List.concat_eq_append] at *
        obtain ⟨h9, h10, h11⟩ := (hin z).1 (by simp)
        rcases h8 z h9 h10 h11 with rfl | hz
        · simp
        · rcases List.mem_append.1 hrL with h | h
          · exact absurd hz (encloses_asymm ((List.pairwise_append.1 hpf).2.2 r h z (by simp)))
          · simp only [List.mem_singleton] at h; subst h; exact absurd hz encloses_irrefl

/-- W-003 stops without a definition around the declaration. -/
theorem climb_not_found {node : Loc} (hnd : ¬ Definition node)
    (hd : ∀ d, ¬ DefinitionAround d node) :
    ∃ top req, climbToDefinition none (node :: node.ancestors) = some (top, req) ∧
      ¬ Definition top := by
  obtain ⟨pre, e, post, h1, h2, h3, h4⟩ := climbToDefinition_spec (node :: node.ancestors) none (by simp)
  refine ⟨e, _, h4, fun he => ?_⟩
  cases hf : node.ancestors.find? (fun p => isDefinition p.info) with
  | some d => exact hd d (find_definition_iff.1 hf)
  | none =>
    rw [List.find?_eq_none] at hf
    have : e ∈ node :: node.ancestors := by rw [h1]; simp
    rcases List.mem_cons.1 this with rfl | h
    · exact hnd he
    · exact hf e h (isDefinition_iff.2 he)

/-! ## The names used after the require block -/

/-- The nodes from a node on, up to `depth` levels above it. -/
def nodesWithin (l : Loc) (depth : Nat) : List NodeInfo :=
  l.focus.preorder ++ Tree.preorderList l.rights ++
    (l.ups.take depth).flatMap fun f => Tree.preorderList f.rights

theorem climbWithin_nodes (depth : Nat) (l : Loc) (hn : l.next? = none)
    (hd : depth ≤ l.ups.length) :
    ((climbWithin l depth).1.next? = none →
      ((l.ups.take depth).flatMap fun f => Tree.preorderList f.rights) = []) ∧
    ∀ n, (climbWithin l depth).1.next? = some n →
      nodesWithin n (climbWithin l depth).2 =
        ((l.ups.take depth).flatMap fun f => Tree.preorderList f.rights) ∧
      (climbWithin l depth).2 ≤ n.ups.length := by
  induction depth generalizing l with
  | zero => simp [climbWithin, hn]
  | succ d ih =>
    obtain ⟨t, ls, rs, ups⟩ := l
    cases ups with
    | nil => simp at hd
    | cons f fs =>
      simp only [climbWithin, Loc.parent?]
      by_cases hf : f.rights = []
      · rw [if_neg (by simp [Loc.next?, hf])]
        have := ih ⟨.mk f.info (ls.reverse ++ t :: rs), f.lefts, f.rights, fs⟩
          (by simp [Loc.next?, hf]) (by simpa using hd)
        rw [List.take_succ_cons, List.flatMap_cons, hf]
        rw [hf] at this
        exact this
      · obtain ⟨r, rs', he⟩ := List.exists_cons_of_ne_nil hf
        rw [if_pos (by simp [Loc.next?, he])]
        simp only [Loc.next?, he, reduceCtorEq, false_implies, true_and, Option.some.injEq]
        rintro n rfl
        simp only [List.length_cons, Nat.add_le_add_iff_right] at hd
        exact ⟨by simp [nodesWithin, he, Tree.preorderList], hd⟩

theorem usesStep_nodes (l : Loc) (depth : Nat) (hd : depth ≤ l.ups.length) :
    (usesStep l depth = none → nodesWithin l depth = [l.info]) ∧
    ∀ n d, usesStep l depth = some (n, d) →
      nodesWithin l depth = l.info :: nodesWithin n d ∧ d ≤ n.ups.length := by
  obtain ⟨⟨i, cs⟩, ls, rs, ups⟩ := l
  cases cs with
  | cons c cs =>
    simp only [usesStep, Loc.firstChild?, Tree.children]
    constructor
    · simp
    · intro n d h
      cases h
      simp only [List.length_cons]
      exact ⟨by simp [nodesWithin, Tree.preorder, Tree.preorderList, Loc.info, Tree.info], by
        simp only at hd; omega⟩
  | nil =>
    cases rs with
    | cons r rs =>
      simp only [usesStep, Loc.firstChild?, Tree.children, Loc.next?]
      constructor
      · simp
      · intro n d h
        cases h
        exact ⟨by simp [nodesWithin, Tree.preorder, Tree.preorderList, Loc.info, Tree.info], hd⟩
    | nil =>
      simp only [usesStep, Loc.firstChild?, Tree.children]
      have hnx : Loc.next? ⟨.mk i [], ls, [], ups⟩ = none := rfl
      rw [hnx]
      obtain ⟨h1, h2⟩ := climbWithin_nodes depth ⟨.mk i [], ls, [], ups⟩ hnx hd
      simp only [Option.map_eq_none_iff, Option.map_eq_some_iff, Prod.mk.injEq]
      constructor
      · intro h
        have := h1 h
        simp only at this
        simp [nodesWithin, Tree.preorder, Tree.preorderList, Loc.info, Tree.info, -List.flatMap_eq_nil_iff, this]
      · rintro n d ⟨m, h3, rfl, rfl⟩
        obtain ⟨h4, h5⟩ := h2 m h3
        rw [h4]
        exact ⟨by simp [nodesWithin, Tree.preorder, Tree.preorderList, Loc.info, Tree.info], h5⟩

theorem namesUsed_eq (l : Loc) (depth : Nat) (hd : depth ≤ l.ups.length) :
    namesUsed l depth = (nodesWithin l depth).flatMap getNamesInNode := by
  obtain ⟨h1, h2⟩ := usesStep_nodes l depth hd
  unfold namesUsed
  split
  · rename_i h
    rw [h1 h]; simp
  · rename_i n d h
    obtain ⟨h3, h4⟩ := h2 n d h
    rw [h3, List.flatMap_cons, namesUsed_eq n d h4]
termination_by l.remaining
decreasing_by exact Loc.remaining_dfsNext (usesStep_dfsNext (by assumption))

/-- The names W-003 takes as used are those of the statements after the require block. -/
theorem mem_namesUsed (r : Loc) (x : Str) :
    x ∈ (match r.next? with | none => [] | some n => namesUsed n 0) ↔ MentionedAfter r x := by
  have key : (match r.next? with | none => [] | some n => namesUsed n 0) =
      (Tree.preorderList r.rights).flatMap getNamesInNode := by
    obtain ⟨t, ls, rs, ups⟩ := r
    cases rs with
    | nil => simp [Loc.next?, Tree.preorderList]
    | cons c rs => simp [Loc.next?, namesUsed_eq, nodesWithin, Tree.preorderList]
  rw [key]
  simp only [List.mem_flatMap, C50_names_exact, MentionedAfter]

end Selint
