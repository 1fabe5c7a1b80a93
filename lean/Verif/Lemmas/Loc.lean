import Verif.Lemmas.Run
import Verif.Props.Run
import Verif.Model.TeChecks
/-! # Lemmas: positions of nodes, ancestors and the rest of a traversal -/

namespace Selint

theorem eq_of_pairwise_lt {l : List Loc} (h : l.Pairwise fun a b => a.addr < b.addr) {a b : Loc}
    (ha : a ∈ l) (hb : b ∈ l) (he : a.addr = b.addr) : a = b := by
  induction l with
  | nil => simp at ha
  | cons x xs ih =>
    rw [List.pairwise_cons] at h
    rcases List.mem_cons.1 ha with rfl | ha' <;> rcases List.mem_cons.1 hb with rfl | hb'
    · rfl
    · have := h.1 b hb'; rw [he] at this; exact absurd this (List.lt_irrefl _)
    · have := h.1 a ha'; rw [he] at this; exact absurd this (List.lt_irrefl _)
    · exact ih h.2 ha' hb'

/-- In one AST a position determines the node. -/
theorem Loc.eq_of_addr {a b : Loc} (hu : a.unzip = b.unzip) (he : a.addr = b.addr) : a = b := by
  have ha := a.mem_locs_unzip
  have hb := b.mem_locs_unzip
  rw [hu] at ha
  exact eq_of_pairwise_lt (Tree.locsList_pairwise _ _ _) ha hb he

theorem Loc.path_eq_iff {a b : Loc} : a.path = b.path ↔ a.addr = b.addr := by
  unfold Loc.addr
  exact ⟨fun h => by rw [h], fun h => List.reverse_inj.1 h⟩

theorem Loc.addr_ne_nil (l : Loc) : l.addr ≠ [] := by
  rw [Loc.addr_eq]; simp

theorem Loc.unzip_parent {l p : Loc} (h : l.parent? = some p) : p.unzip = l.unzip := by
  unfold Loc.parent? at h
  split at h
  · cases h
  · rename_i f fs heq; cases h
    simp [Loc.unzip, Loc.siblings, Loc.plug, heq]

theorem Loc.addr_parent {l p : Loc} (h : l.parent? = some p) :
    l.addr = p.addr ++ [l.lefts.length] := by
  unfold Loc.parent? at h
  split at h
  · cases h
  · rename_i f fs heq; cases h
    simp [Loc.addr_eq, upsAddr, heq]

theorem Loc.info_parent {l p : Loc} (h : l.parent? = some p) :
    ∃ f fs, l.ups = f :: fs ∧ p.info = f.info ∧ p.ups = fs ∧ p.lefts = f.lefts := by
  unfold Loc.parent? at h
  split at h
  · cases h
  · rename_i f fs heq; cases h
    exact ⟨f, fs, heq, rfl, rfl, rfl⟩

theorem Loc.parent_none {l : Loc} : l.parent? = none ↔ l.ups = [] := by
  unfold Loc.parent?
  split <;> simp [*]

theorem Loc.unzip_prev {l p : Loc} (h : l.prev? = some p) : p.unzip = l.unzip := by
  unfold Loc.prev? at h
  split at h
  · cases h
  · rename_i f fs heq; cases h
    simp [Loc.unzip, Loc.siblings, heq]

theorem Loc.addr_prev {l p : Loc} (h : l.prev? = some p) :
    ∃ u k, l.addr = u ++ [k + 1] ∧ p.addr = u ++ [k] := by
  unfold Loc.prev? at h
  split at h
  · cases h
  · rename_i f fs heq; cases h
    exact ⟨upsAddr l.ups, fs.length, by simp [Loc.addr_eq, heq], by simp [Loc.addr_eq]⟩

theorem Loc.prev_none {l : Loc} : l.prev? = none ↔ l.lefts = [] := by
  unfold Loc.prev?
  split <;> simp [*]

theorem Loc.unzip_firstChild {l c : Loc} (h : l.firstChild? = some c) : c.unzip = l.unzip := by
  unfold Loc.firstChild? at h
  split at h
  · cases h
  · rename_i f fs heq; cases h
    simp only [Loc.unzip, Loc.siblings, Loc.plug, List.reverse_nil, List.nil_append]
    rw [← heq, Tree.mk_eta]

theorem Loc.addr_firstChild {l c : Loc} (h : l.firstChild? = some c) : c.addr = l.addr ++ [0] := by
  unfold Loc.firstChild? at h
  split at h
  · cases h
  · rename_i f fs heq; cases h
    simp [Loc.addr_eq, upsAddr]

theorem Loc.unzip_next {l n : Loc} (h : l.next? = some n) : n.unzip = l.unzip := by
  unfold Loc.next? at h
  split at h
  · cases h
  · rename_i f fs heq; cases h
    simp [Loc.unzip, Loc.siblings, heq]

/-! ## Ancestors -/

theorem Loc.ancestors_infos (l : Loc) : l.ancestors.map Loc.info = l.ups.map (·.info) := by
  fun_induction Loc.ancestors l with
  | case1 l h => rw [Loc.parent_none.1 h]; rfl
  | case2 l p h ih =>
    obtain ⟨f, fs, h1, h2, h3, -⟩ := Loc.info_parent h
    rw [h1, List.map_cons, List.map_cons, ih, h2, h3]

theorem Loc.any_ancestors (l : Loc) (p : NodeInfo → Bool) :
    l.ancestors.any (fun a => p a.info) = l.ups.any (fun f => p f.info) := by
  have := congrArg (List.any · p) l.ancestors_infos
  simpa [List.any_map, Function.comp_def] using this

/-- The ancestors of a node are the nodes whose position is a proper prefix of its own. -/
theorem Loc.mem_ancestors {l a : Loc} :
    a ∈ l.ancestors ↔ a.unzip = l.unzip ∧ ∃ s, s ≠ [] ∧ l.addr = a.addr ++ s := by
  fun_induction Loc.ancestors l with
  | case1 l h =>
    have hl := Loc.parent_none.1 h
    simp only [List.not_mem_nil, false_iff, not_and]
    rintro - ⟨s, hs, he⟩
    rw [Loc.addr_eq, hl] at he
    have h1 := congrArg List.length he
    have h2 := List.length_pos_iff.2 hs
    have h3 := List.length_pos_iff.2 a.addr_ne_nil
    simp [upsAddr] at h1
    omega
  | case2 l p h ih =>
    rw [List.mem_cons, ih]
    have hu := Loc.unzip_parent h
    have hadr := Loc.addr_parent h
    constructor
    · rintro (rfl | ⟨h1, s, hs, h2⟩)
      · exact ⟨hu, _, by simp, hadr⟩
      · exact ⟨h1.trans hu, s ++ [l.lefts.length], by simp, by rw [hadr, h2]; simp⟩
    · rintro ⟨h1, s, hs, h2⟩
      rcases List.eq_nil_or_concat s with rfl | ⟨s', x, rfl⟩
      · exact absurd rfl hs
      · rw [hadr, List.concat_eq_append, ← List.append_assoc] at h2
        obtain ⟨h3, -⟩ := List.append_inj' h2 (by simp)
        by_cases hs' : s' = []
        · subst hs'
          left
          rw [List.append_nil] at h3
          exact Loc.eq_of_addr (h1.trans hu.symm) h3.symm
        · right
          exact ⟨h1.trans hu.symm, s', hs', h3⟩

/-! ## The rest of a traversal -/

theorem Loc.walk_suffix {h l : Loc} (hl : l ∈ h.walk) : ∃ pre, h.walk = pre ++ l.walk := by
  fun_induction Loc.walk h with
  | case1 h hn =>
    simp only [List.mem_singleton] at hl
    subst hl
    exact ⟨[], by rw [C09_walk_is_dfs_next, hn]; simp⟩
  | case2 h n hn ih =>
    rcases List.mem_cons.1 hl with rfl | hl
    · exact ⟨[], by rw [List.nil_append, C09_walk_is_dfs_next l, hn]⟩
    · obtain ⟨pre, hp⟩ := ih hl
      exact ⟨h :: pre, by rw [hp]; simp⟩

theorem Loc.walk_pairwise (l : Loc) : l.walk.Pairwise fun a b => a.addr < b.addr := by
  have hne : l.unzip ≠ [] := by
    intro h
    have := l.mem_locs_unzip
    rw [h] at this
    simp [Tree.locsList] at this
  obtain ⟨t, ts, ht⟩ := List.exists_cons_of_ne_nil hne
  obtain ⟨h1, h2, -⟩ := C09_traversal (ts := l.unzip) (head := ⟨t, [], ts, []⟩)
    (by rw [ht]; rfl)
  obtain ⟨pre, hp⟩ := Loc.walk_suffix ((h1 l).2 rfl)
  rw [hp] at h2
  exact (List.pairwise_append.1 h2).2.1

/-- From a node on, the traversal visits exactly the nodes that do not stand before it. -/
theorem Loc.mem_walk {l a : Loc} : a ∈ l.walk ↔ a.unzip = l.unzip ∧ ¬ a.addr < l.addr := by
  have hne : l.unzip ≠ [] := by
    intro h
    have := l.mem_locs_unzip
    rw [h] at this
    simp [Tree.locsList] at this
  obtain ⟨t, ts, ht⟩ := List.exists_cons_of_ne_nil hne
  obtain ⟨h1, h2, -⟩ := C09_traversal (ts := l.unzip) (head := ⟨t, [], ts, []⟩)
    (by rw [ht]; rfl)
  obtain ⟨pre, hp⟩ := Loc.walk_suffix ((h1 l).2 rfl)
  have hself : l ∈ l.walk := by rw [C09_walk_is_dfs_next]; simp
  rw [hp] at h2
  obtain ⟨h3, h4, h5⟩ := List.pairwise_append.1 h2
  constructor
  · intro ha
    refine ⟨(h1 a).1 (by rw [hp]; exact List.mem_append_right _ ha), fun hlt => ?_⟩
    rw [C09_walk_is_dfs_next] at ha
    rcases List.mem_cons.1 ha with rfl | ha
    · exact List.lt_irrefl _ hlt
    · rw [C09_walk_is_dfs_next, List.pairwise_cons] at h4
      exact absurd hlt (List.lt_asymm (h4.1 a ha))
  · rintro ⟨hu, hlt⟩
    have := (h1 a).2 hu
    rw [hp] at this
    rcases List.mem_append.1 this with ha | ha
    · exact absurd (h5 a ha l hself) hlt
    · exact ha

/-- Stopping a traversal at a node gives the nodes before it. -/
theorem Loc.mem_takeWhile {l node a : Loc} (hn : node ∈ l.walk) :
    a ∈ l.walk.takeWhile (fun x => x.path ≠ node.path) ↔ a ∈ l.walk ∧ a.addr < node.addr := by
  obtain ⟨pre, hp⟩ := Loc.walk_suffix hn
  have hpw := l.walk_pairwise
  rw [hp] at hpw ⊢
  obtain ⟨h3, h4, h5⟩ := List.pairwise_append.1 hpw
  have hself : node ∈ node.walk := by rw [C09_walk_is_dfs_next]; simp
  have htw : (pre ++ node.walk).takeWhile (fun x => decide (x.path ≠ node.path)) = pre := by
    rw [List.takeWhile_append_of_pos]
    · rw [C09_walk_is_dfs_next]; simp
    · intro x hx
      simp only [ne_eq, decide_eq_true_eq, Loc.path_eq_iff]
      intro he
      have := h5 x hx node hself
      rw [he] at this
      exact List.lt_irrefl _ this
  rw [htw]
  constructor
  · intro ha
    exact ⟨List.mem_append_left _ ha, h5 a ha node hself⟩
  · rintro ⟨ha, hlt⟩
    rcases List.mem_append.1 ha with ha | ha
    · exact ha
    · exact absurd hlt (Loc.mem_walk.1 ha).2

end Selint
