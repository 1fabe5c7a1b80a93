import Verif.Spec.Tree
/-! # Lemmas about traversal -/

namespace Selint

mutual
/-- Pointers to all nodes of a tree, given its surroundings. -/
def Tree.locs (t : Tree) (ls rs : List Tree) (ups : List Frame) : List Loc :=
  match t with
  | .mk i cs => ⟨.mk i cs, ls, rs, ups⟩ :: Tree.locsList [] cs (⟨ls, i, rs⟩ :: ups)
/-- Pointers to all nodes of a list of siblings with left siblings `ls`. -/
def Tree.locsList (ls : List Tree) (ts : List Tree) (ups : List Frame) : List Loc :=
  match ts with
  | [] => []
  | t :: ts => t.locs ls ts ups ++ Tree.locsList (t :: ls) ts ups
end

namespace Loc

/-- Pointers to all nodes after the subtree of a node, in document order. -/
def after (t : Tree) (ls rs : List Tree) : List Frame → List Loc
  | [] => Tree.locsList (t :: ls) rs []
  | f :: fs => Tree.locsList (t :: ls) rs (f :: fs) ++
      after (.mk f.info (ls.reverse ++ t :: rs)) f.lefts f.rights fs

/-- All nodes from a node on, in document order. -/
def seq (l : Loc) : List Loc := l.focus.locs l.lefts l.rights l.ups ++ after l.focus l.lefts l.rights l.ups

theorem climb_seq (t : Tree) (ls : List Tree) (ups : List Frame) :
    after t ls [] ups = match climb t ls [] ups with | none => [] | some n => n.seq := by
  induction ups generalizing t ls with
  | nil => simp [after, climb, Tree.locsList]
  | cons f fs ih =>
    simp only [after, Tree.locsList, List.nil_append, climb]
    cases hr : f.rights with
    | nil => rw [ih]
    | cons r rs =>
      cases fs with
      | nil => simp [after, Tree.locsList, seq]
      | cons g gs =>
        simp [after, Tree.locsList, seq]

theorem seq_step (l : Loc) : l.seq = l :: (match l.dfsNext with | none => [] | some n => n.seq) := by
  obtain ⟨⟨i, cs⟩, ls, rs, ups⟩ := l
  unfold dfsNext firstChild? next?
  cases cs with
  | cons c cs =>
    simp [seq, Tree.locs, Tree.locsList, after]
  | nil =>
    cases rs with
    | cons r rs =>
      cases ups <;> simp [seq, Tree.locs, Tree.locsList, after]
    | nil =>
      simp [seq, Tree.locs, Tree.locsList, climb_seq]

/-- Number of nodes still to visit. -/
def remaining (l : Loc) : Nat := l.seq.length

theorem remaining_dfsNext {l n : Loc} (h : l.dfsNext = some n) : n.remaining < l.remaining := by
  unfold remaining
  rw [seq_step l, h]; simp

end Loc

theorem Tree.locsList_append (ls xs ys : List Tree) (ups : List Frame) :
    ∃ zs, Tree.locsList ls (xs ++ ys) ups = zs ++ Tree.locsList (xs.reverse ++ ls) ys ups := by
  induction xs generalizing ls with
  | nil => exact ⟨[], by simp⟩
  | cons x xs ih =>
    obtain ⟨zs, h⟩ := ih (x :: ls)
    exact ⟨x.locs ls (xs ++ ys) ups ++ zs, by simp [Tree.locsList, h]⟩

theorem Loc.mem_locs_self (l : Loc) : l ∈ l.focus.locs l.lefts l.rights l.ups := by
  obtain ⟨⟨i, cs⟩, ls, rs, ups⟩ := l
  simp [Tree.locs]

theorem Loc.mem_siblings_locs (l : Loc) : l ∈ Tree.locsList [] l.siblings l.ups := by
  obtain ⟨zs, h⟩ := Tree.locsList_append [] l.lefts.reverse (l.focus :: l.rights) l.ups
  unfold siblings
  rw [h]
  simp only [Tree.locsList, List.append_nil, List.reverse_reverse]
  have := l.mem_locs_self
  simp [this]

theorem Loc.plug_locs_subset (sibs : List Tree) (ups : List Frame) :
    ∀ l ∈ Tree.locsList [] sibs ups, l ∈ Tree.locsList [] (plug sibs ups) [] := by
  induction ups generalizing sibs with
  | nil => simp [plug]
  | cons f fs ih =>
    intro l hl
    unfold plug
    apply ih
    obtain ⟨zs, h⟩ := Tree.locsList_append [] f.lefts.reverse (.mk f.info sibs :: f.rights) fs
    rw [h]
    simp only [Tree.locsList, List.append_nil, List.reverse_reverse, Tree.locs]
    simp only [List.mem_append, List.mem_cons]
    exact Or.inr (Or.inl (Or.inr hl))

theorem Loc.mem_locs_unzip (l : Loc) : l ∈ Tree.locsList [] l.unzip [] :=
  plug_locs_subset _ _ _ l.mem_siblings_locs

mutual
theorem Tree.unzip_of_mem_locs (t : Tree) (ls rs : List Tree) (ups : List Frame) (l : Loc)
    (h : l ∈ t.locs ls rs ups) : l.unzip = Loc.plug (ls.reverse ++ t :: rs) ups := by
  match t with
  | .mk i cs =>
    simp only [Tree.locs, List.mem_cons] at h
    rcases h with h | h
    · subst h; rfl
    · rw [Tree.unzip_of_mem_locsList [] cs _ l h]; simp [Loc.plug]
theorem Tree.unzip_of_mem_locsList (ls ts : List Tree) (ups : List Frame) (l : Loc)
    (h : l ∈ Tree.locsList ls ts ups) : l.unzip = Loc.plug (ls.reverse ++ ts) ups := by
  match ts with
  | [] => simp [Tree.locsList] at h
  | t :: ts =>
    simp only [Tree.locsList, List.mem_append] at h
    rcases h with h | h
    · exact Tree.unzip_of_mem_locs t ls ts ups l h
    · rw [Tree.unzip_of_mem_locsList (t :: ls) ts ups l h]; simp
end

mutual
theorem Tree.locs_infos (t : Tree) (ls rs : List Tree) (ups : List Frame) :
    (t.locs ls rs ups).map Loc.info = t.preorder := by
  match t with
  | .mk i cs => simp [Tree.locs, Tree.preorder, Loc.info, Tree.locsList_infos [] cs]
theorem Tree.locsList_infos (ls ts : List Tree) (ups : List Frame) :
    (Tree.locsList ls ts ups).map Loc.info = Tree.preorderList ts := by
  match ts with
  | [] => simp [Tree.locsList, Tree.preorderList]
  | t :: ts => simp [Tree.locsList, Tree.preorderList, Tree.locs_infos t, Tree.locsList_infos _ ts]
end

/-- Address of the enclosing nodes. -/
def upsAddr (ups : List Frame) : List Nat := (ups.map (·.lefts.length)).reverse

theorem Loc.addr_eq (l : Loc) : l.addr = upsAddr l.ups ++ [l.lefts.length] := by
  simp [Loc.addr, Loc.path, upsAddr]

theorem upsAddr_cons (f : Frame) (fs : List Frame) :
    upsAddr (f :: fs) = upsAddr fs ++ [f.lefts.length] := by
  simp [upsAddr]

mutual
theorem Tree.addr_of_mem_locs (t : Tree) (ls rs : List Tree) (ups : List Frame) (l : Loc)
    (h : l ∈ t.locs ls rs ups) : ∃ s, l.addr = upsAddr ups ++ ls.length :: s := by
  match t with
  | .mk i cs =>
    simp only [Tree.locs, List.mem_cons] at h
    rcases h with h | h
    · subst h; exact ⟨[], by simp [Loc.addr_eq]⟩
    · obtain ⟨j, s, _, h2⟩ := Tree.addr_of_mem_locsList [] cs _ l h
      refine ⟨j :: s, ?_⟩
      rw [h2, upsAddr_cons]; simp
theorem Tree.addr_of_mem_locsList (ls ts : List Tree) (ups : List Frame) (l : Loc)
    (h : l ∈ Tree.locsList ls ts ups) :
    ∃ j s, ls.length ≤ j ∧ l.addr = upsAddr ups ++ j :: s := by
  match ts with
  | [] => simp [Tree.locsList] at h
  | t :: ts =>
    simp only [Tree.locsList, List.mem_append] at h
    rcases h with h | h
    · obtain ⟨s, hs⟩ := Tree.addr_of_mem_locs t ls ts ups l h
      exact ⟨_, s, Nat.le_refl _, hs⟩
    · obtain ⟨j, s, h1, h2⟩ := Tree.addr_of_mem_locsList (t :: ls) ts ups l h
      exact ⟨j, s, by simp at h1; omega, h2⟩
end

theorem append_lt_append_left (p : List Nat) {a b : List Nat} (h : a < b) : p ++ a < p ++ b := by
  induction p with
  | nil => simpa
  | cons x xs ih => simp [ih]

mutual
theorem Tree.locs_pairwise (t : Tree) (ls rs : List Tree) (ups : List Frame) :
    (t.locs ls rs ups).Pairwise fun a b => a.addr < b.addr := by
  match t with
  | .mk i cs =>
    simp only [Tree.locs, List.pairwise_cons]
    refine ⟨?_, Tree.locsList_pairwise [] cs _⟩
    intro b hb
    obtain ⟨j, s, _, h⟩ := Tree.addr_of_mem_locsList [] cs _ b hb
    rw [h, upsAddr_cons, Loc.addr_eq]
    simp only [List.append_assoc, List.cons_append, List.nil_append]
    apply append_lt_append_left
    simp
theorem Tree.locsList_pairwise (ls ts : List Tree) (ups : List Frame) :
    (Tree.locsList ls ts ups).Pairwise fun a b => a.addr < b.addr := by
  match ts with
  | [] => simp [Tree.locsList]
  | t :: ts =>
    simp only [Tree.locsList, List.pairwise_append]
    refine ⟨Tree.locs_pairwise t ls ts ups, Tree.locsList_pairwise (t :: ls) ts ups, ?_⟩
    intro a ha b hb
    obtain ⟨s, h1⟩ := Tree.addr_of_mem_locs t ls ts ups a ha
    obtain ⟨j, s', h2, h3⟩ := Tree.addr_of_mem_locsList (t :: ls) ts ups b hb
    rw [h1, h3]
    apply append_lt_append_left
    simp only [List.length_cons] at h2
    simp only [List.cons_lt_cons_iff]; left; omega
end

end Selint
