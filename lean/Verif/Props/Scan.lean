import Verif.Spec.Main
import Verif.Lemmas.Basic
/-! # C47: file selection -/

namespace Selint

open Spec

theorem suffix3_iff (suf path : Str) (h : suf.length = 3) :
    suffix3 path = some suf ↔ HasSuffix suf path := by
  unfold suffix3 HasSuffix
  constructor
  · intro h1
    split at h1
    · rename_i hl
      simp only [Option.some.injEq] at h1
      refine ⟨path.take (path.length - 3), ?_, ?_⟩
      · intro h0
        have := congrArg List.length h0
        simp at this; omega
      · rw [← h1, List.take_append_drop]
    · simp at h1
  · rintro ⟨b, hb, rfl⟩
    have : 0 < b.length := List.length_pos_iff.mpr hb
    rw [if_pos (by simp; omega)]
    simp [h]

theorem hiddenName_iff (n : Str) : hiddenName n = true ↔ Hidden n := by
  unfold hiddenName Hidden
  split
  · rename_i c r
    simp only [bne_iff_ne, ne_eq, List.cons.injEq, true_and]
    constructor
    · intro h; exact ⟨c, r, ⟨rfl, rfl⟩, h⟩
    · rintro ⟨c', r', ⟨rfl, rfl⟩, h⟩; exact h
  · rename_i h
    simp only [Bool.false_eq_true, false_iff]
    rintro ⟨c, r, rfl, h'⟩
    exact h c r rfl

/-- The three policy suffixes exclude each other. -/
theorem suffix_excl {p a b : Str} (ha : a.length = 3) (hb : b.length = 3) (h1 : HasSuffix a p)
    (h2 : HasSuffix b p) : a = b := by
  rw [← suffix3_iff a p ha] at h1
  rw [← suffix3_iff b p hb] at h2
  rw [h1] at h2; simpa using h2

/-- **C47 (classification).** Whatever is visited, its path is appended to the list its
suffix demands and to no other list; without policy suffix the lists do not change. -/
theorem C47_classify (o : Options) (e : FtsEnt) (s : Scan) :
    (visitMain o e s).1.te = s.te ++ (if HasSuffix cs!".te" e.path then [e.path] else []) ∧
    (visitMain o e s).1.ifs = s.ifs ++ (if HasSuffix cs!".if" e.path then [e.path] else []) ∧
    (visitMain o e s).1.fc = s.fc ++ (if HasSuffix cs!".fc" e.path then [e.path] else []) ∧
    (visitMain o e s).1.contextTe = s.contextTe ∧ (visitMain o e s).1.contextIf = s.contextIf := by
  unfold visitMain
  simp only [suffix3_iff _ _ (rfl : cs!".te".length = 3), suffix3_iff _ _ (rfl : cs!".if".length = 3),
    suffix3_iff _ _ (rfl : cs!".fc".length = 3)]
  by_cases h1 : HasSuffix cs!".te" e.path
  · have h2 : ¬ HasSuffix cs!".if" e.path := fun h => absurd (suffix_excl rfl rfl h1 h) (by decide)
    have h3 : ¬ HasSuffix cs!".fc" e.path := fun h => absurd (suffix_excl rfl rfl h1 h) (by decide)
    simp [h1, h2, h3]
  · by_cases h2 : HasSuffix cs!".if" e.path
    · have h3 : ¬ HasSuffix cs!".fc" e.path := fun h => absurd (suffix_excl rfl rfl h2 h) (by decide)
      simp [h1, h2, h3]
    · by_cases h3 : HasSuffix cs!".fc" e.path
      · simp [h1, h2, h3]
      · simp only [h1, h2, h3, if_false, List.append_nil]
        split
        · simp
        · split
          · simp
          · split <;> simp

/-- **C47 (layers).** An interface file `stem.if` says that the module `stem` is in the layer named
like the directory the file is in; nothing else that is visited changes the tables. -/
theorem C47_layer (o : Options) (e : FtsEnt) (s : Scan) :
    (∀ stem, e.name = stem ++ cs!".if" → HasSuffix cs!".if" e.path →
      (visitMain o e s).1.maps = s.maps.insertModLayer stem e.parentName) ∧
    (¬HasSuffix cs!".if" e.path → (visitMain o e s).1.maps = s.maps) := by
  unfold visitMain
  simp only [suffix3_iff _ _ (rfl : cs!".te".length = 3), suffix3_iff _ _ (rfl : cs!".if".length = 3),
    suffix3_iff _ _ (rfl : cs!".fc".length = 3)]
  constructor
  · intro stem hn h2
    have h1 : ¬ HasSuffix cs!".te" e.path := fun h => absurd (suffix_excl rfl rfl h h2) (by decide)
    simp [h1, h2, hn]
  · intro h2
    simp only [h2, if_false]
    repeat' split
    all_goals rfl

/-- The file `kernel/corenetwork.if`. -/
example : (visitMain {} ⟨cs!"m/kernel/corenetwork.if", cs!"corenetwork.if", cs!"kernel", .other⟩ {}).1.maps.lookUpModLayer
    cs!"corenetwork" = some cs!"kernel" := by decide

/-- Filter by suffix. -/
def bySuffix (suf : Str) (l : List Str) : List Str := l.filter fun p => decide (HasSuffix suf p)

theorem bySuffix_append (suf : Str) (a b : List Str) :
    bySuffix suf (a ++ b) = bySuffix suf a ++ bySuffix suf b := by simp [bySuffix]

theorem bySuffix_single (suf p : Str) :
    bySuffix suf [p] = if HasSuffix suf p then [p] else [] := by
  unfold bySuffix; by_cases h : HasSuffix suf p <;> simp [h]

/-- Lists collected by a walk. -/
def Collected (s s' : Scan) (fs : List Str) : Prop :=
  s'.te = s.te ++ bySuffix cs!".te" fs ∧ s'.ifs = s.ifs ++ bySuffix cs!".if" fs ∧
  s'.fc = s.fc ++ bySuffix cs!".fc" fs

theorem Collected.trans {a b c : Scan} {f g : List Str} (h1 : Collected a b f)
    (h2 : Collected b c g) : Collected a c (f ++ g) := by
  obtain ⟨x1, x2, x3⟩ := h1
  obtain ⟨y1, y2, y3⟩ := h2
  exact ⟨by rw [y1, x1, bySuffix_append, List.append_assoc],
    by rw [y2, x2, bySuffix_append, List.append_assoc],
    by rw [y3, x3, bySuffix_append, List.append_assoc]⟩

theorem collected_visit (o : Options) (e : FtsEnt) (s : Scan) :
    Collected s (visitMain o e s).1 [e.path] := by
  obtain ⟨h1, h2, h3, _⟩ := C47_classify o e s
  exact ⟨by rw [h1, bySuffix_single], by rw [h2, bySuffix_single], by rw [h3, bySuffix_single]⟩

/-- A directory with an ordinary name is not collected, and is skipped iff not recursive or
hidden. -/
theorem visit_plainDir (o : Options) (e : FtsEnt) (s : Scan)
    (h : PlainDir o.sourceFlag e.path e.name) :
    visitMain o e s = (s, !o.recursiveScan || (!o.scanHiddenDirs && e.info == .d && hiddenName e.name)) := by
  obtain ⟨h1, h2, h3, h4⟩ := h
  unfold visitMain
  simp only [suffix3_iff _ _ (rfl : cs!".te".length = 3), suffix3_iff _ _ (rfl : cs!".if".length = 3),
    suffix3_iff _ _ (rfl : cs!".fc".length = 3), h1, h2, h3, if_false, strcmp_eq_zero]
  cases hs : o.sourceFlag with
  | false => simp
  | true => simp [h4 hs]

mutual
theorem walk_recursive (o : Options) (hr : o.recursiveScan = true) (path name parent : Str) :
    (fs : Fs) → (s : Scan) → PlainDirs o.sourceFlag path name fs →
    Collected s (ftsWalk (visitMain o) path name parent fs s)
      (visibleFiles o.scanHiddenDirs path name fs)
  | .file, s, _ => by
    unfold ftsWalk visibleFiles; exact collected_visit o _ s
  | .dir es, s, hp => by
    unfold PlainDirs at hp
    unfold ftsWalk visibleFiles
    rw [visit_plainDir o ⟨path, name, parent, .d⟩ s hp.1]
    simp only [hr, Bool.not_true, Bool.false_or, beq_self_eq_true, Bool.and_true]
    by_cases hh : Hidden name ∧ o.scanHiddenDirs = false
    · have : hiddenName name = true := (hiddenName_iff name).mpr hh.1
      simp only [hh.2, this, Bool.not_false, Bool.and_self, if_true]
      rw [visit_plainDir o ⟨path, name, parent, .dp⟩ s hp.1, if_pos ⟨hh.1, trivial⟩]
      simp [Collected, bySuffix]
    · rw [if_neg hh]
      have : (!o.scanHiddenDirs && hiddenName name) = false := by
        cases h1 : o.scanHiddenDirs with
        | true => rfl
        | false =>
          cases h2 : hiddenName name with
          | false => rfl
          | true => exact absurd ⟨(hiddenName_iff name).mp h2, h1⟩ hh
      simp only [this, Bool.false_eq_true, if_false]
      rw [visit_plainDir o ⟨path, name, parent, .dp⟩ _ hp.1]
      exact walk_recursive_list o hr path name es s hp.2
theorem walk_recursive_list (o : Options) (hr : o.recursiveScan = true) (dp dn : Str) :
    (l : FsList) → (s : Scan) → PlainDirsIn o.sourceFlag dp l →
    Collected s (ftsWalkList (visitMain o) dp dn l s) (visibleFilesIn o.scanHiddenDirs dp l)
  | .nil, s, _ => by
    unfold ftsWalkList visibleFilesIn; simp [Collected, bySuffix]
  | .cons n fs rest, s, hp => by
    unfold PlainDirsIn at hp
    unfold ftsWalkList visibleFilesIn
    exact (walk_recursive o hr (joinPath dp n) n dn fs s hp.1).trans
      (walk_recursive_list o hr dp dn rest _ hp.2)
end

/-- **C47 (recursive).** With `-r`, and no directory named like a policy or support file,
the files checked are exactly those below the given paths with a policy suffix, in order,
leaving out everything below hidden directories unless `--scan-hidden-dirs` is given. -/
theorem C47_recursive (o : Options) (hr : o.recursiveScan = true) (roots : List (Str × Fs))
    (hp : ∀ r ∈ roots, PlainDirs o.sourceFlag r.1 (baseName r.1) r.2) (m : Maps) :
    let found := roots.flatMap fun r => visibleFiles o.scanHiddenDirs r.1 (baseName r.1) r.2
    let s := scanMain o roots { maps := m }
    s.te = bySuffix cs!".te" found ∧ s.ifs = bySuffix cs!".if" found ∧
    s.fc = bySuffix cs!".fc" found := by
  suffices h : ∀ s0 : Scan, Collected s0 (scanMain o roots s0)
      (roots.flatMap fun r => visibleFiles o.scanHiddenDirs r.1 (baseName r.1) r.2) by
    simpa [Collected] using h { maps := m }
  unfold scanMain
  induction roots with
  | nil => intro s0; simp [Collected, bySuffix]
  | cons r rs ih =>
    intro s0
    simp only [List.foldl_cons, List.flatMap_cons]
    exact (walk_recursive o hr r.1 (baseName r.1) [] r.2 s0 (hp r (by simp))).trans
      (ih (fun r' hr' => hp r' (by simp [hr'])) _)

/-- The paths that are files themselves. -/
def explicitFiles (roots : List (Str × Fs)) : List Str :=
  roots.filterMap fun r => match r.2 with | .file => some r.1 | .dir _ => none

/-- **C47 (not recursive).** Without `-r` the files checked are exactly the paths on the
command line that are files and have a policy suffix (given that no directory named there
has the name of a policy or support file). -/
theorem C47_nonrecursive (o : Options) (hr : o.recursiveScan = false) (roots : List (Str × Fs))
    (hp : ∀ r ∈ roots, r.2 ≠ .file → PlainDir o.sourceFlag r.1 (baseName r.1)) (m : Maps) :
    let s := scanMain o roots { maps := m }
    s.te = bySuffix cs!".te" (explicitFiles roots) ∧ s.ifs = bySuffix cs!".if" (explicitFiles roots) ∧
    s.fc = bySuffix cs!".fc" (explicitFiles roots) := by
  suffices h : ∀ s0 : Scan, Collected s0 (scanMain o roots s0) (explicitFiles roots) by
    simpa [Collected] using h { maps := m }
  unfold scanMain
  induction roots with
  | nil => intro s0; simp [Collected, bySuffix, explicitFiles]
  | cons r rs ih =>
    intro s0
    obtain ⟨p, fs⟩ := r
    have hrest := ih (fun r' hr' => hp r' (by simp [hr']))
    simp only [List.foldl_cons]
    cases fs with
    | file =>
      have h1 : Collected s0 (ftsWalk (visitMain o) p (baseName p) [] .file s0) [p] := by
        unfold ftsWalk; exact collected_visit o _ s0
      have : explicitFiles ((p, Fs.file) :: rs) = [p] ++ explicitFiles rs := by simp [explicitFiles]
      rw [this]
      exact h1.trans (hrest _)
    | dir es =>
      have hpd := hp (p, .dir es) (by simp) (by simp)
      have h1 : ftsWalk (visitMain o) p (baseName p) [] (.dir es) s0 = s0 := by
        unfold ftsWalk
        rw [visit_plainDir o _ s0 hpd]
        simp only [hr, Bool.not_false, Bool.true_or, if_true]
        rw [visit_plainDir o _ s0 hpd]
      have : explicitFiles ((p, Fs.dir es) :: rs) = explicitFiles rs := by simp [explicitFiles]
      rw [this]
      simp only [h1]
      exact hrest s0

/-- Refutation of "without -r only explicitly named files": a *directory* whose name ends in
`.te` is itself put in the list (twice) and everything below it is scanned, although
neither `-r` nor `--scan-hidden-dirs` is given. -/
theorem C47_false_for_policy_named_dirs :
    (scanMain {} [(cs!"x.te", .dir (.cons cs!"a.te" .file .nil))] {}).te =
      [cs!"x.te", cs!"x.te/a.te", cs!"x.te"] ∧
    (scanMain { recursiveScan := true }
        [(cs!"d", .dir (.cons cs!".x.te" (.dir (.cons cs!"a.te" .file .nil)) .nil))] {}).te =
      [cs!"d/.x.te", cs!"d/.x.te/a.te", cs!"d/.x.te"] := by
  decide

/-- What one visit of the context scan preserves and adds. -/
theorem visitContext_lists (o : Options) (e : FtsEnt) (s : Scan) :
    (visitContext o e s).te = s.te ∧ (visitContext o e s).ifs = s.ifs ∧
    (visitContext o e s).fc = s.fc ∧
    (visitContext o e s).contextTe =
      s.contextTe ++ (if HasSuffix cs!".te" e.path ∧ e.path ∉ s.te then [e.path] else []) ∧
    (visitContext o e s).contextIf =
      s.contextIf ++ (if HasSuffix cs!".if" e.path ∧ e.path ∉ s.ifs then [e.path] else []) := by
  unfold visitContext
  simp only [suffix3_iff _ _ (rfl : cs!".te".length = 3), suffix3_iff _ _ (rfl : cs!".if".length = 3),
    strInSl_iff]
  by_cases h1 : HasSuffix cs!".te" e.path
  · have h2 : ¬ HasSuffix cs!".if" e.path := fun h => absurd (suffix_excl rfl rfl h1 h) (by decide)
    by_cases h3 : e.path ∈ s.te <;> simp [h1, h2, h3]
  · by_cases h2 : HasSuffix cs!".if" e.path
    · by_cases h3 : e.path ∈ s.ifs <;> simp [h1, h2, h3]
    · simp only [h1, h2, if_false, false_and, List.append_nil]
      split
      · simp
      · split
        · simp
        · split <;> simp

mutual
/-- The paths in the order in which an unpruned walk visits them (directories twice). -/
def allVisits (path : Str) : Fs → List Str
  | .file => [path]
  | .dir es => path :: (allVisitsIn path es ++ [path])
/-- The same for directory entries. -/
def allVisitsIn (dp : Str) : FsList → List Str
  | .nil => []
  | .cons n fs rest => allVisits (joinPath dp n) fs ++ allVisitsIn dp rest
end

/-- The lists after a context walk, given the paths visited. -/
def CtxCollected (s s' : Scan) (ps : List Str) : Prop :=
  s'.te = s.te ∧ s'.ifs = s.ifs ∧ s'.fc = s.fc ∧
  s'.contextTe = s.contextTe ++ (bySuffix cs!".te" ps).filter (fun p => decide (p ∉ s.te)) ∧
  s'.contextIf = s.contextIf ++ (bySuffix cs!".if" ps).filter (fun p => decide (p ∉ s.ifs))

theorem CtxCollected.trans {a b c : Scan} {f g : List Str} (h1 : CtxCollected a b f)
    (h2 : CtxCollected b c g) : CtxCollected a c (f ++ g) := by
  obtain ⟨x1, x2, x3, x4, x5⟩ := h1
  obtain ⟨y1, y2, y3, y4, y5⟩ := h2
  refine ⟨by rw [y1, x1], by rw [y2, x2], by rw [y3, x3], ?_, ?_⟩
  · rw [y4, x4, bySuffix_append, List.filter_append, List.append_assoc, x1]
  · rw [y5, x5, bySuffix_append, List.filter_append, List.append_assoc, x2]

theorem ctx_visit (o : Options) (e : FtsEnt) (s : Scan) :
    CtxCollected s (visitContext o e s) [e.path] := by
  obtain ⟨h1, h2, h3, h4, h5⟩ := visitContext_lists o e s
  refine ⟨h1, h2, h3, ?_, ?_⟩
  · rw [h4, bySuffix_single]
    by_cases ha : HasSuffix cs!".te" e.path <;> by_cases hb : e.path ∈ s.te <;> simp [ha, hb]
  · rw [h5, bySuffix_single]
    by_cases ha : HasSuffix cs!".if" e.path <;> by_cases hb : e.path ∈ s.ifs <;> simp [ha, hb]

mutual
theorem ctx_walk (o : Options) (path name parent : Str) : (fs : Fs) → (s : Scan) →
    CtxCollected s (ftsWalk (fun e s => (visitContext o e s, false)) path name parent fs s)
      (allVisits path fs)
  | .file, s => by unfold ftsWalk allVisits; exact ctx_visit o _ s
  | .dir es, s => by
    unfold ftsWalk allVisits
    simp only [Bool.false_eq_true, if_false]
    exact (ctx_visit o ⟨path, name, parent, .d⟩ s).trans
      ((ctx_walk_list o path name es _).trans (ctx_visit o ⟨path, name, parent, .dp⟩ _))
theorem ctx_walk_list (o : Options) (dp dn : Str) : (l : FsList) → (s : Scan) →
    CtxCollected s (ftsWalkList (fun e s => (visitContext o e s, false)) dp dn l s)
      (allVisitsIn dp l)
  | .nil, s => by unfold ftsWalkList allVisitsIn; simp [CtxCollected, bySuffix]
  | .cons n fs rest, s => by
    unfold ftsWalkList allVisitsIn
    exact (ctx_walk o (joinPath dp n) n dn fs s).trans (ctx_walk_list o dp dn rest _)
end

/-- **C47 (context).** The context scan leaves the lists of files to check alone and
collects exactly the te and if paths below the context paths that are not being checked
already; `.fc` files are never context. -/
theorem C47_context (o : Options) (roots : List (Str × Fs)) (s : Scan) :
    CtxCollected s (scanContext o roots s) (roots.flatMap fun r => allVisits r.1 r.2) := by
  unfold scanContext
  induction roots generalizing s with
  | nil => simp [CtxCollected, bySuffix]
  | cons r rs ih =>
    simp only [List.foldl_cons, List.flatMap_cons]
    exact (ctx_walk o r.1 (baseName r.1) [] r.2 s).trans (ih _)

/-- Consequence: no file is both checked and context. -/
theorem C47_context_disjoint (o : Options) (roots : List (Str × Fs)) (s : Scan)
    (h0 : s.contextTe = [] ∧ s.contextIf = []) :
    (∀ p ∈ (scanContext o roots s).contextTe, p ∉ (scanContext o roots s).te) ∧
    (∀ p ∈ (scanContext o roots s).contextIf, p ∉ (scanContext o roots s).ifs) := by
  obtain ⟨h1, h2, _, h4, h5⟩ := C47_context o roots s
  constructor
  · intro p hp
    rw [h4, h0.1] at hp
    rw [h1]
    simp only [List.nil_append, List.mem_filter, decide_eq_true_eq] at hp
    exact hp.2
  · intro p hp
    rw [h5, h0.2] at hp
    rw [h2]
    simp only [List.nil_append, List.mem_filter, decide_eq_true_eq] at hp
    exact hp.2

/-- Non-vacuity: a small hierarchy with a hidden directory. -/
def exFs : Fs :=
  .dir (.cons cs!"a.te" .file (.cons cs!".git" (.dir (.cons cs!"b.te" .file .nil))
    (.cons cs!"sub" (.dir (.cons cs!"c.if" .file (.cons cs!"README" .file .nil))) .nil)))
example : PlainDirs false cs!"p" cs!"p" exFs := by
  simp only [exFs, PlainDirs, PlainDirsIn, PlainDir]; decide
example : (scanMain { recursiveScan := true } [(cs!"p", exFs)] {}).te = [cs!"p/a.te"] ∧
    (scanMain { recursiveScan := true } [(cs!"p", exFs)] {}).ifs = [cs!"p/sub/c.if"] ∧
    (scanMain { recursiveScan := true, scanHiddenDirs := true } [(cs!"p", exFs)] {}).te =
      [cs!"p/a.te", cs!"p/.git/b.te"] ∧
    (scanMain {} [(cs!"p", exFs), (cs!"q.te", .file)] {}).te = [cs!"q.te"] := by decide

end Selint
