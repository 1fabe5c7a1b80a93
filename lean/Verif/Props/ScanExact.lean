import Verif.Spec.ScanExact
import Verif.Props.ScanText
/-! # C47 without a hypothesis on the names of directories -/

namespace Selint

open Spec

/-- What a walk adds to the lists, and the support files it finds. -/
def Crossed (source : Bool) (s s' : Scan) (l : List (Str × Str)) : Prop :=
  s'.te = s.te ++ withSuffix cs!".te" l ∧ s'.ifs = s.ifs ++ withSuffix cs!".if" l ∧
  s'.fc = s.fc ++ withSuffix cs!".fc" l ∧
  s'.modulesConf = (if source then (lastCalled cs!"modules.conf" l).or s.modulesConf else s.modulesConf) ∧
  s'.objPermSets = (if source then (lastCalled cs!"obj_perm_sets.spt" l).or s.objPermSets else s.objPermSets) ∧
  s'.accessVectors = (if source then (lastCalled cs!"access_vectors" l).or s.accessVectors else s.accessVectors)

theorem withSuffix_append (suf : Str) (a b : List (Str × Str)) :
    withSuffix suf (a ++ b) = withSuffix suf a ++ withSuffix suf b := by simp [withSuffix]

theorem lastCalled_append (n : Str) (a b : List (Str × Str)) :
    lastCalled n (a ++ b) = (lastCalled n b).or (lastCalled n a) := by
  simp only [lastCalled, List.filter_append, List.map_append, List.getLast?_append]

theorem Crossed.trans {b : Bool} {s s' s'' : Scan} {l l' : List (Str × Str)} (h : Crossed b s s' l)
    (k : Crossed b s' s'' l') : Crossed b s s'' (l ++ l') := by
  obtain ⟨h1, h2, h3, h4, h5, h6⟩ := h
  obtain ⟨k1, k2, k3, k4, k5, k6⟩ := k
  refine ⟨?_, ?_, ?_, ?_, ?_, ?_⟩
  · rw [k1, h1, withSuffix_append, List.append_assoc]
  · rw [k2, h2, withSuffix_append, List.append_assoc]
  · rw [k3, h3, withSuffix_append, List.append_assoc]
  · rw [k4, h4, lastCalled_append]; cases b <;> simp [Option.or_assoc]
  · rw [k5, h5, lastCalled_append]; cases b <;> simp [Option.or_assoc]
  · rw [k6, h6, lastCalled_append]; cases b <;> simp [Option.or_assoc]

theorem Crossed.nil (b : Bool) (s : Scan) : Crossed b s s [] := by
  simp [Crossed, withSuffix, lastCalled]

theorem crossed_visit (o : Options) (e : FtsEnt) (s : Scan) :
    Crossed o.sourceFlag s (visitMain o e s).1 [(e.path, e.name)] := by
  obtain ⟨h1, h2, h3, _⟩ := C47_classify o e s
  have hw : ∀ suf, withSuffix suf [(e.path, e.name)] = if HasSuffix suf e.path then [e.path] else [] := by
    intro suf; unfold withSuffix; by_cases h : HasSuffix suf e.path <;> simp [h]
  refine ⟨by rw [h1, hw], by rw [h2, hw], by rw [h3, hw], ?_⟩
  have hl : ∀ n, lastCalled n [(e.path, e.name)] = if e.name = n ∧ ¬ HasSuffix cs!".te" e.path ∧
      ¬ HasSuffix cs!".if" e.path ∧ ¬ HasSuffix cs!".fc" e.path then some e.path else none := by
    intro n
    unfold lastCalled
    by_cases h : e.name = n <;> by_cases a : HasSuffix cs!".te" e.path <;> by_cases b : HasSuffix cs!".if" e.path <;>
      by_cases c : HasSuffix cs!".fc" e.path <;> simp [h, a, b, c]
  rw [hl, hl, hl]
  unfold visitMain
  simp only [suffix3_iff _ _ (rfl : cs!".te".length = 3), suffix3_iff _ _ (rfl : cs!".if".length = 3),
    suffix3_iff _ _ (rfl : cs!".fc".length = 3), strcmp_eq_zero]
  by_cases a : HasSuffix cs!".te" e.path
  · simp [a]
  by_cases b : HasSuffix cs!".if" e.path
  · simp [a, b]
  by_cases c : HasSuffix cs!".fc" e.path
  · simp [a, b, c]
  simp only [a, b, c, if_false, not_false_eq_true, and_true]
  cases o.sourceFlag with
  | false => simp
  | true =>
    by_cases m : e.name = cs!"modules.conf"
    · simp [m]
    by_cases p : e.name = cs!"obj_perm_sets.spt"
    · simp [p]
    by_cases v : e.name = cs!"access_vectors"
    · simp [v]
    simp [m, p, v]

theorem visit_leftOut (o : Options) (path name parent : Str) (s : Scan) :
    (visitMain o ⟨path, name, parent, .d⟩ s).2 = true ↔
      LeftOut o.recursiveScan o.scanHiddenDirs o.sourceFlag path name := by
  unfold LeftOut
  by_cases h : PlainDir o.sourceFlag path name
  · rw [visit_plainDir o ⟨path, name, parent, .d⟩ s h]
    simp only [h, true_and, ← hiddenName_iff]
    cases o.recursiveScan <;> cases o.scanHiddenDirs <;> simp
  · simp only [h, false_and, iff_false]
    unfold visitMain
    simp only [suffix3_iff _ _ (rfl : cs!".te".length = 3), suffix3_iff _ _ (rfl : cs!".if".length = 3),
      suffix3_iff _ _ (rfl : cs!".fc".length = 3), strcmp_eq_zero]
    repeat' split
    all_goals first | (simp; done) | skip
    rename_i h1 h2 h3 h4 h5 h6
    refine absurd ⟨h1, h2, h3, fun hs => ⟨fun k => ?_, fun k => ?_, fun k => ?_⟩⟩ h
    · exact h4 (by simp [hs, k])
    · exact h5 (by simp [hs, k])
    · exact h6 (by simp [hs, k])

mutual
theorem crossed_walk (o : Options) (path name parent : Str) : ∀ (fs : Fs) (s : Scan),
    Crossed o.sourceFlag s (ftsWalk (visitMain o) path name parent fs s)
      (crossed o.recursiveScan o.scanHiddenDirs o.sourceFlag path name fs)
  | .file, s => by unfold ftsWalk crossed; exact crossed_visit o _ s
  | .dir es, s => by
    unfold ftsWalk crossed
    by_cases hk : LeftOut o.recursiveScan o.scanHiddenDirs o.sourceFlag path name
    · have := (visit_leftOut o path name parent s).2 hk
      simp only [this, if_true, hk]
      exact ((crossed_visit o _ s).trans (.nil _ _)).trans (crossed_visit o ⟨path, name, parent, .dp⟩ _)
    · have : (visitMain o ⟨path, name, parent, .d⟩ s).2 = false := by
        rw [← Bool.not_eq_true, visit_leftOut]; exact hk
      simp only [this, Bool.false_eq_true, if_false, hk]
      exact ((crossed_visit o _ s).trans (crossed_walks o path name es _)).trans
        (crossed_visit o ⟨path, name, parent, .dp⟩ _)
theorem crossed_walks (o : Options) (dp dn : Str) : ∀ (l : FsList) (s : Scan),
    Crossed o.sourceFlag s (ftsWalkList (visitMain o) dp dn l s)
      (crossedIn o.recursiveScan o.scanHiddenDirs o.sourceFlag dp l)
  | .nil, s => by unfold ftsWalkList crossedIn; exact .nil _ _
  | .cons n fs rest, s => by
    unfold ftsWalkList crossedIn
    exact (crossed_walk o (joinPath dp n) n dn fs s).trans (crossed_walks o dp dn rest _)
end

/-- **C47 (exactly).** Whatever the directories are called: the files checked are the paths with a policy suffix among those
that the scan comes across, in this order (a directory with such a name is taken for a file, twice); in source mode the
support files are the last ones of their names, and otherwise there are none. -/
theorem C47_exact (o : Options) (roots : List (Str × Fs)) (m : Maps) :
    let l := roots.flatMap fun r => crossed o.recursiveScan o.scanHiddenDirs o.sourceFlag r.1 (baseName r.1) r.2
    let s := scanMain o roots { maps := m }
    s.te = withSuffix cs!".te" l ∧ s.ifs = withSuffix cs!".if" l ∧ s.fc = withSuffix cs!".fc" l ∧
    s.modulesConf = (if o.sourceFlag then lastCalled cs!"modules.conf" l else none) ∧
    s.objPermSets = (if o.sourceFlag then lastCalled cs!"obj_perm_sets.spt" l else none) ∧
    s.accessVectors = (if o.sourceFlag then lastCalled cs!"access_vectors" l else none) := by
  suffices h : ∀ s0 : Scan, Crossed o.sourceFlag s0 (scanMain o roots s0)
      (roots.flatMap fun r => crossed o.recursiveScan o.scanHiddenDirs o.sourceFlag r.1 (baseName r.1) r.2) by
    simpa [Crossed] using h { maps := m }
  unfold scanMain
  induction roots with
  | nil => intro s0; exact .nil _ _
  | cons r rs ih =>
    intro s0
    simp only [List.foldl_cons, List.flatMap_cons]
    exact (crossed_walk o r.1 (baseName r.1) [] r.2 s0).trans (ih _)

/-- The directory of `C47_false_for_policy_named_dirs`, with a support file, and a directory named like one. -/
example : (roots : List (Str × Fs)) → roots = [(cs!"x.te", .dir (.cons cs!"a.te" .file (.cons cs!"modules.conf" .file .nil))),
      (cs!"p", .dir (.cons cs!"access_vectors" (.dir (.cons cs!"b.if" .file .nil)) .nil))] →
    (scanMain { sourceFlag := true } roots {}).te = [cs!"x.te", cs!"x.te/a.te", cs!"x.te"] ∧
    (scanMain { sourceFlag := true } roots {}).modulesConf = some cs!"x.te/modules.conf" ∧
    (scanMain { sourceFlag := true } roots {}).accessVectors = none ∧
    (scanMain { sourceFlag := true, recursiveScan := true } roots {}).accessVectors = some cs!"p/access_vectors" ∧
    (scanMain { sourceFlag := true, recursiveScan := true } roots {}).ifs = [cs!"p/access_vectors/b.if"] := by
  rintro _ rfl
  decide +kernel

end Selint
