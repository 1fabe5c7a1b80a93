import Verif.Props.Selint
import Verif.Props.TeChecks
import Verif.Props.Main
/-!
# C46, C47, C51: the English statements where they hold

These properties are false of the code in general. Here they are stated as they read, for the inputs for which they are true.
-/

namespace Selint

open Spec

/-! ## C46 -/

/-- **C46 (part).** Of the strings that have nothing but digits behind their second character exactly those are accepted that
are a severity letter, a dash and a number in range. What is missing: other strings may be accepted, too
(`C46_false_in_general`). -/
theorem C46_shape_partial (s : Str) (hd : ∀ c ∈ s.drop 2, c ∈ cs!"0123456789") (hs : s ≠ []) :
    isValidCheck (some s) = .ok true ↔
      ∃ sev hi digits, (sev, hi) ∈ highest ∧ s = sev :: '-' :: digits ∧
        1 ≤ Nat.ofDigitChars 10 digits 0 ∧ Nat.ofDigitChars 10 digits 0 ≤ hi := by
  rw [C46_exact s hs]
  constructor
  · rintro ⟨sev, hi, blanks, sign, digits, junk, hm, rfl, hb, hg, -, hj, h1, h2⟩
    simp only [List.drop_succ_cons, List.drop_zero] at hd
    have e1 : blanks = [] := by
      cases blanks with
      | nil => rfl
      | cons c b =>
        have := hd c (by simp)
        have hc := hb c (by simp)
        simp only [List.mem_cons, List.not_mem_nil, or_false] at this
        rcases this with rfl | rfl | rfl | rfl | rfl | rfl | rfl | rfl | rfl | rfl <;> exact absurd hc (by decide)
    have e2 : sign = [] := by
      rcases hg with h | rfl
      · exact h
      · exact absurd (hd '+' (by simp)) (by decide)
    have e3 : junk = [] := by
      cases junk with
      | nil => rfl
      | cons c j => exact absurd (hd c (by simp)) (hj c rfl)
    subst e1 e2 e3
    exact ⟨sev, hi, digits, hm, by simp, h1, h2⟩
  · rintro ⟨sev, hi, digits, hm, rfl, h1, h2⟩
    exact ⟨sev, hi, [], [], digits, [], hm, by simp, by simp, .inl rfl, fun c hc => hd c (by simpa using hc), by simp, h1, h2⟩

example : isValidCheck (some cs!"C-007") = .ok true ∧ isValidCheck (some cs!"C-008") = .ok false ∧
    isValidCheck (some cs!"X-001") = .ok false := by decide

/-! ## C47 -/

/-- **C47 (part).** The files that are looked at if no directory is named like a policy or support file: with `-r` those below
the given paths, without hidden directories unless they are asked for, and without `-r` those named; each is in the list its
suffix demands and in no other; and what is checked is not in the context as well. What is missing: directories with such
names are taken for files (`C47_false_for_policy_named_dirs`). -/
theorem C47_selection_partial (o : Options) (roots context : List (Str × Fs)) (m : Maps)
    (hp : ∀ r ∈ roots, PlainDirs o.sourceFlag r.1 (baseName r.1) r.2) :
    let found := if o.recursiveScan = true then roots.flatMap fun r => visibleFiles o.scanHiddenDirs r.1 (baseName r.1) r.2
      else explicitFiles roots
    let s := scanContext o context (scanMain o roots { maps := m })
    (∀ p, p ∈ s.te ↔ p ∈ found ∧ HasSuffix cs!".te" p) ∧ (∀ p, p ∈ s.ifs ↔ p ∈ found ∧ HasSuffix cs!".if" p) ∧
    (∀ p, p ∈ s.fc ↔ p ∈ found ∧ HasSuffix cs!".fc" p) ∧
    (∀ p ∈ s.te, p ∉ s.ifs ∧ p ∉ s.fc) ∧ (∀ p ∈ s.ifs, p ∉ s.fc) ∧
    (∀ p ∈ s.contextTe, p ∉ s.te) ∧ (∀ p ∈ s.contextIf, p ∉ s.ifs) := by
  intro found s
  have hmain : (scanMain o roots { maps := m }).te = bySuffix cs!".te" found ∧
      (scanMain o roots { maps := m }).ifs = bySuffix cs!".if" found ∧
      (scanMain o roots { maps := m }).fc = bySuffix cs!".fc" found := by
    by_cases hr : o.recursiveScan = true
    · simp only [found, if_pos hr]
      exact C47_recursive o hr roots hp m
    · simp only [found, if_neg hr]
      refine C47_nonrecursive o (by simpa using hr) roots (fun r h hn => ?_) m
      have := hp r h
      cases hf : r.2 with
      | file => exact absurd hf hn
      | dir es => rw [hf, PlainDirs] at this; exact this.1
  obtain ⟨h1, h2, h3, -, -⟩ := C47_context o context (scanMain o roots { maps := m })
  have k1 : ∀ p, p ∈ s.te ↔ p ∈ found ∧ HasSuffix cs!".te" p := fun p => by
    rw [show s.te = _ from h1, hmain.1]; simp [bySuffix]
  have k2 : ∀ p, p ∈ s.ifs ↔ p ∈ found ∧ HasSuffix cs!".if" p := fun p => by
    rw [show s.ifs = _ from h2, hmain.2.1]; simp [bySuffix]
  have k3 : ∀ p, p ∈ s.fc ↔ p ∈ found ∧ HasSuffix cs!".fc" p := fun p => by
    rw [show s.fc = _ from h3, hmain.2.2]; simp [bySuffix]
  obtain ⟨c1, c2⟩ := C47_context_disjoint o context _ (scanMain_contexts o roots { maps := m })
  refine ⟨k1, k2, k3, fun p hp => ⟨fun h => ?_, fun h => ?_⟩, fun p hp h => ?_, c1, c2⟩
  · exact absurd (suffix_excl rfl rfl ((k1 p).1 hp).2 ((k2 p).1 h).2) (by decide)
  · exact absurd (suffix_excl rfl rfl ((k1 p).1 hp).2 ((k3 p).1 h).2) (by decide)
  · exact absurd (suffix_excl rfl rfl ((k2 p).1 hp).2 ((k3 p).1 h).2) (by decide)

example : PlainDirs false cs!"mod" cs!"mod" (.dir (.cons cs!"a.te" .file (.cons cs!".git" (.dir (.cons cs!"b.te" .file .nil)) .nil))) ∧
    (scanMain { recursiveScan := true }
      [(cs!"mod", .dir (.cons cs!"a.te" .file (.cons cs!".git" (.dir (.cons cs!"b.te" .file .nil)) .nil)))] {}).te =
      [cs!"mod/a.te"] := by
  refine ⟨?_, by decide⟩
  have key : ∀ path name : Str, (∀ suf ∈ [cs!".te", cs!".if", cs!".fc"], ¬HasSuffix suf path) → PlainDir false path name := fun path name h =>
    ⟨h _ (by simp), h _ (by simp), h _ (by simp), fun h => by cases h⟩
  simp only [PlainDirs, PlainDirsIn, and_true, true_and]
  refine ⟨key _ _ fun suf hs => ?_, key _ _ fun suf hs => ?_⟩ <;>
  · simp only [List.mem_cons, List.not_mem_nil, or_false] at hs
    rcases hs with rfl | rfl | rfl <;> rw [← suffix3_iff _ _ rfl] <;> decide

/-! ## C51 -/

/-- A parameter of an interface. -/
def IsParameter (p : Str) : Prop := ∃ d rest, p = '$' :: d :: rest ∧ d.isDigit = true

/-- **C51 (E-007, part).** Among permissions none of which is an interface parameter the first that is neither known nor a
macro is reported. What is missing: parameters are reported as well (`C51_false_permission_parameter`). -/
theorem C51_permission_partial (ops : List MapOp) (node : Loc) (d : AvData) (hd : node.data = .av d)
    (hp : ∀ p ∈ d.perms, ¬IsParameter p) :
    Reports (checkUnknownPermission (tablesAfter ops) node) fun r =>
      ∃ p, FirstIn (fun p => UnknownPermission ops p ∧ ¬IsParameter p) d.perms p ∧
        r = ⟨'E', 7, cs!"Unknown permission " ++ p ++ cs!" used"⟩ := by
  refine (C51_unknown_permission ops node d hd).congr fun r => ?_
  constructor
  · rintro ⟨p, ⟨a, b, hl, hu, hn⟩, rfl⟩
    exact ⟨p, ⟨a, b, hl, ⟨hu, hp p (by rw [hl]; simp)⟩, fun y hy h => hn y hy h.1⟩, rfl⟩
  · rintro ⟨p, ⟨a, b, hl, hu, hn⟩, rfl⟩
    exact ⟨p, ⟨a, b, hl, hu.1, fun y hy h => hn y hy ⟨h, hp y (by rw [hl]; simp [hy])⟩⟩, rfl⟩

example : ¬IsParameter cs!"read" ∧ IsParameter cs!"$2" :=
  ⟨fun ⟨_, _, h, _⟩ => (by cases h), '2', [], rfl, by decide⟩

end Selint
