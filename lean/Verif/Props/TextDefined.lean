import Verif.Props.SupportNamed
import Verif.Props.ParsingOrder
/-!
# C107: printing adds no undefined behaviour
-/

namespace Selint

open Spec

theorem Res.bind_some {α β : Type} {x : Res α} {f : α → Res β} :
    (∃ b, (x >>= f) = .ok b) ↔ ∃ a, x = .ok a ∧ ∃ b, f a = .ok b := by
  constructor
  · rintro ⟨b, h⟩
    obtain ⟨a, h1, h2⟩ := Res.bind_eq_ok h
    exact ⟨a, h1, b, h2⟩
  · rintro ⟨a, rfl, b, h⟩
    exact ⟨b, h⟩

theorem Res.bind_done {α β : Type} {x : Res α} {f : α → β} :
    (∃ b, (x >>= fun a => Res.ok (f a)) = .ok b) ↔ ∃ a, x = .ok a :=
  Res.bind_some.trans ⟨fun ⟨a, h, _⟩ => ⟨a, h⟩, fun ⟨a, h⟩ => ⟨a, h, _, rfl⟩⟩

/-- The test of these ids is defined. -/
def Testable (ids : List Str) : Prop := ∀ id ∈ ids, ∃ v, isValidCheck (some id) = .ok v

theorem invalidIds_some : ∀ ids : List Str, (∃ l, invalidIds ids = .ok l) ↔ Testable ids
  | [] => ⟨fun _ _ h => (by cases h), fun _ => ⟨_, rfl⟩⟩
  | id :: ids => by
    unfold invalidIds
    rw [Res.bind_some]
    simp only [Testable, List.forall_mem_cons]
    constructor
    · rintro ⟨v, hv, h⟩
      exact ⟨⟨v, hv⟩, (invalidIds_some ids).1 (Res.bind_done.1 h)⟩
    · rintro ⟨⟨v, hv⟩, h⟩
      exact ⟨v, hv, Res.bind_done.2 ((invalidIds_some ids).2 h)⟩

theorem warnText_some (color : Bool) (desc : Str) : ∀ ids : List Str, (∃ t, warnText color desc ids = .ok t) ↔ Testable ids
  | [] => ⟨fun _ _ h => (by cases h), fun _ => ⟨_, rfl⟩⟩
  | id :: ids => by
    unfold warnText
    rw [Res.bind_some]
    simp only [Testable, List.forall_mem_cons]
    constructor
    · rintro ⟨v, hv, h⟩
      exact ⟨⟨v, hv⟩, (warnText_some color desc ids).1 (Res.bind_done.1 h)⟩
    · rintro ⟨⟨v, hv⟩, h⟩
      exact ⟨v, hv, Res.bind_done.2 ((warnText_some color desc ids).2 h)⟩

theorem testable_append {a b : List Str} : Testable (a ++ b) ↔ Testable a ∧ Testable b := by
  simp only [Testable, List.forall_mem_append]

theorem modesText_some (color : Bool) (o : Options) :
    (∃ t, modesText color o = .ok t) ↔ Testable (o.clDisabled ++ o.clEnabled) := by
  unfold modesText
  rw [Res.bind_some, testable_append]
  constructor
  · rintro ⟨a, ha, h⟩
    exact ⟨(warnText_some _ _ _).1 ⟨a, ha⟩, (warnText_some _ _ _).1 (Res.bind_done.1 h)⟩
  · rintro ⟨h1, h2⟩
    obtain ⟨a, ha⟩ := (warnText_some color cs!"disabled on command line" _).2 h1
    exact ⟨a, ha, Res.bind_done.2 ((warnText_some _ _ _).2 h2)⟩

theorem readyText_some (color : Bool) (o : Options) (n : Nat) (p : Option ParsedConfig) :
    (∃ t, readyText color o n p = .ok t) ↔ Testable (p.elim [] (·.disabled) ++ p.elim [] (·.enabled)) := by
  unfold readyText
  rw [Res.bind_some, testable_append]
  constructor
  · rintro ⟨a, ha, h⟩
    exact ⟨(warnText_some _ _ _).1 ⟨a, ha⟩, (warnText_some _ _ _).1 (Res.bind_done.1 h)⟩
  · rintro ⟨h1, h2⟩
    obtain ⟨a, ha⟩ := (warnText_some color cs!"disabled in config" _).2 h1
    exact ⟨a, ha, Res.bind_done.2 ((warnText_some _ _ _).2 h2)⟩

theorem testable_nil : Testable [] := fun _ h => by cases h

theorem settingsText_some (w : ConfigWorld) (color : Bool) (o : Options) (n : Nat) :
    (∃ t, settingsText w color o n = .ok t) ↔ Testable (configIds w o) := by
  unfold settingsText configIds
  cases chooseConfig w o with
  | exit s => exact ⟨fun _ => testable_nil, fun _ => ⟨_, rfl⟩⟩
  | go f =>
    cases f with
    | none => exact Res.bind_done.trans (readyText_some color o n none)
    | some f =>
      dsimp only
      cases (w.contents f).bind fun cfg => parseConfig cfg o.sourceFlag {} with
      | none => exact ⟨fun _ => testable_nil, fun _ => ⟨_, rfl⟩⟩
      | some p => exact Res.bind_done.trans (readyText_some color o n (some p))

theorem supportResult_some {w : Machine} {fl : PlainFlavor} {p : Str} {m m' : Maps} (h : loadSupportFile w fl p m = .ok m') :
    ∃ e, supportResult w fl p m = .ok e := by
  unfold loadSupportFile at h
  unfold supportResult
  cases ht : w.text p with
  | none => exact ⟨_, rfl⟩
  | some s =>
    simp only [ht] at h
    dsimp only
    cases hf : (lexFile s).bind pFile with
    | none => exact ⟨_, rfl⟩
    | some f =>
      simp only [hf] at h
      obtain ⟨r, hr, h⟩ := Res.bind_eq_ok h
      refine Res.bind_some.2 ⟨r, hr, ?_⟩
      cases r <;> exact ⟨_, rfl⟩

theorem modulesResult_some {w : Machine} {p : Str} {m m' : Maps} (h : loadModules w p m = .ok m') :
    ∃ e, modulesResult w p m = .ok e := by
  unfold loadModules at h
  unfold modulesResult
  cases ht : w.confLines p with
  | none => exact ⟨_, rfl⟩
  | some lines =>
    simp only [ht] at h
    obtain ⟨r, hr, h⟩ := Res.bind_eq_ok h
    exact Res.bind_done.2 ⟨r, hr⟩

theorem supportText_some {color verbose : Bool} {missing failed loaded : Str} {path : Option Str}
    {result : Str → Res SelintError} {said : SelintError → Str} (h : ∀ p, path = some p → ∃ e, result p = .ok e) :
    ∃ t, supportText color verbose missing failed loaded path result said = .ok t := by
  unfold supportText
  cases path with
  | none => exact ⟨_, rfl⟩
  | some p => exact Res.bind_done.2 (h p rfl)

theorem supportTexts_some {w : Machine} {color : Bool} {reason parser : Str → Str} {o : Options} {s s' : Scan}
    (h : loadSupport w o s = .ok s') : ∃ t, supportTexts w color reason parser o s = .ok t := by
  unfold loadSupport at h
  unfold supportTexts
  split at h
  · rename_i hs
    rw [if_pos hs]
    obtain ⟨m1, h1, h⟩ := Res.bind_eq_ok h
    obtain ⟨m2, h2, h⟩ := Res.bind_eq_ok h
    obtain ⟨m3, h3, h⟩ := Res.bind_eq_ok h
    obtain ⟨a, ha⟩ := supportText_some (color := color) (verbose := o.verbose) (missing := cs!"access_vectors")
      (failed := cs!"parse access_vectors") (loaded := cs!"classes and permissions") (path := s.accessVectors)
      (result := fun p => supportResult w .avFile p s.maps)
      (said := fun r => vectorsText color o.verbose reason parser (s.accessVectors.getD []) r)
      (fun p hp => supportResult_some (m' := m1) (by rw [hp] at h1; exact h1))
    refine Res.bind_some.2 ⟨a, ha, Res.bind_some.2 ⟨m1, h1, ?_⟩⟩
    obtain ⟨b, hb⟩ := supportText_some (color := color) (verbose := o.verbose) (missing := cs!"modules.conf")
      (failed := cs!"load modules") (loaded := cs!"modules") (path := s.modulesConf)
      (result := fun p => modulesResult w p m1) (said := fun _ => [])
      (fun p hp => modulesResult_some (m' := m2) (by rw [hp] at h2; exact h2))
    refine Res.bind_some.2 ⟨b, hb, Res.bind_some.2 ⟨m2, h2, Res.bind_done.2 ?_⟩⟩
    exact supportText_some fun p hp => supportResult_some (m' := m3) (by rw [hp] at h3; exact h3)
  · rename_i hs
    rw [if_neg hs]
    exact ⟨_, rfl⟩

theorem filesText_some (w : Machine) (x : Printing) (color : Bool) (st : Settings) (paths warned : List Str) :
    (∃ t, filesText w x color st paths = .ok t) ↔ ∃ r, mainWith w st paths warned = .ok r := by
  unfold filesText mainWith
  rw [Res.bind_some (x := loadSupport w st.opts (collect w st paths))]
  constructor
  · rintro h
    obtain ⟨a, -, h⟩ := Res.bind_some.1 h
    obtain ⟨s, hs, h⟩ := Res.bind_some.1 h
    refine ⟨s, hs, ?_⟩
    cases hr : registerChecks st.severity st.enableConf s.maps with
    | none => exact ⟨_, rfl⟩
    | some ck =>
      rw [hr] at h
      obtain ⟨r, h, -⟩ := Res.bind_some.1 h
      exact Res.bind_some.2 ⟨r, h, _, rfl⟩
  · rintro ⟨s, hs, h⟩
    obtain ⟨a, ha⟩ := supportTexts_some (color := color) (reason := x.reason) (parser := x.support color) hs
    refine Res.bind_some.2 ⟨a, ha, Res.bind_some.2 ⟨s, hs, ?_⟩⟩
    dsimp only
    cases hr : registerChecks st.severity st.enableConf s.maps with
    | none => exact ⟨_, rfl⟩
    | some ck =>
      simp only [hr] at h
      obtain ⟨r, h, -⟩ := Res.bind_some.1 h
      exact Res.bind_some.2 ⟨r, h, _, rfl⟩

/-- **C107 (printing is defined).** Printing adds no undefined behaviour and hides none: what the program prints, with the
parser's messages as a parameter, is defined exactly if the run is. -/
theorem C107_defined (version : Str) (w : Machine) (x : Printing) (tty : Bool) (args : List Opt) (paths : List Str) :
    (∃ t, mainText version w x tty args paths = .ok t) ↔ ∃ r, selintMain w args paths = .ok r := by
  unfold mainText selintMain startText startUp
  cases parseOpts {} args with
  | exit s => exact ⟨fun _ => ⟨_, rfl⟩, fun _ => ⟨_, rfl⟩⟩
  | go o =>
    dsimp only
    constructor
    · intro h
      obtain ⟨start, hs, h⟩ := Res.bind_some.1 h
      obtain ⟨a, ha, hs⟩ := Res.bind_some.1 ⟨start, hs⟩
      have h1 := (invalidIds_some _).2 ((modesText_some _ _).1 ⟨a, ha⟩)
      have h2 := (invalidIds_some _).2 ((settingsText_some _ _ _ _).1 (Res.bind_done.1 hs))
      obtain ⟨w1, h1⟩ := h1
      obtain ⟨w2, h2⟩ := h2
      refine Res.bind_some.2 ⟨w1, h1, Res.bind_some.2 ⟨w2, h2, ?_⟩⟩
      cases hst : settings w.config o paths.length with
      | exit s => exact ⟨_, rfl⟩
      | go st =>
        rw [hst] at h
        exact (filesText_some w x _ st paths _).1 (Res.bind_done.1 h)
    · intro h
      obtain ⟨w1, h1, h⟩ := Res.bind_some.1 h
      obtain ⟨w2, h2, h⟩ := Res.bind_some.1 h
      obtain ⟨a, ha⟩ := (modesText_some (colorOn tty o) o).2 ((invalidIds_some _).1 ⟨w1, h1⟩)
      obtain ⟨b, hb⟩ := (settingsText_some w.config (colorOn tty o) o paths.length).2 ((invalidIds_some _).1 ⟨w2, h2⟩)
      refine Res.bind_some.2 ⟨_, by rw [ha, Res.bind_ok, hb, Res.bind_ok], ?_⟩
      cases hst : settings w.config o paths.length with
      | exit s => exact ⟨_, rfl⟩
      | go st =>
        rw [hst] at h
        exact Res.bind_done.2 ((filesText_some w x _ st paths _).2 h)

/-- **C109 (printing is defined).** If the run is defined and all files can be parsed, then so is all that is printed, with the
parser's messages. -/
theorem C109_defined {version : Str} {w : Machine} {y : Speaking} {sort : Checks CheckFn → List (CheckNode CheckFn)} {tty : Bool}
    {args : List Opt} {paths : List Str} {r : MainResult} {st : Settings} (h : selintMain w args paths = .ok r)
    (hu : startUp w.config args paths.length = .go st) (hfew : FewLines (w.sources st.customFcMacros)) (h70 : r.status ≠ 70)
    (hav : ∀ p, (collect w st paths).accessVectors = some p →
      supportResult w .avFile p (collect w st paths).maps ≠ .ok .parseError)
    (hspt : ∀ p m m', (collect w st paths).objPermSets = some p →
      ifFound (collect w st paths).accessVectors (loadSupportFile w .avFile) (collect w st paths).maps = .ok m →
      ifFound (collect w st paths).modulesConf (loadModules w) m = .ok m' → supportResult w .sptFile p m' ≠ .ok .parseError) :
    ∃ t, spokenText version w y sort tty args paths = .ok t := by
  have hfew' : FewLines (w.sources []) := hfew
  obtain ⟨t, ht⟩ := (C107_defined version w (spokenPrinting y sort w st (collect w st paths)) tty args paths).2 ⟨r, h⟩
  unfold startUp at hu
  unfold selintMain at h
  cases hp : parseOpts {} args with
  | exit s => rw [hp] at hu; cases hu
  | go o =>
  simp only [hp] at hu h
  obtain ⟨w1, -, h⟩ := Res.bind_eq_ok h
  obtain ⟨w2, -, h⟩ := Res.bind_eq_ok h
  simp only [hu] at h
  unfold mainWith at h
  obtain ⟨s, hs, h⟩ := Res.bind_eq_ok h
  have ha : ∃ a, vectorsSaid (y.under (colorOn tty st.opts) st) w st.opts (collect w st paths) = .ok a := by
    unfold vectorsSaid
    split
    · rename_i p hsrc hpath
      unfold loadSupport at hs
      rw [if_pos hsrc] at hs
      obtain ⟨m1, h1, -⟩ := Res.bind_eq_ok hs
      rw [hpath] at h1
      obtain ⟨e, he⟩ := supportResult_some h1
      exact ⟨_, (C109_support _ hfew' he).1 fun hc => hav p hpath (by rw [he, hc])⟩
    · exact ⟨_, rfl⟩
  have hb : ∃ a, permSetsSaid (y.under (colorOn tty st.opts) st) w st.opts (collect w st paths) = .ok a := by
    unfold permSetsSaid
    split
    · rename_i p hsrc hpath
      unfold loadSupport at hs
      rw [if_pos hsrc] at hs
      obtain ⟨m1, h1, hs⟩ := Res.bind_eq_ok hs
      obtain ⟨m2, h2, hs⟩ := Res.bind_eq_ok hs
      obtain ⟨m3, h3, -⟩ := Res.bind_eq_ok hs
      rw [hpath] at h3
      obtain ⟨e, he⟩ := supportResult_some h3
      rw [h1, Res.bind_ok, h2, Res.bind_ok]
      exact ⟨_, (C109_support _ hfew' he).1 fun hc => hspt p m1 m2 hpath h1 h2 (by rw [he, hc])⟩
    · exact ⟨_, rfl⟩
  have hc : ∃ a, analysisText (y.under (colorOn tty st.opts) st) w st s = .ok a := by
    unfold analysisText
    cases hr : registerChecks st.severity st.enableConf s.maps with
    | none => exact ⟨_, rfl⟩
    | some ck =>
      simp only [hr] at h
      obtain ⟨⟨e, r'⟩, hrun, h⟩ := Res.bind_eq_ok h
      refine Res.bind_some.2 ⟨_, hrun, ?_⟩
      rcases C109_run hrun hfew (y.under (colorOn tty st.opts) st) with ⟨-, -, hl⟩ | ⟨rfl, -⟩
      · exact ⟨_, hl⟩
      · cases h
        exact absurd (by simp [exitStatus, exSoftware, exOk]) h70
  obtain ⟨a, ha⟩ := ha
  obtain ⟨b, hb⟩ := hb
  obtain ⟨c, hc⟩ := hc
  refine ⟨t, ?_⟩
  unfold spokenText startUp
  simp only [hp, hu, ha, hb, hs, hc, Res.bind_ok]
  exact ht

/-- What the example looks at: the results of the two support files and the status. -/
def definedLook (w : Machine) (args : List Opt) (paths : List Str) : Option (SelintError × SelintError × Nat) :=
  match startUp w.config args paths.length with
  | .exit _ => none
  | .go st =>
    let s := collect w st paths
    match s.accessVectors, s.objPermSets with
    | some p, some q =>
      match supportResult w .avFile p s.maps, (do
          let m ← ifFound s.accessVectors (loadSupportFile w .avFile) s.maps
          let m ← ifFound s.modulesConf (loadModules w) m
          supportResult w .sptFile q m), selintMain w args paths with
      | .ok a, .ok b, .ok r => some (a, b, r.status)
      | _, _, _ => none
    | _, _ => none

set_option synthInstance.maxSize 1000 in
/-- `selint -r -s mod` meets the hypotheses of C109_defined, and here is what it prints. -/
example : definedLook exPerms [.recursive, .source] [cs!"mod"] = some (.success, .success, 0) ∧
    spokenText cs!"1" exPerms (exSpeaking false) (fun ck => flatNodes ck) false [.recursive, .source] [cs!"mod"] =
      .ok (cs!"foo.te:               2: (C): Permissions in av rule not ordered (read before r_dir_perms) (C-005)\n" ++
        cs!"foo.te:               2: (E): Unknown permission puppet used (E-007)\n") := by
  constructor <;> decide +kernel

end Selint
