import Verif.Spec.CommandLine
import Verif.Props.Selint
/-! # C01, C46, C47: what the command line and the configuration file say -/

namespace Selint

open Spec

theorem sourceFlag_iff (args : List Opt) : (optionsOf args).sourceFlag = true ↔ sourceMode args := by
  show (args.any _) = true ↔ _
  simp only [List.any_eq_true, sourceMode]
  constructor
  · rintro ⟨x, h1, h2⟩
    cases x <;> first | cases h2; done | skip
    · exact .inr ⟨_, h1⟩
    · exact .inl h1
  · rintro (h | ⟨p, h⟩)
    · exact ⟨_, h, rfl⟩
    · exact ⟨_, h, rfl⟩

theorem mem_clEnabled {args : List Opt} {id : Str} : id ∈ (optionsOf args).clEnabled ↔ Opt.enable id ∈ args := by
  show id ∈ args.filterMap _ ↔ _
  rw [List.mem_filterMap]
  constructor
  · rintro ⟨x, h1, h2⟩
    cases x <;> simp at h2
    rw [h2] at h1; exact h1
  · exact fun h => ⟨_, h, rfl⟩

theorem mem_clDisabled {args : List Opt} {id : Str} : id ∈ (optionsOf args).clDisabled ↔ Opt.disable id ∈ args := by
  show id ∈ args.filterMap _ ↔ _
  rw [List.mem_filterMap]
  constructor
  · rintro ⟨x, h1, h2⟩
    cases x <;> simp at h2
    rw [h2] at h1; exact h1
  · exact fun h => ⟨_, h, rfl⟩

theorem chooseConfig_of {w : ConfigWorld} {o : Options} (h : ¬NamedConfigUnreadable w o) :
    chooseConfig w o = .go (effectiveConfig w o) := by
  unfold chooseConfig effectiveConfig
  cases hc : o.configFile with
  | none => simp only; split <;> rfl
  | some f =>
    have : w.readable f = true := by
      cases hr : w.readable f with
      | true => rfl
      | false => exact absurd ⟨f, hc, hr⟩ h
    simp [this]

/-- What the settings say about ids is what the configuration in effect says. -/
theorem settings_ids {w : ConfigWorld} {args : List Opt} {n : Nat} {st : Settings}
    (h : settings w (optionsOf args) n = .go st) :
    st.opts = optionsOf args ∧
    st.configDisabled = ((configured w args).map Cfg.disable).getD [] ∧
    st.configEnabled = ((configured w args).map (enabledIn args)).getD [] := by
  refine ⟨settings_opts h, ?_⟩
  have hu : ¬NamedConfigUnreadable w (optionsOf args) := by
    rcases settings_spec w (optionsOf args) n with h4 | h4 | h4 | h4
    · rw [h] at h4; cases h4.2
    · exact h4.1
    · exact h4.1
    · exact h4.1
  unfold settings at h
  rw [chooseConfig_of hu] at h
  unfold configured
  cases he : effectiveConfig w (optionsOf args) with
  | none =>
    rw [he] at h
    simp only at h
    split at h
    · cases h
    · split at h
      · cases h
      · cases h; exact ⟨rfl, rfl⟩
  | some f =>
    rw [he] at h
    simp only at h
    rw [Option.bind_some]
    cases hf : w.contents f with
    | none => rw [hf] at h; cases h
    | some cfg =>
      rw [hf] at h
      simp only at h
      cases hp : parseConfig cfg (optionsOf args).sourceFlag {} with
      | none => rw [hp] at h; cases h
      | some p =>
        rw [hp] at h
        simp only at h
        split at h
        · cases h
        · split at h
          · cases h
          · cases h
            obtain ⟨-, h1, h2, -⟩ := C44_transfer _ _ _ _ hp
            refine ⟨h1, h2.trans ?_⟩
            simp only [Option.map_some, Option.getD_some, enabledIn, sourceFlag_iff]

/-- **C01, C02 (command line).** Which checks a run leaves enabled is what the options `-d`, `-e`
and `--only-enabled` and the configuration in effect say. -/
theorem C01_command_line {w : ConfigWorld} {args : List Opt} {n : Nat} {st : Settings}
    (h : settings w (optionsOf args) n = .go st) (id : Str) :
    isCheckEnabled id st.enableConf = true ↔ EnabledBy w args id := by
  obtain ⟨h1, h2, h3⟩ := settings_ids h
  have e1 : st.enableConf.clEnabled = (optionsOf args).clEnabled := by rw [← h1]; rfl
  have e2 : st.enableConf.clDisabled = (optionsOf args).clDisabled := by rw [← h1]; rfl
  have e3 : st.enableConf.onlyEnabled = decide (Opt.onlyEnabled ∈ args) := by
    show st.opts.onlyEnabled = _
    rw [h1]; rfl
  unfold EnabledBy
  by_cases ho : Opt.onlyEnabled ∈ args
  · rw [if_pos ho, C02_only_enabled id _ (by rw [e3]; exact decide_eq_true ho), e1, mem_clEnabled]
  · rw [if_neg ho, C01_enable_override id _ (by rw [e3]; exact decide_eq_false ho)]
    have e4 : st.enableConf.configDisabled = ((configured w args).map Cfg.disable).getD [] := h2
    have e5 : st.enableConf.configEnabled = ((configured w args).map (enabledIn args)).getD [] := h3
    unfold lastMention overrideSteps
    simp only [List.filter_cons, List.filter_nil, decide_eq_true_eq, e1, e2, e4, e5, mem_clEnabled, mem_clDisabled]
    cases configured w args with
    | none => by_cases ha : Opt.enable id ∈ args <;> by_cases hb : Opt.disable id ∈ args <;> simp [ha, hb]
    | some cfg =>
      by_cases ha : Opt.enable id ∈ args <;> by_cases hb : Opt.disable id ∈ args <;>
        by_cases hc : id ∈ enabledIn args cfg <;> by_cases hd : id ∈ cfg.disable <;> simp [ha, hb, hc, hd]

/-- **C03 (command line).** The level of a run is that of the last `-l`, else that of the
configuration in effect, else convention. -/
theorem C03_level {w : ConfigWorld} {args : List Opt} {n : Nat} {st : Settings}
    (h : settings w (optionsOf args) n = .go st) : LevelIs w args st.severity := by
  have hu : ¬NamedConfigUnreadable w (optionsOf args) := by
    rcases settings_spec w (optionsOf args) n with h4 | h4 | h4 | h4
    · rw [h] at h4; cases h4.2
    · exact h4.1
    · exact h4.1
    · exact h4.1
  unfold settings at h
  rw [chooseConfig_of hu] at h
  unfold LevelIs configured
  have hl : (optionsOf args).severity = chosenLevel args := rfl
  rw [← hl]
  cases he : effectiveConfig w (optionsOf args) with
  | none =>
    rw [he] at h
    simp only at h
    split at h
    · cases h
    · split at h
      · cases h
      · cases h
        cases (optionsOf args).severity <;> rfl
  | some f =>
    rw [he] at h
    simp only at h
    rw [Option.bind_some]
    cases hf : w.contents f with
    | none => rw [hf] at h; cases h
    | some cfg =>
      rw [hf] at h
      simp only at h
      cases hp : parseConfig cfg (optionsOf args).sourceFlag {} with
      | none => rw [hp] at h; cases h
      | some p =>
        rw [hp] at h
        simp only at h
        split at h
        · cases h
        · split at h
          · cases h
          · cases h
            cases (optionsOf args).severity with
            | some l => rfl
            | none => exact (C44_transfer _ _ _ _ hp).1

/-- **C44 (run).** The checks of a run are told what the configuration in effect says, and without one the
defaults. -/
theorem C44_told {w : ConfigWorld} {args : List Opt} {n : Nat} {st : Settings}
    (h : settings w (optionsOf args) n = .go st) : ToldBy w args st.checkData st.customFcMacros := by
  have hu : ¬NamedConfigUnreadable w (optionsOf args) := by
    rcases settings_spec w (optionsOf args) n with h4 | h4 | h4 | h4
    · rw [h] at h4; cases h4.2
    · exact h4.1
    · exact h4.1
    · exact h4.1
  unfold settings at h
  rw [chooseConfig_of hu] at h
  unfold ToldBy configured
  cases he : effectiveConfig w (optionsOf args) with
  | none =>
    rw [he] at h
    simp only at h
    split at h
    · cases h
    · split at h
      · cases h
      · cases h
        exact ⟨rfl, rfl, rfl, rfl, rfl, rfl⟩
  | some f =>
    rw [he] at h
    simp only at h
    rw [Option.bind_some]
    cases hf : w.contents f with
    | none => rw [hf] at h; cases h
    | some cfg =>
      rw [hf] at h
      simp only at h
      cases hp : parseConfig cfg (optionsOf args).sourceFlag {} with
      | none => rw [hp] at h; cases h
      | some p =>
        rw [hp] at h
        simp only at h
        split at h
        · cases h
        · split at h
          · cases h
          · cases h
            obtain ⟨-, -, -, h1, h2, h3, h4, h5, -, h6, h7⟩ := C44_transfer _ _ _ _ hp
            exact ⟨h3, h4, h5, h6, h7, h2, h1⟩

section
variable {w : Machine} {args : List Opt} {paths : List Str} {r : MainResult}

/-- **C01, C03 (run).** Every finding that a run prints is an F-002 or has the id of a check that the
options and the configuration leave enabled and that is at or above the level of the run. -/
theorem C01_findings (h : selintMain w args paths = .ok r) (f : Finding) (hf : f ∈ r.findings) :
    (f.result.severity = 'F' ∧ f.result.checkId = 2) ∨
    ∃ row ∈ checkTable, f.result.severity = row.sev ∧ f.result.checkId = row.num ∧
      EnabledBy w.config args row.id ∧ ∃ level, LevelIs w.config args level ∧ atLeast row.sev level = true := by
  obtain ⟨-, st, m, h1, h2⟩ := C71_files h f hf
  rcases h2 with h2 | ⟨row, h2, h3, h4, h5, h6, -⟩
  · exact .inl h2
  · exact .inr ⟨row, h2, h3, h4, (C01_command_line h1 _).1 h6, _, C03_level h1, h5⟩

end

/-- On the example machine `-d E-005` takes away the second finding, `-l E` the first; `-e` wins
over `-d`, and `-E` leaves only what is named. -/
example :
    ((EnabledBy exMachine.config [.recursive, .disable cs!"E-005"] cs!"C-004" ∧
      ¬EnabledBy exMachine.config [.recursive, .disable cs!"E-005"] cs!"E-005") ∧
     (match selintMain exMachine [.recursive, .disable cs!"E-005"] [cs!"mod"] with
      | .ok r => r.findings.map fun f => (f.result.severity, f.result.checkId)
      | .ub => []) = [('C', 4)]) ∧
    (LevelIs exMachine.config [.recursive, .level cs!"E"] 'E' ∧
     (match selintMain exMachine [.recursive, .level cs!"E"] [cs!"mod"] with
      | .ok r => r.findings.map fun f => (f.result.severity, f.result.checkId)
      | .ub => []) = [('E', 5)]) ∧
    (EnabledBy exMachine.config [.enable cs!"E-005", .disable cs!"E-005"] cs!"E-005") ∧
    ¬EnabledBy exMachine.config [.onlyEnabled, .enable cs!"E-005"] cs!"C-004" := by
  refine ⟨⟨⟨?_, ?_⟩, by decide +kernel⟩, ⟨?_, by decide +kernel⟩, ?_, ?_⟩
  · rw [EnabledBy, if_neg (by simp), if_neg (by simp), if_neg (by simp)]
    intro cfg hc
    cases hc
  · rw [EnabledBy, if_neg (by simp), if_neg (by simp), if_pos (by simp)]
    exact id
  · exact rfl
  · rw [EnabledBy, if_neg (by simp), if_pos (by simp)]
    trivial
  · rw [EnabledBy, if_pos (by simp)]
    simp

/-! ## The ids that are warned about -/

/-- A string that is taken for the id of a check: a severity letter, a dash and text in which, after
white space and a plus sign, the leading digits form a number between 1 and the highest number of
that severity. -/
def Spec.TakenForId (s : Str) : Prop :=
  ∃ sev hi blanks sign digits junk, (sev, hi) ∈ highest ∧
    s = sev :: '-' :: (blanks ++ sign ++ digits ++ junk) ∧
    (∀ c ∈ blanks, isSpaceC c = true) ∧ (sign = [] ∨ sign = ['+']) ∧
    (∀ c ∈ digits, c ∈ cs!"0123456789") ∧ (∀ c, junk.head? = some c → c ∉ cs!"0123456789") ∧
    1 ≤ Nat.ofDigitChars 10 digits 0 ∧ Nat.ofDigitChars 10 digits 0 ≤ hi

theorem invalidIds_filter {ids bad : List Str} (h : invalidIds ids = .ok bad) :
    ∃ p : Str → Bool, (∀ id ∈ ids, p id = true ↔ ¬TakenForId id) ∧ bad = ids.filter p := by
  have key : bad = ids.filter (fun id => decide (isValidCheck (some id) ≠ .ok true)) ∧ ∀ id ∈ ids, id ≠ [] := by
    induction ids generalizing bad with
    | nil => cases h; exact ⟨rfl, nofun⟩
    | cons id ids ih =>
      rw [invalidIds] at h
      cases h1 : isValidCheck (some id) with
      | ub => rw [h1] at h; cases h
      | ok b =>
        rw [h1, Res.bind_ok] at h
        cases h2 : invalidIds ids with
        | ub => rw [h2] at h; cases h
        | ok rest =>
          rw [h2, Res.bind_ok] at h
          cases h
          obtain ⟨e, h3⟩ := ih h2
          refine ⟨?_, ?_⟩
          · rw [List.filter_cons, ← e]
            cases b <;> simp [h1]
          · intro x hx
            rcases List.mem_cons.1 hx with rfl | hx
            · rintro rfl; cases h1
            · exact h3 x hx
  refine ⟨_, fun id hid => ?_, key.1⟩
  rw [decide_eq_true_eq, Ne, C46_exact id (key.2 id hid)]
  exact Iff.rfl

theorem configIds_given {w : ConfigWorld} {args : List Opt} (hu : ¬NamedConfigUnreadable w (optionsOf args))
    (hv : ¬ConfigRejected w (optionsOf args)) :
    configIds w (optionsOf args) = match configured w args with
      | some cfg => cfg.disable ++ enabledIn args cfg
      | none => [] := by
  unfold configIds configured
  rw [chooseConfig_of hu]
  cases he : effectiveConfig w (optionsOf args) with
  | none => rfl
  | some f =>
    simp only [Option.bind_some]
    cases hf : w.contents f with
    | none => rfl
    | some cfg =>
      simp only [Option.bind_some]
      cases hp : parseConfig cfg (optionsOf args).sourceFlag {} with
      | none =>
        refine absurd ⟨f, he, fun cfg' hc hval => ?_⟩ hv
        rw [hf] at hc; cases hc
        have := (C44_accepted_iff cfg (optionsOf args).sourceFlag {}).mpr hval
        rw [hp] at this; cases this
      | some p =>
        obtain ⟨-, h1, h2, -⟩ := C44_transfer _ _ _ _ hp
        simp only [h1, h2, enabledIn, sourceFlag_iff]

theorem filter_append_of {α : Type} {a b bad bad' : List α} {p q : α → Bool} {P : α → Prop}
    (hp : ∀ x ∈ a, p x = true ↔ P x) (hq : ∀ x ∈ b, q x = true ↔ P x) (h1 : bad = a.filter p)
    (h2 : bad' = b.filter q) [DecidablePred P] : bad ++ bad' = (a ++ b).filter fun x => decide (P x) := by
  rw [List.filter_append, h1, h2]
  congr 1
  · exact List.filter_congr fun x hx => by rw [Bool.eq_iff_iff, hp x hx, decide_eq_true_eq]
  · exact List.filter_congr fun x hx => by rw [Bool.eq_iff_iff, hq x hx, decide_eq_true_eq]

open Classical in
/-- **C46 (warnings).** A run whose options and configuration are accepted warns about exactly the
ids it is given that are not taken for the id of a check, in the order in which they are given. -/
theorem C46_warned {w : Machine} {args : List Opt} {paths : List Str} {r : MainResult}
    (h : selintMain w args paths = .ok r) (hr : Reaches w.config args paths.length) :
    r.warned = (givenIds w.config args).filter fun id => decide ¬TakenForId id := by
  unfold selintMain at h
  have hopt := C08_options args
  rw [List.findSome?_eq_none_iff.2 hr.noStop] at hopt
  simp only at hopt
  rw [hopt] at h
  simp only at h
  cases h1 : invalidIds ((optionsOf args).clDisabled ++ (optionsOf args).clEnabled) with
  | ub => rw [h1] at h; cases h
  | ok w1 =>
  rw [h1, Res.bind_ok] at h
  cases h2 : invalidIds (configIds w.config (optionsOf args)) with
  | ub => rw [h2] at h; cases h
  | ok w2 =>
  rw [h2, Res.bind_ok] at h
  obtain ⟨p, hp, e1⟩ := invalidIds_filter h1
  obtain ⟨q, hq, e2⟩ := invalidIds_filter h2
  have hw : r.warned = w1 ++ w2 := by
    split at h
    · cases h; rfl
    · unfold mainWith at h
      obtain ⟨s, -, h⟩ := Res.bind_eq_ok h
      split at h
      · cases h; rfl
      · obtain ⟨⟨e, r'⟩, -, h⟩ := Res.bind_eq_ok h
        cases h; rfl
  rw [hw, filter_append_of hp hq e1 e2, configIds_given hr.readable hr.accepted]
  rfl

/-- The ids of the options are warned about even if the program then stops. -/
example :
    (match selintMain exMachine [.recursive, .disable cs!"E-005", .enable cs!"E-099", .disable cs!"foo"] [cs!"mod"] with
      | .ok r => r.warned
      | .ub => []) = [cs!"foo", cs!"E-099"] ∧
    givenIds exMachine.config [.recursive, .disable cs!"E-005", .enable cs!"E-099", .disable cs!"foo"] =
      [cs!"E-005", cs!"foo", cs!"E-099"] := by
  constructor <;> decide +kernel

/-! ## Paths -/

/-- **C47 (paths).** The path of an entry is the path of its directory, one slash, and its name: a
slash is added if the directory does not end with one. -/
theorem C47_path (dir name : Str) :
    (∀ d, dir = d ++ cs!"/" → joinPath dir name = d ++ cs!"/" ++ name) ∧
    ((¬∃ d, dir = d ++ cs!"/") → joinPath dir name = dir ++ cs!"/" ++ name) := by
  unfold joinPath
  constructor
  · rintro d rfl
    rw [if_pos (by simp)]
  · intro h
    rw [if_neg, List.append_assoc]; rfl
    intro hl
    obtain ⟨d, hd⟩ := List.getLast?_eq_some_iff.1 hl
    exact h ⟨d, hd⟩

/-- **C47 (names of roots).** The name of a path of the command line, other than the root directory,
is what follows its last slash, or all of it if there is no slash. -/
theorem C47_root_name (path : Str) (h : path ≠ cs!"/") :
    '/' ∉ baseName path ∧ (path = baseName path ∨ ∃ dir, path = dir ++ cs!"/" ++ baseName path) := by
  unfold baseName
  rw [if_neg h]
  cases hs : strrchr '/' path with
  | none =>
    refine ⟨fun hm => ?_, .inl rfl⟩
    obtain ⟨pre, ext, h1, h2⟩ : ∃ pre ext, path = pre ++ '/' :: ext ∧ '/' ∉ ext := by
      clear h hs
      induction path with
      | nil => cases hm
      | cons c cs ih =>
        by_cases hc : '/' ∈ cs
        · obtain ⟨pre, ext, h1, h2⟩ := ih hc
          exact ⟨c :: pre, ext, by rw [h1]; rfl, h2⟩
        · rcases List.mem_cons.1 hm with rfl | h3
          · exact ⟨[], cs, rfl, hc⟩
          · exact absurd h3 hc
    have := strrchr_some.2 ⟨pre, ext, h1, h2, rfl⟩
    rw [hs] at this; cases this
  | some e =>
    obtain ⟨pre, ext, h1, h2, rfl⟩ := strrchr_some.1 hs
    refine ⟨h2, .inr ⟨pre, ?_⟩⟩
    rw [h1, List.append_assoc]; rfl

example : joinPath cs!"mod" cs!"a.te" = cs!"mod/a.te" ∧ joinPath cs!"mod/" cs!"a.te" = cs!"mod/a.te" ∧
    baseName cs!"policy/modules" = cs!"modules" ∧ baseName cs!"mod" = cs!"mod" ∧ baseName cs!"/" = cs!"/" := by decide

end Selint
