import Verif.Props.TextDefined
/-!
# C107: exactly when the program is silent
-/

namespace Selint

open Spec

/-- **C107 (exactly when).** With the parser's messages: the program prints nothing exactly if all is well, the analysis does
not fail and nothing is found. As in C47, without `-r` no directory on the command line is named like a policy file. -/
theorem C107_silent_iff {version : Str} {w : Machine} {y : Speaking} {sort : Checks CheckFn → List (CheckNode CheckFn)}
    {tty : Bool} {args : List Opt} {paths : List Str} {r : MainResult} {t : Str} {st : Settings} {s : Scan}
    (h : selintMain w args paths = .ok r) (ht : spokenText version w y sort tty args paths = .ok t)
    (hu : startUp w.config args paths.length = .go st) (hl : loadSupport w st.opts (collect w st paths) = .ok s)
    (hd : .recursive ∉ args → ∀ p ∈ paths, w.fs p ≠ .file → PlainDir st.opts.sourceFlag p (baseName p))
    (hfew : FewLines (w.sources st.customFcMacros)) :
    t = [] ↔ AllWell w args paths st s.maps ∧ r.status ≠ 70 ∧ r.findings = [] := by
  constructor
  · rintro rfl
    obtain ⟨h0, hf, -, st', s', hu', hl', hw⟩ := C107_spoken h ht
    rw [hu] at hu'
    cases hu'
    rw [hl] at hl'
    cases hl'
    exact ⟨hw, by rw [h0]; decide, hf⟩
  · rintro ⟨hw, h70, hf⟩
    unfold spokenText at ht
    rw [hu] at ht
    obtain ⟨_, -, ht⟩ := Res.bind_eq_ok ht
    obtain ⟨_, -, ht⟩ := Res.bind_eq_ok ht
    obtain ⟨s', hl', ht⟩ := Res.bind_eq_ok ht
    rw [hl] at hl'
    cases hl'
    obtain ⟨u, hu', ht⟩ := Res.bind_eq_ok ht
    have hp := C107_quiet h ht hu hl hw hd h70 hf
    unfold startUp at hu
    unfold selintMain at h
    cases ho : parseOpts {} args with
    | exit s => rw [ho] at hu; cases hu
    | go o =>
    have hoo := options_go ho
    subst hoo
    simp only [ho] at hu h
    have hopts : st.opts = optionsOf args := settings_opts hu
    have hv : st.opts.verbose = false := by rw [hopts]; simp [optionsOf, hw.plain.1]
    have hcol : colours tty args = colorOn tty st.opts := by rw [hopts, colorOn_eq]
    obtain ⟨w1, -, h⟩ := Res.bind_eq_ok h
    obtain ⟨w2, -, h⟩ := Res.bind_eq_ok h
    simp only [hu] at h
    unfold mainWith at h
    rw [hl, Res.bind_ok] at h
    rw [hp, hcol]
    show (analysisText (y.under (colorOn tty st.opts) st) w st s).orNil = []
    rw [hu']
    show u = []
    unfold analysisText at hu'
    cases hr : registerChecks st.severity st.enableConf s.maps with
    | none =>
      rw [hr] at hu'
      cases hu'
      rfl
    | some ck =>
      simp only [hr] at h hu'
      obtain ⟨⟨e, r'⟩, hrun, h⟩ := Res.bind_eq_ok h
      rw [hrun, Res.bind_ok] at hu'
      rcases C109_run hrun hfew (y.under (colorOn tty st.opts) st) with ⟨rfl, -, -⟩ | ⟨rfl, -⟩
      · have := C109_quiet hrun hfew (y.under (colorOn tty st.opts) st) hv
        simp only [this, Res.ok.injEq] at hu'
        exact hu'.symm
      · cases h
        exact absurd (by simp [exitStatus, exSoftware, exOk]) h70

/-- **C107 (whatever the terminal).** Whether the program is silent depends neither on the terminal nor on the order `qsort`
gives to equal hooks nor on how messages are worded. -/
theorem C107_silent_same {version version' : Str} {w : Machine} {y y' : Speaking}
    {sort sort' : Checks CheckFn → List (CheckNode CheckFn)} {tty tty' : Bool} {args : List Opt} {paths : List Str}
    {r : MainResult} {t t' : Str} {st : Settings} {s : Scan}
    (h : selintMain w args paths = .ok r) (ht : spokenText version w y sort tty args paths = .ok t)
    (ht' : spokenText version' w y' sort' tty' args paths = .ok t')
    (hu : startUp w.config args paths.length = .go st) (hl : loadSupport w st.opts (collect w st paths) = .ok s)
    (hd : .recursive ∉ args → ∀ p ∈ paths, w.fs p ≠ .file → PlainDir st.opts.sourceFlag p (baseName p))
    (hfew : FewLines (w.sources st.customFcMacros)) : t = [] ↔ t' = [] :=
  (C107_silent_iff h ht hu hl hd hfew).trans (C107_silent_iff h ht' hu hl hd hfew).symm

set_option synthInstance.maxSize 1000 in
/-- A silent run in source mode. -/
example : spokenText cs!"1" exPerms (exSpeaking false) (fun ck => flatNodes ck) true
      [.recursive, .source, .onlyEnabled, .enable cs!"S-003"] [cs!"mod"] = .ok [] ∧
    definedLook exPerms [.recursive, .source, .onlyEnabled, .enable cs!"S-003"] [cs!"mod"] = some (.success, .success, 0) := by
  constructor <;> decide +kernel

end Selint
