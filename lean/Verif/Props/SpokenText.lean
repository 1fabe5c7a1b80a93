import Verif.Model.SpokenText
import Verif.Props.ParsingMore
/-!
# C104, C107, C108, C109: the whole program with its parsers

Here what the parser prints is no parameter.
-/

namespace Selint

open Spec

theorem spoken_more (y : Speaking) (w : Machine) (st : Settings) (color : Bool) (s : Scan) :
    MoreRes (analysisText (y.under color st) w st s) (analysisText (y.under color st.loud) w st.loud s) :=
  C108_parsing (y.under color st) w st s

theorem spoken_painted (y : Speaking) (w : Machine) (st : Settings) (s : Scan) :
    PaintedRes (analysisText (y.under true st) w st s) (analysisText (y.under false st) w st s) :=
  C104_parsing (y.under true st) w st s

theorem supportParserText_painted (y : Speaking) (w : Machine) (st : Settings) (fl : PlainFlavor) (p : Str) (m : Maps) :
    PaintedRes (supportParserText (y.under true st) w fl p m) (supportParserText (y.under false st) w fl p m) := by
  unfold supportParserText
  split
  · exact Painted.nil
  · exact parserText_painted _ _ _ _ _ _ _

theorem vectorsSaid_painted (y : Speaking) (w : Machine) (st : Settings) (o : Options) (s : Scan) :
    PaintedRes (vectorsSaid (y.under true st) w o s) (vectorsSaid (y.under false st) w o s) := by
  unfold vectorsSaid
  split
  · exact supportParserText_painted _ _ _ _ _ _
  · exact Painted.nil

theorem permSetsSaid_painted (y : Speaking) (w : Machine) (st : Settings) (o : Options) (s : Scan) :
    PaintedRes (permSetsSaid (y.under true st) w o s) (permSetsSaid (y.under false st) w o s) := by
  unfold permSetsSaid
  split
  · exact PaintedRes.skip _ fun m => PaintedRes.skip _ fun m => supportParserText_painted _ _ _ _ _ _
  · exact Painted.nil

theorem orNil_painted {a b : Res Str} (h : PaintedRes a b) : Painted a.orNil b.orNil := by
  cases a <;> cases b <;> first | exact h | exact h.elim | exact Painted.nil

theorem orNil_more {a b : Res Str} (h : MoreRes a b) : a.orNil.Sublist b.orNil := by
  cases a <;> cases b <;> first | exact h | exact h.elim | exact List.Sublist.refl _

/-- **C108 (whole).** `-v` anywhere among the options only adds to what is printed. -/
theorem C108_spoken (version : Str) (w : Machine) (y : Speaking) (sort : Checks CheckFn → List (CheckNode CheckFn)) (tty : Bool)
    (a b : List Opt) (paths : List Str) :
    MoreRes (spokenText version w y sort tty (a ++ b) paths) (spokenText version w y sort tty (a ++ .verbose :: b) paths) := by
  unfold spokenText
  rw [startUp_insert]
  cases startUp w.config (a ++ b) paths.length with
  | exit s => exact C108_text version w _ _ tty a b paths rfl rfl (fun _ _ => List.Sublist.refl _) fun _ _ => List.Sublist.refl _
  | go st =>
    refine MoreRes.skip (vectorsSaid (y.under (colorOn tty st.opts) st) w st.opts (collect w st paths)) fun _ => ?_
    refine MoreRes.skip (permSetsSaid (y.under (colorOn tty st.opts) st) w st.opts (collect w st paths)) fun _ => ?_
    refine MoreRes.skip (loadSupport w st.opts (collect w st paths)) fun s => ?_
    refine MoreRes.bind (spoken_more y w st (colorOn tty st.opts) s) fun _ _ _ => ?_
    exact C108_text version w _ _ tty a b paths rfl rfl (fun _ _ => List.Sublist.refl _) fun c s => orNil_more (spoken_more y w st c s)

/-- Whatever the colours are, the rest is printed or not. -/
theorem painted_then {f : Bool → Res Str} (h : PaintedRes (f true) (f false)) (c d : Bool) {g k : Res Str} (hg : PaintedRes g k) :
    PaintedRes (f c >>= fun _ => g) (f d >>= fun _ => k) := by
  revert h
  cases c <;> cases d <;> cases f true <;> cases f false <;>
    first | exact fun h => h.elim | exact fun _ => hg | exact fun _ => trivial

/-- **C104 (whole).** On a terminal the program prints the same up to colours. As in C107 this is for runs without `-v`, which
says that colours are used. -/
theorem C104_spoken (version : Str) (w : Machine) (y : Speaking) (sort : Checks CheckFn → List (CheckNode CheckFn))
    (args : List Opt) (paths : List Str) (hv : .verbose ∉ args) :
    PaintedRes (spokenText version w y sort true args paths) (spokenText version w y sort false args paths) := by
  unfold spokenText
  cases startUp w.config args paths.length with
  | exit s => exact C107_colours version w _ args paths (fun _ => Painted.nil) (fun _ => Painted.nil) hv
  | go st =>
    refine painted_then (f := fun c => vectorsSaid (y.under c st) w st.opts (collect w st paths)) (vectorsSaid_painted _ _ _ _ _)
      _ _ ?_
    refine painted_then (f := fun c => permSetsSaid (y.under c st) w st.opts (collect w st paths)) (permSetsSaid_painted _ _ _ _ _)
      _ _ ?_
    refine PaintedRes.skip (loadSupport w st.opts (collect w st paths)) fun s => ?_
    refine painted_then (f := fun c => analysisText (y.under c st) w st s) (spoken_painted y w st s) _ _ ?_
    refine C107_colours version w _ args paths (fun p => ?_) (fun s => orNil_painted (spoken_painted y w st s)) hv
    simp only [spokenPrinting]
    split
    · exact orNil_painted (vectorsSaid_painted _ _ _ _ _)
    · exact orNil_painted (permSetsSaid_painted _ _ _ _ _)

/-- **C109 (whole).** If the program ends with EX_SOFTWARE, the last that it prints is about a file that cannot be parsed, which
is named if it is a te or if file, and the sentence that the files could not be parsed. -/
theorem C109_spoken {version : Str} {w : Machine} {y : Speaking}
    {sort : Checks CheckFn → List (CheckNode CheckFn)} {tty : Bool} {args : List Opt}
    {paths : List Str} {r : MainResult} {t : Str} {st : Settings} (h : selintMain w args paths = .ok r)
    (ht : spokenText version w y sort tty args paths = .ok t) (hu : startUp w.config args paths.length = .go st)
    (hfew : FewLines (w.sources st.customFcMacros)) (hrec : Opt.recursive ∈ args)
    (hd : ∀ root ∈ paths, PlainDirs (optionsOf args).sourceFlag root (baseName root) (w.fs root)) (h70 : r.status = 70) :
    ∃ fl n before b, ReadsFile w args paths fl n ∧ ¬Parseable (w.sources st.customFcMacros) n fl ∧
      Blames (y.under (colours tty args) st) (w.sources st.customFcMacros) (fl, n) b ∧
      t = before ++ b ++ (Label.error.shown (colours tty args) ++ cs!": Failed to parse files\n") := by
  have hopts : st.opts = optionsOf args := by
    unfold startUp at hu
    cases hp : parseOpts {} args with
    | exit s => rw [hp] at hu; cases hu
    | go o =>
      rw [hp] at hu
      have := options_go hp
      subst this
      exact settings_opts hu
  unfold spokenText at ht
  rw [hu] at ht
  obtain ⟨_, -, ht⟩ := Res.bind_eq_ok ht
  obtain ⟨_, -, ht⟩ := Res.bind_eq_ok ht
  obtain ⟨s, hs, ht⟩ := Res.bind_eq_ok ht
  obtain ⟨u, hu', ht⟩ := Res.bind_eq_ok ht
  rw [hopts, colorOn_eq] at hu'
  refine C109_main (y := y.under (colours tty args) st) h ht hu hfew (fun s' hs' => ?_) hrec hd h70
  rw [hs] at hs'
  cases hs'
  simp only [spokenPrinting]
  rw [hu']
  rfl

/-- **C107 (whole).** If nothing is printed, all is well. -/
theorem C107_spoken {version : Str} {w : Machine} {y : Speaking}
    {sort : Checks CheckFn → List (CheckNode CheckFn)} {tty : Bool} {args : List Opt}
    {paths : List Str} {r : MainResult} (h : selintMain w args paths = .ok r)
    (ht : spokenText version w y sort tty args paths = .ok []) :
    r.status = 0 ∧ r.findings = [] ∧ r.summary = none ∧
    ∃ st s, startUp w.config args paths.length = .go st ∧
      loadSupport w st.opts (collect w st paths) = .ok s ∧ AllWell w args paths st s.maps := by
  unfold spokenText at ht
  cases hu : startUp w.config args paths.length with
  | exit c =>
    rw [hu] at ht
    have := C107_silence h ht
    rwa [hu] at this
  | go st =>
    rw [hu] at ht
    obtain ⟨_, -, ht⟩ := Res.bind_eq_ok ht
    obtain ⟨_, -, ht⟩ := Res.bind_eq_ok ht
    obtain ⟨s, hs, ht⟩ := Res.bind_eq_ok ht
    obtain ⟨u, hu', ht⟩ := Res.bind_eq_ok ht
    have := C107_silence h ht
    rwa [hu] at this

/-- **C109 (access vectors).** In source mode an access_vectors file that cannot be parsed is named in a finding F-001, which is
followed by a warning. -/
theorem C109_vectors {version : Str} {w : Machine} {y : Speaking} {sort : Checks CheckFn → List (CheckNode CheckFn)} {tty : Bool}
    {args : List Opt} {paths : List Str} {t : Str} {st : Settings} {p : Str}
    (ht : spokenText version w y sort tty args paths = .ok t) (hu : startUp w.config args paths.length = .go st)
    (hfew : FewLines (w.sources [])) (hsrc : st.opts.sourceFlag = true) (hp : (collect w st paths).accessVectors = some p)
    (he : supportResult w .avFile p (collect w st paths).maps = .ok .parseError) :
    ∃ before line msg more after, t = before ++ formatFinding (colorOn tty st.opts) ⟨p, line, ⟨'F', 1, msg⟩⟩ ++ more ++
      (Label.warning.shown (colorOn tty st.opts) ++ cs!": Failed to parse access_vectors from " ++ p ++ cs!": " ++
        natToStr (SelintError.number .parseError) ++ cs!"\n") ++ after := by
  unfold spokenText at ht
  rw [hu] at ht
  obtain ⟨v, hv, ht⟩ := Res.bind_eq_ok ht
  obtain ⟨_, -, ht⟩ := Res.bind_eq_ok ht
  obtain ⟨s, hs, ht⟩ := Res.bind_eq_ok ht
  obtain ⟨u, hu', ht⟩ := Res.bind_eq_ok ht
  have hsaid : vectorsSaid (y.under (colorOn tty st.opts) st) w st.opts (collect w st paths) =
      supportParserText (y.under (colorOn tty st.opts) st) w .avFile p (collect w st paths).maps := by
    simp only [vectorsSaid, hsrc, hp]
  obtain ⟨line, msg, more, hm⟩ := (C109_support (y.under (colorOn tty st.opts) st) hfew he).2 rfl v (by rw [← hsaid, hv])
  unfold mainText at ht
  obtain ⟨start, -, ht⟩ := Res.bind_eq_ok ht
  rw [hu] at ht
  obtain ⟨rest, hr, ht⟩ := Res.bind_eq_ok ht
  unfold filesText at hr
  obtain ⟨sup, hsup, hr⟩ := Res.bind_eq_ok hr
  obtain ⟨s', -, hr⟩ := Res.bind_eq_ok hr
  have hmid : ∃ tail, rest = (scanTold (colorOn tty st.opts) st.opts (paths.map fun p => (p, w.fs p)) { maps := st.maps }).2 ++
      (sup ++ tail) := by
    split at hr
    · cases hr
      simp only [List.append_assoc]
      exact ⟨_, rfl⟩
    · obtain ⟨er, -, hr⟩ := Res.bind_eq_ok hr
      cases hr
      simp only [List.append_assoc]
      exact ⟨_, rfl⟩
  obtain ⟨tail, rfl⟩ := hmid
  cases ht
  unfold supportTexts at hsup
  rw [if_pos hsrc] at hsup
  obtain ⟨a, ha, hsup⟩ := Res.bind_eq_ok hsup
  obtain ⟨_, -, hsup⟩ := Res.bind_eq_ok hsup
  obtain ⟨b, -, hsup⟩ := Res.bind_eq_ok hsup
  obtain ⟨_, -, hsup⟩ := Res.bind_eq_ok hsup
  obtain ⟨c, -, hsup⟩ := Res.bind_eq_ok hsup
  cases hsup
  simp only [supportText, hp, he, Res.bind_ok, Option.getD_some, Res.ok.injEq] at ha
  subst ha
  refine ⟨start ++ (scanTold (colorOn tty st.opts) st.opts (paths.map fun p => (p, w.fs p)) { maps := st.maps }).2 ++
    ifVerbose st.opts.verbose (cs!"Parsing access_vector file " ++ p ++ cs!"\n"), line, msg, more, b ++ c ++ tail, ?_⟩
  have hx : (spokenPrinting y sort w st (collect w st paths)).support (colorOn tty st.opts) p =
      formatFinding (colorOn tty st.opts) ⟨p, line, ⟨'F', 1, msg⟩⟩ ++ more := by
    simp only [spokenPrinting, hp, if_true, hv, Res.orNil]
    exact hm
  have hlab : Label.warning.shown (colorOn tty st.opts) =
      colorWarning (colorOn tty st.opts) ++ cs!"Warning" ++ colorReset (colorOn tty st.opts) := by
    cases colorOn tty st.opts <;> rfl
  simp only [vectorsText, hx, hlab]
  simp [List.append_assoc]

/-! ## Example -/

set_option synthInstance.maxSize 1000 in
/-- The run of `Props/ParsingText.lean` in which a file cannot be parsed. -/
example : spokenText cs!"1" brokenMachine (exSpeaking false) (fun ck => flatNodes ck) false
      ([.recursive] ++ .verbose :: [.onlyEnabled, .enable cs!"S-003"]) [cs!"mod"] =
    .ok (cs!"Verbose mode enabled\n" ++
      cs!"No config specified and could not find default config at /etc/selint.conf.\n" ++
      cs!"Severity level set to C\n" ++
      cs!"Path added to scan: 'mod'\n" ++
      cs!"Skipping mod which is not a policy file\n" ++
      cs!"Note: Failed to load classes and perms probably due to running on a SELinux disabled system.\n" ++
      cs!"Parsing mod/a.te\n" ++
      cs!"mod/a.te:             2: (F): syntax error, unexpected ALLOW, expecting end of file (F-001)\n" ++
      cs!"    2 | allow;\n" ++
      cs!"      | ^~~~~\n" ++
      cs!"Error: Failed to parse files\n") := by
  decide +kernel

/-- A machine whose access_vectors cannot be parsed. -/
def brokenVectors : Machine :=
  { exPerms with text := fun name => if name = cs!"mod/access_vectors" then some cs!"class file {\n" else exPerms.text name }

set_option synthInstance.maxSize 1000 in
example : spokenText cs!"1" brokenVectors (exSpeaking false) (fun ck => flatNodes ck) false
      [.recursive, .source, .onlyEnabled, .enable cs!"S-003"] [cs!"mod"] =
    .ok (cs!"mod/access_vectors:   2: (F): syntax error, unexpected end of file, expecting STRING or COMMENT (F-001)\n" ++
      cs!"    2 |\n" ++
      cs!"      | ^\n" ++
      cs!"Warning: Failed to parse access_vectors from mod/access_vectors: 6\n") := by
  decide +kernel

end Selint
