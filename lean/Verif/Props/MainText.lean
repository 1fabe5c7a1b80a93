import Verif.Model.MainText
import Verif.Spec.MainText
import Verif.Props.ScanText
import Verif.Props.Selint
import Verif.Props.Permissions
/-! # C107: silence means that all is well -/

namespace Selint

open Spec

/-! ## Checks that cannot be performed -/

theorem permissionNote_eq (color : Bool) (m : Maps) (r : CheckRow) (hf : r.fn ≠ .unknownClass) (hi : r.id = cs!"E-007") :
    permissionNote color m = if decide (m.perm ≠ [] ∧ m.permmacros ≠ []) = true then [] else notPerformed color m r := by
  unfold permissionNote notPerformed lack Maps.permmacrosCount Maps.declCount Maps.declTable
  rw [hi, if_neg hf]
  cases m.perm <;> cases m.permmacros <;> cases color <;> rfl

theorem classNote_eq (color : Bool) (m : Maps) (r : CheckRow) (hf : r.fn = .unknownClass) (hi : r.id = cs!"E-008") :
    classNote color m = if decide (m.cls ≠ []) = true then [] else notPerformed color m r := by
  unfold classNote notPerformed lack Maps.declCount Maps.declTable
  rw [hi, if_pos hf]
  cases m.cls <;> cases color <;> rfl

theorem flatMap_filter_cons {α : Type} (p : α → Bool) (f : α → Str) (a : α) (l : List α) :
    ((a :: l).filter p).flatMap f = (if p a then f a else []) ++ (l.filter p).flatMap f := by
  simp only [List.filter_cons]; split <;> simp

theorem nested_if (e b : Bool) (x : Str) : (if e = true then if b = true then [] else x else []) =
    if (e && !b) = true then x else [] := by cases e <;> cases b <;> rfl

/-- **C107 (checks).** For each check that is asked for and cannot be performed for lack of data there is one note, in the
order of the checks, that says what is missing; and no other note. -/
theorem C107_checks (color : Bool) (level : Char) (c : EnableConf) (m : Maps) :
    registerText color level c m =
      (checkTable.filter fun r => atLeast r.sev level && isCheckEnabled r.id c && !r.needs m).flatMap
        (notPerformed color m) := by
  have key : ∀ l : Bool, (if l then registerEText color (fun id => isCheckEnabled id c) m else []) =
      (if l && isCheckEnabled cs!"E-007" c && !decide (m.perm ≠ [] ∧ m.permmacros ≠ []) then
        notPerformed color m ⟨'E', 7, .unknownPermission, [.avRule], fun m => m.perm ≠ [] ∧ m.permmacros ≠ []⟩ else []) ++
      (if l && isCheckEnabled cs!"E-008" c && !decide (m.cls ≠ []) then
        notPerformed color m ⟨'E', 8, .unknownClass, [.avRule, .rtRule, .ttRule], fun m => m.cls ≠ []⟩ else []) := by
    intro l
    cases l with
    | false => rfl
    | true =>
      simp only [if_true, registerEText, Bool.true_and]
      rw [permissionNote_eq color m ⟨'E', 7, .unknownPermission, [.avRule], fun m => m.perm ≠ [] ∧ m.permmacros ≠ []⟩
          (by decide) (by decide),
        classNote_eq color m ⟨'E', 8, .unknownClass, [.avRule, .rtRule, .ttRule], fun m => m.cls ≠ []⟩ rfl (by decide)]
      rw [nested_if, nested_if]
  have hl : registerText color level c m =
      if atLeast 'E' level then registerEText color (fun id => isCheckEnabled id c) m else [] := by
    clear key
    unfold registerText
    split
    iterate 4 rfl
    rename_i h1 h2 h3 h4
    have : atLeast 'E' level = false := by
      unfold atLeast severityRank
      split
      · rename_i a b ha hb
        cases ha
        split at hb
        · exact absurd rfl h1
        · exact absurd rfl h2
        · exact absurd rfl h3
        · exact absurd rfl h4
        · cases hb; rfl
        · cases hb
      · rfl
    simp only [this, Bool.false_eq_true, if_false]
  rw [hl, key]
  simp only [checkTable, flatMap_filter_cons, List.filter_nil, List.flatMap_nil, List.append_nil, Bool.not_true,
    Bool.and_false, Bool.false_eq_true, if_false, List.nil_append]
  rfl

theorem checks_silent {color : Bool} {level : Char} {c : EnableConf} {m : Maps} (h : registerText color level c m = []) :
    ∀ r ∈ checkTable, atLeast r.sev level = true → isCheckEnabled r.id c = true → r.needs m = true := by
  intro r hr h1 h2
  rw [C107_checks, List.flatMap_eq_nil_iff] at h
  cases hn : r.needs m with
  | true => rfl
  | false =>
    have := h r (List.mem_filter.2 ⟨hr, by simp [h1, h2, hn]⟩)
    cases color <;> simp [notPerformed, Label.shown] at this

/-! ## The scan -/

mutual
theorem walk_silent (color : Bool) (o : Options) (path name parent : Str) : ∀ (fs : Fs) (s : Scan × Str),
    (ftsWalk (visitTold color o) path name parent fs s).2 = [] → s.2 = []
  | .file, s, h => by
    simp only [ftsWalk, visitTold, List.append_eq_nil_iff] at h
    exact h.1
  | .dir es, s, h => by
    by_cases hk : (visitMain o ⟨path, name, parent, .d⟩ s.1).2 = true
    · simp only [ftsWalk, visitTold, hk, if_true, List.append_eq_nil_iff] at h
      exact h.1.1
    · simp only [ftsWalk, visitTold, hk, if_false, Bool.false_eq_true, List.append_eq_nil_iff] at h
      have := walks_silent color o path name es _ h.1
      simp only [List.append_eq_nil_iff] at this
      exact this.1
theorem walks_silent (color : Bool) (o : Options) (path name : Str) : ∀ (es : FsList) (s : Scan × Str),
    (ftsWalkList (visitTold color o) path name es s).2 = [] → s.2 = []
  | .nil, s, h => by simpa only [ftsWalkList] using h
  | .cons n fs rest, s, h => by
    simp only [ftsWalkList] at h
    exact walk_silent color o _ _ _ fs s (walks_silent color o path name rest _ h)
end

theorem skip_ne (color : Bool) (o : Options) (hr : o.recursiveScan = false) (path name parent : Str) (info : FtsInfo)
    (hi : info ≠ .d) : passText color o ⟨path, name, parent, info⟩ ≠ [] := by
  unfold passText
  simp only [hi, hr, ne_eq, not_false_eq_true, if_true, Bool.false_eq_true, if_false]
  simp

theorem root_silent {color : Bool} {o : Options} (hr : o.recursiveScan = false) {p parent : Str} {fs : Fs} {s : Scan × Str}
    (h : (ftsWalk (visitTold color o) p (baseName p) parent fs s).2 = []) : ¬ PlainDir o.sourceFlag p (baseName p) := by
  intro hp
  cases fs with
  | file =>
    simp only [ftsWalk, visitTold, List.append_eq_nil_iff] at h
    rw [visitText_plain hp] at h
    exact skip_ne color o hr _ _ _ _ (by decide) h.2
  | dir es =>
    simp only [ftsWalk, visitTold, List.append_eq_nil_iff] at h
    have h2 := h.2
    rw [visitText_plain hp] at h2
    exact skip_ne color o hr _ _ _ _ (by decide) h2

theorem scan_silent {color : Bool} {o : Options} (hr : o.recursiveScan = false) {roots : List (Str × Fs)} {s : Scan}
    (h : (scanTold color o roots s).2 = []) : ∀ r ∈ roots, ¬ PlainDir o.sourceFlag r.1 (baseName r.1) := by
  unfold scanTold at h
  revert h
  generalize (roots.flatMap fun r => ifVerbose o.verbose (cs!"Path added to scan: '" ++ r.1 ++ cs!"'\n")) = t
  suffices k : ∀ s : Scan × Str,
      (roots.foldl (fun s r => ftsWalk (visitTold color o) r.1 (baseName r.1) [] r.2 s) s).2 = [] →
      s.2 = [] ∧ ∀ r ∈ roots, ¬ PlainDir o.sourceFlag r.1 (baseName r.1) from fun h => (k _ h).2
  induction roots with
  | nil => intro s h; exact ⟨h, by simp⟩
  | cons r rs ih =>
    intro s h
    simp only [List.foldl_cons] at h
    obtain ⟨h1, h2⟩ := ih _ h
    refine ⟨walk_silent color o _ _ _ _ _ h1, fun r' hr' => ?_⟩
    rcases List.mem_cons.1 hr' with rfl | hr'
    · exact root_silent hr h1
    · exact h2 r' hr'

/-! ## The whole run -/

theorem warnings_silent {color : Bool} {l : List (Str × Str)} (h : warnings color l = []) :
    ∀ x ∈ l, isValidCheck (some x.1) ≠ .ok false := by
  intro x hx hv
  unfold warnings at h
  rw [List.flatMap_eq_nil_iff] at h
  have := h x (List.mem_filter.2 ⟨hx, by simp [hv]⟩)
  cases color <;> simp [warning, Label.shown] at this

theorem summary_ne {F : Type} (color : Bool) (l : List (CheckNode F)) : summaryText color l ≠ [] := by
  unfold summaryText; simp

theorem end_silent {color summary : Bool} {l : List (CheckNode CheckFn)} {e : SelintError}
    (h : endText color summary l (some e) = []) : e = .success ∧ summary = false := by
  cases e with
  | success =>
    refine ⟨rfl, ?_⟩
    cases summary with
    | false => rfl
    | true => exact absurd h (summary_ne color l)
  | _ => simp [endText] at h

theorem suppressed_summary (args : List Opt) : (optionsOf args).suppressOutput = true →
    (optionsOf args).summaryFlag = true := by
  simp only [optionsOf, decide_eq_true_eq]
  intro h
  simp [h]

theorem why_ne {version : Str} {w : ConfigWorld} {color : Bool} {args : List Opt} {n s : Nat} {why : Str}
    (h : Why version w color args n s why) : why ≠ [] := by
  have hu : usageText ≠ [] := by decide +kernel
  cases h with
  | help _ => exact hu
  | version _ => simp
  | unknown _ => exact hu
  | color a _ _ => simp
  | level a _ _ => simp
  | noConfig f _ _ => simp
  | badConfig f _ _ => simp
  | refused f cfg _ _ _ k => cases k <;> simp
  | nothingEnabled _ _ => simp
  | noPath _ => exact hu

/-- **C107 (silence).** If the program prints nothing, all is well: the exit status is 0, there are no findings, every id
is that of a check, every path was used, the support files (or the kernel) gave the data that is needed, and every check that is
asked for was performed. -/
theorem C107_silence {version : Str} {w : Machine} {x : Printing} {tty : Bool} {args : List Opt} {paths : List Str}
    {r : MainResult} (h : selintMain w args paths = .ok r) (ht : mainText version w x tty args paths = .ok []) :
    r.status = 0 ∧ r.findings = [] ∧ r.summary = none ∧
    ∃ st s, startUp w.config args paths.length = .go st ∧
      loadSupport w st.opts (collect w st paths) = .ok s ∧ AllWell w args paths st s.maps := by
  unfold mainText at ht
  obtain ⟨start, hs, ht⟩ := Res.bind_eq_ok ht
  cases hu : startUp w.config args paths.length with
  | exit c =>
    simp only [hu, Res.ok.injEq] at ht
    subst ht
    obtain ⟨pre, why, h1, h2, -⟩ := C105_reason hu hs
    have := h1.symm
    rw [List.append_eq_nil_iff] at this
    exact absurd this.2 (why_ne h2)
  | go st =>
  simp only [hu] at ht
  obtain ⟨rest, hf, ht⟩ := Res.bind_eq_ok ht
  simp only [Res.ok.injEq, List.append_eq_nil_iff] at ht
  obtain ⟨rfl, rfl⟩ := ht
  obtain ⟨hp, hset⟩ : parseOpts {} args = .go (optionsOf args) ∧
      settings w.config (optionsOf args) paths.length = .go st := by
    unfold startUp at hu
    cases hp : parseOpts {} args with
    | exit s => rw [hp] at hu; cases hu
    | go o =>
      rw [hp] at hu
      have := options_go hp
      subst this
      exact ⟨rfl, hu⟩
  have hopts : st.opts = optionsOf args := settings_opts hset
  -- `-v` would print something
  have hv : Opt.verbose ∉ args := by
    intro hv
    have hmode := hs
    unfold startText at hmode
    rw [hp] at hmode
    obtain ⟨m, hm, hmode⟩ := Res.bind_eq_ok hmode
    obtain ⟨q, -, hmode⟩ := Res.bind_eq_ok hmode
    simp only [Res.ok.injEq, List.append_eq_nil_iff] at hmode
    unfold modesText at hm
    obtain ⟨a, -, hm⟩ := Res.bind_eq_ok hm
    obtain ⟨b, -, hm⟩ := Res.bind_eq_ok hm
    have hv' : (optionsOf args).verbose = true := by simp [optionsOf, hv]
    rw [hmode.1.2] at hm
    simp [hv', ifVerbose] at hm
  have hstart := (C105_goes_on hu hs hv).symm
  rw [List.append_eq_nil_iff] at hstart
  -- the run
  unfold selintMain at h
  rw [hp] at h
  simp only at h
  obtain ⟨w1, hw1, h⟩ := Res.bind_eq_ok h
  obtain ⟨w2, hw2, h⟩ := Res.bind_eq_ok h
  rw [hset] at h
  simp only at h
  unfold mainWith at h
  unfold filesText at hf
  obtain ⟨s, hload, h⟩ := Res.bind_eq_ok h
  obtain ⟨support, hsup, hf⟩ := Res.bind_eq_ok hf
  obtain ⟨s', hload', hf⟩ := Res.bind_eq_ok hf
  rw [hload] at hload'
  cases hload'
  cases hck : registerChecks st.severity st.enableConf s.maps with
  | none =>
    simp only [hck, Res.ok.injEq, List.append_eq_nil_iff] at hf
    simp [endText] at hf
  | some ck =>
  simp only [hck] at hf h
  obtain ⟨⟨e, rs⟩, han, hf⟩ := Res.bind_eq_ok hf
  rw [han, Res.bind_ok] at h
  simp only [Res.ok.injEq] at h hf
  subst h
  simp only [List.append_eq_nil_iff] at hf
  obtain ⟨⟨⟨⟨⟨hscan, rfl⟩, hnotes⟩, -⟩, hout⟩, hend⟩ := hf
  obtain ⟨rfl, hsum⟩ := end_silent hend
  have hno : rs.rs.out = [] := by
    rw [List.flatMap_eq_nil_iff] at hout
    cases ho : rs.rs.out with
    | nil => rfl
    | cons f l =>
      have := hout f (by rw [ho]; exact List.mem_cons_self)
      simp [formatFinding] at this
  have hsupp : st.opts.suppressOutput = false := by
    cases hb : st.opts.suppressOutput with
    | false => rfl
    | true =>
      rw [hopts] at hb hsum
      rw [suppressed_summary args hb] at hsum
      cases hsum
  obtain ⟨A, ps, cs, hA⟩ := analyse_analysed han
  obtain ⟨fs, hrep⟩ := hA.reported hck
  have hfs : fs = [] := by
    have := hrep.out
    rw [hno, hsupp] at this
    simpa using this.symm
  have hfound : rs.rs.foundIssue = false := by
    cases hb : rs.rs.foundIssue with
    | false => rfl
    | true => exact absurd hfs (hrep.found.1 hb)
  have hids := warnings_silent hstart.2
  refine ⟨?_, hno, ?_, st, s, rfl, hload, ⟨⟨hv, hsum⟩, ?_, hids, ?_, ?_, ?_, ?_⟩⟩
  · simp [exitStatus, hfound]; rfl
  · simp [hsum]
  · intro hsrc
    have := hstart.1
    unfold notes at this
    rw [← hopts] at this
    apply Classical.byContradiction
    intro hr
    rw [if_pos ⟨hsrc, hr⟩] at this
    revert this
    cases colours tty args <;> simp [sourceNote, Label.shown]
  · intro hr p hpp
    have hr' : st.opts.recursiveScan = false := by rw [hopts]; simp [optionsOf, hr]
    exact scan_silent hr' hscan (p, w.fs p) (List.mem_map.2 ⟨p, hpp, rfl⟩)
  · intro hsrc
    have hv' : st.opts.verbose = false := by rw [hopts]; simp [optionsOf, hv]
    exact C106_silent hsrc hv' hsup
  · intro hsrc
    obtain ⟨k1, k2, k3⟩ := C106_kernel hsrc hsup
    cases hk : w.kernel with
    | none =>
      have := k1 hk
      revert this
      cases colorOn tty st.opts <;> simp [Label.shown]
    | some fs =>
      refine ⟨fs, rfl, Classical.byContradiction fun hn => ?_⟩
      have := k3 fs hk hn
      revert this
      cases colorOn tty st.opts <;> simp [Label.shown]
  · intro r hr hask
    exact checks_silent hnotes r hr hask.1 hask.2

theorem told_good {color : Bool} {name what : Str} {good : Str → Prop} {path t : Str} (hg : good path)
    (h : Told color name what good (some path) t) : t = [] := by
  cases h with
  | read => rfl
  | unreadable _ _ k => exact absurd hg k
  | wrong _ _ k => exact absurd hg k

/-- **C107 (all well).** Conversely, if all is well and nothing is found, nothing is printed (but what is printed
while files are parsed, which is nothing if they can be parsed). As in C47, without `-r` no directory on the command line
is named like a policy file. -/
theorem C107_quiet {version : Str} {w : Machine} {x : Printing} {tty : Bool} {args : List Opt} {paths : List Str}
    {r : MainResult} {t : Str} {st : Settings} {s : Scan} (h : selintMain w args paths = .ok r)
    (ht : mainText version w x tty args paths = .ok t) (hu : startUp w.config args paths.length = .go st)
    (hl : loadSupport w st.opts (collect w st paths) = .ok s) (hw : AllWell w args paths st s.maps)
    (hd : .recursive ∉ args → ∀ p ∈ paths, w.fs p ≠ .file → PlainDir st.opts.sourceFlag p (baseName p))
    (hs : r.status ≠ 70) (hf : r.findings = []) : t = x.parsing (colours tty args) s := by
  obtain ⟨hp, hset⟩ : parseOpts {} args = .go (optionsOf args) ∧
      settings w.config (optionsOf args) paths.length = .go st := by
    unfold startUp at hu
    cases hp : parseOpts {} args with
    | exit s => rw [hp] at hu; cases hu
    | go o =>
      rw [hp] at hu
      have := options_go hp
      subst this
      exact ⟨rfl, hu⟩
  have hopts : st.opts = optionsOf args := settings_opts hset
  have hv' : st.opts.verbose = false := by rw [hopts]; simp [optionsOf, hw.plain.1]
  unfold mainText at ht
  obtain ⟨start, hst, ht⟩ := Res.bind_eq_ok ht
  simp only [hu] at ht
  obtain ⟨rest, hft, ht⟩ := Res.bind_eq_ok ht
  simp only [Res.ok.injEq] at ht
  have hstart := C105_goes_on hu hst hw.plain.1
  have hn : notes (colours tty args) args = [] := by
    unfold notes
    rw [if_neg]
    rintro ⟨h1, h2⟩
    exact h2 (hw.searched (by rw [hopts]; exact h1))
  have hwn : warnings (colours tty args) (switched w.config args) = [] := by
    unfold warnings
    rw [List.filter_eq_nil_iff.2]
    · rfl
    · intro y hy
      simpa using hw.ids y hy
  rw [hn, hwn] at hstart
  subst hstart
  unfold selintMain at h
  rw [hp] at h
  simp only at h
  obtain ⟨w1, hw1, h⟩ := Res.bind_eq_ok h
  obtain ⟨w2, hw2, h⟩ := Res.bind_eq_ok h
  rw [hset] at h
  simp only at h
  unfold mainWith at h
  unfold filesText at hft
  obtain ⟨support, hsup, hft⟩ := Res.bind_eq_ok hft
  rw [hl, Res.bind_ok] at h hft
  rw [hopts, colorOn_eq, ← hopts] at hft hsup
  have hreg : registerText (colours tty args) st.severity st.enableConf s.maps = [] := by
    rw [C107_checks, List.filter_eq_nil_iff.2]
    · rfl
    · intro row hrow hc
      simp only [Bool.and_eq_true, Bool.not_eq_true', Bool.and_assoc] at hc
      rw [hw.performed row hrow ⟨hc.1, hc.2.1⟩] at hc
      exact absurd hc.2.2 (by decide)
  have hscan : (scanTold (colours tty args) st.opts (paths.map fun p => (p, w.fs p)) { maps := st.maps }).2 = [] := by
    by_cases hr : Opt.recursive ∈ args
    · exact C106_recursive _ _ (by rw [hopts]; simp [optionsOf, hr]) hv' _ _
    · rw [C106_explicit _ _ (by rw [hopts]; simp [optionsOf, hr]) hv' _ ?_]
      · rw [List.flatMap_eq_nil_iff]
        intro q hq
        obtain ⟨p, hpp, rfl⟩ := List.mem_map.1 hq
        exact if_neg (hw.named hr p hpp)
      · intro q hq
        obtain ⟨p, hpp, rfl⟩ := List.mem_map.1 hq
        exact hd hr p hpp
  have hsupport : support = [] := by
    cases hsrc : st.opts.sourceFlag with
    | true =>
      obtain ⟨a, b, c, m₁, m₂, e, e1, e2, ha, hb, hc⟩ := C106_support hsrc hv' hsup
      obtain ⟨av, mc, ops, m₁', m₂', k1, k2, k3, k4, k5, g1, g2, g3⟩ := hw.support hsrc
      rw [k1] at e1 ha
      rw [k2] at e2 hb
      rw [k3] at hc
      have e1' : loadSupportFile w .avFile av (collect w st paths).maps = .ok m₁ := e1
      rw [k4] at e1'
      cases e1'
      have e2' : loadModules w mc m₁ = .ok m₂ := e2
      rw [k5] at e2'
      cases e2'
      rw [e, told_good g1 ha, told_good g2 hb, told_good g3 hc]
      rfl
    | false =>
      obtain ⟨fs, k1, k2⟩ := hw.kernel hsrc
      exact (C106_kernel hsrc hsup).2.1 fs k1 k2
  cases hck : registerChecks st.severity st.enableConf s.maps with
  | none =>
    have := settings_severity w.config args paths.length st
      (by
        have := C08_options args
        rw [hp] at this
        split at this
        · cases this
        · rename_i hno
          exact List.findSome?_eq_none_iff.1 hno) hset
    exact absurd ((C03_invalid_level _ _ _).mp hck) this
  | some ck =>
  simp only [hck] at hft h
  obtain ⟨⟨e, rs⟩, han, hft⟩ := Res.bind_eq_ok hft
  rw [han, Res.bind_ok] at h
  simp only [Res.ok.injEq] at h hft
  subst h
  have hend := (C106_end (colours tty args) st.opts.summaryFlag st.opts.failOnFinding rs.rs.foundIssue (x.sort rs.ck) e).2 hs
  rw [hw.plain.2] at hend hft
  have hf' : rs.rs.out = [] := hf
  rw [← ht, ← hft, hscan, hsupport, hreg, hf', hend]
  simp

/-- **C107 (findings).** If the program looks at files, what it prints has the findings as consecutive lines in their order;
what follows is the summary if one is asked for, and otherwise nothing; or, if the analysis failed, an error, and
then there are no findings. -/
theorem C107_findings {version : Str} {w : Machine} {x : Printing} {tty : Bool} {args : List Opt} {paths : List Str}
    {r : MainResult} {t : Str} {st : Settings} (h : selintMain w args paths = .ok r)
    (ht : mainText version w x tty args paths = .ok t) (hu : startUp w.config args paths.length = .go st) :
    ∃ before after, t = before ++ r.findings.flatMap (formatFinding (colours tty args)) ++ after ∧
      (∀ ck, r.summary = some ck → after = summaryText (colours tty args) (x.sort ck)) ∧
      (r.summary = none → r.status ≠ 70 → after = []) ∧
      (r.status = 70 → r.findings = [] ∧ ∃ sentence, after = Label.error.shown (colours tty args) ++ cs!": " ++ sentence) := by
  obtain ⟨hp, hset⟩ : parseOpts {} args = .go (optionsOf args) ∧
      settings w.config (optionsOf args) paths.length = .go st := by
    unfold startUp at hu
    cases hp : parseOpts {} args with
    | exit s => rw [hp] at hu; cases hu
    | go o =>
      rw [hp] at hu
      have := options_go hp
      subst this
      exact ⟨rfl, hu⟩
  have hopts : st.opts = optionsOf args := settings_opts hset
  unfold mainText at ht
  obtain ⟨start, hst, ht⟩ := Res.bind_eq_ok ht
  simp only [hu] at ht
  obtain ⟨rest, hft, ht⟩ := Res.bind_eq_ok ht
  simp only [Res.ok.injEq] at ht
  unfold selintMain at h
  rw [hp] at h
  simp only at h
  obtain ⟨w1, hw1, h⟩ := Res.bind_eq_ok h
  obtain ⟨w2, hw2, h⟩ := Res.bind_eq_ok h
  rw [hset] at h
  simp only at h
  unfold mainWith at h
  unfold filesText at hft
  obtain ⟨support, hsup, hft⟩ := Res.bind_eq_ok hft
  obtain ⟨s, hl, h⟩ := Res.bind_eq_ok h
  rw [hl, Res.bind_ok] at hft
  rw [hopts, colorOn_eq, ← hopts] at hft
  cases hck : registerChecks st.severity st.enableConf s.maps with
  | none =>
    have := settings_severity w.config args paths.length st
      (by
        have := C08_options args
        rw [hp] at this
        split at this
        · cases this
        · rename_i hno
          exact List.findSome?_eq_none_iff.1 hno) hset
    exact absurd ((C03_invalid_level _ _ _).mp hck) this
  | some ck =>
  simp only [hck] at hft h
  obtain ⟨⟨e, rs⟩, han, hft⟩ := Res.bind_eq_ok hft
  rw [han, Res.bind_ok] at h
  simp only [Res.ok.injEq] at h hft
  subst h
  obtain ⟨A, ps, cs, hA⟩ := analyse_analysed han
  obtain ⟨fs, hrep⟩ := hA.reported hck
  have hend := C106_end (colours tty args) st.opts.summaryFlag st.opts.failOnFinding rs.rs.foundIssue (x.sort rs.ck) e
  have hsucc : exitStatus st.opts.failOnFinding ⟨e, rs.rs.foundIssue⟩ ≠ 70 ↔ e = .success := by
    cases e <;> cases st.opts.failOnFinding <;> cases rs.rs.foundIssue <;> decide
  refine ⟨_, _, by rw [← ht, ← hft, ← List.append_assoc, ← List.append_assoc], ?_, ?_, ?_⟩
  · intro ck' hck'
    simp only at hck'
    split at hck'
    · rename_i hc
      cases hck'
      rw [hend.2 (hsucc.2 hc.1), if_pos hc.2]
    · cases hck'
  · intro hno hne
    have hne' := hsucc.1 hne
    simp only [hne', true_and] at hno
    rw [hend.2 hne]
    split at hno
    · cases hno
    · rename_i hc
      rw [if_neg hc]
  · intro h70
    have hne : e ≠ .success := fun hc => (hsucc.2 hc) h70
    refine ⟨?_, ?_⟩
    · have := hrep.out
      rw [hrep.error hne] at this
      show rs.rs.out = []
      rw [this]
      simp
    · obtain ⟨sentence, -, -, k⟩ := hend.1 h70
      exact ⟨sentence, k⟩

/-! ## Colours -/

theorem painted_register (level : Char) (c : EnableConf) (m : Maps) :
    Painted (registerText true level c m) (registerText false level c m) := by
  rw [C107_checks, C107_checks]
  generalize (checkTable.filter fun r => atLeast r.sev level && isCheckEnabled r.id c && !r.needs m) = l
  induction l with
  | nil => exact .nil
  | cons r l ih =>
    simp only [List.flatMap_cons]
    exact Painted.append (painted_label colour_note cs!"Note" _) ih

theorem painted_files {w : Machine} {x : Printing} {st : Settings} {paths : List Str}
    (h1 : ∀ p, Painted (x.support true p) (x.support false p)) (h2 : ∀ s, Painted (x.parsing true s) (x.parsing false s)) :
    PaintedRes (filesText w x true st paths) (filesText w x false st paths) := by
  unfold filesText
  refine (C106_colours_support w x.reason h1 st.opts (collect w st paths)).bind fun a b hab => ?_
  cases loadSupport w st.opts (collect w st paths) with
  | ub => exact trivial
  | ok s =>
    simp only [Res.bind_ok]
    have hpre := ((C106_colours_scan st.opts (paths.map fun p => (p, w.fs p)) { maps := st.maps }).append hab).append
      (painted_register st.severity st.enableConf s.maps)
    cases registerChecks st.severity st.enableConf s.maps with
    | none => exact hpre.append (C106_colours_end _ _ _)
    | some ck =>
      simp only
      cases analyse w st s ck with
      | ub => exact trivial
      | ok y =>
        obtain ⟨e, r⟩ := y
        refine ((hpre.append (h2 s)).append ?_).append (C106_colours_end _ _ _)
        generalize r.rs.out = l
        induction l with
        | nil => exact .nil
        | cons f l ih =>
          simp only [List.flatMap_cons]
          exact (C104_findings f).append ih

/-- **C107 (colours).** Whether the output goes to a terminal changes nothing but colours (with `-v` the colours
are mentioned as well), if that holds of what is printed while files are parsed (C104). -/
theorem C107_colours (version : Str) (w : Machine) (x : Printing) (args : List Opt) (paths : List Str)
    (h1 : ∀ p, Painted (x.support true p) (x.support false p)) (h2 : ∀ s, Painted (x.parsing true s) (x.parsing false s))
    (hv : .verbose ∉ args) : PaintedRes (mainText version w x true args paths) (mainText version w x false args paths) := by
  unfold mainText
  refine (C105_colours version w.config args paths.length hv).bind fun a b hab => ?_
  cases startUp w.config args paths.length with
  | exit s => exact hab
  | go st =>
    dsimp only
    have hcol : colorOn true st.opts = colorOn false st.opts ∨ (colorOn true st.opts = true ∧ colorOn false st.opts = false) := by
      unfold colorOn
      by_cases h2 : st.opts.color = 2 <;> by_cases h0 : st.opts.color = 0 <;> simp [h0, h2]
    rcases hcol with h | ⟨h, k⟩
    · rw [h]
      exact (PaintedRes.same _).bind fun c d hcd => hab.append hcd
    · rw [h, k]
      exact (painted_files h1 h2).bind fun c d hcd => hab.append hcd

/-! ## Examples -/

/-- Nothing is printed by the parsers, and the hooks are left as they are. -/
def quietParsers : Printing := ⟨fun _ => [], fun _ _ => [], fun _ _ => [], fun ck => flatNodes ck⟩

set_option synthInstance.maxSize 1000 in
example : mainText cs!"1" exPerms quietParsers false [.recursive, .source, .onlyEnabled, .enable cs!"S-003"] [cs!"mod"] = .ok [] := by
  decide +kernel

set_option synthInstance.maxSize 1000 in
/-- With findings and a summary. -/
example : mainText cs!"1" exPerms quietParsers false [.recursive, .source, .summary] [cs!"mod"] =
    .ok (cs!"foo.te:               2: (C): Permissions in av rule not ordered (read before r_dir_perms) (C-005)\n" ++
      cs!"foo.te:               2: (E): Unknown permission puppet used (E-007)\n" ++
      cs!"Found the following issue counts:\nC-005: 1\nE-007: 1\n") := by
  decide +kernel

set_option synthInstance.maxSize 1000 in
/-- With notes only: nothing that was named is a policy file, and the data for two checks is missing. -/
example : mainText cs!"1" exMachine quietParsers false [.fail] [cs!"mod", cs!"x"] =
    .ok (cs!"Note: Skipping mod which is not a policy file\nNote: Skipping x which is not a policy file\n" ++
      cs!"Note: Failed to load classes and perms probably due to running on a SELinux disabled system.\n" ++
      cs!"Note: Check E-007 is not performed because no permission macro has been parsed.\n" ++
      cs!"Note: Check E-008 is not performed because no class has been parsed.\n") := by
  decide +kernel

end Selint
