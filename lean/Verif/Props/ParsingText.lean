import Verif.Spec.ParsingText
import Verif.Props.ActionErrors
import Verif.Props.ParserEnds
import Verif.Props.MainText
import Verif.Props.ParseSafe
/-! # C109: a policy file that cannot be parsed is named -/

namespace Selint

open Spec Lr

/-! ## One text -/

theorem locating_step {before : Location} {fin : Location × LineCache} {p p' : Locating}
    (hs : p.step before fin = some p') : p.d.step = .ok (.go p'.d) := by
  simp only [Locating.step] at hs
  split at hs
  · rename_i d hd
    rw [hd]
    split at hs
    · cases hs
      simp only [Locating.read]
      split <;> rfl
    · split at hs
      · cases hs; rfl
      · split at hs
        · cases hs; rfl
        · cases hs
      · cases hs
    · cases hs
  · cases hs

theorem asking_step {before : Location} {fin : Location × LineCache} {q q' : Asking}
    (hs : q.step before fin = some q') : q.p.d.step = .ok (.go q'.p.d) := by
  simp only [Asking.step, Option.map_eq_some_iff] at hs
  obtain ⟨p, hp, rfl⟩ := hs
  rw [locating_step hp]
  split
  · split <;> rfl
  · rfl

theorem rounds_from (before : Location) (fin : Location × LineCache) (q₀ : Asking) : ∀ n (q : Asking),
    AskingReaches before fin q₀ q → AskingReaches before fin q₀ (q.rounds before fin n)
  | 0, _, h => h
  | n + 1, q, h => by
    rw [Asking.rounds]
    cases hs : q.step before fin with
    | none => exact h
    | some q' => exact rounds_from before fin q₀ n q' (h.step hs)

theorem rounds_reaches (before : Location) (fin : Location × LineCache) (q : Asking) (n : Nat) :
    AskingReaches before fin q (q.rounds before fin n) :=
  rounds_from before fin q n q .refl

theorem rounds_counted (before : Location) (fin : Location × LineCache) (d : Drive) : ∀ n j (q : Asking),
    DriveRounds d j q.p.d →
    ∃ k, DriveRounds d k (q.rounds before fin n).p.d ∧ (k = j + n ∨ (q.rounds before fin n).step before fin = none)
  | 0, j, q, h => ⟨j, h, .inl rfl⟩
  | n + 1, j, q, h => by
    rw [Asking.rounds]
    cases hs : q.step before fin with
    | none => exact ⟨j, h, .inr hs⟩
    | some q' =>
      obtain ⟨k, h1, h2⟩ := rounds_counted before fin d n (j + 1) q' (h.one (asking_step hs))
      exact ⟨k, h1, h2.imp (by omega) id⟩

theorem rounds_count (before : Location) (fin : Location × LineCache) (q : Asking) (n : Nat) :
    ∃ k, DriveRounds q.p.d k (q.rounds before fin n).p.d ∧ (k = n ∨ (q.rounds before fin n).step before fin = none) := by
  obtain ⟨k, h1, h2⟩ := rounds_counted before fin q.p.d n 0 q .none
  exact ⟨k, h1, h2.imp (by omega) id⟩

theorem asking_go {before : Location} {fin : Location × LineCache} {q : Asking} {d' : Drive}
    (hs : q.p.d.step = .ok (.go d')) (hn : q.step before fin = none) : d' = q.p.d := by
  obtain ⟨p, hp, rfl⟩ := drive_locating (before := before) (fin := fin) (p₀ := q.p) (DriveReaches.refl.step hs)
  have hn : q.p.step before fin = none := by simpa [Asking.step] using hn
  have : p = q.p := by
    clear hs
    induction hp with
    | refl => rfl
    | step _ hs ih => subst ih; rw [hn] at hs; cases hs
  rw [this]

/-- The rounds are enough. -/
theorem rounds_end (before : Location) (fin : Location × LineCache) (m₀ : Mem) (expected : PlainFlavor) (mod : Str)
    (maps : Maps) (ts : Scanned) (d' : Drive) :
    ((Asking.start m₀ expected mod maps before ts).rounds before fin (54 * ts.length + 40)).p.d.step ≠ .ok (.go d') := by
  intro hs
  obtain ⟨k, h1, h2⟩ := rounds_count before fin (Asking.start m₀ expected mod maps before ts) (54 * ts.length + 40)
  have bound : ∀ {n d}, DriveRounds (Asking.start m₀ expected mod maps before ts).p.d n d → n ≤ 54 * ts.length + 40 := by
    intro n d h
    have h' : DriveRounds (Drive.start m₀ expected mod maps (ts.map fun x => (x.1.firstLine, x.2.1))) n d := h
    have := C96_linear h'
    simpa using this
  generalize 54 * ts.length + 40 = n at *
  rcases h2 with h2 | h2
  · have := bound (h1.one hs); omega
  · have hd := asking_go hs h2
    rw [hd] at hs
    have : ∀ j, DriveRounds (Asking.start m₀ expected mod maps before ts).p.d (k + j)
        ((Asking.start m₀ expected mod maps before ts).rounds before fin n).p.d := by
      intro j
      induction j with
      | zero => exact h1
      | succ j ih => exact ih.one hs
    have := bound (this (n + 1))
    omega

/-- **C109 (accepted).** Nothing is printed about a text that is parsed. -/
theorem C109_accepted {text : Str} {f : SourceFile} {expected : PlainFlavor} {mod : Str} {m : Maps} {st : PState}
    (hf : (lexFile text).bind pFile = some f) (hx : f.exec expected mod m = .ok (some st)) (color : Bool)
    (endName : Str) (before : Location) (filename : Str) :
    parserText color endName expected mod m before filename text = .ok [] := by
  obtain ⟨ls, hls⟩ := C84_lines text
  obtain ⟨ts, loc, fin, hsc, hlex, -⟩ := C84_scan hls before
  unfold parserText
  rw [hsc]
  dsimp only
  rw [hlex] at hf
  have hat := C68_sound (show pFile (ts.map fun x => (x.1.firstLine, x.2.1)) = some f from hf)
  obtain ⟨d, hd, hacc⟩ := C95_accepts bounded_empty hat hx
  have hr := locating_drive (asking_locating (rounds_reaches before (loc, fin)
    (Asking.start ⟨fun _ => none, 0⟩ expected mod m before ts) (54 * ts.length + 40)))
  have := C95_once hd hr hacc (rounds_end before (loc, fin) _ expected mod m ts)
  rw [this, hacc]

/-- **C109 (refused).** If a text is not parsed and what happens is defined, a finding F-001 is printed first that names
the file. -/
theorem C109_refused {text : Str} {ls : List Str} (hls : LinesOf text ls) (h32 : ls.length + 1 < 2 ^ 32)
    {expected : PlainFlavor} {mod : Str} {m : Maps}
    (hno : ∀ f st, (lexFile text).bind pFile = some f → f.exec expected mod m ≠ .ok (some st)) (color : Bool)
    (endName : Str) (before : Location) (filename t : Str)
    (ht : parserText color endName expected mod m before filename text = .ok t) :
    ∃ line msg more, t = formatFinding color ⟨filename, line, ⟨'F', 1, msg⟩⟩ ++ more := by
  obtain ⟨ts, loc, fin, hsc, hlex, -⟩ := C84_scan hls before
  unfold parserText at ht
  rw [hsc] at ht
  dsimp only at ht
  have hr := rounds_reaches before (loc, fin)
    (Asking.start ⟨fun _ => none, 0⟩ expected mod m before ts) (54 * ts.length + 40)
  have hend := rounds_end before (loc, fin) ⟨fun _ => none, 0⟩ expected mod m ts
  generalize (Asking.start ⟨fun _ => none, 0⟩ expected mod m before ts).rounds before (loc, fin) (54 * ts.length + 40) = q
    at hr hend ht
  cases hs : q.p.d.step with
  | ub => rw [hs] at ht; cases ht
  | ok n =>
    rw [hs] at ht
    cases n with
    | go d' => exact absurd hs (hend d')
    | accept =>
      obtain ⟨g, st, T, hg, hx, -⟩ := C95_accepted bounded_empty (locating_drive (asking_locating hr)) hs
      refine absurd hx (hno g st ?_)
      rw [hlex]; exact hg
    | reject =>
      obtain ⟨line, msg, more, hout⟩ := C102_told hls h32 hsc hr hs color filename endName
      dsimp only at ht
      rw [hout] at ht
      cases ht
      exact ⟨line, msg, more, rfl⟩

/-! ## One file -/

theorem announced_policy (v : Bool) (fl : NodeFlavor) (n : Str) (h : fl ≠ .fcFile) :
    ifVerbose v (cs!"Parsing " ++ n ++ cs!"\n") = announced v (fl, n) := by
  unfold announced ifVerbose
  cases v <;> simp [h]

theorem announced_fc (v : Bool) (n : Str) :
    ifVerbose v (cs!"Parsing fc file " ++ n ++ cs!"\n") = announced v (.fcFile, n) := by
  unfold announced ifVerbose
  cases v <;> simp

theorem policyText_parsed {x : Speaking} {src : Sources} {fl : PlainFlavor} {n : Str} {m : Maps} {r : List Tree × Maps}
    (h : parseOneFile src n fl m = .ok (some r)) :
    policyText x src fl n m = .ok (ifVerbose x.verbose (cs!"Parsing " ++ n ++ cs!"\n")) := by
  unfold parseOneFile at h
  unfold policyText
  obtain ⟨mod, hm, h⟩ := Res.bind_eq_ok h
  rw [hm]
  simp only [Res.bind_ok]
  cases ht : src.text n with
  | none => rw [ht] at h; cases h
  | some text =>
    rw [ht] at h
    dsimp only at h ⊢
    cases hp : (lexFile text).bind pFile with
    | none => rw [hp] at h; cases h
    | some f =>
      rw [hp] at h
      dsimp only at h
      obtain ⟨o, hx, h⟩ := Res.bind_eq_ok h
      cases o with
      | none => cases h
      | some st => rw [C109_accepted hp hx]; simp

theorem policyText_failed {x : Speaking} {src : Sources} (hfew : FewLines src) {fl : PlainFlavor} {n t : Str} {m : Maps}
    (h : parseOneFile src n fl m = .ok none) (ht : policyText x src fl n m = .ok t) :
    ∃ b, t = ifVerbose x.verbose (cs!"Parsing " ++ n ++ cs!"\n") ++ b ∧ NamesFile x src n b := by
  unfold parseOneFile at h
  unfold policyText at ht
  obtain ⟨mod, hm, h⟩ := Res.bind_eq_ok h
  rw [hm] at ht
  simp only [Res.bind_ok] at ht
  cases hx : src.text n with
  | none =>
    rw [hx] at ht
    cases ht
    refine ⟨_, rfl, ?_⟩
    have := NamesFile.unreadable (x := x) hx
    cases hc : x.color <;> rw [hc] at this <;> exact this
  | some text =>
    rw [hx] at h ht
    dsimp only at h ht
    obtain ⟨b, hb, ht⟩ := Res.bind_eq_ok ht
    cases ht
    obtain ⟨ls, hls⟩ := C84_lines text
    obtain ⟨line, msg, more, rfl⟩ := C109_refused hls (hfew n text ls hx hls) (by
      intro f st hf he
      rw [hf] at h
      dsimp only at h
      rw [he] at h
      cases h) _ _ _ _ _ hb
    exact ⟨_, rfl, .unparseable hx line msg more⟩

theorem policy_parsed {src : Sources} {fl : PlainFlavor} {n : Str} {m : Maps}
    (h : (parseResult m (parseOneFile src n fl m)).1 ≠ []) : ∃ r, parseOneFile src n fl m = .ok (some r) := by
  cases hp : parseOneFile src n fl m with
  | ub => rw [hp] at h; exact absurd rfl h
  | ok o =>
    cases o with
    | none => rw [hp] at h; exact absurd rfl h
    | some r => exact ⟨r, rfl⟩

theorem policy_failed {src : Sources} {fl : PlainFlavor} {n : Str} {m : Maps}
    (hd : (match parseOneFile src n fl m with | .ub => true | .ok _ => false) = false)
    (h : (parseResult m (parseOneFile src n fl m)).1 = []) : parseOneFile src n fl m = .ok none := by
  cases hp : parseOneFile src n fl m with
  | ub => rw [hp] at hd; cases hd
  | ok o =>
    cases o with
    | none => rfl
    | some r =>
      rw [hp] at h
      obtain ⟨s, f, mod, st, -, -, -, h1, -⟩ := parseOneFile_accepted (ts := r.1) (m' := r.2) hp
      exact absurd (h1.symm.trans h) (Loc.unzip_ne_nil _)

section
variable {x : Speaking} {src : Sources} {suppress : Bool} {config : ConfigCheckData}

theorem fileText_parsed {fl : NodeFlavor} {n : Str} {m : Maps} (hfl : fl = .ifFile ∨ fl = .teFile ∨ fl = .fcFile)
    (h : ((wholeProgram src suppress config).parser fl n m).1 ≠ []) :
    fileText x src fl n m = .ok (announced x.verbose (fl, n)) := by
  rcases hfl with rfl | rfl | rfl
  · obtain ⟨r, hr⟩ := policy_parsed (fl := .ifFile) h
    simp only [fileText, policyText_parsed hr, announced_policy x.verbose .ifFile n (by decide)]
  · obtain ⟨r, hr⟩ := policy_parsed (fl := .teFile) h
    simp only [fileText, policyText_parsed hr, announced_policy x.verbose .teFile n (by decide)]
  · simp only [fileText, announced_fc]

theorem fileText_failed (hfew : FewLines src) {fl : NodeFlavor} {n t : Str} {m : Maps}
    (hfl : fl = .ifFile ∨ fl = .teFile ∨ fl = .fcFile) (hd : undefinedFile src fl n m = false)
    (h : ((wholeProgram src suppress config).parser fl n m).1 = []) (ht : fileText x src fl n m = .ok t) :
    ∃ b, t = announced x.verbose (fl, n) ++ b ∧ Blames x src (fl, n) b := by
  rcases hfl with rfl | rfl | rfl
  · obtain ⟨b, rfl, hb⟩ := policyText_failed hfew (policy_failed (fl := .ifFile) hd h) ht
    exact ⟨b, by rw [announced_policy _ .ifFile _ (by decide)], .inr ⟨.inr rfl, hb⟩⟩
  · obtain ⟨b, rfl, hb⟩ := policyText_failed hfew (policy_failed (fl := .teFile) hd h) ht
    exact ⟨b, by rw [announced_policy _ .teFile _ (by decide)], .inr ⟨.inl rfl, hb⟩⟩
  · simp only [fileText, Res.ok.injEq] at ht
    refine ⟨[], by rw [← ht, announced_fc]; simp, .inl ⟨rfl, ?_, rfl⟩⟩
    have hnp := mt (parser_parseable (suppress := suppress) (config := config) (.inr (.inr rfl)) hd).2 (by simp [h])
    cases hl : src.fcLines n with
    | none => rfl
    | some ls => exact absurd (by simp [Parseable, hl]) hnp

/-! ## A run -/

/-- The files of a log. -/
def parsedFiles (log : List Event) : List (NodeFlavor × Str) :=
  log.filterMap fun | .parse _ n fl _ => some (fl, n) | _ => none

/-- The kinds of files in a log. -/
def Usual : Event → Prop
  | .parse _ _ fl _ => fl = .ifFile ∨ fl = .teFile ∨ fl = .fcFile
  | _ => True

theorem logText_append (a b : List Event) (m : Maps) : logText x src suppress config (a ++ b) m =
    (logText x src suppress config a m >>= fun t =>
      logText x src suppress config b (tablesOf (wholeProgram src suppress config) a m) >>= fun u => .ok (t ++ u)) := by
  induction a generalizing m with
  | nil =>
    simp only [List.nil_append, logText, tablesOf, Res.bind_ok]
    cases logText x src suppress config b m <;> rfl
  | cons ev a ih =>
    cases ev with
    | parse c n fl ast =>
      simp only [List.cons_append, logText, tablesOf, ih]
      cases fileText x src fl n m with
      | ub => rfl
      | ok t =>
        simp only [Res.bind_ok]
        cases logText x src suppress config a ((wholeProgram src suppress config).parser fl n m).2 with
        | ub => rfl
        | ok u =>
          simp only [Res.bind_ok]
          cases logText x src suppress config b
            (tablesOf (wholeProgram src suppress config) a ((wholeProgram src suppress config).parser fl n m).2) with
          | ub => rfl
          | ok v => simp [Res.bind_ok]
    | mark => simp only [List.cons_append, logText, tablesOf, ih]
    | check => simp only [List.cons_append, logText, tablesOf, ih]
    | cleanup => simp only [List.cons_append, logText, tablesOf, ih]

theorem logText_parsed {log : List Event} {m : Maps} (hg : Genuine (wholeProgram src suppress config) log m)
    (hu : ∀ ev ∈ log, Usual ev) (hf : ∀ ev ∈ log, ¬Event.IsFailure ev) :
    logText x src suppress config log m = .ok ((parsedFiles log).flatMap (announced x.verbose)) := by
  induction log generalizing m with
  | nil => rfl
  | cons ev log ih =>
    have hu' := fun e he => hu e (List.mem_cons_of_mem _ he)
    have hf' := fun e he => hf e (List.mem_cons_of_mem _ he)
    cases ev with
    | parse a n fl ast =>
      have h1 : ast ≠ [] := hf _ (List.mem_cons_self ..)
      rw [hg.1] at h1
      simp only [logText, fileText_parsed (hu _ (List.mem_cons_self ..)) h1, ih hg.2 hu' hf', Res.bind_ok, parsedFiles,
        List.filterMap_cons, List.flatMap_cons]
    | mark => exact ih hg hu' hf'
    | check => exact ih hg hu' hf'
    | cleanup => exact ih hg hu' hf'

theorem undefinedParse_append (a b : List Event) (m : Maps) : undefinedParse src suppress config (a ++ b) m =
    (undefinedParse src suppress config a m ||
      undefinedParse src suppress config b (tablesOf (wholeProgram src suppress config) a m)) := by
  induction a generalizing m with
  | nil => rfl
  | cons ev a ih => cases ev <;> simp [undefinedParse, tablesOf, ih, Bool.or_assoc]

end

/-! ## Where a run stops -/

/-- A log in which nothing fails, or only its last event. -/
def Stops (e : SelintError) (log : List Event) : Prop :=
  (e = .success ∧ ∀ ev ∈ log, ¬Event.IsFailure ev) ∨
  ∃ pre ev, e = .parseError ∧ log = pre ++ [ev] ∧ Event.IsFailure ev ∧ ∀ ev ∈ pre, ¬Event.IsFailure ev

theorem parseAll_stops {F σ : Type} {prog : Program F σ} {fl : NodeFlavor} : ∀ (fuel : Nat) (p : Option Nat)
    {s s' : RunnerState F σ} {e : SelintError}, (∀ ev ∈ s.log, ¬Event.IsFailure ev) →
    parseAll prog fl fuel p s = some (e, s') → Stops e s'.log
  | fuel, none, s, s', e, hs, h => by
    have : some (SelintError.success, s) = some (e, s') := by rw [← h]; cases fuel <;> rfl
    cases this
    exact .inl ⟨rfl, hs⟩
  | 0, some _, _, _, _, _, h => by cases h
  | fuel + 1, some a, s, s', e, hs, h => by
    simp only [parseAll] at h
    split at h
    · cases h
    · rename_i c hc
      split at h
      · rename_i hemp
        cases h
        exact .inr ⟨s.log, _, rfl, rfl, by simpa [Event.IsFailure] using hemp, hs⟩
      · rename_i hemp
        refine parseAll_stops fuel c.next ?_ h
        intro ev hev
        simp only [parseCell, List.mem_append, List.mem_singleton] at hev
        rcases hev with hev | rfl
        · exact hs ev hev
        · simpa [Event.IsFailure] using hemp

theorem runAllChecks_stops {F σ : Type} {prog : Program F σ} {fl : FileFlavor} : ∀ (fuel : Nat) (p : Option Nat)
    {s s' : RunnerState F σ} {e : SelintError}, (∀ ev ∈ s.log, ¬Event.IsFailure ev) →
    runAllChecks prog fl fuel p s = some (e, s') → Stops e s'.log
  | fuel, none, s, s', e, hs, h => by
    have : some (SelintError.success, s) = some (e, s') := by rw [← h]; cases fuel <;> rfl
    cases this
    exact .inl ⟨rfl, hs⟩
  | 0, some _, _, _, _, _, h => by cases h
  | fuel + 1, some a, s, s', e, hs, h => by
    simp only [runAllChecks] at h
    split at h
    · cases h
    · rename_i c hc
      refine runAllChecks_stops fuel c.next ?_ h
      intro ev hev
      simp only [checkCell, List.mem_append, List.mem_singleton] at hev
      rcases hev with hev | rfl
      · exact hs ev hev
      · exact id

theorem markSpliced_stops {F σ : Type} {ifs cifs : FileList} {s s' : RunnerState F σ} {e : SelintError}
    (hs : ∀ ev ∈ s.log, ¬Event.IsFailure ev) (h : markSpliced ifs cifs s = some (e, s')) : Stops e s'.log := by
  simp only [markSpliced] at h
  split at h
  · cases h
  · split at h
    · cases h
    · cases h
      refine .inl ⟨rfl, fun ev hev => ?_⟩
      simp only [List.mem_append, List.mem_singleton] at hev
      rcases hev with hev | rfl
      · exact hs ev hev
      · exact id

theorem andThen_stops {F σ : Type} {r : Option (SelintError × RunnerState F σ)}
    {f : RunnerState F σ → Option (SelintError × RunnerState F σ)} {e : SelintError} {s' : RunnerState F σ}
    (hr : ∀ e s, r = some (e, s) → Stops e s.log)
    (hf : ∀ s, (∀ ev ∈ s.log, ¬Event.IsFailure ev) → ∀ e s', f s = some (e, s') → Stops e s'.log)
    (h : andThen r f = some (e, s')) : Stops e s'.log := by
  unfold andThen at h
  split at h
  · cases h
  · rename_i s
    rcases hr _ _ rfl with ⟨-, hs⟩ | ⟨_, _, hs, -⟩
    · exact hf s hs _ _ h
    · cases hs
  · exact hr _ _ h

theorem runAnalysis_stops {F σ : Type} {prog : Program F σ} {ls : Lists} {s s' : RunnerState F σ} {e : SelintError}
    (hs : s.log = []) (h : runAnalysis prog ls s = some (e, s')) :
    ∃ log, s'.log = log ++ [.cleanup] ∧ Stops e log := by
  simp only [runAnalysis, Option.map_eq_some_iff] at h
  obtain ⟨⟨e', s''⟩, h, heq⟩ := h
  cases heq
  refine ⟨s''.log, rfl, ?_⟩
  refine andThen_stops (fun _ _ => parseAll_stops _ _ (by simp [hs])) (fun s hs _ _ h => ?_) h
  refine andThen_stops (fun _ _ => parseAll_stops _ _ hs) (fun s hs _ _ h => ?_) h
  refine andThen_stops (fun _ _ => markSpliced_stops hs) (fun s hs _ _ h => ?_) h
  refine andThen_stops (fun _ _ => parseAll_stops _ _ hs) (fun s hs _ _ h => ?_) h
  refine andThen_stops (fun _ _ => parseAll_stops _ _ hs) (fun s hs _ _ h => ?_) h
  refine andThen_stops (fun _ _ => parseAll_stops _ _ hs) (fun s hs _ _ h => ?_) h
  refine andThen_stops (fun _ _ => runAllChecks_stops _ _ hs) (fun s hs _ _ h => ?_) h
  refine andThen_stops (fun _ _ => runAllChecks_stops _ _ hs) (fun s hs _ _ h => ?_) h
  exact runAllChecks_stops _ _ hs h

/-- What the log of a run says about its text. -/
theorem run_told {w : Machine} {st : Settings} {s : Scan} {ck : Checks CheckFn} {e : SelintError}
    {r : RunnerState CheckFn (Res Statics)} (h : analyse w st s ck = .ok (e, r))
    (hfew : FewLines (w.sources st.customFcMacros)) (x : Speaking) :
    ∃ done : List (NodeFlavor × Str),
      (∀ f ∈ done, Parseable (w.sources st.customFcMacros) f.2 f.1 ∧ ∃ l, flavorOf l = f.1 ∧ f.2 ∈ s.filesOf l) ∧
      ((e = .success ∧ parsedFiles r.log = done ∧ logText x (w.sources st.customFcMacros) st.opts.suppressOutput st.checkData r.log s.maps =
        .ok (done.flatMap (announced x.verbose))) ∨
      (e = .parseError ∧ ∃ l n, n ∈ s.filesOf l ∧ ¬Parseable (w.sources st.customFcMacros) n (flavorOf l) ∧
        parsedFiles r.log = done ++ [(flavorOf l, n)] ∧
        ∀ t, logText x (w.sources st.customFcMacros) st.opts.suppressOutput st.checkData r.log s.maps = .ok t →
          ∃ b, t = done.flatMap (announced x.verbose) ++ announced x.verbose (flavorOf l, n) ++ b ∧
            Blames x (w.sources st.customFcMacros) (flavorOf l, n) b)) := by
  obtain ⟨A, ps, cs, hA⟩ := analyse_analysed h
  have hlog : r.log = ps ++ (cs ++ [.cleanup]) := by rw [hA.run.log]; simp
  have hu := hA.defined
  have hcs : ∀ ev ∈ cs, Event.IsCheck ev := by
    rcases hA.run.result with ⟨-, -, -, -, k⟩ | ⟨-, rfl, -⟩
    · intro ev hev
      obtain ⟨a, n, fl, ast, rfl, -⟩ := k ev hev
      trivial
    · nofun
  obtain ⟨log, hl, hstop⟩ : ∃ log, r.log = log ++ [.cleanup] ∧ Stops e log := by
    unfold analyse at h
    dsimp only at h
    split at h
    · cases h
    · rename_i e' r' hrun
      split at h
      · cases h
      · split at h
        · cases h
        · cases h
          exact runAnalysis_stops rfl hrun
  have hlp : log = ps ++ cs := by
    rw [hlog, ← List.append_assoc] at hl
    exact (List.append_inj_left' hl rfl).symm
  subst hlp
  have hg : Genuine (wholeProgram (w.sources st.customFcMacros) st.opts.suppressOutput st.checkData) (ps ++ cs) s.maps := by
    refine (genuine_append _ _ _).2 ⟨hA.run.genuine, ?_⟩
    generalize tablesOf _ ps s.maps = m
    clear hl hstop hlog hA
    induction cs generalizing m with
    | nil => trivial
    | cons ev cs ih =>
      have hev := hcs ev (List.mem_cons_self ..)
      have ih := ih fun e he => hcs e (List.mem_cons_of_mem _ he)
      cases ev with
      | check => exact ih m
      | parse => cases hev
      | mark => cases hev
      | cleanup => cases hev
  have key : ∀ {a n fl ast}, Event.parse a n fl ast ∈ ps ++ cs →
      (ast ≠ [] ↔ Parseable (w.sources st.customFcMacros) n fl) ∧ (∃ l, flavorOf l = fl ∧ n ∈ s.filesOf l) ∧
      (fl = .ifFile ∨ fl = .teFile ∨ fl = .fcFile) := by
    intro a n fl ast hm
    have hm : Event.parse a n fl ast ∈ ps := by
      rcases List.mem_append.1 hm with hm | hm
      · exact hm
      · cases hcs _ hm
    obtain ⟨-, -, ⟨c, hc, rfl⟩, hn⟩ := hA.run.noCheck _ hm
    have hfl := hn.imp And.left (Or.imp And.left And.left)
    have hu' := hu
    rw [hlog] at hu'
    refine ⟨log_parseable hA.run.genuine hu' hm hfl, ?_, hfl⟩
    simp only [List.mem_append] at hn
    rcases hn with ⟨rfl, hn | hn⟩ | ⟨rfl, hn | hn⟩ | ⟨rfl, hn⟩
    · exact ⟨.ifs, rfl, hA.name_mem hn hc⟩
    · exact ⟨.cif, rfl, hA.name_mem hn hc⟩
    · exact ⟨.te, rfl, hA.name_mem hn hc⟩
    · exact ⟨.cte, rfl, hA.name_mem hn hc⟩
    · exact ⟨.fc, rfl, hA.name_mem hn hc⟩
  have usual : ∀ ev ∈ ps ++ cs, Usual ev := by
    intro ev hev
    cases ev with
    | parse a n fl ast => exact (key hev).2.2
    | _ => trivial
  have good : ∀ l' : List Event, (∀ ev ∈ l', ev ∈ ps ++ cs) → (∀ ev ∈ l', ¬Event.IsFailure ev) → ∀ f ∈ parsedFiles l',
      Parseable (w.sources st.customFcMacros) f.2 f.1 ∧ ∃ l, flavorOf l = f.1 ∧ f.2 ∈ s.filesOf l := by
    intro l' hsub hno f hf
    obtain ⟨ev, hev, he⟩ := List.mem_filterMap.1 hf
    cases ev with
    | parse a n fl ast =>
      cases he
      obtain ⟨k1, k2, -⟩ := key (hsub _ hev)
      exact ⟨k1.1 (hno _ hev), k2⟩
    | mark => cases he
    | check => cases he
    | cleanup => cases he
  rw [hl] at hu ⊢
  rcases hstop with ⟨rfl, hno⟩ | ⟨pre, ev, rfl, hpe, hfail, hno⟩
  · refine ⟨parsedFiles (ps ++ cs), good _ (fun _ h => h) hno, .inl ⟨rfl, by simp [parsedFiles], ?_⟩⟩
    rw [logText_append, logText_parsed hg usual hno]
    simp [logText, Res.bind_ok]
  · rw [hpe] at hu hg key usual good ⊢
    have hsub : ∀ ev' ∈ pre, ev' ∈ pre ++ [ev] := fun ev' h => List.mem_append_left _ h
    refine ⟨parsedFiles pre, good _ hsub hno, .inr ⟨rfl, ?_⟩⟩
    cases ev with
    | mark => cases hfail
    | check => cases hfail
    | cleanup => cases hfail
    | parse a n fl ast =>
      obtain ⟨k1, ⟨l, rfl, k2⟩, k3⟩ := key (List.mem_append_right _ (List.mem_singleton.2 rfl))
      have hg2 := (genuine_append _ _ _).1 hg
      rw [List.append_assoc, undefinedParse_append, Bool.or_eq_false_iff] at hu
      refine ⟨l, n, k2, fun hp => k1.2 hp hfail, by simp [parsedFiles], fun t ht => ?_⟩
      rw [List.append_assoc, logText_append, logText_parsed hg2.1 (fun e h => usual e (hsub e h)) hno, Res.bind_ok] at ht
      simp only [List.cons_append, List.nil_append, undefinedParse, Bool.or_eq_false_iff] at hu
      obtain ⟨u, hu1, ht⟩ := Res.bind_eq_ok ht
      simp only [List.cons_append, List.nil_append, logText] at hu1
      obtain ⟨v, hv, hu1⟩ := Res.bind_eq_ok hu1
      have hemp := hg2.2.1
      rw [show ast = [] from hfail] at hemp
      obtain ⟨b, rfl, hb⟩ := fileText_failed hfew k3 hu.2.1 hemp.symm hv
      refine ⟨b, ?_, hb⟩
      simp only [Res.bind_ok, Res.ok.injEq, List.append_nil] at hu1 ht
      rw [← ht, ← hu1, List.append_assoc]

/-- **C109 (program).** If the program ends with EX_SOFTWARE since a file cannot be parsed, the last that it prints is about
such a file, which is named if it is a te or if file, and the sentence that the files could not be parsed. -/
theorem C109_main {version : Str} {w : Machine} {x : Printing} {y : Speaking} {tty : Bool} {args : List Opt}
    {paths : List Str} {r : MainResult} {t : Str} {st : Settings} (h : selintMain w args paths = .ok r)
    (ht : mainText version w x tty args paths = .ok t) (hu : startUp w.config args paths.length = .go st)
    (hfew : FewLines (w.sources st.customFcMacros))
    (hx : ∀ s, loadSupport w st.opts (collect w st paths) = .ok s →
      analysisText y w st s = .ok (x.parsing (colours tty args) s))
    (hrec : Opt.recursive ∈ args)
    (hd : ∀ root ∈ paths, PlainDirs (optionsOf args).sourceFlag root (baseName root) (w.fs root)) (h70 : r.status = 70) :
    ∃ fl n before b, ReadsFile w args paths fl n ∧ ¬Parseable (w.sources st.customFcMacros) n fl ∧
      Blames y (w.sources st.customFcMacros) (fl, n) b ∧
      t = before ++ b ++ (Label.error.shown (colours tty args) ++ cs!": Failed to parse files\n") := by
  obtain ⟨hp, hset⟩ : parseOpts {} args = .go (optionsOf args) ∧
      settings w.config (optionsOf args) paths.length = .go st := by
    unfold startUp at hu
    cases hp : parseOpts {} args with
    | exit s => rw [hp] at hu; cases hu
    | go o =>
      rw [hp] at hu
      have := options_go hp
      subst this
      exact ⟨rfl, hu⟩
  have hopts : st.opts = optionsOf args := settings_opts hset
  unfold mainText at ht
  obtain ⟨start, hst, ht⟩ := Res.bind_eq_ok ht
  simp only [hu] at ht
  obtain ⟨rest, hft, ht⟩ := Res.bind_eq_ok ht
  simp only [Res.ok.injEq] at ht
  unfold selintMain at h
  rw [hp] at h
  simp only at h
  obtain ⟨w1, hw1, h⟩ := Res.bind_eq_ok h
  obtain ⟨w2, hw2, h⟩ := Res.bind_eq_ok h
  rw [hset] at h
  simp only at h
  unfold mainWith at h
  unfold filesText at hft
  obtain ⟨support, hsup, hft⟩ := Res.bind_eq_ok hft
  obtain ⟨s, hl, h⟩ := Res.bind_eq_ok h
  rw [hl, Res.bind_ok] at hft
  rw [hopts, colorOn_eq, ← hopts] at hft
  cases hck : registerChecks st.severity st.enableConf s.maps with
  | none =>
    have := settings_severity w.config args paths.length st
      (by
        have := C08_options args
        rw [hp] at this
        split at this
        · cases this
        · rename_i hno
          exact List.findSome?_eq_none_iff.1 hno) hset
    exact absurd ((C03_invalid_level _ _ _).mp hck) this
  | some ck =>
  simp only [hck] at hft h
  obtain ⟨⟨e, rs⟩, han, hft⟩ := Res.bind_eq_ok hft
  rw [han, Res.bind_ok] at h
  simp only [Res.ok.injEq] at h hft
  subst h
  obtain ⟨A, ps, cs, hA⟩ := analyse_analysed han
  obtain ⟨fs, hrep⟩ := hA.reported hck
  have hxs := hx s hl
  simp only [analysisText, hck, han, Res.bind_ok] at hxs
  obtain ⟨done, -, ⟨rfl, -⟩ | ⟨rfl, l, n, hn, hnp, -, htx⟩⟩ := run_told han hfew y
  · exfalso
    revert h70
    show exitStatus st.opts.failOnFinding ⟨.success, rs.rs.foundIssue⟩ = 70 → False
    cases st.opts.failOnFinding <;> cases rs.rs.foundIssue <;> decide
  obtain ⟨b, htx, hb⟩ := htx _ hxs
  have hout : rs.rs.out = [] := by
    have := hrep.out
    rw [hrep.error (by decide)] at this
    rw [this]
    simp
  obtain ⟨sentence, -, k1, k2⟩ := (C106_end (colours tty args) st.opts.summaryFlag st.opts.failOnFinding rs.rs.foundIssue
    (x.sort rs.ck) .parseError).1 h70
  rw [hout, k2, k1 rfl, htx] at hft
  rw [List.flatMap_nil, List.append_nil] at hft
  refine ⟨flavorOf l, n, start ++ ((scanTold (colours tty args) st.opts (paths.map fun p => (p, w.fs p))
      { maps := st.maps }).2 ++ support ++ registerText (colours tty args) st.severity st.enableConf s.maps ++
      (done.flatMap (announced y.verbose) ++ announced y.verbose (flavorOf l, n))), b,
    (reads_iff hl hopts hrec hd _ n).2 ⟨l, rfl, hn⟩, hnp, hb, ?_⟩
  rw [← ht, ← hft]
  simp only [List.append_assoc]
  rfl

/-! ## Support files -/

/-- **C109 (support files).** The parser prints nothing about a support file that can be used or that cannot be opened. If one
cannot be parsed, it begins with a finding F-001 that names the file. -/
theorem C109_support {w : Machine} {flavor : PlainFlavor} {path : Str} {m : Maps} {e : SelintError} (x : Speaking)
    (hfew : FewLines (w.sources [])) (h : supportResult w flavor path m = .ok e) :
    (e ≠ .parseError → supportParserText x w flavor path m = .ok []) ∧
    (e = .parseError → ∀ t, supportParserText x w flavor path m = .ok t →
      ∃ line msg more, t = formatFinding x.color ⟨path, line, ⟨'F', 1, msg⟩⟩ ++ more) := by
  unfold supportResult at h
  unfold supportParserText
  cases ht : w.text path with
  | none => rw [ht] at h; cases h; exact ⟨fun _ => rfl, nofun⟩
  | some text =>
    rw [ht] at h
    dsimp only at h ⊢
    obtain ⟨ls, hls⟩ := C84_lines text
    have few := hfew path text ls ht hls
    cases hp : (lexFile text).bind pFile with
    | none =>
      rw [hp] at h
      cases h
      refine ⟨fun hc => absurd rfl hc, fun _ t hx => C109_refused hls few ?_ _ _ _ _ t hx⟩
      intro f st hf
      rw [hp] at hf
      cases hf
    | some f =>
      rw [hp] at h
      dsimp only at h
      obtain ⟨o, hx, h⟩ := Res.bind_eq_ok h
      cases o with
      | some st => cases h; exact ⟨fun _ => C109_accepted hp hx _ _ _ _, nofun⟩
      | none =>
        cases h
        refine ⟨fun hc => absurd rfl hc, fun _ t ht => C109_refused hls few ?_ _ _ _ _ t ht⟩
        intro g st hg hgx
        rw [hp] at hg
        cases hg
        rw [hx] at hgx
        cases hgx

/-! ## Examples -/

/-- A te file with a rule that is not complete and an fc file that cannot be opened. -/
def brokenMachine : Machine :=
  { exMachine with
    fs := fun p => if p = cs!"mod" then .dir (.cons cs!"a.te" .file .nil) else
      if p = cs!"fcs" then .dir (.cons cs!"a.fc" .file .nil) else .file
    text := fun name => if name = cs!"mod/a.te" then some cs!"\nallow;\n" else none
    fcLines := fun _ => none }

def exSpeaking (verbose : Bool) : Speaking := ⟨false, verbose, fun _ => cs!"No such file", cs!"end of file", fun _ => ⟨0, 0, 0, 0⟩⟩

/-- A printing that is what the model says. -/
def spokenParsers (y : Speaking) (w : Machine) (args : List Opt) (paths : List Str) : Printing :=
  { quietParsers with
    parsing := fun _ s =>
      match startUp w.config args paths.length with
      | .exit _ => []
      | .go st =>
        match analysisText y w st s with
        | .ub => []
        | .ok t => t }

def printed (y : Speaking) (w : Machine) (args : List Opt) (paths : List Str) : Res Str :=
  mainText cs!"1" w (spokenParsers y w args paths) y.color args paths

set_option synthInstance.maxSize 1000 in
example : printed (exSpeaking true) brokenMachine [.recursive, .verbose, .onlyEnabled, .enable cs!"S-003"] [cs!"mod"] =
    .ok (cs!"Verbose mode enabled\n" ++
      cs!"No config specified and could not find default config at /etc/selint.conf.\n" ++
      cs!"Severity level set to C\n" ++
      cs!"Path added to scan: 'mod'\n" ++
      cs!"Skipping mod which is not a policy file\n" ++
      cs!"Note: Failed to load classes and perms probably due to running on a SELinux disabled system.\n" ++
      cs!"Parsing mod/a.te\n" ++
      cs!"mod/a.te:             2: (F): syntax error, unexpected ALLOW, expecting end of file (F-001)\n" ++
      cs!"    2 | allow;\n" ++
      cs!"      | ^~~~~\n" ++
      cs!"Error: Failed to parse files\n") := by
  decide +kernel

set_option synthInstance.maxSize 1000 in
example : printed (exSpeaking true) exMachine [.recursive, .verbose, .onlyEnabled, .enable cs!"S-003"] [cs!"mod"] =
    .ok (cs!"Verbose mode enabled\n" ++
      cs!"No config specified and could not find default config at /etc/selint.conf.\n" ++
      cs!"Severity level set to C\n" ++
      cs!"Path added to scan: 'mod'\n" ++
      cs!"Skipping hidden directory mod/.git\n" ++
      cs!"Skipping mod/.git which is not a policy file\n" ++
      cs!"Skipping mod which is not a policy file\n" ++
      cs!"Note: Failed to load classes and perms probably due to running on a SELinux disabled system.\n" ++
      cs!"Parsing mod/foo.if\nParsing mod/foo.te\nParsing fc file mod/foo.fc\n") := by
  decide +kernel

set_option synthInstance.maxSize 1000 in
/-- **C109 (fc files).** Not so for fc files: a run can fail because of one without a word about it. -/
theorem C109_false_fc : printed (exSpeaking false) brokenMachine [.recursive, .onlyEnabled, .enable cs!"S-003"] [cs!"fcs"] =
    .ok (cs!"Note: Failed to load classes and perms probably due to running on a SELinux disabled system.\n" ++
      cs!"Error: Failed to parse files\n") := by
  decide +kernel

/-- A te file in the place of access vectors. -/
example : supportResult brokenMachine .avFile cs!"mod/a.te" {} = .ok .parseError ∧
    supportParserText (exSpeaking false) brokenMachine .avFile cs!"mod/a.te" {} =
      .ok (cs!"mod/a.te:             2: (F): syntax error, unexpected ALLOW, expecting end of file (F-001)\n" ++
        cs!"    2 | allow;\n" ++
        cs!"      | ^~~~~\n") := by
  decide +kernel

/-- The te file of `twiceFiles` (C70) with a syntax error behind the call. -/
def twiceBroken : Str := cs!"policy_module(foo, 1.0)\nfoo_template(application)\nallow;\n"

/-- **C109 (undefined).** The actions of the parser run before it comes to a syntax error, so the call of an interface may be
undefined although there is no result for the text. `parseOneFile` leaves that out, `parserText` does not. -/
theorem C109_undefined :
    let m := ((wholeProgram twiceFiles false ⟨.ref, [], false, false, []⟩).parser .ifFile cs!"foo.if" {}).2
    (lexFile twiceBroken).bind pFile = none ∧
    parserText false cs!"end of file" .teFile cs!"foo" m ⟨0, 0, 0, 0⟩ cs!"foo.te" twiceBroken = .ub := by
  intro m
  have h1 : ((lexFile twiceBroken).bind pFile).isNone = true := by decide +kernel
  have h2 : (parserText false cs!"end of file" .teFile cs!"foo" m ⟨0, 0, 0, 0⟩ cs!"foo.te" twiceBroken matches .ub) = true := by
    decide +kernel
  refine ⟨Option.isNone_iff_eq_none.1 h1, ?_⟩
  cases h : parserText false cs!"end of file" .teFile cs!"foo" m ⟨0, 0, 0, 0⟩ cs!"foo.te" twiceBroken with
  | ub => rfl
  | ok => rw [h] at h2; cases h2

theorem linesOf_length {text : Str} {ls : List Str} (h : LinesOf text ls) : ls.length ≤ text.length := by
  induction h with
  | nil => exact Nat.le_refl _
  | @last l _ hl =>
    cases l with
    | nil => exact absurd rfl hl
    | cons => simp
  | line _ _ ih => simp; omega

theorem brokenMachine_few (macros : List Str) : FewLines (brokenMachine.sources macros) := by
  intro name text ls h hls
  have : text = cs!"\nallow;\n" := by
    simp only [Machine.sources, brokenMachine] at h
    split at h
    · exact (Option.some.inj h).symm
    · cases h
  subst this
  have := linesOf_length hls
  simp at this
  omega

/-- The hypotheses of `C109_main` are met by this run. -/
example : ∃ r t st, selintMain brokenMachine [.recursive] [cs!"mod"] = .ok r ∧ r.status = 70 ∧
    mainText cs!"1" brokenMachine (spokenParsers (exSpeaking false) brokenMachine [.recursive] [cs!"mod"]) false
      [.recursive] [cs!"mod"] = .ok t ∧
    startUp brokenMachine.config [.recursive] 1 = .go st ∧ FewLines (brokenMachine.sources st.customFcMacros) ∧
    (∀ s, loadSupport brokenMachine st.opts (collect brokenMachine st [cs!"mod"]) = .ok s →
      analysisText (exSpeaking false) brokenMachine st s =
        .ok ((spokenParsers (exSpeaking false) brokenMachine [.recursive] [cs!"mod"]).parsing (colours false [.recursive]) s)) ∧
    ∀ root ∈ [cs!"mod"], PlainDirs (optionsOf [.recursive]).sourceFlag root (baseName root) (brokenMachine.fs root) := by
  have h1 : (match selintMain brokenMachine [.recursive] [cs!"mod"] with
      | .ok r => r.status == 70 | .ub => false) = true := by decide +kernel
  have h2 : (match printed (exSpeaking false) brokenMachine [.recursive] [cs!"mod"] with
      | .ok _ => true | .ub => false) = true := by decide +kernel
  have h3 : (match startUp brokenMachine.config [.recursive] 1 with
      | .exit _ => false
      | .go st => match loadSupport brokenMachine st.opts (collect brokenMachine st [cs!"mod"]) with
        | .ub => false
        | .ok s => match analysisText (exSpeaking false) brokenMachine st s with | .ok _ => true | .ub => false) = true := by
    decide +kernel
  cases e1 : selintMain brokenMachine [.recursive] [cs!"mod"] with
  | ub => rw [e1] at h1; cases h1
  | ok r =>
  cases e2 : printed (exSpeaking false) brokenMachine [.recursive] [cs!"mod"] with
  | ub => rw [e2] at h2; cases h2
  | ok t =>
  cases e3 : startUp brokenMachine.config [.recursive] 1 with
  | exit => rw [e3] at h3; cases h3
  | go st =>
  rw [e1] at h1
  rw [e3] at h3
  refine ⟨r, t, st, rfl, by simpa using h1, e2, rfl, brokenMachine_few _, ?_, ?_⟩
  · intro s hs
    simp only [hs] at h3
    simp only [spokenParsers, List.length_cons, List.length_nil, Nat.zero_add, e3]
    cases e4 : analysisText (exSpeaking false) brokenMachine st s with
    | ub => rw [e4] at h3; cases h3
    | ok => rfl
  · intro root hr
    simp only [List.mem_singleton] at hr
    subst hr
    simp only [brokenMachine, if_true, PlainDirs, PlainDirsIn, PlainDir]
    decide

end Selint
