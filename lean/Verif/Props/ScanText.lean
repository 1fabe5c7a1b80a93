import Verif.Model.ScanText
import Verif.Spec.ScanText
import Verif.Props.Scan
import Verif.Props.StartText
/-! # C106: what cannot be used is reported -/

namespace Selint

open Spec

/-! ## The scan -/

mutual
theorem told_walk (color : Bool) (o : Options) (path name parent : Str) : ∀ (fs : Fs) (s : Scan × Str),
    (ftsWalk (visitTold color o) path name parent fs s).1 = ftsWalk (visitMain o) path name parent fs s.1
  | .file, s => by simp only [ftsWalk, visitTold]
  | .dir es, s => by
    by_cases hk : (visitMain o ⟨path, name, parent, .d⟩ s.1).2 = true
    · simp only [ftsWalk, visitTold, hk, if_true]
    · simp only [ftsWalk, visitTold, hk, if_false, Bool.false_eq_true]
      rw [told_walks color o path name es]
theorem told_walks (color : Bool) (o : Options) (path name : Str) : ∀ (es : FsList) (s : Scan × Str),
    (ftsWalkList (visitTold color o) path name es s).1 = ftsWalkList (visitMain o) path name es s.1
  | .nil, s => by simp only [ftsWalkList]
  | .cons n fs rest, s => by
    simp only [ftsWalkList]
    rw [told_walks color o path name rest, told_walk color o (joinPath path n) n name fs]
end

/-- **C106 (the same scan).** -/
theorem C106_scan (color : Bool) (o : Options) (roots : List (Str × Fs)) (s : Scan) :
    (scanTold color o roots s).1 = scanMain o roots s := by
  unfold scanTold scanMain
  generalize roots.flatMap (fun r => ifVerbose o.verbose (cs!"Path added to scan: '" ++ r.1 ++ cs!"'\n")) = t
  induction roots generalizing s t with
  | nil => rfl
  | cons r rs ih =>
    simp only [List.foldl_cons]
    rw [← told_walk color o r.1 (baseName r.1) [] r.2 (s, t)]
    exact ih _ _

theorem visitText_plain {color : Bool} {o : Options} {e : FtsEnt} (h : PlainDir o.sourceFlag e.path e.name) :
    visitText color o e = passText color o e := by
  obtain ⟨h1, h2, h3, h4⟩ := h
  unfold visitText
  simp only [suffix3_iff _ _ (rfl : cs!".te".length = 3), suffix3_iff _ _ (rfl : cs!".if".length = 3),
    suffix3_iff _ _ (rfl : cs!".fc".length = 3), h1, h2, h3, if_false, strcmp_eq_zero]
  cases hs : o.sourceFlag with
  | false => simp
  | true =>
    obtain ⟨a, b, c⟩ := h4 hs
    simp [a, b, c]

theorem visitText_named {color : Bool} {o : Options} {e : FtsEnt} (h : ¬ PlainDir o.sourceFlag e.path e.name) :
    visitText color o e = [] := by
  unfold visitText
  simp only [suffix3_iff _ _ (rfl : cs!".te".length = 3), suffix3_iff _ _ (rfl : cs!".if".length = 3),
    suffix3_iff _ _ (rfl : cs!".fc".length = 3), strcmp_eq_zero]
  repeat' split
  all_goals first | rfl | skip
  rename_i h1 h2 h3 h4 h5 h6
  refine absurd ⟨h1, h2, h3, fun hs => ⟨fun k => ?_, fun k => ?_, fun k => ?_⟩⟩ h
  · exact h4 (by simp [hs, k])
  · exact h5 (by simp [hs, k])
  · exact h6 (by simp [hs, k])

/-- **C106 (explicit paths).** Without `-r` and `-v` one note is printed for each path on the command line that is not
named like a policy file or support file, be it a file or a directory, and nothing else; the other paths are collected
(C47). As there, no directory on the command line is named like such a file. -/
theorem C106_explicit (color : Bool) (o : Options) (hr : o.recursiveScan = false) (hv : o.verbose = false)
    (roots : List (Str × Fs)) (hp : ∀ r ∈ roots, r.2 ≠ .file → PlainDir o.sourceFlag r.1 (baseName r.1)) (s : Scan) :
    (scanTold color o roots s).2 =
      roots.flatMap fun r => if PlainDir o.sourceFlag r.1 (baseName r.1) then skipNote color r.1 else [] := by
  have hpass : ∀ path name parent info, info ≠ FtsInfo.d →
      passText color o ⟨path, name, parent, info⟩ = skipNote color path := by
    intro path name parent info hi
    have hi' : (info == FtsInfo.d) = false := by simpa using hi
    simp only [passText, hi', hi, hr, ne_eq, not_false_eq_true, if_true, Bool.false_eq_true, if_false,
      Bool.and_false, Bool.false_and, List.append_nil]
    cases color <;> rfl
  have hpassd : ∀ path name parent, passText color o ⟨path, name, parent, .d⟩ = [] := by
    intro path name parent
    simp [passText, hv, ifVerbose]
  have hone : ∀ r : Str × Fs, (r.2 ≠ .file → PlainDir o.sourceFlag r.1 (baseName r.1)) → ∀ s : Scan × Str,
      (ftsWalk (visitTold color o) r.1 (baseName r.1) [] r.2 s).2 =
        s.2 ++ if PlainDir o.sourceFlag r.1 (baseName r.1) then skipNote color r.1 else [] := by
    rintro ⟨p, fs⟩ hd s
    by_cases hpl : PlainDir o.sourceFlag p (baseName p)
    · simp only [hpl, if_true]
      cases fs with
      | file =>
        simp only [ftsWalk, visitTold]
        rw [visitText_plain hpl, hpass _ _ _ _ (by decide)]
      | dir es =>
        have hskip : (visitMain o ⟨p, baseName p, [], .d⟩ s.1).2 = true := by
          rw [visit_plainDir o _ _ hpl]; simp [hr]
        simp only [ftsWalk, visitTold, hskip, if_true]
        rw [visitText_plain hpl, hpassd, List.append_nil, visitText_plain hpl, hpass _ _ _ _ (by decide)]
    · cases fs with
      | file =>
        simp only [ftsWalk, visitTold, if_neg hpl]
        rw [visitText_named hpl]
      | dir es => exact absurd (hd (by simp)) hpl
  unfold scanTold
  have h0 : (roots.flatMap fun r => ifVerbose o.verbose (cs!"Path added to scan: '" ++ r.1 ++ cs!"'\n")) = [] := by
    simp [hv, ifVerbose]
  rw [h0]
  suffices h : ∀ s : Scan × Str, (roots.foldl (fun s r => ftsWalk (visitTold color o) r.1 (baseName r.1) [] r.2 s) s).2 =
      s.2 ++ roots.flatMap fun r => if PlainDir o.sourceFlag r.1 (baseName r.1) then skipNote color r.1 else [] by
    exact h (s, [])
  clear h0
  induction roots with
  | nil => intro s; simp
  | cons r rs ih =>
    intro s
    simp only [List.foldl_cons, List.flatMap_cons]
    rw [ih (fun r' h' => hp r' (List.mem_cons_of_mem _ h')), hone r (hp r List.mem_cons_self), List.append_assoc]

mutual
theorem quiet_walk (color : Bool) (o : Options) (h : ∀ e, visitText color o e = []) (path name parent : Str) :
    ∀ (fs : Fs) (s : Scan × Str), (ftsWalk (visitTold color o) path name parent fs s).2 = s.2
  | .file, s => by simp only [ftsWalk, visitTold, h, List.append_nil]
  | .dir es, s => by
    by_cases hk : (visitMain o ⟨path, name, parent, .d⟩ s.1).2 = true
    · simp only [ftsWalk, visitTold, hk, if_true, h, List.append_nil]
    · simp only [ftsWalk, visitTold, hk, if_false, Bool.false_eq_true, h, List.append_nil]
      rw [quiet_walks color o h path name es]
theorem quiet_walks (color : Bool) (o : Options) (h : ∀ e, visitText color o e = []) (path name : Str) :
    ∀ (es : FsList) (s : Scan × Str), (ftsWalkList (visitTold color o) path name es s).2 = s.2
  | .nil, s => by simp only [ftsWalkList]
  | .cons n fs rest, s => by
    simp only [ftsWalkList]
    rw [quiet_walks color o h path name rest, quiet_walk color o h (joinPath path n) n name fs]
end

/-- **C106 (with `-r`).** With `-r` and without `-v` the scan prints nothing, whatever it meets. -/
theorem C106_recursive (color : Bool) (o : Options) (hr : o.recursiveScan = true) (hv : o.verbose = false)
    (roots : List (Str × Fs)) (s : Scan) : (scanTold color o roots s).2 = [] := by
  have h : ∀ e, visitText color o e = [] := by
    intro e
    unfold visitText passText
    simp only [hr, hv, ifVerbose, Bool.false_eq_true, if_false, if_true, ite_self, List.append_nil]
  unfold scanTold
  have h0 : (roots.flatMap fun r => ifVerbose o.verbose (cs!"Path added to scan: '" ++ r.1 ++ cs!"'\n")) = [] := by
    simp [hv, ifVerbose]
  rw [h0]
  suffices k : ∀ s : Scan × Str,
      (roots.foldl (fun s r => ftsWalk (visitTold color o) r.1 (baseName r.1) [] r.2 s) s).2 = s.2 from k (s, [])
  clear h0
  induction roots with
  | nil => intro s; rfl
  | cons r rs ih => intro s; simp only [List.foldl_cons]; rw [ih, quiet_walk color o h]

/-! ## Support files -/

theorem supportResult_good {w : Machine} {flavor : PlainFlavor} {path : Str} {m : Maps} {r : SelintError}
    (h : supportResult w flavor path m = .ok r) :
    (r = .success ∧ GoodSupport w flavor m path) ∨ ((r = .parseError ∨ r = .ioError) ∧ ¬ GoodSupport w flavor m path) := by
  unfold supportResult at h
  cases ht : w.text path with
  | none =>
    rw [ht] at h
    cases h
    exact .inr ⟨.inr rfl, fun ⟨_, _, _, k, _⟩ => by rw [ht] at k; cases k⟩
  | some text =>
    simp only [ht] at h
    cases hf : (lexFile text).bind pFile with
    | none =>
      simp only [hf] at h
      cases h
      refine .inr ⟨.inl rfl, fun ⟨t, _, _, k, k2, _⟩ => ?_⟩
      rw [ht] at k
      cases k
      rw [hf] at k2
      cases k2
    | some f =>
      simp only [hf] at h
      obtain ⟨x, hx, h⟩ := Res.bind_eq_ok h
      cases x with
      | none =>
        cases h
        refine .inr ⟨.inl rfl, fun ⟨t, _, _, k, k2, k3⟩ => ?_⟩
        rw [ht] at k
        cases k
        rw [hf] at k2
        cases k2
        rw [hx] at k3
        cases k3
      | some st =>
        cases h
        exact .inl ⟨rfl, text, f, st, ht, hf, hx⟩

theorem modulesResult_good {w : Machine} {path : Str} {m : Maps} {r : SelintError}
    (h : modulesResult w path m = .ok r) :
    (r = .success ∧ GoodModules w m path) ∨ ((r = .parseError ∨ r = .ioError) ∧ ¬ GoodModules w m path) := by
  unfold modulesResult at h
  cases ht : w.confLines path with
  | none =>
    rw [ht] at h
    cases h
    exact .inr ⟨.inr rfl, fun ⟨_, _, k, _⟩ => by rw [ht] at k; cases k⟩
  | some lines =>
    simp only [ht] at h
    obtain ⟨⟨b, m'⟩, hx, h⟩ := Res.bind_eq_ok h
    cases b with
    | true => cases h; exact .inl ⟨rfl, lines, m', ht, hx⟩
    | false =>
      cases h
      refine .inr ⟨.inl rfl, fun ⟨l, _, k, k2⟩ => ?_⟩
      rw [ht] at k
      cases k
      rw [hx] at k2
      cases k2

theorem supportText_told {color : Bool} {missing failed loaded : Str} {path : Option Str}
    {result : Str → Res SelintError} {said : SelintError → Str} {t : Str} {good : Str → Prop}
    (hs : said .success = [])
    (hg : ∀ p r, result p = .ok r → (r = .success ∧ good p) ∨ ((r = .parseError ∨ r = .ioError) ∧ ¬ good p))
    (h : supportText color false missing failed loaded path result said = .ok t) :
    Told color missing failed good path t := by
  unfold supportText at h
  cases path with
  | none =>
    cases h
    have := Told.absent (color := color) (name := missing) (what := failed) (good := good)
    cases color <;> exact this
  | some p =>
    obtain ⟨r, hr, h⟩ := Res.bind_eq_ok h
    simp only [Res.ok.injEq] at h
    subst h
    rcases hg p r hr with ⟨rfl, k⟩ | ⟨rfl | rfl, k⟩
    · rw [hs]
      exact .read p k
    · have := Told.wrong (color := color) (name := missing) (what := failed) p (said .parseError) k
      cases color <;> exact this
    · have := Told.unreadable (color := color) (name := missing) (what := failed) p (said .ioError) k
      cases color <;> exact this

/-- **C106 (support files).** In source mode, without `-v`, what is printed about the support files are three parts, one for
each of them: nothing if it was found and read without error, and otherwise the warning that says so. -/
theorem C106_support {w : Machine} {color : Bool} {reason parser : Str → Str} {o : Options} {s : Scan} {t : Str}
    (hs : o.sourceFlag = true) (hv : o.verbose = false) (h : supportTexts w color reason parser o s = .ok t) :
    ∃ a b c m₁ m₂, t = a ++ b ++ c ∧
      ifFound s.accessVectors (loadSupportFile w .avFile) s.maps = .ok m₁ ∧
      ifFound s.modulesConf (loadModules w) m₁ = .ok m₂ ∧
      Told color cs!"access_vectors" cs!"parse access_vectors" (GoodSupport w .avFile s.maps) s.accessVectors a ∧
      Told color cs!"modules.conf" cs!"load modules" (GoodModules w m₁) s.modulesConf b ∧
      Told color cs!"obj_perm_sets.spt" cs!"permission and class set macros" (GoodSupport w .sptFile m₂) s.objPermSets c := by
  unfold supportTexts at h
  simp only [hs, hv, if_true] at h
  obtain ⟨a, ha, h⟩ := Res.bind_eq_ok h
  obtain ⟨m₁, hm₁, h⟩ := Res.bind_eq_ok h
  obtain ⟨b, hb, h⟩ := Res.bind_eq_ok h
  obtain ⟨m₂, hm₂, h⟩ := Res.bind_eq_ok h
  obtain ⟨c, hc, h⟩ := Res.bind_eq_ok h
  simp only [Res.ok.injEq] at h
  refine ⟨a, b, c, m₁, m₂, h.symm, hm₁, hm₂, ?_, ?_, ?_⟩
  · exact supportText_told rfl (fun p r k => supportResult_good k) ha
  · exact supportText_told rfl (fun p r k => modulesResult_good k) hb
  · exact supportText_told rfl (fun p r k => supportResult_good k) hc

theorem told_nil {color : Bool} {name what : Str} {good : Str → Prop} {p : Option Str}
    (h : Told color name what good p []) : ∃ path, p = some path ∧ good path := by
  generalize ht : ([] : Str) = t at h
  cases h with
  | read path k => exact ⟨path, rfl, k⟩
  | absent => cases color <;> simp [notFound, Label.shown] at ht
  | unreadable path shown k => cases color <;> simp [notUsed, Label.shown] at ht
  | wrong path shown k => cases color <;> simp [notUsed, Label.shown] at ht

/-- **C106 (silence).** Nothing is printed only if all three support files were found and read without error. -/
theorem C106_silent {w : Machine} {color : Bool} {reason parser : Str → Str} {o : Options} {s : Scan}
    (hs : o.sourceFlag = true) (hv : o.verbose = false) (h : supportTexts w color reason parser o s = .ok []) :
    ∃ av mc ops m₁ m₂, s.accessVectors = some av ∧ s.modulesConf = some mc ∧ s.objPermSets = some ops ∧
      loadSupportFile w .avFile av s.maps = .ok m₁ ∧ loadModules w mc m₁ = .ok m₂ ∧
      GoodSupport w .avFile s.maps av ∧ GoodModules w m₁ mc ∧ GoodSupport w .sptFile m₂ ops := by
  obtain ⟨a, b, c, m₁, m₂, ht, e1, e2, ha, hb, hc⟩ := C106_support hs hv h
  have := ht.symm
  simp only [List.append_eq_nil_iff] at this
  obtain ⟨⟨rfl, rfl⟩, rfl⟩ := this
  obtain ⟨av, h1, g1⟩ := told_nil ha
  obtain ⟨mc, h2, g2⟩ := told_nil hb
  obtain ⟨ops, h3, g3⟩ := told_nil hc
  rw [h1] at e1
  rw [h2] at e2
  exact ⟨av, mc, ops, m₁, m₂, h1, h2, h3, e1, e2, g1, g2, g3⟩

/-! ## The kernel's classes -/

mutual
theorem perm_walk (path name parent : Str) : ∀ (fs : Fs) (b : Bool),
    ftsWalk visitPerm path name parent fs b = true ↔ b = true ∨ HasPerm name fs
  | .file, b => by simp [ftsWalk, visitPerm, HasPerm]
  | .dir es, b => by
    have h1 : ∀ b, (visitPerm ⟨path, name, parent, .d⟩ b) = (b, false) := by intro b; simp [visitPerm]
    have h2 : ∀ b, (visitPerm ⟨path, name, parent, .dp⟩ b) = (b, false) := by intro b; simp [visitPerm]
    simp only [ftsWalk, h1, h2, HasPerm, Bool.false_eq_true, if_false]
    exact perm_walks path name es b
theorem perm_walks (path name : Str) : ∀ (es : FsList) (b : Bool),
    ftsWalkList visitPerm path name es b = true ↔ b = true ∨ HasPermIn es
  | .nil, b => by simp [ftsWalkList, HasPermIn]
  | .cons n fs rest, b => by
    simp only [ftsWalkList, HasPermIn]
    rw [perm_walks path name rest, perm_walk (joinPath path n) n name fs, or_assoc]
end

/-- **C106 (normal mode).** Without source mode there is a note if the kernel offers no classes at all, a warning if there is
no permission among them, and otherwise nothing. -/
theorem C106_kernel {w : Machine} {color : Bool} {reason parser : Str → Str} {o : Options} {s : Scan} {t : Str}
    (hs : o.sourceFlag = false) (h : supportTexts w color reason parser o s = .ok t) :
    (w.kernel = none → t = Label.note.shown color ++
      cs!": Failed to load classes and perms probably due to running on a SELinux disabled system.\n") ∧
    (∀ fs, w.kernel = some fs → HasPerm cs!"class" fs → t = []) ∧
    (∀ fs, w.kernel = some fs → ¬ HasPerm cs!"class" fs → t = Label.warning.shown color ++
      cs!": Failed to load classes and perms from current kernel.\n") := by
  unfold supportTexts at h
  simp only [hs, Bool.false_eq_true, if_false, Res.ok.injEq] at h
  subst h
  refine ⟨fun hk => ?_, fun fs hk hp => ?_, fun fs hk hp => ?_⟩
  · simp only [kernelText, kernelResult, hk]
    cases color <;> rfl
  · have := (perm_walk cs!"/sys/fs/selinux/class" cs!"class" [] fs false).2 (.inr hp)
    simp only [kernelText, kernelResult, hk, this, if_true]
  · have : ftsWalk visitPerm cs!"/sys/fs/selinux/class" cs!"class" [] fs false = false := by
      cases k : ftsWalk visitPerm cs!"/sys/fs/selinux/class" cs!"class" [] fs false with
      | false => rfl
      | true => exact absurd ((perm_walk _ _ _ _ _).1 k) (by simp [hp])
    simp only [kernelText, kernelResult, hk, this, Bool.false_eq_true, if_false]
    cases color <;> rfl

/-! ## The end -/

/-- **C106 (the end).** A run that ends with status 70 says so with a line that begins with `Error`; a run that ends with 0
or 65 ends with the summary, if one is asked for, and otherwise with nothing. -/
theorem C106_end (color summary fail found : Bool) (sorted : List (CheckNode CheckFn)) (r : SelintError) :
    (exitStatus fail ⟨r, found⟩ = 70 → ∃ sentence, sentence.getLast? = some '\n' ∧
      (r = .parseError → sentence = cs!"Failed to parse files\n") ∧
      endText color summary sorted (some r) = Label.error.shown color ++ cs!": " ++ sentence) ∧
    (exitStatus fail ⟨r, found⟩ ≠ 70 → endText color summary sorted (some r) =
      if summary then summaryText color sorted else []) := by
  have e : ∀ x : Str, (colorError color ++ cs!"Error" ++ colorReset color ++ x) = Label.error.shown color ++ x := by
    intro x; cases color <;> rfl
  cases r with
  | success =>
    refine ⟨fun h => absurd h ?_, fun _ => rfl⟩
    cases fail <;> cases found <;> decide
  | parseError =>
    refine ⟨fun _ => ⟨cs!"Failed to parse files\n", rfl, fun _ => rfl, ?_⟩, fun h => absurd ?_ h⟩
    · simp only [endText, e]
      cases color <;> rfl
    · cases fail <;> cases found <;> rfl
  | _ =>
    refine ⟨fun _ => ⟨_, ?_, nofun, by cases color <;> rfl⟩, fun h => absurd ?_ h⟩
    · rfl
    · cases fail <;> cases found <;> rfl

/-! ## Colours -/

theorem painted_label {k : Str} (h : IsColour k) (t x : Str) : Painted (k ++ t ++ colorReset true ++ x) (t ++ x) :=
  (Painted.one h t).append (Painted.same x)

theorem painted_visit (o : Options) (e : FtsEnt) : Painted (visitText true o e) (visitText false o e) := by
  have hp : Painted (passText true o e) (passText false o e) := by
    unfold passText
    refine Painted.append ?_ (Painted.same _)
    split
    · split
      · exact Painted.same _
      · have := painted_label colour_note cs!"Note" (cs!": Skipping " ++ e.path ++ cs!" which is not a policy file\n")
        simp only [List.append_assoc] at this ⊢
        exact this
    · exact .nil
  unfold visitText
  repeat' split
  all_goals first | exact .nil | exact hp

mutual
theorem painted_walk (o : Options) (path name parent : Str) : ∀ (fs : Fs) (s s' : Scan × Str), s.1 = s'.1 →
    Painted s.2 s'.2 → Painted (ftsWalk (visitTold true o) path name parent fs s).2
      (ftsWalk (visitTold false o) path name parent fs s').2
  | .file, s, s', _, hp => by
    simp only [ftsWalk, visitTold]
    exact hp.append (painted_visit o _)
  | .dir es, s, s', h, hp => by
    by_cases hk : (visitMain o ⟨path, name, parent, .d⟩ s'.1).2 = true
    · simp only [ftsWalk, visitTold, h, hk, if_true]
      exact (hp.append (painted_visit o _)).append (painted_visit o _)
    · simp only [ftsWalk, visitTold, h, hk, if_false, Bool.false_eq_true]
      refine Painted.append (painted_walks o path name es _ _ ?_ ?_) (painted_visit o _)
      · rfl
      · exact hp.append (painted_visit o _)
theorem painted_walks (o : Options) (path name : Str) : ∀ (es : FsList) (s s' : Scan × Str), s.1 = s'.1 →
    Painted s.2 s'.2 → Painted (ftsWalkList (visitTold true o) path name es s).2
      (ftsWalkList (visitTold false o) path name es s').2
  | .nil, s, s', _, hp => by simp only [ftsWalkList]; exact hp
  | .cons n fs rest, s, s', h, hp => by
    simp only [ftsWalkList]
    refine painted_walks o path name rest _ _ ?_ (painted_walk o _ _ _ fs _ _ h hp)
    rw [told_walk, told_walk, h]
end

/-- **C106 (colours, the scan).** -/
theorem C106_colours_scan (o : Options) (roots : List (Str × Fs)) (s : Scan) :
    Painted (scanTold true o roots s).2 (scanTold false o roots s).2 := by
  unfold scanTold
  generalize (roots.flatMap fun r => ifVerbose o.verbose (cs!"Path added to scan: '" ++ r.1 ++ cs!"'\n")) = t
  suffices h : ∀ s s' : Scan × Str, s.1 = s'.1 → Painted s.2 s'.2 →
      Painted (roots.foldl (fun s r => ftsWalk (visitTold true o) r.1 (baseName r.1) [] r.2 s) s).2
        (roots.foldl (fun s r => ftsWalk (visitTold false o) r.1 (baseName r.1) [] r.2 s) s').2 from
    h _ _ rfl (Painted.same t)
  induction roots with
  | nil => intro s s' _ h; exact h
  | cons r rs ih =>
    intro s s' h hp
    simp only [List.foldl_cons]
    refine ih _ _ ?_ (painted_walk o _ _ _ r.2 _ _ h hp)
    rw [told_walk, told_walk, h]

theorem painted_support {verbose : Bool} {missing failed loaded : Str} {path : Option Str}
    {result : Str → Res SelintError} {said said' : SelintError → Str} (hs : ∀ r, Painted (said r) (said' r)) :
    PaintedRes (supportText true verbose missing failed loaded path result said)
      (supportText false verbose missing failed loaded path result said') := by
  unfold supportText
  cases path with
  | none =>
    have := painted_label colour_warning cs!"Warning" (cs!": Failed to locate " ++ missing ++ cs!" file.\n")
    simp only [List.append_assoc] at this ⊢
    exact this
  | some p =>
    show PaintedRes ((result p).bind _) ((result p).bind _)
    cases result p with
    | ub => exact trivial
    | ok r =>
      refine (hs r).append ?_
      split
      · have := painted_label colour_warning cs!"Warning" (cs!": Failed to " ++ failed ++ cs!" from " ++ p ++
          cs!": " ++ natToStr r.number ++ cs!"\n")
        simp only [List.append_assoc] at this ⊢
        exact this
      · exact Painted.same _

/-- **C106 (colours, support files).** If it holds of what the parser prints (C104). -/
theorem C106_colours_support (w : Machine) (reason : Str → Str) {parser parser' : Str → Str}
    (hp : ∀ p, Painted (parser p) (parser' p)) (o : Options) (s : Scan) :
    PaintedRes (supportTexts w true reason parser o s) (supportTexts w false reason parser' o s) := by
  unfold supportTexts
  split
  · refine PaintedRes.bind (painted_support fun r => ?_) fun a a' ha => ?_
    · unfold vectorsText
      refine Painted.append (Painted.same _) ?_
      split
      · have := painted_label colour_error cs!"Error" (cs!": Failed to open " ++ s.accessVectors.getD [] ++ cs!": " ++
          reason (s.accessVectors.getD []) ++ cs!"\n")
        simp only [List.append_assoc] at this ⊢
        exact this
      · exact hp _
      · exact .nil
    cases ifFound s.accessVectors (loadSupportFile w .avFile) s.maps with
    | ub => exact trivial
    | ok m =>
      refine PaintedRes.bind (painted_support fun _ => .nil) fun b b' hb => ?_
      cases ifFound s.modulesConf (loadModules w) m with
      | ub => exact trivial
      | ok m =>
        refine PaintedRes.bind (painted_support fun _ => ?_) fun c c' hc => ?_
        · split
          · exact hp _
          · exact .nil
        exact (ha.append hb).append hc
  · show Painted (kernelText true w.kernel) (kernelText false w.kernel)
    unfold kernelText
    split
    · exact .nil
    · exact painted_label colour_note cs!"Note" _
    · exact painted_label colour_warning cs!"Warning" _

/-- **C106 (colours, the end).** -/
theorem C106_colours_end (summary : Bool) (sorted : List (CheckNode CheckFn)) (r : Option SelintError) :
    Painted (endText true summary sorted r) (endText false summary sorted r) := by
  unfold endText
  split
  · exact painted_label colour_error cs!"Error" _
  · split
    · exact C104_summary sorted
    · exact .nil
  · exact painted_label colour_error cs!"Error" _
  · rename_i r _ _
    have := painted_label colour_error cs!"Error" (cs!": Internal error: " ++ natToStr r.number ++ cs!"\n")
    simp only [List.append_assoc] at this ⊢
    exact this

/-! ## Examples -/

/-- A directory with a policy, next to a file that is none. -/
def mixedRoots : List (Str × Fs) :=
  [(cs!"a.te", .file), (cs!"README", .file), (cs!"policy", .dir (.cons cs!"b.te" .file .nil))]

example : (scanTold false {} mixedRoots {}).2 =
    cs!"Note: Skipping README which is not a policy file\nNote: Skipping policy which is not a policy file\n" ∧
    ∀ r ∈ mixedRoots, r.2 ≠ .file → PlainDir false r.1 (baseName r.1) := by
  refine ⟨by decide +kernel, fun r hr _ => ?_⟩
  simp only [mixedRoots, List.mem_cons, List.not_mem_nil, or_false] at hr
  rcases hr with rfl | rfl | rfl
  · contradiction
  · contradiction
  · decide +kernel

example : (scanTold false { recursiveScan := true } mixedRoots {}).2 = [] := by decide +kernel

/-- A machine with nothing on it but a class directory that has no permissions. -/
def emptyMachine : Machine where
  config := bareWorld
  fs _ := .file
  text p := if p = cs!"flask/access_vectors" then some cs!"class file {" else none
  fcLines _ := none
  confLines _ := none
  kernel := some (.dir (.cons cs!"file" (.dir (.cons cs!"index" .file .nil)) .nil))
  devel := none
  broken _ _ m := m

example : supportTexts emptyMachine false (fun _ => []) (fun _ => cs!"syntax error\n") { sourceFlag := true }
    { accessVectors := some cs!"flask/access_vectors", objPermSets := some cs!"obj_perm_sets.spt" } =
    .ok (cs!"syntax error\nWarning: Failed to parse access_vectors from flask/access_vectors: 6\n" ++
      cs!"Warning: Failed to locate modules.conf file.\n" ++
      cs!"Warning: Failed to permission and class set macros from obj_perm_sets.spt: 9\n") := by decide +kernel

example : supportTexts emptyMachine false (fun _ => []) (fun _ => []) {} {} =
    .ok cs!"Warning: Failed to load classes and perms from current kernel.\n" := by decide +kernel

example : ¬ HasPerm cs!"class" (.dir (.cons cs!"file" (.dir (.cons cs!"index" .file .nil)) .nil)) ∧
    HasPerm cs!"class" (.dir (.cons cs!"file" (.dir (.cons cs!"perms" (.dir (.cons cs!"read" .file .nil)) .nil)) .nil)) := by
  simp [HasPerm, HasPermIn]

example : endText false true [] (some .parseError) = cs!"Error: Failed to parse files\n" ∧
    exitStatus false ⟨.parseError, true⟩ = 70 := by decide +kernel

end Selint
