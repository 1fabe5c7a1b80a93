import Verif.Props.MainText
/-! # C108: `-v` only adds progress messages -/

namespace Selint

open Spec

/-- The same settings with progress messages. -/
def Settings.loud (st : Settings) : Settings := { st with opts := { st.opts with verbose := true } }

theorem parseOpts_insert : ∀ (a b : List Opt) (o : Options),
    parseOpts o (a ++ .verbose :: b) = match parseOpts o (a ++ b) with
      | .exit s => .exit s
      | .go o' => .go { o' with verbose := true }
  | [], b, o => parseOpts_verbose b o
  | x :: xs, b, o => by
    simp only [List.cons_append]
    unfold parseOpts
    cases optStep o x with
    | exit s => rfl
    | go o' => exact parseOpts_insert xs b o'

theorem optsText_insert (version : Str) : ∀ (a b : List Opt) (o : Options),
    optsText version o (a ++ .verbose :: b) = optsText version o (a ++ b)
  | [], b, o => optsText_verbose version b o
  | x :: xs, b, o => by
    simp only [List.cons_append]
    unfold optsText
    cases optStep o x with
    | exit s => rfl
    | go o' => simp only [optsText_insert version xs b o']

theorem settings_verbose (w : ConfigWorld) (o : Options) (n : Nat) :
    settings w { o with verbose := true } n = match settings w o n with
      | .exit s => .exit s
      | .go st => .go st.loud := by
  have hc : chooseConfig w { o with verbose := true } = chooseConfig w o := rfl
  unfold settings
  rw [hc]
  cases chooseConfig w o with
  | exit s => rfl
  | go cf =>
    cases cf with
    | none =>
      dsimp only
      by_cases h1 : (o.onlyEnabled && o.clEnabled.isEmpty) = true
      · simp only [h1, if_true]
      by_cases h2 : n = 0
      · simp only [h1, h2, if_true, Bool.false_eq_true, if_false]
      simp only [h1, h2, Bool.false_eq_true, if_false, Settings.loud]
    | some f =>
      dsimp only
      cases w.contents f with
      | none => rfl
      | some cfg =>
        dsimp only
        cases parseConfig cfg o.sourceFlag {} with
        | none => rfl
        | some p =>
          dsimp only
          by_cases h1 : (o.onlyEnabled && o.clEnabled.isEmpty) = true
          · simp only [h1, if_true]
          by_cases h2 : n = 0
          · simp only [h1, h2, if_true, Bool.false_eq_true, if_false]
          simp only [h1, h2, Bool.false_eq_true, if_false, Settings.loud]

theorem startUp_insert (w : ConfigWorld) (a b : List Opt) (n : Nat) :
    startUp w (a ++ .verbose :: b) n = match startUp w (a ++ b) n with
      | .exit s => .exit s
      | .go st => .go st.loud := by
  unfold startUp
  rw [parseOpts_insert]
  cases parseOpts {} (a ++ b) with
  | exit s => rfl
  | go o => exact settings_verbose w o n

theorem mainWith_loud (w : Machine) (st : Settings) (paths warned : List Str) :
    mainWith w st.loud paths warned = mainWith w st paths warned := rfl

/-- **C108 (result).** `-v`, anywhere among the options, changes neither the exit status nor the findings, the summary
or the ids that are warned about. -/
theorem C108_result (w : Machine) (a b : List Opt) (paths : List Str) :
    selintMain w (a ++ .verbose :: b) paths = selintMain w (a ++ b) paths := by
  unfold selintMain
  rw [parseOpts_insert]
  cases parseOpts {} (a ++ b) with
  | exit s => rfl
  | go o =>
    have hc : configIds w.config { o with verbose := true } = configIds w.config o := rfl
    dsimp only
    rw [settings_verbose, hc]
    cases settings w.config o paths.length with
    | exit s => rfl
    | go st => rfl

/-! ## The text -/

theorem startText_insert (version : Str) (w : ConfigWorld) (tty : Bool) (a b : List Opt) (n : Nat) :
    startText version w tty (a ++ .verbose :: b) n = startText version w tty (.verbose :: (a ++ b)) n := by
  have h := parseOpts_insert [] (a ++ b) {}
  have k := optsText_insert version [] (a ++ b) {}
  simp only [List.nil_append] at h k
  unfold startText
  rw [parseOpts_insert, optsText_insert, h, k]

theorem passText_more (color : Bool) (o : Options) (e : FtsEnt) :
    (passText color o e).Sublist (passText color { o with verbose := true } e) := by
  unfold passText
  refine List.Sublist.append ?_ ?_ <;> dsimp only <;> repeat' split
  all_goals first | exact ifVerbose_more _ _ | exact List.Sublist.refl _

theorem visitText_more (color : Bool) (o : Options) (e : FtsEnt) :
    (visitText color o e).Sublist (visitText color { o with verbose := true } e) := by
  unfold visitText
  repeat' split
  all_goals first | exact passText_more _ _ _ | exact List.Sublist.refl _

mutual
theorem walk_more (color : Bool) (o : Options) (path name parent : Str) : ∀ (fs : Fs) (s : Scan) (t t' : Str),
    t.Sublist t' →
    (ftsWalk (visitTold color o) path name parent fs (s, t)).1 =
        (ftsWalk (visitTold color { o with verbose := true }) path name parent fs (s, t')).1 ∧
      (ftsWalk (visitTold color o) path name parent fs (s, t)).2.Sublist
        (ftsWalk (visitTold color { o with verbose := true }) path name parent fs (s, t')).2
  | .file, s, t, t', h => by
    simp only [ftsWalk, visitTold]
    exact ⟨rfl, h.append (visitText_more _ _ _)⟩
  | .dir es, s, t, t', h => by
    have hv : ∀ e s, visitMain { o with verbose := true } e s = visitMain o e s := fun _ _ => rfl
    by_cases hk : (visitMain o ⟨path, name, parent, .d⟩ s).2 = true
    · simp only [ftsWalk, visitTold, hv, hk, if_true]
      exact ⟨trivial, (h.append (visitText_more _ _ _)).append (visitText_more _ _ _)⟩
    · simp only [ftsWalk, visitTold, hv, hk, if_false, Bool.false_eq_true]
      have := walks_more color o path name es (visitMain o ⟨path, name, parent, .d⟩ s).1 _ _
        (h.append (visitText_more color o ⟨path, name, parent, .d⟩))
      exact ⟨by rw [this.1], this.2.append (visitText_more _ _ _)⟩
theorem walks_more (color : Bool) (o : Options) (path name : Str) : ∀ (es : FsList) (s : Scan) (t t' : Str),
    t.Sublist t' →
    (ftsWalkList (visitTold color o) path name es (s, t)).1 =
        (ftsWalkList (visitTold color { o with verbose := true }) path name es (s, t')).1 ∧
      (ftsWalkList (visitTold color o) path name es (s, t)).2.Sublist
        (ftsWalkList (visitTold color { o with verbose := true }) path name es (s, t')).2
  | .nil, s, t, t', h => by simp only [ftsWalkList]; exact ⟨trivial, h⟩
  | .cons n fs rest, s, t, t', h => by
    simp only [ftsWalkList]
    have h1 := walk_more color o (joinPath path n) n name fs s t t' h
    have h2 := walks_more color o path name rest
      (ftsWalk (visitTold color { o with verbose := true }) (joinPath path n) n name fs (s, t')).1 _ _ h1.2
    rw [show ftsWalk (visitTold color o) (joinPath path n) n name fs (s, t) =
      ((ftsWalk (visitTold color { o with verbose := true }) (joinPath path n) n name fs (s, t')).1,
       (ftsWalk (visitTold color o) (joinPath path n) n name fs (s, t)).2) from Prod.ext h1.1 rfl]
    exact h2
end

theorem scanTold_more (color : Bool) (o : Options) (roots : List (Str × Fs)) (s : Scan) :
    (scanTold color o roots s).2.Sublist (scanTold color { o with verbose := true } roots s).2 := by
  unfold scanTold
  have ht : (roots.flatMap fun r => ifVerbose o.verbose (cs!"Path added to scan: '" ++ r.1 ++ cs!"'\n")).Sublist
      (roots.flatMap fun r => ifVerbose true (cs!"Path added to scan: '" ++ r.1 ++ cs!"'\n")) := by
    induction roots with
    | nil => exact List.Sublist.refl _
    | cons r rs ih => simp only [List.flatMap_cons]; exact (ifVerbose_more _ _).append ih
  revert ht
  dsimp only
  generalize (roots.flatMap fun r => ifVerbose o.verbose (cs!"Path added to scan: '" ++ r.1 ++ cs!"'\n")) = t
  generalize (roots.flatMap fun r => ifVerbose true (cs!"Path added to scan: '" ++ r.1 ++ cs!"'\n")) = t'
  intro ht
  induction roots generalizing s t t' with
  | nil => exact ht
  | cons r rs ih =>
    simp only [List.foldl_cons]
    have h1 := walk_more color o r.1 (baseName r.1) [] r.2 s t t' ht
    have h2 := ih (ftsWalk (visitTold color { o with verbose := true }) r.1 (baseName r.1) [] r.2 (s, t')).1 _ _ h1.2
    rw [show ftsWalk (visitTold color o) r.1 (baseName r.1) [] r.2 (s, t) =
      ((ftsWalk (visitTold color { o with verbose := true }) r.1 (baseName r.1) [] r.2 (s, t')).1,
       (ftsWalk (visitTold color o) r.1 (baseName r.1) [] r.2 (s, t)).2) from Prod.ext h1.1 rfl]
    exact h2

theorem supportText_more (color v : Bool) (a b c : Str) (path : Option Str) (result : Str → Res SelintError)
    (said said' : SelintError → Str) (h : ∀ r, (said r).Sublist (said' r)) :
    MoreRes (supportText color v a b c path result said) (supportText color true a b c path result said') := by
  unfold supportText
  cases path with
  | none => exact List.Sublist.refl _
  | some p =>
    dsimp only
    cases result p with
    | ub => trivial
    | ok r =>
      refine (h r).append ?_
      split
      · exact List.Sublist.refl _
      · exact ifVerbose_more _ _

theorem vectorsText_more (color v : Bool) (reason p p' : Str → Str) (hp : ∀ f, (p f).Sublist (p' f)) (path : Str)
    (r : SelintError) : (vectorsText color v reason p path r).Sublist (vectorsText color true reason p' path r) := by
  unfold vectorsText
  refine (ifVerbose_more _ _).append ?_
  cases r <;> first | exact hp _ | exact List.Sublist.refl _

theorem MoreRes.skip {α : Type} (x : Res α) {f g : α → Res Str} (hf : ∀ a, MoreRes (f a) (g a)) :
    MoreRes (x >>= f) (x >>= g) := by
  cases x with
  | ub => trivial
  | ok a => exact hf a

theorem supportTexts_more (w : Machine) (color : Bool) (reason p p' : Str → Str) (hp : ∀ f, (p f).Sublist (p' f))
    (o : Options) (s : Scan) :
    MoreRes (supportTexts w color reason p o s) (supportTexts w color reason p' { o with verbose := true } s) := by
  unfold supportTexts
  dsimp only
  by_cases h : o.sourceFlag = true
  · simp only [h, if_true]
    refine MoreRes.bind (supportText_more _ _ _ _ _ _ _ _ _ fun r => vectorsText_more _ _ _ _ _ hp _ _) fun a a' ha => ?_
    refine MoreRes.skip _ fun m => ?_
    refine MoreRes.bind (supportText_more _ _ _ _ _ _ _ _ _ fun r => List.Sublist.refl _) fun b b' hb => ?_
    refine MoreRes.skip _ fun m => ?_
    refine MoreRes.bind (supportText_more _ _ _ _ _ _ _ _ _ fun r => ?_) fun c c' hc => (ha.append hb).append hc
    split
    · exact hp _
    · exact List.Sublist.refl _
  · simp only [h, Bool.false_eq_true, if_false]
    exact MoreRes.same _

/-- **C108 (text).** With `-v`, anywhere among the options, all that is printed without it is printed as well, in the same
order. What is printed while files are parsed is a parameter; all that is asked of it is the same. -/
theorem C108_text (version : Str) (w : Machine) (x x' : Printing) (tty : Bool) (a b : List Opt) (paths : List Str)
    (hr : x'.reason = x.reason) (hq : x'.sort = x.sort)
    (hs : ∀ c f, (x.support c f).Sublist (x'.support c f)) (hp : ∀ c s, (x.parsing c s).Sublist (x'.parsing c s)) :
    MoreRes (mainText version w x tty (a ++ b) paths) (mainText version w x' tty (a ++ .verbose :: b) paths) := by
  unfold mainText
  rw [startText_insert, startUp_insert]
  refine MoreRes.bind (C105_verbose version w.config tty (a ++ b) paths.length) fun t t' ht => ?_
  cases startUp w.config (a ++ b) paths.length with
  | exit s => exact ht
  | go st =>
    refine MoreRes.bind ?_ fun u u' hu => ht.append hu
    show MoreRes (filesText w x (colorOn tty st.opts) st paths) (filesText w x' (colorOn tty st.opts) st.loud paths)
    generalize colorOn tty st.opts = color
    unfold filesText
    rw [hr, hq]
    refine MoreRes.bind (supportTexts_more w color x.reason _ _ (hs color) st.opts (collect w st paths)) fun u u' hu => ?_
    have hscan := scanTold_more color st.opts (paths.map fun p => (p, w.fs p)) { maps := st.maps }
    refine MoreRes.skip (loadSupport w st.opts (collect w st paths)) fun s => ?_
    show MoreRes (match registerChecks st.severity st.enableConf s.maps with | none => _ | some ck => _)
      (match registerChecks st.severity st.enableConf s.maps with | none => _ | some ck => _)
    cases registerChecks st.severity st.enableConf s.maps with
    | none => exact ((hscan.append hu).append (List.Sublist.refl _)).append (List.Sublist.refl _)
    | some ck =>
      refine MoreRes.skip (analyse w st s ck) fun er => ?_
      obtain ⟨e, r⟩ := er
      exact ((((hscan.append hu).append (List.Sublist.refl _)).append (hp color s)).append (List.Sublist.refl _)).append
        (List.Sublist.refl _)

/-! ## Example -/

set_option synthInstance.maxSize 1000 in
/-- The run with findings and a summary, with `-v` between the other options. -/
example : mainText cs!"1" exPerms quietParsers false ([.recursive] ++ .verbose :: [.source, .summary]) [cs!"mod"] =
    .ok (cs!"Verbose mode enabled\nSource mode enabled\n" ++
      cs!"No config specified and could not find default config at /etc/selint.conf.\nSeverity level set to C\n" ++
      cs!"Path added to scan: 'mod'\nSkipping mod which is not a policy file\n" ++
      cs!"Parsing access_vector file mod/access_vectors\n" ++
      cs!"Loaded classes and permissions from mod/access_vectors\nLoaded modules from mod/modules.conf\n" ++
      cs!"Loaded permission and class set macros from mod/obj_perm_sets.spt\n" ++
      cs!"foo.te:               2: (C): Permissions in av rule not ordered (read before r_dir_perms) (C-005)\n" ++
      cs!"foo.te:               2: (E): Unknown permission puppet used (E-007)\n" ++
      cs!"Found the following issue counts:\nC-005: 1\nE-007: 1\n") := by
  decide +kernel

end Selint
