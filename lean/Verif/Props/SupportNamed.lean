import Verif.Props.SpokenText
import Verif.Props.CommandLine
/-!
# C109: permission sets that cannot be parsed
-/

namespace Selint

open Spec

mutual
theorem ftsWalk_named {σ : Type} {visit : FtsEnt → σ → σ × Bool} {P : σ → Prop}
    (hv : ∀ e s, e.name <:+ e.path → P s → P (visit e s).1) (path name parent : Str) (hn : name <:+ path) :
    (fs : Fs) → (s : σ) → P s → P (ftsWalk visit path name parent fs s)
  | .file, s, h => by unfold ftsWalk; exact hv _ _ hn h
  | .dir es, s, h => by
    unfold ftsWalk
    refine hv _ _ hn ?_
    split
    · exact hv _ _ hn h
    · exact ftsWalkList_named hv path name es _ (hv _ _ hn h)
theorem ftsWalkList_named {σ : Type} {visit : FtsEnt → σ → σ × Bool} {P : σ → Prop}
    (hv : ∀ e s, e.name <:+ e.path → P s → P (visit e s).1) (dp dn : Str) :
    (l : FsList) → (s : σ) → P s → P (ftsWalkList visit dp dn l s)
  | .nil, s, h => by unfold ftsWalkList; exact h
  | .cons n fs rest, s, h => by
    unfold ftsWalkList
    refine ftsWalkList_named hv dp dn rest _ (ftsWalk_named hv _ _ _ ?_ fs s h)
    unfold joinPath
    split
    · exact List.suffix_append _ _
    · exact ⟨dp ++ ['/'], by simp⟩
end

theorem baseName_suffix (path : Str) : baseName path <:+ path := by
  by_cases h : path = cs!"/"
  · subst h; exact ⟨[], rfl⟩
  · rcases (C47_root_name path h).2 with h1 | ⟨d, h1⟩
    · exact ⟨[], h1.symm⟩
    · exact ⟨d ++ cs!"/", h1.symm⟩

/-- The two support files that are parsed are called so. -/
def SupportCalled (s : Scan) : Prop :=
  (∀ p, s.accessVectors = some p → cs!"access_vectors" <:+ p) ∧ (∀ p, s.objPermSets = some p → cs!"obj_perm_sets.spt" <:+ p)

theorem visitMain_called (o : Options) (e : FtsEnt) (s : Scan) (hn : e.name <:+ e.path) (h : SupportCalled s) :
    SupportCalled (visitMain o e s).1 := by
  unfold visitMain
  split
  · exact h
  split
  · exact h
  split
  · exact h
  split
  · exact h
  split
  · rename_i hc
    simp only [Bool.and_eq_true, decide_eq_true_eq, strcmp_eq_zero] at hc
    exact ⟨h.1, fun p hp => by cases hp; rw [← hc.2]; exact hn⟩
  split
  · rename_i hc
    simp only [Bool.and_eq_true, decide_eq_true_eq, strcmp_eq_zero] at hc
    exact ⟨fun p hp => by cases hp; rw [← hc.2]; exact hn, h.2⟩
  · exact h

theorem visitContext_called (o : Options) (e : FtsEnt) (s : Scan) (hn : e.name <:+ e.path) (h : SupportCalled s) :
    SupportCalled (visitContext o e s) := by
  unfold visitContext
  split
  · split <;> exact h
  split
  · split <;> exact h
  split
  · exact h
  split
  · rename_i hc
    simp only [Bool.and_eq_true, decide_eq_true_eq, strcmp_eq_zero] at hc
    exact ⟨h.1, fun p hp => by cases hp; rw [← hc.2]; exact hn⟩
  split
  · rename_i hc
    simp only [Bool.and_eq_true, decide_eq_true_eq, strcmp_eq_zero] at hc
    exact ⟨fun p hp => by cases hp; rw [← hc.2]; exact hn, h.2⟩
  · exact h

theorem collect_called (w : Machine) (st : Settings) (paths : List Str) : SupportCalled (collect w st paths) := by
  have h1 : ∀ (roots : List (Str × Fs)) (s : Scan), SupportCalled s → SupportCalled (scanMain st.opts roots s) := by
    intro roots
    unfold scanMain
    induction roots with
    | nil => exact fun s h => h
    | cons r rs ih => exact fun s h => ih _ (ftsWalk_named (visitMain_called st.opts) _ _ _ (baseName_suffix _) _ _ h)
  have h2 : ∀ (roots : List (Str × Fs)) (s : Scan), SupportCalled s → SupportCalled (scanContext st.opts roots s) := by
    intro roots
    unfold scanContext
    induction roots with
    | nil => exact fun s h => h
    | cons r rs ih =>
      exact fun s h => ih _ (ftsWalk_named (fun e s => visitContext_called st.opts e s) _ _ _ (baseName_suffix _) _ _ h)
  exact h2 _ _ (h1 _ _ ⟨fun p hp => (by cases hp), fun p hp => (by cases hp)⟩)

/-- **C109 (support files).** The two support files that are parsed are never the same. -/
theorem C109_apart {w : Machine} {st : Settings} {paths : List Str} {p q : Str}
    (hp : (collect w st paths).accessVectors = some p) (hq : (collect w st paths).objPermSets = some q) : p ≠ q := by
  rintro rfl
  have h := collect_called w st paths
  obtain ⟨a, ha⟩ := h.1 _ hp
  obtain ⟨b, hb⟩ := h.2 _ hq
  have := congrArg List.getLast? (ha.trans hb.symm)
  simp [List.getLast?_append] at this

/-- **C109 (permission sets).** In source mode an obj_perm_sets.spt that cannot be parsed is named in a finding F-001, which is
followed by a warning. -/
theorem C109_perm_sets {version : Str} {w : Machine} {y : Speaking} {sort : Checks CheckFn → List (CheckNode CheckFn)}
    {tty : Bool} {args : List Opt} {paths : List Str} {t : Str} {st : Settings} {p : Str} {m m' : Maps}
    (ht : spokenText version w y sort tty args paths = .ok t) (hu : startUp w.config args paths.length = .go st)
    (hfew : FewLines (w.sources [])) (hsrc : st.opts.sourceFlag = true) (hp : (collect w st paths).objPermSets = some p)
    (hm : ifFound (collect w st paths).accessVectors (loadSupportFile w .avFile) (collect w st paths).maps = .ok m)
    (hm' : ifFound (collect w st paths).modulesConf (loadModules w) m = .ok m')
    (he : supportResult w .sptFile p m' = .ok .parseError) :
    ∃ before line msg more after, t = before ++ formatFinding (colorOn tty st.opts) ⟨p, line, ⟨'F', 1, msg⟩⟩ ++ more ++
      (Label.warning.shown (colorOn tty st.opts) ++ cs!": Failed to permission and class set macros from " ++ p ++ cs!": " ++
        natToStr (SelintError.number .parseError) ++ cs!"\n") ++ after := by
  unfold spokenText at ht
  rw [hu] at ht
  obtain ⟨_, -, ht⟩ := Res.bind_eq_ok ht
  obtain ⟨v, hv, ht⟩ := Res.bind_eq_ok ht
  obtain ⟨s, hs, ht⟩ := Res.bind_eq_ok ht
  obtain ⟨u, hu', ht⟩ := Res.bind_eq_ok ht
  have hsaid : permSetsSaid (y.under (colorOn tty st.opts) st) w st.opts (collect w st paths) =
      supportParserText (y.under (colorOn tty st.opts) st) w .sptFile p m' := by
    simp only [permSetsSaid, hsrc, hp, hm, hm', Res.bind_ok]
  obtain ⟨line, msg, more, hmsg⟩ := (C109_support (y.under (colorOn tty st.opts) st) hfew he).2 rfl v (by rw [← hsaid, hv])
  unfold mainText at ht
  obtain ⟨start, -, ht⟩ := Res.bind_eq_ok ht
  rw [hu] at ht
  obtain ⟨rest, hr, ht⟩ := Res.bind_eq_ok ht
  unfold filesText at hr
  obtain ⟨sup, hsup, hr⟩ := Res.bind_eq_ok hr
  obtain ⟨s', -, hr⟩ := Res.bind_eq_ok hr
  have hmid : ∃ tail, rest = (scanTold (colorOn tty st.opts) st.opts (paths.map fun p => (p, w.fs p)) { maps := st.maps }).2 ++
      (sup ++ tail) := by
    split at hr
    · cases hr
      simp only [List.append_assoc]
      exact ⟨_, rfl⟩
    · obtain ⟨er, -, hr⟩ := Res.bind_eq_ok hr
      cases hr
      simp only [List.append_assoc]
      exact ⟨_, rfl⟩
  obtain ⟨tail, rfl⟩ := hmid
  cases ht
  unfold supportTexts at hsup
  rw [if_pos hsrc] at hsup
  obtain ⟨a, -, hsup⟩ := Res.bind_eq_ok hsup
  rw [hm, Res.bind_ok] at hsup
  obtain ⟨b, -, hsup⟩ := Res.bind_eq_ok hsup
  rw [hm', Res.bind_ok] at hsup
  obtain ⟨c, hc, hsup⟩ := Res.bind_eq_ok hsup
  cases hsup
  simp only [supportText, hp, he, Res.bind_ok, Option.getD_some, Res.ok.injEq] at hc
  subst hc
  refine ⟨start ++ (scanTold (colorOn tty st.opts) st.opts (paths.map fun p => (p, w.fs p)) { maps := st.maps }).2 ++ (a ++ b),
    line, msg, more, tail, ?_⟩
  have hx : (spokenPrinting y sort w st (collect w st paths)).support (colorOn tty st.opts) p =
      formatFinding (colorOn tty st.opts) ⟨p, line, ⟨'F', 1, msg⟩⟩ ++ more := by
    have hne : (collect w st paths).accessVectors ≠ some p := fun h => C109_apart h hp rfl
    simp only [spokenPrinting, if_neg hne, hv, Res.orNil]
    exact hmsg
  have hlab : Label.warning.shown (colorOn tty st.opts) =
      colorWarning (colorOn tty st.opts) ++ cs!"Warning" ++ colorReset (colorOn tty st.opts) := by
    cases colorOn tty st.opts <;> rfl
  simp only [hx, hlab]
  simp [List.append_assoc]

/-! ## Example -/

/-- A machine whose obj_perm_sets.spt cannot be parsed. -/
def brokenPermSets : Machine :=
  { exPerms with text := fun name => if name = cs!"mod/obj_perm_sets.spt" then some cs!"define(`r_dir_perms')\n" else exPerms.text name }

set_option synthInstance.maxSize 1000 in
example : spokenText cs!"1" brokenPermSets (exSpeaking false) (fun ck => flatNodes ck) false
      [.recursive, .source, .onlyEnabled, .enable cs!"S-003"] [cs!"mod"] =
    .ok (cs!"mod/obj_perm_sets.spt:1: (F): syntax error, unexpected CLOSE_PAREN, expecting COMMA (F-001)\n" ++
      cs!"    1 | define(`r_dir_perms')\n" ++
      cs!"      |                    ^\n" ++
      cs!"Warning: Failed to permission and class set macros from mod/obj_perm_sets.spt: 6\n") := by
  decide +kernel

end Selint
