import Verif.Model.StartText
import Verif.Spec.StartText
import Verif.Props.Config
import Verif.Props.Main
import Verif.Props.Colours
/-! # C105: what the program says before it looks at a file -/

namespace Selint

open Spec

/-! ## The configuration file -/

theorem not_named {α : Type} {s : Str} {l : List (Str × α)} {f : Str → Option α}
    (hf : ∀ s c, f s = some c ↔ (s, c) ∈ l) (h : f s = none) : s ∉ l.map (·.1) := by
  intro hm
  obtain ⟨⟨s', c⟩, hx, rfl⟩ := List.mem_map.1 hm
  rw [(hf _ _).2 hx] at h
  cases h

theorem flavor_inj {s t : Str} {f : DeclFlavor} (hs : parseReqFlavor s = some f) (ht : parseReqFlavor t = some f) :
    s = t := by
  have hs := (parseReqFlavor_iff _ _).1 hs
  have ht := (parseReqFlavor_iff _ _).1 ht
  simp only [flavorNames, List.mem_cons, Prod.mk.injEq, List.not_mem_nil, or_false] at hs ht
  rcases hs with ⟨rfl, rfl⟩ | ⟨rfl, rfl⟩ | ⟨rfl, rfl⟩ | ⟨rfl, rfl⟩ | ⟨rfl, rfl⟩ | ⟨rfl, rfl⟩ <;>
    rcases ht with ⟨rfl, h⟩ | ⟨rfl, h⟩ | ⟨rfl, h⟩ | ⟨rfl, h⟩ | ⟨rfl, h⟩ | ⟨rfl, h⟩ <;> first | rfl | cases h

theorem reqFlavors_refused (cfg : Cfg) : ∀ (l done : List Str) (acc : List DeclFlavor),
    done ++ l = cfg.orderingRequires → (∀ f ∈ acc, ∃ s ∈ done, parseReqFlavor s = some f) →
    parseReqFlavors acc l = none → Refusal cfg (reqFlavorsText acc l)
  | [], _, _, _, _, h => by simp [parseReqFlavors] at h
  | s :: l, done, acc, he, ha, h => by
    unfold parseReqFlavors at h
    unfold reqFlavorsText
    cases hs : parseReqFlavor s with
    | none =>
      exact Refusal.flavor (cfg := cfg) s (he ▸ by simp) (not_named parseReqFlavor_iff hs)
    | some f =>
      rw [hs] at h
      dsimp only at h ⊢
      split
      · rename_i hany
        obtain ⟨g, hg, hgf⟩ := List.any_eq_true.1 hany
        have hgf : g = f := by simpa using hgf
        subst hgf
        obtain ⟨t, ht, hpt⟩ := ha g hg
        have := flavor_inj hs hpt
        subst this
        refine .twice s ?_
        rw [← he, List.count_append, List.count_cons_self]
        have := List.count_pos_iff.2 ht
        omega
      · rename_i hany
        rw [if_neg hany] at h
        refine reqFlavors_refused cfg l (done ++ [s]) (acc ++ [f]) (by simp [he]) ?_ h
        intro g hg
        rcases List.mem_append.1 hg with hg | hg
        · obtain ⟨t, ht, hp⟩ := ha g hg
          exact ⟨t, List.mem_append_left _ ht, hp⟩
        · simp only [List.mem_singleton] at hg
          subst hg
          exact ⟨s, by simp, hs⟩

/-- **C105 (configuration).** A configuration is refused with a sentence that names a setting that is
wrong and its value; an accepted one is accepted silently. -/
theorem C105_config (cfg : Cfg) (source : Bool) (m : Maps) :
    (parseConfig cfg source m = none → Refusal cfg (cfgText cfg)) ∧
    (∀ p, parseConfig cfg source m = some p → cfgText cfg = []) := by
  unfold parseConfig cfgText
  cases h1 : parseSeverity cfg.severity with
  | none =>
    refine ⟨fun _ => ?_, by simp⟩
    exact Refusal.severity (cfg := cfg) (not_named parseSeverity_iff h1)
  | some sev =>
  dsimp only
  cases h2 : parseOrderConf cfg.orderingRules with
  | none =>
    refine ⟨fun _ => ?_, by simp⟩
    exact Refusal.ordering (cfg := cfg) (not_named parseOrderConf_iff h2)
  | some oc =>
  dsimp only
  split
  · rename_i h3
    exact ⟨fun _ => Refusal.amount h3, by simp⟩
  cases h4 : parseReqFlavors [] cfg.orderingRequires with
  | none => exact ⟨fun _ => reqFlavors_refused cfg _ [] [] rfl (by simp) h4, by simp⟩
  | some req =>
  dsimp only
  cases h5 : parseBool cfg.orderingRequiresSameFlavor with
  | none => exact ⟨fun _ => Refusal.same (not_named parseBool_iff h5), by simp⟩
  | some b =>
  dsimp only
  cases h6 : parseBool cfg.skipCheckingGeneratedFcs with
  | none => exact ⟨fun _ => Refusal.skip (not_named parseBool_iff h6), by simp⟩
  | some c => exact ⟨by simp, fun _ _ => rfl⟩

theorem parseConfig_lists {cfg : Cfg} {source : Bool} {m : Maps} {p : ParsedConfig}
    (h : parseConfig cfg source m = some p) :
    p.disabled = cfg.disable ∧ p.enabled = if source then cfg.enableSource else cfg.enableNormal := by
  unfold parseConfig at h
  dsimp only at h
  repeat' split at h
  all_goals first | (cases h; done) | (cases h; simp_all)

/-! ## The options -/

theorem optsText_go (version : Str) : ∀ (args : List Opt) (o o' : Options),
    parseOpts o args = .go o' → optsText version o args = []
  | [], _, _, _ => rfl
  | x :: xs, o, o', h => by
    unfold parseOpts at h
    unfold optsText
    cases hx : optStep o x with
    | exit s => rw [hx] at h; cases h
    | go o'' =>
      rw [hx] at h
      dsimp only at h ⊢
      rw [optsText_go version xs _ _ h, List.append_nil]
      cases x <;> simp only [optStep, optText, strcmp_eq_zero, reduceCtorEq] at hx ⊢ <;> grind

/-- What may end the option loop. -/
theorem optsText_exit (version : Str) (w : ConfigWorld) (color : Bool) (nPaths : Nat) (all : List Opt) :
    ∀ (args : List Opt) (o : Options) (s : Nat), (∀ x ∈ args, x ∈ all) → parseOpts o args = .exit s →
      Why version w color all nPaths s (optsText version o args)
  | [], _, _, _, h => by simp [parseOpts] at h
  | x :: xs, o, s, hm, h => by
    have hx : x ∈ all := hm x List.mem_cons_self
    have rest : ∀ o', parseOpts o' xs = .exit s → Why version w color all nPaths s (optsText version o' xs) :=
      fun o' => optsText_exit version w color nPaths all xs o' s fun y hy => hm y (List.mem_cons_of_mem _ hy)
    unfold parseOpts at h
    unfold optsText
    cases x with
    | help =>
      simp only [optStep, Flow.exit.injEq] at h
      subst h
      simp only [optText, optStep, List.append_nil]
      exact .help hx
    | version =>
      simp only [optStep, Flow.exit.injEq] at h
      subst h
      simp only [optText, optStep, List.append_nil]
      exact .version hx
    | unknown =>
      simp only [optStep, Flow.exit.injEq] at h
      subst h
      simp only [optText, optStep, List.append_nil]
      exact .unknown hx
    | color a =>
      simp only [optStep, optText, strcmp_eq_zero] at h ⊢
      by_cases h1 : a = cs!"on"
      · simp only [h1, if_true, List.nil_append] at h ⊢; exact rest _ h
      by_cases h2 : a = cs!"off"
      · simp only [h2, if_true, if_neg (show ¬ cs!"off" = cs!"on" by decide), List.nil_append] at h ⊢; exact rest _ h
      by_cases h3 : a = cs!"auto"
      · simp only [h3, if_true, if_neg (show ¬ cs!"auto" = cs!"on" by decide),
          if_neg (show ¬ cs!"auto" = cs!"off" by decide), List.nil_append] at h ⊢
        exact rest _ h
      simp only [if_neg h1, if_neg h2, if_neg h3, Flow.exit.injEq, List.append_nil] at h ⊢
      subst h
      exact .color a hx (by simp only [List.mem_cons, List.not_mem_nil, or_false, not_or]; exact ⟨h1, h2, h3⟩)
    | level a =>
      simp only [optStep, optText] at h ⊢
      by_cases h1 : isValidSeverity (firstChar a) = true
      · simp only [h1, if_true, List.nil_append] at h ⊢; exact rest _ h
      simp only [if_neg h1, Flow.exit.injEq, List.append_nil] at h ⊢
      subst h
      refine .level a hx fun c hc hh => h1 ?_
      cases a with
      | nil => cases hh
      | cons d a =>
        simp only [List.head?_cons, Option.some.injEq] at hh
        subst hh
        revert hc
        simp only [List.mem_cons, List.not_mem_nil, or_false]
        rintro (rfl | rfl | rfl | rfl | rfl) <;> rfl
    | _ => simp only [optStep, optText, List.nil_append] at h ⊢; exact rest _ h

theorem options_go {args : List Opt} {o : Options} (h : parseOpts {} args = .go o) : o = optionsOf args := by
  rw [C08_options] at h
  split at h
  · cases h
  · exact (Flow.go.inj h).symm

theorem colorOn_eq (args : List Opt) (tty : Bool) : colorOn tty (optionsOf args) = colours tty args := by
  have h : ∀ l : List Opt, l.filterMap (fun
      | .color a => some (if a = cs!"on" then 2 else if a = cs!"off" then 1 else 0)
      | _ => none) = (l.filterMap colorArg).map
        fun a => if a = cs!"on" then 2 else if a = cs!"off" then 1 else 0 := by
    intro l
    induction l with
    | nil => rfl
    | cons x l ih => cases x <;> simp only [List.filterMap_cons, List.map_cons, ih, colorArg]
  have e : (optionsOf args).color = (((args.filterMap colorArg).map
        fun a => if a = cs!"on" then 2 else if a = cs!"off" then 1 else 0).getLast?).getD 0 :=
    congrArg (fun l => (List.getLast? l).getD 0) (h args)
  simp only [colours, lastArg, colorOn, e, List.getLast?_map]
  generalize (args.filterMap colorArg).getLast? = l
  cases l with
  | none => simp
  | some a =>
    simp only [Option.map_some, Option.getD_some]
    split
    · simp
    · split <;> simp

/-! ## Warnings -/

theorem warnText_eq (color : Bool) (desc : Str) : ∀ {ids : List Str} {t : Str},
    warnText color desc ids = .ok t → t = warnings color (ids.map (·, desc))
  | [], t, h => by simp only [warnText, Res.ok.injEq] at h; subst h; rfl
  | id :: ids, t, h => by
    unfold warnText at h
    obtain ⟨v, hv, h⟩ := Res.bind_eq_ok h
    obtain ⟨r, hr, h⟩ := Res.bind_eq_ok h
    have ih := warnText_eq color desc hr
    simp only [Res.ok.injEq] at h
    subst h
    rw [ih]
    cases v
    · simp only [warnings, List.map_cons, List.filter_cons, hv, decide_true, if_true, List.flatMap_cons,
        Bool.false_eq_true, if_false]
      congr 1
      cases color <;> rfl
    · simp [warnings, hv]

theorem warnings_append (color : Bool) (a b : List (Str × Str)) :
    warnings color (a ++ b) = warnings color a ++ warnings color b := by
  simp [warnings]

theorem map_filterMap_desc (args : List Opt) (f : Opt → Option Str) (desc : Str) :
    (args.filterMap f).map (·, desc) = args.filterMap fun x => (f x).map (·, desc) := by
  rw [List.map_filterMap]

/-- The ids of the command line. -/
theorem switched_eq (w : ConfigWorld) (args : List Opt) :
    switched w args = ((optionsOf args).clDisabled.map (·, cs!"disabled on command line") ++
        (optionsOf args).clEnabled.map (·, cs!"enabled on command line")) ++
      ((configList w args (·.disable)).map (·, cs!"disabled in config") ++
        (configList w args fun cfg => if (optionsOf args).sourceFlag then cfg.enableSource else cfg.enableNormal).map
          (·, cs!"enabled in config")) := by
  unfold switched
  rw [← List.append_assoc]
  congr 2
  congr 1
  · simp only [optionsOf, List.map_filterMap]
    congr 1
    funext x
    cases x <;> rfl
  · simp only [optionsOf, List.map_filterMap]
    congr 1
    funext x
    cases x <;> rfl

theorem modesText_eq {color : Bool} {args : List Opt} {t : Str} (h : modesText color (optionsOf args) = .ok t) :
    ∃ v, t = v ++ warnings color ((optionsOf args).clDisabled.map (·, cs!"disabled on command line") ++
        (optionsOf args).clEnabled.map (·, cs!"enabled on command line")) ∧
      (Opt.verbose ∉ args → v = notes color args) := by
  unfold modesText at h
  obtain ⟨a, ha, h⟩ := Res.bind_eq_ok h
  obtain ⟨b, hb, h⟩ := Res.bind_eq_ok h
  simp only [Res.ok.injEq] at h
  subst h
  rw [warnText_eq _ _ ha, warnText_eq _ _ hb, warnings_append]
  refine ⟨_, by rw [List.append_assoc], fun hv => ?_⟩
  have hv' : (optionsOf args).verbose = false := by simpa [optionsOf] using hv
  simp only [hv', ifVerbose, Bool.false_eq_true, if_false, ite_self, List.nil_append, notes]
  have hr : (optionsOf args).recursiveScan = decide (Opt.recursive ∈ args) := rfl
  rw [hr]
  cases (optionsOf args).sourceFlag <;> by_cases hm : Opt.recursive ∈ args <;>
    simp only [hm, Bool.false_eq_true, if_false, if_true, decide_true, decide_false, not_true_eq_false,
      not_false_eq_true, and_self, and_false, false_and]
  cases color <;> rfl

theorem readyText_eq {color : Bool} {args : List Opt} {n : Nat} {p : Option ParsedConfig} {t : Str}
    (h : readyText color (optionsOf args) n p = .ok t) :
    ∃ v, t = warnings color ((p.elim [] (·.disabled)).map (·, cs!"disabled in config") ++
        (p.elim [] (·.enabled)).map (·, cs!"enabled in config")) ++ v ∧
      ((Opt.onlyEnabled ∈ args ∧ ∀ a, Opt.enable a ∉ args) → v = Label.error.shown color ++ cs!": no warning enabled!\n") ∧
      (¬ (Opt.onlyEnabled ∈ args ∧ ∀ a, Opt.enable a ∉ args) → n = 0 → ∃ v', v = v' ++ usageText ∧
        (Opt.verbose ∉ args → v' = [])) ∧
      (¬ (Opt.onlyEnabled ∈ args ∧ ∀ a, Opt.enable a ∉ args) → n ≠ 0 → Opt.verbose ∉ args → v = []) := by
  have hc : ((optionsOf args).onlyEnabled && (optionsOf args).clEnabled.isEmpty) = true ↔
      (Opt.onlyEnabled ∈ args ∧ ∀ a, Opt.enable a ∉ args) := by
    simp only [optionsOf, Bool.and_eq_true, decide_eq_true_eq, List.isEmpty_iff, List.filterMap_eq_nil_iff]
    refine and_congr Iff.rfl ⟨fun h a ha => ?_, fun h x hx => ?_⟩
    · have := h _ ha
      simp at this
    · cases x <;> first | rfl | exact absurd hx (h _)
  unfold readyText at h
  obtain ⟨a, ha, h⟩ := Res.bind_eq_ok h
  obtain ⟨b, hb, h⟩ := Res.bind_eq_ok h
  simp only [Res.ok.injEq] at h
  subst h
  rw [warnText_eq _ _ ha, warnText_eq _ _ hb, warnings_append]
  refine ⟨_, rfl, fun hx => ?_, fun hx hn => ?_, fun hx hn hv => ?_⟩
  · rw [if_pos (hc.2 hx)]
    cases color <;> rfl
  · rw [if_neg (fun k => hx (hc.1 k)), if_pos hn]
    refine ⟨_, rfl, fun hv => ?_⟩
    have hv' : (optionsOf args).verbose = false := by simpa [optionsOf] using hv
    rw [hv']
    rfl
  · rw [if_neg (fun k => hx (hc.1 k)), if_neg hn]
    have hv' : (optionsOf args).verbose = false := by simpa [optionsOf] using hv
    rw [hv']
    rfl

theorem effective_of_choose {w : ConfigWorld} {o : Options} {cf : Option Str} (h : chooseConfig w o = .go cf) :
    effectiveConfig w o = cf := by
  unfold chooseConfig at h
  unfold effectiveConfig
  cases hf : o.configFile with
  | some f =>
    simp only [hf] at h ⊢
    split at h
    · cases h; rfl
    · cases h
  | none =>
    simp only [hf] at h ⊢
    split at h <;> rename_i hr <;> cases h
    · rw [if_pos hr]
    · rw [if_neg hr]

theorem settingsText_eq {version : Str} {w : ConfigWorld} {color : Bool} {args : List Opt} {n : Nat} {t : Str}
    (h : settingsText w color (optionsOf args) n = .ok t) :
    (∀ s, settings w (optionsOf args) n = .exit s → ∃ pre why, t = pre ++ why ∧
      Why version w color args n s why ∧ (Opt.verbose ∉ args → pre = [] ∨
        pre = warnings color ((configList w args (·.disable)).map (·, cs!"disabled in config") ++
          (configList w args fun cfg => if (optionsOf args).sourceFlag then cfg.enableSource else cfg.enableNormal).map
            (·, cs!"enabled in config")))) ∧
    (∀ st, settings w (optionsOf args) n = .go st → Opt.verbose ∉ args →
      t = warnings color ((configList w args (·.disable)).map (·, cs!"disabled in config") ++
          (configList w args fun cfg => if (optionsOf args).sourceFlag then cfg.enableSource else cfg.enableNormal).map
            (·, cs!"enabled in config"))) := by
  have hverb : Opt.verbose ∉ args → (optionsOf args).verbose = false := by
    intro hv; simpa [optionsOf] using hv
  have hc : ((optionsOf args).onlyEnabled && (optionsOf args).clEnabled.isEmpty) = true ↔
      (Opt.onlyEnabled ∈ args ∧ ∀ a, Opt.enable a ∉ args) := by
    simp only [optionsOf, Bool.and_eq_true, decide_eq_true_eq, List.isEmpty_iff, List.filterMap_eq_nil_iff]
    refine and_congr Iff.rfl ⟨fun h a ha => ?_, fun h x hx => ?_⟩
    · have := h _ ha
      simp at this
    · cases x <;> first | rfl | exact absurd hx (h _)
  unfold settingsText at h
  cases hch : chooseConfig w (optionsOf args) with
  | exit s0 =>
    rw [hch] at h
    simp only [Res.ok.injEq] at h
    subst h
    have hs : settings w (optionsOf args) n = .exit s0 := by
      unfold settings; rw [hch]
    rw [hs]
    refine ⟨fun s hs => ⟨[], _, rfl, ?_, fun _ => .inl rfl⟩, fun st hst => by cases hst⟩
    unfold chooseConfig at hch
    split at hch
    · rename_i f hf
      split at hch
      · cases hch
      · rename_i hr
        cases hch
        cases hs
        rw [hf]
        have := Why.noConfig (version := version) (color := color) (args := args) (nPaths := n) (w := w) f hf
          (by simpa using hr)
        cases color <;> exact this
    · split at hch <;> cases hch
  | go cf =>
    rw [hch] at h
    have heff := effective_of_choose hch
    cases cf with
    | none =>
      have hcl : ∀ f, configList w args f = [] := by
        intro f; simp [configList, readConfig, heff]
      rw [hcl, hcl]
      obtain ⟨r, hr, h⟩ := Res.bind_eq_ok h
      simp only [Res.ok.injEq] at h
      obtain ⟨v, hrv, h1, h2, h3⟩ := readyText_eq hr
      have hrv : r = v := hrv
      subst hrv
      have h : ifVerbose (optionsOf args).verbose (cs!"No config specified and could not find default config at " ++
          w.defaultPath ++ cs!".\n") ++ r = t := h
      unfold settings
      simp only [hch]
      by_cases hx : Opt.onlyEnabled ∈ args ∧ ∀ a, Opt.enable a ∉ args
      · rw [if_pos (hc.2 hx)]
        refine ⟨fun s hs => ?_, fun st hst => by cases hst⟩
        cases hs
        refine ⟨_, _, h.symm, h1 hx ▸ .nothingEnabled hx.1 hx.2, fun hv => .inl ?_⟩
        rw [hverb hv]; rfl
      · rw [if_neg fun k => hx (hc.1 k)]
        by_cases hn : n = 0
        · rw [if_pos hn]
          refine ⟨fun s hs => ?_, fun st hst => by cases hst⟩
          cases hs
          obtain ⟨v', rfl, hv'⟩ := h2 hx hn
          rw [← List.append_assoc] at h
          refine ⟨_, _, h.symm, .noPath hn, fun hv => .inl ?_⟩
          rw [hverb hv, hv' hv]; rfl
        · rw [if_neg hn]
          refine ⟨fun s hs => by (simp at hs), fun st hst hv => ?_⟩
          rw [← h, h3 hx hn hv, hverb hv]; rfl
    | some f =>
      dsimp only at h
      cases hct : w.contents f with
      | none =>
        simp only [hct, Option.bind_none, Res.ok.injEq] at h
        unfold settings
        simp only [hch, hct]
        refine ⟨fun s hs => ?_, fun st hst => by cases hst⟩
        cases hs
        refine ⟨_, _, h.symm, .badConfig f heff hct, fun hv => .inl ?_⟩
        rw [hverb hv]; rfl
      | some cfg =>
        simp only [hct, Option.bind_some] at h
        unfold settings
        simp only [hch, hct]
        cases hp : parseConfig cfg (optionsOf args).sourceFlag {} with
        | none =>
          simp only [hp, Res.ok.injEq] at h
          refine ⟨fun s hs => ?_, fun st hst => by cases hst⟩
          cases hs
          refine ⟨_, _, h.symm, .refused f cfg _ heff hct ((C105_config cfg _ _).1 hp), fun hv => .inl ?_⟩
          rw [hverb hv]; rfl
        | some p =>
          simp only [hp] at h
          obtain ⟨r, hr, h⟩ := Res.bind_eq_ok h
          simp only [Res.ok.injEq] at h
          have hcfg : configText (optionsOf args).verbose f (some cfg) =
              ifVerbose (optionsOf args).verbose (cs!"Loading configuration from: " ++ f ++ cs!"\n") := by
            unfold configText
            simp only [(C105_config cfg _ _).2 p hp, List.append_nil]
          rw [hcfg] at h
          obtain ⟨v, rfl, h1, h2, h3⟩ := readyText_eq hr
          have hd : configList w args (·.disable) = p.disabled := by
            have := (parseConfig_lists hp).1
            simp [configList, readConfig, heff, hct, this]
          have he : configList w args (fun cfg => if (optionsOf args).sourceFlag then cfg.enableSource else
              cfg.enableNormal) = p.enabled := by
            have := (parseConfig_lists hp).2
            simp [configList, readConfig, heff, hct, this]
          rw [hd, he]
          simp only [Option.elim_some] at h
          dsimp only
          by_cases hx : Opt.onlyEnabled ∈ args ∧ ∀ a, Opt.enable a ∉ args
          · rw [if_pos (hc.2 hx)]
            refine ⟨fun s hs => ?_, fun st hst => by cases hst⟩
            cases hs
            rw [← List.append_assoc] at h
            refine ⟨_, v, h.symm, ?_, fun hv => .inr ?_⟩
            · rw [h1 hx]; exact .nothingEnabled hx.1 hx.2
            rw [hverb hv]; rfl
          · rw [if_neg fun k => hx (hc.1 k)]
            by_cases hn : n = 0
            · rw [if_pos hn]
              refine ⟨fun s hs => ?_, fun st hst => by cases hst⟩
              cases hs
              obtain ⟨v', rfl, hv'⟩ := h2 hx hn
              refine ⟨_, _, by rw [← h, ← List.append_assoc, ← List.append_assoc], .noPath hn, fun hv => .inr ?_⟩
              rw [hverb hv, hv' hv, List.append_nil]; rfl
            · rw [if_neg hn]
              refine ⟨fun s hs => by (simp at hs), fun st hst hv => ?_⟩
              rw [← h, h3 hx hn hv, hverb hv, List.append_nil]; rfl

/-- **C105 (the reason).** If the program ends before it looks at a file, the last thing it prints is the
reason for that, which is true and goes with the exit status. Before that, without `-v`, it prints only the note
and the warnings of C105_goes_on, from the first of them on. -/
theorem C105_reason {version : Str} {w : ConfigWorld} {tty : Bool} {args : List Opt} {n : Nat} {t : Str} {s : Nat}
    (h : startUp w args n = .exit s) (ht : startText version w tty args n = .ok t) :
    ∃ pre why, t = pre ++ why ∧ Why version w (colours tty args) args n s why ∧
      (Opt.verbose ∉ args → pre = [] ∨
        ∃ k, pre = notes (colours tty args) args ++ warnings (colours tty args) ((switched w args).take k)) := by
  unfold startUp at h
  unfold startText at ht
  cases hp : parseOpts {} args with
  | exit s0 =>
    rw [hp] at h ht
    cases h
    simp only [Res.ok.injEq] at ht
    subst ht
    exact ⟨[], _, rfl, optsText_exit version w _ n args args {} s (fun _ hx => hx) hp, fun _ => .inl rfl⟩
  | go o =>
    have ho := options_go hp
    subst ho
    rw [hp] at h ht
    dsimp only at h ht
    rw [colorOn_eq] at ht
    obtain ⟨m, hm, ht⟩ := Res.bind_eq_ok ht
    obtain ⟨r, hr, ht⟩ := Res.bind_eq_ok ht
    simp only [Res.ok.injEq] at ht
    rw [optsText_go version _ _ _ hp, List.nil_append] at ht
    obtain ⟨v, rfl, hv⟩ := modesText_eq hm
    obtain ⟨pre, why, rfl, hw, hpre⟩ := (settingsText_eq (version := version) hr).1 s h
    refine ⟨_, why, by rw [← ht, ← List.append_assoc], hw, fun hverb => .inr ?_⟩
    rw [hv hverb, switched_eq]
    rcases hpre hverb with hpre | hpre
    · refine ⟨((optionsOf args).clDisabled.map (·, cs!"disabled on command line") ++
        (optionsOf args).clEnabled.map (·, cs!"enabled on command line")).length, ?_⟩
      rw [List.take_left, hpre, List.append_nil]
    · refine ⟨(switched w args).length, ?_⟩
      rw [switched_eq, List.take_of_length_le (Nat.le_refl _), hpre, warnings_append _ (_ ++ _) (_ ++ _), ← List.append_assoc]

/-- **C105 (going on).** If the program goes on to look at the files, then without `-v` it has printed the note about
source mode, if it is due, and one warning for each id that is not valid, in the order in which they are given. -/
theorem C105_goes_on {version : Str} {w : ConfigWorld} {tty : Bool} {args : List Opt} {n : Nat} {t : Str}
    {st : Settings} (h : startUp w args n = .go st) (ht : startText version w tty args n = .ok t)
    (hv : Opt.verbose ∉ args) :
    t = notes (colours tty args) args ++ warnings (colours tty args) (switched w args) := by
  unfold startUp at h
  unfold startText at ht
  cases hp : parseOpts {} args with
  | exit s0 => rw [hp] at h; cases h
  | go o =>
    have ho := options_go hp
    subst ho
    rw [hp] at h ht
    dsimp only at h ht
    rw [colorOn_eq] at ht
    obtain ⟨m, hm, ht⟩ := Res.bind_eq_ok ht
    obtain ⟨r, hr, ht⟩ := Res.bind_eq_ok ht
    simp only [Res.ok.injEq] at ht
    rw [optsText_go version _ _ _ hp, List.nil_append] at ht
    obtain ⟨v, rfl, hv'⟩ := modesText_eq hm
    rw [← ht, (settingsText_eq (version := version) hr).2 st h hv, hv' hv, switched_eq, warnings_append _ (_ ++ _) (_ ++ _),
      ← List.append_assoc]

/-- **C105 (the exit status).** That is the status of the whole program. -/
theorem C105_status {m : Machine} {args : List Opt} {paths : List Str} {s : Nat} {r : MainResult}
    (h : startUp m.config args paths.length = .exit s) (hr : selintMain m args paths = .ok r) :
    r.status = s ∧ r.findings = [] ∧ r.summary = none := by
  unfold startUp at h
  unfold selintMain at hr
  split at h
  · rename_i hp
    rw [hp] at hr
    cases h
    cases hr
    exact ⟨rfl, rfl, rfl⟩
  · rename_i o hp
    rw [hp] at hr
    dsimp only at hr
    obtain ⟨w1, -, hr⟩ := Res.bind_eq_ok hr
    obtain ⟨w2, -, hr⟩ := Res.bind_eq_ok hr
    rw [h] at hr
    cases hr
    exact ⟨rfl, rfl, rfl⟩

/-! ## Colours and `-v` -/

theorem colour_note : IsColour (colorNote true) :=
  colour_of cs!"35;1" _ (by decide) (by decide) (by decide)

theorem PaintedRes.same (x : Res Str) : PaintedRes x x := by
  cases x
  · exact Painted.same _
  · exact trivial

theorem painted_warnText (desc : Str) : ∀ ids, PaintedRes (warnText true desc ids) (warnText false desc ids)
  | [] => Painted.nil
  | id :: ids => by
    unfold warnText
    cases isValidCheck (some id) with
    | ub => exact trivial
    | ok v =>
      refine (painted_warnText desc ids).map fun a b h => ?_
      cases v
      · refine Painted.append ?_ h
        exact (((((Painted.one colour_warning cs!"Warning").append (Painted.same _)).append (Painted.same _)).append
          (Painted.same _)).append (Painted.same _)).append (Painted.same _)
      · exact h

theorem painted_readyText (o : Options) (n : Nat) (p : Option ParsedConfig) :
    PaintedRes (readyText true o n p) (readyText false o n p) := by
  unfold readyText
  refine (painted_warnText _ _).bind fun a b h => ?_
  refine (painted_warnText _ _).map fun c d k => ?_
  refine (h.append k).append ?_
  split
  · exact (Painted.one colour_error cs!"Error").append (Painted.same _)
  · exact Painted.same _

theorem painted_settingsText (w : ConfigWorld) (o : Options) (n : Nat) :
    PaintedRes (settingsText w true o n) (settingsText w false o n) := by
  unfold settingsText
  split
  · exact (((Painted.one colour_error cs!"Error").append (Painted.same _)).append (Painted.same _)).append
      (Painted.same _)
  · exact (painted_readyText _ _ _).map fun _ _ h => (Painted.same _).append h
  · split
    · exact Painted.same _
    · exact (painted_readyText _ _ _).map fun _ _ h => (Painted.same _).append h

theorem painted_modesText {o : Options} (hv : o.verbose = false) :
    PaintedRes (modesText true o) (modesText false o) := by
  unfold modesText
  refine (painted_warnText _ _).bind fun a b h => ?_
  refine (painted_warnText _ _).map fun c d k => ?_
  simp only [hv, ifVerbose, Bool.false_eq_true, if_false, ite_self, List.nil_append]
  refine Painted.append (Painted.append ?_ h) k
  split
  · split
    · exact Painted.nil
    · exact (Painted.one colour_note cs!"Note").append (Painted.same _)
  · exact Painted.nil

/-- **C105 (colours).** Whether the output goes to a terminal changes nothing but colours (with `-v` the colours
are mentioned as well). -/
theorem C105_colours (version : Str) (w : ConfigWorld) (args : List Opt) (n : Nat) (hv : Opt.verbose ∉ args) :
    PaintedRes (startText version w true args n) (startText version w false args n) := by
  unfold startText
  cases hp : parseOpts {} args with
  | exit s => exact Painted.same _
  | go o =>
    have ho := options_go hp
    have hv' : o.verbose = false := by subst ho; simpa [optionsOf] using hv
    dsimp only
    have hcol : colorOn true o = colorOn false o ∨ (colorOn true o = true ∧ colorOn false o = false) := by
      unfold colorOn
      by_cases h2 : o.color = 2 <;> by_cases h0 : o.color = 0 <;> simp [h0, h2]
    rcases hcol with h | ⟨h, k⟩
    · rw [h]; exact PaintedRes.same _
    · rw [h, k]
      refine (painted_modesText hv').bind fun a b hab => ?_
      exact (painted_settingsText w o n).map fun c d hcd => ((Painted.same _).append hab).append hcd

theorem MoreRes.bind {x y : Res Str} (h : MoreRes x y) {f g : Str → Res Str}
    (hf : ∀ a b, a.Sublist b → MoreRes (f a) (g b)) : MoreRes (x >>= f) (y >>= g) := by
  cases x <;> cases y <;> first | exact hf _ _ h | exact h.elim | exact trivial

theorem MoreRes.same (x : Res Str) : MoreRes x x := by
  cases x
  · exact List.Sublist.refl _
  · exact trivial

theorem MoreRes.each (x : Res Str) {f g : Str → Res Str} (hf : ∀ a, MoreRes (f a) (g a)) :
    MoreRes (x >>= f) (x >>= g) := by
  cases x
  · exact hf _
  · exact trivial

theorem ifVerbose_more (v : Bool) (s : Str) : (ifVerbose v s).Sublist (ifVerbose true s) := by
  cases v
  · exact List.nil_sublist _
  · exact List.Sublist.refl _

theorem optStep_verbose (o : Options) (x : Opt) : optStep { o with verbose := true } x = match optStep o x with
    | .exit s => .exit s
    | .go o' => .go { o' with verbose := true } := by
  cases x with
  | color a =>
    simp only [optStep]
    by_cases h1 : strcmp a cs!"on" = 0
    · simp only [if_pos h1]
    simp only [if_neg h1]
    by_cases h2 : strcmp a cs!"off" = 0
    · simp only [if_pos h2]
    simp only [if_neg h2]
    by_cases h3 : strcmp a cs!"auto" = 0
    · simp only [if_pos h3]
    · simp only [if_neg h3]
  | level a =>
    simp only [optStep]
    by_cases h1 : isValidSeverity (firstChar a) = true
    · simp only [if_pos h1]
    · simp only [if_neg h1]
  | _ => rfl

theorem parseOpts_verbose : ∀ (args : List Opt) (o : Options),
    parseOpts { o with verbose := true } args = match parseOpts o args with
      | .exit s => .exit s
      | .go o' => .go { o' with verbose := true }
  | [], _ => rfl
  | x :: xs, o => by
    have hx := optStep_verbose o x
    unfold parseOpts
    rw [hx]
    cases optStep o x with
    | exit s => rfl
    | go o' => exact parseOpts_verbose xs o'

theorem optsText_verbose (version : Str) : ∀ (args : List Opt) (o : Options),
    optsText version { o with verbose := true } args = optsText version o args
  | [], _ => rfl
  | x :: xs, o => by
    have hx := optStep_verbose o x
    unfold optsText
    rw [hx]
    cases optStep o x with
    | exit s => rfl
    | go o' => simp only [optsText_verbose version xs o']

/-- **C105 (`-v`).** With `-v` everything that is printed without it is printed as well, in the same order. -/
theorem C105_verbose (version : Str) (w : ConfigWorld) (tty : Bool) (args : List Opt) (n : Nat) :
    MoreRes (startText version w tty args n) (startText version w tty (.verbose :: args) n) := by
  have h1 : parseOpts {} (.verbose :: args) = match parseOpts {} args with
      | .exit s => .exit s
      | .go o' => .go { o' with verbose := true } := by
    have := parseOpts_verbose args {}
    rw [← this]; rfl
  have h2 : optsText version {} (.verbose :: args) = optsText version {} args := by
    have := optsText_verbose version args {}
    rw [← this]; rfl
  unfold startText
  rw [h1, h2]
  cases parseOpts {} args with
  | exit s => exact List.Sublist.refl _
  | go o =>
    dsimp only
    have hc : colorOn tty { o with verbose := true } = colorOn tty o := rfl
    rw [hc]
    refine MoreRes.bind ?_ fun a b hab => MoreRes.bind ?_ fun c d hcd =>
      ((List.Sublist.refl _).append hab).append hcd
    · unfold modesText
      refine MoreRes.each _ fun a => MoreRes.each _ fun b => ?_
      refine ((List.Sublist.append (List.Sublist.append (List.Sublist.append (ifVerbose_more _ _) ?_) ?_)
        (List.Sublist.refl _)).append (List.Sublist.refl _))
      · split
        · exact ifVerbose_more _ _
        · exact List.Sublist.refl _
      · dsimp only
        split
        · exact (ifVerbose_more _ _).append (List.Sublist.refl _)
        · exact List.Sublist.refl _
    · have hch : chooseConfig w { o with verbose := true } = chooseConfig w o := rfl
      have hready : ∀ p, MoreRes (readyText (colorOn tty o) o n p)
          (readyText (colorOn tty o) { o with verbose := true } n p) := by
        intro p
        unfold readyText
        refine MoreRes.each _ fun a => MoreRes.each _ fun b => ?_
        refine (List.Sublist.refl _).append ?_
        dsimp only
        split
        · exact List.Sublist.refl _
        · exact (ifVerbose_more _ _).append (List.Sublist.refl _)
      have hconf : ∀ f c, (configText o.verbose f c).Sublist (configText true f c) :=
        fun f c => (ifVerbose_more _ _).append (List.Sublist.refl _)
      unfold settingsText
      rw [hch]
      split
      · exact List.Sublist.refl _
      · exact MoreRes.bind (hready none) fun a b hab => (ifVerbose_more _ _).append hab
      · dsimp only
        split
        · exact hconf _ _
        · exact MoreRes.bind (hready _) fun a b hab => (hconf _ _).append hab

/-! ## Examples -/

/-- A machine without configuration files. -/
def bareWorld : ConfigWorld := ⟨fun _ => false, fun _ => none, cs!"/etc/selint.conf"⟩

/-- A machine whose configuration has a wrong severity. -/
def wrongWorld : ConfigWorld :=
  ⟨fun _ => true, fun _ => some { severity := cs!"grave" }, cs!"/etc/selint.conf"⟩

example : startText cs!"1" bareWorld false [.source, .disable cs!"X-001", .enable cs!"W-001"] 1 =
    .ok (cs!"Note: Source mode enabled without recursive flag (only explicit specified files will be checked).\n" ++
      cs!"Warning: X-001, disabled on command line, is not a valid check id.\n") := by decide +kernel

example : (match startUp bareWorld [.source, .disable cs!"X-001", .enable cs!"W-001"] 1 with
    | .go _ => true | .exit _ => false) = true := by decide +kernel

example : startUp wrongWorld [.recursive] 1 = .exit 78 := by decide +kernel

example : startText cs!"1" wrongWorld false [.recursive] 1 =
    .ok (cs!"Invalid severity level (grave) specified in config.\n" ++
      cs!"Options are \"convention\", \"style\", \"warning\", \"error\" and \"fatal\"\n") := by decide +kernel

example : startUp bareWorld [.onlyEnabled] 1 = .exit 64 ∧
    startText cs!"1" bareWorld true [.onlyEnabled, .verbose] 1 =
      .ok (cs!"Verbose mode enabled\nColor output enabled\nNo config specified and could not find default " ++
        cs!"config at /etc/selint.conf.\n\x1b[31;1mError\x1b[0m: no warning enabled!\n") := by decide +kernel

example : cfgText { orderingRequires := [cs!"bool", cs!"bool", cs!"role", cs!"attribute_role", cs!"attribute", cs!"type"] } =
    cs!"Duplicate ordering_requires flavor (bool) specified in config.\n" := by decide +kernel

end Selint
