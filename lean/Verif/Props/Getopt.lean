import Verif.Model.Getopt
import Verif.Spec.Getopt
import Verif.Props.CommandLine
/-! # C78: what a command line means -/

namespace Selint

open Spec

theorem eq_of_nodup_map {α β : Type} {f : α → β} {l : List α} (h : (l.map f).Nodup) {x y : α} (hx : x ∈ l)
    (hy : y ∈ l) (e : f x = f y) : x = y := by
  induction l with
  | nil => cases hx
  | cons a l ih =>
    rw [List.map_cons, List.nodup_cons] at h
    rcases List.mem_cons.1 hx with rfl | hx' <;> rcases List.mem_cons.1 hy with rfl | hy'
    · rfl
    · exact absurd (List.mem_map.2 ⟨y, hy', e.symm⟩) h.1
    · exact absurd (List.mem_map.2 ⟨x, hx', e⟩) h.1
    · exact ih h.2 hx' hy'

theorem longOptions_nodup : (longOptions.map (·.1)).Nodup := by decide

theorem optionNames_iff (n : Str) : n ∈ optionNames ↔ ∃ p ∈ longOptions, p.1 = n := by
  rw [← List.mem_map]
  have h1 : ∀ x ∈ optionNames, x ∈ longOptions.map (·.1) := by decide
  have h2 : ∀ x ∈ longOptions.map (·.1), x ∈ optionNames := by decide
  exact ⟨h1 n, h2 n⟩

theorem findLong_iff {s : Str} {o : OptSpec} : findLong s = some o ↔ ∃ n, (n, o) ∈ longOptions ∧ StandsFor s n := by
  unfold findLong
  constructor
  · intro h
    split at h
    · rename_i p hp
      cases h
      have h1 := List.find?_some hp
      exact ⟨p.1, List.mem_of_find?_eq_some hp, .inl (of_decide_eq_true h1).symm⟩
    · split at h
      · rename_i p hp
        cases h
        have hm : p ∈ longOptions.filter (fun p => s.isPrefixOf p.1) := by rw [hp]; exact .head _
        rw [List.mem_filter, List.isPrefixOf_iff_prefix] at hm
        refine ⟨p.1, hm.1, .inr ⟨hm.2, fun n hn hs => ?_⟩⟩
        obtain ⟨q, hq, rfl⟩ := (optionNames_iff n).1 hn
        have : q ∈ longOptions.filter (fun p => s.isPrefixOf p.1) := by
          rw [List.mem_filter, List.isPrefixOf_iff_prefix]; exact ⟨hq, hs⟩
        rw [hp, List.mem_singleton] at this
        rw [this]
      · cases h
  · rintro ⟨n, hn, hs⟩
    have same : ∀ p ∈ longOptions, p.1 = n → p = (n, o) := fun p hp e => eq_of_nodup_map longOptions_nodup hp hn e
    have exact_ : ∀ p ∈ longOptions, p.1 = s → p = (n, o) := by
      intro p hp e
      rcases hs with rfl | ⟨-, hu⟩
      · exact same p hp e
      · refine same p hp (hu p.1 ((optionNames_iff _).2 ⟨p, hp, rfl⟩) ?_)
        rw [e]; exact List.prefix_refl s
    cases hf : longOptions.find? (fun p => p.1 = s) with
    | some p =>
      have h1 := List.find?_some hf
      rw [exact_ p (List.mem_of_find?_eq_some hf) (of_decide_eq_true h1)]
    | none =>
      rcases hs with rfl | ⟨hs, hu⟩
      · have := List.find?_eq_none.1 hf (s, o) hn
        simp at this
      · have hl : ∀ q ∈ longOptions.filter (fun p => s.isPrefixOf p.1), q = (n, o) := by
          intro q hq
          rw [List.mem_filter, List.isPrefixOf_iff_prefix] at hq
          exact same q hq.1 (hu q.1 ((optionNames_iff _).2 ⟨q, hq.1, rfl⟩) hq.2)
        have hm : (n, o) ∈ longOptions.filter (fun p => s.isPrefixOf p.1) := by
          rw [List.mem_filter, List.isPrefixOf_iff_prefix]; exact ⟨hn, hs⟩
        have hd : ((longOptions.filter (fun p => s.isPrefixOf p.1)).map (·.1)).Nodup :=
          longOptions_nodup.sublist (List.filter_sublist.map _)
        revert hl hm hd
        generalize longOptions.filter (fun p => s.isPrefixOf p.1) = l
        intro hl hm hd
        match l, hl, hm, hd with
        | [p], hl, _, _ => simp only [hl p (.head _)]
        | p :: q :: l, hl, _, hd =>
          have e1 := hl p (.head _)
          have e2 := hl q (.tail _ (.head _))
          rw [e1, e2] at hd
          simp at hd

theorem flagNames_iff {n : Str} {o : Opt} : (n, OptSpec.flag o) ∈ longOptions ↔ (n, o) ∈ flagNames := by
  simp only [longOptions, flagNames, List.mem_cons, Prod.mk.injEq, OptSpec.flag.injEq, reduceCtorEq, and_false,
    false_or, List.not_mem_nil, or_false]
  constructor <;> · rintro h; repeat' rcases h with h | h
                    all_goals simp [*]

theorem argNames_iff {n : Str} {mk : Str → Opt} : (n, OptSpec.arg mk) ∈ longOptions ↔ (n, mk) ∈ argNames := by
  simp only [longOptions, argNames, List.mem_cons, Prod.mk.injEq, OptSpec.arg.injEq, reduceCtorEq, and_false,
    false_or, List.not_mem_nil, or_false]
  constructor <;> · rintro h; repeat' rcases h with h | h
                    all_goals simp [*]

theorem flagLetters_iff {c : Char} {o : Opt} : shortOption c = some (.flag o) ↔ (c, o) ∈ flagLetters := by
  constructor
  · intro h
    unfold shortOption at h
    split at h
    all_goals first | cases h; done | skip
    all_goals simp only [Option.some.injEq, OptSpec.flag.injEq] at h
    all_goals subst h
    all_goals simp [flagLetters]
  · intro h
    simp only [flagLetters, List.mem_cons, Prod.mk.injEq, List.not_mem_nil, or_false] at h
    repeat' rcases h with h | h
    all_goals subst_vars; rfl

theorem argLetters_iff {c : Char} {mk : Str → Opt} : shortOption c = some (.arg mk) ↔ (c, mk) ∈ argLetters := by
  constructor
  · intro h
    unfold shortOption at h
    split at h
    all_goals first | cases h; done | skip
    all_goals simp only [Option.some.injEq, OptSpec.arg.injEq] at h
    all_goals subst h
    all_goals simp [argLetters]
  · intro h
    simp only [argLetters, List.mem_cons, Prod.mk.injEq, List.not_mem_nil, or_false] at h
    repeat' rcases h with h | h
    all_goals subst_vars; rfl

theorem flagLetters_known {c : Char} {o : Opt} (h : (c, o) ∈ flagLetters) : c ≠ '-' ∧ o ≠ .unknown := by
  have : ∀ p ∈ flagLetters, p.1 ≠ '-' ∧ p.2 ≠ .unknown := by decide
  exact this _ h

theorem argLetters_known {c : Char} {mk : Str → Opt} (h : (c, mk) ∈ argLetters) : c ≠ '-' ∧ ∀ a, mk a ≠ .unknown := by
  simp only [argLetters, List.mem_cons, Prod.mk.injEq, List.not_mem_nil, or_false] at h
  repeat' rcases h with h | h
  all_goals subst_vars; exact ⟨by decide, nofun⟩

theorem flagNames_known {n : Str} {o : Opt} (h : (n, o) ∈ flagNames) : '=' ∉ n ∧ n ≠ [] ∧ o ≠ .unknown := by
  have : ∀ p ∈ flagNames, '=' ∉ p.1 ∧ p.1 ≠ [] ∧ p.2 ≠ .unknown := by decide
  exact this _ h

theorem argNames_known {n : Str} {mk : Str → Opt} (h : (n, mk) ∈ argNames) : '=' ∉ n ∧ n ≠ [] ∧ ∀ a, mk a ≠ .unknown := by
  simp only [argNames, List.mem_cons, Prod.mk.injEq, List.not_mem_nil, or_false] at h
  repeat' rcases h with h | h
  all_goals subst_vars; exact ⟨by decide, by decide, nofun⟩

theorem Spec.StandsFor.prefix {s n : Str} (h : StandsFor s n) : s <+: n := by
  rcases h with rfl | h
  · exact List.prefix_refl s
  · exact h.1

theorem Spec.StandsFor.ne_nil {s n : Str} (h : StandsFor s n) (hn : n ≠ []) : s ≠ [] := by
  rintro rfl
  rcases h with h | ⟨-, h⟩
  · exact hn h.symm
  · have h1 := h cs!"help" (by decide) List.nil_prefix
    have h2 := h cs!"fail" (by decide) List.nil_prefix
    rw [← h1] at h2; cases h2

theorem Spec.StandsFor.no_equals {s n : Str} (h : StandsFor s n) (hn : '=' ∉ n) : '=' ∉ s := by
  obtain ⟨t, rfl⟩ := h.prefix
  exact fun hm => hn (List.mem_append_left _ hm)

theorem cut_none {s : Str} (h : '=' ∉ s) : s.takeWhile (· ≠ '=') = s ∧ s.dropWhile (· ≠ '=') = [] := by
  induction s with
  | nil => exact ⟨rfl, rfl⟩
  | cons c s ih =>
    have hc : c ≠ '=' := fun e => h (e ▸ .head _)
    obtain ⟨h1, h2⟩ := ih fun hm => h (.tail _ hm)
    constructor
    · rw [List.takeWhile_cons, if_pos (by simpa using hc), h1]
    · rw [List.dropWhile_cons, if_pos (by simpa using hc), h2]

theorem cut_some {s v : Str} (h : '=' ∉ s) :
    (s ++ '=' :: v).takeWhile (· ≠ '=') = s ∧ (s ++ '=' :: v).dropWhile (· ≠ '=') = '=' :: v := by
  induction s with
  | nil => simp
  | cons c s ih =>
    have hc : c ≠ '=' := fun e => h (e ▸ .head _)
    obtain ⟨h1, h2⟩ := ih fun hm => h (.tail _ hm)
    rw [List.cons_append]
    constructor
    · rw [List.takeWhile_cons, if_pos (by simpa using hc), h1]
    · rw [List.dropWhile_cons, if_pos (by simpa using hc), h2]

theorem getopt_long {s : Str} (h : s ≠ []) (rest : List Str) :
    getopt none (('-' :: '-' :: s) :: rest) = before (longText s).1 (getopt (longText s).2 rest) := by
  cases s with
  | nil => exact absurd rfl h
  | cons c s => rw [getopt]; exact h

theorem getopt_short {c : Char} (h : c ≠ '-') (s : Str) (rest : List Str) :
    getopt none (('-' :: c :: s) :: rest) = before (shortText (c :: s)).1 (getopt (shortText (c :: s)).2 rest) := by
  rw [getopt]
  · exact fun e _ => h e
  · exact fun e => h e

theorem getopt_path {a : Str} (h : a = cs!"-" ∨ a.head? ≠ some '-') (rest : List Str) :
    getopt none (a :: rest) = ((getopt none rest).1, a :: (getopt none rest).2) := by
  rw [getopt]
  · rintro rfl; simp at h
  · rintro s rfl; simp at h
  · rintro c s rfl; simp at h

theorem shortText_flags {fs : List (Char × Opt)} (h : ∀ f ∈ fs, f ∈ flagLetters) (s : Str) :
    shortText (fs.map (·.1) ++ s) = (fs.map (·.2) ++ (shortText s).1, (shortText s).2) := by
  induction fs with
  | nil => rfl
  | cons f fs ih =>
    rw [List.map_cons, List.cons_append, shortText, flagLetters_iff.2 (h f (.head _))]
    simp only [ih fun g hg => h g (.tail _ hg)]
    rfl

theorem shortText_cases {s : Str} {os : List Opt} {pending : Option (Str → Opt)} (h : shortText s = (os, pending))
    (hu : .unknown ∉ os) :
    ∃ fs : List (Char × Opt), (∀ f ∈ fs, f ∈ flagLetters) ∧
      ((s = fs.map (·.1) ∧ os = fs.map (·.2) ∧ pending = none) ∨
       ∃ c mk, (c, mk) ∈ argLetters ∧
        ((∃ arg, arg ≠ [] ∧ s = fs.map (·.1) ++ c :: arg ∧ os = fs.map (·.2) ++ [mk arg] ∧ pending = none) ∨
         (s = fs.map (·.1) ++ [c] ∧ os = fs.map (·.2) ∧ pending = some mk))) := by
  induction s generalizing os pending with
  | nil => cases h; exact ⟨[], nofun, .inl ⟨rfl, rfl, rfl⟩⟩
  | cons c s ih =>
    rw [shortText] at h
    split at h
    · cases h; simp at hu
    · rename_i o ho
      cases h
      obtain ⟨fs, h1, h2⟩ := ih rfl fun hm => hu (.tail _ hm)
      refine ⟨(c, o) :: fs, ?_, ?_⟩
      · intro f hf
        rcases List.mem_cons.1 hf with rfl | hf
        · exact flagLetters_iff.1 ho
        · exact h1 f hf
      · rcases h2 with ⟨h2, h3, h4⟩ | ⟨d, mk, h2, ⟨arg, h3, h4, h5, h6⟩ | ⟨h4, h5, h6⟩⟩
        · exact .inl ⟨by rw [h2]; rfl, by rw [h3]; rfl, h4⟩
        · exact .inr ⟨d, mk, h2, .inl ⟨arg, h3, by rw [h4]; rfl, by rw [h5]; rfl, h6⟩⟩
        · exact .inr ⟨d, mk, h2, .inr ⟨by rw [h4]; rfl, by rw [h5]; rfl, h6⟩⟩
    · rename_i mk hmk
      split at h
      · rename_i e
        cases h; cases e
        exact ⟨[], nofun, .inr ⟨c, mk, argLetters_iff.1 hmk, .inr ⟨rfl, rfl, rfl⟩⟩⟩
      · rename_i e
        cases h
        exact ⟨[], nofun, .inr ⟨c, mk, argLetters_iff.1 hmk, .inl ⟨s, e, rfl, rfl, rfl⟩⟩⟩

theorem longText_cases {s : Str} {os : List Opt} {pending : Option (Str → Opt)} (h : longText s = (os, pending))
    (hu : .unknown ∉ os) :
    (∃ n o, (n, o) ∈ flagNames ∧ StandsFor s n ∧ os = [o] ∧ pending = none) ∨
    (∃ n mk, (n, mk) ∈ argNames ∧
      ((∃ t arg, s = t ++ '=' :: arg ∧ StandsFor t n ∧ os = [mk arg] ∧ pending = none) ∨
       (StandsFor s n ∧ os = [] ∧ pending = some mk))) := by
  unfold longText at h
  have hs : s.takeWhile (· ≠ '=') ++ s.dropWhile (· ≠ '=') = s := List.takeWhile_append_dropWhile
  split at h
  · cases h; simp at hu
  · rename_i o h1 h2
    cases h
    obtain ⟨n, h3, h4⟩ := findLong_iff.1 h1
    rw [h2, List.append_nil] at hs
    rw [hs] at h4
    exact .inl ⟨n, o, flagNames_iff.1 h3, h4, rfl, rfl⟩
  · cases h; simp at hu
  · rename_i mk h1 h2
    cases h
    obtain ⟨n, h3, h4⟩ := findLong_iff.1 h1
    rw [h2, List.append_nil] at hs
    rw [hs] at h4
    exact .inr ⟨n, mk, argNames_iff.1 h3, .inr ⟨h4, rfl, rfl⟩⟩
  · rename_i mk d v h1 h2
    cases h
    obtain ⟨n, h3, h4⟩ := findLong_iff.1 h1
    have hd : d = '=' := by
      have h5 := List.head?_dropWhile_not (· ≠ '=') s
      rw [h2] at h5
      simpa using h5
    subst hd
    rw [h2] at hs
    exact .inr ⟨n, mk, argNames_iff.1 h3, .inl ⟨_, v, hs.symm, h4, rfl, rfl⟩⟩

/-- What is read has that meaning. -/
theorem means_of_getopt {argv : List Str} {pending : Option (Str → Opt)} {os : List Opt} {ps : List Str}
    (h : getopt pending argv = (os, ps)) (hu : .unknown ∉ os) :
    match pending with
    | none => Means argv os ps
    | some mk => ∃ arg rest os', argv = arg :: rest ∧ os = mk arg :: os' ∧ Means rest os' ps := by
  induction argv generalizing pending os ps with
  | nil =>
    cases pending with
    | none => cases h; exact .nothing
    | some mk => cases h; simp at hu
  | cons a rest ih =>
    cases pending with
    | some mk =>
      rw [getopt] at h
      cases h
      exact ⟨a, rest, _, rfl, rfl, ih (pending := none) rfl fun hm => hu (.tail _ hm)⟩
    | none =>
      by_cases hp : a = cs!"-" ∨ a.head? ≠ some '-'
      · rw [getopt_path hp] at h
        cases h
        exact .path hp (ih (pending := none) rfl hu)
      · rw [not_or] at hp
        match a, hp with
        | [], hp => simp at hp
        | [c], hp => simp at hp
        | c :: d :: s, hp =>
          obtain rfl : c = '-' := by simpa using hp.2
          by_cases hd : d = '-'
          · subst hd
            cases s with
            | nil => rw [getopt] at h; cases h; exact .dashes _
            | cons e s =>
              rw [getopt_long (List.cons_ne_nil e s)] at h
              generalize e :: s = s at h
              cases hl : longText s with
              | mk os1 pd =>
              rw [hl] at h
              cases h
              simp only [List.mem_append, not_or] at hu
              have hr := ih (pending := pd) (os := (getopt pd rest).1) (ps := (getopt pd rest).2) rfl hu.2
              rcases longText_cases hl hu.1 with ⟨n, o, h1, h2, rfl, rfl⟩ | ⟨n, mk, h1, ⟨t, arg, rfl, h2, rfl, rfl⟩ | ⟨h2, rfl, rfl⟩⟩
              · exact .name h1 h2 hr
              · have := Means.equals (arg := arg) h1 h2 hr
                simpa using this
              · obtain ⟨arg, rest', os', rfl, h3, h4⟩ := hr
                simp only [h3, List.nil_append]
                exact .next h1 h2 h4
          · rw [getopt_short hd] at h
            have hne : d :: s ≠ [] := nofun
            generalize d :: s = s at h hne
            cases hl : shortText s with
            | mk os1 pd =>
            rw [hl] at h
            cases h
            simp only [List.mem_append, not_or] at hu
            have hr := ih (pending := pd) (os := (getopt pd rest).1) (ps := (getopt pd rest).2) rfl hu.2
            obtain ⟨fs, h1, ⟨rfl, rfl, rfl⟩ | ⟨c, mk, h2, ⟨arg, h3, rfl, rfl, rfl⟩ | ⟨rfl, rfl, rfl⟩⟩⟩ :=
              shortText_cases hl hu.1
            · exact .letters (by rintro rfl; exact hne rfl) h1 hr
            · have := Means.attached h1 h2 h3 hr
              simpa [List.append_assoc] using this
            · obtain ⟨arg, rest', os', rfl, h3, h4⟩ := hr
              simp only [h3]
              exact .separate h1 h2 h4

theorem getopt_of_means {argv : List Str} {os : List Opt} {ps : List Str} (h : Means argv os ps) :
    getopt none argv = (os, ps) ∧ .unknown ∉ os := by
  induction h with
  | nothing => exact ⟨rfl, nofun⟩
  | dashes ps => exact ⟨rfl, nofun⟩
  | path h _ ih => rw [getopt_path h, ih.1]; exact ⟨rfl, ih.2⟩
  | @letters fs rest os ps ne h _ ih =>
    have hu : .unknown ∉ fs.map (·.2) := by
      intro hm
      obtain ⟨f, h1, h2⟩ := List.mem_map.1 hm
      exact (flagLetters_known (h f h1)).2 h2
    have e := shortText_flags h []
    match fs, ne, h with
    | f :: fs, _, h =>
      rw [List.append_nil] at e
      rw [List.map_cons, List.map_cons] at e
      rw [List.map_cons, getopt_short (flagLetters_known (h f (.head _))).1, e]
      simp only [shortText, List.append_nil, before, ih.1, List.mem_append, not_or]
      exact ⟨rfl, hu, ih.2⟩
  | @attached fs c mk arg rest os ps h hc ne _ ih =>
    have hu : .unknown ∉ fs.map (·.2) := by
      intro hm
      obtain ⟨f, h1, h2⟩ := List.mem_map.1 hm
      exact (flagLetters_known (h f h1)).2 h2
    have e := shortText_flags h (c :: arg)
    have e2 : shortText (c :: arg) = ([mk arg], none) := by
      rw [shortText, argLetters_iff.2 hc]; simp [ne]
    rw [e2] at e
    have e3 : getopt none (('-' :: (fs.map (·.1) ++ c :: arg)) :: rest) =
        before (shortText (fs.map (·.1) ++ c :: arg)).1 (getopt (shortText (fs.map (·.1) ++ c :: arg)).2 rest) := by
      cases fs with
      | nil => exact getopt_short (argLetters_known hc).1 _ _
      | cons f fs => exact getopt_short (flagLetters_known (h f (.head _))).1 _ _
    rw [e3, e]
    simp only [before, ih.1, List.mem_append, not_or, List.append_assoc, List.cons_append, List.nil_append,
      List.mem_cons]
    exact ⟨trivial, hu, fun e => (argLetters_known hc).2 arg e.symm, ih.2⟩
  | @separate fs c mk arg rest os ps h hc _ ih =>
    have hu : .unknown ∉ fs.map (·.2) := by
      intro hm
      obtain ⟨f, h1, h2⟩ := List.mem_map.1 hm
      exact (flagLetters_known (h f h1)).2 h2
    have e := shortText_flags h [c]
    have e2 : shortText [c] = ([], some mk) := by
      rw [shortText, argLetters_iff.2 hc]; simp
    rw [e2] at e
    have e3 : getopt none (('-' :: (fs.map (·.1) ++ [c])) :: arg :: rest) =
        before (shortText (fs.map (·.1) ++ [c])).1 (getopt (shortText (fs.map (·.1) ++ [c])).2 (arg :: rest)) := by
      cases fs with
      | nil => exact getopt_short (argLetters_known hc).1 _ _
      | cons f fs => exact getopt_short (flagLetters_known (h f (.head _))).1 _ _
    rw [e3, e]
    simp only [getopt, before, ih.1, List.mem_append, not_or, List.cons_append, List.nil_append, List.mem_cons,
      List.append_nil]
    exact ⟨trivial, hu, fun e => (argLetters_known hc).2 arg e.symm, ih.2⟩
  | @name s n o rest os ps hn hs _ ih =>
    obtain ⟨k1, k2, k3⟩ := flagNames_known hn
    obtain ⟨c1, c2⟩ := cut_none (hs.no_equals k1)
    have e : longText s = ([o], none) := by
      unfold longText; rw [c1, c2, findLong_iff.2 ⟨n, flagNames_iff.2 hn, hs⟩]
    show getopt none (('-' :: '-' :: s) :: rest) = _ ∧ _
    rw [getopt_long (hs.ne_nil k2), e]
    simp only [before, ih.1, List.cons_append, List.nil_append, List.mem_cons, not_or]
    exact ⟨trivial, fun e => k3 e.symm, ih.2⟩
  | @equals s n mk arg rest os ps hn hs _ ih =>
    obtain ⟨k1, k2, k3⟩ := argNames_known hn
    obtain ⟨c1, c2⟩ := cut_some (v := arg) (hs.no_equals k1)
    have e : longText (s ++ '=' :: arg) = ([mk arg], none) := by
      unfold longText; rw [c1, c2, findLong_iff.2 ⟨n, argNames_iff.2 hn, hs⟩]
    have e2 : cs!"--" ++ s ++ cs!"=" ++ arg = '-' :: '-' :: (s ++ '=' :: arg) := by simp
    rw [e2, getopt_long (by simp), e]
    simp only [before, ih.1, List.cons_append, List.nil_append, List.mem_cons, not_or]
    exact ⟨trivial, fun e => k3 arg e.symm, ih.2⟩
  | @next s n mk arg rest os ps hn hs _ ih =>
    obtain ⟨k1, k2, k3⟩ := argNames_known hn
    obtain ⟨c1, c2⟩ := cut_none (hs.no_equals k1)
    have e : longText s = ([], some mk) := by
      unfold longText; rw [c1, c2, findLong_iff.2 ⟨n, argNames_iff.2 hn, hs⟩]
    show getopt none (('-' :: '-' :: s) :: arg :: rest) = _ ∧ _
    rw [getopt_long (hs.ne_nil k2), e]
    simp only [getopt, before, ih.1, List.cons_append, List.nil_append, List.mem_cons, not_or]
    exact ⟨trivial, fun e => k3 arg e.symm, ih.2⟩

/-- **C78.** What the program makes of its arguments is what they mean; arguments without a meaning
give an unknown option. -/
theorem C78_means (argv : List Str) (os : List Opt) (ps : List Str) :
    Means argv os ps ↔ getopt none argv = (os, ps) ∧ .unknown ∉ os :=
  ⟨getopt_of_means, fun h => means_of_getopt h.1 h.2⟩

/-- **C78 (run).** The program does what the options and paths that its arguments mean say. -/
theorem C78_run {argv : List Str} {os : List Opt} {ps : List Str} (h : Means argv os ps) (w : Machine) :
    selint w argv = selintMain w os ps := by
  unfold selint
  rw [(getopt_of_means h).1]

/-- **C78 (one meaning).** Arguments have at most one meaning. -/
theorem C78_unique {argv : List Str} {os os' : List Opt} {ps ps' : List Str} (h : Means argv os ps)
    (h' : Means argv os' ps') : os = os' ∧ ps = ps' := by
  have := (getopt_of_means h).1.symm.trans (getopt_of_means h').1
  exact ⟨congrArg Prod.fst this, congrArg Prod.snd this⟩

/-- **C78 (paths).** The paths are among the arguments, in the order given. -/
theorem C78_paths {argv : List Str} {os : List Opt} {ps : List Str} (h : Means argv os ps) : ps.Sublist argv := by
  induction h with
  | nothing => exact .slnil
  | dashes ps => exact (List.Sublist.refl ps).cons _
  | path _ _ ih => exact ih.cons_cons _
  | letters _ _ _ ih => exact ih.cons _
  | attached _ _ _ _ ih => exact ih.cons _
  | separate _ _ _ ih => exact (ih.cons _).cons _
  | name _ _ _ ih => exact ih.cons _
  | equals _ _ _ ih => exact ih.cons _
  | next _ _ _ ih => exact (ih.cons _).cons _

/-- **C78 (errors).** With arguments that have no meaning the program checks nothing and ends with
status 64, unless it was asked for help or its version before. -/
theorem C78_usage {argv : List Str} (h : ¬∃ os ps, Means argv os ps) (w : Machine) :
    ∃ r, selint w argv = .ok r ∧ r.findings = [] ∧ r.summary = none ∧
      (r.status = 64 ∨ r.status = 0 ∧ (.help ∈ (getopt none argv).1 ∨ .version ∈ (getopt none argv).1)) := by
  have hu : .unknown ∈ (getopt none argv).1 := Classical.not_not.1 fun hu =>
    h ⟨_, _, (C78_means argv _ _).2 ⟨rfl, hu⟩⟩
  unfold selint selintMain
  generalize (getopt none argv).1 = os at hu
  have hopt := C08_options os
  cases hs : os.findSome? optStop with
  | none =>
    have := List.findSome?_eq_none_iff.1 hs _ hu
    cases this
  | some c =>
    rw [hs] at hopt
    simp only at hopt
    rw [hopt]
    refine ⟨_, rfl, rfl, rfl, ?_⟩
    obtain ⟨x, hx, hc⟩ := List.exists_of_findSome?_eq_some hs
    cases x <;> simp only [optStop] at hc <;> first | cases hc; done | skip
    · split at hc <;> cases hc; exact .inl rfl
    · cases hc; exact .inr ⟨rfl, .inl hx⟩
    · split at hc <;> cases hc; exact .inl rfl
    · cases hc; exact .inr ⟨rfl, .inr hx⟩
    · cases hc; exact .inl rfl

/-- **C78 (nothing is out of reach).** Any options and paths can be written. -/
theorem C78_writable (os : List Opt) (ps : List Str) (h : .unknown ∉ os) : ∃ argv, Means argv os ps := by
  induction os with
  | nil => exact ⟨_, .dashes ps⟩
  | cons o os ih =>
    obtain ⟨argv, m⟩ := ih fun hm => h (.tail _ hm)
    have flag : ∀ n, (n, o) ∈ flagNames → ∃ argv, Means argv (o :: os) ps := fun n hn => ⟨_, .name hn (.inl rfl) m⟩
    have arg : ∀ n mk a, (n, mk) ∈ argNames → mk a = o → ∃ argv, Means argv (o :: os) ps := by
      rintro n mk a hn rfl
      exact ⟨_, .equals hn (.inl rfl) m⟩
    cases o with
    | config a => exact arg cs!"config" .config a (by simp [argNames]) rfl
    | context a => exact arg cs!"context" .context a (by simp [argNames]) rfl
    | color a => exact arg cs!"color" .color a (by simp [argNames]) rfl
    | debugParser => exact flag cs!"debug-parser" (by simp [flagNames])
    | disable a => exact arg cs!"disable" .disable a (by simp [argNames]) rfl
    | enable a => exact arg cs!"enable" .enable a (by simp [argNames]) rfl
    | onlyEnabled => exact flag cs!"only-enabled" (by simp [flagNames])
    | fail => exact flag cs!"fail" (by simp [flagNames])
    | help => exact flag cs!"help" (by simp [flagNames])
    | level a => exact arg cs!"level" .level a (by simp [argNames]) rfl
    | modulesConf => exact arg cs!"modules-conf" (fun _ => .modulesConf) [] (by simp [argNames]) rfl
    | recursive => exact flag cs!"recursive" (by simp [flagNames])
    | source => exact flag cs!"source" (by simp [flagNames])
    | scanHiddenDirs => exact flag cs!"scan-hidden-dirs" (by simp [flagNames])
    | summaryOnly => exact flag cs!"summary-only" (by simp [flagNames])
    | summary => exact flag cs!"summary" (by simp [flagNames])
    | version => exact flag cs!"version" (by simp [flagNames])
    | verbose => exact flag cs!"verbose" (by simp [flagNames])
    | unknown => exact absurd (.head _) h

/-- Letters in one word, an attached and a separate argument, a shortened name, paths in between. -/
example : Means [cs!"-rF", cs!"a", cs!"-lE", cs!"--dis=W-001", cs!"-se", cs!"C-001", cs!"b", cs!"--summary", cs!"--", cs!"-c"]
    [.recursive, .fail, .level cs!"E", .disable cs!"W-001", .source, .enable cs!"C-001", .summary]
    [cs!"a", cs!"b", cs!"-c"] :=
  (C78_means _ _ _).2 (by decide)

/-- No meaning: a letter that is none, a name that two options begin with, an argument that is
missing, an argument that is not wanted. -/
example : ∀ argv ∈ [[cs!"-x"], [cs!"--ver"], [cs!"a", cs!"-d"], [cs!"--fail=yes"]], ¬∃ os ps, Means argv os ps := by
  have key : ∀ argv ∈ [[cs!"-x"], [cs!"--ver"], [cs!"a", cs!"-d"], [cs!"--fail=yes"]],
      .unknown ∈ (getopt none argv).1 := by decide
  rintro argv h ⟨os, ps, m⟩
  obtain ⟨h1, h2⟩ := (C78_means _ _ _).1 m
  have := key argv h
  rw [h1] at this
  exact h2 this

/-- `--modules-conf` takes an argument, `-m` does not: what follows `-m` is a path to check. -/
theorem C78_modules_conf :
    Means [cs!"--modules-conf", cs!"modules.conf", cs!"dir"] [.modulesConf] [cs!"dir"] ∧
    Means [cs!"-m", cs!"modules.conf", cs!"dir"] [.modulesConf] [cs!"modules.conf", cs!"dir"] :=
  ⟨(C78_means _ _ _).2 (by decide), (C78_means _ _ _).2 (by decide)⟩

/-- A whole run, from the words of the command line. -/
example : (match selint exMachine [cs!"mod", cs!"-rS", cs!"--fail", cs!"-d", cs!"E-005"] with
    | .ok r => (r.status, r.findings.map fun f => (f.filename, f.lineno, f.result.severity, f.result.checkId), r.summary.isSome)
    | .ub => (0, [], false)) = (65, [(cs!"foo.if", 1, 'C', 4)], true) := by decide +kernel

end Selint
