import Verif.Spec.Config
import Verif.Lemmas.Basic
import Verif.Lemmas.Maps
/-! # C44: configuration validation -/

namespace Selint

open Spec

theorem parseSeverity_iff (s : Str) (c : Char) :
    parseSeverity s = some c ↔ (s, c) ∈ severityNames := by
  simp only [parseSeverity, strcmp_eq_zero, severityNames, List.mem_cons, Prod.mk.injEq,
    List.not_mem_nil, or_false]
  grind

theorem parseOrderConf_iff (s : Str) (c : OrderConf) :
    parseOrderConf s = some c ↔ (s, c) ∈ orderingNames := by
  simp only [parseOrderConf, strcmp_eq_zero, orderingNames, List.mem_cons, Prod.mk.injEq,
    List.not_mem_nil, or_false]
  grind

theorem parseReqFlavor_iff (s : Str) (c : DeclFlavor) :
    parseReqFlavor s = some c ↔ (s, c) ∈ flavorNames := by
  simp only [parseReqFlavor, strcmp_eq_zero, flavorNames, List.mem_cons, Prod.mk.injEq,
    List.not_mem_nil, or_false]
  grind

theorem parseBool_iff (s : Str) (b : Bool) : parseBool s = some b ↔ (s, b) ∈ boolNames := by
  simp only [parseBool, strcmp_eq_zero, boolNames, List.mem_cons, Prod.mk.injEq,
    List.not_mem_nil, or_false]
  constructor
  · intro h
    split at h
    · rename_i h1
      simp only [Option.some.injEq] at h; subst h
      rcases h1 with h | h | h | h | h | h <;> subst h <;> simp
    · split at h
      · rename_i h1
        simp only [Option.some.injEq] at h; subst h
        rcases h1 with h | h | h | h | h | h <;> subst h <;> simp
      · simp at h
  · intro h
    rcases h with h | h | h | h | h | h | h | h | h | h | h | h <;> obtain ⟨rfl, rfl⟩ := h <;> decide

theorem parseReqFlavors_spec (acc : List DeclFlavor) (l : List Str) (r : List DeclFlavor)
    (hacc : acc.Nodup) :
    parseReqFlavors acc l = some r ↔
      ∃ fs, r = acc ++ fs ∧ r.Nodup ∧ l.length = fs.length ∧ ∀ p ∈ l.zip fs, p ∈ flavorNames := by
  induction l generalizing acc with
  | nil =>
    simp only [parseReqFlavors, Option.some.injEq]
    constructor
    · rintro rfl; exact ⟨[], by simp, hacc, rfl, by simp⟩
    · rintro ⟨fs, h1, _, h3, _⟩
      cases fs with
      | nil => simpa using h1.symm
      | cons _ _ => simp at h3
  | cons s l ih =>
    unfold parseReqFlavors
    constructor
    · intro h
      split at h
      · simp at h
      · rename_i f hf
        split at h
        · simp at h
        · rename_i hany
          have hnot : f ∉ acc := by simpa using hany
          have hnd : (acc ++ [f]).Nodup := by
            rw [List.nodup_append]; simp [hacc]
            intro a ha h'; subst h'; exact hnot ha
          obtain ⟨fs, h1, h2, h3, h4⟩ := (ih (acc ++ [f]) hnd).mp h
          refine ⟨f :: fs, by simp [h1], h2, by simp [h3], ?_⟩
          intro p hp
          simp only [List.zip_cons_cons, List.mem_cons] at hp
          rcases hp with rfl | hp
          · exact (parseReqFlavor_iff s f).mp hf
          · exact h4 p hp
    · rintro ⟨fs, h1, h2, h3, h4⟩
      cases fs with
      | nil => simp at h3
      | cons f fs =>
        have hf : parseReqFlavor s = some f := (parseReqFlavor_iff s f).mpr (h4 _ (by simp))
        rw [hf]
        have hnd : (acc ++ [f] ++ fs).Nodup := by rw [h1] at h2; simpa using h2
        have hnot : f ∉ acc := by
          intro hm
          rw [List.append_assoc, List.nodup_append] at hnd
          exact hnd.2.2 f hm f (by simp) rfl
        have hany : acc.any (fun g => g == f) = false := by
          rw [List.any_eq_false]; intro x hx hxe
          simp only [beq_iff_eq] at hxe
          exact hnot (hxe ▸ hx)
        simp only [hany, Bool.false_eq_true, if_false]
        rw [ih (acc ++ [f]) (by rw [List.nodup_append] at hnd; exact hnd.1)]
        exact ⟨fs, by simp [h1], h2, by simpa using h3,
          fun p hp => h4 p (by simp [hp])⟩

/-- The flavor a documented name stands for (for zipping). -/
theorem flavorNames_fst_inj {s t : Str} {f g : DeclFlavor} (h1 : (s, f) ∈ flavorNames)
    (h2 : (t, g) ∈ flavorNames) : s = t ↔ f = g := by
  simp only [flavorNames, List.mem_cons, Prod.mk.injEq, List.not_mem_nil, or_false] at h1 h2
  rcases h1 with h | h | h | h | h | h <;> obtain ⟨rfl, rfl⟩ := h <;>
  rcases h2 with h | h | h | h | h | h <;> obtain ⟨rfl, rfl⟩ := h <;> decide

theorem zip_nodup {l : List Str} {fs : List DeclFlavor} (hlen : l.length = fs.length)
    (h : ∀ p ∈ l.zip fs, p ∈ flavorNames) : l.Nodup ↔ fs.Nodup := by
  induction l generalizing fs with
  | nil => cases fs <;> simp_all
  | cons s l ih =>
    cases fs with
    | nil => simp at hlen
    | cons f fs =>
      have hl : l.length = fs.length := by simpa using hlen
      have h' : ∀ p ∈ l.zip fs, p ∈ flavorNames := fun p hp => h p (by simp [hp])
      have h0 : (s, f) ∈ flavorNames := h _ (by simp)
      have hm : s ∈ l ↔ f ∈ fs := by
        clear ih
        induction l generalizing fs with
        | nil => cases fs <;> simp_all
        | cons t l ih2 =>
          cases fs with
          | nil => simp at hl
          | cons g fs =>
            simp only [List.mem_cons]
            have ht : (t, g) ∈ flavorNames := h' _ (by simp)
            have h2 := ih2 (fs := fs) (by simpa using hl) (by
                intro p hp; simp only [List.zip_cons_cons, List.mem_cons] at hp
                rcases hp with rfl | hp
                · exact h0
                · exact h' p (by simp [hp])) (by simpa using hl)
                (fun p hp => h' p (by simp [hp]))
            rw [flavorNames_fst_inj h0 ht, h2]
      simp only [List.nodup_cons, ih hl h', hm]

/-- A duplicate-free list contained in one that is not longer is a permutation of it. -/
theorem perm_of_nodup_subset {α : Type} [DecidableEq α] {l r : List α} (hnd : l.Nodup)
    (h : ∀ s ∈ l, s ∈ r) (hlen : r.length ≤ l.length) : l.Perm r := by
  induction l generalizing r with
  | nil => cases r <;> simp_all
  | cons a l ih =>
    have ha : a ∈ r := h a (by simp)
    simp only [List.nodup_cons] at hnd
    have h1 : l.Perm (r.erase a) := by
      apply ih hnd.2
      · intro s hs
        have hne : s ≠ a := fun he => hnd.1 (he ▸ hs)
        exact (List.mem_erase_of_ne hne).mpr (h s (by simp [hs]))
      · rw [List.length_erase_of_mem ha]; simp at hlen; omega
    exact (h1.cons a).trans (List.perm_cons_erase ha).symm

/-- Six documented names without repetition are a permutation of the six. -/
theorem perm_of_nodup_six {l : List Str} (hlen : l.length = 6) (hnd : l.Nodup)
    (h : ∀ s ∈ l, s ∈ flavorNames.map (·.1)) : l.Perm (flavorNames.map (·.1)) :=
  perm_of_nodup_subset hnd h (by simp [hlen, flavorNames])

theorem exists_zip {l : List Str} (h : ∀ s ∈ l, s ∈ flavorNames.map (·.1)) :
    ∃ fs : List DeclFlavor, l.length = fs.length ∧ ∀ p ∈ l.zip fs, p ∈ flavorNames := by
  induction l with
  | nil => exact ⟨[], rfl, by simp⟩
  | cons s l ih =>
    obtain ⟨fs, h1, h2⟩ := ih (fun t ht => h t (by simp [ht]))
    have := h s (by simp)
    simp only [List.mem_map] at this
    obtain ⟨⟨a, f⟩, hp, rfl⟩ := this
    exact ⟨f :: fs, by simp [h1], by
      intro p hp'
      simp only [List.zip_cons_cons, List.mem_cons] at hp'
      rcases hp' with rfl | hp'
      · exact hp
      · exact h2 p hp'⟩

theorem fst_mem_of_zip {l : List Str} {fs : List DeclFlavor} (hlen : l.length = fs.length)
    (h : ∀ p ∈ l.zip fs, p ∈ flavorNames) : ∀ s ∈ l, s ∈ flavorNames.map (·.1) := by
  intro s hs
  have : s ∈ (l.zip fs).map (·.1) := by rw [List.map_fst_zip (by omega)]; exact hs
  simp only [List.mem_map] at this
  obtain ⟨p, hp, rfl⟩ := this
  exact List.mem_map_of_mem (h p hp)

/-- **C44 (acceptance).** A configuration is accepted iff all its settings have documented
values and `ordering_requires` is a permutation of the six flavors. -/
theorem C44_accepted_iff (cfg : Cfg) (src : Bool) (m : Maps) :
    (parseConfig cfg src m).isSome = true ↔ ValidConfig cfg := by
  constructor
  · intro h
    unfold parseConfig at h
    split at h
    · simp at h
    rename_i sev hsev
    simp only at h
    split at h
    · simp at h
    rename_i oc hoc
    split at h
    · simp at h
    rename_i hlen
    split at h
    · simp at h
    rename_i req hreq
    split at h
    · simp at h
    rename_i same hsame
    split at h
    · simp at h
    rename_i skip hskip
    obtain ⟨fs, h1, h2, h3, h4⟩ := (parseReqFlavors_spec [] _ _ List.nodup_nil).mp hreq
    simp only [List.nil_append] at h1; subst h1
    exact ⟨⟨sev, (parseSeverity_iff _ _).mp hsev⟩, ⟨oc, (parseOrderConf_iff _ _).mp hoc⟩,
      perm_of_nodup_six (by omega) ((zip_nodup h3 h4).mpr h2) (fst_mem_of_zip h3 h4),
      ⟨same, (parseBool_iff _ _).mp hsame⟩, ⟨skip, (parseBool_iff _ _).mp hskip⟩⟩
  · rintro ⟨⟨sev, h1⟩, ⟨oc, h2⟩, h3, ⟨b1, h4⟩, ⟨b2, h5⟩⟩
    have hnd : cfg.orderingRequires.Nodup := h3.nodup_iff.mpr (by decide)
    obtain ⟨fs, hl, hz⟩ := exists_zip (fun s hs => h3.mem_iff.mp hs)
    have hreq : parseReqFlavors [] cfg.orderingRequires = some fs :=
      (parseReqFlavors_spec [] _ _ List.nodup_nil).mpr
        ⟨fs, rfl, (zip_nodup hl hz).mp hnd, hl, hz⟩
    have hlen : cfg.orderingRequires.length = 6 := h3.length_eq
    unfold parseConfig
    rw [(parseSeverity_iff _ _).mpr h1]
    simp only [(parseOrderConf_iff _ _).mpr h2, hlen, ne_eq, not_true_eq_false, if_false, hreq,
      (parseBool_iff _ _).mpr h4, (parseBool_iff _ _).mpr h5, Option.isSome_some]

/-- **C44 (transfer).** What an accepted configuration sets is what it says. -/
theorem C44_transfer (cfg : Cfg) (src : Bool) (m : Maps) (p : ParsedConfig)
    (h : parseConfig cfg src m = some p) :
    (cfg.severity, p.severity) ∈ severityNames ∧
    p.disabled = cfg.disable ∧
    p.enabled = (if src then cfg.enableSource else cfg.enableNormal) ∧
    p.customFcMacros = cfg.customFcMacros ∧
    p.checkData.customTeSimpleMacros = cfg.customTeSimpleMacros ∧
    (cfg.orderingRules, p.checkData.orderConf) ∈ orderingNames ∧
    p.checkData.orderRequires.length = 6 ∧
    (∀ q ∈ cfg.orderingRequires.zip p.checkData.orderRequires, q ∈ flavorNames) ∧
    p.checkData.orderRequires.Nodup ∧
    (cfg.orderingRequiresSameFlavor, p.checkData.orderingRequiresSameFlavor) ∈ boolNames ∧
    (cfg.skipCheckingGeneratedFcs, p.checkData.skipCheckingGeneratedFcs) ∈ boolNames := by
  unfold parseConfig at h
  split at h
  · simp at h
  rename_i sev hsev
  simp only at h
  split at h
  · simp at h
  rename_i oc hoc
  split at h
  · simp at h
  rename_i hlen
  split at h
  · simp at h
  rename_i req hreq
  split at h
  · simp at h
  rename_i same hsame
  split at h
  · simp at h
  rename_i skip hskip
  simp only [Option.some.injEq] at h
  subst h
  obtain ⟨fs, h1, h2, h3, h4⟩ := (parseReqFlavors_spec [] _ _ List.nodup_nil).mp hreq
  simp only [List.nil_append] at h1; subst h1
  exact ⟨(parseSeverity_iff _ _).mp hsev, rfl, rfl, rfl, rfl, (parseOrderConf_iff _ _).mp hoc,
    by simp only; omega, h4, h2, (parseBool_iff _ _).mp hsame, (parseBool_iff _ _).mp hskip⟩

theorem insertConfig_lookup (m : Maps) (names : List Str) (fl g : DeclFlavor) (k : Str) :
    (insertConfigDeclarations m names fl).lookUpDecl k g =
      (m.lookUpDecl k g).or (if k ∈ names ∧ fl = g then some cs!"__assumed__" else none) := by
  unfold insertConfigDeclarations
  induction names generalizing m with
  | nil => simp
  | cons n ns ih =>
    rw [List.foldl_cons, ih, Maps.lookUpDecl_insertDecl]
    simp only [List.mem_cons]
    cases m.lookUpDecl k g <;> by_cases h1 : n = k <;> by_cases h2 : fl = g <;>
      by_cases h3 : k ∈ ns <;> simp [h1, h2, h3, eq_comm (a := k)]

/-- **C44 (assumed names).** After an accepted configuration the symbol tables know, in
addition to what they knew, exactly the assumed users and roles (under `__assumed__`). -/
theorem C44_assumed (cfg : Cfg) (src : Bool) (m : Maps) (p : ParsedConfig)
    (h : parseConfig cfg src m = some p) (k : Str) (fl : DeclFlavor) :
    p.maps.lookUpDecl k fl = (m.lookUpDecl k fl).or
      (if (fl = .user ∧ k ∈ cfg.assumeUsers) ∨ (fl = .role ∧ k ∈ cfg.assumeRoles)
       then some cs!"__assumed__" else none) := by
  have hm : p.maps = insertConfigDeclarations (insertConfigDeclarations m cfg.assumeUsers .user)
      cfg.assumeRoles .role := by
    unfold parseConfig at h
    simp only at h
    repeat (split at h <;> try (simp at h; done))
    all_goals (simp only [Option.some.injEq] at h; subst h; rfl)
  rw [hm, insertConfig_lookup, insertConfig_lookup]
  cases fl <;> cases m.lookUpDecl k _ <;> simp

example : ValidConfig {} := by
  constructor
  · exact ⟨'C', by decide⟩
  · exact ⟨.lax, by decide⟩
  · decide
  · exact ⟨true, by decide⟩
  · exact ⟨true, by decide⟩
example : ¬ ValidConfig { orderingRequires := [cs!"bool", cs!"class", cs!"role", cs!"role", cs!"attribute", cs!"type"] } := by
  intro h; exact absurd h.requires (by decide)

end Selint
