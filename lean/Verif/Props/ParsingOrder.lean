import Verif.Props.ParsingText
/-! # C109: the order of the files -/

namespace Selint

open Spec

section
variable {F σ : Type} {prog : Program F σ}

/-- The names of cells. -/
def CellNames (h : FileHeap) (as : List Nat) (ns : List Str) : Prop :=
  as.map (fun a => (h[a]?).map FileCell.filename) = ns.map some

theorem cellNames_links {h h' : FileHeap} (hl : links h = links h') {as : List Nat} {ns : List Str} (hn : CellNames h as ns) :
    CellNames h' as ns := by
  unfold CellNames at hn ⊢
  rw [← hn]
  refine List.map_congr_left fun a _ => ?_
  have : (links h)[a]? = (links h')[a]? := by rw [hl]
  simp only [links, List.getElem?_map] at this
  cases h1 : h[a]? <;> cases h2 : h'[a]? <;> simp_all

/-- How far a run has come: these files are left. -/
structure Left (all : List (NodeFlavor × Str)) (h₀ : FileHeap) (s : RunnerState F σ) (rest : List (NodeFlavor × Str)) : Prop where
  links : links s.heap = links h₀
  files : parsedFiles s.log ++ rest = all

/-- A run that has come so far, or has stopped before. -/
def Come (all : List (NodeFlavor × Str)) (h₀ : FileHeap) (rest : List (NodeFlavor × Str)) (e : SelintError) (s : RunnerState F σ) : Prop :=
  (e = .success ∧ Left all h₀ s rest) ∨ (e = .parseError ∧ ∃ r, parsedFiles s.log ++ r = all)

theorem parseAll_come {all : List (NodeFlavor × Str)} {h₀ : FileHeap} {fl : NodeFlavor} {rest : List (NodeFlavor × Str)} :
    ∀ (fuel : Nat) (as : List Nat) (ns : List Str) (p : Option Nat) {s s' : RunnerState F σ} {e : SelintError},
    Chain s.heap p as → CellNames s.heap as ns → Left all h₀ s (ns.map (fl, ·) ++ rest) →
    parseAll prog fl fuel p s = some (e, s') → Come all h₀ rest e s'
  | fuel, [], ns, p, s, s', e, hc, hn, hl, h => by
    cases hc
    have : some (SelintError.success, s) = some (e, s') := by rw [← h]; cases fuel <;> rfl
    cases this
    cases ns with
    | nil => exact .inl ⟨rfl, hl⟩
    | cons => simp [CellNames] at hn
  | 0, _ :: _, _, _, _, _, _, hc, _, _, h => by
    obtain ⟨rfl, -⟩ := hc
    cases h
  | fuel + 1, a :: as, ns, p, s, s', e, hc, hn, hl, h => by
    obtain ⟨rfl, c, h1, h2⟩ := hc
    cases ns with
    | nil => simp [CellNames] at hn
    | cons n ns =>
    have hlk : links (parseCell prog fl a c s).heap = links s.heap := links_set h1 _
    simp only [CellNames, List.map_cons, List.cons.injEq, h1, Option.map_some, Option.some.injEq] at hn
    obtain ⟨rfl, hn⟩ := hn
    have hfiles : parsedFiles (parseCell prog fl a c s).log ++ (ns.map (fl, ·) ++ rest) = all := by
      rw [← hl.files]
      simp [parseCell, parsedFiles]
    simp only [parseAll, h1] at h
    split at h
    · cases h
      exact .inr ⟨rfl, _, hfiles⟩
    · exact parseAll_come fuel as ns c.next (chain_links hlk.symm h2) (cellNames_links hlk.symm hn)
        ⟨hlk.trans hl.links, hfiles⟩ h

theorem andThen_come {all rest rest' : List (NodeFlavor × Str)} {h₀ : FileHeap} {r : Option (SelintError × RunnerState F σ)}
    {f : RunnerState F σ → Option (SelintError × RunnerState F σ)} {e : SelintError} {s' : RunnerState F σ}
    (hr : ∀ e s, r = some (e, s) → Come all h₀ rest e s)
    (hf : ∀ s, Left all h₀ s rest → ∀ e s', f s = some (e, s') → Come all h₀ rest' e s')
    (h : andThen r f = some (e, s')) : Come all h₀ rest' e s' := by
  unfold andThen at h
  split at h
  · cases h
  · rename_i s
    rcases hr _ _ rfl with ⟨-, hs⟩ | ⟨hs, -⟩
    · exact hf s hs _ _ h
    · cases hs
  · rename_i r' hne
    cases h
    rcases hr _ _ rfl with ⟨rfl, -⟩ | hs
    · exact absurd rfl (hne _)
    · exact .inr hs

theorem runAllChecks_come {all : List (NodeFlavor × Str)} {h₀ : FileHeap} {fl : FileFlavor} : ∀ (fuel : Nat) (p : Option Nat)
    {s s' : RunnerState F σ} {e : SelintError}, Left all h₀ s [] → runAllChecks prog fl fuel p s = some (e, s') →
    Come all h₀ [] e s'
  | fuel, none, s, s', e, hs, h => by
    have : some (SelintError.success, s) = some (e, s') := by rw [← h]; cases fuel <;> rfl
    cases this
    exact .inl ⟨rfl, hs⟩
  | 0, some _, _, _, _, _, h => by cases h
  | fuel + 1, some a, s, s', e, hs, h => by
    simp only [runAllChecks] at h
    split at h
    · cases h
    · rename_i c hc
      have hl : Left all h₀ (checkCell prog fl a c s) [] :=
        ⟨hs.links, by rw [← hs.files]; simp [checkCell, parsedFiles]⟩
      exact runAllChecks_come fuel c.next hl h

theorem runAnalysis_come {ls : Lists} {te ifs fc cte cif : List Nat} {nte nifs nfc ncte ncif : List Str}
    {s s' : RunnerState F σ} {e : SelintError} (hw : World s.heap ls te ifs fc cte cif) (hs : s.log = [])
    (h1 : CellNames s.heap te nte) (h2 : CellNames s.heap ifs nifs) (h3 : CellNames s.heap fc nfc)
    (h4 : CellNames s.heap cte ncte) (h5 : CellNames s.heap cif ncif) (h : runAnalysis prog ls s = some (e, s')) :
    Come (nifs.map (.ifFile, ·) ++ (ncif.map (.ifFile, ·) ++ (ncte.map (.teFile, ·) ++ (nte.map (.teFile, ·) ++
      (nfc.map (.fcFile, ·) ++ []))))) s.heap [] e s' := by
  simp only [runAnalysis, Option.map_eq_some_iff] at h
  obtain ⟨⟨e', s''⟩, h, heq⟩ := h
  cases heq
  generalize hall : (nifs.map (.ifFile, ·) ++ (ncif.map (.ifFile, ·) ++ (ncte.map (.teFile, ·) ++ (nte.map (.teFile, ·) ++
      (nfc.map (.fcFile, ·) ++ [])))) : List (NodeFlavor × Str)) = all
  have hc : Come all s.heap [] e' s'' := by
    refine andThen_come (fun _ _ => parseAll_come _ ifs nifs _ hw.hifs.1 h2 ⟨rfl, by rw [hs, ← hall]; rfl⟩)
      (fun s1 hs _ _ h => ?_) h
    refine andThen_come (fun _ _ => parseAll_come _ cif ncif _ (chain_links hs.links.symm hw.hcif.1)
      (cellNames_links hs.links.symm h5) hs) (fun s1 hs _ _ h => ?_) h
    refine andThen_come (rest := ncte.map (.teFile, ·) ++ (nte.map (.teFile, ·) ++ (nfc.map (.fcFile, ·) ++ [])))
      (fun e2 s2 hm => ?_) (fun s1 hs _ _ h => ?_) h
    · have nd := hw.nodup
      simp only [List.append_assoc] at nd
      rw [← List.append_assoc] at nd
      obtain ⟨m, -, hm'⟩ := markSpliced_ok s1 ⟨chain_links hs.links.symm hw.hifs.1, hw.hifs.2⟩
        ⟨chain_links hs.links.symm hw.hcif.1, hw.hcif.2⟩ (List.nodup_append.1 nd).1
      rw [hm'] at hm
      cases hm
      exact .inl ⟨rfl, hs.links, by rw [← hs.files]; simp [parsedFiles]⟩
    refine andThen_come (fun _ _ => parseAll_come _ cte ncte _ (chain_links hs.links.symm hw.hcte.1)
      (cellNames_links hs.links.symm h4) hs) (fun s1 hs _ _ h => ?_) h
    refine andThen_come (fun _ _ => parseAll_come _ te nte _ (chain_links hs.links.symm hw.hte.1)
      (cellNames_links hs.links.symm h1) hs) (fun s1 hs _ _ h => ?_) h
    refine andThen_come (fun _ _ => parseAll_come _ fc nfc _ (chain_links hs.links.symm hw.hfc.1)
      (cellNames_links hs.links.symm h3) hs) (fun s1 hs _ _ h => ?_) h
    refine andThen_come (fun _ _ => runAllChecks_come _ _ hs) (fun s1 hs _ _ h => ?_) h
    refine andThen_come (fun _ _ => runAllChecks_come _ _ hs) (fun s1 hs _ _ h => ?_) h
    exact runAllChecks_come _ _ hs h
  have hlog : parsedFiles (cleanupParsing s'').log = parsedFiles s''.log := by simp [cleanupParsing, parsedFiles]
  rcases hc with ⟨rfl, hl⟩ | ⟨rfl, hl⟩
  · exact .inl ⟨rfl, hl.links, by rw [hlog]; exact hl.files⟩
  · exact .inr ⟨rfl, by rw [hlog]; exact hl⟩

end

/-- **C109 (run).** The files of a run are parsed in their order up to the first that cannot be parsed. What is printed meanwhile
announces each of them with `-v`, and besides it is only about that last file: a te or if file is named. About an fc file
nothing is said. In the last file a call that cannot be expanded may come before the error; what is printed then is
undefined (C96). -/
theorem C109_run {w : Machine} {st : Settings} {s : Scan} {ck : Checks CheckFn} {e : SelintError}
    {r : RunnerState CheckFn (Res Statics)} (h : analyse w st s ck = .ok (e, r))
    (hfew : FewLines (w.sources st.customFcMacros)) (x : Speaking) :
    (e = .success ∧ (∀ f ∈ parsingOrder s, Parseable (w.sources st.customFcMacros) f.2 f.1) ∧
      logText x (w.sources st.customFcMacros) st.opts.suppressOutput st.checkData r.log s.maps =
        .ok ((parsingOrder s).flatMap (announced x.verbose))) ∨
    (e = .parseError ∧ ∃ done f rest, parsingOrder s = done ++ f :: rest ∧
      (∀ g ∈ done, Parseable (w.sources st.customFcMacros) g.2 g.1) ∧ ¬Parseable (w.sources st.customFcMacros) f.2 f.1 ∧
      ∀ t, logText x (w.sources st.customFcMacros) st.opts.suppressOutput st.checkData r.log s.maps = .ok t →
        ∃ b, t = (done ++ [f]).flatMap (announced x.verbose) ++ b ∧ Blames x (w.sources st.customFcMacros) f b) := by
  have hcome : Come (parsingOrder s) (pushAll (pushes s)).1 [] e r := by
    obtain ⟨A, hw, hnames⟩ := pushes_world s
    unfold analyse at h
    dsimp only at h
    split at h
    · cases h
    · rename_i e' r' hrun
      have := runAnalysis_come (s := ⟨(pushAll (pushes s)).1, s.maps, ck, ⟨false, Res.ok Statics.init, []⟩, []⟩) hw rfl
        (hnames .te) (hnames .ifs) (hnames .fc) (hnames .cte) (hnames .cif) hrun
      have heq : (s.filesOf .ifs).map (.ifFile, ·) ++ ((s.filesOf .cif).map (.ifFile, ·) ++ ((s.filesOf .cte).map (.teFile, ·) ++
          ((s.filesOf .te).map (.teFile, ·) ++ ((s.filesOf .fc).map (.fcFile, ·) ++ [])))) = parsingOrder s := by
        simp [parsingOrder, Scan.filesOf]
      rw [heq] at this
      split at h
      · cases h
      · split at h
        · cases h
        · cases h
          exact this
  obtain ⟨done, hd, ⟨rfl, hp, ht⟩ | ⟨rfl, l, n, -, hnp, hp, ht⟩⟩ := run_told h hfew x
  · rcases hcome with ⟨-, hl⟩ | ⟨hc, -⟩
    · have hf := hl.files
      rw [hp, List.append_nil] at hf
      subst hf
      exact .inl ⟨rfl, fun f hf => (hd f hf).1, ht⟩
    · cases hc
  · rcases hcome with ⟨hc, -⟩ | ⟨-, rest, hr⟩
    · cases hc
    · rw [hp] at hr
      refine .inr ⟨rfl, done, (flavorOf l, n), rest, by rw [← hr]; simp, fun g hg => (hd g hg).1, hnp, fun t h => ?_⟩
      obtain ⟨b, hb, hbl⟩ := ht t h
      exact ⟨b, by rw [hb]; simp, hbl⟩

/-- **C109 (verdict).** A run of the files fails exactly if one of them cannot be parsed. -/
theorem C109_verdict {w : Machine} {st : Settings} {s : Scan} {ck : Checks CheckFn} {e : SelintError}
    {r : RunnerState CheckFn (Res Statics)} (h : analyse w st s ck = .ok (e, r))
    (hfew : FewLines (w.sources st.customFcMacros)) :
    (e = .success ↔ ∀ f ∈ parsingOrder s, Parseable (w.sources st.customFcMacros) f.2 f.1) ∧
      (e = .parseError ↔ ∃ f ∈ parsingOrder s, ¬Parseable (w.sources st.customFcMacros) f.2 f.1) := by
  rcases C109_run h hfew ⟨false, false, fun _ => [], [], fun _ => ⟨0, 0, 0, 0⟩⟩ with
    ⟨rfl, hp, -⟩ | ⟨rfl, done, f, rest, ho, -, hf, -⟩
  · exact ⟨⟨fun _ => hp, fun _ => rfl⟩, ⟨fun he => (by cases he), fun ⟨f, hf, hn⟩ => absurd (hp f hf) hn⟩⟩
  · have hm : f ∈ parsingOrder s := by rw [ho]; simp
    exact ⟨⟨fun he => (by cases he), fun hp => absurd (hp f hm) hf⟩, ⟨fun _ => ⟨f, hm, hf⟩, fun _ => rfl⟩⟩

/-- **C109 (any order).** Whether the files can be parsed does not depend on the order in which they come, on the tables filled
so far, or on the checks that are run. -/
theorem C109_any_order {w : Machine} {st : Settings} {s s' : Scan} {ck ck' : Checks CheckFn} {e e' : SelintError}
    {r r' : RunnerState CheckFn (Res Statics)} (h : analyse w st s ck = .ok (e, r)) (h' : analyse w st s' ck' = .ok (e', r'))
    (hfew : FewLines (w.sources st.customFcMacros)) (hs : ∀ f, f ∈ parsingOrder s ↔ f ∈ parsingOrder s') : e = e' := by
  have v := C109_verdict h hfew
  have v' := C109_verdict h' hfew
  by_cases hp : ∀ f ∈ parsingOrder s, Parseable (w.sources st.customFcMacros) f.2 f.1
  · rw [v.1.2 hp, v'.1.2 fun f hf => hp f ((hs f).2 hf)]
  · have hp : ∃ f ∈ parsingOrder s, ¬Parseable (w.sources st.customFcMacros) f.2 f.1 := by simpa using hp
    obtain ⟨f, hf, hn⟩ := hp
    rw [v.2.2 ⟨f, hf, hn⟩, v'.2.2 ⟨f, (hs f).1 hf, hn⟩]

/-- **C109 (quiet).** Without `-v` nothing is printed while files are parsed that all can be parsed. -/
theorem C109_quiet {w : Machine} {st : Settings} {s : Scan} {ck : Checks CheckFn}
    {r : RunnerState CheckFn (Res Statics)} (h : analyse w st s ck = .ok (.success, r))
    (hfew : FewLines (w.sources st.customFcMacros)) (x : Speaking) (hx : x.verbose = false) :
    logText x (w.sources st.customFcMacros) st.opts.suppressOutput st.checkData r.log s.maps = .ok [] := by
  rcases C109_run h hfew x with ⟨-, -, ht⟩ | ⟨he, -⟩
  · rw [ht]
    simp [announced, hx]
  · cases he

example : parsingOrder { ifs := [cs!"a.if"], te := [cs!"a.te"], fc := [cs!"a.fc"], contextTe := [cs!"b.te"], maps := {} } =
    [(.ifFile, cs!"a.if"), (.teFile, cs!"b.te"), (.teFile, cs!"a.te"), (.fcFile, cs!"a.fc")] := by decide

end Selint
