import Verif.Lemmas.Runner
/-! # C15, C16, C17: the whole run (`run_analysis`) -/

namespace Selint
open Spec

variable {F σ : Type} {prog : Program F σ}

theorem andThen_success (s : RunnerState F σ)
    (f : RunnerState F σ → Option (SelintError × RunnerState F σ)) :
    andThen (some (.success, s)) f = f s := rfl

theorem andThen_error (s : RunnerState F σ)
    (f : RunnerState F σ → Option (SelintError × RunnerState F σ)) :
    andThen (some (.parseError, s)) f = some (.parseError, s) := rfl

/-- The log of a successful run: the interface files, the context interface files, the marking, the
context te files, the te files and the fc files; then the checks of the te files, of the interface
files and of the fc files. -/
structure FullLog (prog : Program F σ) (te ifs fc cte cif : List Nat) (m : Maps) (ps cs : List Event)
    (pIf pCif pCte pTe pFc : List Event) : Prop where
  parses : ps = pIf ++ pCif ++ [.mark (astsOf pIf ++ astsOf pCif)] ++ pCte ++ pTe ++ pFc
  checks : cs = pTe.map (checkOf prog .teFile (tablesOf prog ps m)) ++
    pIf.map (checkOf prog .ifFile (tablesOf prog ps m)) ++ pFc.map (checkOf prog .fcFile (tablesOf prog ps m))
  ofIf : (∀ ev ∈ pIf, IsParse .ifFile ev) ∧ parsedCells pIf = ifs
  ofCif : (∀ ev ∈ pCif, IsParse .ifFile ev) ∧ parsedCells pCif = cif
  ofCte : (∀ ev ∈ pCte, IsParse .teFile ev) ∧ parsedCells pCte = cte
  ofTe : (∀ ev ∈ pTe, IsParse .teFile ev) ∧ parsedCells pTe = te
  ofFc : (∀ ev ∈ pFc, IsParse .fcFile ev) ∧ parsedCells pFc = fc

/-- The shape of every run; the property theorems below are its parts. -/
structure RunOk (prog : Program F σ) (te ifs fc cte cif : List Nat) (s : RunnerState F σ)
    (e : SelintError) (s' : RunnerState F σ) (ps cs : List Event) : Prop where
  log : s'.log = s.log ++ ps ++ cs ++ [.cleanup]
  links : links s'.heap = links s.heap
  noCheck : ∀ ev ∈ ps, ¬Event.IsCheck ev ∧ ¬Event.IsCleanup ev ∧ Named s.heap te ifs fc cte cif ev
  genuine : Genuine prog ps s.maps
  replayed : (s'.ck, s'.rs) = cs.foldl (replay prog) (s.ck, s.rs)
  result : (e = .success ∧ parsedCells ps = ifs ++ cif ++ cte ++ te ++ fc ∧
      (∀ ev ∈ ps, ¬Event.IsFailure ev) ∧ checkedCells cs = te ++ ifs ++ fc ∧
      ∀ ev ∈ cs, ∃ a n fl ast, ev = .check a n (checkDataFor prog fl n) ast (tablesOf prog ps s.maps) ∧
        .parse a n (fileNode fl) ast ∈ ps) ∨
    (e = .parseError ∧ cs = [] ∧ ∃ ev ∈ ps, Event.IsFailure ev)
  full : e = .success → ∃ pIf pCif pCte pTe pFc, FullLog prog te ifs fc cte cif s.maps ps cs pIf pCif pCte pTe pFc

theorem parse_named {fl : NodeFlavor} {as : List Nat} {s s1 s' : RunnerState F σ} {e : SelintError}
    {evs : List Event} {te ifs fc cte cif : List Nat} (p : ParseOk prog fl as s1 e s' evs)
    (L : links s1.heap = links s.heap)
    (hs : ∀ a ∈ as, fl = .ifFile ∧ a ∈ ifs ++ cif ∨ fl = .teFile ∧ a ∈ te ++ cte ∨ fl = .fcFile ∧ a ∈ fc)
    (ev : Event) (h : ev ∈ evs) :
    ¬Event.IsCheck ev ∧ ¬Event.IsCleanup ev ∧ Named s.heap te ifs fc cte cif ev := by
  obtain ⟨a, ha, c, hc, ast, rfl⟩ := p.names ev h
  obtain ⟨c', h1, h2, -⟩ := links_get L hc
  exact ⟨nofun, nofun, ⟨c', h1, h2⟩, hs a ha⟩

theorem parsedCells_append (a b : List Event) :
    parsedCells (a ++ b) = parsedCells a ++ parsedCells b := by simp [parsedCells]

theorem checkedCells_append (a b : List Event) :
    checkedCells (a ++ b) = checkedCells a ++ checkedCells b := by simp [checkedCells]

theorem runAnalysis_ok {ls : Lists} {te ifs fc cte cif : List Nat} (s : RunnerState F σ)
    (hw : World s.heap ls te ifs fc cte cif) :
    ∃ e s' ps cs, runAnalysis prog ls s = some (e, s') ∧
      RunOk prog te ifs fc cte cif s e s' ps cs := by
  have hnd := hw.nodup
  simp only [List.nodup_append, List.mem_append] at hnd
  obtain ⟨⟨⟨⟨nif, ncif, d1⟩, ncte, d2⟩, nte, d3⟩, nfc, d4⟩ := hnd
  have len : ∀ {l : FileList} {as : List Nat}, IsList s.heap l as → as.Nodup →
      as.length ≤ s.heap.length + 1 := by
    intro l as h hn
    have := nodup_lt_length as s.heap.length hn (chain_lt h.1)
    omega
  simp only [runAnalysis]
  -- interface files
  obtain ⟨e1, s1, v1, r1, p1⟩ := parseAll_ok (prog := prog) .ifFile (s.heap.length + 1) ifs ls.ifs.head s
    hw.hifs.1 nif (len hw.hifs nif)
  rw [r1]
  have L1 := p1.links
  have m1 := parse_named (te := te) (ifs := ifs) (fc := fc) (cte := cte) (cif := cif) p1 rfl
    fun a h => .inl ⟨rfl, List.mem_append_left _ h⟩
  have k1 : (s1.ck, s1.rs) = (s.ck, s.rs) := by rw [p1.ck, p1.rs]
  rcases p1.result with ⟨rfl, c1, f1, a1⟩ | ⟨rfl, f1⟩
  case inr =>
    refine ⟨_, _, v1, [], rfl, ?_, L1, m1, p1.genuine, k1,
      Or.inr ⟨rfl, rfl, f1⟩, nofun⟩
    simp [cleanupParsing, p1.log]
  simp only [andThen_success]
  -- context interface files
  obtain ⟨e2, s2, v2, r2, p2⟩ := parseAll_ok (prog := prog) .ifFile (s.heap.length + 1) cif ls.cif.head s1
    (chain_links L1.symm hw.hcif.1) ncif (len hw.hcif ncif)
  rw [r2]
  have L2 := p2.links.trans L1
  have m2 := parse_named (te := te) (ifs := ifs) (fc := fc) (cte := cte) (cif := cif) p2 L1
    fun a h => .inl ⟨rfl, List.mem_append_right _ h⟩
  have k2 : (s2.ck, s2.rs) = (s.ck, s.rs) := by rw [p2.ck, p2.rs, k1]
  have t1 := p1.genuine
  have t2 : Genuine prog (v1 ++ v2) s.maps := (genuine_append _ _ _).2 ⟨t1, p1.maps ▸ p2.genuine⟩
  rcases p2.result with ⟨rfl, c2, f2, a2⟩ | ⟨rfl, f2⟩
  case inr =>
    refine ⟨_, _, v1 ++ v2, [], rfl, ?_, L2, ?_, t2, k2, Or.inr ⟨rfl, rfl, ?_⟩, nofun⟩
    · simp [cleanupParsing, p2.log, p1.log]
    · intro ev h
      rw [List.mem_append] at h
      rcases h with h | h
      · exact m1 ev h
      · exact m2 ev h
    · obtain ⟨ev, h1, h2⟩ := f2; exact ⟨ev, by simp [h1], h2⟩
  simp only [andThen_success]
  -- marking
  have nspl : (ifs ++ cif).Nodup := List.nodup_append.mpr ⟨nif, ncif, d1⟩
  obtain ⟨m, hm, r3⟩ := markSpliced_ok s2 (l := ls.ifs) (l' := ls.cif)
    ⟨chain_links L2.symm hw.hifs.1, hw.hifs.2⟩ ⟨chain_links L2.symm hw.hcif.1, hw.hcif.2⟩ nspl
  rw [r3]
  simp only [andThen_success]
  generalize hasts : ((ifs ++ cif).map fun a => ((s2.heap[a]?).map FileCell.ast).getD []) = asts at *
  generalize hs3 : ({ s2 with maps := m, log := s2.log ++ [Event.mark asts] } : RunnerState F σ) = s3
  have L3 : links s3.heap = links s.heap := by rw [← hs3]; exact L2
  have e3 : s3.maps = tablesOf prog (v1 ++ v2 ++ [.mark asts]) s.maps := by
    rw [tablesOf_append, tablesOf_append, ← p1.maps, ← p2.maps, ← hs3]
    simp [tablesOf, hm]
  have g3 : s3.log = s.log ++ (v1 ++ v2 ++ [.mark asts]) := by
    rw [← hs3]; simp [p2.log, p1.log]
  have n3 : ∀ ev ∈ v1 ++ v2 ++ [Event.mark asts], ¬Event.IsCheck ev ∧ ¬Event.IsCleanup ev ∧ Named s.heap te ifs fc cte cif ev := by
    intro ev h
    simp only [List.mem_append, List.mem_singleton] at h
    rcases h with (h | h) | h
    · exact m1 ev h
    · exact m2 ev h
    · subst h; simp [Event.IsCheck, Event.IsCleanup, Named]
  have f3 : ∀ ev ∈ v1 ++ v2 ++ [Event.mark asts], ¬Event.IsFailure ev := by
    intro ev h
    simp only [List.mem_append, List.mem_singleton] at h
    rcases h with (h | h) | h
    · exact f1 ev h
    · exact f2 ev h
    · subst h; simp [Event.IsFailure]
  have k3 : (s3.ck, s3.rs) = (s.ck, s.rs) := by rw [← hs3]; exact k2
  have t3 : Genuine prog (v1 ++ v2 ++ [.mark asts]) s.maps :=
    (genuine_append _ _ _).2 ⟨t2, trivial⟩
  have c3 : parsedCells (v1 ++ v2 ++ [.mark asts]) = ifs ++ cif := by
    rw [parsedCells_append, parsedCells_append, c1, c2]; simp [parsedCells]
  have h3 : s3.heap = s2.heap := by rw [← hs3]
  have hasts' : asts = astsOf v1 ++ astsOf v2 := by
    rw [← hasts, List.map_append, astsOf_cells p1.parses (c1 ▸ nif) (fun a => ((s2.heap[a]?).map FileCell.ast).getD []) ?_,
      astsOf_cells p2.parses (c2 ▸ ncif) (fun a => ((s2.heap[a]?).map FileCell.ast).getD []) ?_, c1, c2]
    · intro a ha
      rw [c2] at ha
      obtain ⟨c, h1, -, h2⟩ := a2 a ha
      exact ⟨_, _, by rw [h1]; exact h2⟩
    · intro a ha
      rw [c1] at ha
      obtain ⟨c, h1, -, h2⟩ := a1 a ha
      exact ⟨_, _, by rw [p2.other a (fun h => d1 a ha a h rfl), h1]; exact h2⟩
  generalize hv3 : v1 ++ v2 ++ [Event.mark asts] = v3 at *
  have i3 : ∀ ev ∈ v1, ev ∈ v3 := by rw [← hv3]; intro ev h; simp [h]
  -- context te files
  obtain ⟨e4, s4, v4, r4, p4⟩ := parseAll_ok (prog := prog) .teFile (s.heap.length + 1) cte ls.cte.head s3
    (chain_links L3.symm hw.hcte.1) ncte (len hw.hcte ncte)
  rw [r4]
  have L4 := p4.links.trans L3
  have m4 := parse_named (te := te) (ifs := ifs) (fc := fc) (cte := cte) (cif := cif) p4 L3
    fun a h => .inr (.inl ⟨rfl, List.mem_append_right _ h⟩)
  have k4 : (s4.ck, s4.rs) = (s.ck, s.rs) := by rw [p4.ck, p4.rs, k3]
  have t4 : Genuine prog (v3 ++ v4) s.maps := (genuine_append _ _ _).2 ⟨t3, e3 ▸ p4.genuine⟩
  have u4 : s4.maps = tablesOf prog (v3 ++ v4) s.maps := by rw [tablesOf_append, ← e3, ← p4.maps]
  have n4 : ∀ ev ∈ v3 ++ v4, ¬Event.IsCheck ev ∧ ¬Event.IsCleanup ev ∧ Named s.heap te ifs fc cte cif ev := by
    intro ev h
    rw [List.mem_append] at h
    rcases h with h | h
    · exact n3 ev h
    · exact m4 ev h
  rcases p4.result with ⟨rfl, c4, f4, a4⟩ | ⟨rfl, f4⟩
  case inr =>
    refine ⟨_, _, v3 ++ v4, [], rfl, ?_, L4, n4, t4, k4, Or.inr ⟨rfl, rfl, ?_⟩, nofun⟩
    · simp [cleanupParsing, p4.log, g3]
    · obtain ⟨ev, h1, h2⟩ := f4; exact ⟨ev, by simp [h1], h2⟩
  simp only [andThen_success]
  -- te files
  obtain ⟨e5, s5, v5, r5, p5⟩ := parseAll_ok (prog := prog) .teFile (s.heap.length + 1) te ls.te.head s4
    (chain_links L4.symm hw.hte.1) nte (len hw.hte nte)
  rw [r5]
  have L5 := p5.links.trans L4
  have m5 := parse_named (te := te) (ifs := ifs) (fc := fc) (cte := cte) (cif := cif) p5 L4
    fun a h => .inr (.inl ⟨rfl, List.mem_append_left _ h⟩)
  have k5 : (s5.ck, s5.rs) = (s.ck, s.rs) := by rw [p5.ck, p5.rs, k4]
  have t5 : Genuine prog (v3 ++ v4 ++ v5) s.maps := (genuine_append _ _ _).2 ⟨t4, u4 ▸ p5.genuine⟩
  have u5 : s5.maps = tablesOf prog (v3 ++ v4 ++ v5) s.maps := by rw [tablesOf_append, ← u4, ← p5.maps]
  have n5 : ∀ ev ∈ v3 ++ v4 ++ v5, ¬Event.IsCheck ev ∧ ¬Event.IsCleanup ev ∧ Named s.heap te ifs fc cte cif ev := by
    intro ev h
    rw [List.mem_append] at h
    rcases h with h | h
    · exact n4 ev h
    · exact m5 ev h
  rcases p5.result with ⟨rfl, c5, f5, a5⟩ | ⟨rfl, f5⟩
  case inr =>
    refine ⟨_, _, v3 ++ v4 ++ v5, [], rfl, ?_, L5, n5, t5, k5, Or.inr ⟨rfl, rfl, ?_⟩, nofun⟩
    · simp [cleanupParsing, p5.log, p4.log, g3]
    · obtain ⟨ev, h1, h2⟩ := f5; exact ⟨ev, by simp [h1], h2⟩
  simp only [andThen_success]
  -- fc files
  obtain ⟨e6, s6, v6, r6, p6⟩ := parseAll_ok (prog := prog) .fcFile (s.heap.length + 1) fc ls.fc.head s5
    (chain_links L5.symm hw.hfc.1) nfc (len hw.hfc nfc)
  rw [r6]
  have L6 := p6.links.trans L5
  have m6 := parse_named (te := te) (ifs := ifs) (fc := fc) (cte := cte) (cif := cif) p6 L5
    fun a h => .inr (.inr ⟨rfl, h⟩)
  have k6 : (s6.ck, s6.rs) = (s.ck, s.rs) := by rw [p6.ck, p6.rs, k5]
  have t6 : Genuine prog (v3 ++ v4 ++ v5 ++ v6) s.maps := (genuine_append _ _ _).2 ⟨t5, u5 ▸ p6.genuine⟩
  have n6 : ∀ ev ∈ v3 ++ v4 ++ v5 ++ v6, ¬Event.IsCheck ev ∧ ¬Event.IsCleanup ev ∧ Named s.heap te ifs fc cte cif ev := by
    intro ev h
    rw [List.mem_append] at h
    rcases h with h | h
    · exact n5 ev h
    · exact m6 ev h
  rcases p6.result with ⟨rfl, c6, f6, a6⟩ | ⟨rfl, f6⟩
  case inr =>
    refine ⟨_, _, v3 ++ v4 ++ v5 ++ v6, [], rfl, ?_, L6, n6, t6, k6, Or.inr ⟨rfl, rfl, ?_⟩, nofun⟩
    · simp [cleanupParsing, p6.log, p5.log, p4.log, g3]
    · obtain ⟨ev, h1, h2⟩ := f6; exact ⟨ev, by simp [h1], h2⟩
  simp only [andThen_success]
  -- checks
  obtain ⟨s7, v7, r7, p7⟩ := runAllChecks_ok (prog := prog) .teFile (s.heap.length + 1) te ls.te.head s6
    (chain_links L6.symm hw.hte.1) (len hw.hte nte)
  rw [r7]
  simp only [andThen_success]
  obtain ⟨s8, v8, r8, p8⟩ := runAllChecks_ok (prog := prog) .ifFile (s.heap.length + 1) ifs ls.ifs.head s7
    (by rw [p7.heap]; exact chain_links L6.symm hw.hifs.1) (len hw.hifs nif)
  rw [r8]
  simp only [andThen_success]
  obtain ⟨s9, v9, r9, p9⟩ := runAllChecks_ok (prog := prog) .fcFile (s.heap.length + 1) fc ls.fc.head s8
    (by rw [p8.heap, p7.heap]; exact chain_links L6.symm hw.hfc.1) (len hw.hfc nfc)
  rw [r9]
  have hmaps : s6.maps = tablesOf prog (v3 ++ v4 ++ v5 ++ v6) s.maps := by
    rw [tablesOf_append, tablesOf_append, tablesOf_append, ← e3, ← p4.maps, ← p5.maps, ← p6.maps]
  -- where the ASTs come from
  have ast_te : ∀ a c, a ∈ te → s6.heap[a]? = some c →
      Event.parse a c.filename .teFile c.ast ∈ v5 := by
    intro a c ha hc
    obtain ⟨c', h1, _, h2⟩ := a5 a ha
    rw [p6.other a (fun h => d4 a (Or.inr ha) a h rfl), h1] at hc
    simp at hc; subst hc
    exact h2
  have ast_if : ∀ a c, a ∈ ifs → s6.heap[a]? = some c →
      Event.parse a c.filename .ifFile c.ast ∈ v1 := by
    intro a c ha hc
    obtain ⟨c', h1, _, h2⟩ := a1 a ha
    rw [p6.other a (fun h => d4 a (Or.inl (Or.inl (Or.inl ha))) a h rfl),
      p5.other a (fun h => d3 a (Or.inl (Or.inl ha)) a h rfl),
      p4.other a (fun h => d2 a (Or.inl ha) a h rfl), h3,
      p2.other a (fun h => d1 a ha a h rfl), h1] at hc
    simp at hc; subst hc
    exact h2
  have ast_fc : ∀ a c, a ∈ fc → s6.heap[a]? = some c →
      Event.parse a c.filename .fcFile c.ast ∈ v6 := by
    intro a c ha hc
    obtain ⟨c', h1, _, h2⟩ := a6 a ha
    rw [h1] at hc
    simp at hc; subst hc
    exact h2
  refine ⟨_, _, v3 ++ v4 ++ v5 ++ v6, v7 ++ v8 ++ v9, rfl, ?_, ?_, n6, t6, ?_, Or.inl ⟨rfl, ?_, ?_, ?_, ?_⟩, ?_⟩
  · simp [cleanupParsing, p9.log, p8.log, p7.log, p6.log, p5.log, p4.log, g3]
  · show links s9.heap = links s.heap
    rw [p9.heap, p8.heap, p7.heap]; exact L6
  · show (s9.ck, s9.rs) = _
    rw [List.foldl_append, List.foldl_append, ← k6, ← p7.replayed, ← p8.replayed, ← p9.replayed]
  · rw [parsedCells_append, parsedCells_append, parsedCells_append, c3, c4, c5, c6]
  · intro ev h
    simp only [List.mem_append] at h
    rcases h with ((h | h) | h) | h
    · exact f3 ev h
    · exact f4 ev h
    · exact f5 ev h
    · exact f6 ev h
  · rw [checkedCells_append, checkedCells_append, p7.cells, p8.cells, p9.cells]
  · intro ev h
    simp only [List.mem_append] at h
    rcases h with (h | h) | h
    · obtain ⟨a, c, h1, h2, h5⟩ := p7.events ev h
      exact ⟨a, _, .teFile, _, by rw [h5, hmaps], by simp [fileNode, ast_te a c h2 h1]⟩
    · obtain ⟨a, c, h1, h2, h5⟩ := p8.events ev h
      rw [p7.heap] at h1
      rw [p7.maps, hmaps] at h5
      exact ⟨a, _, .ifFile, _, h5, by simp [fileNode, i3 _ (ast_if a c h2 h1)]⟩
    · obtain ⟨a, c, h1, h2, h5⟩ := p9.events ev h
      rw [p8.heap, p7.heap] at h1
      rw [p8.maps, p7.maps, hmaps] at h5
      exact ⟨a, _, .fcFile, _, h5, by simp [fileNode, ast_fc a c h2 h1]⟩
  · intro _
    refine ⟨v1, v2, v4, v5, v6, by rw [← hv3, hasts'], ?_, ⟨p1.parses, c1⟩, ⟨p2.parses, c2⟩, ⟨p4.parses, c4⟩,
      ⟨p5.parses, c5⟩, p6.parses, c6⟩
    rw [checks_of_parses prog (w := v7) p5.parses (c5 ▸ nte) (p7.cells.trans c5.symm) fun ev h => ?_,
      checks_of_parses prog (w := v8) p1.parses (c1 ▸ nif) (p8.cells.trans c1.symm) fun ev h => ?_,
      checks_of_parses prog (w := v9) p6.parses (c6 ▸ nfc) (p9.cells.trans c6.symm) fun ev h => ?_]
    · obtain ⟨a, c, h1, h2, h5⟩ := p9.events ev h
      rw [p8.heap, p7.heap] at h1
      rw [p8.maps, p7.maps, hmaps] at h5
      exact ⟨_, ast_fc a c h2 h1, h5⟩
    · obtain ⟨a, c, h1, h2, h5⟩ := p8.events ev h
      rw [p7.heap] at h1
      rw [p7.maps, hmaps] at h5
      exact ⟨_, ast_if a c h2 h1, h5⟩
    · obtain ⟨a, c, h1, h2, h5⟩ := p7.events ev h
      exact ⟨_, ast_te a c h2 h1, by rw [h5, hmaps]; rfl⟩

/-- C15. In every run on well-formed file lists, all parsing comes before all checking; a
check that runs sees the symbol tables as they are after every interface, context, te and fc
file has been parsed and the transform interfaces have been marked, and it works on the AST
the parser produced for that file. Each file is parsed under its name and as a file of its
list. The hooks and the output at the end are what these checks
make of them, one file after the other. -/
theorem C15_all_symbols_known {ls : Lists} {te ifs fc cte cif : List Nat} (s : RunnerState F σ)
    (hw : World s.heap ls te ifs fc cte cif) {e : SelintError} {s' : RunnerState F σ}
    (h : runAnalysis prog ls s = some (e, s')) :
    ∃ ps cs, s'.log = s.log ++ ps ++ cs ++ [.cleanup] ∧ (∀ ev ∈ ps, ¬Event.IsCheck ev) ∧
      (∀ ev ∈ ps, Named s.heap te ifs fc cte cif ev) ∧
      (cs ≠ [] → parsedCells ps = ifs ++ cif ++ cte ++ te ++ fc) ∧
      Genuine prog ps s.maps ∧ (s'.ck, s'.rs) = cs.foldl (replay prog) (s.ck, s.rs) ∧
      ∀ ev ∈ cs, ∃ a n fl ast, ev = .check a n (checkDataFor prog fl n) ast (tablesOf prog ps s.maps) ∧
        .parse a n (fileNode fl) ast ∈ ps := by
  obtain ⟨e', s'', ps, cs, h1, h2⟩ := runAnalysis_ok (prog := prog) s hw
  rw [h] at h1; simp at h1; obtain ⟨rfl, rfl⟩ := h1
  refine ⟨ps, cs, h2.log, fun ev hev => (h2.noCheck ev hev).1, fun ev hev => (h2.noCheck ev hev).2.2, ?_, h2.genuine, h2.replayed, ?_⟩
  · intro hne
    rcases h2.result with ⟨_, h3, _⟩ | ⟨_, h3, _⟩
    · exact h3
    · exact absurd h3 hne
  · rcases h2.result with ⟨_, _, _, _, h3⟩ | ⟨_, h3, _⟩
    · exact h3
    · subst h3; simp

/-- The checks of a file are told its name without the directory, and its name without directory
and extension as the module. -/
theorem C15_check_data (dir stem ext : Str) (hd : dir = [] ∨ dir.getLast? = some '/') (hs : '/' ∉ stem)
    (he : '/' ∉ ext ∧ '.' ∉ ext) (fl : FileFlavor) :
    checkDataFor prog fl (dir ++ stem ++ '.' :: ext) = ⟨stem, stem ++ '.' :: ext, fl, prog.config⟩ := by
  have hb : basename (dir ++ stem ++ '.' :: ext) = stem ++ '.' :: ext := by
    unfold basename
    have h1 : (dir ++ stem ++ '.' :: ext).reverse = (stem ++ '.' :: ext).reverse ++ dir.reverse := by simp
    have h2 : ∀ c ∈ (stem ++ '.' :: ext).reverse, (decide (c ≠ '/')) = true := by
      intro c hc
      simp only [List.mem_reverse, List.mem_append, List.mem_cons] at hc
      rcases hc with hc | rfl | hc
      · exact decide_eq_true (fun h => hs (h ▸ hc))
      · rfl
      · exact decide_eq_true (fun h => he.1 (h ▸ hc))
    rw [h1, List.takeWhile_append_of_pos h2]
    have h3 : dir.reverse.takeWhile (fun c => decide (c ≠ '/')) = [] := by
      rcases hd with rfl | hd
      · rfl
      · rw [← List.head?_reverse] at hd
        cases e : dir.reverse with
        | nil => rfl
        | cons c r => rw [e] at hd; cases hd; rfl
    rw [h3, List.append_nil, List.reverse_reverse]
  have hc : cutLastDot (stem ++ '.' :: ext) = stem := by
    unfold cutLastDot
    have h1 : (stem ++ '.' :: ext).reverse = ext.reverse ++ '.' :: stem.reverse := by simp
    have h2 : ∀ c ∈ ext.reverse, (decide (c ≠ '.')) = true := by
      intro c hc
      rw [List.mem_reverse] at hc
      exact decide_eq_true (fun h => he.2 (h ▸ hc))
    rw [h1, List.dropWhile_append_of_pos h2]
    simp
  simp only [checkDataFor, hb, hc]

example : checkDataFor (F := Unit) (σ := Unit) ⟨fun _ _ m => ([], m), fun _ m => ([], m), fun _ _ _ _ s => (s, none),
    false, ⟨.ref, [], false, false, []⟩⟩ .teFile cs!"policy/modules/foo.bar.te" =
    ⟨cs!"foo.bar", cs!"foo.bar.te", .teFile, ⟨.ref, [], false, false, []⟩⟩ := by decide +kernel

/-- C16. In every run on well-formed file lists the files checked are exactly the te, if and
fc files, in this order (or none at all); no check is invoked on a context file; and after
the temporary splice all lists are as they were. -/
theorem C16_context_not_checked {ls : Lists} {te ifs fc cte cif : List Nat} (s : RunnerState F σ)
    (hs : s.log = []) (hw : World s.heap ls te ifs fc cte cif) {e : SelintError}
    {s' : RunnerState F σ} (h : runAnalysis prog ls s = some (e, s')) :
    (e = .success → checkedCells s'.log = te ++ ifs ++ fc) ∧
    (∀ a ∈ cte ++ cif, a ∉ checkedCells s'.log) ∧
    World s'.heap ls te ifs fc cte cif := by
  obtain ⟨e', s'', ps, cs, h1, h2⟩ := runAnalysis_ok (prog := prog) s hw
  rw [h] at h1; simp at h1; obtain ⟨rfl, rfl⟩ := h1
  have hps : checkedCells ps = [] := by
    unfold checkedCells
    rw [List.filterMap_eq_nil_iff]
    intro ev hev
    have := (h2.noCheck ev hev).1
    cases ev <;> simp_all [Event.IsCheck]
  have hlog : checkedCells s'.log = checkedCells cs := by
    rw [h2.log, hs]
    simp [checkedCells_append, hps]
    simp [checkedCells]
  have hl := h2.links.symm
  refine ⟨?_, ?_, ⟨chain_links hl hw.hte.1, hw.hte.2⟩, ⟨chain_links hl hw.hifs.1, hw.hifs.2⟩,
    ⟨chain_links hl hw.hfc.1, hw.hfc.2⟩, ⟨chain_links hl hw.hcte.1, hw.hcte.2⟩,
    ⟨chain_links hl hw.hcif.1, hw.hcif.2⟩, hw.nodup⟩
  · rintro rfl
    rw [hlog]
    rcases h2.result with ⟨_, _, _, h3, _⟩ | ⟨h3, _⟩
    · exact h3
    · simp at h3
  · intro a ha
    rw [hlog]
    rcases h2.result with ⟨_, _, _, h3, _⟩ | ⟨_, h3, _⟩
    · rw [h3]
      have hnd := hw.nodup
      simp only [List.nodup_append, List.mem_append] at hnd ha ⊢
      obtain ⟨⟨⟨⟨nif, ncif, d1⟩, ncte, d2⟩, nte, d3⟩, nfc, d4⟩ := hnd
      rintro ((h4 | h4) | h4)
      · rcases ha with ha | ha
        · exact d3 a (Or.inr ha) a h4 rfl
        · exact d3 a (Or.inl (Or.inr ha)) a h4 rfl
      · rcases ha with ha | ha
        · exact d2 a (Or.inl h4) a ha rfl
        · exact d1 a h4 a ha rfl
      · rcases ha with ha | ha
        · exact d4 a (Or.inl (Or.inr ha)) a h4 rfl
        · exact d4 a (Or.inl (Or.inl (Or.inr ha))) a h4 rfl
    · subst h3; simp [checkedCells]

/-- C17. Every run on well-formed file lists finishes, with success or a parse error. It
reports a parse error exactly if some file could not be parsed, and then no check is invoked
on any file. Whatever the outcome, the parser state is cleaned up exactly once, at the end, and
then no table has an entry. -/
theorem C17_parse_failure {ls : Lists} {te ifs fc cte cif : List Nat} (s : RunnerState F σ)
    (hs : s.log = []) (hw : World s.heap ls te ifs fc cte cif) :
    ∃ e s', runAnalysis prog ls s = some (e, s') ∧ (e = .success ∨ e = .parseError) ∧
      (e = .parseError ↔ ∃ ev ∈ s'.log, Event.IsFailure ev) ∧
      (e = .parseError → ∀ ev ∈ s'.log, ¬Event.IsCheck ev) ∧ s'.maps = {} ∧
      ∃ before, s'.log = before ++ [.cleanup] ∧ ∀ ev ∈ before, ¬Event.IsCleanup ev := by
  obtain ⟨e, s', ps, cs, h1, h2⟩ := runAnalysis_ok (prog := prog) s hw
  have hlog : s'.log = ps ++ cs ++ [.cleanup] := by rw [h2.log, hs]; simp
  have hmaps : s'.maps = {} := by
    unfold runAnalysis at h1
    simp only [Option.map_eq_some_iff] at h1
    obtain ⟨r, -, h1⟩ := h1
    rw [← (Prod.mk.inj h1).2]
    rfl
  refine ⟨e, s', h1, ?_, ?_, ?_, hmaps, ps ++ cs, hlog, ?_⟩
  · rcases h2.result with ⟨h, _⟩ | ⟨h, _⟩
    · exact Or.inl h
    · exact Or.inr h
  · rcases h2.result with ⟨rfl, _, h3, _, h4⟩ | ⟨rfl, rfl, ev, h3, h4⟩
    · simp only [reduceCtorEq, false_iff]
      rintro ⟨ev, hev, hf⟩
      rw [hlog] at hev
      simp only [List.mem_append, List.mem_singleton] at hev
      rcases hev with (hev | hev) | hev
      · exact h3 ev hev hf
      · obtain ⟨a, n, fl, ast, rfl, _⟩ := h4 ev hev
        simp [Event.IsFailure] at hf
      · subst hev; simp [Event.IsFailure] at hf
    · simp only [true_iff]
      exact ⟨ev, by rw [hlog]; simp [h3], h4⟩
  · rintro rfl ev hev
    rcases h2.result with ⟨h, _⟩ | ⟨_, rfl, _⟩
    · simp at h
    · rw [hlog] at hev
      simp only [List.append_nil, List.mem_append, List.mem_singleton] at hev
      rcases hev with hev | hev
      · exact (h2.noCheck ev hev).1
      · subst hev; simp [Event.IsCheck]
  · intro ev hev
    rw [List.mem_append] at hev
    rcases hev with hev | hev
    · exact (h2.noCheck ev hev).2.1
    · rcases h2.result with ⟨_, _, _, _, h4⟩ | ⟨_, rfl, _⟩
      · obtain ⟨a, n, fl, ast, rfl, _⟩ := h4 ev hev
        simp [Event.IsCleanup]
      · simp at hev

/-! ## The lists built by `file_list_push_back` meet the hypothesis -/

theorem pushBack_length (h : FileHeap) (l : FileList) (n : Str) :
    (fileListPushBack h l n).1.length = h.length + 1 := by
  unfold fileListPushBack FileHeap.setNext
  split
  · split <;> simp
  · simp

/-- Pushing on a list appends the new node and leaves lists without common nodes alone. -/
theorem pushBack_isList {h : FileHeap} {l : FileList} {as : List Nat} (n : Str)
    (hl : IsList h l as) (hn : as.Nodup) :
    IsList (fileListPushBack h l n).1 (fileListPushBack h l n).2 (as ++ [h.length]) ∧
    ∀ l' bs, IsList h l' bs → (∀ a ∈ bs, a ∉ as) → IsList (fileListPushBack h l n).1 l' bs := by
  have ext : ∀ (h h' : FileHeap) (p : Option Nat) (bs : List Nat),
      (∀ a ∈ bs, ∀ c, h[a]? = some c → h'[a]? = some c) → Chain h p bs → Chain h' p bs := by
    intro h h' p bs
    induction bs generalizing p with
    | nil => intro _ hc; exact hc
    | cons b bs ih =>
      rintro hh ⟨rfl, c, h1, h2⟩
      exact ⟨rfl, c, hh b (by simp) c h1, ih c.next (fun a ha => hh a (by simp [ha])) h2⟩
  have lt : ∀ {h : FileHeap} {a : Nat} {c : FileCell}, h[a]? = some c → a < h.length :=
    fun hc => (List.getElem?_eq_some_iff.mp hc).1
  have app : ∀ (h : FileHeap) (x : FileCell) (a : Nat) (c : FileCell), h[a]? = some c →
      (h ++ [x])[a]? = some c := by
    intro h x a c hc
    rw [List.getElem?_append_left (lt hc)]; exact hc
  cases ht : l.tail with
  | none =>
    have has : as = [] := by
      have := hl.2; rw [ht] at this; exact List.getLast?_eq_none_iff.mp this.symm
    subst has
    simp only [fileListPushBack, ht]
    refine ⟨⟨⟨rfl, ⟨n, [], none⟩, by simp, rfl⟩, by simp⟩, ?_⟩
    intro l' bs hb _
    exact ⟨ext _ _ _ _ (fun a _ c => app h _ a c) hb.1, hb.2⟩
  | some t =>
    have hlast : as.getLast? = some t := by rw [← hl.2]; exact ht
    obtain ⟨ct, hct, hnx⟩ := chain_last_next hl.1 hlast
    have htm : t ∈ as := List.mem_of_getLast? hlast
    have hlt := lt hct
    have hset : FileHeap.setNext h t (some h.length) ++ [⟨n, [], none⟩] =
        FileHeap.setNext (h ++ [⟨n, [], none⟩]) t (some h.length) := by
      simp only [FileHeap.setNext, hct, app h _ t ct hct]
      rw [List.set_append_left _ _ hlt]
    simp only [fileListPushBack, ht]
    rw [hset]
    have hnot : h.length ∉ as := fun hm => absurd (chain_lt hl.1 _ hm) (by omega)
    refine ⟨⟨?_, by simp⟩, ?_⟩
    · refine chain_append (ext _ _ _ _ (fun a _ c => app h _ a c) hl.1) ?_ hlast (app h _ t ct hct) ?_
      · exact List.nodup_append.mpr ⟨hn, by simp, by
          intro a ha b hb; simp at hb; subst hb; rintro rfl; exact hnot ha⟩
      · exact ⟨rfl, ⟨n, [], none⟩, by simp, rfl⟩
    · intro l' bs hb hdis
      refine ⟨ext _ _ _ _ ?_ hb.1, hb.2⟩
      intro a ha c hc
      simp only [FileHeap.setNext, app h _ t ct hct]
      rw [List.getElem?_set_ne (by rintro rfl; exact hdis t ha htm)]
      exact app h _ a c hc

/-- Well-formed lists, indexed. -/
theorem pushAll_lists (ops : List (Which × Str)) :
    ∃ A : Which → List Nat, (∀ w, IsList (pushAll ops).1 ((pushAll ops).2.get w) (A w)) ∧
      (∀ w, (A w).Nodup) ∧ (∀ w w', w ≠ w' → ∀ a ∈ A w, a ∉ A w') ∧
      (∀ w, (A w).map (fun a => ((pushAll ops).1[a]?).map FileCell.filename) =
        (ops.reverse.filter (·.1 = w)).map (some ·.2)) ∧
      ∀ w, ∀ a ∈ A w, a < (pushAll ops).1.length := by
  induction ops with
  | nil =>
    refine ⟨fun _ => [], ?_, by simp, by simp, by simp, by simp⟩
    intro w; cases w <;> exact ⟨rfl, rfl⟩
  | cons op ops ih =>
    obtain ⟨w0, n⟩ := op
    obtain ⟨A, h1, h2, h3, h4, h5⟩ := ih
    obtain ⟨p1, p2⟩ := pushBack_isList n (h1 w0) (h2 w0)
    have hfn : ∀ a, a < (pushAll ops).1.length →
        ((pushAll ((w0, n) :: ops)).1[a]?).map FileCell.filename =
        ((pushAll ops).1[a]?).map FileCell.filename := by
      intro a ha
      simp only [pushAll, fileListPushBack]
      split
      · rename_i t _
        rw [List.getElem?_append_left (by unfold FileHeap.setNext; split <;> simpa using ha)]
        unfold FileHeap.setNext
        split
        · rfl
        · rename_i c hc
          rw [List.getElem?_set]
          split
          · rename_i h; subst h; simp [ha]
            obtain ⟨h6, h7⟩ := List.getElem?_eq_some_iff.mp hc
            rw [h7]
          · rfl
      · rw [List.getElem?_append_left ha]
    have hnew : ((pushAll ((w0, n) :: ops)).1[(pushAll ops).1.length]?).map FileCell.filename = some n := by
      simp only [pushAll, fileListPushBack]
      split
      · rename_i t _
        have : (FileHeap.setNext (pushAll ops).1 t (some (pushAll ops).1.length)).length =
            (pushAll ops).1.length := by unfold FileHeap.setNext; split <;> simp
        rw [List.getElem?_append_right (by omega)]
        simp [this]
      · simp
    refine ⟨fun w => if w = w0 then A w ++ [(pushAll ops).1.length] else A w, ?_, ?_, ?_, ?_, ?_⟩
    · intro w
      by_cases hw : w = w0
      · subst hw
        simp only [if_true]
        have : (pushAll ((w, n) :: ops)).2.get w =
            (fileListPushBack (pushAll ops).1 ((pushAll ops).2.get w) n).2 := by
          cases w <;> rfl
        rw [this]; exact p1
      · simp only [hw, if_false]
        have : (pushAll ((w0, n) :: ops)).2.get w = (pushAll ops).2.get w := by
          cases w <;> cases w0 <;> first | rfl | exact absurd rfl hw
        rw [this]; exact p2 _ _ (h1 w) (h3 w w0 hw)
    · intro w
      dsimp only
      split
      · refine List.nodup_append.mpr ⟨h2 w, by simp, ?_⟩
        intro a ha b hb; simp at hb; subst hb
        rintro rfl
        exact absurd (h5 w _ ha) (by omega)
      · exact h2 w
    · intro w w' hne a ha ha'
      by_cases hw : w = w0
      · have hw' : w' ≠ w0 := by rintro rfl; exact hne hw
        simp only [hw, if_true, hw', if_false, List.mem_append, List.mem_singleton] at ha ha'
        rcases ha with ha | rfl
        · exact h3 w w' hne a (by rw [hw]; exact ha) ha'
        · exact absurd (h5 w' _ ha') (by omega)
      · simp only [hw, if_false] at ha
        by_cases hw' : w' = w0
        · simp only [hw', if_true, List.mem_append, List.mem_singleton] at ha'
          rcases ha' with ha' | rfl
          · exact h3 w w' hne a ha (by rw [hw']; exact ha')
          · exact absurd (h5 w _ ha) (by omega)
        · simp only [hw', if_false] at ha'
          exact h3 w w' hne a ha ha'
    · intro w
      have hmap : (A w).map (fun a => ((pushAll ((w0, n) :: ops)).1[a]?).map FileCell.filename) =
          (ops.reverse.filter (·.1 = w)).map (some ·.2) := by
        rw [← h4 w]
        apply List.map_congr_left
        intro a ha
        exact hfn a (h5 w a ha)
      by_cases hw : w = w0
      · subst hw
        simp only [if_true, List.map_append, hmap, List.map_cons, List.map_nil, hnew]
        simp
      · simp only [hw, if_false, hmap]
        simp [Ne.symm hw]
    · intro w a ha
      have : (pushAll ((w0, n) :: ops)).1.length = (pushAll ops).1.length + 1 := pushBack_length ..
      rw [this]
      dsimp only at ha
      split at ha
      · simp at ha
        rcases ha with ha | rfl
        · have := h5 w a ha; omega
        · omega
      · have := h5 w a ha; omega

/-- Whatever files are pushed on the five lists, in whatever order (empty lists included), the
lists are well-formed, so C15, C16 and C17 apply to every run that selint starts. -/
theorem C16_lists_wellformed (ops : List (Which × Str)) :
    ∃ te ifs fc cte cif, World (pushAll ops).1 (pushAll ops).2 te ifs fc cte cif ∧
      te.map (fun a => ((pushAll ops).1[a]?).map FileCell.filename) =
        (ops.reverse.filter (·.1 = .te)).map (some ·.2) ∧
      ifs.map (fun a => ((pushAll ops).1[a]?).map FileCell.filename) =
        (ops.reverse.filter (·.1 = .ifs)).map (some ·.2) := by
  obtain ⟨A, h1, h2, h3, h4, h5⟩ := pushAll_lists ops
  refine ⟨A .te, A .ifs, A .fc, A .cte, A .cif, ⟨h1 .te, h1 .ifs, h1 .fc, h1 .cte, h1 .cif, ?_⟩,
    h4 .te, h4 .ifs⟩
  have dis : ∀ w w', w ≠ w' → ∀ a ∈ A w, ∀ b ∈ A w', a ≠ b := by
    intro w w' hne a ha b hb e; subst e; exact h3 w w' hne a ha hb
  simp only [List.nodup_append, List.mem_append]
  refine ⟨⟨⟨⟨h2 _, h2 _, dis _ _ (by decide)⟩, h2 _, ?_⟩, h2 _, ?_⟩, h2 _, ?_⟩
  · rintro a (ha | ha)
    · exact dis _ _ (by decide) a ha
    · exact dis _ _ (by decide) a ha
  · rintro a ((ha | ha) | ha)
    · exact dis _ _ (by decide) a ha
    · exact dis _ _ (by decide) a ha
    · exact dis _ _ (by decide) a ha
  · rintro a (((ha | ha) | ha) | ha)
    · exact dis _ _ (by decide) a ha
    · exact dis _ _ (by decide) a ha
    · exact dis _ _ (by decide) a ha
    · exact dis _ _ (by decide) a ha

/-- **C16 (search).** `file_name_in_file_list` finds a name iff some node of the list has it. -/
theorem C16_search {h : FileHeap} {p : Option Nat} {as : List Nat} (hl : Chain h p as) (name : Str) (fuel : Nat)
    (hf : as.length ≤ fuel) :
    fileNameInFileList h name fuel p = true ↔ ∃ a ∈ as, ∃ c, h[a]? = some c ∧ c.filename = name := by
  induction as generalizing p fuel with
  | nil =>
    cases hl
    cases fuel <;> simp [fileNameInFileList]
  | cons a as ih =>
    obtain ⟨rfl, c, hc, hl⟩ := hl
    cases fuel with
    | zero => simp at hf
    | succ fuel =>
      simp only [List.length_cons] at hf
      simp only [fileNameInFileList, hc, strcmp_eq_zero, List.mem_cons, exists_eq_or_imp]
      split
      · rename_i e
        simp only [true_iff]
        exact .inl ⟨c, rfl, e.symm⟩
      · rename_i e
        rw [ih hl fuel (by omega)]
        constructor
        · exact .inr
        · rintro (⟨c', h1, h2⟩ | h1)
          · cases h1; exact absurd h2.symm e
          · exact h1

/-- Two te files, no interface file, one context interface file. -/
example : ∃ te ifs fc cte cif, World
    (pushAll [(.te, cs!"b.te"), (.cif, cs!"c.if"), (.te, cs!"a.te")]).1
    (pushAll [(.te, cs!"b.te"), (.cif, cs!"c.if"), (.te, cs!"a.te")]).2 te ifs fc cte cif := by
  obtain ⟨te, ifs, fc, cte, cif, h, _⟩ :=
    C16_lists_wellformed [(.te, cs!"b.te"), (.cif, cs!"c.if"), (.te, cs!"a.te")]
  exact ⟨te, ifs, fc, cte, cif, h⟩

end Selint
