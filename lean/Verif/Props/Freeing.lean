import Verif.Lemmas.StringList
/-!
# C81: giving trees and lists back

Freeing a tree, a list of declarations, a list of calls or a list of files frees everything
it owns, each object once, and nothing else. In particular freeing never touches an object
that was freed before: in the model that would be undefined behaviour.
-/

namespace Selint

open Spec

/-! ## A memory with a list of one file

The tree of the file is the file node and below it the call `foo(a)`, for which a check is
switched off. The call is also in the list of calls of a template. -/

/-- The list of files and the list of calls and nothing else. -/
def heldFile : Mem :=
  ⟨fun
    | 0 => some (.files ⟨some 1, some 1⟩)
    | 1 => some (.cell ⟨some 2, none⟩)
    | 2 => some (.file ⟨some 3, some 4⟩)
    | 3 => some (.bytes cs!"x.te")
    | 4 => some (.node ⟨none, none, none, some 6, .teFile, some 5, none, 0⟩)
    | 5 => some (.bytes cs!"x")
    | 6 => some (.node ⟨some 4, none, none, none, .ifCall, some 7, some 11, 3⟩)
    | 7 => some (.call ⟨some 8, some 9⟩)
    | 8 => some (.bytes cs!"foo")
    | 9 => some (.sl ⟨some 10, none, false⟩)
    | 10 => some (.bytes cs!"a")
    | 11 => some (.bytes cs!"W-001")
    | 12 => some (.cell ⟨some 7, none⟩)
    | _ => none, 13⟩

/-- The tree of the file. -/
def heldTree : List Tree :=
  [.mk ⟨.plain .teFile (some cs!"x"), none, 0⟩
    [.mk ⟨.ifCall ⟨cs!"foo", [(cs!"a", false)]⟩, some cs!"W-001", 3⟩ []]]

theorem heldFile_bounded : Bounded heldFile := by
  intro q hq
  have : 13 ≤ q := hq
  obtain ⟨k, rfl⟩ : ∃ k, q = k + 13 := ⟨q - 13, by omega⟩
  rfl

theorem heldFile_tree :
    NodesAt heldFile none none (some 4) heldTree [5, 8, 9, 10, 7, 11, 6, 4] :=
  .cons (n := ⟨none, none, none, some 6, .teFile, some 5, none, 0⟩) (p₁ := [5]) (p₂ := [])
    (p₃ := [8, 9, 10, 7, 11, 6]) (p₄ := []) rfl rfl rfl rfl rfl (.plain (.some rfl)) .none
    (.cons (n := ⟨some 4, none, none, none, .ifCall, some 7, some 11, 3⟩) (p₁ := [8, 9, 10, 7])
      (p₂ := [11]) (p₃ := []) (p₄ := []) rfl rfl rfl rfl rfl
      (.ifCall (d := ⟨some 8, some 9⟩) (p₁ := [8]) (p₂ := [9, 10]) rfl (.mk rfl)
        (.cons rfl rfl .nil (by simp) (by simp)) (by decide))
      (.some rfl) .nil .nil (by decide)) .nil (by decide)

theorem heldFile_files :
    FileListAt heldFile 0 [(cs!"x.te", heldTree)] [3, 5, 8, 9, 10, 7, 11, 6, 4, 2, 1, 0] :=
  ⟨⟨some 1, some 1⟩, [3, 5, 8, 9, 10, 7, 11, 6, 4, 2, 1], rfl,
    .cons (f := 2) (d := ⟨some 3, some 4⟩) (last := none) (p₁ := [3])
      (p₂ := [5, 8, 9, 10, 7, 11, 6, 4]) (p₃ := []) rfl rfl (.mk rfl) heldFile_tree .nil
      (by decide), by decide, rfl⟩

theorem heldFile_calls : CallsAt heldFile (some 12) [7] [12] := .cons rfl .nil (by simp)

/-! ## Trees -/

/-- Freeing a node frees the node, the nodes after it, everything below them, their data,
the strings and lists of the data and their exceptions. -/
theorem C81_tree {m up left p ts ps} (h : NodesAt m up left p ts ps) {fuel : Nat}
    (hf : ps.length ≤ fuel) : m.freePolicyNode fuel p = .ok (dropped m ps) :=
  freePolicyNode_eqOn h (fun _ _ => rfl) hf

example : heldFile.freePolicyNode 8 (some 4) =
    .ok (dropped heldFile [5, 8, 9, 10, 7, 11, 6, 4]) := C81_tree heldFile_tree (by decide)

/-- When nothing but the tree was allocated, nothing is left. -/
theorem C81_nothing_left {m up left p ts ps} (h : NodesAt m up left p ts ps)
    (hall : ∀ q, m.obj q ≠ none → q ∈ ps) {fuel : Nat} (hf : ps.length ≤ fuel) :
    ∃ m', m.freePolicyNode fuel p = .ok m' ∧ ∀ q, m'.obj q = none := by
  refine ⟨_, C81_tree h hf, fun q => ?_⟩
  rw [dropped_obj]
  split
  · rfl
  · rename_i hq
    cases ho : m.obj q with
    | none => rfl
    | some o => exact absurd (hall q (by simp [ho])) hq

example : ∃ m', (dropped heldFile [0, 1, 2, 3, 12]).freePolicyNode 8 (some 4) = .ok m' ∧
    ∀ q, m'.obj q = none := by
  refine C81_nothing_left (heldFile_tree.congr (eqOn_dropped _ (by decide))) ?_ (by decide)
  intro q hq
  by_cases h : q < 13
  · have : ∀ q, q < 13 → (dropped heldFile [0, 1, 2, 3, 12]).obj q ≠ none →
        q ∈ [5, 8, 9, 10, 7, 11, 6, 4] := by decide
    exact this q h hq
  · refine absurd ?_ hq
    rw [dropped_obj, heldFile_bounded q (by simpa [heldFile] using h)]
    split <;> rfl

/-- A tree that was freed must not be freed again. -/
theorem C81_twice {m up left ts ps} {p : Addr} (h : NodesAt m up left (some p) ts ps)
    (fuel : Nat) : (dropped m ps).freePolicyNode fuel (some p) = .ub := by
  have hp : (dropped m ps).obj p = none := by
    cases h with
    | cons => simp [dropped_obj]
  cases fuel <;> simp [Mem.freePolicyNode, Mem.get, hp]

example : (dropped heldFile [5, 8, 9, 10, 7, 11, 6, 4]).freePolicyNode 8 (some 4) = .ub :=
  C81_twice heldFile_tree 8

/-! ## Lists of declarations and calls -/

/-- A list of one declaration, `type t, a;`. -/
def heldDecl : Mem :=
  ⟨fun
    | 0 => some (.cell ⟨some 1, none⟩)
    | 1 => some (.decl ⟨.type, some 2, some 3⟩)
    | 2 => some (.bytes cs!"t")
    | 3 => some (.sl ⟨some 4, none, false⟩)
    | 4 => some (.bytes cs!"a")
    | _ => none, 5⟩

theorem heldDecl_at : DeclsAt heldDecl (some 0) [⟨.type, cs!"t", [cs!"a"]⟩] [3, 4, 2, 1, 0] :=
  .cons (c := ⟨some 1, none⟩) (p₁ := [3, 4, 2, 1]) (p₂ := []) rfl
    (.mk (d := ⟨.type, some 2, some 3⟩) (p₁ := [3, 4]) (p₂ := [2]) rfl rfl
      (.cons rfl rfl .nil (by simp) (by simp)) (.mk rfl) (by decide)) .nil (by decide)

/-- Freeing a list of declarations frees the declarations too. -/
theorem C81_declarations {m p ds ps} (h : DeclsAt m p ds ps) {fuel : Nat}
    (hf : ps.length ≤ fuel) : m.freeDeclList fuel p = .ok (dropped m ps) :=
  freeDeclList_eqOn h (fun _ _ => rfl) hf

example : heldDecl.freeDeclList 5 (some 0) = .ok (dropped heldDecl [3, 4, 2, 1, 0]) :=
  C81_declarations heldDecl_at (by decide)

/-- Freeing a list of calls leaves the calls alone. -/
theorem C81_calls {m p cs ps} (h : CallsAt m p cs ps) {fuel : Nat}
    (hf : ps.length ≤ fuel) : m.freeIfCallList fuel p = .ok (dropped m ps) :=
  freeIfCallList_eqOn h (fun _ _ => rfl) hf

example : heldFile.freeIfCallList 1 (some 12) = .ok (dropped heldFile [12]) :=
  C81_calls heldFile_calls (by decide)

/-- The calls in the list of a template are data of nodes of a tree: it does not matter
which of the tree and the list is freed first. -/
theorem C81_calls_and_tree {m p cs ps up left t ts qs} (h : CallsAt m p cs ps)
    (ht : NodesAt m up left t ts qs) (hd : ∀ q ∈ ps, q ∉ qs) {fuel : Nat}
    (hf : ps.length ≤ fuel) (hf' : qs.length ≤ fuel) :
    (do let m' ← m.freeIfCallList fuel p; m'.freePolicyNode fuel t) =
      .ok (dropped m (ps ++ qs)) ∧
    (do let m' ← m.freePolicyNode fuel t; m'.freeIfCallList fuel p) =
      .ok (dropped m (ps ++ qs)) := by
  constructor
  · rw [C81_calls h hf, Res.bind_ok, freePolicyNode_eqOn ht (eqOn_dropped m (by grind)) hf',
      dropped_dropped]
  · rw [C81_tree ht hf', Res.bind_ok, freeIfCallList_eqOn h (eqOn_dropped m hd) hf,
      dropped_dropped]
    exact congrArg Res.ok (dropped_congr m (by grind))

example : (do let m' ← heldFile.freePolicyNode 9 (some 4); m'.freeIfCallList 9 (some 12)) =
    .ok (dropped heldFile [12, 5, 8, 9, 10, 7, 11, 6, 4]) :=
  (C81_calls_and_tree heldFile_calls heldFile_tree (by decide) (by decide) (by decide)).2

/-! ## Lists of files -/

/-- Freeing a list of files frees the names and the trees of the files too. -/
theorem C81_files {m p fs ps} (h : FileListAt m p fs ps) {fuel : Nat}
    (hf : ps.length ≤ fuel) : m.freeFileList fuel p = .ok (dropped m ps) := by
  obtain ⟨l, qs, h₁, h₂, h₃, rfl⟩ := h
  simp only [List.length_append, List.length_singleton] at hf
  rw [Mem.freeFileList, get_eq h₁ (f := Obj.files?) rfl, Res.bind_ok,
    freeFileLoop_eqOn h₂ (fun _ _ => rfl) (by omega), Res.bind_ok,
    step_one (by simp [h₁]) h₃]

example : heldFile.freeFileList 12 0 =
    .ok (dropped heldFile [3, 5, 8, 9, 10, 7, 11, 6, 4, 2, 1, 0]) :=
  C81_files heldFile_files (by decide)

/-- A file made from a name and a tree owns the tree and new objects. -/
theorem C81_make_file {m : Mem} (hb : Bounded m) (name : Str) (ast : Option Addr) :
    ∃ f m' a, m.makePolicyFile name ast = (f, m') ∧ m'.obj f = some (.file ⟨some a, ast⟩) ∧
      m'.obj a = some (.bytes name) ∧ AddsOnly m m' [a, f] ∧ f ≠ a ∧ Bounded m' := by
  refine ⟨_, _, m.top, rfl, ?_, ?_, ⟨?_, ?_⟩, ?_, Bounded.malloc (Bounded.malloc hb _) _⟩
  · simp
  · simp
  · intro q hq
    simp only [List.mem_cons, List.not_mem_nil, or_false] at hq
    exact hb q (by omega)
  · intro q hq
    simp only [List.mem_cons, List.not_mem_nil, or_false, not_or] at hq
    simp [hq.1, hq.2]
  · simp

theorem Spec.FilesAt.nodup {m p last fs ps} (h : FilesAt m p last fs ps) : ps.Nodup := by
  cases h with
  | nil => simp
  | cons _ _ _ _ _ hn => exact hn

theorem nodup_join {ps qs : List Addr} (h₁ : ps.Nodup) (h₂ : qs.Nodup)
    (hd : ∀ r ∈ ps, r ∉ qs) : (ps ++ qs).Nodup := by
  rw [List.nodup_append]
  exact ⟨h₁, h₂, fun a ha b hb e => hd a ha (e ▸ hb)⟩

/-- The last cell of a list of files, and what the list becomes when that cell is made to
point to another list. -/
theorem files_append {m p last fs ps} (h : FilesAt m p last fs ps) :
    ∀ {t}, last = some t → ∃ c, t ∈ ps ∧ m.obj t = some (.cell c) ∧ p ≠ none ∧
      ∀ {m' : Mem} {q l' fs' qs}, (∀ r, r ≠ t → r ∈ ps → m'.obj r = m.obj r) →
        m'.obj t = some (.cell { c with next := some q }) →
        FilesAt m' (some q) (some l') fs' qs → (∀ r ∈ ps, r ∉ qs) →
        FilesAt m' p (some l') (fs ++ fs') (ps ++ qs) := by
  induction h with
  | nil => intro _ h; cases h
  | @cons p f n last d name ts fs p₁ p₂ p₃ h h₁ h₂ h₃ h₄ hn ih =>
    intro t ht
    have ef : ∀ qs : List Nat, p₁ ++ p₂ ++ [f, p] ++ p₃ ++ qs = p₁ ++ p₂ ++ [f, p] ++ (p₃ ++ qs) := by
      intro qs; simp
    cases last with
    | none =>
      simp only [Option.getD_none, Option.some.injEq] at ht
      subst ht
      have hn' : n = none := by
        cases h₄ with
        | nil => rfl
      subst hn'
      cases h₄
      refine ⟨_, by simp, h, by simp, ?_⟩
      intro m' q l' fs' qs he ht hq hd
      rw [ef, List.nil_append]
      have hr := FilesAt.cons (f := f) (d := d) (name := name) (ts := ts) (p₁ := p₁) (p₂ := p₂)
        ht (by rw [he f (by grind) (by simp)]; exact h₁)
        (h₂.congr fun r hr => he r (by grind) (by simp [hr]))
        (h₃.congr fun r hr => he r (by grind) (by simp [hr])) hq
        (by have := nodup_join hn hq.nodup hd; simpa using this)
      simpa using hr
    | some last =>
      simp only [Option.getD_some, Option.some.injEq] at ht
      subst ht
      obtain ⟨c, a₁, a₂, a₃, a₄⟩ := ih rfl
      refine ⟨c, by simp [a₁], a₂, by simp, ?_⟩
      intro m' q l' fs' qs he ht hq hd
      rw [ef]
      have hr := FilesAt.cons (f := f) (d := d) (name := name) (ts := ts) (p₁ := p₁) (p₂ := p₂)
        (by rw [he p (by grind) (by simp)]; exact h)
        (by rw [he f (by grind) (by simp)]; exact h₁)
        (h₂.congr fun r hr => he r (by grind) (by simp [hr]))
        (h₃.congr fun r hr => he r (by grind) (by simp [hr]))
        (a₄ (fun r hr hr' => he r hr (by simp [hr'])) ht hq (fun r hr => hd r (by simp [hr])))
        (by have := nodup_join hn hq.nodup hd; simpa using this)
      simpa using hr

theorem files_head {m p last fs ps} (h : FilesAt m p last fs ps) : last = none → p = none := by
  intro hl
  cases h with
  | nil => rfl
  | cons => cases hl

/-- Adding a file to a list of files makes it the last file of the list. -/
theorem C81_push {m p fs ps} {f a : Addr} {ast : Option Addr} {name : Str} {ts : List Tree}
    {qs : List Addr} (hb : Bounded m) (h : FileListAt m p fs ps)
    (hf : m.obj f = some (.file ⟨some a, ast⟩)) (ha : m.obj a = some (.bytes name))
    (ht : NodesAt m none none ast ts qs) (hn : (ps ++ a :: qs ++ [f]).Nodup) :
    ∃ m' ps', m.fileListPushBack p f = .ok m' ∧ FileListAt m' p (fs ++ [(name, ts)]) ps' ∧
      (∀ q, q ∈ ps' ↔ q ∈ ps ∨ q ∈ qs ∨ q = a ∨ q = f ∨ q = m.top) ∧
      SameOff m m' (ps ++ [m.top]) := by
  obtain ⟨l, rs, h₁, h₂, h₃, rfl⟩ := h
  have hlt : ∀ q, m.obj q ≠ none → q < m.top := fun q hq =>
    Nat.lt_of_not_le fun h => hq (hb q h)
  have hp : p < m.top := hlt p (by simp [h₁])
  have hfl : f < m.top := hlt f (by simp [hf])
  have hal : a < m.top := hlt a (by simp [ha])
  have hql : ∀ q ∈ qs, q < m.top := fun q hq => hlt q (ht.live q hq)
  have hrl : ∀ q ∈ rs, q < m.top := fun q hq => hlt q (h₂.live q hq)
  obtain ⟨lh, lt⟩ := l
  cases lt with
  | none =>
    have hh : lh = none := files_head h₂ rfl
    subst hh
    cases h₂
    have e : m.fileListPushBack p f = .ok ⟨fun q => if q = p then
        some (.files ⟨some m.top, some m.top⟩) else if q = m.top then
        some (.cell ⟨some f, none⟩) else m.obj q, m.top + 1⟩ := by
      rw [Mem.fileListPushBack, get_eq h₁ (f := Obj.files?) rfl, Res.bind_ok]
      simp only [Mem.malloc]
      rw [write_ok]
      simp [Nat.ne_of_lt hp, h₁]
    have hN : ([a] ++ qs ++ [f, m.top] ++ []).Nodup := by
      have : m.top ∉ qs := fun h => by have := hql _ h; omega
      have : m.top ≠ a := by omega
      have : m.top ≠ f := by omega
      simp only [List.nodup_append, List.nodup_cons, List.mem_append, List.mem_cons] at hn ⊢
      grind
    have hF : FilesAt ⟨fun q => if q = p then some (.files ⟨some m.top, some m.top⟩) else
        if q = m.top then some (.cell ⟨some f, none⟩) else m.obj q, m.top + 1⟩ (some m.top)
        (some m.top) [(name, ts)] ([a] ++ qs ++ [f, m.top] ++ []) := by
      refine FilesAt.cons (last := none) (d := ⟨some a, ast⟩) ?_ ?_ (.mk ?_) (ht.congr ?_) .nil hN
      · simp [show m.top ≠ p by omega]
      · have : f ≠ p := by grind
        simp [this, Nat.ne_of_lt hfl, hf]
      · have : a ≠ p := by grind
        simp [this, Nat.ne_of_lt hal, ha]
      · intro q hq
        have : q ≠ p := by grind
        simp [this, Nat.ne_of_lt (hql q hq)]
    refine ⟨_, _, e, ⟨_, _, by simp; rfl, hF, ?_, rfl⟩, ?_, ?_⟩
    · have : p ≠ m.top := by omega
      grind
    · intro q
      simp only [List.append_nil, List.mem_append, List.mem_cons, List.not_mem_nil, or_false,
        List.nil_append]
      grind
    · intro q hq
      simp only [List.nil_append, List.mem_append, List.mem_cons, List.not_mem_nil, or_false,
        not_or] at hq
      simp [hq.1, hq.2]
  | some t =>
    obtain ⟨c, a₁, a₂, a₃, a₄⟩ := files_append h₂ rfl
    have htl := hrl t a₁
    have htp : t ≠ p := by grind
    have e : m.fileListPushBack p f = .ok ⟨fun q => if q = p then
        some (.files ⟨lh, some m.top⟩) else if q = t then
        some (.cell { c with next := some m.top }) else if q = m.top then
        some (.cell ⟨some f, none⟩) else m.obj q, m.top + 1⟩ := by
      rw [Mem.fileListPushBack, get_eq h₁ (f := Obj.files?) rfl, Res.bind_ok]
      simp only [get_eq a₂ (f := Obj.cell?) rfl, Res.bind_ok, Mem.malloc]
      rw [write_ok (by simp [Nat.ne_of_lt htl, a₂]), Res.bind_ok, write_ok]
      simp [Nat.ne_of_lt hp, h₁, htp.symm]
    have hN : ([a] ++ qs ++ [f, m.top] ++ []).Nodup := by
      have : m.top ∉ qs := fun h => by have := hql _ h; omega
      have : m.top ≠ a := by omega
      have : m.top ≠ f := by omega
      simp only [List.nodup_append, List.nodup_cons, List.mem_append, List.mem_cons] at hn ⊢
      grind
    have hF : FilesAt ⟨fun q => if q = p then
        some (.files ⟨lh, some m.top⟩) else if q = t then
        some (.cell { c with next := some m.top }) else if q = m.top then
        some (.cell ⟨some f, none⟩) else m.obj q, m.top + 1⟩ (some m.top)
        (some m.top) [(name, ts)] ([a] ++ qs ++ [f, m.top] ++ []) := by
      refine FilesAt.cons (last := none) (d := ⟨some a, ast⟩) ?_ ?_ (.mk ?_) (ht.congr ?_) .nil hN
      · simp [show m.top ≠ p by omega, show m.top ≠ t by omega]
      · have : f ≠ p := by grind
        have : f ≠ t := by grind
        simp [*, Nat.ne_of_lt hfl]
      · have : a ≠ p := by grind
        have : a ≠ t := by grind
        simp [*, Nat.ne_of_lt hal]
      · intro q hq
        have : q ≠ p := by grind
        have : q ≠ t := by grind
        simp [*, Nat.ne_of_lt (hql q hq)]
    have hdis : ∀ r ∈ rs, r ∉ [a] ++ qs ++ [f, m.top] ++ [] := by
      intro r hr
      have := hrl r hr
      have : r ≠ m.top := by omega
      grind
    refine ⟨_, _, e, ⟨⟨lh, some m.top⟩, _, by simp, a₄ ?_ ?_ hF hdis, ?_, rfl⟩, ?_, ?_⟩
    · intro r hr hr'
      have := hrl r hr'
      have : r ≠ p := by grind
      simp [hr, this, show r ≠ m.top by omega]
    · simp [htp]
    · have : p ≠ m.top := by omega
      have := nodup_join h₂.nodup hN hdis
      grind
    · intro q
      simp only [List.append_nil, List.mem_append, List.mem_cons, List.not_mem_nil, or_false]
      grind
    · intro q hq
      simp only [List.mem_append, List.mem_cons, List.not_mem_nil, or_false, not_or] at hq
      have : q ≠ t := by rintro rfl; exact hq.1.1 a₁
      simp [hq.1.2, hq.2, this]

/-- The file `y.te` without a tree, added to the list with `x.te`. -/
example : ∃ m' ps', (heldFile.makePolicyFile cs!"y.te" none).2.fileListPushBack 0 14 = .ok m' ∧
    FileListAt m' 0 [(cs!"x.te", heldTree), (cs!"y.te", [])] ps' := by
  obtain ⟨f, m', a, h₁, h₂, h₃, h₄, h₅, h₆⟩ := C81_make_file heldFile_bounded cs!"y.te" none
  have e : f = 14 ∧ m' = (heldFile.makePolicyFile cs!"y.te" none).2 := by
    rw [h₁]; exact ⟨(congrArg Prod.fst h₁).symm, rfl⟩
  obtain ⟨rfl, rfl⟩ := e
  have ha : a = 13 := by
    have : (heldFile.makePolicyFile cs!"y.te" none).2.obj 14 = some (.file ⟨some 13, none⟩) := rfl
    rw [this] at h₂
    simpa using h₂.symm
  subst ha
  obtain ⟨l, qs, b₁, b₂, b₃, b₄⟩ := heldFile_files
  obtain ⟨m'', ps', c₁, c₂, _⟩ := C81_push (p := 0) (fs := [(cs!"x.te", heldTree)])
    (ps := [3, 5, 8, 9, 10, 7, 11, 6, 4, 2, 1, 0]) h₆
    ⟨l, qs, by rw [h₄.2 0 (by simp)]; exact b₁, b₂.congr (h₄.eqOn b₂.live), b₃, b₄⟩ h₂ h₃ .nil
    (by decide)
  exact ⟨m'', ps', c₁, c₂⟩

theorem fileNameLoop_eq {m p last fs ps} (h : FilesAt m p last fs ps) (name : Str) :
    ∀ {fuel}, ps.length ≤ fuel →
      m.fileNameLoop fuel name p = .ok (decide (name ∈ fs.map (·.1))) := by
  induction h with
  | nil => intro fuel _; cases fuel <;> simp [Mem.fileNameLoop]
  | @cons p f n last d name' ts fs p₁ p₂ p₃ h h₁ h₂ h₃ h₄ hn ih =>
    intro fuel hf
    simp only [List.length_append, List.length_cons, List.length_nil] at hf
    obtain _ | fuel := fuel
    · omega
    have hs : m.getAt Obj.str? d.filename = .ok name' := by
      generalize d.filename = x at h₂
      cases h₂ with
      | mk h => exact get_eq h rfl
    rw [Mem.fileNameLoop, get_eq h (f := Obj.cell?) rfl, Res.bind_ok]
    simp only [get_eq h₁ (f := Obj.file?) rfl, Res.bind_ok, hs]
    split
    · rename_i h
      simp [strcmp_eq_zero.1 h]
    · rename_i h
      have : name ≠ name' := fun e => h (strcmp_eq_zero.2 e)
      rw [ih (by omega)]
      simp [this]

/-- Searching a list of files for a name finds out whether a file has this name. -/
theorem C81_file_name {m p fs ps} (h : FileListAt m p fs ps) (name : Str) {fuel : Nat}
    (hf : ps.length ≤ fuel) :
    m.fileNameInFileList fuel name p = .ok (decide (name ∈ fs.map (·.1))) := by
  obtain ⟨l, qs, h₁, h₂, h₃, rfl⟩ := h
  simp only [List.length_append, List.length_singleton] at hf
  rw [Mem.fileNameInFileList, get_eq h₁ (f := Obj.files?) rfl, Res.bind_ok,
    fileNameLoop_eq h₂ name (by omega)]

example : heldFile.fileNameInFileList 12 cs!"x.te" 0 = .ok true :=
  C81_file_name heldFile_files _ (by decide)

end Selint
