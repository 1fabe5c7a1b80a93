import Verif.Spec.Runner
import Verif.Props.Transform
/-! # Lemmas about a whole run -/

namespace Selint
open Spec

variable {F σ : Type} {prog : Program F σ}

theorem links_get {h h' : FileHeap} (hl : links h = links h') {a : Nat} {c : FileCell}
    (hc : h[a]? = some c) : ∃ c', h'[a]? = some c' ∧ c'.filename = c.filename ∧ c'.next = c.next := by
  have h1 : (links h)[a]? = some (c.filename, c.next) := by simp [links, hc]
  rw [hl] at h1
  simp only [links, List.getElem?_map, Option.map_eq_some_iff] at h1
  obtain ⟨c', h2, h3⟩ := h1
  simp at h3
  exact ⟨c', h2, h3.1, h3.2⟩

theorem chain_links {h h' : FileHeap} (hl : links h = links h') {p : Option Nat} {as : List Nat}
    (hc : Chain h p as) : Chain h' p as := by
  induction as generalizing p with
  | nil => exact hc
  | cons a as ih =>
    obtain ⟨rfl, c, h1, h2⟩ := hc
    obtain ⟨c', h3, _, h5⟩ := links_get hl h1
    exact ⟨rfl, c', h3, by rw [h5]; exact ih h2⟩

theorem links_length {h h' : FileHeap} (hl : links h = links h') : h.length = h'.length := by
  have := congrArg List.length hl; simpa [links] using this

theorem chain_lt {h : FileHeap} {p : Option Nat} {as : List Nat} (hc : Chain h p as) :
    ∀ a ∈ as, a < h.length := by
  induction as generalizing p with
  | nil => simp
  | cons a as ih =>
    obtain ⟨rfl, c, h1, h2⟩ := hc
    intro b hb
    simp at hb
    rcases hb with rfl | hb
    · exact (List.getElem?_eq_some_iff.mp h1).1
    · exact ih h2 b hb

theorem nodup_lt_length (as : List Nat) (n : Nat) (hn : as.Nodup) (h : ∀ a ∈ as, a < n) :
    as.length ≤ n := by
  induction n generalizing as with
  | zero =>
    cases as with
    | nil => simp
    | cons a as => exact absurd (h a (by simp)) (by omega)
  | succ n ih =>
    have := ih (as.erase n) (hn.erase n) (by
      intro a ha
      have h1 := h a (List.mem_of_mem_erase ha)
      have h2 : a ≠ n := by
        rintro rfl
        exact (List.Nodup.not_mem_erase hn) ha
      omega)
    rw [List.length_erase] at this
    split at this <;> omega

theorem tablesOf_append (a b : List Event) (m : Maps) :
    tablesOf prog (a ++ b) m = tablesOf prog b (tablesOf prog a m) := by
  induction a generalizing m with
  | nil => rfl
  | cons e a ih => cases e <;> simp [tablesOf, ih]

theorem genuine_append (a b : List Event) (m : Maps) :
    Genuine prog (a ++ b) m ↔ Genuine prog a m ∧ Genuine prog b (tablesOf prog a m) := by
  induction a generalizing m with
  | nil => simp [Genuine, tablesOf]
  | cons e a ih => cases e <;> simp [tablesOf, Genuine, ih, and_assoc]

/-- The event is a parse of a file of this kind. -/
def IsParse (fl : NodeFlavor) : Event → Prop
  | .parse _ _ g _ => g = fl
  | _ => False

/-- What a parsing loop does. -/
structure ParseOk (prog : Program F σ) (fl : NodeFlavor) (as : List Nat) (s : RunnerState F σ)
    (e : SelintError) (s' : RunnerState F σ) (evs : List Event) : Prop where
  log : s'.log = s.log ++ evs
  links : links s'.heap = links s.heap
  ck : s'.ck = s.ck
  rs : s'.rs = s.rs
  maps : s'.maps = tablesOf prog evs s.maps
  genuine : Genuine prog evs s.maps
  parses : ∀ ev ∈ evs, IsParse fl ev
  names : ∀ ev ∈ evs, ∃ a ∈ as, ∃ c, s.heap[a]? = some c ∧ ∃ ast, ev = .parse a c.filename fl ast
  other : ∀ a, a ∉ as → s'.heap[a]? = s.heap[a]?
  result : (e = .success ∧ parsedCells evs = as ∧ (∀ ev ∈ evs, ¬Event.IsFailure ev) ∧
      ∀ a ∈ as, ∃ c, s'.heap[a]? = some c ∧ c.ast ≠ [] ∧ .parse a c.filename fl c.ast ∈ evs) ∨
    (e = .parseError ∧ ∃ ev ∈ evs, Event.IsFailure ev)

theorem links_set {h : FileHeap} {a : Nat} {c : FileCell} (hc : h[a]? = some c) (ast : List Tree) :
    links (h.set a { c with ast := ast }) = links h := by
  unfold links
  rw [List.map_set]
  apply List.ext_getElem?
  intro i
  rw [List.getElem?_set]
  split
  · rename_i hi; subst hi
    simp [hc]
    have := (List.getElem?_eq_some_iff.mp hc).1
    omega
  · rfl

theorem parseAll_ok (fl : NodeFlavor) (fuel : Nat) (as : List Nat) (p : Option Nat)
    (s : RunnerState F σ) (hc : Chain s.heap p as) (hn : as.Nodup) (hf : as.length ≤ fuel) :
    ∃ e s' evs, parseAll prog fl fuel p s = some (e, s') ∧ ParseOk prog fl as s e s' evs := by
  induction as generalizing fuel p s with
  | nil =>
    have : p = none := hc
    subst this
    refine ⟨.success, s, [], by cases fuel <;> rfl, by simp, rfl, rfl, rfl, rfl, trivial, by simp, by simp, by simp, Or.inl ?_⟩
    exact ⟨rfl, rfl, by simp, by simp⟩
  | cons a as ih =>
    obtain ⟨rfl, c, h1, h2⟩ := hc
    cases fuel with
    | zero => simp at hf
    | succ fuel =>
      simp only [List.nodup_cons] at hn
      simp only [List.length_cons, Nat.add_le_add_iff_right] at hf
      simp only [parseAll, h1]
      have hlt := (List.getElem?_eq_some_iff.mp h1).1
      by_cases hemp : (prog.parser fl c.filename s.maps).1.isEmpty = true
      · rw [if_pos hemp]
        simp only [List.isEmpty_iff] at hemp
        refine ⟨.parseError, parseCell prog fl a c s,
          [.parse a c.filename fl (prog.parser fl c.filename s.maps).1], rfl, rfl,
          links_set h1 _, rfl, rfl, rfl, ⟨rfl, trivial⟩, ?_, ?_, ?_, Or.inr ⟨rfl, _, List.mem_singleton.mpr rfl, hemp⟩⟩
        · intro ev hev; simp at hev; subst hev; rfl
        · intro ev hev; simp at hev; subst hev; exact ⟨a, by simp, c, h1, _, rfl⟩
        · intro b hb
          simp at hb
          simp only [parseCell]
          rw [List.getElem?_set_ne (Ne.symm hb.1)]
      · rw [if_neg hemp]
        have hl : links (parseCell prog fl a c s).heap = links s.heap := links_set h1 _
        obtain ⟨e, s', evs, h3, h4⟩ := ih fuel c.next (parseCell prog fl a c s)
          (chain_links hl.symm h2) hn.2 hf
        refine ⟨e, s', .parse a c.filename fl (prog.parser fl c.filename s.maps).1 :: evs, h3,
          ?_, h4.links.trans hl, h4.ck, h4.rs, ?_, ⟨rfl, h4.genuine⟩, ?_, ?_, ?_, ?_⟩
        · rw [h4.log]; simp [parseCell]
        · rw [h4.maps]; simp [parseCell, tablesOf]
        · intro ev hev; simp at hev
          rcases hev with rfl | hev
          · rfl
          · exact h4.parses ev hev
        · intro ev hev; simp at hev
          rcases hev with rfl | hev
          · exact ⟨a, by simp, c, h1, _, rfl⟩
          · obtain ⟨b, hb, c1, h5, ast, rfl⟩ := h4.names ev hev
            obtain ⟨c2, h6, h7, -⟩ := links_get hl h5
            exact ⟨b, by simp [hb], c2, h6, ast, by rw [h7]⟩
        · intro b hb
          simp at hb
          rw [h4.other b hb.2]
          simp only [parseCell]
          rw [List.getElem?_set_ne (Ne.symm hb.1)]
        · rcases h4.result with ⟨r1, r2, r3, r4⟩ | ⟨r1, r2⟩
          · refine Or.inl ⟨r1, ?_, ?_, ?_⟩
            · simp only [parsedCells, List.filterMap_cons] at r2 ⊢
              rw [r2]
            · intro ev hev; simp at hev
              rcases hev with rfl | hev
              · intro h; exact hemp (by simpa [Event.IsFailure] using h)
              · exact r3 ev hev
            · intro b hb
              simp at hb
              rcases hb with rfl | hb
              · refine ⟨{ c with ast := (prog.parser fl c.filename s.maps).1 }, ?_, ?_, by simp⟩
                · rw [h4.other b hn.1]
                  simp [parseCell, hlt]
                · simpa using hemp
              · obtain ⟨c', h5, h6, h7⟩ := r4 b hb
                exact ⟨c', h5, h6, by simp [h7]⟩
          · obtain ⟨ev, hev, hfa⟩ := r2
            exact Or.inr ⟨r1, ev, by simp [hev], hfa⟩

/-! ## The splice -/

theorem chain_append {h : FileHeap} {p : Option Nat} {as bs : List Nat} {last : Nat}
    {cl : FileCell} (hc : Chain h p as) (hn : (as ++ bs).Nodup) (hl : as.getLast? = some last)
    (hlc : h[last]? = some cl) {q : Option Nat} (hb : Chain h q bs) :
    Chain (FileHeap.setNext h last q) p (as ++ bs) := by
  have hlast : last ∈ as := List.mem_of_getLast? hl
  have hset : FileHeap.setNext h last q = h.set last { cl with next := q } := by
    simp [FileHeap.setNext, hlc]
  rw [hset]
  -- the second list is untouched
  have hbs : ∀ (bs : List Nat) (q' : Option Nat), last ∉ bs → Chain h q' bs →
      Chain (h.set last { cl with next := q }) q' bs := by
    intro bs
    induction bs with
    | nil => intro q' _ h; exact h
    | cons b bs ih =>
      intro q' hnb hch
      obtain ⟨rfl, c, h1, h2⟩ := hch
      simp at hnb
      refine ⟨rfl, c, ?_, ih c.next hnb.2 h2⟩
      rw [List.getElem?_set_ne hnb.1]; exact h1
  have hnb : last ∉ bs := by
    intro hm
    exact (List.nodup_append.mp hn).2.2 last hlast last hm rfl
  induction as generalizing p with
  | nil => simp at hl
  | cons a as ih =>
    obtain ⟨rfl, c, h1, h2⟩ := hc
    have hlt := (List.getElem?_eq_some_iff.mp hlc).1
    cases as with
    | nil =>
      simp at hl
      subst hl
      refine ⟨rfl, { cl with next := q }, by simp [hlt], hbs bs q hnb hb⟩
    | cons a' as =>
      have hl' : (a' :: as).getLast? = some last := by simpa [List.getLast?_cons_cons] using hl
      have hla : last ∈ a' :: as := List.mem_of_getLast? hl'
      have hne : last ≠ a := by
        rintro rfl
        simp only [List.cons_append, List.nodup_cons] at hn
        exact hn.1 (by simp at hla ⊢; rcases hla with h | h <;> simp [h])
      refine ⟨rfl, c, ?_, ?_⟩
      · rw [List.getElem?_set_ne hne]; exact h1
      · exact ih h2 (by simp only [List.cons_append, List.nodup_cons] at hn ⊢; exact hn.2) hl' hla

theorem astsFrom_ok {h : FileHeap} {p : Option Nat} {as : List Nat} (hc : Chain h p as)
    (fuel : Nat) (hf : as.length ≤ fuel) :
    astsFrom h fuel p = some (as.map fun a => ((h[a]?).map FileCell.ast).getD []) := by
  induction as generalizing p fuel with
  | nil =>
    have : p = none := hc
    subst this
    cases fuel <;> rfl
  | cons a as ih =>
    obtain ⟨rfl, c, h1, h2⟩ := hc
    cases fuel with
    | zero => simp at hf
    | succ fuel =>
      simp only [List.length_cons, Nat.add_le_add_iff_right] at hf
      simp [astsFrom, h1, ih h2 fuel hf]

theorem chain_last_next {h : FileHeap} {p : Option Nat} {as : List Nat} (hc : Chain h p as)
    {t : Nat} (ht : as.getLast? = some t) : ∃ c, h[t]? = some c ∧ c.next = none := by
  induction as generalizing p with
  | nil => simp at ht
  | cons a as ih =>
    obtain ⟨rfl, c, h1, h2⟩ := hc
    cases as with
    | nil => simp at ht; subst ht; exact ⟨c, h1, h2⟩
    | cons b bs => exact ih h2 (by simpa [List.getLast?_cons_cons] using ht)

/-- The spliced list is walked completely and the lists are restored. -/
theorem markSpliced_ok {l l' : FileList} {as bs : List Nat} (s : RunnerState F σ)
    (h1 : IsList s.heap l as) (h2 : IsList s.heap l' bs) (hn : (as ++ bs).Nodup) :
    ∃ m, markTransformInterfaces
        (((as ++ bs).map fun a => ((s.heap[a]?).map FileCell.ast).getD []).map Loc.ofForest) s.maps
          = some m ∧
      markSpliced l l' s = some (.success,
        { s with maps := m,
                 log := s.log ++ [.mark ((as ++ bs).map fun a => ((s.heap[a]?).map FileCell.ast).getD [])] }) := by
  obtain ⟨m, hm, _, _⟩ := C22_least_fixpoint
    ((as ++ bs).map fun a => ((s.heap[a]?).map FileCell.ast).getD []) s.maps
  refine ⟨m, hm, ?_⟩
  have hlen : (as ++ bs).length ≤ s.heap.length + 1 := by
    have := nodup_lt_length (as ++ bs) s.heap.length hn (by
      intro a ha
      rw [List.mem_append] at ha
      rcases ha with ha | ha
      · exact chain_lt h1.1 a ha
      · exact chain_lt h2.1 a ha)
    omega
  unfold markSpliced
  cases ht : l.tail with
  | none =>
    have has : as = [] := by
      have := h1.2; rw [ht] at this; exact List.getLast?_eq_none_iff.mp this.symm
    subst has
    simp only [List.nil_append] at hlen hm ⊢
    simp only [astsFrom_ok h2.1 _ hlen, hm]
  | some t =>
    have hl : as.getLast? = some t := by rw [← h1.2]; exact ht
    obtain ⟨ct, hct, hnx⟩ := chain_last_next h1.1 hl
    have hlt := (List.getElem?_eq_some_iff.mp hct).1
    have hchain := chain_append h1.1 hn hl hct h2.1
    have e1 := astsFrom_ok hchain (s.heap.length + 1) hlen
    have e2 : ((as ++ bs).map fun a => (((FileHeap.setNext s.heap t l'.head)[a]?).map FileCell.ast).getD []) =
        ((as ++ bs).map fun a => ((s.heap[a]?).map FileCell.ast).getD []) := by
      apply List.map_congr_left
      intro a _
      simp only [FileHeap.setNext, hct]
      rw [List.getElem?_set]
      split
      · rename_i h; subst h; simp [hct]
      · rfl
    rw [e2] at e1
    have e3 : FileHeap.setNext (FileHeap.setNext s.heap t l'.head) t none = s.heap := by
      have : (FileHeap.setNext s.heap t l'.head)[t]? = some { ct with next := l'.head } := by
        simp only [FileHeap.setNext, hct]
        rw [List.getElem?_set_self hlt]
      simp only [FileHeap.setNext, hct] at this ⊢
      simp only [this]
      rw [List.set_set]
      have : ({ ct with next := none } : FileCell) = ct := by rw [← hnx]
      rw [this]
      obtain ⟨h1, h2⟩ := List.getElem?_eq_some_iff.mp hct
      rw [← h2]; exact List.set_getElem_self h1
    simp only [e1, hm, e3]

/-! ## Checks -/

/-- What a checking loop does. -/
structure CheckOk (prog : Program F σ) (fl : FileFlavor) (as : List Nat) (s s' : RunnerState F σ)
    (evs : List Event) : Prop where
  log : s'.log = s.log ++ evs
  heap : s'.heap = s.heap
  maps : s'.maps = s.maps
  cells : checkedCells evs = as
  replayed : (s'.ck, s'.rs) = evs.foldl (replay prog) (s.ck, s.rs)
  events : ∀ ev ∈ evs, ∃ a c, s.heap[a]? = some c ∧ a ∈ as ∧
    ev = .check a c.filename (checkDataFor prog fl c.filename) c.ast s.maps

theorem runAllChecks_ok (fl : FileFlavor) (fuel : Nat) (as : List Nat) (p : Option Nat)
    (s : RunnerState F σ) (hc : Chain s.heap p as) (hf : as.length ≤ fuel) :
    ∃ s' evs, runAllChecks prog fl fuel p s = some (.success, s') ∧ CheckOk prog fl as s s' evs := by
  induction as generalizing fuel p s with
  | nil =>
    have : p = none := hc
    subst this
    exact ⟨s, [], by cases fuel <;> rfl, by simp, rfl, rfl, rfl, rfl, by simp⟩
  | cons a as ih =>
    obtain ⟨rfl, c, h1, h2⟩ := hc
    cases fuel with
    | zero => simp at hf
    | succ fuel =>
      simp only [List.length_cons, Nat.add_le_add_iff_right] at hf
      obtain ⟨s', evs, h3, h4⟩ := ih fuel c.next (checkCell prog fl a c s) h2 hf
      refine ⟨s', .check a c.filename (checkDataFor prog fl c.filename) c.ast s.maps :: evs, ?_, ?_,
        h4.heap, h4.maps, ?_, h4.replayed, ?_⟩
      · simp only [runAllChecks, h1]; exact h3
      · rw [h4.log]; simp [checkCell]
      · have := h4.cells
        simp only [checkedCells, List.filterMap_cons] at this ⊢
        rw [this]
      · intro ev hev
        simp at hev
        rcases hev with rfl | hev
        · exact ⟨a, c, h1, by simp, rfl⟩
        · obtain ⟨b, cb, h5, h6, h7⟩ := h4.events ev hev
          exact ⟨b, cb, h5, by simp [h6], h7⟩

/-! ## The log of a successful run -/

/-- The trees of the parses of a log. -/
def astsOf (evs : List Event) : List (List Tree) :=
  evs.filterMap fun | .parse _ _ _ ast => some ast | _ => none

/-- The check of a parsed file. -/
def checkOf (prog : Program F σ) (fl : FileFlavor) (m : Maps) : Event → Event
  | .parse a n _ ast => .check a n (checkDataFor prog fl n) ast m
  | ev => ev

theorem parse_mem_cells {v : List Event} {a : Nat} {n : Str} {fl : NodeFlavor} {x : List Tree}
    (h : .parse a n fl x ∈ v) : a ∈ parsedCells v := List.mem_filterMap.2 ⟨_, h, rfl⟩

theorem parse_unique {v : List Event} (hnd : (parsedCells v).Nodup) {a : Nat} {n n' : Str} {fl fl' : NodeFlavor}
    {x y : List Tree} (h : .parse a n fl x ∈ v) (h' : .parse a n' fl' y ∈ v) :
    Event.parse a n fl x = .parse a n' fl' y := by
  induction v with
  | nil => cases h
  | cons ev v ih =>
    have hnd' : (parsedCells v).Nodup := by
      cases ev <;> simp only [parsedCells, List.filterMap_cons] at hnd <;> first | exact hnd | exact (List.nodup_cons.1 hnd).2
    rw [List.mem_cons] at h h'
    rcases h with rfl | h <;> rcases h' with e | h'
    · exact e.symm
    · simp only [parsedCells, List.filterMap_cons, List.nodup_cons] at hnd
      exact absurd (parse_mem_cells h') hnd.1
    · subst e
      simp only [parsedCells, List.filterMap_cons, List.nodup_cons] at hnd
      exact absurd (parse_mem_cells h) hnd.1
    · exact ih hnd' h h'

theorem astsOf_cells {fl : NodeFlavor} {v : List Event} (hp : ∀ ev ∈ v, IsParse fl ev) (hnd : (parsedCells v).Nodup)
    (g : Nat → List Tree) (hg : ∀ a ∈ parsedCells v, ∃ n fl, .parse a n fl (g a) ∈ v) :
    astsOf v = (parsedCells v).map g := by
  have key : ∀ w : List Event, (∀ ev ∈ w, ev ∈ v) → astsOf w = (parsedCells w).map g := by
    intro w
    induction w with
    | nil => intro _; rfl
    | cons ev w ih =>
      intro hw
      have h1 := hp ev (hw ev (.head _))
      have ih := ih fun e he => hw e (.tail _ he)
      cases ev with
      | parse a n f x =>
        have hm := hw _ (.head _)
        obtain ⟨n', f', h2⟩ := hg a (parse_mem_cells hm)
        have h3 := parse_unique hnd hm h2
        simp only [Event.parse.injEq] at h3
        simp only [astsOf, parsedCells, List.filterMap_cons, List.map_cons] at ih ⊢
        rw [ih, h3.2.2.2]
      | _ => cases h1
  exact key v fun _ h => h

theorem checks_of_parses (prog : Program F σ) {fl : NodeFlavor} {ff : FileFlavor} {m : Maps} {v w : List Event}
    (hp : ∀ ev ∈ v, IsParse fl ev) (hnd : (parsedCells v).Nodup) (hc : checkedCells w = parsedCells v)
    (h : ∀ ev ∈ w, ∃ p ∈ v, ev = checkOf prog ff m p) : w = v.map (checkOf prog ff m) := by
  induction v generalizing w with
  | nil =>
    cases w with
    | nil => rfl
    | cons ev w => obtain ⟨p, hp', -⟩ := h ev (.head _); cases hp'
  | cons ev v ih =>
    have h1 := hp ev (.head _)
    cases ev with
    | parse a n f x =>
      simp only [parsedCells, List.filterMap_cons, List.nodup_cons] at hnd hc
      cases w with
      | nil => cases hc
      | cons c w =>
        obtain ⟨p, hp1, rfl⟩ := h c (.head _)
        have hpp := hp p hp1
        cases p with
        | parse a' n' f' x' =>
          simp only [checkOf, checkedCells, List.filterMap_cons, List.cons.injEq] at hc
          obtain ⟨rfl, hc⟩ := hc
          have e : Event.parse a' n' f' x' = .parse a' n f x := by
            rcases List.mem_cons.1 hp1 with e | h2
            · exact e
            · exact absurd (parse_mem_cells h2) hnd.1
          rw [e, List.map_cons]
          congr 1
          refine ih (fun ev hev => hp ev (.tail _ hev)) hnd.2 hc fun ev hev => ?_
          obtain ⟨q, hq1, rfl⟩ := h ev (.tail _ hev)
          rcases List.mem_cons.1 hq1 with rfl | hq2
          · have : a' ∈ checkedCells w := List.mem_filterMap.2 ⟨_, hev, rfl⟩
            rw [checkedCells, hc] at this
            exact absurd this hnd.1
          · exact ⟨q, hq2, rfl⟩
        | _ => cases hpp
    | _ => cases h1

end Selint
