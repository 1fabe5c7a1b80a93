import Verif.Model.Transform
import Verif.Spec.Transform
import Verif.Props.Run
/-! # C22: marking of transform interfaces -/

namespace Selint
open Spec

/-- The node `l` lets `markNode` mark `n` once `c` is marked. -/
theorem markNode_cases (l : Loc) (m : Maps) :
    (∃ n c, StartsWithCall l.focus n c ∧ m.isTransform n = false ∧ m.isTransform c = true ∧
      markNode l m = (m.markTransform n, true)) ∨
    (markNode l m = (m, false) ∧
      ∀ n c, StartsWithCall l.focus n c → m.isTransform c = true → m.isTransform n = true) := by
  unfold markNode
  have hskip : ∀ (cs : List Tree), ∃ sk, (∀ s ∈ sk, SkippedInBody s) ∧
      cs = sk ++ cs.dropWhile (fun c => c.info.flavor == .startBlock || c.info.flavor == .require ||
        c.info.flavor == .genReq) := by
    intro cs
    refine ⟨cs.takeWhile _, ?_, (List.takeWhile_append_dropWhile).symm⟩
    intro s hs
    have := List.all_eq_true.mp List.all_takeWhile _ hs
    simp at this
    unfold SkippedInBody
    rcases this with (h | h) | h <;> simp [h]
  have hfirst : ∀ (sk : List Tree) (call : Tree) (rest : List Tree) (d : IfCallData),
      (∀ s ∈ sk, SkippedInBody s) → call.info.data = .ifCall d →
      firstStatement (sk ++ call :: rest) = some call := by
    intro sk call rest d hs hc
    unfold firstStatement
    induction sk with
    | nil =>
      have : call.info.flavor = .ifCall := by unfold NodeInfo.flavor; rw [hc]; rfl
      simp [this]
    | cons s sk ih =>
      have h1 := hs s (by simp)
      have : (s.info.flavor == .startBlock || s.info.flavor == .require || s.info.flavor == .genReq)
          = true := by
        rcases h1 with h | h | h <;> simp [h]
      simp only [List.cons_append, List.dropWhile_cons, this, if_true]
      exact ih (fun x hx => hs x (by simp [hx]))
  split
  · rename_i name hdata
    have hd : l.focus.info.data = .plain .interfaceDef (some name) := hdata
    have hn : ∀ n c, StartsWithCall l.focus n c → n = name := by
      rintro n c ⟨h, _⟩; rw [hd] at h; simp at h; exact h.symm
    split
    · rename_i he
      refine Or.inr ⟨rfl, ?_⟩
      rintro n c ⟨_, sk, call, rest, d, h, _⟩
      simp at he; rw [he] at h; simp at h
    · split
      · rename_i hm
        exact Or.inr ⟨rfl, fun n c h _ => by rw [hn n c h]; exact hm⟩
      · rename_i hm
        split
        · rename_i hf
          refine Or.inr ⟨rfl, ?_⟩
          rintro n c ⟨_, sk, call, rest, d, h, hsk, hc, _⟩
          rw [h, hfirst sk call rest d hsk hc] at hf
          simp at hf
        · rename_i call hf
          obtain ⟨sk, hsk, hsplit⟩ := hskip l.focus.children
          split
          · rename_i d hdd
            have hsw : StartsWithCall l.focus name d.name := by
              unfold firstStatement at hf
              generalize List.dropWhile _ l.focus.children = w at hf hsplit
              cases w with
              | nil => simp at hf
              | cons x w =>
                simp at hf; subst hf
                exact ⟨hd, sk, x, w, d, hsplit, hsk, hdd, rfl⟩
            split
            · rename_i ht
              exact Or.inl ⟨name, d.name, hsw, by simpa using hm, ht, rfl⟩
            · rename_i ht
              refine Or.inr ⟨rfl, ?_⟩
              rintro n c ⟨hnd, sk', call', rest', d', h, hsk', hc', rfl⟩ hct
              rw [h, hfirst sk' call' rest' d' hsk' hc'] at hf
              simp at hf; subst hf
              rw [hdd] at hc'; simp at hc'; subst hc'
              exact absurd hct ht
          · rename_i hnc
            refine Or.inr ⟨rfl, ?_⟩
            rintro n c ⟨_, sk', call', rest', d', h, hsk', hc', _⟩
            rw [h, hfirst sk' call' rest' d' hsk' hc'] at hf
            simp at hf; subst hf
            exact absurd hc' (hnc d')
  · rename_i hnd
    refine Or.inr ⟨rfl, ?_⟩
    rintro n c ⟨h, _⟩
    exact absurd h (hnd n)

theorem isTransform_mark (m : Maps) (n k : Str) :
    (m.markTransform n).isTransform k = true ↔ k = n ∨ m.isTransform k = true := by
  unfold Maps.markTransform Maps.isTransform
  simp only [decide_eq_true_eq]
  split
  · rename_i h
    constructor
    · exact Or.inr
    · rintro (rfl | h')
      · exact h
      · exact h'
  · simp [or_comm]

/-- Only the set of transform interfaces differs. -/
def OnlyTransform (m m' : Maps) : Prop := m' = { m with transform := m'.transform }

theorem onlyTransform_refl (m : Maps) : OnlyTransform m m := rfl

theorem onlyTransform_trans {a b c : Maps} (h1 : OnlyTransform a b) (h2 : OnlyTransform b c) :
    OnlyTransform a c := by
  unfold OnlyTransform at *; rw [h2, h1]

theorem onlyTransform_mark (m : Maps) (n : Str) : OnlyTransform m (m.markTransform n) := by
  unfold OnlyTransform Maps.markTransform; split <;> rfl

/-- The unmarked definitions among some nodes. -/
def pending (ls : List Loc) (m : Maps) : Nat :=
  ls.countP fun l => match l.data with
    | .plain .interfaceDef (some n) => !m.isTransform n
    | _ => false

theorem pending_mono (ls : List Loc) {m m' : Maps}
    (h : ∀ k, m.isTransform k = true → m'.isTransform k = true) : pending ls m' ≤ pending ls m := by
  unfold pending
  apply List.countP_mono_left
  intro l _ hl
  split at hl
  · rename_i n hn
    simp only [Bool.not_eq_eq_eq_not, Bool.not_true] at hl ⊢
    cases hh : m.isTransform n with
    | false => rfl
    | true => rw [h n hh] at hl; simp at hl
  · simp at hl

theorem pending_lt (ls : List Loc) {m : Maps} {l : Loc} {n : Str} (hl : l ∈ ls)
    (hd : l.data = .plain .interfaceDef (some n)) (hm : m.isTransform n = false) :
    pending ls (m.markTransform n) < pending ls m := by
  obtain ⟨a, b, rfl⟩ := List.append_of_mem hl
  have h1 := pending_mono a (m := m) (m' := m.markTransform n)
    (fun k hk => (isTransform_mark m n k).mpr (Or.inr hk))
  have h2 := pending_mono b (m := m) (m' := m.markTransform n)
    (fun k hk => (isTransform_mark m n k).mpr (Or.inr hk))
  have h3 : (m.markTransform n).isTransform n = true := (isTransform_mark m n n).mpr (Or.inl rfl)
  unfold pending at *
  simp only [List.countP_append, List.countP_cons, hd, hm, h3]
  simp
  omega

/-- Summary of a pass: all marks it makes are justified, a pass that marks something makes
progress, one that does not leaves everything as it was and shows that nothing is missing. -/
structure PassOk (all ls : List Loc) (m : Maps) (r : Maps × Bool) : Prop where
  grow : ∀ k, m.isTransform k = true → r.1.isTransform k = true
  only : OnlyTransform m r.1
  sound : ∀ P : Str → Prop, (∀ k, m.isTransform k = true → P k) →
    (∀ l ∈ ls, ∀ n c, StartsWithCall l.focus n c → P c → P n) → ∀ k, r.1.isTransform k = true → P k
  progress : r.2 = true → pending all r.1 < pending all m
  done : r.2 = false → r.1 = m ∧
    ∀ l ∈ ls, ∀ n c, StartsWithCall l.focus n c → m.isTransform c = true → m.isTransform n = true

theorem markNode_ok (all : List Loc) (l : Loc) (m : Maps) (hl : l ∈ all) :
    PassOk all [l] m (markNode l m) := by
  rcases markNode_cases l m with ⟨n, c, h1, h2, h3, h4⟩ | ⟨h1, h2⟩
  · rw [h4]
    refine ⟨fun k hk => (isTransform_mark m n k).mpr (Or.inr hk), onlyTransform_mark m n, ?_,
      fun _ => pending_lt all hl h1.1 h2, by simp⟩
    intro P hP hstep k hk
    rcases (isTransform_mark m n k).mp hk with rfl | hk
    · exact hstep l (by simp) _ _ h1 (hP c h3)
    · exact hP k hk
  · rw [h1]
    exact ⟨fun _ => id, onlyTransform_refl m, fun P hP _ => hP, by simp,
      fun _ => ⟨rfl, by simpa using h2⟩⟩

theorem passOk_seq {all a b : List Loc} {m : Maps} {r : Maps × Bool} {q : Maps × Bool}
    (h1 : PassOk all a m r) (h2 : PassOk all b r.1 q) :
    PassOk all (a ++ b) m (q.1, r.2 || q.2) := by
  refine ⟨fun k hk => h2.grow k (h1.grow k hk), onlyTransform_trans h1.only h2.only, ?_, ?_, ?_⟩
  · intro P hP hstep
    exact h2.sound P (h1.sound P hP fun l hl => hstep l (by simp [hl])) fun l hl => hstep l (by simp [hl])
  · intro h
    simp at h
    have m1 := pending_mono all h1.grow
    have m2 := pending_mono all h2.grow
    rcases h with h | h
    · have := h1.progress h; simp only; omega
    · have := h2.progress h; simp only; omega
  · intro h
    simp at h
    obtain ⟨e1, d1⟩ := h1.done h.1
    obtain ⟨e2, d2⟩ := h2.done h.2
    rw [e1] at e2 d2
    refine ⟨e2, ?_⟩
    intro l hl
    simp at hl
    rcases hl with hl | hl
    · exact d1 l hl
    · exact d2 l hl

theorem markNodes_ok (all ls : List Loc) (m : Maps) (hl : ∀ l ∈ ls, l ∈ all) :
    PassOk all ls m (markNodes ls m) := by
  induction ls generalizing m with
  | nil => exact ⟨fun _ => id, onlyTransform_refl m, fun P hP _ => hP, by simp [markNodes], by simp [markNodes]⟩
  | cons l ls ih =>
    have h1 := markNode_ok all l m (hl l (by simp))
    have h2 := ih (markNode l m).1 (fun x hx => hl x (by simp [hx]))
    exact passOk_seq h1 h2

/-- All nodes of a list of files. -/
def allNodes (files : List (Option Loc)) : List Loc :=
  files.flatMap fun a => match a with | none => [] | some l => l.walk

theorem markOneFile_ok (all : List Loc) (a : Option Loc) (m : Maps)
    (h : ∀ l ∈ allNodes [a], l ∈ all) : PassOk all (allNodes [a]) m (markOneFile a m) := by
  cases a with
  | none => exact markNodes_ok all [] m (by simp)
  | some l => simpa [allNodes, markOneFile] using markNodes_ok all l.walk m (by simpa [allNodes] using h)

theorem markPass_ok (all : List Loc) (files : List (Option Loc)) (m : Maps)
    (h : ∀ l ∈ allNodes files, l ∈ all) : PassOk all (allNodes files) m (markPass files m) := by
  induction files generalizing m with
  | nil => exact markNodes_ok all [] m (by simp)
  | cons a files ih =>
    have e : allNodes (a :: files) = allNodes [a] ++ allNodes files := by simp [allNodes]
    rw [e] at h ⊢
    have h1 := markOneFile_ok all a m (fun l hl => h l (by simp [hl]))
    simp only [markPass]
    split
    · rename_i hr
      refine ⟨h1.grow, h1.only, ?_, fun _ => h1.progress hr, by simp⟩
      intro P hP hstep
      exact h1.sound P hP fun l hl => hstep l (by simp [hl])
    · rename_i hr
      have h2 := ih (markOneFile a m).1 (fun l hl => h l (by simp [hl]))
      have := passOk_seq h1 h2
      simp only [Bool.not_eq_true] at hr
      rw [hr] at this
      simpa using this

theorem markLoop_ok (files : List (Option Loc)) (fuel : Nat) (m : Maps)
    (hf : pending (allNodes files) m < fuel) :
    ∃ m', markLoop fuel files m = some m' ∧ OnlyTransform m m' ∧
      (∀ k, m.isTransform k = true → m'.isTransform k = true) ∧
      (∀ P : Str → Prop, (∀ k, m.isTransform k = true → P k) →
        (∀ l ∈ allNodes files, ∀ n c, StartsWithCall l.focus n c → P c → P n) →
        ∀ k, m'.isTransform k = true → P k) ∧
      (∀ l ∈ allNodes files, ∀ n c, StartsWithCall l.focus n c → m'.isTransform c = true →
        m'.isTransform n = true) := by
  induction fuel generalizing m with
  | zero => omega
  | succ fuel ih =>
    have h := markPass_ok (allNodes files) files m (fun _ => id)
    simp only [markLoop]
    split
    · rename_i hr
      obtain ⟨m', h1, h2, h3, h4, h5⟩ := ih (markPass files m).1 (by have := h.progress hr; omega)
      exact ⟨m', h1, onlyTransform_trans h.only h2, fun k hk => h3 k (h.grow k hk),
        fun P hP hs => h4 P (h.sound P hP hs) hs, h5⟩
    · rename_i hr
      simp only [Bool.not_eq_true] at hr
      obtain ⟨e, d⟩ := h.done hr
      refine ⟨(markPass files m).1, rfl, h.only, h.grow, h.sound, ?_⟩
      rw [e]; exact d

theorem pending_le_nodeCount (files : List (Option Loc)) (m : Maps) :
    pending (allNodes files) m ≤ nodeCount files := by
  refine Nat.le_trans List.countP_le_length ?_
  unfold allNodes nodeCount
  rw [List.length_flatMap]
  apply Nat.le_of_eq
  congr 1
  apply List.map_congr_left
  intro a _
  cases a <;> rfl

mutual
theorem occurs_locs (t : Tree) : ∀ (u : Tree) (ls rs : List Tree) (ups : List Frame),
    OccursIn t u ↔ ∃ l ∈ u.locs ls rs ups, l.focus = t
  | .mk i cs, ls, rs, ups => by
    simp only [Tree.locs]
    constructor
    · intro h
      cases h with
      | here => exact ⟨⟨.mk i cs, ls, rs, ups⟩, by simp, rfl⟩
      | inside h =>
        obtain ⟨l, hl, e⟩ := (occursList_locs t cs [] (⟨ls, i, rs⟩ :: ups)).mp h
        exact ⟨l, by simp [hl], e⟩
    · rintro ⟨l, hl, rfl⟩
      simp at hl
      rcases hl with rfl | hl
      · exact .here
      · exact .inside ((occursList_locs l.focus cs [] _).mpr ⟨l, hl, rfl⟩)
theorem occursList_locs (t : Tree) : ∀ (us ls : List Tree) (ups : List Frame),
    OccursInList t us ↔ ∃ l ∈ Tree.locsList ls us ups, l.focus = t
  | [], ls, ups => by
    simp [Tree.locsList]
    intro h; cases h
  | u :: us, ls, ups => by
    simp only [Tree.locsList]
    constructor
    · intro h
      cases h with
      | head h =>
        obtain ⟨l, hl, e⟩ := (occurs_locs t u ls us ups).mp h
        exact ⟨l, by simp [hl], e⟩
      | tail h =>
        obtain ⟨l, hl, e⟩ := (occursList_locs t us (u :: ls) ups).mp h
        exact ⟨l, by simp [hl], e⟩
    · rintro ⟨l, hl, e⟩
      rw [List.mem_append] at hl
      rcases hl with hl | hl
      · exact .head ((occurs_locs t u ls us ups).mpr ⟨l, hl, e⟩)
      · exact .tail ((occursList_locs t us (u :: ls) ups).mpr ⟨l, hl, e⟩)
end

theorem mem_allNodes (files : List (List Tree)) (t : Tree) :
    (∃ l ∈ allNodes (files.map Loc.ofForest), l.focus = t) ↔ ∃ f ∈ files, OccursInList t f := by
  unfold allNodes
  have key : ∀ f : List Tree, (∃ l ∈ (match Loc.ofForest f with | none => [] | some l => l.walk),
      l.focus = t) ↔ OccursInList t f := by
    intro f
    cases hf : Loc.ofForest f with
    | none =>
      cases f with
      | nil => simp; intro h; cases h
      | cons => simp [Loc.ofForest] at hf
    | some l => simp only; rw [Loc.walk_eq_seq, Loc.seq_ofForest hf, ← occursList_locs]
  constructor
  · rintro ⟨l, hl, e⟩
    simp only [List.mem_flatMap, List.mem_map] at hl
    obtain ⟨_, ⟨f, hf, rfl⟩, hl⟩ := hl
    exact ⟨f, hf, (key f).mp ⟨l, hl, e⟩⟩
  · rintro ⟨f, hf, h⟩
    obtain ⟨l, hl, e⟩ := (key f).mpr h
    exact ⟨l, by simp only [List.mem_flatMap, List.mem_map]; exact ⟨_, ⟨f, hf, rfl⟩, hl⟩, e⟩

/-- C22. Marking terminates for every collection of parsed files and every starting table;
afterwards exactly the interfaces in the least fixpoint `Transform` are marked, and nothing
else in the tables has changed. -/
theorem C22_least_fixpoint (files : List (List Tree)) (m : Maps) :
    ∃ m', markTransformInterfaces (files.map Loc.ofForest) m = some m' ∧
      (∀ n, m'.isTransform n = true ↔ Transform files (fun k => m.isTransform k = true) n) ∧
      m' = { m with transform := m'.transform } := by
  obtain ⟨m', h1, h2, h3, h4, h5⟩ := markLoop_ok (files.map Loc.ofForest)
    (nodeCount (files.map Loc.ofForest) + 1) m
    (by have := pending_le_nodeCount (files.map Loc.ofForest) m; omega)
  refine ⟨m', h1, fun n => ⟨?_, ?_⟩, h2⟩
  · refine h4 _ (fun k hk => .base hk) ?_ n
    intro l hl n c hs hc
    obtain ⟨f, hf, ho⟩ := (mem_allNodes files l.focus).mp ⟨l, hl, rfl⟩
    exact .call hf ho hs hc
  · intro h
    induction h with
    | base h => exact h3 _ h
    | call hf ho hs _ ih =>
      obtain ⟨l, hl, rfl⟩ := (mem_allNodes files _).mpr ⟨_, hf, ho⟩
      exact h5 l hl _ _ hs ih

/-- C22 (termination): more passes than the model allows would change nothing. -/
theorem C22_terminates (files : List (List Tree)) (m : Maps) (bound : Nat)
    (hb : nodeCount (files.map Loc.ofForest) < bound) :
    ∃ m', markLoop bound (files.map Loc.ofForest) m = some m' := by
  obtain ⟨m', h, _⟩ := markLoop_ok (files.map Loc.ofForest) bound m
    (by have := pending_le_nodeCount (files.map Loc.ofForest) m; omega)
  exact ⟨m', h⟩

/-- C22 (order): the outcome does not depend on the order of the files, nor on a file being
listed twice. -/
theorem C22_order_independent {files files' : List (List Tree)} (h : ∀ f, f ∈ files ↔ f ∈ files')
    {m m1 m2 : Maps} (h1 : markTransformInterfaces (files.map Loc.ofForest) m = some m1)
    (h2 : markTransformInterfaces (files'.map Loc.ofForest) m = some m2) (n : Str) :
    m1.isTransform n = m2.isTransform n := by
  obtain ⟨a, ha, hb, _⟩ := C22_least_fixpoint files m
  obtain ⟨a', ha', hb', _⟩ := C22_least_fixpoint files' m
  rw [h1] at ha; rw [h2] at ha'
  simp at ha ha'; subst ha ha'
  have mono : ∀ fs gs : List (List Tree), (∀ f ∈ fs, f ∈ gs) → ∀ k,
      Transform fs (fun k => m.isTransform k = true) k →
      Transform gs (fun k => m.isTransform k = true) k := by
    intro fs gs hfg k hk
    induction hk with
    | base h => exact .base h
    | call hf ho hs _ ih => exact .call (hfg _ hf) ho hs ih
  rw [Bool.eq_iff_iff, hb, hb']
  exact ⟨mono _ _ (fun f => (h f).mp) n, mono _ _ (fun f => (h f).mpr) n⟩

/-! A chain `a → b → files_type`, in the wrong order and in two files, next to a cycle. -/

private def ifc (n callee : Str) : Tree :=
  .mk ⟨.plain .interfaceDef (some n), none, 1⟩
    [.mk ⟨.plain .startBlock none, none, 1⟩ [], .mk ⟨.genReq false, none, 1⟩ [],
     .mk ⟨.ifCall ⟨callee, []⟩, none, 2⟩ []]

example : (markNodes [⟨ifc cs!"b" cs!"files_type", [], [], []⟩]
    { transform := [cs!"files_type"] }).1.transform = [cs!"files_type", cs!"b"] := by decide
example : Transform [[ifc cs!"a" cs!"b", ifc cs!"x" cs!"y"], [ifc cs!"b" cs!"files_type", ifc cs!"y" cs!"x"]]
    (fun k => k = cs!"files_type") cs!"a" := by
  have s : ∀ n c, StartsWithCall (ifc n c) n c := fun n c =>
    ⟨rfl, [.mk ⟨.plain .startBlock none, none, 1⟩ [], .mk ⟨.genReq false, none, 1⟩ []],
      _, [], ⟨c, []⟩, rfl, by
        simp [SkippedInBody, NodeInfo.flavor, NodeData.flavor, PlainFlavor.toFlavor], rfl, rfl⟩
  exact .call (List.mem_cons_self ..) (.head .here) (s _ _)
    (.call (List.mem_cons_of_mem _ (List.mem_cons_self ..)) (.head .here) (s _ _) (.base rfl))

end Selint
