import Verif.Props.StringLists
import Verif.Props.Freeing
import Verif.Model.NamesInMemory
import Verif.Lemmas.CompleteNodes
import Verif.Props.Source
/-!
# C82: the names of a node

The functions that collect the names in a node, or in the nodes of a require block, return a
new list that shares nothing with the tree: the caller may change it and has to free it,
and the tree stays as it was. The list is the one the checks of the model compute with. Only
an allow rule for roles without a first role, and an alias or permissive line without a
name, would break them; no text is read to such a node.
-/

namespace Selint

open Spec

/-- `ret` is a list `l` made of objects that were not there in `m₀`; nothing else changed. -/
def Made (m₀ m : Mem) (ret : Option Addr) (l : List (Str × Bool)) : Prop :=
  ∃ ps, SlAt m ret l ps ∧ AddsOnly m₀ m ps ∧ Bounded m

theorem made_nil {m : Mem} (hb : Bounded m) : Made m m none [] :=
  ⟨[], .nil, ⟨by simp, fun _ _ => rfl⟩, hb⟩

theorem made_copy {m : Mem} (hb : Bounded m) {src l qs} (h : SlAt m src l qs) {fuel : Nat}
    (hf : l.length ≤ fuel) :
    ∃ r m', m.copyStringList fuel src = .ok (r, m') ∧ Made m m' r l := by
  obtain ⟨r, m', ps, h₁, h₂, h₃, h₄⟩ := C80_copy hb h hf
  exact ⟨r, m', h₁, ps, h₂, h₃, h₄⟩

theorem getAt_str {m p s ps} (h : StrAt m p s ps) : m.getAt Obj.str? p = .ok s := by
  cases h with
  | mk h => exact get_eq h rfl

theorem made_str {m : Mem} (hb : Bounded m) {p s qs} (h : StrAt m p s qs) :
    ∃ r m', m.slFromPtr p = .ok (r, m') ∧ Made m m' r [(s, false)] := by
  obtain ⟨ps, h₁, h₂, h₃⟩ := slFromStr_spec hb s
  refine ⟨_, _, ?_, ps, h₁, h₂, h₃⟩
  rw [Mem.slFromPtr, getAt_str h, Res.bind_ok]

/-- Making a new list the end of a list that was made before. -/
theorem made_link {m₀ m m' : Mem} {ret : Addr} {l l' : List (Str × Bool)} {x : Option Addr}
    (h : Made m₀ m (some ret) l) (h' : Made m m' x l') {fuel : Nat} (hf : l.length ≤ fuel) :
    ∃ cur m'', m.lastCell fuel ret = .ok cur ∧ m'.lastCell fuel ret = .ok cur ∧
      m'.setNext cur x = .ok m'' ∧ Made m₀ m'' (some ret) (l ++ l') := by
  obtain ⟨ps, h₁, h₂, h₃⟩ := h
  obtain ⟨qs, g₁, g₂, g₃⟩ := h'
  have hps : SlAt m' (some ret) l ps := h₁.congr (g₂.eqOn h₁.live)
  have hd := g₂.live_disjoint h₁.live
  obtain ⟨cur, c, e₁, e₂, e₃, e₄, e₅⟩ := lastCell_spec hps rfl hf
  obtain ⟨cur', c', f₁, f₂, f₃, f₄, _⟩ := lastCell_spec h₁ rfl hf
  have hcc : cur' = cur := by
    obtain ⟨ca, cn, cb⟩ := c'
    subst f₄
    refine lastCell_unique hps rfl e₁ cur' f₂ ca cb ?_
    rw [g₂.2 _ (hd _ f₂)]; exact f₃
  subst hcc
  refine ⟨cur', _, f₁, e₁, setNext_ok e₃ x, ps ++ qs,
    e₅ (t := x) (fun q hq _ => by simp [hq]) (by simp) (g₁.congr fun q hq => ?_) hd,
    ⟨?_, ?_⟩, ?_⟩
  · have : q ≠ cur' := by rintro rfl; exact hd _ e₂ hq
    simp [this]
  · intro q hq
    rcases List.mem_append.1 hq with hq | hq
    · exact h₂.1 q hq
    · have hq' := g₂.1 q hq
      by_cases hp : q ∈ ps
      · exact h₂.1 q hp
      · rw [← h₂.2 q hp, hq']
  · intro q hq
    simp only [List.mem_append, not_or] at hq
    have : q ≠ cur' := by rintro rfl; exact hq.1 e₂
    simp only [this, if_false]
    rw [g₂.2 q hq.2, h₂.2 q hq.1]
  · intro q hq
    have := g₃ q hq
    have hc : q ≠ cur' := by rintro rfl; simp [e₃] at this
    simp [hc, this]

theorem Made.at {m₀ m : Mem} {ret l} (h : Made m₀ m ret l) {src l' qs}
    (hs : SlAt m₀ src l' qs) : SlAt m src l' qs := by
  obtain ⟨ps, h₁, h₂, h₃⟩ := h
  exact hs.congr (h₂.eqOn hs.live)

theorem Made.strAt {m₀ m : Mem} {ret l} (h : Made m₀ m ret l) {p s qs}
    (hs : StrAt m₀ p s qs) : StrAt m p s qs := by
  obtain ⟨ps, h₁, h₂, h₃⟩ := h
  exact hs.congr (h₂.eqOn hs.live)

theorem Made.bounded {m₀ m : Mem} {ret l} (h : Made m₀ m ret l) : Bounded m := by
  obtain ⟨_, _, _, h⟩ := h
  exact h

/-- What was made on top of something that was made with nothing to show for it. -/
theorem Made.none_trans {m₀ m m' : Mem} {l r l'} (h : Made m₀ m none l)
    (h' : Made m m' r l') : l = [] ∧ Made m₀ m' r l' := by
  obtain ⟨ps, h₁, h₂, h₃⟩ := h
  obtain ⟨qs, g₁, g₂, g₃⟩ := h'
  cases h₁
  refine ⟨rfl, qs, g₁, ⟨fun q hq => ?_, fun q hq => ?_⟩, g₃⟩
  · rw [← h₂.2 q (by simp)]; exact g₂.1 q hq
  · rw [g₂.2 q hq, h₂.2 q (by simp)]

theorem made_appendCopy {m₀ m : Mem} {ret src : Option Addr} {l l' : List (Str × Bool)} {qs}
    (h : Made m₀ m ret l) (hs : SlAt m₀ src l' qs) {fuel : Nat} (hf : l.length ≤ fuel)
    (hf' : l'.length ≤ fuel) :
    ∃ r m', m.appendCopy fuel ret src = .ok (r, m') ∧ Made m₀ m' r (l ++ l') := by
  obtain ⟨x, m', e₁, e₂⟩ := made_copy h.bounded (h.at hs) hf'
  cases ret with
  | none =>
    obtain ⟨rfl, e₃⟩ := h.none_trans e₂
    exact ⟨x, m', e₁, e₃⟩
  | some ret =>
    obtain ⟨cur, m'', f₁, f₂, f₃, f₄⟩ := made_link h e₂ hf
    refine ⟨_, _, ?_, f₄⟩
    simp only [Mem.appendCopy, f₁, Res.bind_ok, e₁, f₃]

theorem made_appendStr {m₀ m : Mem} {ret p : Option Addr} {l : List (Str × Bool)} {s qs}
    (h : Made m₀ m ret l) (hs : StrAt m₀ p s qs) {fuel : Nat} (hf : l.length ≤ fuel) :
    ∃ r m', m.appendStr fuel ret p = .ok (r, m') ∧ Made m₀ m' r (l ++ [(s, false)]) := by
  obtain ⟨x, m', e₁, e₂⟩ := made_str h.bounded (h.strAt hs)
  cases ret with
  | none =>
    obtain ⟨rfl, e₃⟩ := h.none_trans e₂
    exact ⟨x, m', e₁, e₃⟩
  | some ret =>
    obtain ⟨cur, m'', f₁, f₂, f₃, f₄⟩ := made_link h e₂ hf
    refine ⟨_, _, ?_, f₄⟩
    simp only [Mem.appendStr, f₁, Res.bind_ok, e₁, f₃]

theorem stripLoop_spec {m p l ps} (h : SlAt m p l ps) :
    ∀ {m'}, EqOn m m' ps → ∀ {fuel}, l.length ≤ fuel →
      ∃ m'', m'.stripLoop fuel p = .ok m'' ∧
        SlAt m'' p (l.map fun x => (stripDash x.1, x.2)) ps ∧ SameOff m' m'' ps ∧
        m''.top = m'.top := by
  induction h with
  | nil => intro m' _ fuel _; exact ⟨m', by cases fuel <;> rfl, .nil, fun _ _ => rfl, rfl⟩
  | @cons p a n s b l ps h₁ h₂ h₃ h₄ h₅ ih =>
    intro m' he fuel hf
    obtain _ | fuel := fuel
    · simp at hf
    simp only [List.length_cons, Nat.add_le_add_iff_right] at hf
    have hap : a ≠ p := by rintro rfl; simp [h₁] at h₂
    rw [← he p (by simp)] at h₁
    rw [← he a (by simp)] at h₂
    rw [Mem.stripLoop, get_eq h₁ (f := Obj.sl?) rfl, Res.bind_ok, Mem.getAt,
      get_eq h₂ (f := Obj.str?) rfl, Res.bind_ok]
    by_cases hs : ∃ rest, s = '-' :: rest
    · obtain ⟨rest, rfl⟩ := hs
      simp only [write_ok (show m'.obj a ≠ none by simp [h₂]), Res.bind_ok]
      obtain ⟨m'', e₁, e₂, e₃, e₄⟩ := ih (m' := ⟨fun q => if q = a then some (.bytes rest)
          else m'.obj q, m'.top⟩) (by
            intro q hq
            have : q ≠ a := by rintro rfl; exact h₅ hq
            simp [this, he q (by simp [hq])]) hf
      refine ⟨m'', e₁, .cons ?_ ?_ e₂ h₄ h₅, ?_, e₄⟩
      · rw [e₃ p h₄]; simp [hap.symm, h₁]
      · rw [e₃ a h₅]; simp [stripDash]
      · intro q hq
        simp only [List.mem_cons, not_or] at hq
        rw [e₃ q hq.2.2]
        simp [hq.2.1]
    · obtain ⟨m'', e₁, e₂, e₃, e₄⟩ := ih (he.mono (by grind)) hf
      have hsd : stripDash s = s := by
        unfold stripDash
        split
        · rename_i rest; exact absurd ⟨_, rfl⟩ hs
        · rfl
      refine ⟨m'', ?_, .cons ?_ ?_ e₂ h₄ h₅, ?_, e₄⟩
      · split
        · rename_i rest _ _; exact absurd ⟨rest, rfl⟩ hs
        · exact e₁
      · rw [e₃ p h₄]; exact h₁
      · rw [e₃ a h₅, h₂, hsd]
      · intro q hq
        simp only [List.mem_cons, not_or] at hq
        exact e₃ q hq.2.2

theorem made_strip {m₀ m : Mem} {ret l} (h : Made m₀ m ret l) {fuel : Nat}
    (hf : l.length ≤ fuel) :
    ∃ m', m.stripLoop fuel ret = .ok m' ∧
      Made m₀ m' ret (l.map fun x => (stripDash x.1, x.2)) := by
  obtain ⟨ps, h₁, h₂, h₃⟩ := h
  obtain ⟨m', e₁, e₂, e₃, e₄⟩ := stripLoop_spec h₁ (fun _ _ => rfl) hf
  refine ⟨m', e₁, ps, e₂, ⟨h₂.1, fun q hq => ?_⟩, fun q hq => ?_⟩
  · rw [e₃ q hq, h₂.2 q hq]
  · rw [e₄] at hq
    have := h₃ q hq
    rw [e₃ q (fun hp => h₁.live q hp this), this]

theorem rawNames_spec {m : Mem} (hb : Bounded m) {n : NodeObj} {d : NodeData} {ps}
    (hfl : n.flavor = d.flavor) (h : DataAt m n.data d ps) (hc : Complete d) {fuel : Nat}
    (hf : ps.length ≤ fuel) :
    ∃ r m' l, m.rawNames fuel n = .ok (r, m') ∧ Made m m' r l ∧
      l.map (fun x => stripDash x.1) = Selint.getNamesInNode ⟨d, none, 0⟩ ∧
      l.length ≤ ps.length := by
  generalize hda : n.data = da at h
  cases h with
  | @header p d fl name p₁ h hg h₁ hn =>
    refine ⟨none, m, [], ?_, made_nil hb, rfl, by simp⟩
    simp only [Mem.rawNames, hfl, NodeData.flavor]
  | @av p d fl l₁ l₂ l₃ l₄ p₁ p₂ p₃ p₄ h hg h₁ h₂ h₃ h₄ hn =>
    have k₁ := SlAt.length_le h₁
    have k₂ := SlAt.length_le h₂
    simp only [List.length_append, List.length_map] at hf k₁ k₂
    obtain ⟨r, m₁, e₁, f₁⟩ := made_copy hb h₁ (fuel := fuel) (by simp; omega)
    obtain ⟨r₂, m₂, e₂, f₂⟩ := made_appendCopy f₁ h₂ (fuel := fuel) (by simp; omega)
      (by simp; omega)
    refine ⟨r₂, m₂, _, ?_, f₂, ?_, ?_⟩
    · simp only [Mem.rawNames, hfl, NodeData.flavor, hda, Mem.getAt]
      rw [get_eq h (f := Obj.avPart?) rfl]
      simp only [Res.bind_ok, e₁, e₂]
    · simp [Selint.getNamesInNode, Function.comp_def]
    · simp; omega
  | @xav p d fl l₁ l₂ l₃ l₄ op p₁ p₂ p₃ p₄ p₅ h hg h₁ h₂ h₃ h₄ h₅ hn =>
    have k₁ := SlAt.length_le h₁
    have k₂ := SlAt.length_le h₂
    simp only [List.length_append, List.length_map] at hf k₁ k₂
    obtain ⟨r, m₁, e₁, f₁⟩ := made_copy hb h₁ (fuel := fuel) (by simp; omega)
    obtain ⟨r₂, m₂, e₂, f₂⟩ := made_appendCopy f₁ h₂ (fuel := fuel) (by simp; omega)
      (by simp; omega)
    refine ⟨r₂, m₂, _, ?_, f₂, ?_, ?_⟩
    · simp only [Mem.rawNames, hfl, NodeData.flavor, hda, Mem.getAt]
      rw [get_eq h (f := Obj.avPart?) rfl]
      simp only [Res.bind_ok, e₁, e₂]
    · simp [Selint.getNamesInNode, Function.comp_def]
    · simp; omega
  | @roleAllow p d l₁ l₂ p₁ p₂ h h₁ h₂ hn =>
    have k₁ := SlAt.length_le h₁
    have k₂ := SlAt.length_le h₂
    simp only [List.length_append, List.length_map] at hf k₁ k₂
    obtain ⟨r, m₁, e₁, f₁⟩ := made_copy hb h₁ (fuel := fuel) (by simp; omega)
    obtain ⟨r₂, m₂, e₂, f₂⟩ := made_appendCopy f₁ h₂ (fuel := fuel) (by simp; omega)
      (by simp; omega)
    have hr : r ≠ none := by
      rintro rfl
      obtain ⟨ps, g₁, _⟩ := f₁
      cases hl : l₁ with
      | nil => exact hc hl
      | cons => rw [hl] at g₁; cases g₁
    cases r with
    | none => exact absurd rfl hr
    | some r =>
    refine ⟨r₂, m₂, _, ?_, f₂, ?_, ?_⟩
    · simp only [Mem.rawNames, hfl, NodeData.flavor, hda, Mem.getAt]
      rw [get_eq h (f := Obj.ra?) rfl]
      simp only [Res.bind_ok, e₁, e₂]
    · simp [Selint.getNamesInNode, Function.comp_def]
    · simp; omega
  | @roleTypes p d role l p₁ p₂ h h₁ h₂ hn =>
    have k₂ := SlAt.length_le h₂
    simp only [List.length_append, List.length_map, List.length_singleton] at hf k₂
    obtain ⟨r, m₁, e₁, f₁⟩ := made_str hb h₁
    obtain ⟨r₂, m₂, e₂, f₂⟩ := made_appendCopy f₁ h₂ (fuel := fuel) (by simp; omega)
      (by simp; omega)
    refine ⟨r₂, m₂, _, ?_, f₂, ?_, ?_⟩
    · simp only [Mem.rawNames, hfl, NodeData.flavor, hda, Mem.getAt]
      rw [get_eq h (f := Obj.rtyp?) rfl]
      simp only [Res.bind_ok, e₁, e₂]
    · simp [Selint.getNamesInNode, Function.comp_def]
    · simp; omega
  | @tt p d l₁ l₂ l₃ dt name fl p₁ p₂ p₃ p₄ p₅ h h₁ h₂ h₃ h₄ h₅ hg hn =>
    have k₁ := SlAt.length_le h₁
    have k₂ := SlAt.length_le h₂
    simp only [List.length_append, List.length_map, List.length_singleton] at hf k₁ k₂
    obtain ⟨r, m₁, e₁, f₁⟩ := made_copy hb h₁ (fuel := fuel) (by simp; omega)
    obtain ⟨r₂, m₂, e₂, f₂⟩ := made_appendCopy f₁ h₂ (fuel := fuel) (by simp; omega)
      (by simp; omega)
    obtain ⟨r₃, m₃, e₃, f₃⟩ := made_appendStr f₂ h₄ (fuel := fuel) (by simp; omega)
    refine ⟨r₃, m₃, _, ?_, f₃, ?_, ?_⟩
    · simp only [Mem.rawNames, hfl, NodeData.flavor, hda, Mem.getAt]
      rw [get_eq h (f := Obj.tt?) rfl]
      simp only [Res.bind_ok, e₁, e₂, e₃]
    · simp [Selint.getNamesInNode, Function.comp_def]
    · simp; omega
  | @rt p d l₁ l₂ l₃ dr p₁ p₂ p₃ p₄ h h₁ h₂ h₃ h₄ hn =>
    have k₁ := SlAt.length_le h₁
    have k₂ := SlAt.length_le h₂
    simp only [List.length_append, List.length_map, List.length_singleton] at hf k₁ k₂
    obtain ⟨r, m₁, e₁, f₁⟩ := made_copy hb h₁ (fuel := fuel) (by simp; omega)
    obtain ⟨r₂, m₂, e₂, f₂⟩ := made_appendCopy f₁ h₂ (fuel := fuel) (by simp; omega)
      (by simp; omega)
    obtain ⟨r₃, m₃, e₃, f₃⟩ := made_appendStr f₂ h₄ (fuel := fuel) (by simp; omega)
    refine ⟨r₃, m₃, _, ?_, f₃, ?_, ?_⟩
    · simp only [Mem.rawNames, hfl, NodeData.flavor, hda, Mem.getAt]
      rw [get_eq h (f := Obj.rt?) rfl]
      simp only [Res.bind_ok, e₁, e₂, e₃]
    · simp [Selint.getNamesInNode, Function.comp_def]
    · simp; omega
  | @ifCall p d name args p₁ p₂ h h₁ h₂ hn =>
    have k₂ := SlAt.length_le h₂
    simp only [List.length_append, List.length_singleton] at hf
    obtain ⟨r, m₁, e₁, f₁⟩ := made_copy hb h₂ (fuel := fuel) (by omega)
    refine ⟨r, m₁, _, ?_, f₁, ?_, ?_⟩
    · simp only [Mem.rawNames, hfl, NodeData.flavor, hda, Mem.getAt]
      rw [get_eq h (f := Obj.call?) rfl]
      simp only [Res.bind_ok, e₁]
    · simp [Selint.getNamesInNode, IfCallData.argStrs, Function.comp_def]
    · simp; omega
  | decl h =>
    cases h with
    | @mk p d fl name attrs p₁ p₂ h hg h₁ h₂ hn =>
      have k₂ := SlAt.length_le h₁
      simp only [List.length_append, List.length_map, List.length_singleton] at hf k₂
      obtain ⟨r, m₁, e₁, f₁⟩ := made_str hb h₂
      obtain ⟨r₂, m₂, e₂, f₂⟩ := made_appendCopy f₁ h₁ (fuel := fuel) (by simp; omega)
        (by simp; omega)
      refine ⟨r₂, m₂, _, ?_, f₂, ?_, ?_⟩
      · simp only [Mem.rawNames, hfl, NodeData.flavor, hda, Mem.getAt]
        rw [get_eq h (f := Obj.decl?) rfl]
        simp only [Res.bind_ok, e₁, e₂]
      · simp [Selint.getNamesInNode, Function.comp_def]
      · simp; omega
  | @fc p d path c ctx p₁ p₂ h hg h₁ h₂ hn =>
    refine ⟨none, m, [], ?_, made_nil hb, rfl, by simp⟩
    simp only [Mem.rawNames, hfl, NodeData.flavor]
  | @attr p d type attrs fl p₁ p₂ h h₁ h₂ hg hn =>
    have k₂ := SlAt.length_le h₂
    simp only [List.length_append, List.length_map, List.length_singleton] at hf k₂
    obtain ⟨r, m₁, e₁, f₁⟩ := made_str hb h₁
    obtain ⟨r₂, m₂, e₂, f₂⟩ := made_appendCopy f₁ h₂ (fuel := fuel) (by simp; omega)
      (by simp; omega)
    refine ⟨r₂, m₂, _, ?_, f₂, ?_, ?_⟩
    · cases fl <;>
      · simp only [Mem.rawNames, hfl, NodeData.flavor, hda, Mem.getAt]
        rw [get_eq h (f := Obj.attr?) rfl]
        simp only [Res.bind_ok, e₁, e₂]
    · simp [Selint.getNamesInNode, Function.comp_def]
    · simp; omega
  | genReq h =>
    refine ⟨none, m, [], ?_, made_nil hb, rfl, by simp⟩
    simp only [Mem.rawNames, hfl, NodeData.flavor]
  | @plain p f s ps h =>
    by_cases hk : f = .alias ∨ f = .typeAlias ∨ f = .permissive
    · obtain ⟨s', rfl⟩ : ∃ s', s = some s' := by
        cases s with
        | some s => exact ⟨s, rfl⟩
        | none => rcases hk with rfl | rfl | rfl <;> exact absurd rfl hc
      cases h with
      | @some a s h =>
        obtain ⟨r, m₁, e₁, f₁⟩ := made_str hb (.mk h)
        refine ⟨r, m₁, _, ?_, f₁, ?_, by simp⟩
        · rcases hk with rfl | rfl | rfl <;>
            simp only [Mem.rawNames, hfl, NodeData.flavor, PlainFlavor.toFlavor, hda, e₁]
        · rcases hk with rfl | rfl | rfl <;> simp [Selint.getNamesInNode]
    · refine ⟨none, m, [], ?_, made_nil hb, ?_, by simp⟩
      · cases f <;> first
          | simp only [Mem.rawNames, hfl, NodeData.flavor, PlainFlavor.toFlavor]; done
          | simp at hk
      · cases f <;> first | rfl | simp at hk

theorem getNamesInNode_data (i : NodeInfo) :
    Selint.getNamesInNode i = Selint.getNamesInNode ⟨i.data, none, 0⟩ := rfl

theorem made_names {m : Mem} (hb : Bounded m) {p : Addr} {n : NodeObj} {d : NodeData} {ps}
    (hp : m.obj p = some (.node n)) (hfl : n.flavor = d.flavor) (h : DataAt m n.data d ps)
    (hc : Complete d) {fuel : Nat} (hf : ps.length ≤ fuel) :
    ∃ r m' l, m.getNamesInNode fuel p = .ok (r, m') ∧ Made m m' r l ∧
      l.map (·.1) = Selint.getNamesInNode ⟨d, none, 0⟩ ∧ l.length ≤ ps.length := by
  obtain ⟨r, m₁, l, e₁, e₂, e₃, e₄⟩ := rawNames_spec hb hfl h hc hf
  obtain ⟨m₂, f₁, f₂⟩ := made_strip e₂ (fuel := fuel) (by omega)
  refine ⟨r, m₂, _, ?_, f₂, ?_, by simpa using e₄⟩
  · simp only [Mem.getNamesInNode, get_eq hp (f := Obj.node?) rfl, Res.bind_ok, e₁, f₁]
  · rw [← e₃]; simp [Function.comp_def]

/-- The names in a node: a new list with the names the checks compute with; the tree and
everything else is as before. -/
theorem C82_names {m : Mem} (hb : Bounded m) {up left p i ts rest ps}
    (h : NodesAt m up left (some p) (.mk i ts :: rest) ps) (hc : Complete i.data) {fuel : Nat}
    (hf : ps.length ≤ fuel) :
    ∃ r m' l qs, m.getNamesInNode fuel p = .ok (r, m') ∧ SlAt m' r l qs ∧
      l.map (·.1) = Selint.getNamesInNode i ∧ AddsOnly m m' qs ∧ Bounded m' := by
  cases h with
  | cons h hu hl hfl hno h₁ h₂ h₃ h₄ hn =>
    simp only [List.length_append] at hf
    obtain ⟨r, m', l, e₁, ⟨qs, e₂, e₃, e₄⟩, e₅, _⟩ := made_names hb h hfl h₁ hc (fuel := fuel)
      (by omega)
    exact ⟨r, m', l, qs, e₁, e₂, e₅, e₃, e₄⟩

theorem namesRequired_spec {m₀ : Mem} {up left cur ts ps} (h : NodesAt m₀ up left cur ts ps) :
    (∀ t ∈ ts, Complete t.info.data) → ∀ {m ret l bound fuel}, Made m₀ m ret l →
      l.length + ps.length ≤ bound → ps.length ≤ fuel →
      ∃ r m' l', m.namesRequiredLoop bound fuel ret cur = .ok (r, m') ∧ Made m₀ m' r (l ++ l') ∧
        l'.map (·.1) = ts.flatMap fun t => Selint.getNamesInNode t.info := by
  induction h with
  | nil =>
    intro _ m ret l bound fuel hm _ _
    exact ⟨ret, m, [], by cases fuel <;> rfl, by simpa using hm, rfl⟩
  | @cons up left p n i ts rest p₁ p₂ p₃ p₄ h hu hl hfl hno h₁ h₂ h₃ h₄ hn _ ih =>
    intro hc m ret l bound fuel hm hbd hf
    simp only [List.length_append, List.length_singleton] at hbd hf
    obtain _ | fuel := fuel
    · omega
    have hm' := hm
    obtain ⟨ns, g₁, g₂, g₃⟩ := hm'
    have hp : m.obj p = some (.node n) := by
      rw [g₂.eqOn (live_one h) p (by simp)]; exact h
    obtain ⟨x, m₁, l₁, e₁, e₂, e₃, e₄⟩ := made_names g₃ hp hfl (h₁.congr (g₂.eqOn h₁.live))
      (hc _ (List.mem_cons_self ..)) (fuel := bound) (by omega)
    have hp₁ : m₁.obj p = some (.node n) := by
      obtain ⟨qs, _, k, _⟩ := e₂
      rw [k.eqOn (live_one hp) p (by simp)]; exact hp
    have hc' : ∀ t ∈ rest, Complete t.info.data := fun t ht => hc t (List.mem_cons_of_mem _ ht)
    cases ret with
    | none =>
      obtain ⟨rfl, f₁⟩ := hm.none_trans e₂
      obtain ⟨r, m', l', k₁, k₂, k₃⟩ := ih hc' f₁ (bound := bound) (fuel := fuel)
        (by omega) (by omega)
      refine ⟨r, m', l₁ ++ l', ?_, by simpa using k₂, ?_⟩
      · rw [Mem.namesRequiredLoop]
        simp only [e₁, Res.bind_ok, get_eq hp₁ (f := Obj.node?) rfl, k₁]
      · rw [List.map_append, e₃, k₃]; rfl
    | some ret =>
      obtain ⟨c, m₂, f₁, f₂, f₃, f₄⟩ := made_link hm e₂ (fuel := bound) (by omega)
      obtain ⟨r, m', l', k₁, k₂, k₃⟩ := ih hc' f₄ (bound := bound) (fuel := fuel)
        (by simp; omega) (by omega)
      refine ⟨r, m', l₁ ++ l', ?_, by simpa using k₂, ?_⟩
      · rw [Mem.namesRequiredLoop]
        simp only [e₁, Res.bind_ok, get_eq hp₁ (f := Obj.node?) rfl, f₂, f₃, k₁]
      · rw [List.map_append, e₃, k₃]; rfl

/-- The names in the nodes directly below a node, likewise. -/
theorem C82_required {m : Mem} (hb : Bounded m) {up left p i ts rest ps}
    (h : NodesAt m up left (some p) (.mk i ts :: rest) ps)
    (hc : ∀ t ∈ ts, Complete t.info.data) {fuel : Nat} (hf : ps.length ≤ fuel) :
    ∃ r m' l qs, m.getNamesRequired fuel p = .ok (r, m') ∧ SlAt m' r l qs ∧
      l.map (·.1) = Selint.getNamesRequired (.mk i ts) ∧ AddsOnly m m' qs ∧ Bounded m' := by
  cases h with
  | cons h hu hl hfl hno h₁ h₂ h₃ h₄ hn =>
    simp only [List.length_append] at hf
    obtain ⟨r, m', l, e₁, ⟨qs, e₂, e₃, e₄⟩, e₅⟩ := namesRequired_spec h₃ hc (made_nil hb)
      (bound := fuel) (fuel := fuel) (by simp; omega) (by omega)
    refine ⟨r, m', _, qs, ?_, e₂, e₅, e₃, e₄⟩
    rw [Mem.getNamesRequired, get_eq h (f := Obj.node?) rfl, Res.bind_ok, e₁]

theorem heldFile_call :
    NodesAt heldFile (some 4) none (some 6)
      [.mk ⟨.ifCall ⟨cs!"foo", [(cs!"a", false)]⟩, some cs!"W-001", 3⟩ []] [8, 9, 10, 7, 11, 6] := by
  exact .cons (n := ⟨some 4, none, none, none, .ifCall, some 7, some 11, 3⟩) (p₁ := [8, 9, 10, 7])
      (p₂ := [11]) (p₃ := []) (p₄ := []) rfl rfl rfl rfl rfl
      (.ifCall (d := ⟨some 8, some 9⟩) (p₁ := [8]) (p₂ := [9, 10]) rfl (.mk rfl)
        (.cons rfl rfl .nil (by simp) (by simp)) (by decide))
      (.some rfl) .nil .nil (by decide)

/-- The names in the call `foo(a)` and in the file with it. -/
example : ∃ r m' l qs, heldFile.getNamesInNode 6 6 = .ok (r, m') ∧ SlAt m' r l qs ∧
    l.map (·.1) = [cs!"a"] ∧ AddsOnly heldFile m' qs ∧ Bounded m' :=
  C82_names heldFile_bounded heldFile_call trivial (by decide)

example : ∃ r m' l qs, heldFile.getNamesRequired 8 4 = .ok (r, m') ∧ SlAt m' r l qs ∧
    l.map (·.1) = [cs!"a"] ∧ AddsOnly heldFile m' qs ∧ Bounded m' :=
  C82_required heldFile_bounded heldFile_tree (by intro t ht; simp at ht; subst ht; trivial) (by decide)

/-- The tree is still there, whatever happens to the new list: after freeing it, memory is as
it was. -/
theorem C82_given_back {m m' : Mem} {r l qs} (hs : SlAt m' r l qs) (hg : AddsOnly m m' qs)
    {fuel : Nat} (hf : l.length ≤ fuel) :
    ∃ m'', m'.freeStringList fuel r = .ok m'' ∧ m''.obj = m.obj := by
  refine ⟨_, C80_free hs hf, ?_⟩
  funext q
  rw [dropped_obj]
  split
  · rename_i hq; rw [hg.1 q hq]
  · rename_i hq; rw [hg.2 q hq]

example : ∃ r m' m'', heldFile.getNamesInNode 6 6 = .ok (r, m') ∧ m'.freeStringList 1 r = .ok m'' ∧
    m''.obj = heldFile.obj := by
  obtain ⟨r, m', l, qs, h₁, h₂, h₃, h₄, _⟩ :=
    C82_names heldFile_bounded heldFile_call trivial (fuel := 6) (by decide)
  have : l.length = 1 := by
    have := congrArg List.length h₃
    simpa [Selint.getNamesInNode, IfCallData.argStrs] using this
  obtain ⟨m'', h₆, h₇⟩ := C82_given_back h₂ h₄ (fuel := 1) (by omega)
  exact ⟨r, m', m'', h₁, h₆, h₇⟩

/-- A node that lacks what its kind needs is fatal. -/
theorem C82_incomplete {m : Mem} {up left p i ts rest ps}
    (h : NodesAt m up left (some p) (.mk i ts :: rest) ps) (hc : ¬ Complete i.data) (fuel : Nat) :
    m.getNamesInNode fuel p = .ub := by
  cases h with
  | @cons _ _ _ n _ _ _ p₁ _ _ _ h hu hl hfl hno h₁ h₂ h₃ h₄ hn =>
    have hr : m.rawNames fuel n = .ub := by
      generalize hd : i.data = d at *
      generalize hda : n.data = da at h₁
      cases h₁ with
      | @roleAllow p d l₁ l₂ p₁ p₂ h h₁ h₂ hn =>
        have : l₁ = [] := Classical.not_not.1 hc
        subst this
        generalize hs : d.frm = x at h₁
        cases h₁
        simp only [Mem.rawNames, hfl, NodeData.flavor, hda, Mem.getAt]
        rw [get_eq h (f := Obj.ra?) rfl]
        simp [hs, Mem.copyStringList]
      | @plain p f s ps h =>
        cases f <;> first
          | (exact absurd trivial hc)
          | (have : s = none := Classical.not_not.1 hc
             subst this
             cases h
             simp [Mem.rawNames, hfl, NodeData.flavor, PlainFlavor.toFlavor, hda,
               Mem.slFromPtr, Mem.getAt])
      | header | av | xav | roleTypes | tt | rt | ifCall | decl | fc | attr | genReq =>
        exact absurd trivial hc
    simp [Mem.getNamesInNode, get_eq h (f := Obj.node?) rfl, hr]

/-- An alias node without a name. -/
example : (⟨fun | 0 => some (.node ⟨none, none, none, none, .alias, none, none, 1⟩) | _ => none, 1⟩ : Mem).getNamesInNode
    9 0 = .ub := by
  have h : NodesAt (⟨fun | 0 => some (.node ⟨none, none, none, none, .alias, none, none, 1⟩) | _ => none, 1⟩ : Mem)
      none none (some 0) [.mk ⟨.plain .alias none, none, 1⟩ []] [0] :=
    .cons (n := ⟨none, none, none, none, .alias, none, none, 1⟩) (p₁ := []) (p₂ := []) (p₃ := [])
      (p₄ := []) rfl rfl rfl rfl rfl (.plain .none) .none .nil .nil (by decide)
  exact C82_incomplete h (fun hc => hc rfl) 9

/-- No text is read to such a node. -/
theorem C82_text {s : Str} {f : SourceFile} (hp : ParsesTo s f) {expected : PlainFlavor}
    (he : expected = .teFile ∨ expected = .ifFile) {mod : Str} {maps : Maps} {st : PState}
    (h : f.exec expected mod maps = .ok (some st)) {i : NodeInfo}
    (hi : i ∈ Tree.preorderList st.loc.unzip) : Complete i.data := by
  have hc : Complete (.plain expected none) := by rcases he with rfl | rfl <;> trivial
  exact file_allComplete hc f (bareInfo i) (C74_node hp.tokens.1 h hi)

example : ∃ st, sourceFile.exec .teFile cs!"foo" {} = .ok (some st) ∧
    ∀ i ∈ Tree.preorderList st.loc.unzip, Complete i.data := by
  have : ∃ st, sourceFile.exec .teFile cs!"foo" {} = .ok (some st) := ⟨_, by with_unfolding_all rfl⟩
  obtain ⟨st, h⟩ := this
  exact ⟨st, h, fun i hi => C82_text ⟨_, source_lex, source_at⟩ (.inl rfl) h hi⟩

/-- Names can therefore be collected in every node of a text that lies in memory. -/
theorem C82_names_of_text {s : Str} {f : SourceFile} (hp : ParsesTo s f) {expected : PlainFlavor}
    (he : expected = .teFile ∨ expected = .ifFile) {mod : Str} {maps : Maps} {st : PState}
    (h : f.exec expected mod maps = .ok (some st)) {l : Loc} (hl : l.unzip = st.loc.unzip)
    {m : Mem} (hb : Bounded m) {up left p ps}
    (hm : NodesAt m up left (some p) (l.focus :: l.rights) ps) {fuel : Nat}
    (hf : ps.length ≤ fuel) :
    ∃ r m' ns qs, m.getNamesInNode fuel p = .ok (r, m') ∧ SlAt m' r ns qs ∧
      ns.map (·.1) = Selint.getNamesInNode l.info ∧ AddsOnly m m' qs ∧ Bounded m' := by
  have hi : l.info ∈ Tree.preorderList st.loc.unzip := loc_of_info.2 ⟨l, hl, rfl⟩
  have hc := C82_text hp he h hi
  unfold Loc.info at hc ⊢
  generalize l.focus = t at *
  obtain ⟨i, ts⟩ := t
  exact C82_names hb hm hc hf

/-- A text with a permissive line. -/
def permissiveText : Str := cs!"policy_module(a, 1.0)\npermissive d;\n"

/-- Its derivation. -/
def permissiveFile : SourceFile :=
  .te [] ⟨1, cs!"a", true, false, cs!"1.0"⟩ (.one (.bare (.simple 2 (.permissive cs!"d"))))

/-- The node of the line, with its predecessor at 0, in memory. -/
def permissiveMem : Mem :=
  ⟨fun
    | 1 => some (.node ⟨none, none, some 0, none, .permissive, some 2, none, 2⟩)
    | 2 => some (.bytes cs!"d")
    | _ => none, 3⟩

example : ∃ r m' ns qs, permissiveMem.getNamesInNode 2 1 = .ok (r, m') ∧ SlAt m' r ns qs ∧
    ns.map (·.1) = [cs!"d"] ∧ AddsOnly permissiveMem m' qs ∧ Bounded m' := by
  have hl : lexFile permissiveText = some [(1, .kw .policyModule), (1, tOpen), (1, .string cs!"a"), (1, tComma),
      (1, .versionNo cs!"1.0"), (1, tClose), (2, .kw .permissive), (2, .string cs!"d"), (2, tSemi)] := by
    decide +kernel
  have hp : ParsesTo permissiveText permissiveFile :=
    ⟨_, hl, _, _, (List.take_append_drop 6 _).symm, ⟨rfl, rfl⟩, by
      simp only [Lines.At, Line.At, Stmt.At]; exact ⟨rfl, rfl⟩⟩
  have hb : Bounded permissiveMem := by
    intro q hq
    have : 3 ≤ q := hq
    obtain ⟨k, rfl⟩ : ∃ k, q = k + 3 := ⟨q - 3, by omega⟩
    rfl
  exact C82_names_of_text hp (.inl rfl) (mod := cs!"a") (maps := {}) (by with_unfolding_all rfl)
    (l := ⟨.mk ⟨.plain .permissive (some cs!"d"), none, 2⟩ [], [.mk ⟨.header ⟨.macro, cs!"a"⟩, none, 1⟩ [],
      .mk ⟨.plain .teFile none, none, 0⟩ []], [], []⟩)
    (by with_unfolding_all rfl) hb (up := none) (left := some 0) (ps := [2, 1])
    (.cons (n := ⟨none, none, some 0, none, .permissive, some 2, none, 2⟩) (p₁ := [2]) (p₂ := [])
      (p₃ := []) (p₄ := []) rfl rfl rfl rfl rfl (.plain (.some rfl)) .none .nil .nil (by decide))
    (by decide)

end Selint
