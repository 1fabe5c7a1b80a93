import Verif.Lemmas.Cursor
import Verif.Lemmas.Basic
/-!
# The invariant of the parser's actions in memory
-/

namespace Selint
open Spec

/-- Something a production holds in its hands. -/
inductive Item where
  | opt (p : Option Addr) (s : Option Str)
  | list (p : Option Addr) (l : List (Str × Bool))
  | obj (p : Addr) (o : Obj)
  | data (p : Option Addr) (d : NodeData)

/-- A string. -/
abbrev Item.word (a : Addr) (s : Str) : Item := .opt (some a) (some s)

/-- A list of names. -/
abbrev Item.names (p : Option Addr) (l : List Str) : Item := .list p (l.map fun s => (s, false))

/-- An item lies in memory. -/
def Item.At (m : Mem) : Item → List Addr → Prop
  | .opt p s, ps => OptStrAt m p s ps
  | .list p l, ps => SlAt m p l ps
  | .obj p o, ps => ps = [p] ∧ m.obj p = some o
  | .data p d, ps => DataAt m p d ps

/-- Items lie in memory. -/
inductive HeldAt (m : Mem) : List Item → List Addr → Prop
  | nil : HeldAt m [] []
  | cons {i : Item} {is : List Item} {ps qs : List Addr} :
      i.At m ps → HeldAt m is qs → HeldAt m (i :: is) (ps ++ qs)

theorem Item.At.congr {m m' i ps} (h : Item.At m i ps) (he : EqOn m m' ps) : Item.At m' i ps := by
  cases i with
  | opt p s => exact OptStrAt.congr h he
  | list p l => exact SlAt.congr h he
  | obj p o =>
    obtain ⟨rfl, h⟩ := h
    exact ⟨rfl, by rw [he _ (by simp)]; exact h⟩
  | data p d => exact DataAt.congr h he

theorem HeldAt.congr {m m' is ps} (h : HeldAt m is ps) (he : EqOn m m' ps) : HeldAt m' is ps := by
  induction h with
  | nil => exact .nil
  | cons h _ ih => exact .cons (h.congr he.left) (ih he.right)

theorem HeldAt.perm {m is is'} (hp : is.Perm is') :
    ∀ {ps}, HeldAt m is ps → ∃ ps', HeldAt m is' ps' ∧ ps'.Perm ps := by
  induction hp with
  | nil => intro ps h; exact ⟨ps, h, .refl _⟩
  | cons i _ ih =>
    intro ps h
    cases h with
    | cons h h' =>
      obtain ⟨qs, hq, hp⟩ := ih h'
      exact ⟨_, .cons h hq, hp.append_left _⟩
  | swap i j is =>
    intro ps h
    cases h with
    | cons h h' =>
      cases h' with
      | cons h' h'' => exact ⟨_, .cons h' (.cons h h''), by pieces⟩
  | trans _ _ ih₁ ih₂ =>
    intro ps h
    obtain ⟨qs, hq, hp⟩ := ih₁ h
    obtain ⟨rs, hr, hp'⟩ := ih₂ hq
    exact ⟨rs, hr, hp'.trans hp⟩

theorem HeldAt.split {m is H} : ∀ {ps}, HeldAt m (is ++ H) ps →
    ∃ p q, ps = p ++ q ∧ HeldAt m is p ∧ HeldAt m H q := by
  induction is with
  | nil => intro ps h; exact ⟨[], ps, rfl, .nil, h⟩
  | cons i is ih =>
    intro ps h
    cases h with
    | cons h h' =>
      obtain ⟨p, q, rfl, h₁, h₂⟩ := ih h'
      exact ⟨_, q, by simp, .cons h h₁, h₂⟩

theorem HeldAt.join {m is H p q} (h : HeldAt m is p) (h' : HeldAt m H q) :
    HeldAt m (is ++ H) (p ++ q) := by
  induction h with
  | nil => exact h'
  | cons h _ ih => rw [List.append_assoc]; exact .cons h ih

theorem HeldAt.mem {m is ps i} (h : HeldAt m is ps) (hi : i ∈ is) :
    ∃ qs, i.At m qs ∧ ∀ q ∈ qs, q ∈ ps := by
  induction h with
  | nil => simp at hi
  | cons h _ ih =>
    rcases List.mem_cons.1 hi with rfl | hi
    · exact ⟨_, h, by simp +contextual⟩
    · obtain ⟨qs, hq, hs⟩ := ih hi
      exact ⟨qs, hq, fun q hq => by simp [hs q hq]⟩

theorem CurAt.rights_nil {m cur l root ps} (h : CurAt m cur l root ps) : l.rights = [] := by
  cases h with
  | mk => rfl

theorem hasExceptions_some (d : NodeData) (e : Str) (n : Nat) : hasExceptions ⟨d, some e, n⟩ = 1 :=
  rfl

/-- How many nodes of a tree under construction have exceptions. -/
def locExceptions (l : Loc) : Nat :=
  exceptionsIn l.focus + exceptionsBelow l.lefts + exceptionsBelow l.rights +
    (l.ups.map fun f => hasExceptions f.info + exceptionsBelow f.lefts +
      exceptionsBelow f.rights).sum

theorem exceptionsBelow_append (xs ys : List Tree) :
    exceptionsBelow (xs ++ ys) = exceptionsBelow xs + exceptionsBelow ys := by
  induction xs with
  | nil => simp [exceptionsBelow]
  | cons x xs ih => simp [exceptionsBelow, ih]; omega

theorem exceptionsBelow_reverse (xs : List Tree) :
    exceptionsBelow xs.reverse = exceptionsBelow xs := by
  induction xs with
  | nil => rfl
  | cons x xs ih => simp [exceptionsBelow_append, exceptionsBelow, ih]; omega

theorem locExceptions_parent {l p : Loc} (h : l.parent? = some p) :
    locExceptions p = locExceptions l := by
  obtain ⟨focus, lefts, rights, ups⟩ := l
  cases ups with
  | nil => simp [Loc.parent?] at h
  | cons u us =>
    simp only [Loc.parent?, Option.some.injEq] at h
    subst h
    simp only [locExceptions, exceptionsIn, exceptionsBelow_append, exceptionsBelow_reverse,
      exceptionsBelow, List.map_cons, List.sum_cons]
    omega

theorem exceptionsBelow_unzip (ups : List Frame) : ∀ focus lefts rights,
    exceptionsBelow (Loc.unzip ⟨focus, lefts, rights, ups⟩) =
      locExceptions ⟨focus, lefts, rights, ups⟩ := by
  induction ups with
  | nil =>
    intro focus lefts rights
    simp [Loc.unzip, Loc.siblings, Loc.plug, locExceptions, exceptionsBelow_append,
      exceptionsBelow_reverse, exceptionsBelow]
    omega
  | cons u us ih =>
    intro focus lefts rights
    have h := locExceptions_parent (l := ⟨focus, lefts, rights, u :: us⟩) (p := _) rfl
    rw [← h, ← ih]
    simp [Loc.unzip, Loc.siblings, Loc.plug]

/-- How many strings of exceptions a command makes. -/
def commandCost (c : Str) : Nat := if (PState.commandExceptions c).isSome then 1 else 0

/-- What holds between two actions: the tree is being built, some strings are lost, the items
`H` are held, and the objects `R` that were there at the beginning are as they were. -/
structure Inv (root : Addr) (m₀ : Mem) (R : List Addr) (ms : MState) (st : PState)
    (H : List Item) (k : Nat) : Prop where
  mem : ∃ T L hs, CurAt ms.mem ms.cur st.loc root T ∧ StringsAt ms.mem L ∧ HeldAt ms.mem H hs ∧
    Owns ms.mem (T ++ L ++ hs ++ R) ∧ locExceptions st.loc + L.length = k
  frame : EqOn m₀ ms.mem R
  maps : ms.maps = st.maps
  module : ms.module = st.module
  rets : ms.rets = st.rets

namespace Inv

variable {root : Addr} {m₀ : Mem} {R : List Addr} {ms : MState} {st : PState} {H : List Item}
  {k : Nat}

theorem perm {H'} (h : Inv root m₀ R ms st H k) (hp : H.Perm H') : Inv root m₀ R ms st H' k := by
  obtain ⟨⟨T, L, hs, hT, hL, hH, ho, hk⟩, hf, h₁, h₂, h₃⟩ := h
  obtain ⟨hs', hH', hp'⟩ := hH.perm hp
  refine ⟨⟨T, L, hs', hT, hL, hH', ho.perm ?_, hk⟩, hf, h₁, h₂, h₃⟩
  refine perm_count fun x => ?_
  have := hp'.count_eq x
  simp only [List.count_append] at this ⊢
  omega

theorem swap {i j} (h : Inv root m₀ R ms st (i :: j :: H) k) :
    Inv root m₀ R ms st (j :: i :: H) k := h.perm (.swap j i H)

theorem regroup {is is'} (h : Inv root m₀ R ms st (is ++ H) k)
    (hg : ∀ ps, HeldAt ms.mem is ps → ps.Nodup → ∃ qs, HeldAt ms.mem is' qs ∧ qs.Perm ps) :
    Inv root m₀ R ms st (is' ++ H) k := by
  obtain ⟨⟨T, L, hs, hT, hL, hH, ho, hk⟩, hf, h₁, h₂, h₃⟩ := h
  obtain ⟨p, q, rfl, hp, hq⟩ := hH.split
  obtain ⟨p', hp', hpp⟩ := hg p hp (by
    have : (p ++ (T ++ L ++ q ++ R)).Nodup := List.Perm.nodup (by pieces) ho.nodup
    exact (List.nodup_append.1 this).1)
  refine ⟨⟨T, L, p' ++ q, hT, hL, hp'.join hq, ho.perm ?_, hk⟩, hf, h₁, h₂, h₃⟩
  refine perm_count fun x => ?_
  have := hpp.count_eq x
  simp only [List.count_append] at this ⊢
  omega

theorem setMaps (h : Inv root m₀ R ms st H k) (M : Maps) :
    Inv root m₀ R { ms with maps := M } { st with maps := M } H k :=
  ⟨h.mem, h.frame, rfl, h.module, h.rets⟩

/-- The same, with the members of the first state that agree with the second. -/
theorem setMaps' (h : Inv root m₀ R ms st H k) (M : Maps) :
    Inv root m₀ R { ms with maps := M } ⟨st.loc, M, ms.module, st.rets⟩ H k :=
  ⟨h.mem, h.frame, rfl, rfl, h.rets⟩

theorem setRets (h : Inv root m₀ R ms st H k) (r : List SelintError) :
    Inv root m₀ R { ms with rets := r } { st with rets := r } H k :=
  ⟨h.mem, h.frame, h.maps, h.module, rfl⟩

theorem malloc (h : Inv root m₀ R ms st H k) (o : Obj) :
    Inv root m₀ R { ms with mem := (ms.mem.malloc o).2 } st (.obj ms.mem.top o :: H) k := by
  obtain ⟨⟨T, L, hs, hT, hL, hH, ho, hk⟩, hf, h₁, h₂, h₃⟩ := h
  have he := eqOn_malloc ho o
  refine ⟨⟨T, L, [ms.mem.top] ++ hs, hT.congr he.left.left.left, hL.congr he.left.left.right,
    .cons ⟨rfl, malloc_self _ _⟩ (hH.congr he.left.right), (ho.malloc o).perm ?_, hk⟩,
    hf.trans he.right, h₁, h₂, h₃⟩
  pieces

theorem token (h : Inv root m₀ R ms st H k) (s : Str) :
    Inv root m₀ R { ms with mem := (ms.mem.malloc (.bytes s)).2 } st (.word ms.mem.top s :: H) k := by
  refine (h.malloc (.bytes s)).regroup (is := [_]) (is' := [_]) fun ps hp _ => ⟨ps, ?_, .refl _⟩
  cases hp with
  | cons hp h' =>
    obtain ⟨rfl, hp⟩ := hp
    exact .cons (.some hp) h'

/-- A production with a value. -/
theorem built {α : Type} {f : Mem → Res (α × Mem)} {A : Mem → α → List Addr → Prop}
    (h : Inv root m₀ R ms st H k) (hf : Makes f A) (i : α → Item)
    (hi : ∀ {m a qs}, A m a qs → (i a).At m qs) :
    ∃ a ms', ms.value f = .ok (a, ms') ∧ Inv root m₀ R ms' st (i a :: H) k := by
  obtain ⟨⟨T, L, hs, hT, hL, hH, ho, hk⟩, hfr, h₁, h₂, h₃⟩ := h
  obtain ⟨a, m', qs, e, ha, ho', he⟩ := hf _ _ ho
  refine ⟨a, { ms with mem := m' }, by simp only [MState.value, e, Res.bind_ok],
    ⟨T, L, qs ++ hs, hT.congr he.left.left.left, hL.congr he.left.left.right,
    .cons (hi ha) (hH.congr he.left.right), ho'.perm ?_, hk⟩, hfr.trans he.right, h₁, h₂, h₃⟩
  pieces

theorem names {f} {l : List Str} (h : Inv root m₀ R ms st H k) (hf : Makes f (Words l)) :
    ∃ a ms', ms.value f = .ok (a, ms') ∧ Inv root m₀ R ms' st (.names a l :: H) k :=
  h.built hf (fun p => .names p l) fun h => h

theorem marked {f} {l : List (Str × Bool)} (h : Inv root m₀ R ms st H k)
    (hf : Makes f (Marked l)) :
    ∃ a ms', ms.value f = .ok (a, ms') ∧ Inv root m₀ R ms' st (.list a l :: H) k :=
  h.built hf (fun p => .list p l) fun h => h

theorem word {f} {s : Str} (h : Inv root m₀ R ms st H k) (hf : Makes f (Word s)) :
    ∃ a ms', ms.value f = .ok (a, ms') ∧ Inv root m₀ R ms' st (.word a s :: H) k :=
  h.built hf (fun p => .word p s) fun h => by
    obtain ⟨rfl, h⟩ := h
    exact .some h

theorem quiet {f} (h : Inv root m₀ R ms st H k) (hf : Clean f) :
    ∃ ms', ms.quiet f = .ok ms' ∧ Inv root m₀ R ms' st H k := by
  obtain ⟨⟨T, L, hs, hT, hL, hH, ho, hk⟩, hfr, h₁, h₂, h₃⟩ := h
  obtain ⟨m', e, ho', he⟩ := hf _ _ ho
  exact ⟨{ ms with mem := m' }, by simp only [MState.quiet, e, Res.bind_ok],
    ⟨T, L, hs, hT.congr he.left.left.left, hL.congr he.left.left.right,
    hH.congr he.left.right, ho', hk⟩, hfr.trans he.right, h₁, h₂, h₃⟩

/-- What the first item owned is no longer there. -/
theorem dropped {i} (h : Inv root m₀ R ms st (i :: H) k) :
    ∃ ps, i.At ms.mem ps ∧ ps.length ≤ ms.mem.top ∧
      Inv root m₀ R { ms with mem := Spec.dropped ms.mem ps } st H k := by
  obtain ⟨⟨T, L, hs, hT, hL, hH, ho, hk⟩, hfr, h₁, h₂, h₃⟩ := h
  cases hH with
  | @cons _ _ ps qs hi hH =>
    have hlen := ho.length_le
    have ho' : Owns ms.mem (ps ++ (T ++ L ++ qs ++ R)) := ho.perm (by pieces)
    have he := ho'.eqOn_dropped
    refine ⟨ps, hi, ?_, ⟨T, L, qs, hT.congr he.left.left.left, hL.congr he.left.left.right,
      hH.congr he.left.right, ho'.dropped, hk⟩, hfr.trans he.right, h₁, h₂, h₃⟩
    simp only [List.length_append] at hlen
    omega

theorem free {a s} (h : Inv root m₀ R ms st (.word a s :: H) k) :
    ∃ ms', ms.free a = .ok ms' ∧ Inv root m₀ R ms' st H k := by
  obtain ⟨ps, hi, _, h'⟩ := h.dropped
  exact ⟨_, by simp only [MState.free, free_optStr hi, Res.bind_ok], h'⟩

theorem freeHeld {p s} (h : Inv root m₀ R ms st (.opt p s :: H) k) :
    ∃ ms', ms.freeHeld p = .ok ms' ∧ Inv root m₀ R ms' st H k := by
  cases s with
  | none =>
    obtain ⟨ps, hi, _, h'⟩ := h.dropped
    cases hi
    refine ⟨_, rfl, ?_⟩
    have : Spec.dropped ms.mem [] = ms.mem := by simp [Spec.dropped]
    rw [this] at h'
    exact h'
  | some s =>
    obtain ⟨ps, hi, _, h'⟩ := h.dropped
    cases hi
    exact h.free

theorem freeList {p l} (h : Inv root m₀ R ms st (.list p l :: H) k) :
    ∃ ms', ms.freeList p = .ok ms' ∧ Inv root m₀ R ms' st H k := by
  obtain ⟨ps, hi, hl, h'⟩ := h.dropped
  exact ⟨_, by simp only [MState.freeList, first_sl hi hl, Res.bind_ok], h'⟩

/-! ### Reading -/

theorem word_at {a s} (h : Inv root m₀ R ms st H k) (hi : .word a s ∈ H) :
    ms.mem.get Obj.str? a = .ok s := by
  obtain ⟨⟨T, L, hs, hT, hL, hH, ho, hk⟩, _⟩ := h
  obtain ⟨qs, hq, _⟩ := hH.mem hi
  cases hq with
  | some hq => exact get_eq hq rfl

theorem list_at {p l} (h : Inv root m₀ R ms st H k) (hi : .list p l ∈ H) :
    ∃ ps, SlAt ms.mem p l ps ∧ l.length ≤ ms.mem.top := by
  obtain ⟨⟨T, L, hs, hT, hL, hH, ho, hk⟩, _⟩ := h
  obtain ⟨qs, hq, hsub⟩ := hH.mem hi
  refine ⟨qs, hq, ?_⟩
  have h₁ := SlAt.length_le hq
  have h₂ := List.Nodup.length_le_of_subset (SlAt.nodup hq) (l₂ := List.range ms.mem.top)
    (fun q hq => List.mem_range.2 (ho.below q (by simp [hsub q hq])))
  simp at h₂
  omega

theorem isInRequire (h : Inv root m₀ R ms st H k) :
    ms.mem.isInRequire ms.mem.top ms.cur = .ok st.loc.isInRequire := by
  obtain ⟨⟨T, L, hs, hT, hL, hH, ho, hk⟩, _⟩ := h
  exact hT.isInRequire (R := L ++ hs ++ R) (ho.perm (by pieces))

theorem nameIfInTemplate (h : Inv root m₀ R ms st H k) :
    ms.mem.nameIfInTemplate ms.mem.top ms.cur = .ok st.loc.getNameIfInTemplate := by
  obtain ⟨⟨T, L, hs, hT, hL, hH, ho, hk⟩, _⟩ := h
  exact hT.nameIfInTemplate (R := L ++ hs ++ R) (ho.perm (by pieces))

theorem parentInterface (h : Inv root m₀ R ms st H k) :
    ms.mem.parentInterface ms.cur = .ok st.parentInterface := by
  obtain ⟨⟨T, L, hs, hT, hL, hH, ho, hk⟩, _⟩ := h
  exact hT.parentInterface

theorem strInSl {p l} (h : Inv root m₀ R ms st H k) (hi : .names p l ∈ H) (s : Str) :
    ms.mem.strInSl ms.mem.top s p = .ok (Selint.strInSl s l) := by
  obtain ⟨ps, hs, hl⟩ := h.list_at hi
  rw [strInSl_mem hs s hl]
  congr 1
  rw [Bool.eq_iff_iff, strInSl_iff]
  simp [Function.comp_def]

/-! ### Adding -/

theorem addNext {d data} (h : Inv root m₀ R ms st (.data d data :: H) k) (line : Nat) :
    ∃ ms', ms.addNext data.flavor d line = .ok ms' ∧
      Inv root m₀ R ms' (st.statement data line) H k := by
  obtain ⟨⟨T, L, hs, hT, hL, hH, ho, hk⟩, hfr, h₁, h₂, h₃⟩ := h
  cases hH with
  | @cons _ _ ps qs hi hH =>
    obtain ⟨n, m', T', e, hn, hnx, hT', ho', he⟩ := hT.addNext (R := L ++ qs ++ R) line hi
      (ho.perm (by pieces))
    refine ⟨{ ms with mem := m', cur := ms.mem.top }, ?_, ⟨T', L, qs, hT',
      hL.congr he.left.left, hH.congr he.left.right, ho'.perm (by pieces), ?_⟩,
      hfr.trans he.right, h₁, h₂, h₃⟩
    · simp only [MState.addNext, e, Res.bind_ok, get_eq hn (f := Obj.node?) rfl, hnx]
    · rw [← hk]
      simp [PState.statement, PState.grow, Loc.grow, Loc.addNext, locExceptions, exceptionsIn,
        exceptionsBelow, hasExceptions, hT.rights_nil]

theorem addChild {d data} (h : Inv root m₀ R ms st (.data d data :: H) k) (line : Nat) :
    ∃ m', ms.mem.insertChild ms.cur data.flavor d line = .ok m' ∧
      Inv root m₀ R { ms with mem := m' } (st.grow (.child ⟨data, none, line⟩)) H k := by
  obtain ⟨⟨T, L, hs, hT, hL, hH, ho, hk⟩, hfr, h₁, h₂, h₃⟩ := h
  cases hH with
  | @cons _ _ ps qs hi hH =>
    obtain ⟨m', T', e, hT', ho', he⟩ := hT.addChild (R := L ++ qs ++ R) line hi
      (ho.perm (by pieces))
    refine ⟨m', e, ⟨T', L, qs, hT',
      hL.congr he.left.left, hH.congr he.left.right, ho'.perm (by pieces), ?_⟩,
      hfr.trans he.right, h₁, h₂, h₃⟩
    rw [← hk]
    obtain ⟨⟨⟨i, ts⟩, lefts, rights, ups⟩, _⟩ := st
    simp [PState.grow, Loc.grow, Loc.addChild, locExceptions, exceptionsIn,
      exceptionsBelow, hasExceptions, exceptionsBelow_append, Tree.info, Tree.children]

theorem noData (f : PlainFlavor) (h : Inv root m₀ R ms st H k) :
    Inv root m₀ R ms st (.data none (.plain f none) :: H) k :=
  h.regroup (is := []) (is' := [_]) fun ps hp _ => by
    cases hp
    exact ⟨[] ++ [], .cons (.plain .none) .nil, .refl _⟩

theorem strData (f : PlainFlavor) {a s} (h : Inv root m₀ R ms st (.word a s :: H) k) :
    Inv root m₀ R ms st (.data (some a) (.plain f (some s)) :: H) k :=
  h.regroup (is := [_]) (is' := [_]) fun ps hp _ => by
    cases hp with
    | cons hp h' => exact ⟨_, .cons (.plain hp) h', .refl _⟩

theorem beginBlock {d data} (h : Inv root m₀ R ms st (.data d data :: H) k)
    (ht : data ≠ .plain .tempDef none) (line : Nat) :
    ∃ ms', ms.beginBlock data.flavor d line = .ok ms' ∧
      Inv root m₀ R ms' (st.beginBlock data line) H k := by
  obtain ⟨ms₁, e₁, h⟩ := h.addNext line
  obtain ⟨⟨T, L, hs, hT, hL, hH, ho, hk⟩, hfr, h₁, h₂, h₃⟩ := h
  simp only [PState.statement, PState.grow, Loc.grow, Loc.addNext] at hT
  obtain ⟨n, m', T', e, hn, hfc, hT', ho', he⟩ := hT.enter (R := L ++ hs ++ R) line ht
    (ho.perm (by pieces))
  refine ⟨{ ms₁ with mem := m', cur := ms₁.mem.top }, ?_, ⟨T', L, hs, hT',
    hL.congr he.left.left, hH.congr he.left.right, ho'.perm (by pieces), ?_⟩,
    hfr.trans he.right, h₁, h₂, h₃⟩
  · simp only [MState.beginBlock, e₁, e, Res.bind_ok, get_eq hn (f := Obj.node?) rfl, hfc]
  · rw [← hk]
    simp [PState.statement, PState.beginBlock, PState.grow, Loc.grow, Loc.addNext, Loc.openBlock,
      locExceptions, exceptionsIn, exceptionsBelow, hasExceptions]

theorem beginPlain (f : PlainFlavor) (h : Inv root m₀ R ms st H k) (hf : f ≠ .tempDef)
    (line : Nat) :
    ∃ ms', ms.beginBlock f.toFlavor none line = .ok ms' ∧
      Inv root m₀ R ms' (st.beginBlock (.plain f none) line) H k :=
  (h.noData f).beginBlock (by simp [hf]) line

theorem endBlock (h : Inv root m₀ R ms st H k) (fl : NodeFlavor) :
    ∃ b ms', ms.endBlock fl = .ok (b, ms') ∧ Inv root m₀ R ms' (st.endBlock fl) H k ∧
      b = ((st.loc.parent?.map fun p => p.info.flavor) == some fl) := by
  obtain ⟨⟨T, L, hs, hT, hL, hH, ho, hk⟩, hfr, h₁, h₂, h₃⟩ := h
  obtain ⟨mem, cur, maps, module, rets⟩ := ms
  obtain ⟨⟨focus, lefts, rights, ups⟩, maps', module', rets'⟩ := st
  simp only at hT hL hH ho hk hfr h₁ h₂ h₃
  subst h₁ h₂ h₃
  cases ups with
  | nil =>
    obtain ⟨n, hn, hp⟩ := hT.noParent
    refine ⟨false, ⟨mem, cur, maps, module, rets⟩, ?_,
      ⟨⟨T, L, hs, hT, hL, hH, ho, hk⟩, hfr, rfl, rfl, rfl⟩, ?_⟩
    · simp only [MState.endBlock, get_eq hn (f := Obj.node?) rfl, Res.bind_ok, hp]
    · simp [Loc.parent?]
  | cons u us =>
    obtain ⟨n, a, c, hn, hp, hc, hfl⟩ := hT.parentFlavor
    by_cases hu : u.info.data.flavor = fl
    · obtain ⟨n', a', T', hn', hp', hT', hperm⟩ := hT.up rfl
        (List.nodup_append.1 (List.nodup_append.1 (List.nodup_append.1 ho.nodup).1).1).1
      rw [hn] at hn'
      cases hn'
      rw [hp] at hp'
      cases hp'
      refine ⟨true, ⟨mem, a, maps, module, rets⟩, ?_, ⟨⟨T', L, hs, ?_, hL, hH, ho.perm ?_, ?_⟩, hfr,
        rfl, rfl, rfl⟩, ?_⟩
      · simp only [MState.endBlock, get_eq hn (f := Obj.node?) rfl, Res.bind_ok, hp,
          get_eq hc (f := Obj.node?) rfl, hfl, hu, if_true]
      · simpa [PState.endBlock, PState.grow, Loc.grow, Loc.closeBlock, Loc.parent?, Tree.info,
          Loc.info, NodeInfo.flavor, hu] using hT'
      · exact ((hperm.symm.append_right _).append_right _).append_right _
      · rw [← hk]
        simp only [PState.endBlock, PState.grow, Loc.grow, Loc.closeBlock, Loc.parent?, Tree.info,
          Loc.info, NodeInfo.flavor, hu, if_true]
        rw [locExceptions_parent (l := ⟨focus, lefts, rights, u :: us⟩) rfl]
      · simp [Loc.parent?, Tree.info, Loc.info, NodeInfo.flavor, hu]
    · refine ⟨false, ⟨mem, cur, maps, module, rets⟩, ?_, ⟨⟨T, L, hs, ?_, hL, hH, ho, ?_⟩, hfr, rfl, rfl, rfl⟩, ?_⟩
      · simp only [MState.endBlock, get_eq hn (f := Obj.node?) rfl, Res.bind_ok, hp,
          get_eq hc (f := Obj.node?) rfl, hfl, hu, if_false]
      · simpa [PState.endBlock, PState.grow, Loc.grow, Loc.closeBlock, Loc.parent?, Tree.info,
          Loc.info, NodeInfo.flavor, hu] using hT
      · simpa [PState.endBlock, PState.grow, Loc.grow, Loc.closeBlock, Loc.parent?, Tree.info,
          Loc.info, NodeInfo.flavor, hu] using hk
      · simp [Loc.parent?, Tree.info, Loc.info, NodeInfo.flavor, hu]

theorem close (h : Inv root m₀ R ms st H k) (fl : NodeFlavor) :
    ∃ ms', ms.close fl = .ok ms' ∧ Inv root m₀ R ms' (st.endBlock fl) H k := by
  obtain ⟨b, ms', e, h', _⟩ := h.endBlock fl
  exact ⟨ms', by simp only [MState.close, e, Res.bind_ok], h'⟩

/-! ### Commands -/

theorem saveCommand {a c} (h : Inv root m₀ R ms st H k) (hi : .word a c ∈ H) :
    ∃ m', ms.mem.saveCommand ms.cur a = .ok m' ∧
      Inv root m₀ R { ms with mem := m' } (st.command c) H (k + commandCost c) := by
  have hw := h.word_at hi
  obtain ⟨⟨T, L, hs, hT, hL, hH, ho, hk⟩, hfr, h₁, h₂, h₃⟩ := h
  have hr := hT.rights_nil
  obtain ⟨⟨⟨i, ts⟩, lefts, rights, ups⟩, maps', module', rets'⟩ := st
  simp only at hT hk hfr h₁ h₂ h₃ hr
  subst hr
  cases hc : PState.commandExceptions c with
  | none =>
    refine ⟨ms.mem, by simp only [Mem.saveCommand, hw, hc, Res.bind_ok],
      ⟨T, L, hs, ?_, hL, hH, ho, ?_⟩, hfr, h₁, h₂, h₃⟩
    · simpa [PState.command, PState.grow, Loc.grow, Loc.update, PState.saveCommand, hc] using hT
    · simpa [PState.command, PState.grow, Loc.grow, Loc.update, PState.saveCommand, hc,
        commandCost] using hk
  | some e =>
    obtain ⟨n, m', T', lost, hn, e', hT', hs', hlen, ho', he⟩ :=
      hT.setExceptions (R := L ++ hs ++ R) e (ho.perm (by pieces))
    refine ⟨m', ?_, ⟨T', lost ++ L, hs, ?_, ?_, hH.congr he.left.right, ho'.perm (by pieces), ?_⟩,
      hfr.trans he.right, h₁, h₂, h₃⟩
    · simp only [Mem.saveCommand, hw, hc, Res.bind_ok, get_eq hn (f := Obj.node?) rfl, malloc_fst,
        e']
    · simpa [PState.command, PState.grow, Loc.grow, Loc.update, PState.saveCommand, hc] using hT'
    · intro q hq
      rcases List.mem_append.1 hq with hq | hq
      · exact hs' q hq
      · exact hL.congr he.left.left q hq
    · rw [← hk]
      change lost.length = hasExceptions i at hlen
      simp [PState.command, PState.grow, Loc.grow, Loc.update, PState.saveCommand, hc,
        commandCost, hlen, locExceptions, exceptionsIn, hasExceptions_some, Tree.info,
        Tree.children]
      omega

theorem saveParent {a c} (h : Inv root m₀ R ms st H k) (hi : .word a c ∈ H)
    (hu : st.loc.ups ≠ []) :
    ∃ ms', ms.saveParent a = .ok ms' ∧
      Inv root m₀ R ms' (st.grow (.updateParent (PState.saveCommand c))) H (k + commandCost c) := by
  have hw := h.word_at hi
  obtain ⟨⟨T, L, hs, hT, hL, hH, ho, hk⟩, hfr, h₁, h₂, h₃⟩ := h
  obtain ⟨⟨focus, lefts, rights, ups⟩, maps', module', rets'⟩ := st
  simp only at hT hk hfr h₁ h₂ h₃ hu
  cases ups with
  | nil => exact absurd rfl hu
  | cons u us =>
    cases hc : PState.commandExceptions c with
    | none =>
      obtain ⟨n, a', n', hn, hp, hn', _⟩ := hT.parentFlavor
      refine ⟨ms, by simp only [MState.saveParent, get_eq hn (f := Obj.node?) rfl, Res.bind_ok, hp,
        Mem.saveCommand, hw, hc], ⟨T, L, hs, ?_, hL, hH, ho, ?_⟩, hfr, h₁, h₂, h₃⟩
      · simpa [PState.grow, Loc.grow, Loc.updateParent, PState.saveCommand, hc] using hT
      · simpa [PState.grow, Loc.grow, Loc.updateParent, PState.saveCommand, hc,
          commandCost] using hk
    | some e =>
      obtain ⟨n, a', n', m', T', lost, hn, hp, hn', e', hT', hs', hlen, ho', he⟩ :=
        hT.setParentExceptions (R := L ++ hs ++ R) e (ho.perm (by pieces))
      refine ⟨{ ms with mem := m' }, ?_, ⟨T', lost ++ L, hs, ?_, ?_, hH.congr he.left.right,
        ho'.perm (by pieces), ?_⟩, hfr.trans he.right, h₁, h₂, h₃⟩
      · simp only [MState.saveParent, get_eq hn (f := Obj.node?) rfl, Res.bind_ok, hp,
          Mem.saveCommand, hw, hc, get_eq hn' (f := Obj.node?) rfl, malloc_fst, e']
      · simpa [PState.grow, Loc.grow, Loc.updateParent, PState.saveCommand, hc] using hT'
      · intro q hq
        rcases List.mem_append.1 hq with hq | hq
        · exact hs' q hq
        · exact hL.congr he.left.left q hq
      · rw [← hk]
        simp [PState.grow, Loc.grow, Loc.updateParent, PState.saveCommand, hc,
          commandCost, hlen, locExceptions, hasExceptions_some]
        omega

theorem command (h : Inv root m₀ R ms st H k) (c : Str) :
    ∃ ms', ms.command c = .ok ms' ∧
      Inv root m₀ R ms' (st.command c) H (k + commandCost c) := by
  obtain ⟨m₁, e₁, h₁⟩ := (h.token c).saveCommand (List.mem_cons_self ..)
  obtain ⟨ms₂, e₂, h₂⟩ := h₁.free
  refine ⟨ms₂, ?_, h₂⟩
  simp only [MState.command, MState.token, malloc_fst] at e₁ ⊢
  simp only [e₁, Res.bind_ok, e₂]

theorem heldToken (h : Inv root m₀ R ms st H k) (c : Option Str) :
    ∃ p ms', ms.heldToken c = (p, ms') ∧ Inv root m₀ R ms' st (.opt p c :: H) k := by
  cases c with
  | none =>
    refine ⟨none, ms, rfl, h.regroup (is := []) (is' := [_]) fun ps hp _ => ?_⟩
    cases hp
    exact ⟨[] ++ [], .cons .none .nil, .refl _⟩
  | some c => exact ⟨_, _, rfl, h.token c⟩

theorem opt_cases {p c} (h : Inv root m₀ R ms st (.opt p c :: H) k) :
    p.isSome = c.isSome := by
  obtain ⟨ps, hi, _⟩ := h.dropped
  cases hi <;> rfl

theorem lateCommand {p c} (h : Inv root m₀ R ms st (.opt p c :: H) k) :
    ∃ ms', ms.lateCommand p = .ok ms' ∧
      Inv root m₀ R ms' (st.lateCommand c) H (k + (c.map commandCost).getD 0) := by
  have hp := h.opt_cases
  cases c with
  | none =>
    obtain ⟨ms', e, h'⟩ := h.freeHeld
    cases p with
    | none => exact ⟨ms', e, h'⟩
    | some p => simp at hp
  | some c =>
    cases p with
    | none => simp at hp
    | some p =>
      obtain ⟨m₁, e₁, h₁⟩ := h.saveCommand (List.mem_cons_self ..)
      obtain ⟨ms₂, e₂, h₂⟩ := h₁.free
      exact ⟨ms₂, by simp only [MState.lateCommand, e₁, Res.bind_ok, e₂], h₂⟩

theorem earlyCommand {p c} (h : Inv root m₀ R ms st (.opt p c :: H) k) (hu : st.loc.ups ≠ []) :
    ∃ ms', ms.earlyCommand p = .ok ms' ∧
      Inv root m₀ R ms' (st.parentCommand c) (.opt p c :: H) (k + (c.map commandCost).getD 0) := by
  have hp := h.opt_cases
  cases c with
  | none =>
    cases p with
    | none => exact ⟨ms, rfl, h⟩
    | some p => simp at hp
  | some c =>
    cases p with
    | none => simp at hp
    | some p => exact h.saveParent (List.mem_cons_self ..) hu

theorem parentCommand {p c} (h : Inv root m₀ R ms st (.opt p c :: H) k) (hu : st.loc.ups ≠ []) :
    ∃ ms', ms.parentCommand p = .ok ms' ∧
      Inv root m₀ R ms' (st.parentCommand c) H (k + (c.map commandCost).getD 0) := by
  obtain ⟨ms₁, e₁, h₁⟩ := h.earlyCommand hu
  obtain ⟨ms₂, e₂, h₂⟩ := h₁.freeHeld
  refine ⟨ms₂, ?_, h₂⟩
  cases p with
  | none => cases e₁; exact e₂
  | some p =>
    simp only [MState.earlyCommand] at e₁
    simp only [MState.parentCommand, e₁, Res.bind_ok]
    exact e₂

/-! ### The functions of parse_functions.c -/

theorem endGenRequire (h : Inv root m₀ R ms st H k) (b : Bool) :
    ∃ ms', ms.endGenRequire b = .ok ms' ∧ Inv root m₀ R ms' (st.endGenRequire b) H k := by
  have h' := h
  obtain ⟨⟨T, L, hs, hT, hL, hH, ho, hk⟩, hfr, h₁, h₂, h₃⟩ := h'
  obtain ⟨⟨focus, lefts, rights, ups⟩, maps', module', rets'⟩ := st
  simp only at hT hk hfr h₁ h₂ h₃
  cases ups with
  | nil =>
    obtain ⟨n, hn, hp⟩ := hT.noParent
    obtain ⟨ms', e, h'⟩ := h.close .genReq
    refine ⟨ms', ?_, h'⟩
    simp only [MState.endGenRequire, get_eq hn (f := Obj.node?) rfl, Res.bind_ok, hp, e]
  | cons u us =>
    by_cases hu : u.info.data.flavor = .genReq
    · obtain ⟨b₀, hb⟩ := flavor_genReq.1 hu
      obtain ⟨n, a, n', d, m', hn, hp, hn', hf, hd, e, hT', ho', he⟩ :=
        hT.setUnquoted (R := L ++ hs ++ R) b (ho.perm (by pieces)) hb
      have h' : Inv root m₀ R { ms with mem := m' }
          ((⟨⟨focus, lefts, rights, u :: us⟩, maps', module', rets'⟩ : PState).grow
            (.updateParent (PState.setUnquoted b))) H k := by
        refine ⟨⟨T, L, hs, ?_, hL.congr he.left.left, hH.congr he.left.right,
          ho'.perm (by pieces), ?_⟩, hfr.trans he.right, h₁, h₂, h₃⟩
        · simpa [PState.grow, Loc.grow, Loc.updateParent, PState.setUnquoted, hb] using hT'
        · simpa [PState.grow, Loc.grow, Loc.updateParent, PState.setUnquoted, hb, locExceptions,
            hasExceptions] using hk
      obtain ⟨ms', e', h''⟩ := h'.close .genReq
      refine ⟨ms', ?_, h''⟩
      simp only [MState.endGenRequire, get_eq hn (f := Obj.node?) rfl, Res.bind_ok, hp,
        get_eq hn' (f := Obj.node?) rfl, hf, if_true, hd, e, e']
    · obtain ⟨n, a, n', hn, hp, hn', hf⟩ := hT.parentFlavor
      have hsame : PState.setUnquoted b u.info = u.info := by
        simp only [PState.setUnquoted]
        split
        · rename_i hd; exact absurd (flavor_genReq.2 ⟨_, hd⟩) hu
        · rfl
      obtain ⟨ms', e', h'⟩ := h.close .genReq
      refine ⟨ms', ?_, ?_⟩
      · simp only [MState.endGenRequire, get_eq hn (f := Obj.node?) rfl, Res.bind_ok, hp,
          get_eq hn' (f := Obj.node?) rfl, hf, hu, if_false, e']
      · simpa [PState.endGenRequire, PState.grow, Loc.grow, Loc.updateParent, hsame] using h'

theorem packHeader {p a s fl} (h : Inv root m₀ R ms st (.obj p (.header ⟨fl, some a⟩) ::
    .word a s :: H) k) : Inv root m₀ R ms st (.data (some p) (.header ⟨fl, s⟩) :: H) k :=
  h.regroup (is := [_, _]) (is' := [_]) fun ps hp hn => by
    obtain _ | ⟨⟨rfl, hp⟩, _ | ⟨_ | hs, _ | _⟩⟩ := hp
    exact ⟨_, .cons (.header hp rfl (.mk hs) (List.Perm.nodup (by pieces) hn)) .nil, by pieces⟩

theorem insertHeader {a s} (h : Inv root m₀ R ms st (.word a s :: H) k) (fl : HeaderFlavor)
    (line : Nat) :
    ∃ ms', ms.insertHeader a fl line = .ok ms' ∧
      Inv root m₀ R ms' (st.insertHeader s fl line) (.word a s :: H) k := by
  have hw := h.word_at (a := a) (s := s) (by simp)
  obtain ⟨ms', e, h₃⟩ := ((h.token s).malloc (.header ⟨fl, some ms.mem.top⟩)).packHeader.addNext line
  refine ⟨ms', ?_, h₃⟩
  simp only [MState.insertHeader, hw, Res.bind_ok]
  exact e

theorem insertComment (h : Inv root m₀ R ms st H k) (line : Nat) :
    ∃ ms', ms.insertComment line = .ok ms' ∧ Inv root m₀ R ms' (st.insertComment line) H k :=
  (h.noData .comment).addNext line

theorem insertSemicolon (h : Inv root m₀ R ms st H k) (line : Nat) :
    ∃ ms', ms.insertSemicolon line = .ok ms' ∧ Inv root m₀ R ms' (st.insertSemicolon line) H k :=
  (h.noData .semicolon).addNext line

theorem insertM4SimpleMacro {a s} (h : Inv root m₀ R ms st (.word a s :: H) k) (line : Nat) :
    ∃ ms', ms.insertM4SimpleMacro a line = .ok ms' ∧
      Inv root m₀ R ms' (st.insertM4SimpleMacro s line) H k :=
  (h.strData .m4SimpleMacro).addNext line

theorem addString {a s} (f : PlainFlavor) (h : Inv root m₀ R ms st (.word a s :: H) k)
    (line : Nat) :
    ∃ ms', ms.addString f.toFlavor a line = .ok ms' ∧
      Inv root m₀ R ms' (st.statement (.plain f (some s)) line) (.word a s :: H) k := by
  have hw := h.word_at (a := a) (s := s) (by simp)
  obtain ⟨ms', e, h₁⟩ := ((h.token s).strData f).addNext line
  exact ⟨ms', by simp only [MState.addString, hw, Res.bind_ok]; exact e, h₁⟩

theorem declareName (h : Inv root m₀ R ms st H k) (fl : DeclFlavor) (s : Str) :
    ∃ ms', ms.declareName fl s = .ok ms' ∧ Inv root m₀ R ms' (st.declareName fl s) H k := by
  simp only [MState.declareName, PState.declareName, h.isInRequire, Res.bind_ok,
    h.nameIfInTemplate, ← h.maps, ← h.module]
  cases st.loc.isInRequire with
  | true => exact ⟨ms, rfl, h⟩
  | false =>
    cases st.loc.getNameIfInTemplate with
    | some t => exact ⟨_, rfl, h.setMaps' _⟩
    | none =>
      by_cases hs : s.head? = some '$'
      · simp only [hs, if_true]
        exact ⟨ms, rfl, h⟩
      · simp only [hs, if_false]
        exact ⟨_, rfl, h.setMaps' _⟩

theorem packDecl {p a s q l fl} (h : Inv root m₀ R ms st (.obj p (.decl ⟨fl, some a, q⟩) ::
    .word a s :: .names q l :: H) k) :
    Inv root m₀ R ms st (.data (some p) (.decl ⟨fl, s, l⟩) :: H) k :=
  h.regroup (is := [_, _, _]) (is' := [_]) fun ps hp hn => by
    obtain _ | ⟨⟨rfl, hp⟩, _ | ⟨_ | hs, _ | ⟨hl, _ | _⟩⟩⟩ := hp
    exact ⟨_, .cons (.decl (.mk hp rfl hl (.mk hs) (List.Perm.nodup (by pieces) hn))) .nil,
      by pieces⟩

theorem insertDeclaration {a s p l} (h : Inv root m₀ R ms st (.names p l :: .word a s :: H) k)
    (fl : DeclFlavor) (line : Nat) :
    ∃ ms', ms.insertDeclaration fl a p line = .ok ms' ∧
      Inv root m₀ R ms' (st.insertDeclaration fl s l line) (.word a s :: H) k := by
  have hw := h.word_at (a := a) (s := s) (by simp)
  obtain ⟨ms₀, e₀, h₀⟩ := h.declareName fl s
  obtain ⟨ms', e, h₃⟩ := ((h₀.token s).malloc (.decl ⟨fl, some ms₀.mem.top, p⟩)).packDecl.addNext
    line
  refine ⟨ms', ?_, h₃⟩
  simp only [MState.insertDeclaration, hw, Res.bind_ok, e₀]
  exact e

theorem noNames (h : Inv root m₀ R ms st H k) : Inv root m₀ R ms st (.names none [] :: H) k :=
  h.regroup (is := []) (is' := [_]) fun ps hp _ => by
    cases hp
    exact ⟨[] ++ [], .cons .nil .nil, .refl _⟩

end Inv

end Selint
