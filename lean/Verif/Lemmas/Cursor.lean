import Verif.Lemmas.Owning
import Verif.Spec.Tree
/-! # A tree that is being built, in memory -/

namespace Selint

open Spec

/-- The siblings before the node at `cur`, nearest first: `prev` is what `cur->prev` has to
be, `first` the first node of the row. -/
inductive LeftsAt (m : Mem) (up : Option Addr) :
    List Tree → (cur : Addr) → (prev : Option Addr) → (first : Addr) → List Addr → Prop
  | nil {cur : Addr} : LeftsAt m up [] cur none cur []
  | cons {p cur first : Addr} {n : NodeObj} {i : NodeInfo} {ts rest : List Tree}
      {p₁ p₂ p₃ p₄ : List Addr} :
      m.obj p = some (.node n) → n.parent = up → n.next = some cur → n.flavor = i.data.flavor →
      n.lineno = i.lineno → DataAt m n.data i.data p₁ →
      OptStrAt m n.exceptions i.exceptions p₂ → NodesAt m (some p) none n.firstChild ts p₃ →
      LeftsAt m up rest p n.prev first p₄ →
      LeftsAt m up (.mk i ts :: rest) cur (some p) first (p₁ ++ p₂ ++ p₃ ++ p₄ ++ [p])

/-- The nodes that are still open, innermost first: `up` is the innermost one, `first` its
first child, `root` the first node of the tree. -/
inductive SpineAt (m : Mem) :
    List Frame → (up : Option Addr) → (first root : Addr) → List Addr → Prop
  | nil {root : Addr} : SpineAt m [] none root root []
  | cons {a first first' root : Addr} {n : NodeObj} {i : NodeInfo} {lefts : List Tree}
      {ups : List Frame} {p₁ p₂ p₃ p₄ : List Addr} :
      m.obj a = some (.node n) → n.next = none → n.firstChild = some first →
      n.flavor = i.data.flavor → n.lineno = i.lineno → DataAt m n.data i.data p₁ →
      OptStrAt m n.exceptions i.exceptions p₂ → i.data ≠ .plain .tempDef none →
      LeftsAt m n.parent lefts a n.prev first' p₃ → SpineAt m ups n.parent first' root p₄ →
      SpineAt m (⟨lefts, i, []⟩ :: ups) (some a) first root (p₁ ++ p₂ ++ p₃ ++ p₄ ++ [a])

/-- A tree that is being built, with the last node at `cur`. -/
inductive CurAt (m : Mem) (cur : Addr) : Loc → (root : Addr) → List Addr → Prop
  | mk {root first : Addr} {n : NodeObj} {i : NodeInfo} {ts lefts : List Tree}
      {ups : List Frame} {p₁ p₂ p₃ p₄ p₅ : List Addr} :
      m.obj cur = some (.node n) → n.next = none → n.flavor = i.data.flavor →
      n.lineno = i.lineno → DataAt m n.data i.data p₁ →
      OptStrAt m n.exceptions i.exceptions p₂ → NodesAt m (some cur) none n.firstChild ts p₃ →
      LeftsAt m n.parent lefts cur n.prev first p₄ → SpineAt m ups n.parent first root p₅ →
      CurAt m cur ⟨.mk i ts, lefts, [], ups⟩ root (p₁ ++ p₂ ++ p₃ ++ p₄ ++ p₅ ++ [cur])

section
variable {m m' : Mem}

theorem LeftsAt.congr {up l cur prev first ps} (h : LeftsAt m up l cur prev first ps)
    (he : EqOn m m' ps) : LeftsAt m' up l cur prev first ps := by
  induction h with
  | nil => exact .nil
  | cons h hu hn hf hl h₁ h₂ h₃ _ ih =>
    exact .cons (by rw [he _ (by simp)]; exact h) hu hn hf hl (h₁.congr (he.mono (by grind)))
      (h₂.congr (he.mono (by grind))) (h₃.congr (he.mono (by grind))) (ih (he.mono (by grind)))

theorem SpineAt.congr {ups up first root ps} (h : SpineAt m ups up first root ps)
    (he : EqOn m m' ps) : SpineAt m' ups up first root ps := by
  induction h with
  | nil => exact .nil
  | cons h hn hc hf hl h₁ h₂ ht h₃ _ ih =>
    exact .cons (by rw [he _ (by simp)]; exact h) hn hc hf hl (h₁.congr (he.mono (by grind)))
      (h₂.congr (he.mono (by grind))) ht (h₃.congr (he.mono (by grind)))
      (ih (he.mono (by grind)))

theorem CurAt.congr {cur l root ps} (h : CurAt m cur l root ps) (he : EqOn m m' ps) :
    CurAt m' cur l root ps := by
  cases h with
  | mk h hn hf hl h₁ h₂ h₃ h₄ h₅ =>
    exact .mk (by rw [he _ (by simp)]; exact h) hn hf hl (h₁.congr (he.mono (by grind)))
      (h₂.congr (he.mono (by grind))) (h₃.congr (he.mono (by grind)))
      (h₄.congr (he.mono (by grind))) (h₅.congr (he.mono (by grind)))

/-- A row of siblings is closed. -/
theorem LeftsAt.close {up l cur prev first ps} (h : LeftsAt m up l cur prev first ps) :
    ∀ {ts qs}, NodesAt m up prev (some cur) ts qs → (ps ++ qs).Nodup →
      ∃ rs, NodesAt m up none (some first) (l.reverse ++ ts) rs ∧ rs.Perm (ps ++ qs) := by
  induction h with
  | nil => intro ts qs hq _; exact ⟨qs, by simpa using hq, by simp⟩
  | @cons p cur first n i ts rest p₁ p₂ p₃ p₄ h hu hn hf hl h₁ h₂ h₃ h₄ ih =>
    intro ts' qs hq hnd
    have hq' : NodesAt m up n.prev (some p) (.mk i ts :: ts') (p₁ ++ p₂ ++ p₃ ++ qs ++ [p]) := by
      refine .cons h hu rfl hf hl h₁ h₂ h₃ (by rw [hn]; exact hq) ?_
      refine List.Perm.nodup (l := (p₁ ++ p₂ ++ p₃ ++ [p]) ++ qs) (by pieces) ?_
      exact hnd.sublist (by
        refine List.Sublist.append ?_ (List.Sublist.refl _)
        refine List.Sublist.append ?_ (List.Sublist.refl _)
        exact List.sublist_append_left _ _)
    obtain ⟨rs, hr, hp⟩ := ih hq' (List.Perm.nodup (by pieces) hnd)
    exact ⟨rs, by simpa using hr, hp.trans (by pieces)⟩

/-- The node under the cursor with everything below it. -/
theorem CurAt.node {cur l root ps} (h : CurAt m cur l root ps) (hnd : ps.Nodup) :
    ∃ n p₁ p₂ p₃ first, m.obj cur = some (.node n) ∧ l.rights = [] ∧
      NodesAt m n.parent n.prev (some cur) [l.focus] p₁ ∧
      LeftsAt m n.parent l.lefts cur n.prev first p₂ ∧ SpineAt m l.ups n.parent first root p₃ ∧
      (p₁ ++ p₂ ++ p₃).Perm ps := by
  cases h with
  | @mk _ first n i ts lefts ups p₁ p₂ p₃ p₄ p₅ h hn hf hl h₁ h₂ h₃ h₄ h₅ =>
    refine ⟨n, p₁ ++ p₂ ++ p₃ ++ [] ++ [cur], p₄, p₅, first, h, rfl, ?_, h₄, h₅, by pieces⟩
    refine .cons h rfl rfl hf hl h₁ h₂ h₃ (by rw [hn]; exact .nil) ?_
    have hnd' : ((p₁ ++ p₂ ++ p₃ ++ [] ++ [cur]) ++ (p₄ ++ p₅)).Nodup :=
      List.Perm.nodup (by pieces) hnd
    exact (List.nodup_append.1 hnd').1

/-- Going up one level. -/
theorem CurAt.up {cur l root ps p} (h : CurAt m cur l root ps) (hp : l.parent? = some p)
    (hnd : ps.Nodup) :
    ∃ n a ps', m.obj cur = some (.node n) ∧ n.parent = some a ∧ CurAt m a p root ps' ∧
      ps'.Perm ps := by
  obtain ⟨n, p₁, p₂, p₃, first, hn, hr, hN, hL, hS, hperm⟩ := h.node hnd
  obtain ⟨focus, lefts, rights, ups⟩ := l
  simp only at hr hN hL hS
  subst hr
  cases ups with
  | nil => simp [Loc.parent?] at hp
  | cons u us =>
    simp only [Loc.parent?, Option.some.injEq] at hp
    subst hp
    have hnd' := hperm.nodup_iff.2 hnd
    generalize hup : n.parent = up at hS
    cases hS with
    | @cons a _ first' _ n' i lefts' ups p₁' p₂' p₃' p₄' ha hnx hfc hf hl h₁ h₂ ht h₃ h₄ =>
      rw [hup] at hL hN
      obtain ⟨rs, hrs, hp⟩ := hL.close hN (by
        have : ((p₂ ++ p₁) ++ (p₁' ++ p₂' ++ p₃' ++ p₄' ++ [a])).Nodup :=
          List.Perm.nodup (by pieces) hnd'
        exact (List.nodup_append.1 this).1)
      refine ⟨n, a, _, hn, hup, .mk ha hnx hf hl h₁ h₂ (by rw [hfc]; exact hrs) h₃ h₄, ?_⟩
      refine List.Perm.trans ?_ hperm
      refine perm_count fun x => ?_
      have := hp.count_eq x
      simp only [List.count_append] at this ⊢
      omega

/-- The whole tree. -/
theorem CurAt.forest (ups : List Frame) : ∀ {cur focus lefts rights root ps},
    CurAt m cur ⟨focus, lefts, rights, ups⟩ root ps → ps.Nodup →
    ∃ rs, NodesAt m none none (some root) (Loc.unzip ⟨focus, lefts, rights, ups⟩) rs ∧
      rs.Perm ps := by
  induction ups with
  | nil =>
    intro cur focus lefts rights root ps h hnd
    obtain ⟨n, p₁, p₂, p₃, first, hn, hr, hN, hL, hS, hperm⟩ := h.node hnd
    simp only at hr hN hL hS
    subst hr
    generalize hup : n.parent = up at hS
    cases hS
    rw [hup] at hL hN
    have hnd' := hperm.nodup_iff.2 hnd
    obtain ⟨rs, hrs, hp⟩ := hL.close hN (List.Perm.nodup (l := p₁ ++ p₂ ++ []) (by pieces) hnd')
    exact ⟨rs, by simpa [Loc.unzip, Loc.siblings, Loc.plug] using hrs, hp.trans (List.Perm.trans (by pieces) hperm)⟩
  | cons u us ih =>
    intro cur focus lefts rights root ps h hnd
    obtain ⟨n, a, ps', _, _, hc, hp⟩ := h.up (p := _) rfl hnd
    obtain ⟨rs, hrs, hp'⟩ := ih hc (hp.nodup_iff.2 hnd)
    exact ⟨rs, by simpa [Loc.unzip, Loc.siblings, Loc.plug] using hrs, hp'.trans hp⟩

end

/-! ## Looking at the parents -/

theorem flavor_tempDef {d : NodeData} : d.flavor = .tempDef ↔ ∃ s, d = .plain .tempDef s := by
  cases d with
  | attr d => cases hd : d.flavor <;> simp [NodeData.flavor, hd]
  | plain f s => cases f <;> simp [NodeData.flavor, PlainFlavor.toFlavor]
  | _ => simp [NodeData.flavor]

theorem flavor_interfaceDef {d : NodeData} :
    d.flavor = .interfaceDef ↔ ∃ s, d = .plain .interfaceDef s := by
  cases d with
  | attr d => cases hd : d.flavor <;> simp [NodeData.flavor, hd]
  | plain f s => cases f <;> simp [NodeData.flavor, PlainFlavor.toFlavor]
  | _ => simp [NodeData.flavor]

theorem flavor_genReq {d : NodeData} : d.flavor = .genReq ↔ ∃ u, d = .genReq u := by
  cases d with
  | attr d => cases hd : d.flavor <;> simp [NodeData.flavor, hd]
  | plain f s => cases f <;> simp [NodeData.flavor, PlainFlavor.toFlavor]
  | _ => simp [NodeData.flavor]

theorem optStr_spec {m p s ps} (h : OptStrAt m p s ps) : m.optStr p = .ok s := by
  cases h with
  | none => rfl
  | some h => simp only [Mem.optStr, get_eq h (f := Obj.str?) rfl, Res.bind_ok]

theorem SpineAt.length_le {m ups up first root ps} (h : SpineAt m ups up first root ps) :
    ups.length ≤ ps.length := by
  induction h with
  | nil => simp
  | cons _ _ _ _ _ _ _ _ _ _ ih => simp; omega

theorem SpineAt.isInRequire {m ups up first root ps} (h : SpineAt m ups up first root ps) :
    ∀ {cur n fuel}, m.obj cur = some (.node n) → n.parent = up → ups.length < fuel →
      Mem.isInRequire fuel m cur =
        .ok (ups.any fun f => f.info.flavor == .genReq || f.info.flavor == .require) := by
  induction h with
  | nil =>
    intro cur n fuel hn hp hf
    obtain _ | fuel := fuel
    · simp at hf
    simp only [Mem.isInRequire, get_eq hn (f := Obj.node?) rfl, Res.bind_ok, hp, List.any_nil]
  | cons h hnx hc hfl hl h₁ h₂ ht h₃ h₄ ih =>
    intro cur n fuel hn hp hf
    obtain _ | fuel := fuel
    · simp at hf
    simp only [Mem.isInRequire, get_eq hn (f := Obj.node?) rfl, Res.bind_ok, hp,
      get_eq h (f := Obj.node?) rfl, List.any_cons, NodeInfo.flavor, ← hfl]
    split
    · rename_i hx
      rcases hx with hx | hx <;> simp [hx]
    · rename_i hx
      simp only [not_or] at hx
      rw [ih h rfl (by simp at hf; omega)]
      simp [hx.1, hx.2, NodeInfo.flavor]

theorem SpineAt.nameIfInTemplate {m ups up first root ps} (h : SpineAt m ups up first root ps) :
    ∀ {cur n fuel}, m.obj cur = some (.node n) → n.parent = up → ups.length < fuel →
      Mem.nameIfInTemplate fuel m cur =
        .ok (ups.findSome? fun f => match f.info.data with
          | .plain .tempDef s => s
          | _ => none) := by
  induction h with
  | nil =>
    intro cur n fuel hn hp hf
    obtain _ | fuel := fuel
    · simp at hf
    simp only [Mem.nameIfInTemplate, get_eq hn (f := Obj.node?) rfl, Res.bind_ok, hp,
      List.findSome?_nil]
  | @cons a _ _ _ n' i _ _ _ _ _ _ h hnx hc hfl hl h₁ h₂ ht h₃ h₄ ih =>
    intro cur n fuel hn hp hf
    obtain _ | fuel := fuel
    · simp at hf
    simp only [Mem.nameIfInTemplate, get_eq hn (f := Obj.node?) rfl, Res.bind_ok, hp,
      get_eq h (f := Obj.node?) rfl, List.findSome?_cons]
    split
    · rename_i hx
      rw [hx] at hfl
      obtain ⟨s, hs⟩ := flavor_tempDef.1 hfl.symm
      rw [hs] at h₁ ht
      generalize n'.data = dp at h₁
      cases h₁ with
      | plain h₁ =>
        cases s with
        | none => exact absurd rfl ht
        | some s => rw [optStr_spec h₁, hs]
    · rename_i hx
      rw [ih h rfl (by simp at hf; omega)]
      have : (match i.data with
          | .plain .tempDef s => s
          | _ => none) = none := by
        split
        · rename_i hd
          rw [hd] at hfl
          exact absurd hfl hx
        · rfl
      rw [this]

theorem CurAt.length_le {m cur l root ps R} (h : CurAt m cur l root ps) (ho : Owns m (ps ++ R)) :
    l.ups.length < m.top := by
  have hl := ho.length_le
  cases h with
  | mk h hn hf hl' h₁ h₂ h₃ h₄ h₅ =>
    have := h₅.length_le
    simp only [List.length_append, List.length_cons, List.length_nil] at hl
    simp only
    omega

theorem CurAt.isInRequire {m cur l root ps R} (h : CurAt m cur l root ps)
    (ho : Owns m (ps ++ R)) : Mem.isInRequire m.top m cur = .ok l.isInRequire := by
  have hl := h.length_le ho
  cases h with
  | mk h hn hf hl' h₁ h₂ h₃ h₄ h₅ => exact h₅.isInRequire h rfl hl

theorem CurAt.nameIfInTemplate {m cur l root ps R} (h : CurAt m cur l root ps)
    (ho : Owns m (ps ++ R)) : Mem.nameIfInTemplate m.top m cur = .ok l.getNameIfInTemplate := by
  have hl := h.length_le ho
  cases h with
  | mk h hn hf hl' h₁ h₂ h₃ h₄ h₅ => exact h₅.nameIfInTemplate h rfl hl

theorem CurAt.parentInterface {m cur root ps} {st : PState} (h : CurAt m cur st.loc root ps) :
    m.parentInterface cur = .ok st.parentInterface := by
  obtain ⟨loc, maps, module, rets⟩ := st
  simp only at h
  cases h with
  | @mk _ first n i ts lefts ups p₁ p₂ p₃ p₄ p₅ h hn hf hl' h₁ h₂ h₃ h₄ h₅ =>
    simp only [Mem.parentInterface, get_eq h (f := Obj.node?) rfl, Res.bind_ok,
      PState.parentInterface, Loc.parent?]
    generalize hup : n.parent = up at h₅
    cases h₅ with
    | nil => simp
    | @cons _ _ _ _ n' _ _ _ _ _ _ _ h' hnx hc hfl hl h₁ h₂ ht h₃ h₄ =>
      simp only [get_eq h' (f := Obj.node?) rfl, Res.bind_ok, Loc.data, Tree.info]
      split
      · rename_i hx
        rw [hx] at hfl
        obtain ⟨s, hs⟩ := flavor_interfaceDef.1 hfl.symm
        rw [hs] at h₁
        generalize n'.data = dp at h₁
        cases h₁ with
        | plain h₁ => rw [optStr_spec h₁, hs]
      · rename_i hx
        split
        · rename_i hd
          rw [hd] at hfl
          exact absurd hfl hx
        · rfl

/-! ## Adding nodes -/

theorem eqOn_link {m : Mem} {o o' : Obj} {p : Addr} {ps R : List Addr} (ho : Owns m R)
    (hs : ∀ q ∈ ps, q ∈ R) (hp : p ∉ ps) : EqOn m (wrote (m.malloc o).2 p o') ps := by
  refine EqOn.trans ((eqOn_malloc ho o).mono hs) (eqOn_wrote hp o')

/-- A node is added after the node under the cursor. -/
theorem CurAt.addNext {m cur l root ps d data qs R} (line : Nat) (h : CurAt m cur l root ps)
    (hd : DataAt m d data qs) (ho : Owns m (ps ++ qs ++ R)) :
    ∃ n m' ps', m.insertNext cur data.flavor d line = .ok m' ∧ m'.obj cur = some (.node n) ∧
      n.next = some m.top ∧ CurAt m' m.top (l.addNext ⟨data, none, line⟩) root ps' ∧
      Owns m' (ps' ++ R) ∧ EqOn m m' R := by
  cases h with
  | @mk _ first n i ts lefts ups p₁ p₂ p₃ p₄ p₅ h hn hf hl h₁ h₂ h₃ h₄ h₅ =>
    have hnd := ho.nodup
    have hlt := ho.below cur (by simp)
    have hcur : ∀ {xs : List Addr}, (∀ q ∈ xs, q ∈ p₁ ++ p₂ ++ p₃ ++ p₄ ++ p₅ ++ qs ++ R) →
        EqOn m (wrote (m.malloc (.node ⟨n.parent, none, some cur, none, data.flavor, d, none,
          line⟩)).2 cur (.node { n with next := some m.top })) xs := by
      intro xs hxs
      refine eqOn_link ho (fun q hq => ?_) (fun hq => ?_)
      · have := hxs q hq; grind
      · have := hxs _ hq; grind
    refine ⟨{ n with next := some m.top }, _, (qs ++ [] ++ [] ++ (p₁ ++ p₂ ++ p₃ ++ p₄ ++ [cur]) ++
      p₅ ++ [m.top]), ?_, wrote_self _ _ _, rfl, ?_, ?_, hcur (by grind)⟩
    · simp only [Mem.insertNext, get_eq h (f := Obj.node?) rfl, Res.bind_ok]
      refine write_wrote ?_
      simp [malloc_obj, Nat.ne_of_lt hlt, h]
    · refine .mk (first := first) (n := ⟨n.parent, none, some cur, none, data.flavor, d, none, line⟩) ?_
        rfl rfl rfl (hd.congr (hcur (by grind))) .none .nil
        (.cons (n := { n with next := some m.top }) (wrote_self _ _ _) rfl rfl hf hl
          (h₁.congr (hcur (by grind))) (h₂.congr (hcur (by grind)))
          (h₃.congr (hcur (by grind))) (h₄.congr (hcur (by grind))))
        (h₅.congr (hcur (by grind)))
      rw [wrote_other _ _ (by omega), malloc_self]
    · refine ((ho.malloc _).wrote (by simp) _).perm ?_
      pieces

/-- A first child is added to the node under the cursor, and the cursor moves there. -/
theorem CurAt.enter {m cur i lefts ups root ps R} (line : Nat)
    (h : CurAt m cur ⟨.mk i [], lefts, [], ups⟩ root ps) (ht : i.data ≠ .plain .tempDef none)
    (ho : Owns m (ps ++ R)) :
    ∃ n m' ps', m.insertChild cur .startBlock none line = .ok m' ∧ m'.obj cur = some (.node n) ∧
      n.firstChild = some m.top ∧
      CurAt m' m.top ⟨.mk ⟨.plain .startBlock none, none, line⟩ [], [], [], ⟨lefts, i, []⟩ :: ups⟩
        root ps' ∧ Owns m' (ps' ++ R) ∧ EqOn m m' R := by
  cases h with
  | @mk _ first n i ts lefts ups p₁ p₂ p₃ p₄ p₅ h hn hf hl h₁ h₂ h₃ h₄ h₅ =>
    generalize hfc : n.firstChild = c at h₃
    cases h₃
    have hnd := ho.nodup
    have hlt := ho.below cur (by simp)
    have hcur : ∀ {xs : List Addr}, (∀ q ∈ xs, q ∈ p₁ ++ p₂ ++ p₄ ++ p₅ ++ R) →
        EqOn m (wrote (m.malloc (.node ⟨some cur, none, none, none, .startBlock, none, none,
          line⟩)).2 cur (.node { n with firstChild := some m.top })) xs := by
      intro xs hxs
      refine eqOn_link ho (fun q hq => ?_) (fun hq => ?_)
      · have := hxs q hq; grind
      · have := hxs _ hq; grind
    refine ⟨{ n with firstChild := some m.top }, _,
      ([] ++ [] ++ [] ++ [] ++ (p₁ ++ p₂ ++ p₄ ++ p₅ ++ [cur]) ++ [m.top]), ?_, wrote_self _ _ _,
      rfl, ?_, ?_, hcur (by grind)⟩
    · simp only [Mem.insertChild, get_eq h (f := Obj.node?) rfl, Res.bind_ok, hfc]
      refine write_wrote ?_
      simp [malloc_obj, Nat.ne_of_lt hlt, h]
    · refine .mk (first := m.top)
        (n := ⟨some cur, none, none, none, .startBlock, none, none, line⟩) ?_
        rfl rfl rfl (.plain .none) .none .nil .nil
        (.cons (n := { n with firstChild := some m.top }) (wrote_self _ _ _) hn rfl hf hl
          (h₁.congr (hcur (by grind))) (h₂.congr (hcur (by grind))) ht
          (h₄.congr (hcur (by grind))) (h₅.congr (hcur (by grind))))
      rw [wrote_other _ _ (by omega), malloc_self]
    · refine ((ho.malloc _).wrote (by simp) _).perm ?_
      pieces

theorem lastNode_spec {m up left p ts ps} (h : NodesAt m up left p ts ps) :
    ∀ {c fuel}, p = some c → ts.length ≤ fuel →
      ∃ last n, Mem.lastNode fuel m c = .ok last ∧ m.obj last = some (.node n) ∧ last ∈ ps ∧
        ∀ {m' q rest qs}, (∀ x ∈ ps, x ≠ last → m'.obj x = m.obj x) →
          m'.obj last = some (.node { n with next := some q }) →
          NodesAt m' up (some last) (some q) rest qs → (ps ++ qs).Nodup →
          ∃ rs, NodesAt m' up left (some c) (ts ++ rest) rs ∧ rs.Perm (ps ++ qs) := by
  induction h with
  | nil => intro c fuel hc; cases hc
  | @cons up left p n i ts rest p₁ p₂ p₃ p₄ h hu hl hfl hno h₁ h₂ h₃ h₄ hn ih₃ ih₄ =>
    intro c fuel hc hf
    cases hc
    obtain _ | fuel := fuel
    · simp at hf
    simp only [List.length_cons, Nat.add_le_add_iff_right] at hf
    rw [Mem.lastNode, get_eq h (f := Obj.node?) rfl, Res.bind_ok]
    cases hnx : n.next with
    | none =>
      refine ⟨p, n, rfl, h, by simp, ?_⟩
      intro m' q rest' qs he hp hq hnd
      rw [hnx] at h₄
      cases h₄
      have heq : ∀ {xs : List Addr}, (∀ y ∈ xs, y ∈ p₁ ++ p₂ ++ p₃) → EqOn m m' xs := by
        intro xs hxs y hy
        have := hxs y hy
        exact he y (by grind) (by rintro rfl; grind)
      refine ⟨p₁ ++ p₂ ++ p₃ ++ qs ++ [p], .cons (n := { n with next := some q }) hp hu hl hfl hno
        (h₁.congr (heq (by grind))) (h₂.congr (heq (by grind))) (h₃.congr (heq (by grind))) hq ?_,
        by pieces⟩
      exact List.Perm.nodup (by pieces) hnd
    | some q₀ =>
      obtain ⟨last, n', e, hlast, hmem, hrest⟩ := ih₄ hnx hf
      refine ⟨last, n', e, hlast, by simp [hmem], ?_⟩
      intro m' q rest' qs he hp hq hnd
      have hpl : p ≠ last := by rintro rfl; grind
      obtain ⟨rs, hrs, hperm⟩ := hrest (fun x hx hxl => he x (by simp [hx]) hxl) hp hq
        (by
          have : ((p₁ ++ p₂ ++ p₃ ++ [p]) ++ (p₄ ++ qs)).Nodup := List.Perm.nodup (by pieces) hnd
          exact (List.nodup_append.1 this).2.1)
      have heq : ∀ {xs : List Addr}, (∀ y ∈ xs, y ∈ p₁ ++ p₂ ++ p₃) → EqOn m m' xs := by
        intro xs hxs y hy
        have := hxs y hy
        exact he y (by grind) (by rintro rfl; grind)
      refine ⟨p₁ ++ p₂ ++ p₃ ++ rs ++ [p], .cons (n := n) (by rw [he p (by simp) hpl]; exact h) hu
        hl hfl hno (h₁.congr (heq (by grind))) (h₂.congr (heq (by grind)))
        (h₃.congr (heq (by grind))) (by rw [hnx]; exact hrs) ?_, ?_⟩
      · refine List.Perm.nodup ?_ hnd
        refine perm_count fun x => ?_
        have := hperm.count_eq x
        simp only [List.count_append] at this ⊢
        omega
      · refine perm_count fun x => ?_
        have := hperm.count_eq x
        simp only [List.count_append] at this ⊢
        omega

theorem Spec.NodesAt.length_le {m up left p ts ps} (h : NodesAt m up left p ts ps) :
    ts.length ≤ ps.length := by
  induction h with
  | nil => simp
  | cons => simp; omega

/-- A child is added below the node under the cursor. -/
theorem CurAt.addChild {m cur l root ps d data qs R} (line : Nat) (h : CurAt m cur l root ps)
    (hd : DataAt m d data qs) (ho : Owns m (ps ++ qs ++ R)) :
    ∃ m' ps', m.insertChild cur data.flavor d line = .ok m' ∧
      CurAt m' cur (l.addChild ⟨data, none, line⟩) root ps' ∧
      Owns m' (ps' ++ R) ∧ EqOn m m' R := by
  cases h with
  | @mk _ first n i ts lefts ups p₁ p₂ p₃ p₄ p₅ h hn hf hl h₁ h₂ h₃ h₄ h₅ =>
    have hnd := ho.nodup
    have hlen := ho.length_le
    have hlt := ho.below cur (by simp)
    cases hfc : n.firstChild with
    | none =>
      rw [hfc] at h₃
      cases h₃
      have hcur : ∀ {xs : List Addr}, (∀ q ∈ xs, q ∈ p₁ ++ p₂ ++ p₄ ++ p₅ ++ qs ++ R) →
          EqOn m (wrote (m.malloc (.node ⟨some cur, none, none, none, data.flavor, d, none,
            line⟩)).2 cur (.node { n with firstChild := some m.top })) xs := by
        intro xs hxs
        refine eqOn_link ho (fun q hq => ?_) (fun hq => ?_)
        · have := hxs q hq; grind
        · have := hxs _ hq; grind
      refine ⟨_, p₁ ++ p₂ ++ (qs ++ [] ++ [] ++ [] ++ [m.top]) ++ p₄ ++ p₅ ++ [cur], ?_, ?_, ?_,
        hcur (by grind)⟩
      · simp only [Mem.insertChild, get_eq h (f := Obj.node?) rfl, Res.bind_ok, hfc]
        refine write_wrote ?_
        simp [malloc_obj, Nat.ne_of_lt hlt, h]
      · refine .mk (first := first) (n := { n with firstChild := some m.top }) (wrote_self _ _ _)
          hn hf hl (h₁.congr (hcur (by grind))) (h₂.congr (hcur (by grind)))
          (.cons (n := ⟨some cur, none, none, none, data.flavor, d, none, line⟩)
            (i := ⟨data, none, line⟩) ?_ rfl rfl rfl rfl
            (hd.congr (hcur (by grind))) .none .nil .nil ?_)
          (h₄.congr (hcur (by grind))) (h₅.congr (hcur (by grind)))
        · rw [wrote_other _ _ (by omega), malloc_self]
        · have h' : (qs ++ [m.top] ++ (p₁ ++ p₂ ++ p₄ ++ p₅ ++ [cur] ++ R)).Nodup :=
            List.Perm.nodup (by pieces) (ho.malloc .raw).nodup
          simpa using (List.nodup_append.1 h').1
      · refine ((ho.malloc _).wrote (by simp) _).perm ?_
        pieces
    | some c =>
      rw [hfc] at h₃
      have hl₃ := h₃.length_le
      simp only [List.length_append] at hlen
      obtain ⟨last, k, e, hlast, hmem, hrest⟩ := lastNode_spec h₃ rfl (fuel := m.top) (by omega)
      have hlt' := ho.below last (by simp [hmem])
      have hcur : ∀ {xs : List Addr},
          (∀ q ∈ xs, q ∈ p₁ ++ p₂ ++ p₄ ++ p₅ ++ [cur] ++ qs ++ R) →
          EqOn m (wrote (m.malloc (.node ⟨some cur, none, some last, none, data.flavor, d, none,
            line⟩)).2 last (.node { k with next := some m.top })) xs := by
        intro xs hxs
        refine eqOn_link ho (fun q hq => ?_) (fun hq => ?_)
        · have := hxs q hq; grind
        · have := hxs _ hq; grind
      have hnew : NodesAt (wrote (m.malloc (.node ⟨some cur, none, some last, none, data.flavor,
          d, none, line⟩)).2 last (.node { k with next := some m.top })) (some cur) (some last)
          (some m.top) [.mk ⟨data, none, line⟩ []] (qs ++ [] ++ [] ++ [] ++ [m.top]) := by
        refine .cons (n := ⟨some cur, none, some last, none, data.flavor, d, none, line⟩)
            (i := ⟨data, none, line⟩) ?_ rfl rfl rfl rfl
            (hd.congr (hcur (by grind))) .none .nil .nil ?_
        · rw [wrote_other _ _ (by omega), malloc_self]
        · have h' : (qs ++ [m.top] ++ (p₁ ++ p₂ ++ p₃ ++ p₄ ++ p₅ ++ [cur] ++ R)).Nodup :=
            List.Perm.nodup (by pieces) (ho.malloc .raw).nodup
          simpa using (List.nodup_append.1 h').1
      have hnd' : (p₃ ++ (qs ++ [] ++ [] ++ [] ++ [m.top])).Nodup := by
        have h' : ((p₃ ++ (qs ++ [] ++ [] ++ [] ++ [m.top])) ++
            (p₁ ++ p₂ ++ p₄ ++ p₅ ++ [cur] ++ R)).Nodup :=
          List.Perm.nodup (by pieces) (ho.malloc .raw).nodup
        exact (List.nodup_append.1 h').1
      obtain ⟨rs, hrs, hperm⟩ := hrest (m' := wrote (m.malloc (.node ⟨some cur, none, some last,
          none, data.flavor, d, none, line⟩)).2 last (.node { k with next := some m.top }))
        (q := m.top) (by
          intro x hx hxl
          rw [wrote_other _ _ hxl]
          exact eqOn_malloc ho _ x (by simp [hx])) (wrote_self _ _ _) hnew hnd'
      refine ⟨_, p₁ ++ p₂ ++ rs ++ p₄ ++ p₅ ++ [cur], ?_, ?_, ?_, hcur (by grind)⟩
      · simp only [Mem.insertChild, get_eq h (f := Obj.node?) rfl, Res.bind_ok, hfc, e,
          get_eq hlast (f := Obj.node?) rfl]
        refine write_wrote ?_
        simp [malloc_obj, Nat.ne_of_lt hlt', hlast]
      · refine .mk (first := first) (n := n) ?_
          hn hf hl (h₁.congr (hcur (by grind))) (h₂.congr (hcur (by grind)))
          (by rw [hfc]; exact hrs)
          (h₄.congr (hcur (by grind))) (h₅.congr (hcur (by grind)))
        rw [hcur (xs := [cur]) (by grind) cur (by simp), h]
      · refine ((ho.malloc _).wrote (by simp [hmem]) _).perm ?_
        refine perm_count fun x => ?_
        have := hperm.count_eq x
        simp only [List.count_append, List.count_nil] at this ⊢
        omega

/-! ## Changing nodes -/

theorem Spec.StringsAt.congr {m m' : Mem} {L : List Addr} (h : StringsAt m L) (he : EqOn m m' L) :
    StringsAt m' L := fun q hq => by
  obtain ⟨s, hs⟩ := h q hq
  exact ⟨s, by rw [he q hq]; exact hs⟩

theorem Spec.OptStrAt.strings {m p o qs} (h : OptStrAt m p o qs) :
    StringsAt m qs ∧ qs.length = if o.isSome then 1 else 0 := by
  cases h with
  | none => exact ⟨by simp [StringsAt], rfl⟩
  | some h => exact ⟨by simp [StringsAt, h], rfl⟩

/-- New exceptions for the node under the cursor; the old string is lost. -/
theorem CurAt.setExceptions {m cur l root ps R} (e : Str) (h : CurAt m cur l root ps)
    (ho : Owns m (ps ++ R)) :
    ∃ n m' ps' lost, m.obj cur = some (.node n) ∧
      (m.malloc (.bytes e)).2.write cur (.node { n with exceptions := some m.top }) = .ok m' ∧
      CurAt m' cur (l.update fun i => { i with exceptions := some e }) root ps' ∧
      StringsAt m' lost ∧ lost.length = hasExceptions l.focus.info ∧
      Owns m' (ps' ++ lost ++ R) ∧ EqOn m m' R := by
  cases h with
  | @mk _ first n i ts lefts ups p₁ p₂ p₃ p₄ p₅ h hn hf hl h₁ h₂ h₃ h₄ h₅ =>
    have hnd := ho.nodup
    have hlt := ho.below cur (by simp)
    obtain ⟨hs, hlen⟩ := h₂.strings
    have hcur : ∀ {xs : List Addr}, (∀ q ∈ xs, q ∈ p₁ ++ p₂ ++ p₃ ++ p₄ ++ p₅ ++ R) →
        EqOn m (wrote (m.malloc (.bytes e)).2 cur (.node { n with exceptions := some m.top })) xs := by
      intro xs hxs
      refine eqOn_link ho (fun q hq => ?_) (fun hq => ?_)
      · have := hxs q hq; grind
      · have := hxs _ hq; grind
    refine ⟨n, _, p₁ ++ [m.top] ++ p₃ ++ p₄ ++ p₅ ++ [cur], p₂, h, write_wrote ?_, ?_,
      hs.congr (hcur (by grind)), hlen, ?_, hcur (by grind)⟩
    · simp [malloc_obj, Nat.ne_of_lt hlt, h]
    · refine .mk (first := first) (i := { i with exceptions := some e })
        (n := { n with exceptions := some m.top }) (wrote_self _ _ _) hn hf hl
        (h₁.congr (hcur (by grind))) (.some ?_) (h₃.congr (hcur (by grind)))
        (h₄.congr (hcur (by grind))) (h₅.congr (hcur (by grind)))
      rw [wrote_other _ _ (by omega), malloc_self]
    · refine ((ho.malloc _).wrote (by simp) _).perm ?_
      pieces

/-- New exceptions for the parent of the node under the cursor. -/
theorem CurAt.setParentExceptions {m cur focus lefts rights u us root ps R} (e : Str)
    (h : CurAt m cur ⟨focus, lefts, rights, u :: us⟩ root ps) (ho : Owns m (ps ++ R)) :
    ∃ n a k m' ps' lost, m.obj cur = some (.node n) ∧ n.parent = some a ∧
      m.obj a = some (.node k) ∧
      (m.malloc (.bytes e)).2.write a (.node { k with exceptions := some m.top }) = .ok m' ∧
      CurAt m' cur ⟨focus, lefts, rights,
        { u with info := { u.info with exceptions := some e } } :: us⟩ root ps' ∧
      StringsAt m' lost ∧ lost.length = hasExceptions u.info ∧
      Owns m' (ps' ++ lost ++ R) ∧ EqOn m m' R := by
  cases h with
  | @mk _ first n i ts lefts ups p₁ p₂ p₃ p₄ p₅ h hn hf hl h₁ h₂ h₃ h₄ h₅ =>
    generalize hup : n.parent = up at h₅
    cases h₅ with
    | @cons a _ first' _ k j lefts' _ q₁ q₂ q₃ q₄ g gn gc gf gl g₁ g₂ gt g₃ g₄ =>
      have hnd := ho.nodup
      have hlt := ho.below a (by simp)
      obtain ⟨hs, hlen⟩ := g₂.strings
      have hcur : ∀ {xs : List Addr},
          (∀ q ∈ xs, q ∈ p₁ ++ p₂ ++ p₃ ++ p₄ ++ [cur] ++ q₁ ++ q₂ ++ q₃ ++ q₄ ++ R) →
          EqOn m (wrote (m.malloc (.bytes e)).2 a (.node { k with exceptions := some m.top })) xs := by
        intro xs hxs
        refine eqOn_link ho (fun q hq => ?_) (fun hq => ?_)
        · have := hxs q hq
          simp only [List.mem_append, List.mem_singleton] at this ⊢
          grind
        · exact (List.nodup_cons.1 (List.Perm.nodup (by pieces) hnd :
            (a :: (p₁ ++ p₂ ++ p₃ ++ p₄ ++ [cur] ++ q₁ ++ q₂ ++ q₃ ++ q₄ ++ R)).Nodup)).1
            (hxs _ hq)
      refine ⟨n, a, k, _, p₁ ++ p₂ ++ p₃ ++ p₄ ++ (q₁ ++ [m.top] ++ q₃ ++ q₄ ++ [a]) ++ [cur], q₂,
        h, hup, g, write_wrote ?_, ?_, hs.congr (hcur (by simp +contextual)), hlen, ?_, hcur (by simp +contextual)⟩
      · simp [malloc_obj, Nat.ne_of_lt hlt, g]
      · rw [hup] at h₄
        refine .mk (first := first) (n := n) ?_ hn hf hl
          (h₁.congr (hcur (by simp +contextual))) (h₂.congr (hcur (by simp +contextual))) (h₃.congr (hcur (by simp +contextual)))
          (by rw [hup]; exact h₄.congr (hcur (by simp +contextual)))
          (by
            rw [hup]
            refine .cons (i := { j with exceptions := some e })
              (n := { k with exceptions := some m.top }) (wrote_self _ _ _) gn gc gf gl
              (g₁.congr (hcur (by simp +contextual))) (.some ?_) gt (g₃.congr (hcur (by simp +contextual)))
              (g₄.congr (hcur (by simp +contextual)))
            rw [wrote_other _ _ (by omega), malloc_self])
        rw [hcur (xs := [cur]) (by simp) cur (by simp), h]
      · refine ((ho.malloc _).wrote (by simp) _).perm ?_
        pieces

/-- The flag of the enclosing `gen_require` block is stored. -/
theorem CurAt.setUnquoted {m cur focus lefts rights u us root ps R b} (b' : Bool)
    (h : CurAt m cur ⟨focus, lefts, rights, u :: us⟩ root ps) (ho : Owns m (ps ++ R))
    (hu : u.info.data = .genReq b) :
    ∃ n a k d m', m.obj cur = some (.node n) ∧ n.parent = some a ∧
      m.obj a = some (.node k) ∧ k.flavor = .genReq ∧ k.data = some d ∧
      m.write d (.genReq b') = .ok m' ∧
      CurAt m' cur ⟨focus, lefts, rights,
        { u with info := { u.info with data := .genReq b' } } :: us⟩ root ps ∧
      Owns m' (ps ++ R) ∧ EqOn m m' R := by
  cases h with
  | @mk _ first n i ts lefts ups p₁ p₂ p₃ p₄ p₅ h hn hf hl h₁ h₂ h₃ h₄ h₅ =>
    generalize hup : n.parent = up at h₅
    cases h₅ with
    | @cons a _ first' _ k j lefts' _ q₁ q₂ q₃ q₄ g gn gc gf gl g₁ g₂ gt g₃ g₄ =>
      simp only at hu
      rw [hu] at g₁ gf
      generalize hd : k.data = dp at g₁
      cases g₁ with
      | @genReq d _ g₁ =>
        have hnd := ho.nodup
        have hcur : ∀ {xs : List Addr},
            (∀ q ∈ xs, q ∈ p₁ ++ p₂ ++ p₃ ++ p₄ ++ [cur] ++ [a] ++ q₂ ++ q₃ ++ q₄ ++ R) →
            EqOn m (wrote m d (.genReq b')) xs := by
          intro xs hxs
          refine eqOn_wrote (fun hq => ?_) _
          exact (List.nodup_cons.1 (List.Perm.nodup (by pieces) hnd :
            (d :: (p₁ ++ p₂ ++ p₃ ++ p₄ ++ [cur] ++ [a] ++ q₂ ++ q₃ ++ q₄ ++ R)).Nodup)).1
            (hxs _ hq)
        refine ⟨n, a, k, d, _, h, hup, g, gf, hd, write_wrote (by simp [g₁]), ?_,
          ho.wrote (by simp) _, hcur (by simp +contextual)⟩
        rw [hup] at h₄
        refine .mk (first := first) (n := n) ?_ hn hf hl
          (h₁.congr (hcur (by simp +contextual))) (h₂.congr (hcur (by simp +contextual))) (h₃.congr (hcur (by simp +contextual)))
          (by rw [hup]; exact h₄.congr (hcur (by simp +contextual)))
          (by
            rw [hup]
            refine .cons (i := { j with data := .genReq b' }) (n := k) ?_ gn gc gf gl
              (by rw [hd]; exact .genReq (wrote_self _ _ _)) (g₂.congr (hcur (by simp +contextual)))
              (by simp) (g₃.congr (hcur (by simp +contextual))) (g₄.congr (hcur (by simp +contextual)))
            rw [hcur (xs := [a]) (by simp) a (by simp), g])
        rw [hcur (xs := [cur]) (by simp) cur (by simp), h]

theorem CurAt.parentFlavor {m cur focus lefts rights u us root ps}
    (h : CurAt m cur ⟨focus, lefts, rights, u :: us⟩ root ps) :
    ∃ n a k, m.obj cur = some (.node n) ∧ n.parent = some a ∧ m.obj a = some (.node k) ∧
      k.flavor = u.info.data.flavor := by
  cases h with
  | @mk _ first n i ts lefts ups p₁ p₂ p₃ p₄ p₅ h hn hf hl h₁ h₂ h₃ h₄ h₅ =>
    generalize hup : n.parent = up at h₅
    cases h₅ with
    | cons g gn gc gf gl g₁ g₂ gt g₃ g₄ => exact ⟨n, _, _, h, hup, g, gf⟩

theorem CurAt.noParent {m cur focus lefts rights root ps}
    (h : CurAt m cur ⟨focus, lefts, rights, []⟩ root ps) :
    ∃ n, m.obj cur = some (.node n) ∧ n.parent = none := by
  cases h with
  | @mk _ first n i ts lefts ups p₁ p₂ p₃ p₄ p₅ h hn hf hl h₁ h₂ h₃ h₄ h₅ =>
    generalize hup : n.parent = up at h₅
    cases h₅ with
    | nil => exact ⟨n, h, hup⟩

end Selint
