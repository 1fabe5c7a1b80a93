import Verif.Lemmas.Parsing
/-!
# The functions of parse_functions.c keep the invariant
-/

namespace Selint
open Spec

theorem someParameter_spec {m p l ps} (h : SlAt m p l ps) :
    ∀ {fuel}, l.length ≤ fuel →
      MState.someParameter fuel m p = .ok (PState.someParameter (l.map (·.1))) := by
  induction h with
  | nil => intro fuel _; cases fuel <;> simp [MState.someParameter, PState.someParameter]
  | @cons p a n s b l ps h₁ h₂ h₃ h₄ h₅ ih =>
    intro fuel hf
    obtain _ | fuel := fuel
    · simp at hf
    simp only [List.length_cons, Nat.add_le_add_iff_right] at hf
    simp only [MState.someParameter, get_eq h₁ (f := Obj.sl?) rfl, Res.bind_ok, Mem.getAt,
      get_eq h₂ (f := Obj.str?) rfl, List.map_cons, PState.someParameter, ih hf]
    split <;> rfl

theorem readList_spec {m p l ps} (h : SlAt m p l ps) :
    ∀ {fuel}, l.length ≤ fuel → Mem.readList fuel m p = .ok l := by
  induction h with
  | nil => intro fuel _; cases fuel <;> simp [Mem.readList]
  | @cons p a n s b l ps h₁ h₂ h₃ h₄ h₅ ih =>
    intro fuel hf
    obtain _ | fuel := fuel
    · simp at hf
    simp only [List.length_cons, Nat.add_le_add_iff_right] at hf
    simp only [Mem.readList, get_eq h₁ (f := Obj.sl?) rfl, Res.bind_ok, Mem.getAt,
      get_eq h₂ (f := Obj.str?) rfl, ih hf]

namespace Inv

variable {root : Addr} {m₀ : Mem} {R : List Addr} {ms : MState} {st : PState} {H : List Item}
  {k : Nat}

theorem readList {p l} (h : Inv root m₀ R ms st H k) (hi : .list p l ∈ H) :
    ms.mem.readList ms.mem.top p = .ok l := by
  obtain ⟨ps, hs, hl⟩ := h.list_at hi
  exact readList_spec hs hl

/-- The first cell of a list and its string are taken apart from the rest. -/
theorem unpack {p s b l} (h : Inv root m₀ R ms st (.list p ((s, b) :: l) :: H) k) :
    ∃ q a n, p = some q ∧ Inv root m₀ R ms st (.list n l :: .obj q (.sl ⟨some a, n, b⟩) ::
      .word a s :: H) k := by
  obtain ⟨ps, hi, _⟩ := h.dropped
  cases hi with
  | @cons q a n _ _ _ qs h₁ h₂ h₃ h₄ h₅ =>
    refine ⟨q, a, n, rfl, h.regroup (is := [_]) (is' := [_, _, _]) fun ps' hp hn => ?_⟩
    obtain _ | ⟨hp, _ | _⟩ := hp
    cases hp with
    | cons g₁ g₂ g₃ g₄ g₅ =>
      rw [h₁] at g₁
      cases g₁
      exact ⟨_, .cons g₃ (.cons ⟨rfl, h₁⟩ (.cons (.some g₂) .nil)), by pieces⟩

/-- The list is put together again. -/
theorem repack {q a n s b l} (h : Inv root m₀ R ms st (.list n l ::
    .obj q (.sl ⟨some a, n, b⟩) :: .word a s :: H) k) :
    Inv root m₀ R ms st (.list (some q) ((s, b) :: l) :: H) k :=
  h.regroup (is := [_, _, _]) (is' := [_]) fun ps hp hn => by
    obtain _ | ⟨hl, _ | ⟨⟨rfl, hp⟩, _ | ⟨_ | hs, _ | _⟩⟩⟩ := hp
    refine ⟨_, .cons (.cons hp hs hl ?_ ?_) .nil, by pieces⟩
    · intro hq; simp [List.nodup_append] at hn; grind
    · intro hq; simp [List.nodup_append] at hn; grind

theorem list_nil {p} (h : Inv root m₀ R ms st (.list p [] :: H) k) : p = none := by
  obtain ⟨ps, hi, _⟩ := h.dropped
  cases hi
  rfl

theorem cell_at {q c} (h : Inv root m₀ R ms st H k) (hi : .obj q (.sl c) ∈ H) :
    ms.mem.get Obj.sl? q = .ok c := by
  obtain ⟨⟨T, L, hs, hT, hL, hH, ho, hk⟩, _⟩ := h
  obtain ⟨qs, ⟨_, hq⟩, _⟩ := hH.mem hi
  exact get_eq hq rfl

theorem aliasLoop (fl : DeclFlavor) (line : Nat) (l : List Str) : ∀ {fuel ms st H p k},
    l.length ≤ fuel → Inv root m₀ R ms st (.names p l :: H) k →
    ∃ ms', MState.aliasLoop fl line fuel ms p = .ok ms' ∧
      Inv root m₀ R ms' (st.insertAliases l fl line) (.names p l :: H) k := by
  induction l with
  | nil =>
    intro fuel ms st H p k _ h
    cases h.list_nil
    exact ⟨ms, by cases fuel <;> rfl, h⟩
  | cons s l ih =>
    intro fuel ms st H p k hf h
    obtain _ | fuel := fuel
    · simp at hf
    simp only [List.length_cons, Nat.add_le_add_iff_right] at hf
    obtain ⟨q, a, n, rfl, h₁⟩ := h.unpack
    have hc := h₁.cell_at (q := q) (c := ⟨some a, n, false⟩) (by simp)
    have hw := h₁.word_at (a := a) (s := s) (by simp)
    have ht := h₁.nameIfInTemplate
    obtain ⟨m', e, h₂⟩ := ((h₁.token s).strData .alias).addChild line
    have h₃ : Inv root m₀ R
        ⟨m', ms.cur, (match st.loc.getNameIfInTemplate with
          | some t => ms.maps.insertTemplateDecl t fl s
          | none => ms.maps.insertDecl s ms.module fl), ms.module, ms.rets⟩
        (st.insertAlias fl line s) (.names n l :: .obj q (.sl ⟨some a, n, false⟩) ::
          .word a s :: H) k := by
      refine ⟨?_, h₂.frame, ?_, ?_, ?_⟩
      · have := h₂.mem
        simp only [PState.insertAlias]
        cases st.loc.getNameIfInTemplate <;> exact this
      · simp only [PState.insertAlias, PState.grow, ← h.maps, ← h.module]
        cases st.loc.getNameIfInTemplate <;> rfl
      · simp only [PState.insertAlias, PState.grow, h.module]
        cases st.loc.getNameIfInTemplate <;> rfl
      · simp only [PState.insertAlias, PState.grow, h.rets]
        cases st.loc.getNameIfInTemplate <;> rfl
    have hc' := h₃.cell_at (q := q) (c := ⟨some a, n, false⟩) (by simp)
    obtain ⟨ms', e', h₄⟩ := ih hf h₃
    refine ⟨ms', ?_, h₄.repack⟩
    simp only [MState.aliasLoop, hc, hw, ht, Res.bind_ok, Mem.getAt]
    rw [show (ms.mem.malloc (.bytes s)) = (ms.mem.top, (ms.mem.malloc (.bytes s)).2) from rfl]
    simp only at e ⊢
    rw [show Mem.insertChild _ _ .alias _ _ = _ from e]
    simp only [Res.bind_ok]
    simp only at hc'
    rw [hc']
    simp only [Res.bind_ok]
    exact e'

theorem insertAliases {p l} (h : Inv root m₀ R ms st (.names p l :: H) k) (fl : DeclFlavor)
    (line : Nat) :
    ∃ ms', ms.insertAliases p fl line = .ok ms' ∧
      Inv root m₀ R ms' (st.insertAliases l fl line) H k := by
  obtain ⟨ps, hs, hl⟩ := h.list_at (List.mem_cons_self ..)
  rw [List.length_map] at hl
  obtain ⟨ms₁, e₁, h₁⟩ := aliasLoop fl line l hl h
  obtain ⟨ms₂, e₂, h₂⟩ := h₁.freeList
  exact ⟨ms₂, by simp only [MState.insertAliases, e₁, Res.bind_ok, e₂], h₂⟩

theorem declareLoop (fl : DeclFlavor) (line : Nat) (l : List Str) : ∀ {fuel ms st H p k},
    l.length ≤ fuel → Inv root m₀ R ms st (.names p l :: H) k →
    ∃ ms', Selint.declareLoop fl line fuel ms p = .ok ms' ∧
      Inv root m₀ R ms' (l.foldl (fun st n => st.insertDeclaration fl n [] line) st)
        (.names p l :: H) k := by
  induction l with
  | nil =>
    intro fuel ms st H p k _ h
    cases h.list_nil
    exact ⟨ms, by cases fuel <;> rfl, h⟩
  | cons s l ih =>
    intro fuel ms st H p k hf h
    obtain _ | fuel := fuel
    · simp at hf
    simp only [List.length_cons, Nat.add_le_add_iff_right] at hf
    obtain ⟨q, a, n, rfl, h₁⟩ := h.unpack
    have hc := h₁.cell_at (q := q) (c := ⟨some a, n, false⟩) (by simp)
    have h₂ : Inv root m₀ R ms st (.word a s :: .names n l :: .obj q (.sl ⟨some a, n, false⟩) ::
        H) k := h₁.perm (List.Perm.trans (.cons _ (.swap _ _ _)) (.swap _ _ _))
    obtain ⟨ms₃, e₃, h₃⟩ := h₂.noNames.insertDeclaration fl line
    have hc' := h₃.cell_at (q := q) (c := ⟨some a, n, false⟩) (by simp)
    obtain ⟨ms', e', h₄⟩ := ih hf h₃.swap
    have h₅ : Inv root m₀ R ms' _ (.names n l :: .obj q (.sl ⟨some a, n, false⟩) ::
      .word a s :: H) k := h₄.perm (.cons _ (.swap _ _ _))
    refine ⟨ms', ?_, h₅.repack⟩
    simp only [Selint.declareLoop, hc, Res.bind_ok, e₃, hc', e']

theorem packAv {p a b c d fl l₁ l₂ l₃ l₄} (h : Inv root m₀ R ms st
    (.obj p (.av ⟨fl, a, b, c, d⟩) :: .names d l₄ :: .names c l₃ :: .names b l₂ :: .names a l₁ :: H)
    k) : Inv root m₀ R ms st (.data (some p) (.av ⟨fl, l₁, l₂, l₃, l₄⟩) :: H) k :=
  h.regroup (is := [_, _, _, _, _]) (is' := [_]) fun ps hp hn => by
    obtain _ | ⟨⟨rfl, hp⟩, _ | ⟨g₁, _ | ⟨g₂, _ | ⟨g₃, _ | ⟨g₄, _ | _⟩⟩⟩⟩⟩ := hp
    exact ⟨_, .cons (.av hp rfl g₄ g₃ g₂ g₁ (List.Perm.nodup (by pieces) hn)) .nil, by pieces⟩

theorem insertAvRule {a b c d l₁ l₂ l₃ l₄} (h : Inv root m₀ R ms st
    (.names d l₄ :: .names c l₃ :: .names b l₂ :: .names a l₁ :: H) k) (fl : AvFlavor)
    (line : Nat) :
    ∃ ms', ms.insertAvRule ⟨fl, a, b, c, d⟩ line = .ok ms' ∧
      Inv root m₀ R ms' (st.insertAvRule ⟨fl, l₁, l₂, l₃, l₄⟩ line) H k := by
  have h₁ := h.malloc (.av ⟨fl, a, b, c, d⟩)
  have hp := h₁.parentInterface
  have hi := h₁.strInSl (p := d) (l := l₄) (by simp) cs!"associate"
  simp only at hp hi
  simp only [MState.insertAvRule, malloc_fst, hp, Res.bind_ok, hi, PState.insertAvRule, ← h.maps]
  cases st.parentInterface with
  | none => exact h₁.packAv.addNext line
  | some i =>
    cases Selint.strInSl cs!"associate" l₄ with
    | false => exact h₁.packAv.addNext line
    | true => exact (h₁.setMaps _).packAv.addNext line

theorem packXav {p a b c d o op fl l₁ l₂ l₃ l₄} (h : Inv root m₀ R ms st
    (.obj p (.xav ⟨⟨fl, a, b, c, d⟩, some o⟩) :: .word o op :: .names d l₄ :: .names c l₃ ::
      .names b l₂ :: .names a l₁ :: H)
    k) : Inv root m₀ R ms st (.data (some p) (.xav ⟨fl, l₁, l₂, l₃, l₄⟩ op) :: H) k :=
  h.regroup (is := [_, _, _, _, _, _]) (is' := [_]) fun ps hp hn => by
    obtain _ | ⟨⟨rfl, hp⟩, _ | ⟨_ | hs, _ | ⟨g₁, _ | ⟨g₂, _ | ⟨g₃, _ | ⟨g₄, _ | _⟩⟩⟩⟩⟩⟩ := hp
    exact ⟨_, .cons (.xav hp rfl g₄ g₃ g₂ (.mk hs) g₁ (List.Perm.nodup (by pieces) hn)) .nil,
      by pieces⟩

theorem insertXpermAvRule {a b c d o op l₁ l₂ l₃ l₄} (h : Inv root m₀ R ms st
    (.names d l₄ :: .names c l₃ :: .names b l₂ :: .names a l₁ :: .word o op :: H) k)
    (fl : AvFlavor) (line : Nat) :
    ∃ ms', ms.insertXpermAvRule ⟨fl, a, b, c, d⟩ o line = .ok ms' ∧
      Inv root m₀ R ms' (st.insertXpermAvRule ⟨fl, l₁, l₂, l₃, l₄⟩ op line) (.word o op :: H) k := by
  have hw := h.word_at (a := o) (s := op) (by simp)
  obtain ⟨ms', e, h'⟩ := ((h.token op).malloc (.xav ⟨⟨fl, a, b, c, d⟩, some ms.mem.top⟩)).packXav.addNext
    line
  exact ⟨ms', by simp only [MState.insertXpermAvRule, hw, Res.bind_ok]; exact e, h'⟩

theorem packRa {p a b l₁ l₂} (h : Inv root m₀ R ms st
    (.obj p (.ra ⟨a, b⟩) :: .names b l₂ :: .names a l₁ :: H) k) :
    Inv root m₀ R ms st (.data (some p) (.roleAllow ⟨l₁, l₂⟩) :: H) k :=
  h.regroup (is := [_, _, _]) (is' := [_]) fun ps hp hn => by
    obtain _ | ⟨⟨rfl, hp⟩, _ | ⟨g₁, _ | ⟨g₂, _ | _⟩⟩⟩ := hp
    exact ⟨_, .cons (.roleAllow hp g₂ g₁ (List.Perm.nodup (by pieces) hn)) .nil, by pieces⟩

theorem insertRoleAllow {a b l₁ l₂} (h : Inv root m₀ R ms st (.names b l₂ :: .names a l₁ :: H) k)
    (line : Nat) :
    ∃ ms', ms.insertRoleAllow a b line = .ok ms' ∧
      Inv root m₀ R ms' (st.insertRoleAllow l₁ l₂ line) H k :=
  (h.malloc (.ra ⟨a, b⟩)).packRa.addNext line

theorem packRtyp {p r a s l} (h : Inv root m₀ R ms st
    (.obj p (.rtyp ⟨some r, a⟩) :: .word r s :: .names a l :: H) k) :
    Inv root m₀ R ms st (.data (some p) (.roleTypes ⟨s, l⟩) :: H) k :=
  h.regroup (is := [_, _, _]) (is' := [_]) fun ps hp hn => by
    obtain _ | ⟨⟨rfl, hp⟩, _ | ⟨_ | hs, _ | ⟨g₂, _ | _⟩⟩⟩ := hp
    exact ⟨_, .cons (.roleTypes hp (.mk hs) g₂ (List.Perm.nodup (by pieces) hn)) .nil, by pieces⟩

theorem insertRoleTypes {r s a l} (h : Inv root m₀ R ms st (.names a l :: .word r s :: H) k)
    (line : Nat) :
    ∃ ms', ms.insertRoleTypes r a line = .ok ms' ∧
      Inv root m₀ R ms' (st.insertRoleTypes s l line) (.word r s :: H) k := by
  have hw := h.word_at (a := r) (s := s) (by simp)
  have hp := h.parentInterface
  obtain ⟨ps, hs, hl⟩ := h.list_at (p := a) (List.mem_cons_self ..)
  have hi := someParameter_spec hs hl
  rw [List.map_map, show ((fun x : Str × Bool => x.1) ∘ fun s : Str => (s, false)) = id from rfl,
    List.map_id] at hi
  simp only [MState.insertRoleTypes, hp, Res.bind_ok, hi, PState.insertRoleTypes, ← h.maps, hw]
  cases st.parentInterface with
  | none => exact ((h.token s).malloc _).packRtyp.addNext line
  | some i =>
    cases PState.someParameter l with
    | false => exact ((h.token s).malloc _).packRtyp.addNext line
    | true => exact (((h.token s).malloc _).setMaps _).packRtyp.addNext line

theorem packTt {p a b c d n l₁ l₂ l₃ s o fl} (h : Inv root m₀ R ms st
    (.obj p (.tt ⟨a, b, c, some d, n, fl⟩) :: .opt n o :: .word d s :: .names c l₃ ::
      .names b l₂ :: .names a l₁ :: H) k) :
    Inv root m₀ R ms st (.data (some p) (.tt ⟨l₁, l₂, l₃, s, o, fl⟩) :: H) k :=
  h.regroup (is := [_, _, _, _, _, _]) (is' := [_]) fun ps hp hn => by
    obtain _ | ⟨⟨rfl, hp⟩, _ | ⟨ho, _ | ⟨_ | hs, _ | ⟨g₁, _ | ⟨g₂, _ | ⟨g₃, _ | _⟩⟩⟩⟩⟩⟩ := hp
    exact ⟨_, .cons (.tt hp g₃ g₂ g₁ (.mk hs) ho rfl (List.Perm.nodup (by pieces) hn)) .nil,
      by pieces⟩

theorem copyOpt {n o} (h : Inv root m₀ R ms st H k) (hi : .opt n o ∈ H) :
    ∃ n' m', MState.copyOpt ms.mem n = .ok (n', m') ∧
      Inv root m₀ R { ms with mem := m' } st (.opt n' o :: H) k := by
  have h' := h
  obtain ⟨⟨T, L, hs, hT, hL, hH, ho, hk⟩, _⟩ := h'
  obtain ⟨qs, hq, _⟩ := hH.mem hi
  cases hq with
  | none =>
    obtain ⟨p, ms', e, h'⟩ := h.heldToken none
    cases e
    exact ⟨none, _, rfl, h'⟩
  | @some a s hq =>
    refine ⟨_, _, ?_, h.token s⟩
    simp only [MState.copyOpt, get_eq hq (f := Obj.str?) rfl, Res.bind_ok]
    rfl

theorem insertTypeTransition {a b c d n l₁ l₂ l₃ s o} (h : Inv root m₀ R ms st
    (.names c l₃ :: .names b l₂ :: .names a l₁ :: .opt n o :: .word d s :: H) k) (fl : TtFlavor)
    (line : Nat) :
    ∃ ms', ms.insertTypeTransition fl a b c d n line = .ok ms' ∧
      Inv root m₀ R ms' (st.insertTypeTransition ⟨l₁, l₂, l₃, s, o, fl⟩ line)
        (.opt n o :: .word d s :: H) k := by
  have hw := h.word_at (a := d) (s := s) (by simp)
  obtain ⟨n', m', e', h₁⟩ := (h.token s).copyOpt (n := n) (o := o) (by simp)
  have h₂ := h₁.malloc (.tt ⟨a, b, c, some ms.mem.top, n', fl⟩)
  have hi := h₂.strInSl (p := c) (l := l₃) (by simp) cs!"process"
  have hp := h₂.parentInterface
  simp only at e' hi hp
  simp only [MState.insertTypeTransition, hw, Res.bind_ok, malloc_fst, e', hi, hp,
    PState.insertTypeTransition, ← h.maps]
  cases Selint.strInSl cs!"process" l₃ with
  | true => exact h₂.packTt.addNext line
  | false =>
    cases st.parentInterface with
    | none => exact h₂.packTt.addNext line
    | some i => exact (h₂.setMaps _).packTt.addNext line

theorem packRt {p a b c d l₁ l₂ l₃ s} (h : Inv root m₀ R ms st
    (.obj p (.rt ⟨a, b, c, some d⟩) :: .word d s :: .names c l₃ ::
      .names b l₂ :: .names a l₁ :: H) k) :
    Inv root m₀ R ms st (.data (some p) (.rt ⟨l₁, l₂, l₃, s⟩) :: H) k :=
  h.regroup (is := [_, _, _, _, _]) (is' := [_]) fun ps hp hn => by
    obtain _ | ⟨⟨rfl, hp⟩, _ | ⟨_ | hs, _ | ⟨g₁, _ | ⟨g₂, _ | ⟨g₃, _ | _⟩⟩⟩⟩⟩ := hp
    exact ⟨_, .cons (.rt hp g₃ g₂ g₁ (.mk hs) (List.Perm.nodup (by pieces) hn)) .nil,
      by pieces⟩

theorem insertRoleTransition {a b c d l₁ l₂ l₃ s} (h : Inv root m₀ R ms st
    (.names c l₃ :: .names b l₂ :: .names a l₁ :: .word d s :: H) k) (line : Nat) :
    ∃ ms', ms.insertRoleTransition a b c d line = .ok ms' ∧
      Inv root m₀ R ms' (st.insertRoleTransition ⟨l₁, l₂, l₃, s⟩ line) (.word d s :: H) k := by
  have hw := h.word_at (a := d) (s := s) (by simp)
  obtain ⟨ms', e, h'⟩ := ((h.token s).malloc (.rt ⟨a, b, c, some ms.mem.top⟩)).packRt.addNext line
  exact ⟨ms', by simp only [MState.insertRoleTransition, hw, Res.bind_ok]; exact e, h'⟩

theorem packAttr {p t a s l fl} (h : Inv root m₀ R ms st
    (.obj p (.attr ⟨some t, a, fl⟩) :: .word t s :: .names a l :: H) k) :
    Inv root m₀ R ms st (.data (some p) (.attr ⟨s, l, fl⟩) :: H) k :=
  h.regroup (is := [_, _, _]) (is' := [_]) fun ps hp hn => by
    obtain _ | ⟨⟨rfl, hp⟩, _ | ⟨_ | hs, _ | ⟨g₂, _ | _⟩⟩⟩ := hp
    exact ⟨_, .cons (.attr hp (.mk hs) g₂ rfl (List.Perm.nodup (by pieces) hn)) .nil, by pieces⟩

theorem insertAttribute {t a s l} (h : Inv root m₀ R ms st (.names a l :: .word t s :: H) k)
    (fl : AttrFlavor) (line : Nat) :
    ∃ ms', ms.insertAttribute fl t a line = .ok ms' ∧
      Inv root m₀ R ms' (st.insertAttribute ⟨s, l, fl⟩ line) (.word t s :: H) k := by
  have hw := h.word_at (a := t) (s := s) (by simp)
  obtain ⟨ms₁, e₁, h₁⟩ :=
    ((h.token s).malloc (.attr ⟨some ms.mem.top, a, fl⟩)).packAttr.addNext line
  have key : ∀ ms₁ st₁, Inv root m₀ R ms₁ st₁ (.word t s :: H) k →
      ∃ ms', (ms₁.mem.parentInterface ms₁.cur >>= fun
        | none => Res.ok ms₁
        | some i =>
          if (PState.isTransformInterface i || decide (ms₁.module = cs!"mls") ||
              decide (ms₁.module = cs!"mcs")) = true then
            Res.ok { ms₁ with maps := ms₁.maps.markTransform i }
          else Res.ok ms₁) = .ok ms' ∧
        Inv root m₀ R ms' (match st₁.parentInterface with
          | some i =>
            if PState.isTransformInterface i || decide (st₁.module = cs!"mls") ||
                decide (st₁.module = cs!"mcs") then
              { st₁ with maps := st₁.maps.markTransform i }
            else st₁
          | none => st₁) (.word t s :: H) k := by
    intro ms₁ st₁ h₁
    rw [h₁.parentInterface]
    simp only [Res.bind_ok, ← h₁.module, ← h₁.maps]
    cases st₁.parentInterface with
    | none => exact ⟨ms₁, rfl, h₁⟩
    | some i =>
      simp only
      split
      · exact ⟨_, rfl, h₁.setMaps' _⟩
      · exact ⟨ms₁, rfl, h₁⟩
  obtain ⟨ms', e', h'⟩ := key _ _ h₁
  refine ⟨ms', ?_, h'⟩
  simp only [MState.insertAttribute, hw, Res.bind_ok]
  cases fl <;> exact (congrArg (· >>= _) e₁).trans e'

theorem packCall {p t a s l} (h : Inv root m₀ R ms st
    (.obj p (.call ⟨some t, a⟩) :: .word t s :: .list a l :: H) k) :
    Inv root m₀ R ms st (.data (some p) (.ifCall ⟨s, l⟩) :: H) k :=
  h.regroup (is := [_, _, _]) (is' := [_]) fun ps hp hn => by
    obtain _ | ⟨⟨rfl, hp⟩, _ | ⟨_ | hs, _ | ⟨g₂, _ | _⟩⟩⟩ := hp
    exact ⟨_, .cons (.ifCall hp (.mk hs) g₂ (List.Perm.nodup (by pieces) hn)) .nil, by pieces⟩

theorem insertInterfaceCall {t a s l} (h : Inv root m₀ R ms st (.list a l :: .word t s :: H) k)
    (line : Nat) {st' : PState} (hst : st.insertInterfaceCall ⟨s, l⟩ line = .ok st') :
    ∃ ms', ms.insertInterfaceCall t a line = .ok ms' ∧
      Inv root m₀ R ms' st' (.word t s :: H) k := by
  have hw := h.word_at (a := t) (s := s) (by simp)
  have h₁ := (h.token s).malloc (.call ⟨some ms.mem.top, a⟩)
  have hl := h₁.readList (p := a) (l := l) (by simp)
  have ht := h₁.nameIfInTemplate
  have hp := h₁.parentInterface
  simp only at hl ht hp
  simp only [MState.insertInterfaceCall, hw, Res.bind_ok, malloc_fst, hl, ht, hp, h.maps, h.module,
    h.rets]
  simp only [PState.insertInterfaceCall] at hst
  have hx : st.expandCall ⟨s, l⟩ = match st.loc.getNameIfInTemplate with
      | some t => .done .success (st.maps.insertTemplateCall t ⟨s, l⟩)
      | none => expandTemplate s (IfCallData.argStrs ⟨s, l⟩) st.module st.maps := rfl
  rw [hx] at hst
  generalize hg : st.loc.getNameIfInTemplate = g at hst
  have h₁' := h₁.packCall
  clear hl ht hx
  have key : ∀ M, ∃ ms', (if PState.isFiletransIfName s = true then
        match st.parentInterface with
        | some i => MState.addNext ⟨((ms.mem.malloc (.bytes s)).2.malloc
            (.call ⟨some ms.mem.top, a⟩)).2, ms.cur, M.markFiletrans i, st.module,
            st.rets ++ [.success]⟩ .ifCall (some (ms.mem.malloc (.bytes s)).2.top) line
        | none => MState.addNext ⟨((ms.mem.malloc (.bytes s)).2.malloc
            (.call ⟨some ms.mem.top, a⟩)).2, ms.cur, M, st.module,
            st.rets ++ [.success]⟩ .ifCall (some (ms.mem.malloc (.bytes s)).2.top) line
      else MState.addNext ⟨((ms.mem.malloc (.bytes s)).2.malloc
            (.call ⟨some ms.mem.top, a⟩)).2, ms.cur, M, st.module,
            st.rets ++ [.success]⟩ .ifCall (some (ms.mem.malloc (.bytes s)).2.top) line) =
        .ok ms' ∧ Inv root m₀ R ms' (PState.statement (if PState.isFiletransIfName s then
          match PState.parentInterface ⟨st.loc, M, st.module, st.rets ++ [.success]⟩ with
          | some i => ⟨st.loc, M.markFiletrans i, st.module, st.rets ++ [.success]⟩
          | none => ⟨st.loc, M, st.module, st.rets ++ [.success]⟩
          else ⟨st.loc, M, st.module, st.rets ++ [.success]⟩)
          (.ifCall ⟨s, l⟩) line) (.word t s :: H) k := by
    intro M
    have h₂ := (h₁'.setMaps M).setRets (st.rets ++ [.success])
    simp only [h.module] at h₂
    have hp₂ : PState.parentInterface ⟨st.loc, M, st.module, st.rets ++ [.success]⟩ =
      st.parentInterface := rfl
    rw [hp₂]
    cases PState.isFiletransIfName s with
    | false => exact h₂.addNext line
    | true =>
      cases st.parentInterface with
      | none => exact h₂.addNext line
      | some i => exact (h₂.setMaps _).addNext line
  cases g with
  | some x =>
    simp only [if_true] at hst ⊢
    cases hst
    exact key _
  | none =>
    simp only at hst ⊢
    generalize expandTemplate s (IfCallData.argStrs ⟨s, l⟩) st.module st.maps = r at hst ⊢
    cases r with
    | ub => cases hst
    | fuel => cases hst
    | done e M =>
      simp only at hst ⊢
      by_cases he : e = .success
      · subst he
        rw [if_pos rfl] at hst ⊢
        cases hst
        exact key _
      · rw [if_neg he] at hst ⊢
        cases hst
        obtain ⟨ps, hi, hlen, h₂⟩ := h₁'.dropped
        have hfree := freeNodeData_eq hi hlen
        have h₃ := (h₂.setMaps M).setRets (st.rets ++ [e])
        simp only [h.module] at h₃
        exact ⟨_, congrArg (· >>= _) hfree, h₃⟩

theorem beginInterfaceDef {a s} (h : Inv root m₀ R ms st (.word a s :: H) k) (t : Bool)
    (line : Nat) :
    ∃ ms', ms.beginInterfaceDef t a line = .ok ms' ∧
      Inv root m₀ R ms' (st.beginInterfaceDef t s line) (.word a s :: H) k := by
  have hw := h.word_at (a := a) (s := s) (by simp)
  simp only [MState.beginInterfaceDef, hw, Res.bind_ok, malloc_fst, h.maps, h.module,
    PState.beginInterfaceDef]
  obtain ⟨ms', e, h'⟩ := (((h.token s).strData (if t then .tempDef else .interfaceDef)).setMaps
    ((if t then st.maps.insertTemplate s else st.maps).insertIf s st.module)).beginBlock
    (by simp) line
  refine ⟨ms', ?_, h'⟩
  simp only [h.module] at e
  cases t <;> exact e

theorem endInterfaceDef (h : Inv root m₀ R ms st H k) :
    ∃ ms', ms.endInterfaceDef = .ok ms' ∧ Inv root m₀ R ms' st.endInterfaceDef H k := by
  obtain ⟨b, ms₁, e₁, h₁, hb⟩ := h.endBlock .interfaceDef
  cases hp : st.loc.parent? with
  | none =>
    have hst : ∀ fl, st.endBlock fl = st := fun fl => by
      simp [PState.endBlock, PState.grow, Loc.grow, Loc.closeBlock, hp]
    rw [hp] at hb
    simp only [Option.map_none] at hb
    have hb' : b = false := hb
    subst hb'
    rw [hst] at h₁
    obtain ⟨ms₂, e₂, h₂⟩ := h₁.close .tempDef
    rw [hst] at h₂
    exact ⟨ms₂, by simp [MState.endInterfaceDef, e₁, e₂], by
      simpa only [PState.endInterfaceDef, hp] using h₂⟩
  | some p =>
    rw [hp] at hb
    by_cases hf : p.info.flavor = .interfaceDef
    · have hb' : b = true := by simpa [hf] using hb
      subst hb'
      exact ⟨ms₁, by simp [MState.endInterfaceDef, e₁], by
        simpa only [PState.endInterfaceDef, hp, hf, if_true] using h₁⟩
    · have hb' : b = false := by rw [hb]; simpa using hf
      subst hb'
      have hst : st.endBlock .interfaceDef = st := by
        simp [PState.endBlock, PState.grow, Loc.grow, Loc.closeBlock, hp, hf]
      rw [hst] at h₁
      obtain ⟨ms₂, e₂, h₂⟩ := h₁.close .tempDef
      exact ⟨ms₂, by simp [MState.endInterfaceDef, e₁, e₂], by
        simpa only [PState.endInterfaceDef, hp, hf, if_false] using h₂⟩

theorem beginGenRequire (h : Inv root m₀ R ms st H k) (line : Nat) :
    ∃ ms', ms.beginGenRequire line = .ok ms' ∧
      Inv root m₀ R ms' (st.beginGenRequire line) H k := by
  have h₁ := (h.malloc (.genReq false)).regroup (is := [_])
    (is' := [.data (some ms.mem.top) (.genReq false)]) fun ps hp hn => by
      obtain _ | ⟨⟨rfl, hp⟩, _ | _⟩ := hp
      exact ⟨_, .cons (.genReq hp) .nil, .refl _⟩
  exact h₁.beginBlock (by simp) line

end Inv

end Selint
