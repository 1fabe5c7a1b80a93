import Verif.Lemmas.LrMachine
import Verif.Lemmas.MapsInMemory
/-!
# Giving up: the destructors, and the tree
-/

namespace Selint
open Spec

namespace Lr

theorem HeldAt.live {m is ps} (h : HeldAt m is ps) : Live m ps := by
  induction h with
  | nil => intro q hq; simp at hq
  | @cons i is ps qs h _ ih =>
    refine Live.append ?_ ih
    cases i with
    | opt p s => exact OptStrAt.live h
    | list p l => exact SlAt.live h
    | obj p o =>
      obtain ⟨rfl, h⟩ := h
      intro q hq
      simp only [List.mem_singleton] at hq
      subst hq
      simp [h]
    | data p d => exact DataAt.live h

/-- Everything the invariant says of memory that began as `m₀`. -/
theorem Inv.closed {m₀ : Mem} {ast : Addr} {ms : MState} {st : PState} {H : List Item} {k : Nat}
    (hb : Bounded m₀) (h : Inv ast m₀ (List.range m₀.top) ms st H k) :
    ∃ T L hs, NodesAt ms.mem none none (some ast) st.loc.unzip T ∧ StringsAt ms.mem L ∧
      HeldAt ms.mem H hs ∧ Grows m₀ ms.mem (T ++ L ++ hs) ∧ L.length ≤ k ∧
      T.length ≤ ms.mem.top := by
  obtain ⟨⟨T, L, hs, hT, hL, hH, ho, hkk⟩, hfr, h₁, h₂, h₃⟩ := h
  obtain ⟨⟨focus, lefts, rights, ups⟩, mp, md, rt⟩ := st
  simp only at hT hkk
  have hnd : T.Nodup := by
    have := ho.nodup
    simp only [List.nodup_append] at this
    exact this.1.1.1
  obtain ⟨rs, hrs, hperm⟩ := CurAt.forest _ hT hnd
  have hnd' : (rs ++ L ++ hs ++ List.range m₀.top).Nodup :=
    List.Perm.nodup (((hperm.symm.append_right L).append_right hs).append_right _) ho.nodup
  refine ⟨rs, L, hs, hrs, hL, hH, ⟨(List.nodup_append.1 hnd').1, ?_, ?_⟩, by omega, ?_⟩
  · intro q hq
    constructor
    · refine hb q ?_
      have := (List.nodup_append.1 hnd').2.2 q hq
      simp only [List.mem_range] at this
      exact Nat.le_of_not_lt fun hlt => this q hlt rfl
    · have hl : Live ms.mem L := fun q hq => by
        obtain ⟨s, hs⟩ := hL q hq
        simp [hs]
      exact ((hrs.live.append hl).append (HeldAt.live hH)) q hq
  · intro q hq
    by_cases hlt : q < m₀.top
    · exact hfr q (List.mem_range.2 hlt)
    · rw [hb q (Nat.le_of_not_lt hlt)]
      refine ho.only q ?_
      simp only [List.mem_append, List.mem_range, not_or, hperm.mem_iff] at hq ⊢
      exact ⟨hq, hlt⟩
  · have := ho.length_le
    have hl := hperm.length_eq
    simp only [List.length_append] at this
    omega

theorem HeldAt.words {m H} : ∀ {E : List (Addr × Str)} {hs},
    HeldAt m (E.map (fun e => .word e.1 e.2) ++ H) hs →
    ∃ hs', hs = E.map (·.1) ++ hs' ∧ StringsAt m (E.map (·.1)) ∧ HeldAt m H hs'
  | [], hs, h => ⟨hs, rfl, fun q hq => by simp at hq, h⟩
  | (a, s) :: E, _, h => by
    cases h with
    | cons h h' =>
      obtain ⟨hs', rfl, hE, hH⟩ := HeldAt.words h'
      cases h with
      | some h =>
        refine ⟨hs', rfl, ?_, hH⟩
        intro q hq
        rcases List.mem_cons.1 hq with rfl | hq
        · exact ⟨s, h⟩
        · exact hE q hq

/-- The values of the symbols, in memory. -/
theorem EnvAt.values_at {m : Mem} : ∀ {es : List Entry} {fs is ps},
    EnvAt (kinds es) (values es) fs is → HeldAt m is ps → ValuesAt m es ps
  | [], _, _, _, h, hh => by
    cases h
    cases hh
    exact .nil
  | e :: es, _, _, _, h, hh => by
    cases h with
    | @cons _ _ _ _ fv _ js _ hs h =>
      replace hs : SlotAt e.sym.kind e.val fv js := hs
      obtain ⟨p, q, rfl, h₁, h₂⟩ := hh.split
      refine .cons ?_ (EnvAt.values_at h h₂)
      simp only [ValueAt]
      cases hk : e.sym.kind with
      | none => rw [hk] at hs; cases hs; cases h₁; rfl
      | word =>
        rw [hk] at hs
        obtain ⟨a, s, hv, -, rfl⟩ := hs
        cases h₁ with
        | cons h₁ h₁' => cases h₁'; cases h₁ with | some h₁ => exact ⟨a, s, hv, h₁, rfl⟩
      | command =>
        rw [hk] at hs
        obtain ⟨a, s, hv, -, rfl⟩ := hs
        cases h₁ with
        | cons h₁ h₁' => cases h₁'; cases h₁ with | some h₁ => exact ⟨a, s, hv, h₁, rfl⟩
      | names =>
        rw [hk] at hs
        obtain ⟨p, l, hv, -, rfl⟩ := hs
        cases h₁ with
        | cons h₁ h₁' => cases h₁'; exact ⟨p, l, hv, by rw [List.append_nil]; exact h₁⟩
      | marked =>
        rw [hk] at hs
        obtain ⟨p, l, hv, -, rfl⟩ := hs
        cases h₁ with
        | cons h₁ h₁' => cases h₁'; exact ⟨p, l, hv, by rw [List.append_nil]; exact h₁⟩
      | av =>
        rw [hk] at hs
        obtain ⟨fl, hv, -, rfl⟩ := hs
        cases h₁
        exact ⟨fl, hv, rfl⟩
      | ifKind =>
        rw [hk] at hs
        obtain ⟨b, hv, -, rfl⟩ := hs
        cases h₁
        exact ⟨b, hv, rfl⟩

/-- The symbols, their types and their destructors. -/
theorem destructor_cases (x : Sym) :
    (x.destructor = .nothing ∧ x.kind.owning = false) ∨
    (x.destructor = .free ∧ x.kind = .word ∧ x ≠ .t .command ∧ x ≠ .n .maybeStringComma) ∨
    (x.destructor = .freeList ∧ (x.kind = .names ∨ x.kind = .marked)) ∨
    (x.destructor = .nothing ∧ x = .t .command) ∨
    (x.destructor = .nothing ∧ x = .n .maybeStringComma) := by
  cases x with
  | t x => cases x <;> simp [Sym.destructor, Sym.kind, Term.kind, Kind.owning]
  | n x => cases x <;> simp [Sym.destructor, Sym.kind, Nt.kind, Kind.owning]

variable {m₀ : Mem} {expected : PlainFlavor} {mod : Str} {maps : Maps} {c c' : Config}
  {ts : List Token} {r : Rule} {q f : Prop} {E : List (Addr × Str)} {st : PState}
  {fs : List FVal} {is : List Item} {ls : List (Option Addr × List Str)} {k : Nat} {ast : Addr} {R : List Addr}

/-- The destructors give back what they should. -/
theorem destroyAll_sound : ∀ {es : List Entry} {fs : List FVal} {is H : List Item} {ms : MState},
    EnvAt (kinds es) (values es) fs is → Inv ast m₀ R ms st (is ++ H) k →
    ∃ (m' : Mem) (V : List (Addr × Str)), destroyAll es ms.mem = .ok m' ∧ V.map (·.1) = undestroyed es ∧
      Inv ast m₀ R { ms with mem := m' } st (V.map (fun e => .word e.1 e.2) ++ H) k
  | [], _, _, H, ms, h, hi => by
    cases h
    exact ⟨ms.mem, [], rfl, rfl, hi⟩
  | e :: es, _, _, H, ms, h, hi => by
    cases h with
    | @cons _ _ _ _ fv _ js is hs h =>
      replace hs : SlotAt e.sym.kind e.val fv js := hs
      simp only [destroyAll]
      rw [List.append_assoc] at hi
      rcases destructor_cases e.sym with ⟨hd, hk⟩ | ⟨hd, hk, hn₁, hn₂⟩ | ⟨hd, hk⟩ | ⟨hd, hx⟩ |
        ⟨hd, hx⟩
      · have hj : js = [] := by
          cases hk' : e.sym.kind <;> rw [hk'] at hs hk <;> simp [Kind.owning] at hk
          · exact hs
          · exact hs.choose_spec.2.2
          · exact hs.choose_spec.2.2
        subst hj
        obtain ⟨m', V, e₁, hV, hi'⟩ := destroyAll_sound h hi
        refine ⟨m', V, by simp only [Entry.destroy, hd, Res.bind_ok, e₁], ?_, hi'⟩
        rw [hV]
        simp only [undestroyed]
        rw [List.filterMap_cons_none]
        split
        · rename_i he _
          rw [he] at hk
          cases hk
        · rename_i he _
          rw [he] at hk
          cases hk
        · rfl
      · rw [hk] at hs
        obtain ⟨a, s, hv, -, rfl⟩ := hs
        obtain ⟨ms', e', hi'⟩ := hi.free
        simp only [MState.free] at e'
        obtain ⟨m₁, e₀, h'⟩ := Res.bind_eq_ok e'
        cases h'
        obtain ⟨m', V, e₁, hV, hi''⟩ := destroyAll_sound h hi'
        refine ⟨m', V, by simp only [Entry.destroy, hd, hv, e₀, Res.bind_ok, e₁], ?_, hi''⟩
        rw [hV]
        simp only [undestroyed]
        rw [List.filterMap_cons_none]
        split
        · exact absurd ‹_› hn₁
        · exact absurd ‹_› hn₂
        · rfl
      · obtain ⟨p, l, hv, rfl⟩ : ∃ p l, e.val = .list p ∧ js = [.list p l] := by
          rcases hk with hk | hk <;> rw [hk] at hs <;> obtain ⟨p, l, hv, -, rfl⟩ := hs <;>
            exact ⟨p, _, hv, rfl⟩
        obtain ⟨ms', e', hi'⟩ := hi.freeList
        simp only [MState.freeList] at e'
        obtain ⟨m₁, e₀, h'⟩ := Res.bind_eq_ok e'
        cases h'
        obtain ⟨m', V, e₁, hV, hi''⟩ := destroyAll_sound h hi'
        refine ⟨m', V, by simp only [Entry.destroy, hd, hv, e₀, Res.bind_ok, e₁], ?_, hi''⟩
        rw [hV]
        simp only [undestroyed]
        rw [List.filterMap_cons_none]
        simp [hv]
      · rw [hx] at hs
        obtain ⟨a, s, hv, -, rfl⟩ := hs
        obtain ⟨m', V, e₁, hV, hi'⟩ := destroyAll_sound (H := .word a s :: H) h
          (hi.perm (List.perm_middle (l₁ := is)).symm)
        refine ⟨m', (a, s) :: V, by simp only [Entry.destroy, hd, Res.bind_ok, e₁], ?_,
          hi'.perm List.perm_middle⟩
        simp [undestroyed, hx, hv] at hV ⊢
        exact hV
      · rw [hx] at hs
        obtain ⟨a, s, hv, -, rfl⟩ := hs
        obtain ⟨m', V, e₁, hV, hi'⟩ := destroyAll_sound (H := .word a s :: H) h
          (hi.perm (List.perm_middle (l₁ := is)).symm)
        refine ⟨m', (a, s) :: V, by simp only [Entry.destroy, hd, Res.bind_ok, e₁], ?_,
          hi'.perm List.perm_middle⟩
        simp [undestroyed, hx, hv] at hV ⊢
        exact hV

/-- The tree is freed. -/
theorem Grows.free {m : Mem} {T X Y : List Addr} (h : Grows m₀ m (T ++ X)) (hp : X.Perm Y) :
    Grows m₀ (dropped m T) Y ∧ EqOn m (dropped m T) Y := by
  obtain ⟨hnd, hnew, hsame⟩ := h
  have hd := (List.nodup_append.1 hnd).2.2
  have hkeep : ∀ q ∈ Y, q ∉ T := fun q hq hT => hd q hT q (hp.mem_iff.2 hq) rfl
  have he : EqOn m (dropped m T) Y := fun q hq => by rw [dropped_obj, if_neg (hkeep q hq)]
  refine ⟨⟨hp.nodup (List.nodup_append.1 hnd).2.1, ?_, ?_⟩, he⟩
  · intro q hq
    rw [he q hq]
    exact hnew q (List.mem_append.2 (.inr (hp.mem_iff.2 hq)))
  · intro q hq
    rw [dropped_obj]
    split
    · exact (hnew q (List.mem_append.2 (.inl ‹_›))).1.symm
    · exact hsame q (by simp_all [hp.mem_iff])

/-- Giving up. -/
theorem At.giveUp (hb : Bounded m₀) (h : At m₀ expected mod maps q f c E st fs is ls k) :
    ∃ m L V' G, c.giveUp (root m₀) = .ok m ∧ V' = undestroyed (entries c) ∧
      Grows m₀ m (L ++ E.map (·.1) ++ V' ++ G) ∧ StringsAt m (L ++ E.map (·.1) ++ V') ∧
      ListsAt m ls G ∧ L.length ≤ k := by
  obtain ⟨m₁, V, e₁, hV, hi⟩ := destroyAll_sound h.env h.inv
  obtain ⟨T, L, hs, hT, hL, hH, hg, hk, hlen⟩ := Inv.closed hb hi
  obtain ⟨hs₁, rfl, hVs, hH⟩ := HeldAt.words hH
  obtain ⟨G, rfl, hEs, hH⟩ := HeldAt.words hH
  have hG := HeldAt.lists hH
  simp only at hT hL hVs hEs hG hg
  rw [List.append_assoc] at hg
  obtain ⟨hg', he⟩ := Grows.free hg (Y := L ++ E.map (·.1) ++ V.map (·.1) ++ G) (by
    refine perm_of_count fun {_} x => ?_
    simp only [List.count_append]
    omega)
  refine ⟨dropped m₁ T, L, V.map (·.1), G, ?_, hV, hg', ?_, hG.congr he.right, hk⟩
  · simp only [Config.giveUp]
    rw [show c.look.toList ++ c.stack = entries c from rfl, e₁]
    exact C81_tree hT hlen
  · refine Spec.StringsAt.congr ?_ he.left
    intro q hq
    simp only [List.mem_append] at hq
    rcases hq with (hq | hq) | hq
    · exact hL q hq
    · exact hEs q hq
    · exact hVs q hq

end Lr
end Selint
