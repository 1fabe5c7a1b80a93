import Verif.Lemmas.Parsing
import Verif.Lemmas.Parse
import Verif.Model.FcInMemory
import Verif.Spec.FcInMemory
/-! # Who owns what while a file context file is read -/

namespace Selint
open Spec

/-- Two lists of the same items. -/
theorem perm_of_count {α : Type} {xs ys : List α}
    (h : ∀ [DecidableEq α] (a : α), xs.count a = ys.count a) : xs.Perm ys := by
  classical exact List.perm_iff_count.2 fun a => h a

/-- Two lists of the same items. -/
macro "shuffle" : tactic =>
  `(tactic| (refine perm_of_count fun {_} a => ?_
             (simp only [List.count_append, List.count_cons, List.count_nil, Item.word]) <;> omega))

/-- The items a context consists of. -/
inductive CtxItems : Option Addr → Option SelContext → List Item → Prop
  | none : CtxItems none none []
  | some {p a₁ a₂ a₃ : Addr} {q : Option Addr} {g : Bool} {u r t : Str} {rg : Option Str} :
      CtxItems (some p) (some ⟨g, u, r, t, rg⟩)
        [.obj p (.ctx ⟨g, some a₁, some a₂, some a₃, q⟩), .word a₁ u, .word a₂ r, .word a₃ t,
          .opt q rg]

/-- parse_context does not set `has_gen_context`. -/
theorem parseContext_plain {b i b' c} (h : parseContext b i = .ok (b', some c)) :
    c.hasGenContext = false := by
  obtain ⟨s, _, h⟩ := Res.bind_eq_ok h
  split at h
  · cases h
  obtain ⟨⟨b, i, user⟩, _, h⟩ := Res.bind_eq_ok h
  cases user with
  | none => cases h
  | some u =>
    obtain ⟨_, _, h⟩ := Res.bind_eq_ok h
    obtain ⟨⟨b, i, role⟩, _, h⟩ := Res.bind_eq_ok h
    cases role with
    | none => cases h
    | some u =>
      obtain ⟨_, _, h⟩ := Res.bind_eq_ok h
      obtain ⟨⟨b, i, type⟩, _, h⟩ := Res.bind_eq_ok h
      cases type with
      | none => cases h
      | some u =>
        obtain ⟨_, _, h⟩ := Res.bind_eq_ok h
        obtain ⟨⟨b, i, range⟩, _, h⟩ := Res.bind_eq_ok h
        cases range with
        | none => cases h; rfl
        | some u =>
          obtain ⟨_, _, h⟩ := Res.bind_eq_ok h
          obtain ⟨⟨b, i, extra⟩, _, h⟩ := Res.bind_eq_ok h
          cases extra <;> cases h
          rfl

namespace Inv

variable {root : Addr} {m₀ : Mem} {R : List Addr} {ms : MState} {st : PState} {H : List Item}
  {k : Nat}

theorem noOpt (h : Inv root m₀ R ms st H k) : Inv root m₀ R ms st (.opt none none :: H) k :=
  h.regroup (is := []) (is' := [_]) fun ps hp _ => by
    cases hp
    exact ⟨[] ++ [], .cons .none .nil, .refl _⟩

theorem forget (h : Inv root m₀ R ms st (.opt none none :: H) k) : Inv root m₀ R ms st H k :=
  h.regroup (is := [_]) (is' := []) fun ps hp _ => by
    cases hp with
    | cons hp h' =>
      cases hp
      cases h'
      exact ⟨[], .nil, .refl _⟩

theorem obj_at {p o} (h : Inv root m₀ R ms st H k) (hi : .obj p o ∈ H) :
    ms.mem.obj p = some o := by
  obtain ⟨⟨T, L, hs, hT, hL, hH, ho, hk⟩, _⟩ := h
  obtain ⟨qs, hq, _⟩ := hH.mem hi
  exact hq.2

theorem write {p o} (h : Inv root m₀ R ms st (.obj p o :: H) k) (o' : Obj) :
    ∃ m, ms.mem.write p o' = .ok m ∧
      Inv root m₀ R { ms with mem := m } st (.obj p o' :: H) k := by
  obtain ⟨⟨T, L, hs, hT, hL, hH, ho, hk⟩, hf, h₁, h₂, h₃⟩ := h
  cases hH with
  | @cons _ _ ps qs hi hH =>
    obtain ⟨rfl, hi⟩ := hi
    have hnd : (p :: (T ++ L ++ qs ++ R)).Nodup := List.Perm.nodup (by pieces) ho.nodup
    have he := eqOn_wrote (m := ms.mem) (List.nodup_cons.1 hnd).1 o'
    refine ⟨_, write_wrote (by simp [hi]), ⟨T, L, [p] ++ qs, hT.congr he.left.left.left,
      hL.congr he.left.left.right, .cons ⟨rfl, wrote_self _ _ _⟩ (hH.congr he.left.right),
      ho.wrote (by simp) o', hk⟩, hf.trans he.right, h₁, h₂, h₃⟩

/-- A string that nothing points to any more. -/
theorem lose {p s} (h : Inv root m₀ R ms st (.opt p s :: H) k) :
    Inv root m₀ R ms st H (k + if s.isSome then 1 else 0) := by
  cases s with
  | none =>
    obtain ⟨⟨T, L, hs, hT, hL, hH, ho, hk⟩, hf, h₁, h₂, h₃⟩ := h
    cases hH with
    | cons hi hH =>
      cases hi
      exact ⟨⟨T, L, _, hT, hL, hH, ho, hk⟩, hf, h₁, h₂, h₃⟩
  | some s =>
    obtain ⟨⟨T, L, hs, hT, hL, hH, ho, hk⟩, hf, h₁, h₂, h₃⟩ := h
    cases hH with
    | cons hi hH =>
      cases hi with
      | @some a _ hi =>
        refine ⟨⟨T, L ++ [a], _, hT, ?_, hH, ho.perm (by pieces), ?_⟩, hf, h₁, h₂, h₃⟩
        · intro q hq
          rcases List.mem_append.1 hq with hq | hq
          · exact hL q hq
          · rw [List.mem_singleton.1 hq]; exact ⟨s, hi⟩
        · simp only [List.length_append, List.length_singleton, Option.isSome_some, if_true]
          omega

theorem freeObj {p o} (h : Inv root m₀ R ms st (.obj p o :: H) k) :
    ∃ m, ms.mem.free (some p) = .ok m ∧ Inv root m₀ R { ms with mem := m } st H k := by
  obtain ⟨ps, hi, _, h'⟩ := h.dropped
  obtain ⟨rfl, hi⟩ := hi
  exact ⟨_, free_ok (by simp [hi]), h'⟩

theorem freeOpt {p s} (h : Inv root m₀ R ms st (.opt p s :: H) k) :
    ∃ m, ms.mem.free p = .ok m ∧ Inv root m₀ R { ms with mem := m } st H k := by
  obtain ⟨ps, hi, _, h'⟩ := h.dropped
  exact ⟨_, free_optStr hi, h'⟩

theorem dupAt (h : Inv root m₀ R ms st H k) {b : LineBytes} {i : Nat} {s : Str}
    (hs : b.cstr i = .ok s) :
    ∃ a m, ms.mem.dupAt b i = .ok (a, m) ∧
      Inv root m₀ R { ms with mem := m } st (.word a s :: H) k :=
  ⟨_, _, by simp only [Mem.dupAt, hs, Res.bind_ok]; rfl, h.token s⟩

theorem setCtx {p d} (h : Inv root m₀ R ms st (.obj p (.ctx d) :: H) k) (f : CtxObj → CtxObj) :
    ∃ m, ms.mem.setCtx p f = .ok m ∧
      Inv root m₀ R { ms with mem := m } st (.obj p (.ctx (f d)) :: H) k := by
  obtain ⟨m, e, h'⟩ := h.write (.ctx (f d))
  refine ⟨m, ?_, h'⟩
  simp only [Mem.setCtx, get_eq (h.obj_at (List.mem_cons_self ..)) (f := Obj.ctx?) rfl, Res.bind_ok]
  exact e

theorem setFc {p d} (h : Inv root m₀ R ms st (.obj p (.fc d) :: H) k) (f : FcObj → FcObj) :
    ∃ m, ms.mem.setFc p f = .ok m ∧
      Inv root m₀ R { ms with mem := m } st (.obj p (.fc (f d)) :: H) k := by
  obtain ⟨m, e, h'⟩ := h.write (.fc (f d))
  refine ⟨m, ?_, h'⟩
  simp only [Mem.setFc, get_eq (h.obj_at (List.mem_cons_self ..)) (f := Obj.fc?) rfl, Res.bind_ok]
  exact e

theorem freeSelContext {p d u r t g}
    (h : Inv root m₀ R ms st (.obj p (.ctx d) :: .opt d.user u :: .opt d.role r ::
      .opt d.type t :: .opt d.range g :: H) k) :
    ∃ m, ms.mem.freeSelContext p = .ok m ∧ Inv root m₀ R { ms with mem := m } st H k := by
  have e₀ := get_eq (h.obj_at (List.mem_cons_self ..)) (f := Obj.ctx?) rfl
  obtain ⟨m₁, e₁, h₁⟩ := (h.perm (H' := .opt d.user u :: .opt d.role r ::
      .opt d.type t :: .opt d.range g :: .obj p (.ctx d) :: H) (by shuffle)).freeOpt
  obtain ⟨m₂, e₂, h₂⟩ := h₁.freeOpt
  obtain ⟨m₃, e₃, h₃⟩ := h₂.freeOpt
  obtain ⟨m₄, e₄, h₄⟩ := h₃.freeOpt
  obtain ⟨m₅, e₅, h₅⟩ := h₄.freeObj
  exact ⟨m₅, by simp only [Mem.freeSelContext, e₀, e₁, e₂, e₃, e₄, e₅, Res.bind_ok], h₅⟩

theorem dropCtx {p d u r t g}
    (h : Inv root m₀ R ms st (.obj p (.ctx d) :: .opt d.user u :: .opt d.role r ::
      .opt d.type t :: .opt d.range g :: H) k) (b : LineBytes) :
    ∃ m, ms.mem.dropCtx p b = .ok (b, none, m) ∧ Inv root m₀ R { ms with mem := m } st H k := by
  obtain ⟨m, e, h'⟩ := h.freeSelContext
  exact ⟨m, by simp only [Mem.dropCtx, e, Res.bind_ok], h'⟩

theorem contextParts {p b i b' r}
    (h : Inv root m₀ R ms st (.obj p (.ctx ⟨false, none, none, none, none⟩) :: H) k)
    (hr : Selint.contextParts b i = .ok (b', r)) :
    ∃ q m is, ms.mem.contextParts p b i = .ok (b', q, m) ∧ CtxItems q r is ∧
      Inv root m₀ R { ms with mem := m } st (is ++ H) k := by
  have h := h.perm (H' := .obj p (.ctx ⟨false, none, none, none, none⟩) :: H) (.refl _)
  unfold Selint.contextParts at hr
  obtain ⟨⟨b₁, i₁, user⟩, e₁, hr⟩ := Res.bind_eq_ok hr
  simp only [Mem.contextParts, e₁, Res.bind_ok]
  cases user with
  | none =>
    cases hr
    obtain ⟨m, e, h'⟩ := (h.noOpt.noOpt.noOpt.noOpt.perm (by shuffle)).dropCtx
      (p := p) (d := ⟨false, none, none, none, none⟩) (H := H)
      (u := none) (r := none) (t := none) (g := none) b'
    exact ⟨none, m, [], e, .none, h'⟩
  | some u =>
    obtain ⟨su, eu, hr⟩ := Res.bind_eq_ok hr
    obtain ⟨a₁, m₁, d₁, h⟩ := h.dupAt eu
    obtain ⟨m₁', s₁, h⟩ := h.swap.setCtx (fun d => { d with user := some a₁ })
    simp only at d₁ s₁ h
    simp only [d₁, s₁, Res.bind_ok]
    obtain ⟨⟨b₂, i₂, role⟩, e₂, hr⟩ := Res.bind_eq_ok hr
    simp only [e₂, Res.bind_ok]
    cases role with
    | none =>
      cases hr
      obtain ⟨m, e, h'⟩ := (h.noOpt.noOpt.noOpt.perm (by shuffle)).dropCtx
        (p := p) (d := ⟨false, some a₁, none, none, none⟩) (H := H)
        (u := some su) (r := none) (t := none) (g := none) b'
      exact ⟨none, m, [], e, .none, h'⟩
    | some r =>
      obtain ⟨sr, er, hr⟩ := Res.bind_eq_ok hr
      obtain ⟨a₂, m₂, d₂, h⟩ := h.dupAt er
      obtain ⟨m₂', s₂, h⟩ := h.swap.setCtx (fun d => { d with role := some a₂ })
      simp only at d₂ s₂ h
      simp only [d₂, s₂, Res.bind_ok]
      obtain ⟨⟨b₃, i₃, type⟩, e₃, hr⟩ := Res.bind_eq_ok hr
      simp only [e₃, Res.bind_ok]
      cases type with
      | none =>
        cases hr
        obtain ⟨m, e, h'⟩ := (h.noOpt.noOpt.perm (by shuffle)).dropCtx
          (p := p) (d := ⟨false, some a₁, some a₂, none, none⟩) (H := H)
          (u := some su) (r := some sr) (t := none) (g := none) b'
        exact ⟨none, m, [], e, .none, h'⟩
      | some t =>
        obtain ⟨st', et, hr⟩ := Res.bind_eq_ok hr
        obtain ⟨a₃, m₃, d₃, h⟩ := h.dupAt et
        obtain ⟨m₃', s₃, h⟩ := h.swap.setCtx (fun d => { d with type := some a₃ })
        simp only at d₃ s₃ h
        simp only [d₃, s₃, Res.bind_ok]
        obtain ⟨⟨b₄, i₄, range⟩, e₄, hr⟩ := Res.bind_eq_ok hr
        simp only [e₄, Res.bind_ok]
        cases range with
        | none =>
          cases hr
          exact ⟨_, _, _, rfl, .some (a₁ := a₁) (a₂ := a₂) (a₃ := a₃) (q := none),
            h.noOpt.perm (by shuffle)⟩
        | some g =>
          obtain ⟨sg, eg, hr⟩ := Res.bind_eq_ok hr
          obtain ⟨a₄, m₄, d₄, h⟩ := h.dupAt eg
          obtain ⟨m₄', s₄, h⟩ := h.swap.setCtx (fun d => { d with range := some a₄ })
          simp only at d₄ s₄ h
          simp only [d₄, s₄, Res.bind_ok]
          obtain ⟨⟨b₅, i₅, extra⟩, e₅, hr⟩ := Res.bind_eq_ok hr
          simp only [e₅, Res.bind_ok]
          cases extra with
          | none =>
            cases hr
            exact ⟨_, _, _, rfl, .some (a₁ := a₁) (a₂ := a₂) (a₃ := a₃) (q := some a₄),
              h.perm (by shuffle)⟩
          | some x =>
            cases hr
            obtain ⟨m, e, h'⟩ := (h.perm (by shuffle)).dropCtx
              (p := p) (d := ⟨false, some a₁, some a₂, some a₃, some a₄⟩) (H := H)
              (u := some su) (r := some sr) (t := some st') (g := some sg) b'
            exact ⟨none, m, [], e, .none, h'⟩

theorem parseContext {b i b' r} (h : Inv root m₀ R ms st H k)
    (hr : Selint.parseContext b i = .ok (b', r)) :
    ∃ q m is, ms.mem.parseContext b i = .ok (b', q, m) ∧ CtxItems q r is ∧
      Inv root m₀ R { ms with mem := m } st (is ++ H) k := by
  obtain ⟨s, es, hr⟩ := Res.bind_eq_ok hr
  simp only [Mem.parseContext, es, Res.bind_ok]
  split at hr
  · cases hr
    rw [if_pos ‹_›]
    exact ⟨_, _, _, rfl, .none, h⟩
  · rw [if_neg ‹_›]
    exact (h.malloc _).contextParts hr


/-- What remains of a label, with `l` strings lost on the way. -/
def Label (root : Addr) (m₀ : Mem) (R : List Addr) (ms : MState) (st : PState)
    (H : List Item) (k : Nat) (e : Addr) (d : FcObj) (m : Mem) (r : Option SelContext) : Prop :=
  ∃ q is l, CtxItems q r is ∧ l ≤ (if (r.map SelContext.hasGenContext) = some true then 1 else 0) ∧
    Inv root m₀ R { ms with mem := m } st
      (.obj e (.fc { d with context := q }) :: is ++ H) (k + l)

theorem nothing {e d} (h : Inv root m₀ R ms st (.obj e (.fc d) :: H) k) (hd : d.context = none) :
    Label root m₀ R ms st H k e d ms.mem none :=
  ⟨none, [], 0, .none, by simp, by rw [← hd]; exact h⟩

theorem finishGen {e : Addr} {d : FcObj} {b i s c r}
    (h : Inv root m₀ R ms st (.obj e (.fc d) :: H) k)
    (hr : Selint.finishGen b i s c = .ok r) :
    ∃ m, ms.mem.finishGen e b i s c = .ok (r.isSome, m) ∧ Label root m₀ R ms st H k e d m r := by
  obtain ⟨⟨b', c₀⟩, e₀, hr⟩ := Res.bind_eq_ok hr
  obtain ⟨q, m, is, e₁, hc, h⟩ := h.parseContext e₀
  obtain ⟨m', e₂, h⟩ := (h.perm (H' := .obj e (.fc d) :: (is ++ H)) (by shuffle)).setFc
    (fun d => { d with context := q })
  simp only at e₂ h
  simp only [Mem.finishGen, e₁, e₂, Res.bind_ok]
  cases hc with
  | none =>
    cases hr
    exact ⟨_, rfl, none, [], 0, .none, by simp, h⟩
  | @some p a₁ a₂ a₃ q g u ro t rg =>
    obtain ⟨m, e₃, h⟩ := (h.perm (H' := .obj p (.ctx ⟨g, some a₁, some a₂, some a₃, q⟩) ::
      .word a₁ u :: .word a₂ ro :: .word a₃ t :: .opt q rg ::
      .obj e (.fc { d with context := some p }) :: H) (by shuffle)).setCtx
      (fun d => { d with hasGenContext := true })
    simp only at e₃ h
    simp only [e₃, Res.bind_ok]
    have hl : (if rg.isSome then 1 else 0) ≤ 1 := by split <;> omega
    match s, c with
    | some s, some c =>
      obtain ⟨ss, es, hr⟩ := Res.bind_eq_ok hr
      obtain ⟨sc, ec, hr⟩ := Res.bind_eq_ok hr
      cases hr
      simp only [es, ec, Res.bind_ok]
      obtain ⟨m', e₄, h⟩ := (h.token (ss ++ cs!":" ++ sc)).swap.setCtx
        (fun d => { d with range := some m.top })
      simp only at e₄ h
      refine ⟨m', ?_, some p, _, _, .some (a₁ := a₁) (a₂ := a₂) (a₃ := a₃) (q := some m.top), hl,
        (h.perm (H' := .opt q rg :: _) (by shuffle)).lose⟩
      exact congrArg (· >>= fun m => Res.ok (true, m)) e₄
    | some s, none =>
      obtain ⟨ss, es, hr⟩ := Res.bind_eq_ok hr
      cases hr
      obtain ⟨a, m', e₃, h⟩ := h.dupAt es
      simp only at e₃ h
      obtain ⟨m', e₄, h⟩ := h.swap.setCtx (fun d => { d with range := some a })
      simp only at e₄ h
      simp only [e₃, e₄, Res.bind_ok]
      exact ⟨m', rfl, some p, _, _, .some (a₁ := a₁) (a₂ := a₂) (a₃ := a₃) (q := some a), hl,
        (h.perm (H' := .opt q rg :: _) (by shuffle)).lose⟩
    | none, c =>
      have hr : Res.ok (some (⟨true, u, ro, t, none⟩ : SelContext)) = .ok r := by
        cases c <;> exact hr
      cases hr
      obtain ⟨m', e₄, h⟩ := h.setCtx (fun d => { d with range := none })
      simp only at e₄ h
      simp only [e₄, Res.bind_ok]
      exact ⟨m', rfl, some p, _, _, .some (a₁ := a₁) (a₂ := a₂) (a₃ := a₃) (q := none), hl,
        (h.noOpt.perm (H' := .opt q rg :: _) (by shuffle)).lose⟩

theorem finishCategory {e : Addr} {d : FcObj} {b i s c j r}
    (h : Inv root m₀ R ms st (.obj e (.fc d) :: H) k) (hd : d.context = none)
    (hr : Selint.finishCategory b i s c j = .ok r) :
    ∃ m, ms.mem.finishCategory e b i s c j = .ok (r.isSome, m) ∧
      Label root m₀ R ms st H k e d m r := by
  obtain ⟨j', e₁, hr⟩ := Res.bind_eq_ok hr
  obtain ⟨x, e₂, hr⟩ := Res.bind_eq_ok hr
  simp only [Mem.finishCategory, e₁, e₂, Res.bind_ok]
  split at hr
  · cases hr
    rw [if_pos ‹_›]
    exact ⟨_, rfl, h.nothing hd⟩
  · rw [if_neg ‹_›]
    obtain ⟨b', e₃, hr⟩ := Res.bind_eq_ok hr
    obtain ⟨c', e₄, hr⟩ := Res.bind_eq_ok hr
    simp only [e₃, e₄, Res.bind_ok]
    exact h.finishGen hr

theorem genWithLevel {e : Addr} {d : FcObj} {b i s c r}
    (h : Inv root m₀ R ms st (.obj e (.fc d) :: H) k) (hd : d.context = none)
    (hr : Selint.genWithLevel b i s c = .ok r) :
    ∃ m, ms.mem.genWithLevel e b i s c = .ok (r.isSome, m) ∧
      Label root m₀ R ms st H k e d m r := by
  obtain ⟨j', e₁, hr⟩ := Res.bind_eq_ok hr
  obtain ⟨x, e₂, hr⟩ := Res.bind_eq_ok hr
  simp only [Mem.genWithLevel, e₁, e₂, Res.bind_ok]
  split at hr
  · cases hr
    rw [if_pos ‹_›]
    exact ⟨_, rfl, h.nothing hd⟩
  · rw [if_neg ‹_›]
    obtain ⟨b', e₃, hr⟩ := Res.bind_eq_ok hr
    obtain ⟨s', e₄, hr⟩ := Res.bind_eq_ok hr
    simp only [e₃, e₄, Res.bind_ok]
    cases c with
    | none => exact h.finishGen hr
    | some c => exact h.finishCategory hd hr

theorem genWithoutLevel {e : Addr} {d : FcObj} {b i r}
    (h : Inv root m₀ R ms st (.obj e (.fc d) :: H) k) (hd : d.context = none)
    (hr : Selint.genWithoutLevel b i = .ok r) :
    ∃ m, ms.mem.genWithoutLevel e b i = .ok (r.isSome, m) ∧
      Label root m₀ R ms st H k e d m r := by
  obtain ⟨j', e₁, hr⟩ := Res.bind_eq_ok hr
  obtain ⟨x, e₂, hr⟩ := Res.bind_eq_ok hr
  simp only [Mem.genWithoutLevel, e₁, e₂, Res.bind_ok]
  split at hr
  · cases hr
    rw [if_pos ‹_›]
    exact ⟨_, rfl, h.nothing hd⟩
  · rw [if_neg ‹_›]
    obtain ⟨b', e₃, hr⟩ := Res.bind_eq_ok hr
    simp only [e₃, Res.bind_ok]
    exact h.finishGen hr

theorem genContext {e : Addr} {d : FcObj} {b i r}
    (h : Inv root m₀ R ms st (.obj e (.fc d) :: H) k) (hd : d.context = none)
    (hr : Selint.genContext b i = .ok r) :
    ∃ m, ms.mem.genContext e b i = .ok (r.isSome, m) ∧
      Label root m₀ R ms st H k e d m r := by
  obtain ⟨⟨b', i', ctx⟩, e₁, hr⟩ := Res.bind_eq_ok hr
  simp only [Mem.genContext, e₁, Res.bind_ok]
  cases ctx with
  | none => cases hr; exact ⟨_, rfl, h.nothing hd⟩
  | some ctx =>
    obtain ⟨⟨b', i', s⟩, e₂, hr⟩ := Res.bind_eq_ok hr
    simp only [e₂, Res.bind_ok]
    cases s with
    | none => exact h.genWithoutLevel hd hr
    | some s =>
      obtain ⟨⟨b', i', c⟩, e₃, hr⟩ := Res.bind_eq_ok hr
      simp only [e₃, Res.bind_ok]
      exact h.genWithLevel hd hr

/-- The context of a label. -/
def _root_.Selint.FcLabel.ctx : FcLabel → Option SelContext
  | .context c => some c
  | _ => none

/-- A label that is no error. -/
def _root_.Selint.FcLabel.good : FcLabel → Bool
  | .bad => false
  | _ => true

theorem fcLabel {e : Addr} {d : FcObj} {b i r}
    (h : Inv root m₀ R ms st (.obj e (.fc d) :: H) k) (hd : d.context = none)
    (hr : Selint.fcLabel b i = .ok r) :
    ∃ m, ms.mem.fcLabel e b i = .ok (r.good, m) ∧ Label root m₀ R ms st H k e d m r.ctx := by
  obtain ⟨s, e₁, hr⟩ := Res.bind_eq_ok hr
  simp only [Mem.fcLabel, e₁, Res.bind_ok]
  split at hr
  · rw [if_pos ‹_›]
    obtain ⟨c, e₂, hr⟩ := Res.bind_eq_ok hr
    obtain ⟨m, e₃, hl⟩ := h.genContext hd e₂
    refine ⟨m, ?_, ?_⟩
    · rw [e₃]; cases c <;> cases hr <;> rfl
    · cases c <;> cases hr <;> exact hl
  · rw [if_neg ‹_›]
    split at hr
    · rw [if_pos ‹_›]
      cases hr
      obtain ⟨m, e₂, h⟩ := h.setFc (fun d => { d with context := none })
      simp only [e₂, Res.bind_ok]
      exact ⟨m, rfl, none, [], 0, .none, by simp [FcLabel.ctx], h⟩
    · rw [if_neg ‹_›]
      obtain ⟨⟨b', c₀⟩, e₀, hr⟩ := Res.bind_eq_ok hr
      obtain ⟨q, m, is, e₁, hc, h⟩ := h.parseContext e₀
      obtain ⟨m', e₂, h⟩ := (h.perm (H' := .obj e (.fc d) :: (is ++ H)) (by shuffle)).setFc
        (fun d => { d with context := q })
      simp only at e₂ h
      simp only [e₁, e₂, Res.bind_ok]
      cases hc with
      | none =>
        cases hr
        exact ⟨_, rfl, none, [], 0, .none, by simp [FcLabel.ctx], h⟩
      | @some p a₁ a₂ a₃ q g u ro t rg =>
        cases hr
        obtain rfl : g = false := parseContext_plain e₀
        obtain ⟨m, e₃, h⟩ := (h.perm (H' := .obj p (.ctx ⟨false, some a₁, some a₂, some a₃, q⟩) ::
          .word a₁ u :: .word a₂ ro :: .word a₃ t :: .opt q rg ::
          .obj e (.fc { d with context := some p }) :: H) (by shuffle)).setCtx
          (fun d => { d with hasGenContext := false })
        simp only at e₃ h
        simp only [e₃, Res.bind_ok]
        exact ⟨m, rfl, some p, _, 0, .some (a₁ := a₁) (a₂ := a₂) (a₃ := a₃) (q := q), by omega,
          h.perm (by shuffle)⟩

/-- What remains of a line, with `l` strings lost on the way. -/
def Line (root : Addr) (m₀ : Mem) (R : List Addr) (ms : MState) (st : PState)
    (H : List Item) (k : Nat) (e : Addr) (m : Mem) (r : Option FcEntry) : Prop :=
  ∃ a s q c is l obj, CtxItems q c is ∧
    l ≤ (if (c.map SelContext.hasGenContext) = some true then 1 else 0) ∧
    (∀ x, r = some x → s = some x.path ∧ c = x.context ∧ obj = x.obj) ∧ (r = none → c = none) ∧
    Inv root m₀ R { ms with mem := m } st
      (.obj e (.fc ⟨a, obj, q⟩) :: .opt a s :: is ++ H) (k + l)

theorem Label.line {e a s obj m c r}
    (h : Label root m₀ R ms st (.opt a s :: H) k e ⟨a, obj, none⟩ m c)
    (hr : ∀ x, r = some x → s = some x.path ∧ c = x.context ∧ obj = x.obj)
    (hn : r = none → c = none) : Line root m₀ R ms st H k e m r := by
  obtain ⟨q, is, l, hc, hl, h⟩ := h
  exact ⟨a, s, q, c, is, l, obj, hc, hl, hr, hn, h.perm (by shuffle)⟩

theorem fcFinish {e orig : Addr} {a so obj b i r path}
    (h : Inv root m₀ R ms st
      (.obj e (.fc ⟨some a, obj, none⟩) :: .word a path :: .word orig so :: H) k)
    (hr : Selint.fcFinish b so path obj i = .ok r) :
    ∃ m, ms.mem.fcFinish e orig b i = .ok (r.isSome, m) ∧
      Line root m₀ R ms st (.word orig so :: H) k e m r := by
  obtain ⟨b', e₁, hr⟩ := Res.bind_eq_ok hr
  obtain ⟨lb, e₂, hr⟩ := Res.bind_eq_ok hr
  obtain ⟨m, e₃, h'⟩ := h.fcLabel rfl e₂
  have e₀ : ms.mem.get Obj.str? orig = .ok so := h.word_at (by simp)
  simp only [Mem.fcFinish, e₀, e₁, e₃, Res.bind_ok]
  refine ⟨m, ?_, h'.line ?_ ?_⟩ <;> cases lb <;> cases hr <;> simp [FcLabel.good, FcLabel.ctx]

theorem fcSecond {e orig : Addr} {a so b p i r path}
    (h : Inv root m₀ R ms st
      (.obj e (.fc ⟨some a, none, none⟩) :: .word a path :: .word orig so :: H) k)
    (hr : Selint.fcSecond b so path p i = .ok r) :
    ∃ m, ms.mem.fcSecond e orig b p i = .ok (r.isSome, m) ∧
      Line root m₀ R ms st (.word orig so :: H) k e m r := by
  obtain ⟨x, e₁, hr⟩ := Res.bind_eq_ok hr
  simp only [Mem.fcSecond, e₁, Res.bind_ok]
  split at hr
  · rw [if_pos ‹_›]
    obtain ⟨y, e₂, hr⟩ := Res.bind_eq_ok hr
    simp only [e₂, Res.bind_ok]
    split at hr
    · rw [if_pos ‹_›]
      cases hr
      exact ⟨_, rfl, (h.nothing rfl).line (by simp) (by simp)⟩
    · rw [if_neg ‹_›]
      obtain ⟨o, e₃, hr⟩ := Res.bind_eq_ok hr
      obtain ⟨m, e₄, h⟩ := h.setFc (fun d => { d with obj := charField o })
      simp only at e₄ h
      obtain ⟨⟨b', i', tok⟩, e₅, hr⟩ := Res.bind_eq_ok hr
      simp only [e₃, e₄, e₅, Res.bind_ok]
      cases tok with
      | none =>
        cases hr
        exact ⟨m, rfl, (h.nothing rfl).line (r := none) (by simp) (by simp)⟩
      | some q => exact h.fcFinish hr
  · rw [if_neg ‹_›]
    exact h.fcFinish hr

/-- An entry without a context. -/
theorem freeFcEntry {e : Addr} {a s obj}
    (h : Inv root m₀ R ms st (.obj e (.fc ⟨a, obj, none⟩) :: .opt a s :: H) k) :
    ∃ m, ms.mem.freeFcEntry (some e) = .ok m ∧ Inv root m₀ R { ms with mem := m } st H k := by
  have e₀ := get_eq (h.obj_at (List.mem_cons_self ..)) (f := Obj.fc?) rfl
  obtain ⟨m₁, e₁, h⟩ := h.swap.freeOpt
  obtain ⟨m₂, e₂, h⟩ := h.freeObj
  simp only at e₁ e₂
  exact ⟨m₂, by simp only [Mem.freeFcEntry, Mem.freeContextIf, e₀, e₁, e₂, Res.bind_ok], h⟩

/-- An entry is node data. -/
theorem fcData {e : Addr} {a obj q c is path}
    (h : Inv root m₀ R ms st (.obj e (.fc ⟨a, obj, q⟩) :: .opt a (some path) :: is ++ H) k)
    (hc : CtxItems q c is) :
    Inv root m₀ R ms st (.data (some e) (.fc ⟨path, obj, c⟩) :: H) k := by
  refine h.regroup (is := .obj e (.fc ⟨a, obj, q⟩) :: .opt a (some path) :: is) (is' := [_])
    fun ps hp hnd => ?_
  cases hp with
  | cons hp h' =>
    obtain ⟨rfl, hp⟩ := hp
    cases h' with
    | @cons _ _ p₁ p₂ h₁ h₂ =>
      have hx : ∃ p₃, CtxAt ms.mem q c p₃ ∧ p₃.Perm p₂ := by
        cases hc with
        | none => cases h₂; exact ⟨[], .none, .refl _⟩
        | some =>
          cases h₂ with
          | cons hp h₂ =>
            obtain ⟨rfl, hp⟩ := hp
            cases h₂ with
            | cons hu h₂ =>
              cases h₂ with
              | cons hr h₂ =>
                cases h₂ with
                | cons ht h₂ =>
                  cases h₂ with
                  | cons hg h₂ =>
                    cases h₂
                    cases hu with
                    | some hu =>
                      cases hr with
                      | some hr =>
                        cases ht with
                        | some ht =>
                          refine ⟨_, .some hp rfl (.mk hu) (.mk hr) (.mk ht) hg ?_, ?_⟩
                          · refine List.Perm.nodup ?_ (List.nodup_append.1
                              (List.nodup_append.1 hnd).2.1).2.1
                            pieces
                          · pieces
      obtain ⟨p₃, hx, hperm⟩ := hx
      have hpp : (p₁ ++ p₃ ++ [e]).Perm ([e] ++ (p₁ ++ p₂)) :=
        (List.perm_append_comm ..).trans ((hperm.append_left _).append_left _)
      cases h₁ with
      | some h₁ =>
        refine ⟨_, .cons (.fc hp rfl (.mk h₁) hx (hpp.nodup_iff.2 hnd)) .nil, ?_⟩
        rw [List.append_nil]
        exact hpp

theorem fcBody {e orig : Addr} {so b r}
    (h : Inv root m₀ R ms st (.obj e (.fc ⟨none, none, none⟩) :: .word orig so :: H) k)
    (h₀ : b.cstr 0 = .ok so) (hr : Selint.parseFcLine b = .ok r) :
    ∃ m, ms.mem.fcBody e orig b = .ok (r.isSome, m) ∧
      Line root m₀ R ms st (.word orig so :: H) k e m r := by
  unfold Selint.parseFcLine at hr
  simp only [h₀, Res.bind_ok] at hr
  obtain ⟨⟨b', i, tok⟩, e₁, hr⟩ := Res.bind_eq_ok hr
  simp only [Mem.fcBody, e₁, Res.bind_ok]
  cases tok with
  | none =>
    cases hr
    exact ⟨_, rfl, (h.noOpt.swap.nothing rfl).line (r := none) (by simp) (by simp)⟩
  | some p =>
    obtain ⟨path, e₂, hr⟩ := Res.bind_eq_ok hr
    obtain ⟨a, m, e₃, h⟩ := h.dupAt e₂
    obtain ⟨m, e₄, h⟩ := h.swap.setFc (fun d => { d with path := some a })
    simp only at e₃ e₄ h
    obtain ⟨⟨b', i, tok⟩, e₅, hr⟩ := Res.bind_eq_ok hr
    simp only [e₃, e₄, e₅, Res.bind_ok]
    cases tok with
    | none =>
      cases hr
      exact ⟨m, rfl, (h.nothing rfl).line (r := none) (by simp) (by simp)⟩
    | some p => exact h.fcSecond hr

/-- The data of the node of a line. -/
def _root_.Selint.fcData (r : Option FcEntry) : NodeData :=
  match r with
  | none => .plain .error none
  | some e => .fc e

theorem parseFcLine {b r} (h : Inv root m₀ R ms st H k) (hr : Selint.parseFcLine b = .ok r) :
    ∃ q m l, ms.mem.parseFcLine b = .ok (q, m) ∧ l ≤ genContexts (Selint.fcData r) ∧
      q.isNone = r.isNone ∧
      Inv root m₀ R { ms with mem := m } st (.data q (Selint.fcData r) :: H) (k + l) := by
  obtain ⟨so, e₁, _⟩ := Res.bind_eq_ok hr
  have h := h.malloc (.fc ⟨none, none, none⟩)
  obtain ⟨o, m, e₂, h⟩ := h.dupAt e₁
  obtain ⟨m', e₃, hl⟩ := h.swap.fcBody e₁ hr
  obtain ⟨a, s, q, c, is, l, obj, hc, hl, hx, hn, h⟩ := hl
  obtain ⟨m'', e₄, h⟩ := (h.perm (H' := .word o so :: (.obj ms.mem.top (.fc ⟨a, obj, q⟩) ::
    .opt a s :: is ++ H)) (by shuffle)).freeOpt
  simp only at e₂ e₃ e₄ h
  have e₀ : ms.mem.parseFcLine b = if r.isSome then .ok (some ms.mem.top, m'') else
      (m''.freeFcEntry (some ms.mem.top)) >>= fun m => .ok (none, m) := by
    unfold Mem.parseFcLine
    simp only [malloc_fst, e₂, e₃, e₄, Res.bind_ok]
  cases r with
  | none =>
    obtain rfl := hn rfl
    cases hc
    obtain ⟨m₃, e₅, h⟩ := h.freeFcEntry
    simp only at e₅
    refine ⟨none, m₃, l, by simp [e₀, e₅], ?_, rfl, h.noData _⟩
    simpa [genContexts, Selint.fcData] using hl
  | some x =>
    obtain ⟨rfl, rfl, rfl⟩ := hx x rfl
    refine ⟨some ms.mem.top, m'', l, by simp [e₀], ?_, rfl, h.fcData hc⟩
    obtain ⟨_, _, c⟩ := x
    cases c with
    | none => simpa [genContexts, Selint.fcData] using hl
    | some c => simpa [genContexts, Selint.fcData] using hl

/-- The buffer of `getline`, if there is one. -/
def bufferItem : Option Addr → List Item
  | none => []
  | some l => [.obj l .raw]

theorem lineBuffer {line} (h : Inv root m₀ R ms st (bufferItem line ++ H) k) :
    ∃ l m, ms.mem.lineBuffer line = (l, m) ∧
      Inv root m₀ R { ms with mem := m } st (.obj l .raw :: H) k := by
  cases line with
  | some l => exact ⟨l, ms.mem, rfl, h⟩
  | none => exact ⟨_, _, rfl, h.malloc .raw⟩

theorem parseFcLines (macros : List Str) (ins : List FcInput) :
    ∀ {n ns ms st k line}, Inv root m₀ R ms st (bufferItem line ++ H) k →
      Selint.parseFcLines macros ins n = .ok ns →
      ∃ ms' l, Mem.parseFcLines macros ins n ms.mem ms.cur line = .ok (ms'.cur, ms'.mem) ∧
        l ≤ (ns.map fun n => genContexts n.data).sum ∧
        Inv root m₀ R ms' (ns.foldl (fun st n => st.statement n.data n.lineno) st) H (k + l) := by
  induction ins with
  | nil =>
    intro n ns ms st k line h hr
    cases hr
    obtain ⟨l, m, e₁, h⟩ := h.lineBuffer
    obtain ⟨m', e₂, h⟩ := h.freeObj
    simp only at e₂
    refine ⟨_, 0, ?_, by simp, h⟩
    simp only [Mem.parseFcLines, e₁, e₂, Res.bind_ok]
  | cons inp ins ih =>
    intro n ns ms st k line h hr
    unfold Selint.parseFcLines at hr
    unfold Mem.parseFcLines
    obtain ⟨l, m, e₁, h⟩ := h.lineBuffer
    simp only [e₁]
    split at hr
    · rw [if_pos ‹_›]
      exact ih (line := some l) h hr
    · rw [if_neg ‹_›]
      obtain ⟨nd, e₂, hr⟩ := Res.bind_eq_ok hr
      obtain ⟨ns', e₃, hr⟩ := Res.bind_eq_ok hr
      cases hr
      obtain ⟨r, e₄, e₂⟩ := Res.bind_eq_ok e₂
      have e₅ : nd = ⟨Selint.fcData r, n + 1⟩ := by cases r <;> cases e₂ <;> rfl
      subst e₅
      obtain ⟨q, m', l', e₆, hl, hq, h⟩ := h.parseFcLine e₄
      simp only at e₆
      obtain ⟨ms', e₇, h⟩ := h.addNext (n + 1)
      obtain ⟨m'', e₈, h⟩ := h.freeObj
      obtain ⟨ms'', l'', e₉, hl', h⟩ := ih (line := none) h e₃
      refine ⟨ms'', l' + l'', ?_, by simp; omega, by rw [← Nat.add_assoc]; exact h⟩
      have ef : (Selint.fcData r).flavor = if q.isNone then .error else .fcEntry := by
        rw [hq]; cases r <;> rfl
      rw [ef] at e₇
      simp only [MState.addNext] at e₇
      obtain ⟨mi, ei, e₇⟩ := Res.bind_eq_ok e₇
      obtain ⟨nn, en, e₇⟩ := Res.bind_eq_ok e₇
      simp only [e₆, ei, en, Res.bind_ok]
      cases hnx : nn.next with
      | none => rw [hnx] at e₇; cases e₇
      | some q =>
        rw [hnx] at e₇
        cases e₇
        simp only at e₈ e₉
        simp only [e₈, e₉, Res.bind_ok]

end Inv

end Selint
