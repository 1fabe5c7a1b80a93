import Verif.Lemmas.Owning
import Verif.Lemmas.Maps
import Verif.Spec.MapsInMemory
import Verif.Props.StringLists
/-! # The symbol tables in memory -/

namespace Selint

open Spec

variable {β : Type} {E : Mem → Addr → Str → β → List Addr → Prop}

/-- What an element looks like depends on the objects it consists of and on no others. -/
def LocalElem (E : Mem → Addr → Str → β → List Addr → Prop) : Prop :=
  ∀ ⦃m m' p k v R⦄, E m p k v R → EqOn m m' R → E m' p k v R

/-- All objects of an element are allocated. -/
def LiveElem (E : Mem → Addr → Str → β → List Addr → Prop) : Prop :=
  ∀ ⦃m p k v R⦄, E m p k v R → Live m R

/-- Where the key of an element is. -/
def KeyElem (key : Obj → Option (Option Addr)) (E : Mem → Addr → Str → β → List Addr → Prop) :
    Prop :=
  ∀ ⦃m p k v R⦄, E m p k v R → ∃ a, m.get key p = .ok (some a) ∧ m.obj a = some (.bytes k)

theorem local_str : LocalElem StrElem := by
  rintro m m' p k v R ⟨a, b, h₁, h₂, h₃, rfl⟩ he
  exact ⟨a, b, by rw [he _ (by simp)]; exact h₁, by rw [he _ (by simp)]; exact h₂,
    by rw [he _ (by simp)]; exact h₃, rfl⟩

theorem local_flag : LocalElem FlagElem := by
  rintro m m' p k v R ⟨a, h₁, h₂, rfl⟩ he
  exact ⟨a, by rw [he _ (by simp)]; exact h₁, by rw [he _ (by simp)]; exact h₂, rfl⟩

theorem local_macro : LocalElem MacroElem := by
  rintro m m' p k v R ⟨a, l, ps, h₁, h₂, h₃, rfl⟩ he
  exact ⟨a, l, ps, by rw [he _ (by simp)]; exact h₁, by rw [he _ (by simp)]; exact h₂,
    h₃.congr (he.mono (by grind)), rfl⟩

theorem local_template (callOf : Addr → IfCallData) : LocalElem (TemplateAt callOf) := by
  rintro m m' p k v R ⟨a, d, c, cs, ps, qs, h₁, h₂, h₃, h₄, h₅, rfl⟩ he
  exact ⟨a, d, c, cs, ps, qs, by rw [he _ (by simp)]; exact h₁,
    by rw [he _ (by simp)]; exact h₂, h₃.congr (he.mono (by grind)),
    h₄.congr (he.mono (by grind)), h₅, rfl⟩

theorem Spec.DeclsAt.live {m p ds ps} (h : DeclsAt m p ds ps) : Live m ps := by
  induction h with
  | nil => intro q; grind
  | cons h h₁ _ _ ih => exact (h₁.live.append (live_one h)).append ih

theorem Spec.CallsAt.live {m p ds ps} (h : CallsAt m p ds ps) : Live m ps := by
  induction h with
  | nil => intro q; grind
  | cons h _ _ ih => exact (live_one h).append ih

theorem live_str : LiveElem StrElem := by
  rintro m p k v R ⟨a, b, h₁, h₂, h₃, rfl⟩
  exact (live_one h₂).append ((live_one h₃).append (live_one h₁))

theorem live_flag : LiveElem FlagElem := by
  rintro m p k v R ⟨a, h₁, h₂, rfl⟩
  exact (live_one h₂).append (live_one h₁)

theorem live_macro : LiveElem MacroElem := by
  rintro m p k v R ⟨a, l, ps, h₁, h₂, h₃, rfl⟩
  exact ((live_one h₂).append h₃.live).append (live_one h₁)

theorem live_template (callOf : Addr → IfCallData) : LiveElem (TemplateAt callOf) := by
  rintro m p k v R ⟨a, d, c, cs, ps, qs, h₁, h₂, h₃, h₄, h₅, rfl⟩
  exact (((live_one h₂).append h₃.live).append h₄.live).append (live_one h₁)

theorem key_str : KeyElem Obj.hashKey? StrElem := by
  rintro m p k v R ⟨a, b, h₁, h₂, h₃, rfl⟩
  exact ⟨a, get_eq h₁ rfl, h₂⟩

theorem key_flag : KeyElem Obj.flagKey? FlagElem := by
  rintro m p k v R ⟨a, h₁, h₂, rfl⟩
  exact ⟨a, get_eq h₁ rfl, h₂⟩

theorem key_macro : KeyElem Obj.slHashKey? MacroElem := by
  rintro m p k v R ⟨a, l, ps, h₁, h₂, h₃, rfl⟩
  exact ⟨a, get_eq h₁ rfl, h₂⟩

theorem key_template (callOf : Addr → IfCallData) : KeyElem Obj.tmplKey? (TemplateAt callOf) := by
  rintro m p k v R ⟨a, d, c, cs, ps, qs, h₁, h₂, h₃, h₄, h₅, rfl⟩
  exact ⟨a, get_eq h₁ rfl, h₂⟩

/-! ## Tables -/

namespace Spec.TableAt

variable {m m' : Mem} {ps ps' : List Addr} {l l' : Assoc β} {R R' : List Addr}

theorem congr (hE : LocalElem E) (h : TableAt E m ps l R) (he : EqOn m m' R) :
    TableAt E m' ps l R := by
  induction h with
  | nil => exact .nil
  | cons h _ ih => exact .cons (hE h he.left) (ih he.right)

theorem live (hE : LiveElem E) (h : TableAt E m ps l R) : Live m R := by
  induction h with
  | nil => intro q; grind
  | cons h _ ih => exact (hE h).append ih

theorem append (h : TableAt E m ps l R) (h' : TableAt E m ps' l' R') :
    TableAt E m (ps ++ ps') (l ++ l') (R ++ R') := by
  induction h with
  | nil => exact h'
  | cons h _ ih => rw [List.append_assoc]; exact .cons h ih

theorem one {p : Addr} {k : Str} {v : β} (h : E m p k v R) : TableAt E m [p] [(k, v)] R := by
  simpa using TableAt.cons h .nil

theorem length (h : TableAt E m ps l R) : ps.length = l.length := by
  induction h with
  | nil => rfl
  | cons _ _ ih => simp [ih]

/-- What is found in a table. -/
theorem find {key : Obj → Option (Option Addr)} (hk : KeyElem key E) (h : TableAt E m ps l R)
    (name : Str) :
    (m.hashFind key name ps = .ok none ∧ l.find name = none) ∨
    ∃ p v ps₁ ps₂ l₁ l₂ R₁ Rp R₂, m.hashFind key name ps = .ok (some p) ∧
      l.find name = some v ∧ E m p name v Rp ∧ TableAt E m ps₁ l₁ R₁ ∧ TableAt E m ps₂ l₂ R₂ ∧
      ps = ps₁ ++ p :: ps₂ ∧ l = l₁ ++ (name, v) :: l₂ ∧ R = R₁ ++ (Rp ++ R₂) ∧
      ∀ f, l.modify name f = l₁ ++ (name, f v) :: l₂ := by
  induction h with
  | nil => exact .inl ⟨rfl, rfl⟩
  | @cons p k v ps l R R' h h' ih =>
    obtain ⟨a, h₁, h₂⟩ := hk h
    have hstep : m.hashFind key name (p :: ps) =
        if k = name then .ok (some p) else m.hashFind key name ps := by
      rw [Mem.hashFind, h₁, Res.bind_ok, Mem.getAt, get_eq h₂ (f := Obj.str?) rfl, Res.bind_ok]
    by_cases hn : k = name
    · subst hn
      refine .inr ⟨p, v, [], ps, [], l, [], R, R', ?_, ?_, h, .nil, h', rfl, rfl, rfl, ?_⟩
      · rw [hstep, if_pos rfl]
      · simp [Assoc.find]
      · intro f; simp [Assoc.modify]
    · rw [hstep, if_neg hn]
      rcases ih with ⟨e₁, e₂⟩ | ⟨q, w, ps₁, ps₂, l₁, l₂, R₁, Rp, R₂, e₁, e₂, e₃, e₄, e₅, e₆, e₇, e₈, e₉⟩
      · exact .inl ⟨e₁, by simp [Assoc.find, hn, e₂]⟩
      · refine .inr ⟨q, w, p :: ps₁, ps₂, (k, v) :: l₁, l₂, R ++ R₁, Rp, R₂, e₁,
          by simp [Assoc.find, hn, e₂], e₃, .cons h e₄, e₅, by simp [e₆], by simp [e₇],
          by simp [e₈], fun f => ?_⟩
        simp [Assoc.modify, hn, e₉]

end Spec.TableAt

/-! ## Freeing -/

theorem forEach_free {body : Addr → Mem → Res Mem} (hE : LocalElem E)
    (hb : ∀ ⦃m p k v R⦄, E m p k v R → R.Nodup → R.length ≤ m.top →
      body p m = .ok (dropped m R)) {m : Mem} {ps : List Addr} {l : Assoc β} {R : List Addr}
    (h : TableAt E m ps l R) :
    ∀ {m' : Mem}, EqOn m m' R → R.Nodup → R.length ≤ m'.top →
      Mem.forEach body ps m' = .ok (dropped m' R) := by
  induction h with
  | nil => intro m' _ _ _; simp [Mem.forEach, dropped]
  | @cons p k v ps l R R' h h' ih =>
    intro m' he hn hl
    simp only [List.length_append] at hl
    have hd := List.nodup_append.1 hn
    rw [Mem.forEach, hb (hE h he.left) hd.1 (by omega), Res.bind_ok,
      ih (he.right.trans (eqOn_dropped m' fun q hq hq' => hd.2.2 q hq' q hq rfl)) hd.2.1
        (by simp only [dropped_top]; omega), dropped_dropped]

theorem freeHash_elem {m p k v R} (h : StrElem m p k v R) (hn : R.Nodup) :
    Mem.freeHash p m = .ok (dropped m R) := by
  obtain ⟨a, b, h₁, h₂, h₃, rfl⟩ := h
  rw [Mem.freeHash, get_eq h₁ (f := Obj.hash?) rfl, Res.bind_ok]
  simp only
  rw [free_ok (by simp [h₂]), Res.bind_ok, step_one (by simp [h₃]) (by grind), Res.bind_ok,
    step_one (by simp [h₁]) (by grind)]
  rfl

theorem freeFlag_elem {m p k v R} (h : FlagElem m p k v R) (hn : R.Nodup) :
    Mem.freeFlag p m = .ok (dropped m R) := by
  obtain ⟨a, h₁, h₂, rfl⟩ := h
  rw [Mem.freeFlag, get_eq h₁ (f := Obj.flag?) rfl, Res.bind_ok]
  simp only
  rw [free_ok (by simp [h₂]), Res.bind_ok, step_one (by simp [h₁]) (by grind)]
  rfl

theorem freeSlHash_elem {m p k v R} (h : MacroElem m p k v R) (hn : R.Nodup)
    (hl : R.length ≤ m.top) : Mem.freeSlHash p m = .ok (dropped m R) := by
  obtain ⟨a, l, ps, h₁, h₂, h₃, rfl⟩ := h
  simp only [List.length_append] at hl
  rw [Mem.freeSlHash, get_eq h₁ (f := Obj.slHash?) rfl, Res.bind_ok]
  simp only
  rw [free_ok (by simp [h₂]), Res.bind_ok, dropped_top, step_names h₃ (by grind) (by omega),
    Res.bind_ok, step_one (by simp [h₁]) (by grind)]

theorem freeTemplate_elem {callOf m p k v R} (h : TemplateAt callOf m p k v R) (hn : R.Nodup)
    (hl : R.length ≤ m.top) : Mem.freeTemplate p m = .ok (dropped m R) := by
  obtain ⟨a, d, c, cs, ps, qs, h₁, h₂, h₃, h₄, h₅, rfl⟩ := h
  simp only [List.length_append] at hl
  rw [Mem.freeTemplate, get_eq h₁ (f := Obj.tmpl?) rfl, Res.bind_ok]
  simp only
  rw [free_ok (by simp [h₂]), Res.bind_ok, dropped_top,
    freeDeclList_eqOn h₃ (eqOn_dropped m (by grind)) (by omega), Res.bind_ok, dropped_dropped,
    dropped_top, freeIfCallList_eqOn h₄ (eqOn_dropped m (by grind)) (by omega), Res.bind_ok,
    dropped_dropped, step_one (by simp [h₁]) (by grind)]

/-! ## Lists of declarations and of calls -/

theorem Spec.DeclsAt.length_le {m p ds ps} (h : DeclsAt m p ds ps) : ds.length ≤ ps.length := by
  induction h with
  | nil => simp
  | cons _ _ _ _ ih => simp; omega

theorem Spec.CallsAt.length_le {m p ds ps} (h : CallsAt m p ds ps) : ds.length ≤ ps.length := by
  induction h with
  | nil => simp
  | cons _ _ _ ih => simp; omega

theorem lastListCell_decls {m p ds ps} (h : DeclsAt m p ds ps) :
    ∀ {head fuel}, p = some head → ds.length ≤ fuel →
      ∃ cur c, Mem.lastListCell fuel m head = .ok cur ∧ cur ∈ ps ∧ m.obj cur = some (.cell c) ∧
        ∀ {m' t ds' qs}, (∀ q, q ≠ cur → q ∈ ps → m'.obj q = m.obj q) →
          m'.obj cur = some (.cell { c with next := t }) → DeclsAt m' t ds' qs →
          (ps ++ qs).Nodup → DeclsAt m' (some head) (ds ++ ds') (ps ++ qs) := by
  induction h with
  | nil => intro _ _ h; cases h
  | @cons p c d ds p₁ p₂ h h₁ h₂ hn ih =>
    intro head fuel hp hf
    cases hp
    obtain _ | fuel := fuel
    · simp at hf
    simp only [List.length_cons, Nat.add_le_add_iff_right] at hf
    rw [Mem.lastListCell, get_eq h (f := Obj.cell?) rfl, Res.bind_ok]
    obtain ⟨el, n⟩ := c
    cases n with
    | none =>
      cases h₂
      refine ⟨p, _, rfl, by simp, h, ?_⟩
      intro m' t ds' qs he hc ht hd
      simp only [List.append_nil] at hd he ⊢
      exact .cons hc (h₁.congr fun q hq => he q (by grind) (by simp [hq])) ht (by simpa using hd)
    | some n =>
      obtain ⟨cur, c, e₁, e₂, e₃, e₄⟩ := ih rfl hf
      refine ⟨cur, c, e₁, by simp [e₂], e₃, ?_⟩
      intro m' t ds' qs he hc ht hd
      have hpc : p ≠ cur := by grind
      rw [List.append_assoc]
      refine .cons (by rw [he p hpc (by simp)]; exact h)
        (h₁.congr fun q hq => he q (by grind) (by simp [hq]))
        (e₄ (fun q h h' => he q h (by simp [h'])) hc ht (by grind)) (by simpa using hd)

theorem lastListCell_calls {m p ds ps} (h : CallsAt m p ds ps) :
    ∀ {head fuel}, p = some head → ds.length ≤ fuel →
      ∃ cur c, Mem.lastListCell fuel m head = .ok cur ∧ cur ∈ ps ∧ m.obj cur = some (.cell c) ∧
        ∀ {m' t ds' qs}, (∀ q, q ≠ cur → q ∈ ps → m'.obj q = m.obj q) →
          m'.obj cur = some (.cell { c with next := t }) → CallsAt m' t ds' qs →
          (ps ++ qs).Nodup → CallsAt m' (some head) (ds ++ ds') (ps ++ qs) := by
  induction h with
  | nil => intro _ _ h; cases h
  | @cons p d n ds p₂ h h₂ hn ih =>
    intro head fuel hp hf
    cases hp
    obtain _ | fuel := fuel
    · simp at hf
    simp only [List.length_cons, Nat.add_le_add_iff_right] at hf
    rw [Mem.lastListCell, get_eq h (f := Obj.cell?) rfl, Res.bind_ok]
    cases n with
    | none =>
      cases h₂
      refine ⟨p, _, rfl, by simp, h, ?_⟩
      intro m' t ds' qs he hc ht hd
      exact .cons hc ht (List.nodup_cons.1 hd).1
    | some n =>
      obtain ⟨cur, c, e₁, e₂, e₃, e₄⟩ := ih rfl hf
      refine ⟨cur, c, e₁, by simp [e₂], e₃, ?_⟩
      intro m' t ds' qs he hc ht hd
      have hpc : p ≠ cur := by grind
      exact .cons (by rw [he p hpc (by simp)]; exact h)
        (e₄ (fun q h h' => he q h (by simp [h'])) hc ht (List.nodup_cons.1 hd).2)
        (List.nodup_cons.1 hd).1

theorem append_decls {m head ds ps new ds' qs F} (h : DeclsAt m (some head) ds ps)
    (h' : DeclsAt m (some new) ds' qs) (ho : Owns m (ps ++ qs ++ F)) :
    ∃ m', m.appendListCell head new = .ok m' ∧ DeclsAt m' (some head) (ds ++ ds') (ps ++ qs) ∧
      Owns m' (ps ++ qs ++ F) ∧ EqOn m m' F := by
  have hl := h.length_le
  have hl' := ho.length_le
  have hn := ho.nodup
  simp only [List.length_append] at hl'
  obtain ⟨cur, c, e₁, e₂, e₃, e₄⟩ := lastListCell_decls h rfl (fuel := m.top) (by omega)
  refine ⟨wrote m cur (.cell { c with next := some new }), ?_, ?_, ho.wrote (by simp [e₂]) _,
    eqOn_wrote (by grind) _⟩
  · rw [Mem.appendListCell, e₁, Res.bind_ok, get_eq e₃ (f := Obj.cell?) rfl, Res.bind_ok,
      write_wrote (by simp [e₃])]
  · exact e₄ (fun q hq _ => wrote_other m _ hq) (wrote_self m _ _)
      (h'.congr (eqOn_wrote (by grind) _)) (by grind)

theorem append_calls {m head ds ps new ds' qs F} (h : CallsAt m (some head) ds ps)
    (h' : CallsAt m (some new) ds' qs) (ho : Owns m (ps ++ qs ++ F)) :
    ∃ m', m.appendListCell head new = .ok m' ∧ CallsAt m' (some head) (ds ++ ds') (ps ++ qs) ∧
      Owns m' (ps ++ qs ++ F) ∧ EqOn m m' F := by
  have hl := h.length_le
  have hl' := ho.length_le
  have hn := ho.nodup
  simp only [List.length_append] at hl'
  obtain ⟨cur, c, e₁, e₂, e₃, e₄⟩ := lastListCell_calls h rfl (fuel := m.top) (by omega)
  refine ⟨wrote m cur (.cell { c with next := some new }), ?_, ?_, ho.wrote (by simp [e₂]) _,
    eqOn_wrote (by grind) _⟩
  · rw [Mem.appendListCell, e₁, Res.bind_ok, get_eq e₃ (f := Obj.cell?) rfl, Res.bind_ok,
      write_wrote (by simp [e₃])]
  · exact e₄ (fun q hq _ => wrote_other m _ hq) (wrote_self m _ _)
      (h'.congr (eqOn_wrote (by grind) _)) (by grind)

/-! ## Insertions -/

theorem insert_str {m : Mem} {t : Tables} {i : StrTable} {l : Assoc Str} {T F : List Addr}
    (h : TableAt StrElem m (t.str i) l T) (ho : Owns m (T ++ F)) (name val : Str) :
    ∃ m' t' T', m.insertStr t i name val = .ok (m', t') ∧
      TableAt StrElem m' (t'.str i) (l.insertNew name val) T' ∧ Owns m' (T' ++ F) ∧
      EqOn m m' F ∧ (∀ j, j ≠ i → t'.str j = t.str j) ∧ t'.flag = t.flag ∧
      t'.permmacros = t.permmacros ∧ t'.template = t.template := by
  rcases h.find key_str name with ⟨e₁, e₂⟩ | ⟨p, v, _, _, _, _, _, _, _, e₁, e₂, _⟩
  · have h₁ := ho.malloc (.bytes name)
    have h₂ := h₁.malloc (.bytes val)
    have h₃ := h₂.malloc (.hash ⟨some m.top, some (m.top + 1)⟩)
    have he := ((eqOn_malloc ho _).trans (eqOn_malloc h₁ (.bytes val)).right).trans
      (eqOn_malloc h₂ (.hash ⟨some m.top, some (m.top + 1)⟩)).right.right
    refine ⟨_, t.addStr i (m.top + 2), T ++ [m.top, m.top + 1, m.top + 2], ?_, ?_,
      h₃.perm ?_, he.right, ?_, rfl, rfl, rfl⟩
    · rw [Mem.insertStr, e₁, Res.bind_ok]; rfl
    · simp only [Assoc.insertNew, e₂, Tables.addStr, if_true]
      refine (h.congr local_str he.left).append (.one ⟨_, _, ?_, ?_, ?_, rfl⟩) <;>
        simp [malloc_obj, Nat.add_assoc]
    · simp only [malloc_top, Nat.add_assoc, Nat.reduceAdd]; pieces
    · intro j hj; simp [Tables.addStr, hj]
  · refine ⟨m, t, T, ?_, ?_, ho, EqOn.refl _ _, fun _ _ => rfl, rfl, rfl, rfl⟩
    · rw [Mem.insertStr, e₁, Res.bind_ok]
    · simpa only [Assoc.insertNew, e₂] using h

theorem mark_flag {m : Mem} {t : Tables} {i : FlagTable} {l : List Str} {T F : List Addr}
    (h : TableAt FlagElem m (t.flag i) (l.map fun k => (k, ())) T) (ho : Owns m (T ++ F))
    (name : Str) :
    ∃ m' t' T', m.markFlag t i name = .ok (m', t') ∧
      TableAt FlagElem m' (t'.flag i)
        ((if name ∈ l then l else l ++ [name]).map fun k => (k, ())) T' ∧ Owns m' (T' ++ F) ∧
      EqOn m m' F ∧ (∀ j, j ≠ i → t'.flag j = t.flag j) ∧ t'.str = t.str ∧
      t'.permmacros = t.permmacros ∧ t'.template = t.template := by
  have hm : (Assoc.find (l.map fun k => (k, ())) name = none) ↔ name ∉ l := by
    rw [Assoc.find_eq_none_iff]; simp
  rcases h.find key_flag name with ⟨e₁, e₂⟩ |
    ⟨p, v, ps₁, ps₂, l₁, l₂, R₁, Rp, R₂, e₁, e₂, e₃, e₄, e₅, e₆, e₇, e₈, e₉⟩
  · have h₁ := ho.malloc (.bytes name)
    have h₂ := h₁.malloc (.flag ⟨some m.top, 1⟩)
    have he := (eqOn_malloc ho _).trans (eqOn_malloc h₁ (.flag ⟨some m.top, 1⟩)).right
    refine ⟨_, t.addFlag i (m.top + 1), T ++ [m.top, m.top + 1], ?_, ?_,
      h₂.perm ?_, he.right, ?_, rfl, rfl, rfl⟩
    · rw [Mem.markFlag, e₁, Res.bind_ok]; rfl
    · simp only [if_neg (hm.1 e₂), List.map_append, List.map_cons, List.map_nil, Tables.addFlag,
        if_true]
      refine (h.congr local_flag he.left).append (.one ⟨_, ?_, ?_, rfl⟩) <;> simp [malloc_obj]
    · simp only [malloc_top]; pieces
    · intro j hj; simp [Tables.addFlag, hj]
  · have hin : name ∈ l := Classical.byContradiction fun hc => by simp [hm.2 hc] at e₂
    obtain ⟨a, f₁, f₂, rfl⟩ := e₃
    have hsame : wrote m p (.flag ⟨some a, 1⟩) = m := by
      obtain ⟨ob, tp⟩ := m
      simp only [wrote, Mem.mk.injEq, and_true]
      funext q
      split
      · subst_vars; exact f₁.symm
      · rfl
    refine ⟨m, t, T, ?_, by simpa only [if_pos hin] using h, ho, EqOn.refl _ _, fun _ _ => rfl,
      rfl, rfl, rfl⟩
    rw [Mem.markFlag, e₁, Res.bind_ok]
    simp only
    rw [get_eq f₁ (f := Obj.flag?) rfl, Res.bind_ok, write_wrote (by simp [f₁]), Res.bind_ok,
      hsame]

theorem insert_macro {m : Mem} {t : Tables} {l : Assoc (List Str)} {T F : List Addr}
    {q : Option Addr} {perms : List Str} {G : List Addr}
    (h : TableAt MacroElem m t.permmacros l T) (hq : NamesAt m q perms G)
    (ho : Owns m (T ++ G ++ F)) (name : Str) :
    ∃ m' t' T', m.insertPermmacro t name q = .ok (m', t') ∧
      TableAt MacroElem m' t'.permmacros (l.insertNew name perms) T' ∧
      (if (l.find name).isSome then m' = m ∧ T' = T else Owns m' (T' ++ F)) ∧
      EqOn m m' F ∧ t'.str = t.str ∧ t'.flag = t.flag ∧ t'.template = t.template := by
  rcases h.find key_macro name with ⟨e₁, e₂⟩ | ⟨p, v, _, _, _, _, _, _, _, e₁, e₂, _⟩
  · have h₁ := ho.malloc (.bytes name)
    have h₂ := h₁.malloc (.slHash ⟨some m.top, q⟩)
    have he := (eqOn_malloc ho _).trans (eqOn_malloc h₁ (.slHash ⟨some m.top, q⟩)).right
    refine ⟨_, { t with permmacros := t.permmacros ++ [m.top + 1] },
      T ++ ([m.top] ++ G ++ [m.top + 1]), ?_, ?_, ?_, he.right, rfl, rfl, rfl⟩
    · rw [Mem.insertPermmacro, e₁, Res.bind_ok]; rfl
    · simp only [Assoc.insertNew, e₂]
      refine (h.congr local_macro he.left.left).append
        (.one ⟨_, _, _, ?_, ?_, hq.congr he.left.right, rfl⟩) <;> simp [malloc_obj]
    · simp only [e₂, Option.isSome_none, Bool.false_eq_true, if_false]
      refine h₂.perm ?_
      simp only [malloc_top]; pieces
  · refine ⟨m, t, T, ?_, ?_, ?_, EqOn.refl _ _, rfl, rfl, rfl⟩
    · rw [Mem.insertPermmacro, e₁, Res.bind_ok]
    · simpa only [Assoc.insertNew, e₂] using h
    · simp [e₂]

theorem modify_added {l : Assoc β} {name : Str} (h : l.find name = none) (v : β) (f : β → β) :
    (l ++ [(name, v)] : Assoc β).modify name f = l ++ [(name, f v)] := by
  induction l with
  | nil => simp [Assoc.modify]
  | cons a l ih =>
    obtain ⟨k, w⟩ := a
    simp only [Assoc.find] at h
    split at h
    · cases h
    · rename_i hk
      simp [Assoc.modify, hk, ih h]

/-- The element of a template, with what is before and after it in the table. -/
theorem template_elem {callOf : Addr → IfCallData} {m : Mem} {t : Tables}
    {l : Assoc TemplateElem} {T F : List Addr}
    (h : TableAt (TemplateAt callOf) m t.template l T) (ho : Owns m (T ++ F)) (name : Str) :
    ∃ p m' ps₁ ps₂ v l₁ l₂ R₁ Rp R₂,
      m.templateElem t name = .ok (p, m', { t with template := ps₁ ++ p :: ps₂ }) ∧
      TemplateAt callOf m' p name v Rp ∧ TableAt (TemplateAt callOf) m' ps₁ l₁ R₁ ∧
      TableAt (TemplateAt callOf) m' ps₂ l₂ R₂ ∧ Owns m' (Rp ++ (R₁ ++ R₂ ++ F)) ∧
      EqOn m m' F ∧ ∀ f, (l.insertNew name ⟨[], []⟩).modify name f = l₁ ++ (name, f v) :: l₂ := by
  rcases h.find (key_template callOf) name with ⟨e₁, e₂⟩ |
    ⟨p, v, ps₁, ps₂, l₁, l₂, R₁, Rp, R₂, e₁, e₂, e₃, e₄, e₅, e₆, e₇, e₈, e₉⟩
  · have h₁ := ho.malloc (.bytes name)
    have h₂ := h₁.malloc (.tmpl ⟨some m.top, none, none⟩)
    have he := (eqOn_malloc ho _).trans (eqOn_malloc h₁ (.tmpl ⟨some m.top, none, none⟩)).right
    refine ⟨m.top + 1, _, t.template, [], ⟨[], []⟩, l, [], T, [m.top] ++ [] ++ [] ++ [m.top + 1],
      [], ?_, ?_, h.congr (local_template callOf) he.left, .nil, h₂.perm ?_, he.right, ?_⟩
    · rw [Mem.templateElem, e₁, Res.bind_ok]; rfl
    · refine ⟨m.top, none, none, [], [], [], ?_, ?_, .nil, .nil, rfl, rfl⟩ <;> simp [malloc_obj]
    · simp only [malloc_top]; pieces
    · intro f
      simp only [Assoc.insertNew, e₂]
      exact modify_added e₂ _ f
  · refine ⟨p, m, ps₁, ps₂, v, l₁, l₂, R₁, Rp, R₂, ?_, e₃, e₄, e₅, ho.perm ?_, EqOn.refl _ _, ?_⟩
    · rw [Mem.templateElem, e₁, Res.bind_ok]
      simp only
      rw [← e₆]
    · rw [e₈]; pieces
    · intro f; simp only [Assoc.insertNew, e₂, e₉]

/-- What a function of the three for templates does. -/
def TemplateStep (callOf : Addr → IfCallData) (F : List Addr) (m : Mem) (t : Tables)
    (l : Assoc TemplateElem) (run : Res (Mem × Tables)) : Prop :=
  ∃ m' ps T, run = .ok (m', { t with template := ps }) ∧
    TableAt (TemplateAt callOf) m' ps l T ∧ Owns m' (T ++ F) ∧ EqOn m m' F

theorem insert_template {callOf : Addr → IfCallData} {m : Mem} {t : Tables}
    {l : Assoc TemplateElem} {T F : List Addr}
    (h : TableAt (TemplateAt callOf) m t.template l T) (ho : Owns m (T ++ F)) (name : Str) :
    TemplateStep callOf F m t ((l.insertNew name ⟨[], []⟩).modify name id)
      (m.insertTemplate t name) := by
  obtain ⟨p, m', ps₁, ps₂, v, l₁, l₂, R₁, Rp, R₂, e₁, e₂, e₃, e₄, e₅, e₆, e₇⟩ :=
    template_elem h ho name
  refine ⟨m', ps₁ ++ p :: ps₂, R₁ ++ (Rp ++ R₂), ?_, ?_, e₅.perm ?_, e₆⟩
  · rw [Mem.insertTemplate, e₁]; rfl
  · rw [e₇]; exact e₃.append (.cons e₂ e₄)
  · pieces

theorem TemplateStep.of {callOf : Addr → IfCallData} {F : List Addr} {m m' : Mem} {t : Tables}
    {run : Res (Mem × Tables)} {p : Addr} {name : Str} {v : TemplateElem} {ps₁ ps₂ : List Addr}
    {l₁ l₂ : Assoc TemplateElem} {R₁ R₂ Rp : List Addr}
    (hr : run = .ok (m', { t with template := ps₁ ++ p :: ps₂ }))
    (hp : TemplateAt callOf m' p name v Rp) (h₁ : TableAt (TemplateAt callOf) m' ps₁ l₁ R₁)
    (h₂ : TableAt (TemplateAt callOf) m' ps₂ l₂ R₂) (ho : Owns m' (Rp ++ (R₁ ++ R₂ ++ F)))
    (he : EqOn m m' F) :
    TemplateStep callOf F m t (l₁ ++ (name, v) :: l₂) run :=
  ⟨m', _, R₁ ++ (Rp ++ R₂), hr, h₁.append (.cons hp h₂), ho.perm (by pieces), he⟩

/-- `insert_decl`. -/
theorem insertDeclCell_spec {callOf : Addr → IfCallData} {m : Mem} {p : Addr} {name : Str}
    {v : TemplateElem} {Rp F : List Addr} (h : TemplateAt callOf m p name v Rp) {new : Addr}
    {fl : DeclFlavor} {d : Str} {N : List Addr} (hnew : DeclsAt m (some new) [⟨fl, d, []⟩] N)
    (ho : Owns m (Rp ++ (N ++ F))) :
    ∃ m' Rp', m.insertDeclCell p new = .ok m' ∧
      TemplateAt callOf m' p name { v with declarations := v.declarations ++ [(fl, d)] } Rp' ∧
      Owns m' (Rp' ++ F) ∧ EqOn m m' F := by
  obtain ⟨a, hd, c, cs, ps, qs, f₁, f₂, f₃, f₄, f₅, rfl⟩ := h
  have hn := ho.nodup
  cases hd with
  | none =>
    have hds : v.declarations = [] ∧ ps = [] := by
      generalize v.declarations = ds at f₃
      cases ds <;> cases f₃
      exact ⟨rfl, rfl⟩
    obtain ⟨hds, rfl⟩ := hds
    have hpa : p ≠ a := by grind
    refine ⟨wrote m p (.tmpl ⟨some a, some new, c⟩), [a] ++ N ++ qs ++ [p], ?_, ?_,
      (ho.wrote (by simp) _).perm (by pieces), eqOn_wrote (by grind) _⟩
    · rw [Mem.insertDeclCell, get_eq f₁ (f := Obj.tmpl?) rfl, Res.bind_ok]
      exact write_wrote (by simp [f₁])
    · refine ⟨a, some new, c, cs, N, qs, wrote_self _ _ _, ?_, ?_,
        f₄.congr (eqOn_wrote (by grind) _), f₅, rfl⟩
      · rw [wrote_other _ _ hpa.symm]; exact f₂
      · simpa [hds] using hnew.congr (eqOn_wrote (by grind) _)
  | some head =>
    obtain ⟨m', e₁, e₂, e₃, e₄⟩ := append_decls (F := [a] ++ qs ++ [p] ++ F) f₃ hnew
      (ho.perm (by pieces))
    refine ⟨m', [a] ++ (ps ++ N) ++ qs ++ [p], ?_, ?_, e₃.perm (by pieces), e₄.right⟩
    · rw [Mem.insertDeclCell, get_eq f₁ (f := Obj.tmpl?) rfl, Res.bind_ok]
      exact e₁
    · refine ⟨a, some head, c, cs, ps ++ N, qs, by rw [e₄ p (by simp)]; exact f₁,
        by rw [e₄ a (by simp)]; exact f₂, by simpa using e₂, f₄.congr (e₄.mono (by grind)), f₅,
        rfl⟩

/-- `insert_call`. -/
theorem insertCallCell_spec {callOf : Addr → IfCallData} {m : Mem} {p : Addr} {name : Str}
    {v : TemplateElem} {Rp F : List Addr} (h : TemplateAt callOf m p name v Rp) {new call : Addr}
    {N : List Addr} (hnew : CallsAt m (some new) [call] N) (ho : Owns m (Rp ++ (N ++ F))) :
    ∃ m' Rp', m.insertCallCell p new = .ok m' ∧
      TemplateAt callOf m' p name { v with calls := v.calls ++ [callOf call] } Rp' ∧
      Owns m' (Rp' ++ F) ∧ EqOn m m' F := by
  obtain ⟨a, hd, c, cs, ps, qs, f₁, f₂, f₃, f₄, f₅, rfl⟩ := h
  have hn := ho.nodup
  cases c with
  | none =>
    cases f₄
    have hpa : p ≠ a := by grind
    refine ⟨wrote m p (.tmpl ⟨some a, hd, some new⟩), [a] ++ ps ++ N ++ [p], ?_, ?_,
      (ho.wrote (by simp) _).perm (by pieces), eqOn_wrote (by grind) _⟩
    · rw [Mem.insertCallCell, get_eq f₁ (f := Obj.tmpl?) rfl, Res.bind_ok]
      exact write_wrote (by simp [f₁])
    · refine ⟨a, hd, some new, [call], ps, N, wrote_self _ _ _, ?_,
        f₃.congr (eqOn_wrote (by grind) _), hnew.congr (eqOn_wrote (by grind) _), by simp [f₅],
        rfl⟩
      rw [wrote_other _ _ hpa.symm]; exact f₂
  | some head =>
    obtain ⟨m', e₁, e₂, e₃, e₄⟩ := append_calls (F := [a] ++ ps ++ [p] ++ F) f₄ hnew
      (ho.perm (by pieces))
    refine ⟨m', [a] ++ ps ++ (qs ++ N) ++ [p], ?_, ?_, e₃.perm (by pieces), e₄.right⟩
    · rw [Mem.insertCallCell, get_eq f₁ (f := Obj.tmpl?) rfl, Res.bind_ok]
      exact e₁
    · exact ⟨a, hd, some head, cs ++ [call], ps, qs ++ N, by rw [e₄ p (by simp)]; exact f₁,
        by rw [e₄ a (by simp)]; exact f₂, f₃.congr (e₄.mono (by grind)), e₂, by simp [f₅], rfl⟩

theorem insert_template_decl {callOf : Addr → IfCallData} {m : Mem} {t : Tables}
    {l : Assoc TemplateElem} {T F : List Addr}
    (h : TableAt (TemplateAt callOf) m t.template l T) (ho : Owns m (T ++ F)) (name : Str)
    (fl : DeclFlavor) (d : Str) :
    TemplateStep callOf F m t ((l.insertNew name ⟨[], []⟩).modify name
        fun e => { e with declarations := e.declarations ++ [(fl, d)] })
      (m.insertTemplateDecl t name fl d) := by
  have h₁ := ho.malloc (.bytes d)
  have h₂ := h₁.malloc (.decl ⟨fl, some m.top, none⟩)
  have h₃ := h₂.malloc (.cell ⟨some (m.top + 1), none⟩)
  have he := ((eqOn_malloc ho _).trans (eqOn_malloc h₁ (.decl ⟨fl, some m.top, none⟩)).right).trans
    (eqOn_malloc h₂ (.cell ⟨some (m.top + 1), none⟩)).right.right
  have hnew : DeclsAt ((((m.malloc (.bytes d)).2.malloc (.decl ⟨fl, some m.top, none⟩)).2.malloc
      (.cell ⟨some (m.top + 1), none⟩)).2) (some (m.top + 2)) [⟨fl, d, []⟩]
      (([] ++ [m.top] ++ [m.top + 1]) ++ [m.top + 2] ++ []) := by
    refine .cons (c := ⟨some (m.top + 1), none⟩) (by simp [malloc_obj])
      (.mk (d := ⟨fl, some m.top, none⟩) (by simp [malloc_obj]) rfl .nil
        (.mk (by simp [malloc_obj, Nat.add_assoc])) (by simp)) .nil (by simp)
  obtain ⟨p, m', ps₁, ps₂, v, l₁, l₂, R₁, Rp, R₂, e₁, e₂, e₃, e₄, e₅, e₆, e₇⟩ :=
    template_elem (F := ([] ++ [m.top] ++ [m.top + 1]) ++ [m.top + 2] ++ [] ++ F)
      (h.congr (local_template callOf) he.left)
      (h₃.perm (by simp only [malloc_top, Nat.add_assoc, Nat.reduceAdd]; pieces)) name
  obtain ⟨m₂, Rp', g₁, g₂, g₃, g₄⟩ := insertDeclCell_spec (F := R₁ ++ R₂ ++ F) e₂
    (hnew.congr e₆.left) (e₅.perm (by pieces))
  rw [e₇]
  refine .of ?_ g₂ (e₃.congr (local_template callOf) g₄.left.left)
    (e₄.congr (local_template callOf) g₄.left.right) g₃
    ((he.right.trans e₆.right).trans g₄.right)
  simp only [Mem.insertTemplateDecl, malloc_fst, malloc_top, Nat.add_assoc, Nat.reduceAdd, e₁,
    Res.bind_ok, g₁]

theorem insert_template_call {callOf : Addr → IfCallData} {m : Mem} {t : Tables}
    {l : Assoc TemplateElem} {T F : List Addr}
    (h : TableAt (TemplateAt callOf) m t.template l T) (ho : Owns m (T ++ F)) (name : Str)
    (call : Addr) :
    TemplateStep callOf F m t ((l.insertNew name ⟨[], []⟩).modify name
        fun e => { e with calls := e.calls ++ [callOf call] })
      (m.insertTemplateCall t name call) := by
  have h₁ := ho.malloc (.cell ⟨some call, none⟩)
  have he := eqOn_malloc ho (.cell ⟨some call, none⟩)
  have hnew : CallsAt (m.malloc (.cell ⟨some call, none⟩)).2 (some m.top) [call] [m.top] :=
    .cons (by simp [malloc_obj]) .nil (by simp)
  obtain ⟨p, m', ps₁, ps₂, v, l₁, l₂, R₁, Rp, R₂, e₁, e₂, e₃, e₄, e₅, e₆, e₇⟩ :=
    template_elem (F := [m.top] ++ F) (h.congr (local_template callOf) he.left)
      (h₁.perm (by pieces)) name
  obtain ⟨m₂, Rp', g₁, g₂, g₃, g₄⟩ := insertCallCell_spec (F := R₁ ++ R₂ ++ F) e₂
    (hnew.congr e₆.left) (e₅.perm (by pieces))
  rw [e₇]
  refine .of ?_ g₂ (e₃.congr (local_template callOf) g₄.left.left)
    (e₄.congr (local_template callOf) g₄.left.right) g₃
    ((he.right.trans e₆.right).trans g₄.right)
  simp only [Mem.insertTemplateCall, malloc_fst, e₁, Res.bind_ok, g₁]

/-! ## All tables together -/

theorem strTables_pick (P : StrTable → List Addr) (i : StrTable) :
    (strTables.flatMap P).Perm (P i ++ (strTables.filter (· ≠ i)).flatMap P) := by
  cases i <;> simp only [strTables, List.flatMap_cons, List.flatMap_nil, List.filter_cons,
    List.filter_nil, ne_eq, reduceCtorEq, not_false_eq_true, not_true_eq_false, decide_true,
    decide_false, if_true, Bool.false_eq_true, if_false] <;> pieces

theorem flagTables_pick (P : FlagTable → List Addr) (i : FlagTable) :
    (flagTables.flatMap P).Perm (P i ++ (flagTables.filter (· ≠ i)).flatMap P) := by
  cases i <;> simp only [flagTables, List.flatMap_cons, List.flatMap_nil, List.filter_cons,
    List.filter_nil, ne_eq, reduceCtorEq, not_false_eq_true, not_true_eq_false, decide_true,
    decide_false, if_true, Bool.false_eq_true, if_false] <;> pieces

theorem flatMap_others {ι : Type} [DecidableEq ι] (l : List ι) (P : ι → List Addr) (i : ι)
    (T : List Addr) :
    (l.filter (· ≠ i)).flatMap (fun j => if j = i then T else P j) =
      (l.filter (· ≠ i)).flatMap P := by
  induction l with
  | nil => rfl
  | cons a l ih =>
    by_cases h : a = i <;> simp_all

theorem mem_strTables (i : StrTable) : i ∈ strTables := by cases i <;> simp [strTables]
theorem mem_flagTables (i : FlagTable) : i ∈ flagTables := by cases i <;> simp [flagTables]

/-- The tables, owned by nobody else. -/
def HoldsTables (callOf : Addr → IfCallData) (F : List Addr) (m : Mem) (t : Tables) (maps : Maps) :
    Prop :=
  ∃ T, TablesAt m callOf t maps T ∧ Owns m (T ++ F)

/-- A step that keeps everything else. -/
def TablesStep (callOf : Addr → IfCallData) (F : List Addr) (m : Mem) (maps : Maps)
    (run : Res (Mem × Tables)) : Prop :=
  ∃ m' t', run = .ok (m', t') ∧ HoldsTables callOf F m' t' maps ∧ EqOn m m' F

theorem HoldsTables.str {callOf : Addr → IfCallData} {F : List Addr} {m : Mem} {t : Tables}
    {maps maps' : Maps} (h : HoldsTables callOf F m t maps) (i : StrTable) (name val : Str)
    (hi : strContents maps' i = (strContents maps i).insertNew name val)
    (hs : ∀ j, j ≠ i → strContents maps' j = strContents maps j)
    (hf : ∀ j, flagContents maps' j = flagContents maps j)
    (hp : maps'.permmacros = maps.permmacros) (ht : maps'.template = maps.template) :
    TablesStep callOf F m maps' (m.insertStr t i name val) := by
  obtain ⟨T, ⟨P, Q, A, B, h₁, h₂, h₃, h₄, rfl⟩, ho⟩ := h
  obtain ⟨m', t', T', e₁, e₂, e₃, e₄, e₅, e₆, e₇, e₈⟩ := insert_str
    (F := (strTables.filter (· ≠ i)).flatMap P ++ flagTables.flatMap Q ++ A ++ B ++ F) (h₁ i)
    (ho.perm (by
      have := strTables_pick P i
      refine ((((this.append_right _).append_right _).append_right _).append_right _).trans ?_
      simp only [List.append_assoc]; exact List.Perm.refl _)) name val
  refine ⟨m', t', e₁, ⟨_, ⟨fun j => if j = i then T' else P j, Q, A, B, ?_, ?_, ?_, ?_, rfl⟩,
    e₃.perm ?_⟩, e₄.right⟩
  · intro j
    simp only
    split
    · subst_vars; rw [hi]; exact e₂
    · rename_i hj
      rw [e₅ j hj, hs j hj]
      refine (h₁ j).congr local_str (e₄.mono fun q hq => ?_)
      simp only [List.mem_append, List.mem_flatMap, List.mem_filter]
      exact .inl (.inl (.inl (.inl ⟨j, ⟨mem_strTables j, by simpa using hj⟩, hq⟩)))
  · intro j
    rw [e₆, hf j]
    refine (h₂ j).congr local_flag (e₄.mono fun q hq => ?_)
    simp only [List.mem_append, List.mem_flatMap]
    exact .inl (.inl (.inl (.inr ⟨j, mem_flagTables j, hq⟩)))
  · rw [e₇, hp]; exact h₃.congr local_macro (e₄.mono (by grind))
  · rw [e₈, ht]; exact h₄.congr (local_template callOf) (e₄.mono (by grind))
  · have := strTables_pick (fun j => if j = i then T' else P j) i
    simp only [if_true, flatMap_others] at this
    refine List.Perm.symm (((((this.append_right _).append_right _).append_right _).append_right _).trans ?_)
    simp only [List.append_assoc]; exact List.Perm.refl _

theorem HoldsTables.flag {callOf : Addr → IfCallData} {F : List Addr} {m : Mem} {t : Tables}
    {maps maps' : Maps} (h : HoldsTables callOf F m t maps) (i : FlagTable) (name : Str)
    (hi : flagContents maps' i =
      if name ∈ flagContents maps i then flagContents maps i else flagContents maps i ++ [name])
    (hf : ∀ j, j ≠ i → flagContents maps' j = flagContents maps j)
    (hs : ∀ j, strContents maps' j = strContents maps j)
    (hp : maps'.permmacros = maps.permmacros) (ht : maps'.template = maps.template) :
    TablesStep callOf F m maps' (m.markFlag t i name) := by
  obtain ⟨T, ⟨P, Q, A, B, h₁, h₂, h₃, h₄, rfl⟩, ho⟩ := h
  obtain ⟨m', t', T', e₁, e₂, e₃, e₄, e₅, e₆, e₇, e₈⟩ := mark_flag
    (F := strTables.flatMap P ++ (flagTables.filter (· ≠ i)).flatMap Q ++ A ++ B ++ F) (h₂ i)
    (ho.perm (by
      have := flagTables_pick Q i
      refine ((((this.append_left _).append_right _).append_right _).append_right _).trans ?_
      pieces)) name
  refine ⟨m', t', e₁, ⟨_, ⟨P, fun j => if j = i then T' else Q j, A, B, ?_, ?_, ?_, ?_, rfl⟩,
    e₃.perm ?_⟩, e₄.right⟩
  · intro j
    rw [e₆, hs j]
    refine (h₁ j).congr local_str (e₄.mono fun q hq => ?_)
    simp only [List.mem_append, List.mem_flatMap]
    exact .inl (.inl (.inl (.inl ⟨j, mem_strTables j, hq⟩)))
  · intro j
    simp only
    split
    · subst_vars; rw [hi]; exact e₂
    · rename_i hj
      rw [e₅ j hj, hf j hj]
      refine (h₂ j).congr local_flag (e₄.mono fun q hq => ?_)
      simp only [List.mem_append, List.mem_flatMap, List.mem_filter]
      exact .inl (.inl (.inl (.inr ⟨j, ⟨mem_flagTables j, by simpa using hj⟩, hq⟩)))
  · rw [e₇, hp]; exact h₃.congr local_macro (e₄.mono (by grind))
  · rw [e₈, ht]; exact h₄.congr (local_template callOf) (e₄.mono (by grind))
  · have := flagTables_pick (fun j => if j = i then T' else Q j) i
    simp only [if_true, flatMap_others] at this
    refine List.Perm.symm (((((this.append_left _).append_right _).append_right _).append_right _).trans ?_)
    pieces

theorem HoldsTables.template {callOf : Addr → IfCallData} {F : List Addr} {m : Mem} {t : Tables}
    {maps : Maps} {l : Assoc TemplateElem} {run : Res (Mem × Tables)}
    (h : HoldsTables callOf F m t maps)
    (hr : ∀ {T F'}, TableAt (TemplateAt callOf) m t.template maps.template T →
      Owns m (T ++ F') → TemplateStep callOf F' m t l run) :
    TablesStep callOf F m { maps with template := l } run := by
  obtain ⟨T, ⟨P, Q, A, B, h₁, h₂, h₃, h₄, rfl⟩, ho⟩ := h
  obtain ⟨m', ps, T', e₁, e₂, e₃, e₄⟩ := hr
    (F' := strTables.flatMap P ++ flagTables.flatMap Q ++ A ++ F) h₄ (ho.perm (by pieces))
  refine ⟨m', _, e₁, ⟨_, ⟨P, Q, A, T', ?_, ?_, ?_, e₂, rfl⟩, e₃.perm (by pieces)⟩, e₄.right⟩
  · intro j
    refine TableAt.congr local_str (m := m) ?_ (e₄.mono fun q hq => ?_)
    · cases j <;> exact h₁ _
    · simp only [List.mem_append, List.mem_flatMap]
      exact .inl (.inl (.inl ⟨j, mem_strTables j, hq⟩))
  · intro j
    refine TableAt.congr local_flag (m := m) ?_ (e₄.mono fun q hq => ?_)
    · cases j <;> exact h₂ _
    · simp only [List.mem_append, List.mem_flatMap]
      exact .inl (.inl (.inr ⟨j, mem_flagTables j, hq⟩))
  · exact h₃.congr local_macro (e₄.mono (by grind))

theorem HoldsTables.macro_known {callOf : Addr → IfCallData} {F G : List Addr} {m : Mem} {t : Tables}
    {maps : Maps} {q : Option Addr} {perms : List Str} {name : Str}
    (h : HoldsTables callOf (G ++ F) m t maps) (hq : NamesAt m q perms G)
    (hk : (maps.permmacros.find name).isSome = true) :
    ∃ t', m.insertPermmacro t name q = .ok (m, t') ∧
      HoldsTables callOf (G ++ F) m t' (maps.insertPermmacro name perms) := by
  obtain ⟨T, ⟨P, Q, A, B, h₁, h₂, h₃, h₄, rfl⟩, ho⟩ := h
  obtain ⟨m', t', T', e₁, e₂, e₃, e₄, e₅, e₆, e₇⟩ := insert_macro
    (F := strTables.flatMap P ++ flagTables.flatMap Q ++ B ++ F) h₃ hq (ho.perm (by pieces)) name
  rw [if_pos hk] at e₃
  obtain ⟨rfl, rfl⟩ := e₃
  refine ⟨t', e₁, _, ⟨P, Q, T', B, ?_, ?_, e₂, ?_, rfl⟩, ho⟩
  · intro j; rw [e₅]; cases j <;> exact h₁ _
  · intro j; rw [e₆]; cases j <;> exact h₂ _
  · rw [e₇]; exact h₄

theorem HoldsTables.macro_new {callOf : Addr → IfCallData} {F G : List Addr} {m : Mem} {t : Tables}
    {maps : Maps} {q : Option Addr} {perms : List Str} {name : Str}
    (h : HoldsTables callOf (G ++ F) m t maps) (hq : NamesAt m q perms G)
    (hk : ¬ (maps.permmacros.find name).isSome = true) :
    TablesStep callOf F m (maps.insertPermmacro name perms) (m.insertPermmacro t name q) := by
  obtain ⟨T, ⟨P, Q, A, B, h₁, h₂, h₃, h₄, rfl⟩, ho⟩ := h
  obtain ⟨m', t', T', e₁, e₂, e₃, e₄, e₅, e₆, e₇⟩ := insert_macro
    (F := strTables.flatMap P ++ flagTables.flatMap Q ++ B ++ F) h₃ hq (ho.perm (by pieces)) name
  rw [if_neg hk] at e₃
  refine ⟨m', t', e₁, ⟨_, ⟨P, Q, T', B, ?_, ?_, e₂, ?_, rfl⟩, e₃.perm (by pieces)⟩, e₄.right⟩
  · intro j
    rw [e₅]
    refine TableAt.congr local_str (m := m) ?_ (e₄.mono fun q hq => ?_)
    · cases j <;> exact h₁ _
    · simp only [List.mem_append, List.mem_flatMap]
      exact .inl (.inl (.inl ⟨j, mem_strTables j, hq⟩))
  · intro j
    rw [e₆]
    refine TableAt.congr local_flag (m := m) ?_ (e₄.mono fun q hq => ?_)
    · cases j <;> exact h₂ _
    · simp only [List.mem_append, List.mem_flatMap]
      exact .inl (.inl (.inr ⟨j, mem_flagTables j, hq⟩))
  · rw [e₇]; exact h₄.congr (local_template callOf) (e₄.mono (by grind))

/-- `sl_from_strs`. -/
theorem from_strs_owns (ss : List Str) : ∀ {m : Mem} {ret : Option Addr} {l : List (Str × Bool)}
    {ps R : List Addr} {fuel : Nat}, Owns m (ps ++ R) → SlAt m ret l ps →
    l.length + ss.length ≤ fuel →
    ∃ r m' qs, m.slFromStrs fuel ret ss = .ok (r, m') ∧
      SlAt m' r (l ++ ss.map fun s => (s, false)) qs ∧ Owns m' (qs ++ R) ∧ EqOn m m' R := by
  induction ss with
  | nil =>
    intro m ret l ps R fuel ho h hf
    exact ⟨ret, m, ps, rfl, by simpa using h, ho, EqOn.refl _ _⟩
  | cons s ss ih =>
    intro m ret l ps R fuel ho h hf
    simp only [List.length_cons] at hf
    obtain ⟨q, m₁, rs, e₁, hs₁, h₁, he₁⟩ := slFromStr_word s ho
    have hnd := h₁.nodup
    obtain ⟨r, m₂, b₁, b₂, b₃, b₄, _⟩ := concat_spec (h.congr he₁.left) hs₁
      (by grind) (fuel := fuel) (by omega)
    have h₂ : Owns m₂ (ps ++ rs ++ R) := by
      have := h₁.perm (R' := ps ++ rs ++ R) (by pieces)
      refine ⟨this.nodup, by rw [b₄]; exact this.below, fun x hx => ?_⟩
      rw [b₃ x (by grind), this.only x hx]
    have he₂ : EqOn m₁ m₂ R := fun x hx => b₃ x (by grind)
    obtain ⟨r', m', qs, c₁, c₂, c₃, c₄⟩ := ih h₂ b₂ (fuel := fuel) (by simp; omega)
    refine ⟨r', m', qs, ?_, by simpa using c₂, c₃, (he₁.right.trans he₂).trans c₄⟩
    simp only [Mem.slFromStrs, e₁, b₁, Res.bind_ok, c₁]

theorem Spec.ListsAt.append {m : Mem} {ls ls' : List (Option Addr × List Str)}
    {L L' : List Addr} (h : ListsAt m ls L) (h' : ListsAt m ls' L') :
    ListsAt m (ls ++ ls') (L ++ L') := by
  induction h with
  | nil => exact h'
  | cons h _ ih => rw [List.append_assoc]; exact .cons h ih

theorem decl_strContents (maps : Maps) (fl : DeclFlavor) :
    maps.declTable fl = strContents maps (declStrTable fl) := by cases fl <;> rfl

theorem insertDecl_same (maps : Maps) (name mod : Str) (fl : DeclFlavor) :
    strContents (maps.insertDecl name mod fl) (declStrTable fl) =
      (strContents maps (declStrTable fl)).insertNew name mod := by
  simp only [Maps.insertDecl, Assoc.insertNew, ← decl_strContents]
  cases (maps.declTable fl).find name with
  | some _ => rfl
  | none => cases fl <;> rfl

theorem insertDecl_other (maps : Maps) (name mod : Str) (fl : DeclFlavor) :
    (∀ j, j ≠ declStrTable fl →
      strContents (maps.insertDecl name mod fl) j = strContents maps j) ∧
    (∀ j, flagContents (maps.insertDecl name mod fl) j = flagContents maps j) ∧
    (maps.insertDecl name mod fl).permmacros = maps.permmacros ∧
    (maps.insertDecl name mod fl).template = maps.template := by
  simp only [Maps.insertDecl]
  split
  · exact ⟨fun _ _ => rfl, fun _ => rfl, rfl, rfl⟩
  · refine ⟨fun j hj => ?_, fun j => ?_, ?_, ?_⟩
    · cases fl <;> cases j <;> first | rfl | exact absurd rfl hj
    · cases fl <;> cases j <;> rfl
    · cases fl <;> rfl
    · cases fl <;> rfl

/-- Every call but that for macros. -/
theorem step_tables {callOf : Addr → IfCallData} {F : List Addr} {m : Mem} {t : Tables}
    {maps : Maps} (h : HoldsTables callOf F m t maps) (op : TableOp)
    (hop : ∀ name perms, op ≠ .permmacro name perms) :
    TablesStep callOf F m (opEffect callOf maps op) (op.run m t) ∧
      (opEffect callOf maps op).permmacros = maps.permmacros := by
  cases op with
  | decl name mod fl =>
    have ho := insertDecl_other maps name mod fl
    exact ⟨h.str _ _ _ (insertDecl_same ..) ho.1 ho.2.1 ho.2.2.1 ho.2.2.2, ho.2.2.1⟩
  | modStatus name status =>
    exact ⟨h.str .mods _ _ rfl (fun j hj => by cases j <;> first | rfl | exact absurd rfl hj)
      (fun j => by cases j <;> rfl) rfl rfl, rfl⟩
  | modLayer name layer =>
    exact ⟨h.str .modLayers _ _ rfl (fun j hj => by cases j <;> first | rfl | exact absurd rfl hj)
      (fun j => by cases j <;> rfl) rfl rfl, rfl⟩
  | iface name mod =>
    exact ⟨h.str .ifs _ _ rfl (fun j hj => by cases j <;> first | rfl | exact absurd rfl hj)
      (fun j => by cases j <;> rfl) rfl rfl, rfl⟩
  | transform name =>
    have : ∀ c, opEffect callOf maps (.transform name) = c → c = maps ∨
        c = { maps with transform := maps.transform ++ [name] } := by
      rintro _ rfl; simp only [opEffect, Maps.markTransform]; split <;> simp
    refine ⟨h.flag .transform _ ?_ ?_ ?_ ?_ ?_, ?_⟩
    · simp only [opEffect, Maps.markTransform, flagContents]; split <;> simp_all
    · intro j hj; rcases this _ rfl with e | e <;> rw [e]
      cases j <;> first | rfl | exact absurd rfl hj
    · intro j; rcases this _ rfl with e | e <;> rw [e]
      cases j <;> rfl
    all_goals rcases this _ rfl with e | e <;> rw [e]
  | filetrans name =>
    have : ∀ c, opEffect callOf maps (.filetrans name) = c → c = maps ∨
        c = { maps with filetrans := maps.filetrans ++ [name] } := by
      rintro _ rfl; simp only [opEffect, Maps.markFiletrans]; split <;> simp
    refine ⟨h.flag .filetrans _ ?_ ?_ ?_ ?_ ?_, ?_⟩
    · simp only [opEffect, Maps.markFiletrans, flagContents]; split <;> simp_all
    · intro j hj; rcases this _ rfl with e | e <;> rw [e]
      cases j <;> first | rfl | exact absurd rfl hj
    · intro j; rcases this _ rfl with e | e <;> rw [e]
      cases j <;> rfl
    all_goals rcases this _ rfl with e | e <;> rw [e]
  | roleIf name =>
    have : ∀ c, opEffect callOf maps (.roleIf name) = c → c = maps ∨
        c = { maps with roleIf := maps.roleIf ++ [name] } := by
      rintro _ rfl; simp only [opEffect, Maps.markRole]; split <;> simp
    refine ⟨h.flag .roleIf _ ?_ ?_ ?_ ?_ ?_, ?_⟩
    · simp only [opEffect, Maps.markRole, flagContents]; split <;> simp_all
    · intro j hj; rcases this _ rfl with e | e <;> rw [e]
      cases j <;> first | rfl | exact absurd rfl hj
    · intro j; rcases this _ rfl with e | e <;> rw [e]
      cases j <;> rfl
    all_goals rcases this _ rfl with e | e <;> rw [e]
  | template name =>
    exact ⟨h.template fun h₁ h₂ => insert_template h₁ h₂ name, rfl⟩
  | templateDecl name fl d =>
    exact ⟨h.template fun h₁ h₂ => insert_template_decl h₁ h₂ name fl d, rfl⟩
  | templateCall name call =>
    exact ⟨h.template fun h₁ h₂ => insert_template_call h₁ h₂ name call, rfl⟩
  | permmacro name perms => exact absurd rfl (hop name perms)

theorem Spec.ListsAt.congr {m m' : Mem} {ls : List (Option Addr × List Str)} {L : List Addr}
    (h : ListsAt m ls L) (he : EqOn m m' L) : ListsAt m' ls L := by
  induction h with
  | nil => exact .nil
  | cons h _ ih => exact .cons (h.congr he.left) (ih he.right)

theorem Spec.TablesAt.congr {callOf : Addr → IfCallData} {m m' : Mem} {t : Tables} {maps : Maps}
    {R : List Addr} (h : TablesAt m callOf t maps R) (he : EqOn m m' R) :
    TablesAt m' callOf t maps R := by
  obtain ⟨P, Q, A, B, h₁, h₂, h₃, h₄, rfl⟩ := h
  refine ⟨P, Q, A, B, fun j => (h₁ j).congr local_str (he.mono fun q hq => ?_),
    fun j => (h₂ j).congr local_flag (he.mono fun q hq => ?_),
    h₃.congr local_macro (he.mono (by grind)),
    h₄.congr (local_template callOf) (he.mono (by grind)), rfl⟩
  · simp only [List.mem_append, List.mem_flatMap]
    exact .inl (.inl (.inl ⟨j, mem_strTables j, hq⟩))
  · simp only [List.mem_append, List.mem_flatMap]
    exact .inl (.inl (.inr ⟨j, mem_flagTables j, hq⟩))

theorem Spec.TablesAt.live {callOf : Addr → IfCallData} {m : Mem} {t : Tables} {maps : Maps}
    {R : List Addr} (h : TablesAt m callOf t maps R) : Live m R := by
  obtain ⟨P, Q, A, B, h₁, h₂, h₃, h₄, rfl⟩ := h
  refine ((Live.append ?_ ?_).append (h₃.live live_macro)).append (h₄.live (live_template callOf))
  · intro q hq
    obtain ⟨j, _, hj⟩ := List.mem_flatMap.1 hq
    exact (h₁ j).live live_str q hj
  · intro q hq
    obtain ⟨j, _, hj⟩ := List.mem_flatMap.1 hq
    exact (h₂ j).live live_flag q hj

theorem HoldsTables.perm {callOf : Addr → IfCallData} {F F' : List Addr} {m : Mem} {t : Tables}
    {maps : Maps} (h : HoldsTables callOf F m t maps) (hp : F.Perm F') : HoldsTables callOf F' m t maps := by
  obtain ⟨T, hT, ho⟩ := h
  exact ⟨T, hT, ho.perm (hp.append_left T)⟩

theorem run_ops {callOf : Addr → IfCallData} {F : List Addr} (ops : List TableOp) :
    ∀ {m : Mem} {t : Tables} {maps : Maps} {lost : List (Option Addr × List Str)} {L : List Addr}
      {seen : List Str}, HoldsTables callOf (L ++ F) m t maps → ListsAt m lost L →
      (∀ n, n ∈ seen ↔ (maps.permmacros.find n).isSome = true) →
      ∃ m' t' lost' L', runTableOps ops m t = .ok (m', t') ∧
        HoldsTables callOf (L' ++ F) m' t' (ops.foldl (opEffect callOf) maps) ∧ ListsAt m' lost' L' ∧
        lost'.map (·.2) = lost.map (·.2) ++ redefined ops seen ∧ EqOn m m' F := by
  induction ops with
  | nil =>
    intro m t maps lost L seen h hl hs
    exact ⟨m, t, lost, L, rfl, h, hl, by simp [redefined], EqOn.refl _ _⟩
  | cons op ops ih =>
    intro m t maps lost L seen h hl hs
    by_cases hop : ∀ name perms, op ≠ .permmacro name perms
    · obtain ⟨⟨m₁, t₁, e₁, h₁, he₁⟩, hp⟩ := step_tables h op hop
      obtain ⟨m', t', lost', L', e₂, h₂, hl₂, hm₂, he₂⟩ := ih h₁ (hl.congr he₁.left)
        (seen := seen) (by rw [hp]; exact hs)
      refine ⟨m', t', lost', L', ?_, h₂, hl₂, ?_, he₁.right.trans he₂⟩
      · rw [runTableOps, e₁]; exact e₂
      · rw [hm₂]
        cases op <;> first | rfl | exact absurd rfl (hop _ _)
    · have : ∃ name perms, op = .permmacro name perms := by
        simp only [ne_eq, Classical.not_forall, Classical.not_not] at hop; exact hop
      obtain ⟨name, perms, rfl⟩ := this
      obtain ⟨T, hT, ho⟩ := h
      obtain ⟨q, m₁, G, e₁, hG, h₁, he₁⟩ := from_strs_owns perms (m := m) (ret := none) (l := [])
        (ps := []) (fuel := m.top + 2 * perms.length) ho .nil (by simp; omega)
      have hG : NamesAt m₁ q perms G := hG
      have h₁ : Owns m₁ (G ++ (T ++ (L ++ F))) := h₁
      have he₁ : EqOn m m₁ (T ++ (L ++ F)) := he₁
      have hh : HoldsTables callOf (G ++ (L ++ F)) m₁ t maps :=
        ⟨T, hT.congr he₁.left, h₁.perm (by pieces)⟩
      by_cases hk : (maps.permmacros.find name).isSome = true
      · obtain ⟨t₁, e₂, h₂⟩ := hh.macro_known hG hk
        obtain ⟨m', t', lost', L', e₃, h₃, hl₃, hm₃, he₃⟩ := ih (L := L ++ G) (seen := seen)
          (h₂.perm (by pieces)) ((hl.congr he₁.right.left).append
            (by simpa using ListsAt.cons hG .nil))
          (fun n => by
            rw [hs n]
            simp only [Maps.insertPermmacro, Assoc.insertNew]
            split
            · rfl
            · rename_i hf; simp [hf] at hk)
        refine ⟨m', t', lost', L', ?_, h₃, hl₃, ?_, he₁.right.right.trans he₃⟩
        · simp only [runTableOps, TableOp.run, e₁, Res.bind_ok, e₂, e₃]
        · rw [hm₃, redefined, if_pos ((hs name).2 hk)]; simp
      · obtain ⟨m₂, t₂, e₂, h₂, he₂⟩ := hh.macro_new hG hk
        obtain ⟨m', t', lost', L', e₃, h₃, hl₃, hm₃, he₃⟩ := ih (L := L) (seen := name :: seen)
          h₂ ((hl.congr he₁.right.left).congr he₂.left)
          (fun n => by
            rw [List.mem_cons, hs n, Maps.insertPermmacro, Assoc.find_insertNew]
            grind)
        refine ⟨m', t', lost', L', ?_, h₃, hl₃, ?_, (he₁.right.right.trans he₂.right).trans he₃⟩
        · simp only [runTableOps, TableOp.run, e₁, Res.bind_ok, e₂, e₃]
        · rw [hm₃, redefined, if_neg (fun hc => hk ((hs name).1 hc))]

/-! ## Freeing all tables -/

theorem step_each {body : Addr → Mem → Res Mem} (hE : LocalElem E)
    (hb : ∀ ⦃m p k v R⦄, E m p k v R → R.Nodup → R.length ≤ m.top →
      body p m = .ok (dropped m R)) {m : Mem} {ps : List Addr} {l : Assoc β} {R ds : List Addr}
    (h : TableAt E m ps l R) (hn : (ds ++ R).Nodup) (hl : (ds ++ R).length ≤ m.top) :
    Mem.forEach body ps (dropped m ds) = .ok (dropped m (ds ++ R)) := by
  have hd := List.nodup_append.1 hn
  simp only [List.length_append] at hl
  rw [forEach_free hE hb h (eqOn_dropped m fun q hq hq' => hd.2.2 q hq' q hq rfl) hd.2.1
    (by simp only [dropped_top]; omega), dropped_dropped]

theorem freeAllMaps_eq {callOf : Addr → IfCallData} {m : Mem} {t : Tables} {maps : Maps}
    {R : List Addr} (h : TablesAt m callOf t maps R) (hn : R.Nodup) (hl : R.length ≤ m.top) :
    m.freeAllMaps t = .ok (dropped m R, .empty) := by
  obtain ⟨P, Q, A, B, h₁, h₂, h₃, h₄, rfl⟩ := h
  have hR : strTables.flatMap P ++ flagTables.flatMap Q ++ A ++ B =
      [] ++ P .type ++ P .role ++ P .user ++ P .attrType ++ P .attrRole ++ P .bool ++ P .cls ++
      P .perm ++ P .mods ++ P .modLayers ++ P .ifs ++ Q .transform ++ Q .filetrans ++ Q .roleIf ++
      A ++ B := by
    simp [strTables, flagTables]
  rw [hR] at hn hl ⊢
  have pre : ∀ {a b : List Addr}, (a ++ b).Nodup ∧ (a ++ b).length ≤ m.top →
      a.Nodup ∧ a.length ≤ m.top := fun {a b} h =>
    ⟨(List.nodup_append.1 h.1).1, by have := h.2; simp only [List.length_append] at this; omega⟩
  have n16 := And.intro hn hl
  have n15 := pre n16
  have n14 := pre n15
  have n13 := pre n14
  have n12 := pre n13
  have n11 := pre n12
  have n10 := pre n11
  have n9 := pre n10
  have n8 := pre n9
  have n7 := pre n8
  have n6 := pre n7
  have n5 := pre n6
  have n4 := pre n5
  have n3 := pre n4
  have n2 := pre n3
  have n1 := pre n2
  have hs : ∀ (i : StrTable) {ds : List Addr},
      (ds ++ P i).Nodup ∧ (ds ++ P i).length ≤ m.top →
      Mem.forEach Mem.freeHash (t.str i) (dropped m ds) = .ok (dropped m (ds ++ P i)) :=
    fun i _ hd => step_each local_str (fun _ _ _ _ _ h hn _ => freeHash_elem h hn) (h₁ i) hd.1 hd.2
  have hf : ∀ (i : FlagTable) {ds : List Addr},
      (ds ++ Q i).Nodup ∧ (ds ++ Q i).length ≤ m.top →
      Mem.forEach Mem.freeFlag (t.flag i) (dropped m ds) = .ok (dropped m (ds ++ Q i)) :=
    fun i _ hd => step_each local_flag (fun _ _ _ _ _ h hn _ => freeFlag_elem h hn) (h₂ i) hd.1 hd.2
  have h0 : m = dropped m [] := by simp [dropped]
  rw [Mem.freeAllMaps]
  conv => lhs; arg 1; rw [h0]
  rw [hs .type n1, Res.bind_ok, hs .role n2, Res.bind_ok, hs .user n3, Res.bind_ok,
    hs .attrType n4, Res.bind_ok, hs .attrRole n5, Res.bind_ok, hs .bool n6, Res.bind_ok,
    hs .cls n7, Res.bind_ok, hs .perm n8, Res.bind_ok, hs .mods n9, Res.bind_ok,
    hs .modLayers n10, Res.bind_ok, hs .ifs n11, Res.bind_ok, hf .transform n12, Res.bind_ok,
    hf .filetrans n13, Res.bind_ok, hf .roleIf n14, Res.bind_ok,
    step_each local_macro (fun _ _ _ _ _ h hn hl => freeSlHash_elem h hn hl) h₃ n15.1 n15.2,
    Res.bind_ok, step_each (local_template callOf)
      (fun _ _ _ _ _ h hn hl => freeTemplate_elem h hn hl) h₄ n16.1 n16.2, Res.bind_ok]

end Selint
