import Verif.Lemmas.Basic
import Verif.Lemmas.Memory
/-! # Lemmas about lists of strings in memory -/

namespace Selint

open Spec

theorem Spec.Bounded.lt {m : Mem} (hb : Bounded m) {ps : List Addr} (h : Live m ps) :
    ∀ q ∈ ps, q < m.top := by
  intro q hq
  refine Nat.lt_of_not_le fun hle => h q hq (hb q hle)

theorem malloc_obj (m : Mem) (o : Obj) (q : Addr) :
    (m.malloc o).2.obj q = if q = m.top then some o else m.obj q := rfl

@[simp] theorem malloc_fst (m : Mem) (o : Obj) : (m.malloc o).1 = m.top := rfl
@[simp] theorem malloc_top (m : Mem) (o : Obj) : (m.malloc o).2.top = m.top + 1 := rfl

theorem Spec.Bounded.malloc {m : Mem} (hb : Bounded m) (o : Obj) : Bounded (m.malloc o).2 := by
  intro q hq
  simp only [malloc_top] at hq
  have := hb q (by omega)
  rw [malloc_obj, if_neg (by omega), this]

theorem write_ok {m : Mem} {p : Addr} {o : Obj} (h : m.obj p ≠ none) :
    m.write p o = .ok ⟨fun q => if q = p then some o else m.obj q, m.top⟩ := by
  simp only [Mem.write]
  split
  · rename_i h'; exact absurd h' h
  · rfl

theorem strInSl_mem {m p l ps} (h : SlAt m p l ps) (s : Str) :
    ∀ {fuel}, l.length ≤ fuel → m.strInSl fuel s p = .ok (decide (s ∈ l.map (·.1))) := by
  induction h with
  | nil => intro fuel _; cases fuel <;> simp [Mem.strInSl]
  | @cons p a n s' b l ps h₁ h₂ h₃ h₄ h₅ ih =>
    intro fuel hf
    obtain _ | fuel := fuel
    · simp at hf
    simp only [List.length_cons, Nat.add_le_add_iff_right] at hf
    rw [Mem.strInSl, get_eq h₁ (f := Obj.sl?) rfl, Res.bind_ok, Mem.getAt,
      get_eq h₂ (f := Obj.str?) rfl, Res.bind_ok]
    split
    · rename_i h
      have := (strcmp_eq_zero).1 h
      simp [this]
    · rename_i h
      have : s ≠ s' := fun e => h ((strcmp_eq_zero).2 e.symm)
      rw [ih hf]
      simp [this]

theorem copyLoop_spec {m p l ps} (h : SlAt m p l ps) :
    ∀ {m' sl cur fuel}, p = some sl → EqOn m m' ps → Bounded m' → m'.obj cur ≠ none →
      cur ∉ ps → l.length ≤ fuel →
      ∃ m'' qs, Mem.copyLoop fuel m' sl cur = .ok m'' ∧ SlAt m'' (some cur) l (cur :: qs) ∧
        Bounded m'' ∧ (∀ q ∈ qs, m'.top ≤ q) ∧
        ∀ q, q ≠ cur → q ∉ qs → m''.obj q = m'.obj q := by
  induction h with
  | nil => intro _ _ _ _ h; cases h
  | @cons p a n s b l ps h₁ h₂ h₃ h₄ h₅ ih =>
    intro m' sl cur fuel hp he hb hcur hnc hf
    cases hp
    obtain _ | fuel := fuel
    · simp at hf
    simp only [List.length_cons, Nat.add_le_add_iff_right] at hf
    rw [← he p (by simp)] at h₁
    rw [← he a (by simp)] at h₂
    have hlt : cur < m'.top := Nat.lt_of_not_le fun h => hcur (hb _ h)
    have hpl : ∀ q ∈ ps, q < m'.top := by
      intro q hq
      refine Nat.lt_of_not_le fun h => ?_
      have := hb q h
      rw [he q (by simp [hq])] at this
      exact h₃.live q hq this
    rw [Mem.copyLoop, get_eq h₁ (f := Obj.sl?) rfl, Res.bind_ok, Mem.getAt,
      get_eq h₂ (f := Obj.str?) rfl, Res.bind_ok]
    cases n with
    | none =>
      cases h₃
      simp only [Mem.malloc]
      rw [write_ok (by simp [Nat.ne_of_lt hlt, hcur])]
      refine ⟨_, [m'.top], rfl, ?_, ?_, ?_, ?_⟩
      · refine .cons (by simp) ?_ .nil (by simp) (by simp)
        simp [Nat.ne_of_gt hlt]
      · intro q hq
        simp only at hq
        have := hb q (by omega)
        simp only
        rw [if_neg (by omega), if_neg (by omega), this]
      · simp
      · intro q hq hq'
        simp only [List.mem_singleton] at hq'
        simp [hq, hq']
    | some n =>
      simp only [Mem.malloc]
      rw [write_ok (by simp [Nat.ne_of_lt hlt, hcur, show cur ≠ m'.top + 1 by omega]),
        Res.bind_ok]
      obtain ⟨m'', qs, h₁', h₂', h₃', h₄', h₅'⟩ := ih (m' := ⟨fun q => if q = cur then
          some (.sl ⟨some m'.top, some (m'.top + 1), b⟩) else if q = m'.top + 1 then some .raw
          else if q = m'.top then some (.bytes s) else m'.obj q, m'.top + 2⟩)
        (sl := n) (cur := m'.top + 1) (fuel := fuel) rfl
        (by
          intro q hq
          have := hpl q hq
          have hq' : q ≠ cur := by rintro rfl; exact hnc (by simp [hq])
          simp only
          rw [if_neg hq', if_neg (by omega), if_neg (by omega), he q (by simp [hq])])
        (by
          intro q hq
          simp only at hq
          have := hb q (by omega)
          simp only
          rw [if_neg (by omega), if_neg (by omega), if_neg (by omega), this])
        (by simp [show m'.top + 1 ≠ cur by omega])
        (by intro hq; have := hpl _ hq; omega) hf
      simp only at h₄'
      refine ⟨m'', m'.top :: (m'.top + 1) :: qs, h₁', ?_, h₃', ?_, ?_⟩
      · have hc : cur ∉ qs := fun hq => by have := h₄' _ hq; omega
        have ht : m'.top ∉ qs := fun hq => by have := h₄' _ hq; omega
        refine .cons ?_ ?_ h₂' (by simp [hc, show cur ≠ m'.top + 1 by omega]) (by simp [ht])
        · rw [h₅' cur (by omega) hc]; simp
        · rw [h₅' m'.top (by omega) ht]
          simp [show m'.top ≠ cur by omega]
      · intro q hq
        simp only [List.mem_cons] at hq
        rcases hq with rfl | rfl | hq
        · omega
        · omega
        · have := h₄' q hq; omega
      · intro q hq hq'
        simp only [List.mem_cons, not_or] at hq'
        rw [h₅' q hq'.2.1 hq'.2.2]
        simp [hq, hq'.1, hq'.2.1]

/-- The last cell of a list, and what the list becomes when that cell is made to point to
another list. -/
theorem lastCell_spec {m p l ps} (h : SlAt m p l ps) :
    ∀ {sl fuel}, p = some sl → l.length ≤ fuel →
      ∃ cur c, Mem.lastCell fuel m sl = .ok cur ∧ cur ∈ ps ∧ m.obj cur = some (.sl c) ∧
        c.next = none ∧
        ∀ {m' t l' qs}, (∀ q, q ≠ cur → q ∈ ps → m'.obj q = m.obj q) →
          m'.obj cur = some (.sl { c with next := t }) → SlAt m' t l' qs →
          (∀ q ∈ ps, q ∉ qs) → SlAt m' (some sl) (l ++ l') (ps ++ qs) := by
  induction h with
  | nil => intro _ _ h; cases h
  | @cons p a n s b l ps h₁ h₂ h₃ h₄ h₅ ih =>
    intro sl fuel hp hf
    cases hp
    obtain _ | fuel := fuel
    · simp at hf
    simp only [List.length_cons, Nat.add_le_add_iff_right] at hf
    have hap : a ≠ p := by rintro rfl; simp [h₁] at h₂
    rw [Mem.lastCell, get_eq h₁ (f := Obj.sl?) rfl, Res.bind_ok]
    cases n with
    | none =>
      cases h₃
      refine ⟨p, _, rfl, by simp, h₁, rfl, ?_⟩
      intro m' t l' qs he hc ht hd
      exact .cons hc (by rw [he a hap (by simp)]; exact h₂) ht (hd _ (by simp)) (hd _ (by simp))
    | some n =>
      obtain ⟨cur, c, e₁, e₂, e₃, e₄, e₅⟩ := ih rfl hf
      refine ⟨cur, c, e₁, by simp [e₂], e₃, e₄, ?_⟩
      intro m' t l' qs he hc ht hd
      have hpc : p ≠ cur := by rintro rfl; exact h₄ e₂
      have hac : a ≠ cur := by rintro rfl; exact h₅ e₂
      refine .cons (by rw [he p hpc (by simp)]; exact h₁) (by rw [he a hac (by simp)]; exact h₂)
        (e₅ (fun q h h' => he q h (by simp [h'])) hc ht (fun q hq => hd q (by simp [hq]))) ?_ ?_
      · exact fun h => (List.mem_append.1 h).elim h₄ (hd p (by simp))
      · exact fun h => (List.mem_append.1 h).elim h₅ (hd a (by simp))

theorem setNext_ok {m : Mem} {cur : Addr} {c : SlCell} (h : m.obj cur = some (.sl c))
    (n : Option Addr) :
    m.setNext cur n = .ok ⟨fun q => if q = cur then some (.sl { c with next := n })
      else m.obj q, m.top⟩ := by
  rw [Mem.setNext, get_eq h (f := Obj.sl?) rfl, Res.bind_ok, write_ok (by simp [h])]

theorem concat_spec {m h t l l' ps qs} (h₁ : SlAt m h l ps) (h₂ : SlAt m t l' qs)
    (hd : ∀ q ∈ ps, q ∉ qs) {fuel : Nat} (hf : l.length ≤ fuel) :
    ∃ r m', m.concatStringLists fuel h t = .ok (r, m') ∧ SlAt m' r (l ++ l') (ps ++ qs) ∧
      SameOff m m' ps ∧ m'.top = m.top ∧ ∀ q ∈ ps, m'.obj q ≠ none := by
  cases h with
  | none =>
    cases h₁
    exact ⟨t, m, by simp [Mem.concatStringLists], by simpa using h₂, fun _ _ => rfl, rfl, by simp⟩
  | some h =>
    cases t with
    | none =>
      cases h₂
      exact ⟨some h, m, by simp [Mem.concatStringLists], by simpa using h₁, fun _ _ => rfl, rfl,
        h₁.live⟩
    | some t =>
      obtain ⟨cur, c, e₁, e₂, e₃, e₄, e₅⟩ := lastCell_spec h₁ rfl hf
      have hs : SlAt ⟨fun q => if q = cur then some (.sl { c with next := some t })
          else m.obj q, m.top⟩ (some t) l' qs := by
        refine h₂.congr fun q hq => ?_
        have : q ≠ cur := by rintro rfl; exact hd _ e₂ hq
        simp [this]
      refine ⟨some h, _, ?_, e₅ ?_ (by simp) hs hd, ?_, rfl, ?_⟩
      · simp only [Mem.concatStringLists, e₁, Res.bind_ok, setNext_ok e₃]
      · intro q hq _
        simp [hq]
      · intro q hq
        have : q ≠ cur := by rintro rfl; exact hq e₂
        simp [this]
      · intro q hq
        have := h₁.live q hq
        simp only
        split <;> simp [this]

theorem slFromStr_spec {m : Mem} (hb : Bounded m) (s : Str) :
    ∃ ps, SlAt (m.slFromStr s).2 (some (m.slFromStr s).1) [(s, false)] ps ∧
      AddsOnly m (m.slFromStr s).2 ps ∧ Bounded (m.slFromStr s).2 := by
  refine ⟨[m.top + 1, m.top], .cons (n := none) ?_ ?_ .nil (by simp) (by simp), ⟨?_, ?_⟩, ?_⟩
  · simp [Mem.slFromStr, Mem.malloc]
  · simp [Mem.slFromStr, Mem.malloc]
  · intro q hq
    simp only [List.mem_cons, List.not_mem_nil, or_false] at hq
    exact hb q (by omega)
  · intro q hq
    simp only [List.mem_cons, List.not_mem_nil, or_false, not_or] at hq
    simp [Mem.slFromStr, Mem.malloc, hq.1, hq.2]
  · exact Bounded.malloc (Bounded.malloc hb _) _

theorem Spec.AddsOnly.live_disjoint {m m' : Mem} {ps qs : List Addr} (h : AddsOnly m m' qs)
    (hl : Live m ps) : ∀ q ∈ ps, q ∉ qs := fun q hq hq' => hl q hq (h.1 q hq')

theorem Spec.AddsOnly.eqOn {m m' : Mem} {ps qs : List Addr} (h : AddsOnly m m' qs)
    (hl : Live m ps) : EqOn m m' ps := fun q hq => h.2 q (h.live_disjoint hl q hq)

end Selint
