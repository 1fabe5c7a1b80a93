import Verif.Lemmas.LalrEnded
import Verif.Lemmas.LalrFits
import Verif.Lemmas.LalrSyntax
/-!
# What has been shifted is the beginning of a file
-/

namespace Selint
namespace Lr
open Spec

theorem _root_.Selint.Spec.Yields.append {xs ys : List Sym} {us ws : List Term} (h : Yields xs us)
    (h' : Yields ys ws) : Yields (xs ++ ys) (us ++ ws) := by
  induction h with
  | nil => exact h'
  | token _ ih => exact .token ih
  | production hr hy _ _ ih =>
    rw [List.append_assoc]
    exact .production hr hy ih

theorem _root_.Selint.Spec.Yields.split {ys zs : List Sym} {ws : List Term} (h : Yields zs ws) :
    ∀ {xs : List Sym}, zs = xs ++ ys →
    ∃ us vs, ws = us ++ vs ∧ Yields xs us ∧ Yields ys vs := by
  induction h with
  | nil =>
    intro xs he
    obtain ⟨rfl, rfl⟩ := List.append_eq_nil_iff.1 he.symm
    exact ⟨[], [], rfl, .nil, .nil⟩
  | @token x zs ws h ih =>
    intro xs he
    cases xs with
    | nil =>
      have he : Sym.t x :: zs = ys := he
      subst he
      exact ⟨[], _, rfl, .nil, .token h⟩
    | cons y xs =>
      simp only [List.cons_append, List.cons.injEq] at he
      obtain ⟨rfl, he⟩ := he
      obtain ⟨us, vs, rfl, h₁, h₂⟩ := ih he
      exact ⟨x :: us, vs, rfl, .token h₁, h₂⟩
  | @production r zs us ws hr hy h ih₁ ih =>
    intro xs he
    cases xs with
    | nil =>
      have he : Sym.n r.lhs :: zs = ys := he
      subst he
      exact ⟨[], _, rfl, .nil, .production hr hy h⟩
    | cons y xs =>
      simp only [List.cons_append, List.cons.injEq] at he
      obtain ⟨rfl, he⟩ := he
      obtain ⟨us', vs, rfl, h₁, h₂⟩ := ih he
      exact ⟨us ++ us', vs, by rw [List.append_assoc], .production hr hy h₁, h₂⟩

/-- A production at the end is put together. -/
theorem _root_.Selint.Spec.Yields.fold {xs : List Sym} {ws : List Term} {r : Rule} (hr : r ∈ rules)
    (h : Yields (xs ++ r.rhs) ws) : Yields (xs ++ [.n r.lhs]) ws := by
  obtain ⟨us, vs, rfl, h₁, h₂⟩ := h.split rfl
  refine h₁.append ?_
  have := Yields.production hr h₂ .nil
  rwa [List.append_nil] at this

/-! ## Every nonterminal stands for something -/

/-- What is checked of the production of a nonterminal. -/
def checkEnd (i : Nat) : Bool :=
  (ntEnds[i]?).any fun e => (codedRule e.1).any fun r => r.1 == 100 + i &&
    r.2.all fun x => decide (x < 100) || (ntEnds[x - 100]?).any fun f => decide (f.2 < e.2)

theorem ends_checked : (List.range ntTable.length).all checkEnd = true := by decide +kernel

theorem Nt.ends : ∀ (n : Nat) (x : Nt) (e : Nat × Nat), ntEnds[x.code - 100]? = some e → e.2 = n →
    ∃ ws, Yields [.n x] ws := by
  intro n
  induction n using Nat.strongRecOn with
  | _ n ih =>
    intro x e he hn
    have hlt : x.code - 100 < ntTable.length := (List.getElem?_eq_some_iff.1 x.code_table).1
    have hc := List.all_eq_true.1 ends_checked _ (List.mem_range.2 hlt)
    simp only [checkEnd, he, Option.any_some, option_any, Bool.and_eq_true, beq_iff_eq] at hc
    obtain ⟨r', hr', hlhs, hall⟩ := hc
    have hp : e.1 < 283 := by
      simp only [codedRule, Option.bind_eq_some_iff] at hr'
      obtain ⟨rows, h₁, h₂⟩ := hr'
      have := (List.getElem?_eq_some_iff.1 h₁).1
      have h15 : codedRules.length = 15 := by decide +kernel
      have hlast : (codedRules[14]?.map List.length) = some 3 := by decide +kernel
      have h₃ := (List.getElem?_eq_some_iff.1 h₂).1
      by_cases h14 : e.1 / 20 = 14
      · rw [h14] at h₁
        rw [h₁] at hlast
        simp only [Option.map_some, Option.some.injEq] at hlast
        omega
      · omega
    rw [← rules_length] at hp
    have hr := List.getElem?_eq_getElem hp
    rw [codedRule_eq hr] at hr'
    cases hr'
    have hrm : rules[e.1] ∈ rules := List.getElem_mem hp
    have hx : rules[e.1].lhs = x := by
      have h₁ : rules[e.1].lhs.code = 100 + (x.code - 100) := hlhs
      have h₂ := x.code_ge
      have h₃ := rules[e.1].lhs.code_table
      rw [h₁, Nat.add_sub_cancel_left, x.code_table] at h₃
      exact (Option.some.inj h₃).symm
    have hrhs : ∀ xs : List Sym, (∀ s ∈ xs, s ∈ rules[e.1].rhs) → ∃ ws, Yields xs ws := by
      intro xs
      induction xs with
      | nil => intro _; exact ⟨[], .nil⟩
      | cons s xs ihs =>
        intro hm
        obtain ⟨ws, hws⟩ := ihs (fun s' hs' => hm s' (List.mem_cons_of_mem _ hs'))
        cases s with
        | t y => exact ⟨y :: ws, .token hws⟩
        | n y =>
          have := List.all_eq_true.1 hall (Sym.code (.n y))
            (List.mem_map_of_mem (hm _ (List.mem_cons_self ..)))
          simp only [Bool.or_eq_true, decide_eq_true_eq, option_any] at this
          rcases this with h | ⟨f, hf, hfn⟩
          · exact absurd h (Nat.not_lt.2 y.code_ge)
          · obtain ⟨us, hus⟩ := ih f.2 (by omega) y f hf rfl
            exact ⟨us ++ ws, hus.append hws⟩
    obtain ⟨ws, hws⟩ := hrhs _ (fun s hs => hs)
    refine ⟨ws ++ [], ?_⟩
    rw [← hx]
    exact .production hrm hws .nil

theorem ntEnds_length : ntEnds.length = ntTable.length := by decide +kernel

/-- Any symbols stand for some tokens. -/
theorem yields_some : ∀ xs : List Sym, ∃ ws, Yields xs ws
  | [] => ⟨[], .nil⟩
  | .t x :: xs => by
    obtain ⟨ws, h⟩ := yields_some xs
    exact ⟨x :: ws, .token h⟩
  | .n x :: xs => by
    obtain ⟨ws, h⟩ := yields_some xs
    have hlt : x.code - 100 < ntEnds.length := by
      rw [ntEnds_length]
      exact (List.getElem?_eq_some_iff.1 x.code_table).1
    obtain ⟨us, hus⟩ := Nt.ends _ x _ (List.getElem?_eq_getElem hlt) rfl
    exact ⟨us ++ ws, hus.append h⟩

/-! ## Every state leads on to the end -/

/-- The production that may be finished in a state. -/
def endAt (s : Nat) : Nat × Nat × Nat := ((stateEnds[s / 25]?).bind (·[s % 25]?)).getD (0, 0, 0)

/-- What is checked of a way to a state. -/
def checkToEnd (u : Nat) (x : Nat × Nat) : Bool :=
  x.2 == lalrFinal || (
    let e := endAt x.2
    e.2.1 != 0 && hasItem x.2 e.1 e.2.1 0 &&
    (e.2.1 != 1 || (codedRule e.1).any fun r => (lalrGoto u r.1).any fun s =>
      decide ((endAt s).2.2 < e.2.2)))

theorem toEnd_checked : (List.range 24).all (fun i => (List.range 25).all fun j =>
    (lalrRow (25 * i + j)).all fun row => row.shifts.all (checkToEnd (25 * i + j)) &&
      row.gotos.all (checkToEnd (25 * i + j))) = true := by decide +kernel

theorem endAt_small : stateEnds.all (fun es => es.all fun e => decide (e.2.2 < 10)) = true := by
  decide +kernel

theorem endAt_lt (s : Nat) : (endAt s).2.2 < 10 := by
  unfold endAt
  cases h : (stateEnds[s / 25]?).bind (·[s % 25]?) with
  | none => simp
  | some e =>
    simp only [Option.bind_eq_some_iff] at h
    obtain ⟨es, h₁, h₂⟩ := h
    have := List.all_eq_true.1 (List.all_eq_true.1 endAt_small es (List.mem_of_getElem? h₁)) e
      (List.mem_of_getElem? h₂)
    simpa using this

theorem toEnd_of {u s x : Nat} (hx : lalrAction u x = some (.shift s) ∨ lalrGoto u x = some s) :
    checkToEnd u (x, s) = true := by
  have key : ∀ {row : LalrRow}, lalrRow u = some row →
      row.shifts.all (checkToEnd u) = true ∧ row.gotos.all (checkToEnd u) = true := by
    intro row hrow
    obtain ⟨i, hi, -, hii⟩ := row_place hrow
    have := List.all_eq_true.1 (List.all_eq_true.1 toEnd_checked i (List.mem_range.2 hi)) (u % 25)
      (List.mem_range.2 (Nat.mod_lt _ (by omega)))
    have e : 25 * i + u % 25 = u := by omega
    rw [e, hrow] at this
    simpa only [Option.all_some, Bool.and_eq_true] using this
  rcases hx with ha | hg
  · simp only [lalrAction] at ha
    split at ha
    · cases ha
    · simp only [Option.bind_eq_some_iff] at ha
      obtain ⟨row, hrow, ha⟩ := ha
      split at ha
      · rename_i y hy
        cases ha
        have := List.all_eq_true.1 (key hrow).1 y (List.mem_of_find?_eq_some hy)
        have hyx : y.1 = x := by simpa using List.find?_some hy
        rw [← hyx]
        exact this
      · split at ha
        · cases ha
        · simp only [Option.map_eq_some_iff] at ha
          obtain ⟨q, hq, ha⟩ := ha
          cases ha
  · simp only [lalrGoto, Option.bind_eq_some_iff, Option.map_eq_some_iff] at hg
    obtain ⟨row, hrow, y, hy, rfl⟩ := hg
    have := List.all_eq_true.1 (key hrow).2 y (List.mem_of_find?_eq_some hy)
    have hyx : y.1 = x := by simpa using List.find?_some hy
    rw [← hyx]
    exact this

theorem syms_of_codes : ∀ {xs : List (Nat × Sym)} {ys : List Sym}, (∀ s ∈ ys, s.code ≠ 99) →
    xs.map (fun x => x.2.code) = ys.map Sym.code → xs.map (·.2) = ys := by
  intro xs
  induction xs with
  | nil =>
    intro ys _ h
    cases ys with
    | nil => rfl
    | cons y ys => cases h
  | cons x xs ih =>
    intro ys hys h
    cases ys with
    | nil => cases h
    | cons y ys =>
      simp only [List.map_cons, List.cons.injEq] at h ⊢
      exact ⟨Sym.code_inj h.1 (hys y (List.mem_cons_self ..)),
        ih (fun s hs => hys s (List.mem_cons_of_mem _ hs)) h.2⟩

/-- An item in the topmost state: its production can be finished. -/
theorem Linked.close {stk : List (Nat × Sym)} {p d l : Nat} (hk : Linked stk)
    (hi : (p, d, l) ∈ itemsAt (topState stk)) {us : List Term}
    (hy : Yields (stk.map (·.2)).reverse us) :
    ∃ r s more, rules[p]? = some r ∧
      lalrGoto (topState (stk.drop d)) r.lhs.code = some s ∧ d ≤ stk.length ∧
      Linked ((s, .n r.lhs) :: stk.drop d) ∧
      Yields (((s, Sym.n r.lhs) :: stk.drop d).map (·.2)).reverse (us ++ more) := by
  have hp : ∃ r, rules[p]? = some r := by
    have h := item_checked hi
    simp only [checkItem] at h
    cases hc : codedRule p with
    | none => rw [hc] at h; cases h
    | some c =>
      have hp : p < 283 := by
        simp only [codedRule, Option.bind_eq_some_iff] at hc
        obtain ⟨rows, h₁, h₂⟩ := hc
        have := (List.getElem?_eq_some_iff.1 h₁).1
        have h15 : codedRules.length = 15 := by decide +kernel
        have hlast : (codedRules[14]?.map List.length) = some 3 := by decide +kernel
        have h₃ := (List.getElem?_eq_some_iff.1 h₂).1
        by_cases h14 : p / 20 = 14
        · rw [h14] at h₁
          rw [h₁] at hlast
          simp only [Option.map_some, Option.some.injEq] at hlast
          omega
        · omega
      rw [← rules_length] at hp
      exact ⟨_, List.getElem?_eq_getElem hp⟩
  obtain ⟨r, hr⟩ := hp
  have hrm : r ∈ rules := List.mem_of_getElem? hr
  have hcr := codedRule_eq hr
  obtain ⟨ps, rest, rfl, hps, hlen, hrest, l', hl'⟩ := hk.walk hcr hi
  have hdrop : (ps ++ rest).drop d = rest := List.drop_left' hlen
  obtain ⟨row', hrow'⟩ := item_row hl'
  have hb' := row_below hrow'
  simp only [checkBelow, Bool.and_eq_true] at hb'
  have hbeg := List.all_eq_true.1 hb'.1.2 _ hl'
  simp only [checkBegin, hcr, Option.all_some, bne_self_eq_false, Bool.false_or, Bool.and_eq_true,
    Option.isSome_iff_exists] at hbeg
  obtain ⟨⟨⟨s, hg⟩, -⟩, -⟩ := hbeg
  have hsym : ps.map (·.2) = (r.rhs.take d).reverse := by
    refine syms_of_codes (fun s hs => ?_) ?_
    · refine symbols_known r hrm s (List.mem_append.2 (.inr ?_))
      exact List.mem_of_mem_take (List.mem_reverse.1 hs)
    · rw [hps, ← List.map_take, List.map_reverse]
  obtain ⟨more, hmore⟩ := yields_some (r.rhs.drop d)
  refine ⟨r, s, more, hr, by rw [hdrop]; exact hg, by simp; omega, by
    rw [hdrop]; exact .nt hrest hg, ?_⟩
  have := hy.append hmore
  rw [List.map_append, hsym, List.reverse_append, List.reverse_reverse, List.append_assoc,
    List.take_append_drop] at this
  rw [hdrop, List.map_cons, List.reverse_cons]
  exact this.fold hrm

/-- What is on the stack is the beginning of a file. -/
theorem Linked.viable : ∀ (n : Nat) {stk : List (Nat × Sym)}, Linked stk →
    10 * stk.length + (endAt (topState stk)).2.2 ≤ n → ∀ {us : List Term},
    Yields (stk.map (·.2)).reverse us → ∃ more, Sentence (us ++ more) := by
  intro n
  induction n with
  | zero =>
    intro stk hk hn us hy
    cases stk with
    | nil =>
      cases hy
      obtain ⟨ws, h⟩ := yields_some [.n .selinuxFile]
      exact ⟨ws, h⟩
    | cons x stk => simp at hn
  | succ n ih =>
    intro stk hk hn us hy
    by_cases hf : topState stk = lalrFinal
    · have := hk.final hf
      subst this
      exact ⟨[], by rw [List.append_nil]; exact hy⟩
    · have go : ∀ {s : Nat} {x : Sym} {stk' : List (Nat × Sym)}, stk = (s, x) :: stk' →
          checkToEnd (topState stk') (x.code, s) = true → ∃ more, Sentence (us ++ more) := by
        intro s x stk' he hc
        subst he
        have hf' : (s == lalrFinal) = false := by
          rw [beq_eq_false_iff_ne]
          exact hf
        simp only [checkToEnd, hf', Bool.false_or, Bool.and_eq_true, bne_iff_ne, Bool.or_eq_true,
          option_any, decide_eq_true_eq] at hc
        obtain ⟨⟨hd, hitem⟩, hone⟩ := hc
        obtain ⟨l, hi, -⟩ := hasItem_iff.1 hitem
        obtain ⟨r, s', more, hr, hg, hdl, hk', hy'⟩ := hk.close (l := l) (by exact hi) hy
        obtain ⟨more', hs⟩ := ih hk' (by
          have hsmall := endAt_lt s'
          have hlen : (((s, x) :: stk').drop (endAt s).2.1).length =
            (stk'.length + 1) - (endAt s).2.1 := by simp
          have htop : topState ((s', Sym.n r.lhs) :: ((s, x) :: stk').drop (endAt s).2.1) = s' := rfl
          rw [List.length_cons, hlen, htop]
          have hn : 10 * (stk'.length + 1) + (endAt s).2.2 ≤ n + 1 := hn
          by_cases h1 : (endAt s).2.1 = 1
          · rcases hone with h | ⟨r', hr', s'', hs'', hlt⟩
            · exact absurd h1 h
            · rw [codedRule_eq hr] at hr'
              cases hr'
              have : lalrGoto (topState stk') r.lhs.code = some s' := by
                rw [h1] at hg
                exact hg
              rw [this] at hs''
              cases hs''
              omega
          · have hdl : (endAt s).2.1 ≤ stk'.length + 1 := hdl
            omega) hy'
        exact ⟨more ++ more', by rw [← List.append_assoc]; exact hs⟩
      cases hk with
      | nil =>
        cases hy
        obtain ⟨ws, h⟩ := yields_some [.n .selinuxFile]
        exact ⟨ws, h⟩
      | tok hk' ha => exact go rfl (toEnd_of (.inl ha))
      | nt hk' hg => exact go rfl (toEnd_of (.inr hg))

end Lr
end Selint
