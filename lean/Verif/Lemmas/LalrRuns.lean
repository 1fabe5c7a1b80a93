import Verif.Lemmas.LalrDerives
import Verif.Lemmas.Lalr
import Verif.Lemmas.LrLike
import Verif.Spec.Lalr
/-!
# The rounds of `yyparse`
-/

namespace Selint
namespace Lr
open Spec

theorem DriveReaches.trans {a b c : Drive} (h : DriveReaches a b) (h' : DriveReaches b c) :
    DriveReaches a c := by
  induction h' with
  | refl => exact h
  | step _ hs ih => exact .step ih hs

/-- The symbol of the next token. -/
def nextSym (ts : Located) : Sym := tokenSym (ts.head?.map (·.2))

/-- The topmost state. -/
def topState : List (Nat × Sym) → Nat
  | [] => 0
  | x :: _ => x.1

/-- The token that was read, and those that are left. -/
def LookAt (d : Drive) (ts : Located) (f : List FVal) : Prop :=
  (d.l.c.look = none ∧ f = [] ∧ d.input = ts) ∨
  (∃ e, d.l.c.look = some e ∧ e.sym = nextSym ts ∧ f = [tokenVal (ts.head?.map (·.2))] ∧
    d.input = ts.tail)

/-- The parser, in terms of the functional model: its stack of states and symbols, their values,
a state like that of the parser, and the tokens that have not been shifted. -/
structure Runs (m₀ : Mem) (expected : PlainFlavor) (mod : Str) (maps : Maps)
    (stk : List (Nat × Sym)) (σ : List FVal) (st : PState) (ts : Located) (d : Drive) : Prop where
  states : d.states = stk.map (·.1) ++ [0]
  syms : d.l.c.stack.map Entry.sym = stk.map (·.2)
  mem : ∃ st' f is ls k, At m₀ expected mod maps False True d.l.c [] st' (f ++ σ) is ls k ∧
    Like st st' ∧ LookAt d ts f

variable {m₀ : Mem} {expected : PlainFlavor} {mod : Str} {maps : Maps} {stk : List (Nat × Sym)}
  {σ : List FVal} {st : PState} {ts : Located} {d : Drive}

theorem Runs.states_cons (h : Runs m₀ expected mod maps stk σ st ts d) :
    ∃ rest, d.states = topState stk :: rest := by
  rw [h.states]
  cases stk with
  | nil => exact ⟨[], rfl⟩
  | cons x stk => exact ⟨_, rfl⟩

/-- A token is read, if there is none. -/
theorem Runs.look (h : Runs m₀ expected mod maps stk σ st ts d) :
    ∃ d', DriveReaches d d' ∧ Runs m₀ expected mod maps stk σ st ts d' ∧ ∃ e,
      d'.l.c.look = some e ∧ e.sym = nextSym ts ∧ d'.input = ts.tail := by
  obtain ⟨st', f, is, ls, k, hat, hlike, hl | ⟨e, he, hs, hf, hi⟩⟩ := h.mem
  · obtain ⟨hl, rfl, rfl⟩ := hl
    have key : ∀ line (t : Option Token), ∃ v, d.l.step (.read line t) =
        some (.ok (.go ⟨readToken d.l.c t, d.l.spans, line⟩)) ∧
        (readToken d.l.c t).look = some ⟨tokenSym t, v⟩ ∧
        (readToken d.l.c t).stack = d.l.c.stack := fun line t => by
      obtain ⟨v, h₁, h₂⟩ := readToken_look d.l.c t
      exact ⟨v, by simp only [Lined.step, Config.step, hl], h₁, h₂⟩
    cases hin : d.input with
    | nil =>
      obtain ⟨v, h₁, h₂, h₃⟩ := key d.l.look none
      obtain ⟨is', hat'⟩ := hat.read hl none (q' := False) nofun
      refine ⟨⟨⟨readToken d.l.c none, d.l.spans, d.l.look⟩, d.states, []⟩, .step .refl (by
        simp only [Drive.step, hl, hin, Drive.make, h₁]), ?_, _, h₂, rfl, rfl⟩
      exact ⟨h.states, by rw [h₃]; exact h.syms, st', [tokenVal none], is', ls, k, hat', hlike,
        .inr ⟨_, h₂, rfl, rfl, rfl⟩⟩
    | cons x rest =>
      obtain ⟨line, t⟩ := x
      obtain ⟨v, h₁, h₂, h₃⟩ := key line (some t)
      obtain ⟨is', hat'⟩ := hat.read hl (some t) (q' := False) nofun
      refine ⟨⟨⟨readToken d.l.c (some t), d.l.spans, line⟩, d.states, rest⟩, .step .refl (by
        simp only [Drive.step, hl, hin, Drive.make, h₁]), ?_, _, h₂, rfl, rfl⟩
      exact ⟨h.states, by rw [h₃]; exact h.syms, st', [tokenVal (some t)], is', ls, k, hat', hlike,
        .inr ⟨_, h₂, rfl, rfl, rfl⟩⟩
  · exact ⟨d, .refl, h, e, he, hs, hi⟩

/-- `yyparse` comes from any state of the first kind to one of the second. -/
def Can (m₀ : Mem) (expected : PlainFlavor) (mod : Str) (maps : Maps)
    (stk : List (Nat × Sym)) (σ : List FVal) (st : PState) (ts : Located)
    (stk' : List (Nat × Sym)) (σ' : List FVal) (st' : PState) (ts' : Located) : Prop :=
  ∀ ⦃d : Drive⦄, Runs m₀ expected mod maps stk σ st ts d →
    ∃ d', DriveReaches d d' ∧ Runs m₀ expected mod maps stk' σ' st' ts' d'

theorem Can.refl : Can m₀ expected mod maps stk σ st ts stk σ st ts := fun d h => ⟨d, .refl, h⟩

theorem Can.trans {s₁ σ₁ t₁ u₁ s₂ σ₂ t₂ u₂ s₃ σ₃ t₃ u₃}
    (h : Can m₀ expected mod maps s₁ σ₁ t₁ u₁ s₂ σ₂ t₂ u₂)
    (h' : Can m₀ expected mod maps s₂ σ₂ t₂ u₂ s₃ σ₃ t₃ u₃) :
    Can m₀ expected mod maps s₁ σ₁ t₁ u₁ s₃ σ₃ t₃ u₃ := fun _ hd =>
  let ⟨_, r₁, h₁⟩ := h hd
  let ⟨d', r₂, h₂⟩ := h' h₁
  ⟨d', DriveReaches.trans r₁ r₂, h₂⟩

/-- A token is shifted. -/
theorem Can.shift {line : Nat} {t : Token} {s : Nat}
    (ha : lalrAction (topState stk) (tokenSym (some t)).code = some (.shift s)) :
    Can m₀ expected mod maps stk σ st ((line, t) :: ts)
      ((s, tokenSym (some t)) :: stk) (tokenVal (some t) :: σ) st ts := by
  intro d₀ h₀
  obtain ⟨d, hr, h, e, he, hs, hi⟩ := h₀.look
  obtain ⟨rest, hst⟩ := h.states_cons
  obtain ⟨st', f, is, ls, k, hat, hlike, hl | ⟨e', he', hs', hf, hi'⟩⟩ := h.mem
  · rw [he] at hl; cases hl.1
  · rw [he] at he'
    cases he'
    have hs : e.sym = tokenSym (some t) := hs
    have hstep : d.step = .ok (.go ⟨⟨{ d.l.c with stack := e :: d.l.c.stack, look := none },
        ⟨d.l.look, d.l.look⟩ :: d.l.spans, d.l.look⟩, s :: d.states, d.input⟩) := by
      have hl : d.l.step .shift = some (.ok (.go ⟨{ d.l.c with stack := e :: d.l.c.stack, look := none },
        ⟨d.l.look, d.l.look⟩ :: d.l.spans, d.l.look⟩)) := by
        simp only [Lined.step, Config.step, he]
      simp only [Drive.step, he, hst, hs, ha, Drive.make, hl]
    refine ⟨_, DriveReaches.trans hr (.step .refl hstep), ?_, ?_, ?_⟩
    · simp only [h.states, List.map_cons, List.cons_append]
    · simp only [List.map_cons, h.syms, hs]
    · refine ⟨st', [], is, ls, k, ?_, hlike, .inl ⟨rfl, rfl, hi⟩⟩
      have := hat.shift he
      rw [hf] at this
      exact this

/-- A production is reduced. -/
theorem Can.reduce {ps : List (Nat × Sym)} {p : Nat} {r : Rule} {ss : List Sym} {line s' : Nat}
    {vals bvals : List FVal} {st' : PState} {w : FVal}
    (ha : lalrAction (topState (ps ++ stk)) (nextSym ts).code = some (.reduce p))
    (hr : rules[p]? = some r) (hps : ps.map (·.2) = r.rhs.reverse)
    (hb : stk.map (·.2) = r.before.reverse ++ ss)
    (ho : r.onlyFirst = true → ps ++ stk = []) (hv : vals.length = r.rhs.length)
    (hbv : bvals.length = r.before.length) (hg : lalrGoto (topState stk) r.lhs.code = some s')
    (he : evalAll expected line (bvals ++ vals) r.action ⟨st, .none⟩ = some ⟨st', w⟩) :
    Can m₀ expected mod maps (ps ++ stk) (vals.reverse ++ (bvals.reverse ++ σ)) st ts
      ((s', .n r.lhs) :: stk) (w :: (bvals.reverse ++ σ)) st' ts := by
  intro d₀ h₀
  obtain ⟨d, hreach, h, e, hlook, hs, hi⟩ := h₀.look
  obtain ⟨rest, hst⟩ := h.states_cons
  obtain ⟨st₁, f, is, ls, k, hat, hlike, hl | ⟨e', he', hs', hf, hi'⟩⟩ := h.mem
  · rw [hlook] at hl; cases hl.1
  rw [hlook] at he'
  cases he'
  have hlen : ps.length = r.rhs.length := by
    have := congrArg List.length hps
    simpa using this
  have hlenb : r.before.length ≤ stk.length := by
    have := congrArg List.length hb
    simp only [List.length_map, List.length_append, List.length_reverse] at this
    omega
  have hsyms := h.syms
  rw [List.map_append, hps, hb] at hsyms
  have hstl : d.l.c.stack.length = ps.length + stk.length := by
    have := congrArg List.length h.syms
    simpa using this
  have hfits : d.l.c.fits r = true := by
    simp only [Config.fits, Bool.and_eq_true, decide_eq_true_eq, Bool.or_eq_true,
      Bool.not_eq_true', List.isEmpty_iff]
    refine ⟨⟨List.mem_of_getElem? hr, ?_⟩, ?_⟩
    · rw [List.map_reverse, List.map_take, hsyms, ← List.append_assoc, List.take_left' (by
        simp; omega), List.reverse_append, List.reverse_reverse, List.reverse_reverse]
    · cases hof : r.onlyFirst with
      | false => exact .inl rfl
      | true =>
        refine .inr ?_
        have := ho hof
        rw [List.append_eq_nil_iff] at this
        rw [this.1, this.2] at hstl
        exact List.length_eq_zero_iff.1 (by simpa using hstl)
  have hargs : ((((f ++ (vals.reverse ++ (bvals.reverse ++ σ))).drop
      d.l.c.look.toList.length).take (r.before.length + r.rhs.length)).reverse) = bvals ++ vals := by
    rw [hlook, hf]
    simp only [Option.toList_some, List.length_singleton, List.singleton_append, List.drop_succ_cons,
      List.drop_zero]
    rw [← List.append_assoc, List.take_left' (by simp; omega), List.reverse_append,
      List.reverse_reverse, List.reverse_reverse]
  obtain ⟨b', hb', hlike'⟩ := evalAll_like (spanOf r.rhs.length d.l.spans).first hlike he
  have hdrop : d.states.drop r.rhs.length = stk.map (·.1) ++ [0] := by
    rw [h.states, List.map_append, List.append_assoc, List.drop_left' (by simp [hlen])]
  rcases hat.reduce hfits (spanOf r.rhs.length d.l.spans).first with
    ⟨c₁, st₂, w₂, fs', is', ls', k', e₁, h', hlk, ⟨v, hstk⟩, rfl, hev⟩ |
    ⟨_, _, _, _, _, _, _, _, _, _, hev⟩ | ⟨_, _, _, hev⟩
  · rw [hargs, hb'] at hev
    cases hev
    have hstep : d.step = .ok (.go ⟨⟨c₁, spanOf r.rhs.length d.l.spans ::
        d.l.spans.drop r.rhs.length, d.l.look⟩, s' :: (stk.map (·.1) ++ [0]), d.input⟩) := by
      have hl : d.l.step (.reduce r) = some (.ok (.go ⟨c₁, spanOf r.rhs.length d.l.spans ::
          d.l.spans.drop r.rhs.length, d.l.look⟩)) := by
        simp only [Lined.step, Config.step, hfits, if_true, e₁]
      obtain ⟨t, rest', ht, hgt⟩ : ∃ t rest', stk.map (·.1) ++ [0] = t :: rest' ∧
          lalrGoto t r.lhs.code = some s' := by
        cases stk with
        | nil => exact ⟨0, [], rfl, hg⟩
        | cons x xs => exact ⟨_, _, rfl, hg⟩
      rw [ht] at hdrop ⊢
      have hby : d.reduceBy r = .ok (.go ⟨⟨c₁, spanOf r.rhs.length d.l.spans ::
          d.l.spans.drop r.rhs.length, d.l.look⟩, s' :: t :: rest', d.input⟩) := by
        simp only [Drive.reduceBy, hdrop, hgt, Drive.make, hl]
      rw [← hby]
      simp only [Drive.step, hlook, hst, hs, ha, hr]
    refine ⟨_, DriveReaches.trans hreach (.step .refl hstep), ?_, ?_, ?_⟩
    · simp only [List.map_cons, List.cons_append]
    · simp only [hstk, List.map_cons, List.map_drop, h.syms, List.map_append]
      rw [List.drop_left' (by simp [hlen])]
    · refine ⟨_, f, is', ls', k', ?_, hlike', .inr ⟨e, by rw [hlk]; exact hlook, hs, hf, hi⟩⟩
      rw [hlook, hf] at h'
      simp only [Option.toList_some, List.length_singleton, List.singleton_append,
        List.take_succ_cons, List.take_zero, List.drop_succ_cons, List.drop_zero] at h'
      rw [List.drop_left' (by simp [hv])] at h'
      rw [hf]
      exact h'
  · rw [hargs, hb'] at hev
    cases hev
  · rw [hargs, hb'] at hev
    cases hev

end Lr
end Selint
