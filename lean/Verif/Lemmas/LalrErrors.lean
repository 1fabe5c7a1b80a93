import Verif.Lemmas.LalrEnds
import Verif.Lemmas.LalrPrefix
/-!
# Where `yyparse` is in the text
-/

namespace Selint
namespace Lr
open Spec

/-- What was read and not shifted yet. -/
def Drive.Looks (d : Drive) (look : Located) : Prop :=
  match d.l.c.look with
  | none => look = []
  | some e => (look = [] ∧ e.sym = .t .eof ∧ d.input = []) ∨
      ∃ t, look = [(d.l.look, t)] ∧ e.sym = .t (term t).1

/-- The nonterminals that need not begin with a token. -/
def hollow : List Nt := [.defineContent, .defineExpansion, .m4Args, .m4Argument, .midDefine,
  .midFirstArg, .midIfdef, .midIfelse, .midNextArg, .midOptionalElse, .midOptionalEnd, .midReqIfdef,
  .midReqIfdefQuoted, .midRequire, .midRequireCommand, .midTunable, .midTunableQuoted, .selinuxFile]

/-- Does the symbol begin with a token? -/
def Sym.solid : Sym → Bool
  | .t _ => true
  | .n x => !hollow.contains x

theorem solid_checked : rules.all (fun r => !Sym.solid (.n r.lhs) || r.rhs.head?.any Sym.solid) = true := by
  decide +kernel

/-- The symbols on the stack, their lines, and the tokens that each of them was made from. -/
inductive Laid : List (Nat × Sym) → List Span → List Located → Prop
  | nil : Laid [] [] []
  | cons {stk : List (Nat × Sym)} {sps : List Span} {segs : List Located} {s : Nat} {x : Sym}
      {sp : Span} {seg : Located} : Laid stk sps segs → Yields [x] (termsOf seg) →
      (x.solid = true → ∃ t us, seg = t :: us ∧ sp.first = t.1) →
      Laid ((s, x) :: stk) (sp :: sps) (seg :: segs)

theorem termsOf_append (us vs : Located) : termsOf (us ++ vs) = termsOf us ++ termsOf vs :=
  List.map_append

theorem Laid.yields {stk : List (Nat × Sym)} {sps : List Span} {segs : List Located}
    (h : Laid stk sps segs) : Yields (stk.map (·.2)).reverse (termsOf segs.reverse.flatten) := by
  induction h with
  | nil => exact .nil
  | cons _ hy _ ih =>
    rw [List.map_cons, List.reverse_cons, List.reverse_cons, List.flatten_append, termsOf_append]
    refine ih.append ?_
    rw [List.flatten_singleton]
    exact hy

theorem Laid.take {stk : List (Nat × Sym)} {sps : List Span} {segs : List Located}
    (h : Laid stk sps segs) : ∀ n, Laid (stk.take n) (sps.take n) (segs.take n) := by
  induction h with
  | nil => intro n; simp only [List.take_nil]; exact .nil
  | cons _ hy hs ih =>
    intro n
    cases n with
    | zero => exact .nil
    | succ n => exact .cons (ih n) hy hs

theorem Laid.drop {stk : List (Nat × Sym)} {sps : List Span} {segs : List Located}
    (h : Laid stk sps segs) : ∀ n, Laid (stk.drop n) (sps.drop n) (segs.drop n) := by
  induction h with
  | nil => intro n; simp only [List.drop_nil]; exact .nil
  | cons h hy hs ih =>
    intro n
    cases n with
    | zero => exact .cons h hy hs
    | succ n => exact ih n

/-- Where the lowest of several symbols begins, they all begin. -/
theorem Laid.begins {stk : List (Nat × Sym)} {sps : List Span} {segs : List Located}
    (h : Laid stk sps segs) (hx : ((stk.map (·.2)).getLast?).any Sym.solid = true) :
    ∃ sp, sps.getLast? = some sp ∧ ∃ t us, segs.reverse.flatten = t :: us ∧ sp.first = t.1 := by
  induction h with
  | nil => cases hx
  | @cons stk sps segs s x sp seg h hy hs ih =>
    cases h with
    | nil =>
      obtain ⟨t, us, rfl, ht⟩ := hs (by simpa using hx)
      exact ⟨sp, rfl, t, us, by simp, ht⟩
    | cons h' hy' hs' =>
      obtain ⟨sp', hl, t, us, he, ht⟩ := ih (by simpa [List.getLast?_cons_cons] using hx)
      refine ⟨sp', by rw [List.getLast?_cons_cons]; exact hl, t, us ++ seg, ?_, ht⟩
      rw [List.reverse_cons, List.flatten_append, he, List.flatten_singleton, List.cons_append]

/-- What is true of `yyparse` at any time: the symbols on the stack stand for the tokens that were
shifted, and the tables lead there. -/
structure Reads (ts : Located) (d : Drive) (pre look : Located) (stk : List (Nat × Sym))
    (segs : List Located) : Prop where
  laid : Laid stk d.l.spans segs
  parts : pre = segs.reverse.flatten
  all : ts = pre ++ (look ++ d.input)
  looks : d.Looks look
  linked : Linked stk
  states : d.states = stk.map (·.1) ++ [0]
  stack : d.l.c.stack.map Entry.sym = stk.map (·.2)
  yields : Yields (stk.map (·.2)).reverse (termsOf pre)
  goes : Goes ([], termsOf ts) (stk, termsOf (look ++ d.input))

theorem Reads.start {m : Mem} {expected : PlainFlavor} {mod : Str} {maps : Maps} {ts : Located} :
    Reads ts (Drive.start m expected mod maps ts) [] [] [] [] :=
  ⟨.nil, rfl, rfl, rfl, .nil, rfl, rfl, .nil, .refl⟩

theorem Reads.top {ts : Located} {d : Drive} {pre look : Located} {stk : List (Nat × Sym)}
    {segs : List Located} (h : Reads ts d pre look stk segs) {s : Nat} {rest : List Nat} (hst : d.states = s :: rest) :
    topState stk = s := by
  have hss := h.states
  rw [hss] at hst
  cases stk with
  | nil => exact (List.cons.inj hst).1
  | cons x stk => exact (List.cons.inj hst).1

/-- The token that the tables are asked about is the next one of the text. -/
theorem Reads.next {ts : Located} {d : Drive} {pre look : Located} {stk : List (Nat × Sym)}
    {segs : List Located} (h : Reads ts d pre look stk segs) {e : Entry} (he : d.l.c.look = some e) :
    e.sym = .t (nextTerm (termsOf (look ++ d.input))) := by
  have hl := h.looks
  simp only [Drive.Looks, he] at hl
  rcases hl with ⟨rfl, hs, hi⟩ | ⟨t, rfl, hs⟩
  · rw [hs, hi]
    rfl
  · rw [hs]
    rfl

theorem tokenSym_some (t : Token) : tokenSym (some t) = .t (term t).1 := rfl

theorem Reads.read {ts : Located} {d d' : Drive} {pre look : Located} {stk : List (Nat × Sym)}
    {segs : List Located} (h : Reads ts d pre look stk segs) {n : Nat} {t : Option Token} {rest : Located}
    (hm : d.make (.read n t) d.states rest = .ok (.go d'))
    (ht : d.input = t.toList.map (n, ·) ++ rest) (hn : t = none → rest = []) :
    ∃ look', Reads ts d' pre look' stk segs := by
  obtain ⟨l, hl, rfl⟩ := Drive.make_go hm
  obtain ⟨h₁, h₂⟩ := step_read hl
  obtain ⟨v, h₃, h₄⟩ := readToken_look d.l.c t
  have hlook : l.look = n ∧ l.spans = d.l.spans := by
    simp only [Lined.step] at hl
    split at hl
    · cases hl; exact ⟨rfl, rfl⟩
    · cases hl
  have hl0 : look = [] := by
    have := h.looks
    simpa only [Drive.Looks, h₁] using this
  subst hl0
  refine ⟨t.toList.map (n, ·), ⟨by
    show Laid stk l.spans segs
    rw [hlook.2]
    exact h.laid, h.parts, by rw [h.all, List.nil_append, ht], ?_, h.linked, h.states, ?_,
    h.yields, ?_⟩⟩
  · simp only [Drive.Looks, h₂, h₃]
    cases t with
    | none => exact .inl ⟨rfl, rfl, hn rfl⟩
    | some t => exact .inr ⟨t, by rw [hlook.1]; rfl, rfl⟩
  · show l.c.stack.map _ = _
    rw [h₂, h₄]
    exact h.stack
  · have := h.goes
    rw [List.nil_append, ht] at this
    exact this

/-- What is to be reduced is on the stack. -/
theorem Reads.onStack {ts : Located} {d : Drive} {pre look : Located} {stk : List (Nat × Sym)}
    {segs : List Located} (h : Reads ts d pre look stk segs) {a p : Nat} {r : Rule}
    (ha : lalrAction (topState stk) a = some (.reduce p)) (hr : rules[p]? = some r) :
    (stk.take r.rhs.length).map (·.2) = r.rhs.reverse := by
  obtain ⟨hfit, -⟩ := h.linked.fits h.stack ha hr
  simp only [Config.fits, Bool.and_eq_true, decide_eq_true_eq] at hfit
  have h₁ := congrArg List.reverse hfit.1.2
  rw [← List.map_reverse, List.reverse_reverse, List.map_take, h.stack, List.reverse_append] at h₁
  have h₂ := congrArg (List.take r.rhs.length) h₁
  rw [List.take_take, Nat.min_eq_left (by omega), List.take_left' (by simp)] at h₂
  rw [List.map_take]
  exact h₂

theorem Reads.step {ts : Located} {d d' : Drive} {pre look : Located} {stk : List (Nat × Sym)}
    {segs : List Located} (h : Reads ts d pre look stk segs) (hs : d.step = .ok (.go d')) :
    ∃ pre' look' stk' segs', Reads ts d' pre' look' stk' segs' := by
  simp only [Drive.step] at hs
  split at hs
  · split at hs
    · rename_i hin
      obtain ⟨look', h'⟩ := h.read hs (by simp [hin]) (fun _ => rfl)
      exact ⟨_, _, _, _, h'⟩
    · rename_i hin
      obtain ⟨look', h'⟩ := h.read hs (by simp [hin]) nofun
      exact ⟨_, _, _, _, h'⟩
  · rename_i e hlook
    split at hs
    · cases hs
    · rename_i s rest hst
      have htop := h.top hst
      have hnext := h.next hlook
      have hss := h.states
      split at hs
      · cases hs
      · cases hs
      · rename_i s' ha
        obtain ⟨l, hl, rfl⟩ := Drive.make_go hs
        obtain ⟨e', hle, hc⟩ := step_shift hl
        have hsp : l.spans = ⟨d.l.look, d.l.look⟩ :: d.l.spans := by
          simp only [Lined.step] at hl
          split at hl
          · cases hl; rfl
          · cases hl
        rw [hlook] at hle
        cases hle
        have hlk := h.looks
        simp only [Drive.Looks, hlook] at hlk
        rcases hlk with ⟨rfl, hs', hi⟩ | ⟨t, rfl, hs'⟩
        · rw [hs'] at ha
          exact absurd rfl (action_shift ha)
        · refine ⟨pre ++ [(d.l.look, t)], [], (s', .t (term t).1) :: stk,
            [(d.l.look, t)] :: segs, ⟨?_, ?_, ?_, ?_, ?_, ?_, ?_, ?_, ?_⟩⟩
          · show Laid _ l.spans _
            rw [hsp]
            exact .cons h.laid (.token .nil) (fun _ => ⟨_, _, rfl, rfl⟩)
          · rw [List.reverse_cons, List.flatten_append, List.flatten_singleton, ← h.parts]
          · rw [h.all, List.append_assoc]
            rfl
          · simp only [Drive.Looks, hc]
          · refine .tok h.linked ?_
            rw [htop, ← ha, hs']
            rfl
          · simp [hss]
          · show l.c.stack.map _ = _
            rw [hc]
            simp [h.stack, hs']
          · have hk : termsOf (pre ++ [(d.l.look, t)]) = termsOf pre ++ [(term t).1] := by
              simp only [termsOf, List.map_append, List.map_cons, List.map_nil]
            rw [List.map_cons, List.reverse_cons, hk]
            exact h.yields.append (.token .nil)
          · refine h.goes.trans (.one ?_)
            refine Turn.shift ?_
            rw [htop, ← ha, hs']
            rfl
      · rename_i p ha
        split at hs
        · cases hs
        · rename_i r hr
          rw [← htop] at ha
          obtain ⟨-, hlen, -⟩ := h.linked.fits h.stack ha hr
          have hrm : r ∈ rules := List.mem_of_getElem? hr
          have hmap := h.onStack ha hr
          simp only [Drive.reduceBy] at hs
          split at hs
          · cases hs
          · rename_i t rest' hdrop
            split at hs
            · cases hs
            · rename_i s' hg
              obtain ⟨l, hl, rfl⟩ := Drive.make_go hs
              simp only [Lined.step] at hl
              split at hl
              · cases hl
              · cases hl
              · rename_i c hc
                cases hl
                obtain ⟨v, hstk, hlk⟩ := step_reduce hc
                have hds : d.states.drop r.rhs.length = (stk.drop r.rhs.length).map (·.1) ++ [0] := by
                  rw [hss, List.drop_append_of_le_length (by simpa using hlen), List.map_drop]
                have hg' : lalrGoto (topState (stk.drop r.rhs.length)) r.lhs.code = some s' := by
                  rw [hds] at hdrop
                  have : topState (stk.drop r.rhs.length) = t := by
                    cases hd : stk.drop r.rhs.length with
                    | nil => rw [hd] at hdrop; exact (List.cons.inj hdrop).1
                    | cons x xs => rw [hd] at hdrop; exact (List.cons.inj hdrop).1
                  rw [this]
                  exact hg
                have htk := h.laid.take r.rhs.length
                refine ⟨pre, look, (s', .n r.lhs) :: stk.drop r.rhs.length,
                  (segs.take r.rhs.length).reverse.flatten :: segs.drop r.rhs.length,
                  ⟨.cons (h.laid.drop _) ?_ (fun hsol => ?_), ?_, h.all, ?_, .nt h.linked.drop hg', ?_, ?_, ?_, ?_⟩⟩
                · have hy := htk.yields
                  rw [hmap, List.reverse_reverse] at hy
                  have := Yields.production hrm hy .nil
                  rwa [List.append_nil] at this
                · have hc := List.all_eq_true.1 solid_checked r hrm
                  rw [hsol] at hc
                  obtain ⟨sp, hl, t', us, he, ht'⟩ := htk.begins (by
                    rw [hmap, List.getLast?_reverse]
                    simpa using hc)
                  refine ⟨t', us, he, ?_⟩
                  simp only [spanOf, hl]
                  exact ht'
                · rw [h.parts, List.reverse_cons, List.flatten_append, List.flatten_singleton,
                    ← List.flatten_append, ← List.reverse_append, List.take_append_drop]
                · have := h.looks
                  simp only [Drive.Looks, hlook] at this
                  simp only [Drive.Looks, hlk, hlook]
                  exact this
                · show s' :: t :: rest' = _
                  rw [← hdrop, hds]
                  rfl
                · show c.stack.map _ = _
                  rw [hstk]
                  simp [h.stack, List.map_drop]
                · rw [List.map_cons, List.reverse_cons]
                  refine Yields.fold hrm ?_
                  have hy := h.yields
                  rw [← List.take_append_drop r.rhs.length (stk.map (·.2)), ← List.map_take, hmap,
                    List.reverse_append, List.reverse_reverse, ← List.map_drop] at hy
                  exact hy
                · refine h.goes.trans (.one (Turn.reduce ?_ hr hg'))
                  rw [← ha, hnext]
                  rfl
              · cases hl

theorem Reads.reaches {m : Mem} {expected : PlainFlavor} {mod : Str} {maps : Maps} {ts : Located}
    {d : Drive} (hr : DriveReaches (Drive.start m expected mod maps ts) d) :
    ∃ pre look stk segs, Reads ts d pre look stk segs := by
  induction hr with
  | refl => exact ⟨_, _, _, _, Reads.start⟩
  | step _ hs ih =>
    obtain ⟨pre, look, stk, segs, h⟩ := ih
    exact h.step hs

/-- Where the tables have no entry, the text stops being the beginning of a file. -/
theorem Reads.errorAfter {ts : Located} {d : Drive} {pre look : Located} {stk : List (Nat × Sym)}
    {segs : List Located} (hr : Reads ts d pre look stk segs) {e : Entry} {s : Nat} {rest : List Nat}
    (he : d.l.c.look = some e) (hst : d.states = s :: rest) (ha : lalrAction s e.sym.code = none) :
    ErrorAfter pre.length (termsOf ts) := by
  have hn : (termsOf pre).length = pre.length := by simp [termsOf]
  have hsplit : termsOf ts = termsOf pre ++ termsOf (look ++ d.input) := by
    rw [hr.all, termsOf_append]
  have htake : (termsOf ts).take pre.length = termsOf pre := by
    rw [hsplit]
    exact List.take_left' hn
  have hdrop : (termsOf ts).drop pre.length = termsOf (look ++ d.input) := by
    rw [hsplit]
    exact List.drop_left' hn
  refine ⟨?_, ?_, ?_⟩
  · rw [hsplit]
    simp [hn]
  · rw [htake]
    exact hr.linked.viable _ (Nat.le_refl _) hr.yields
  · intro more hm
    rw [htake]
    rw [hdrop] at hm
    refine Goes.stuck ?_ ?_ hm (stk := stk)
    · rw [← hsplit]
      exact hr.goes
    · rw [hr.top hst, ← ha, hr.next he]
      rfl

end Lr
end Selint
