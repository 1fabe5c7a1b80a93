import Verif.Lemmas.LalrMessages
import Verif.Spec.ActionErrors
import Verif.Lemmas.LineCache
/-!
# Where the symbols on the stack stand
-/

namespace Selint
namespace Lr
open Spec

/-- Does a location begin where another one does? -/
def sameStart (a b : Location) : Prop := a.firstLine = b.firstLine ∧ a.firstColumn = b.firstColumn

/-- The symbols on the stack, their locations, and the tokens that each of them was made from. -/
inductive Stood : List (Nat × Sym) → List Location → List Scanned → Prop
  | nil : Stood [] [] []
  | cons {stk : List (Nat × Sym)} {locs : List Location} {segs : List Scanned} {s : Nat} {x : Sym}
      {l : Location} {seg : Scanned} : Stood stk locs segs → Yields [x] seg.kinds →
      (x.solid = true → ∃ t us, seg = t :: us ∧ sameStart l t.1) →
      Stood ((s, x) :: stk) (l :: locs) (seg :: segs)

theorem kinds_append (us vs : Scanned) : Scanned.kinds (us ++ vs) = us.kinds ++ vs.kinds :=
  List.map_append

theorem Stood.yields {stk : List (Nat × Sym)} {locs : List Location} {segs : List Scanned}
    (h : Stood stk locs segs) : Yields (stk.map (·.2)).reverse (Scanned.kinds segs.reverse.flatten) := by
  induction h with
  | nil => exact .nil
  | cons _ hy _ ih =>
    rw [List.map_cons, List.reverse_cons, List.reverse_cons, List.flatten_append, kinds_append]
    refine ih.append ?_
    rw [List.flatten_singleton]
    exact hy

theorem Stood.take {stk : List (Nat × Sym)} {locs : List Location} {segs : List Scanned}
    (h : Stood stk locs segs) : ∀ n, Stood (stk.take n) (locs.take n) (segs.take n) := by
  induction h with
  | nil => intro n; simp only [List.take_nil]; exact .nil
  | cons _ hy hs ih =>
    intro n
    cases n with
    | zero => exact .nil
    | succ n => exact .cons (ih n) hy hs

theorem Stood.drop {stk : List (Nat × Sym)} {locs : List Location} {segs : List Scanned}
    (h : Stood stk locs segs) : ∀ n, Stood (stk.drop n) (locs.drop n) (segs.drop n) := by
  induction h with
  | nil => intro n; simp only [List.drop_nil]; exact .nil
  | cons h hy hs ih =>
    intro n
    cases n with
    | zero => exact .cons h hy hs
    | succ n => exact ih n

/-- Where the lowest of several symbols begins, they all begin. -/
theorem Stood.begins {stk : List (Nat × Sym)} {locs : List Location} {segs : List Scanned}
    (h : Stood stk locs segs) (hx : ((stk.map (·.2)).getLast?).any Sym.solid = true) :
    ∃ l, locs.getLast? = some l ∧ ∃ t us, segs.reverse.flatten = t :: us ∧ sameStart l t.1 := by
  induction h with
  | nil => cases hx
  | @cons stk locs segs s x l seg h hy hs ih =>
    cases h with
    | nil =>
      obtain ⟨t, us, rfl, ht⟩ := hs (by simpa using hx)
      exact ⟨l, rfl, t, us, by simp, ht⟩
    | cons h' hy' hs' =>
      obtain ⟨l', hl, t, us, he, ht⟩ := ih (by simpa [List.getLast?_cons_cons] using hx)
      refine ⟨l', by rw [List.getLast?_cons_cons]; exact hl, t, us ++ seg, ?_, ht⟩
      rw [List.reverse_cons, List.flatten_append, he, List.flatten_singleton, List.cons_append]

/-- Where a sequence of tokens begins. -/
def headAt (endLoc : Location) (after : Scanned) : Location := (after.head?.map (·.1)).getD endLoc

/-- The statement that is called invalid begins with a token where a statement may begin. -/
theorem Stood.recovers {endLoc l : Location} {stk : List (Nat × Sym)} {locs : List Location}
    {segs : List Scanned} (h : Stood stk locs segs) : Linked stk → ∀ {first : Location} {after : Scanned},
    (shiftsError (topState stk) = true → sameStart first (headAt endLoc after)) →
    recoverPlace (stk.map (·.1) ++ [0]) locs first = some l →
    ∃ us vs, segs.reverse.flatten ++ after = us ++ vs ∧ us.length ≤ segs.reverse.flatten.length ∧
      StatementMayFollow (Scanned.kinds us) ∧ sameStart l (headAt endLoc vs) := by
  induction h with
  | nil =>
    intro _ first after hf hr
    have h0 : shiftsError 0 = false := by decide +kernel
    simp [recoverPlace, h0] at hr
  | @cons stk locs segs s x l' seg h hy hs ih =>
    intro hk first after hf hr
    have hlaid := Stood.cons (s := s) h hy hs
    by_cases he : shiftsError s = true
    · simp only [List.map_cons, List.cons_append, recoverPlace, if_pos he, Option.some.injEq] at hr
      subst hr
      exact ⟨_, after, rfl, Nat.le_refl _, hk.statement hlaid.yields he, hf he⟩
    · simp only [List.map_cons, List.cons_append, recoverPlace, if_neg he] at hr
      have hk' : Linked stk := hk.drop (n := 1)
      obtain ⟨us, vs, h₁, h₂, h₃, h₄⟩ := ih hk' (first := l') (after := seg ++ after)
        (fun hu => by
          have hsol : x.solid = true := by
            cases hk with
            | tok _ _ => rfl
            | nt _ hg => exact goto_solid hu hg
          obtain ⟨t, us, rfl, ht⟩ := hs hsol
          exact ht) hr
      refine ⟨us, vs, ?_, ?_, h₃, h₄⟩
      · rw [← h₁, List.reverse_cons, List.flatten_append, List.flatten_singleton, List.append_assoc]
      · rw [List.reverse_cons, List.flatten_append, List.length_append]
        omega

/-- Symbols that end with a token. -/
def Sym.closed : Sym → Bool
  | .t _ => true
  | .n x => decide (x = .avPermissionList)

/-- Does a location end where another one does? -/
def sameEnd (a b : Location) : Prop := a.lastLine = b.lastLine ∧ a.lastColumn = b.lastColumn

/-- The entries of the stack, their locations, and the tokens that each of them was made from. -/
inductive Held : List Entry → List Location → List Scanned → Prop
  | nil : Held [] [] []
  | cons {es : List Entry} {locs : List Location} {segs : List Scanned} {e : Entry} {l : Location}
      {seg : Scanned} : Held es locs segs →
      (e.sym.closed = true → ∃ us t, seg = us ++ [t] ∧ sameEnd l t.1) →
      (e.sym = .n .avType → ∃ k fl, seg.kinds = [.kw k] ∧ avWord k = some fl ∧ e.val = .av fl) →
      Held (e :: es) (l :: locs) (seg :: segs)

theorem Held.drop {es : List Entry} {locs : List Location} {segs : List Scanned}
    (h : Held es locs segs) : ∀ n, Held (es.drop n) (locs.drop n) (segs.drop n) := by
  induction h with
  | nil => intro n; simp only [List.drop_nil]; exact .nil
  | cons h hc ha ih =>
    intro n
    cases n with
    | zero => exact .cons h hc ha
    | succ n => exact ih n

/-- Where the top symbol ends, all of them end. -/
theorem Held.ends {es : List Entry} {locs : List Location} {segs : List Scanned} (h : Held es locs segs)
    {e : Entry} (he : es.head? = some e) (hc : e.sym.closed = true) (before : Location) {n : Nat}
    (hn : 0 < n) : ∃ us t, (segs.take n).reverse.flatten = us ++ [t] ∧
      sameEnd (locationOf before n locs) t.1 := by
  cases h with
  | nil => cases he
  | @cons es locs segs e' l seg h hcl ha =>
    cases he
    obtain ⟨us, t, rfl, hend⟩ := hcl hc
    cases n with
    | zero => omega
    | succ n =>
      refine ⟨(segs.take n).reverse.flatten ++ us, t, by simp, ?_⟩
      simp only [locationOf, List.headD_cons]
      split <;> exact hend

/-- The tokens without columns. -/
def plainTokens (ts : Scanned) : Located := ts.map fun x => (x.1.firstLine, x.2.1)

theorem termsOf_plain (ts : Scanned) : termsOf (plainTokens ts) = ts.kinds := by
  simp [termsOf, plainTokens, Scanned.kinds]

/-- What was read and not shifted yet. -/
def Locating.Looks (fin : Location × LineCache) (p : Locating) (look : Scanned) : Prop :=
  match p.d.l.c.look with
  | none => look = []
  | some e => (look = [] ∧ p.input = [] ∧ e.sym = .t .eof ∧ p.look = fin.1 ∧ p.cache = fin.2) ∨
      ∃ t, look = [(p.look, t, p.cache)] ∧ e.sym = .t (term t).1

/-- What is true of `yyparse` with the locations at any time. -/
structure Locates (ts : Scanned) (fin : Location × LineCache) (p : Locating) (pre look : Scanned)
    (stk : List (Nat × Sym)) (segs : List Scanned) : Prop where
  stood : Stood stk p.locs segs
  parts : pre = segs.reverse.flatten
  all : ts = pre ++ (look ++ p.input)
  looks : p.Looks fin look
  input : p.d.input = plainTokens p.input
  linked : Linked stk
  states : p.d.states = stk.map (·.1) ++ [0]
  stack : p.d.l.c.stack.map Entry.sym = stk.map (·.2)
  held : Held p.d.l.c.stack p.locs segs

theorem Locates.start {m : Mem} {expected : PlainFlavor} {mod : Str} {maps : Maps} {before : Location}
    {ts : Scanned} {fin : Location × LineCache} :
    Locates ts fin (Locating.start m expected mod maps before ts) [] [] [] [] :=
  ⟨.nil, rfl, rfl, rfl, rfl, .nil, rfl, rfl, .nil⟩

theorem Locates.top {ts : Scanned} {fin : Location × LineCache} {p : Locating} {pre look : Scanned}
    {stk : List (Nat × Sym)} {segs : List Scanned} (h : Locates ts fin p pre look stk segs) {s : Nat}
    {rest : List Nat} (hst : p.d.states = s :: rest) : topState stk = s := by
  have hss := h.states
  rw [hss] at hst
  cases stk with
  | nil => exact (List.cons.inj hst).1
  | cons x stk => exact (List.cons.inj hst).1

/-- What is to be reduced is on the stack. -/
theorem Locates.onStack {ts : Scanned} {fin : Location × LineCache} {p : Locating} {pre look : Scanned}
    {stk : List (Nat × Sym)} {segs : List Scanned} (h : Locates ts fin p pre look stk segs) {a q : Nat}
    {r : Rule} (ha : lalrAction (topState stk) a = some (.reduce q)) (hr : rules[q]? = some r) :
    (stk.take r.rhs.length).map (·.2) = r.rhs.reverse := by
  obtain ⟨hfit, -⟩ := h.linked.fits h.stack ha hr
  simp only [Config.fits, Bool.and_eq_true, decide_eq_true_eq] at hfit
  have h₁ := congrArg List.reverse hfit.1.2
  rw [← List.map_reverse, List.reverse_reverse, List.map_take, h.stack, List.reverse_append] at h₁
  have h₂ := congrArg (List.take r.rhs.length) h₁
  rw [List.take_take, Nat.min_eq_left (by omega), List.take_left' (by simp)] at h₂
  rw [List.map_take]
  exact h₂

theorem lastClosed_checked : rules.all (fun r => decide (r.lhs ≠ .avPermissionList) ||
    r.rhs.getLast?.any Sym.closed) = true := by decide +kernel

theorem av_checked : rules.all (fun r => decide (r.lhs ≠ .avType) ||
    (match r with
      | ⟨_, [.t (.kw k)], [.av fl], [], false⟩ => decide (avWord k = some fl)
      | _ => false)) = true := by decide +kernel

/-- The kind of an access vector rule is what its first word says. -/
theorem reduce_av {c c' : Config} {r : Rule} {line : Nat} {v : Val}
    (h : c.step (.reduce r line) = some (.ok (.go c'))) (hr : r ∈ rules) (hl : r.lhs = .avType)
    (hst : c'.stack = ⟨.n r.lhs, v⟩ :: c.stack.drop r.rhs.length) :
    ∃ k fl, r.rhs = [.t (.kw k)] ∧ avWord k = some fl ∧ v = .av fl := by
  have hc := List.all_eq_true.1 av_checked r hr
  simp only [hl, ne_eq, not_true_eq_false, decide_false, Bool.false_or] at hc
  split at hc
  · rename_i lhs k fl
    refine ⟨k, fl, rfl, of_decide_eq_true hc, ?_⟩
    simp only [Config.step] at h
    split at h
    · simp only [Config.reduce, execAll, Cmd.exec, Option.some.injEq] at h
      cases h
      cases hst
      rfl
    · cases h
  · cases hc

/-- The symbol on top, if the last one of a production is closed. -/
theorem Locates.topClosed {ts : Scanned} {fin : Location × LineCache} {p : Locating} {pre look : Scanned}
    {stk : List (Nat × Sym)} {segs : List Scanned} (h : Locates ts fin p pre look stk segs) {r : Rule}
    (hmap : (stk.take r.rhs.length).map (·.2) = r.rhs.reverse)
    (hc : r.rhs.getLast?.any Sym.closed = true) :
    ∃ e, p.d.l.c.stack.head? = some e ∧ e.sym.closed = true := by
  rw [option_any] at hc
  obtain ⟨x, hx, hcx⟩ := hc
  have h₁ : (stk.map (·.2)).head? = some x := by
    have := congrArg List.head? hmap
    rw [List.head?_reverse, hx, List.map_take] at this
    cases hs : stk.map (·.2) with
    | nil => rw [hs] at this; simp at this
    | cons y ys =>
      rw [hs] at this
      cases hn : r.rhs.length with
      | zero => rw [hn] at this; simp at this
      | succ n => rw [hn] at this; simpa using this
  rw [← h.stack] at h₁
  cases hs : p.d.l.c.stack with
  | nil => rw [hs] at h₁; cases h₁
  | cons e es =>
    rw [hs] at h₁
    refine ⟨e, rfl, ?_⟩
    have : e.sym = x := by simpa using h₁
    rw [this]
    exact hcx

theorem Locates.read {ts : Scanned} {fin : Location × LineCache} {p : Locating} {d : Drive}
    {pre look : Scanned} {stk : List (Nat × Sym)} {segs : List Scanned}
    (h : Locates ts fin p pre look stk segs) (hs : p.d.step = .ok (.go d)) (hl : p.d.l.c.look = none) :
    ∃ look', Locates ts fin (p.read fin d) pre look' stk segs := by
  have hl0 : look = [] := by
    have := h.looks
    simpa only [Locating.Looks, hl] using this
  subst hl0
  have key : ∀ {n : Nat} {t : Option Token} {rest : Located},
      p.d.make (.read n t) p.d.states rest = .ok (.go d) →
      (∃ e, d.l.c.look = some e ∧ e.sym = tokenSym t) ∧ d.l.c.stack = p.d.l.c.stack ∧
        d.states = p.d.states ∧ d.input = rest := by
    intro n t rest hm
    obtain ⟨l, hl, rfl⟩ := Drive.make_go hm
    obtain ⟨h₁, h₂⟩ := step_read hl
    obtain ⟨v, h₃, h₄⟩ := readToken_look p.d.l.c t
    exact ⟨⟨_, by rw [h₂, h₃], rfl⟩, by rw [h₂, h₄], rfl, rfl⟩
  have hin := h.input
  simp only [Drive.step, hl] at hs
  cases hi : p.input with
  | nil =>
    rw [hi] at hin
    have hin : p.d.input = [] := hin
    rw [hin] at hs
    obtain ⟨⟨e, h₁, h₂⟩, h₃, h₄, h₅⟩ := key hs
    refine ⟨[], ⟨?_, h.parts, ?_, ?_, ?_, h.linked, ?_, ?_, ?_⟩⟩
    · simp only [Locating.read, hi]; exact h.stood
    · simp only [Locating.read, hi]; rw [h.all, hi]
    · simp only [Locating.read, hi, Locating.Looks, h₁]
      exact .inl ⟨trivial, trivial, h₂, trivial, trivial⟩
    · simp only [Locating.read, hi]; exact h₅
    · simp only [Locating.read, hi]; rw [h₄, h.states]
    · simp only [Locating.read, hi]; rw [h₃, h.stack]
    · simp only [Locating.read, hi]; rw [h₃]; exact h.held
  | cons x rest =>
    obtain ⟨loc, t, c⟩ := x
    rw [hi] at hin
    have hin : p.d.input = (loc.firstLine, t) :: plainTokens rest := hin
    rw [hin] at hs
    obtain ⟨⟨e, h₁, h₂⟩, h₃, h₄, h₅⟩ := key hs
    refine ⟨[(loc, t, c)], ⟨?_, h.parts, ?_, ?_, ?_, h.linked, ?_, ?_, ?_⟩⟩
    · simp only [Locating.read, hi]; exact h.stood
    · simp only [Locating.read, hi]; rw [h.all, hi]; rfl
    · simp only [Locating.read, hi, Locating.Looks, h₁]
      exact .inr ⟨t, rfl, h₂⟩
    · simp only [Locating.read, hi]; exact h₅
    · simp only [Locating.read, hi]; rw [h₄, h.states]
    · simp only [Locating.read, hi]; rw [h₃, h.stack]
    · simp only [Locating.read, hi]; rw [h₃]; exact h.held

theorem Locates.step {ts : Scanned} {before : Location} {fin : Location × LineCache} {p p' : Locating}
    {pre look : Scanned} {stk : List (Nat × Sym)} {segs : List Scanned}
    (h : Locates ts fin p pre look stk segs) (hs : p.step before fin = some p') :
    ∃ pre' look' stk' segs', Locates ts fin p' pre' look' stk' segs' := by
  simp only [Locating.step] at hs
  split at hs
  · rename_i d hd
    split at hs
    · rename_i hlook
      cases hs
      obtain ⟨look', h'⟩ := h.read hd hlook
      exact ⟨_, _, _, _, h'⟩
    · rename_i e s rest hlook hst
      have htop := h.top hst
      have hss := h.states
      simp only [Drive.step, hlook, hst] at hd
      split at hs
      · rename_i s' ha
        cases hs
        simp only [ha] at hd
        obtain ⟨l, hl, rfl⟩ := Drive.make_go hd
        obtain ⟨e', hle, hc⟩ := step_shift hl
        rw [hlook] at hle
        cases hle
        have hlk := h.looks
        simp only [Locating.Looks, hlook] at hlk
        rcases hlk with ⟨rfl, -, hs', -⟩ | ⟨t, rfl, hs'⟩
        · rw [hs'] at ha
          exact absurd rfl (action_shift ha)
        · refine ⟨pre ++ [(p.look, t, p.cache)], [], (s', .t (term t).1) :: stk,
            [(p.look, t, p.cache)] :: segs, ⟨?_, ?_, ?_, ?_, h.input, ?_, ?_, ?_, ?_⟩⟩
          · exact .cons h.stood (.token .nil) (fun _ => ⟨_, _, rfl, rfl, rfl⟩)
          · rw [List.reverse_cons, List.flatten_append, List.flatten_singleton, ← h.parts]
          · rw [h.all, List.append_assoc]
            rfl
          · simp only [Locating.Looks, hc]
          · refine .tok h.linked ?_
            rw [htop, ← ha, hs']
            rfl
          · simp [← hst, hss]
          · show l.c.stack.map _ = _
            rw [hc]
            simp [h.stack, hs']
          · show Held l.c.stack _ _
            rw [hc]
            exact .cons h.held (fun _ => ⟨[], _, rfl, rfl, rfl⟩) (fun h => by rw [hs'] at h; cases h)
      · rename_i q ha
        split at hs
        · rename_i r hr
          cases hs
          simp only [ha, hr] at hd
          rw [← htop] at ha
          obtain ⟨-, hlen, -⟩ := h.linked.fits h.stack ha hr
          have hrm : r ∈ rules := List.mem_of_getElem? hr
          have hmap := h.onStack ha hr
          simp only [Drive.reduceBy] at hd
          split at hd
          · cases hd
          · rename_i t rest' hdrop
            split at hd
            · cases hd
            · rename_i s' hg
              obtain ⟨l, hl, rfl⟩ := Drive.make_go hd
              simp only [Lined.step] at hl
              split at hl
              · cases hl
              · cases hl
              · rename_i c hc
                cases hl
                obtain ⟨v, hstk, hlk⟩ := step_reduce hc
                have hds : p.d.states.drop r.rhs.length = (stk.drop r.rhs.length).map (·.1) ++ [0] := by
                  rw [hss, List.drop_append_of_le_length (by simpa using hlen), List.map_drop]
                have hg' : lalrGoto (topState (stk.drop r.rhs.length)) r.lhs.code = some s' := by
                  rw [hds] at hdrop
                  have : topState (stk.drop r.rhs.length) = t := by
                    cases hd : stk.drop r.rhs.length with
                    | nil => rw [hd] at hdrop; exact (List.cons.inj hdrop).1
                    | cons x xs => rw [hd] at hdrop; exact (List.cons.inj hdrop).1
                  rw [this]
                  exact hg
                have htk := h.stood.take r.rhs.length
                refine ⟨pre, look, (s', .n r.lhs) :: stk.drop r.rhs.length,
                  (segs.take r.rhs.length).reverse.flatten :: segs.drop r.rhs.length,
                  ⟨.cons (h.stood.drop _) ?_ (fun hsol => ?_), ?_, h.all, ?_, h.input,
                    .nt h.linked.drop hg', ?_, ?_, ?_⟩⟩
                · have hy := htk.yields
                  rw [hmap, List.reverse_reverse] at hy
                  have := Yields.production hrm hy .nil
                  rwa [List.append_nil] at this
                · have hc := List.all_eq_true.1 solid_checked r hrm
                  rw [hsol] at hc
                  obtain ⟨l', hl, t', us, he, ht'⟩ := htk.begins (by
                    rw [hmap, List.getLast?_reverse]
                    simpa using hc)
                  refine ⟨t', us, he, ?_⟩
                  simp only [locationOf, hl]
                  exact ht'
                · rw [h.parts, List.reverse_cons, List.flatten_append, List.flatten_singleton,
                    ← List.flatten_append, ← List.reverse_append, List.take_append_drop]
                · have := h.looks
                  simp only [Locating.Looks, hlook] at this
                  simp only [Locating.Looks, hlk, hlook]
                  exact this
                · show s' :: t :: rest' = _
                  rw [← hdrop, hds]
                  rfl
                · show c.stack.map _ = _
                  rw [hstk]
                  simp [h.stack, List.map_drop]
                · show Held c.stack _ _
                  rw [hstk]
                  refine .cons (h.held.drop _) (fun hcl => ?_) (fun hav => ?_)
                  · have hcl : r.lhs = .avPermissionList := by simpa [Sym.closed] using hcl
                    have hrc := List.all_eq_true.1 lastClosed_checked r hrm
                    simp only [hcl, ne_eq, not_true_eq_false, decide_false, Bool.false_or] at hrc
                    obtain ⟨e', he', hce⟩ := h.topClosed hmap hrc
                    exact h.held.ends he' hce before (by
                      cases hrr : r.rhs with
                      | nil => rw [hrr] at hrc; cases hrc
                      | cons _ _ => simp)
                  · have hav : r.lhs = .avType := by simpa using hav
                    obtain ⟨k, fl, hrhs, hw, hval⟩ := reduce_av hc hrm hav hstk
                    refine ⟨k, fl, ?_, hw, hval⟩
                    have hy := htk.yields
                    rw [hmap, List.reverse_reverse] at hy
                    generalize Scanned.kinds (List.take r.rhs.length segs).reverse.flatten = ws at hy ⊢
                    rw [hrhs] at hy
                    cases hy with
                    | token hy =>
                      cases hy
                      rfl
              · cases hl
        · cases hs
      · cases hs
    · cases hs
  · cases hs

theorem Locates.reaches {m : Mem} {expected : PlainFlavor} {mod : Str} {maps : Maps} {before : Location}
    {ts : Scanned} {fin : Location × LineCache} {p : Locating}
    (hr : LocatingReaches before fin (Locating.start m expected mod maps before ts) p) :
    ∃ pre look stk segs, Locates ts fin p pre look stk segs := by
  induction hr with
  | refl => exact ⟨_, _, _, _, Locates.start⟩
  | step _ hs ih =>
    obtain ⟨pre, look, stk, segs, h⟩ := ih
    exact h.step hs

/-- It does what `yyparse` does without the locations. -/
theorem locating_drive {before : Location} {fin : Location × LineCache} {p₀ p : Locating}
    (h : LocatingReaches before fin p₀ p) : DriveReaches p₀.d p.d := by
  induction h with
  | refl => exact .refl
  | @step p p' _ hs ih =>
    refine ih.step (d := p.d) ?_
    simp only [Locating.step] at hs
    split at hs
    · rename_i d hd
      rw [hd]
      split at hs
      · cases hs
        simp only [Locating.read]
        split <;> rfl
      · split at hs
        · cases hs; rfl
        · split at hs
          · cases hs; rfl
          · cases hs
        · cases hs
      · cases hs
    · cases hs

/-- And it can do all that. -/
theorem drive_locating {before : Location} {fin : Location × LineCache} {p₀ : Locating} {d : Drive}
    (h : DriveReaches p₀.d d) : ∃ p, LocatingReaches before fin p₀ p ∧ p.d = d := by
  induction h with
  | refl => exact ⟨p₀, .refl, rfl⟩
  | @step d d' _ hs ih =>
    obtain ⟨p, hp, rfl⟩ := ih
    have : ∃ p', p.step before fin = some p' ∧ p'.d = d' := by
      simp only [Locating.step, hs]
      simp only [Drive.step] at hs
      split at hs
      · rename_i hl
        simp only [hl]
        refine ⟨_, rfl, ?_⟩
        simp only [Locating.read]
        split <;> rfl
      · rename_i e hl
        split at hs
        · cases hs
        · rename_i s rest hst
          simp only [hl, hst]
          split at hs
          · cases hs
          · cases hs
          · rename_i ha
            simp only [ha]
            exact ⟨_, rfl, rfl⟩
          · rename_i q ha
            split at hs
            · cases hs
            · rename_i r hr
              simp only [ha, hr]
              exact ⟨_, rfl, rfl⟩
    obtain ⟨p', hp', hd⟩ := this
    exact ⟨p', hp.step hp', hd⟩

end Lr

open Spec

/-! ## What is shown -/

theorem showLines_ok {color : Bool} {c : LineCache} {seen : List Str} {loc : Location} {total : Nat}
    {shortened : Bool} (hc : KeepsLines c seen) : ∀ k, k ≤ linesToCache → k ≤ seen.length →
    ∃ t, showLines color c loc total shortened k = .ok t := by
  intro k
  induction k with
  | zero => intro _ _; exact ⟨_, rfl⟩
  | succ k ih =>
    intro h1 h2
    obtain ⟨l, -, e2⟩ := hc.kept (k + 1) (by omega) h1 h2
    obtain ⟨t, ht⟩ := ih (by omega) (by omega)
    rw [showLines, e2]
    dsimp only
    split
    · exact ⟨_, rfl⟩
    · rw [ht]
      exact ⟨_, rfl⟩

/-- `yyerror` reads no line that was never stored. -/
theorem yyerror_ok {color : Bool} {filename msg : Str} {c : LineCache} {seen : List Str} {loc : Location}
    (hc : KeepsLines c seen) (h1 : 1 ≤ loc.firstLine) (h2 : loc.firstLine ≤ loc.lastLine)
    (hl : loc.lastLine < 2 ^ 32) (hsl : loc.lastLine ≤ seen.length) :
    ∃ t, yyerror color filename c loc msg = .ok t := by
  have hn : (usub loc.lastLine loc.firstLine + 1) % 2 ^ 32 = loc.lastLine + 1 - loc.firstLine := by
    rw [usub_eq h2 hl]; omega
  unfold yyerror
  dsimp only
  rw [hn]
  split
  · obtain ⟨t, ht⟩ := showLines_ok (color := color) (loc := loc) (total := linesToCache)
      (shortened := true) hc linesToCache (Nat.le_refl _) (by omega)
    rw [ht]
    exact ⟨_, rfl⟩
  · obtain ⟨t, ht⟩ := showLines_ok (color := color) (loc := loc)
      (total := loc.lastLine + 1 - loc.firstLine) (shortened := false) hc
      (loc.lastLine + 1 - loc.firstLine) (by omega) (by omega)
    rw [ht]
    exact ⟨_, rfl⟩

theorem pictures_congr {color : Bool} {loc : Location} {f g : Nat → Str} : ∀ {mark : Char} {is : List Nat},
    (∀ i ∈ is, f i = g i) → pictures color loc f mark is = pictures color loc g mark is
  | _, [], _ => rfl
  | _, i :: is, h => by
    simp only [pictures]
    rw [h i (List.mem_cons_self ..), pictures_congr (fun j hj => h j (List.mem_cons_of_mem _ hj))]

theorem shownLine_text {seen : List Str} {i : Nat} (h1 : 1 ≤ i) :
    shownLine seen seen.length i = textLine seen i := by
  unfold shownLine textLine
  rw [show i + seen.length - (seen.length + 1) = i - 1 by omega]

/-- A location from a token to the last line read is shown with its own lines. -/
theorem yyerror_from {color : Bool} {filename msg : Str} {ls seen : List Str} {b : Nat}
    {pre own post : Str} {loc loc' : Location} {t : Token} {c c' : LineCache}
    (h : Stands ls b pre own post loc t c) (hk : KeepsLines c' seen) (hlast : loc'.lastLine = seen.length)
    (hb : seen[b - 1]? = ls[b - 1]?) (h32 : seen.length < 2 ^ 32) (h1 : b ≠ 1)
    (hv : ∀ x, own.head? = some x → isSpaceC x = false)
    (hs : ∀ i, 1 ≤ i → i ≤ seen.length → Showable (textLine seen i)) :
    yyerror color filename c' (fromTo loc loc') msg =
      .ok (formatFinding color ⟨filename, b, ⟨'F', 1, msg⟩⟩ ++ shownOf color seen (fromTo loc loc')) := by
  obtain ⟨⟨hb1, hbl⟩, ⟨hne, -⟩, rfl, -⟩ := h
  obtain ⟨fl, fc, a, lc⟩ := loc'
  have hlast : a = seen.length := hlast
  subst hlast
  rw [hbl] at hb
  have hba : b ≤ seen.length := by
    rcases Nat.lt_or_ge (b - 1) seen.length with h | h
    · omega
    · rw [List.getElem?_eq_none h] at hb; cases hb
  have hfirst : shownLine seen seen.length b = trimRight (pre ++ own ++ post) := by
    rw [shownLine_text hb1, textLine, List.getD_eq_getElem?_getD, hb]
    rfl
  have ho : origin b = 1 := if_neg h1
  have := yyerror_eq (color := color) (filename := filename) (msg := msg)
    (loc := fromTo ⟨b, origin b + pre.length, b, origin b + pre.length + own.length - 1⟩
      ⟨fl, fc, seen.length, lc⟩) hk hb1 hba h32 (Nat.le_refl _)
    (fun i h3 _ h5 => by
      have h3 : b ≤ i := h3
      show Showable (shownLine seen seen.length i)
      rw [shownLine_text (by omega)]
      exact hs i (by omega) h5)
    (by
      refine ⟨by show 1 ≤ origin b + pre.length; omega, ?_⟩
      show (shownLine seen seen.length b)[origin b + pre.length - 1]? ≠ some '\t'
      rw [hfirst, ho, Nat.add_sub_cancel_left]
      cases own with
      | nil => exact absurd rfl hne
      | cons x own =>
        have hx := hv x rfl
        rw [List.append_assoc, List.cons_append, trimRight_keeps hx,
          List.getElem?_append_right (Nat.le_refl _), Nat.sub_self]
        rintro ⟨⟩
        exact absurd hx (by decide))
  rw [this]
  simp only [fromTo, shownOf, linesToCache]
  by_cases hlt : seen.length - b < 5
  · simp only [hlt, if_true]
    rw [pictures_congr fun i hi => by
      have := List.mem_range'_1.1 hi
      exact shownLine_text (by omega)]
  · simp only [hlt, if_false]
    rw [show seen.length + 1 - 5 = seen.length - 4 by omega, pictures_congr fun i hi => by
      have := List.mem_range'_1.1 hi
      exact shownLine_text (by omega)]

/-- Lines behind the location do not matter. -/
theorem shownOf_take {color : Bool} {ls : List Str} {loc : Location} (h : loc.firstLine ≤ loc.lastLine)
    (h1 : 1 ≤ loc.firstLine) : shownOf color (ls.take loc.lastLine) loc = shownOf color ls loc := by
  have key : ∀ i, 1 ≤ i → i ≤ loc.lastLine → textLine (ls.take loc.lastLine) i = textLine ls i := by
    intro i h1 h2
    unfold textLine
    rw [List.getD_eq_getElem?_getD, List.getD_eq_getElem?_getD, List.getElem?_take_of_lt (by omega)]
  unfold shownOf
  split
  · rw [pictures_congr fun i hi => by
      have := List.mem_range'_1.1 hi
      exact key i (by omega) (by omega)]
  · rw [pictures_congr fun i hi => by
      have := List.mem_range'_1.1 hi
      exact key i (by omega) (by omega)]

end Selint
