import Verif.Lemmas.LrEval
import Verif.Lemmas.ParsingRuns
/-!
# The statements of the parser's actions, one by one

A check of who owns the values `$1`, `$2`, … before and after each statement (`Cmd.check`), and
that it is right (`Cmd.sound`).
-/

namespace Selint
open Spec

namespace Lr

/-! ## Values -/

/-- A value of the kind owns the items, and it stands for what the third argument says. -/
def SlotAt : Kind → Val → FVal → List Item → Prop
  | .none, _, _, is => is = []
  | .word, v, f, is => ∃ a s, v = .str a ∧ f = .word s ∧ is = [.word a s]
  | .command, v, f, is => ∃ a s, v = .str a ∧ f = .word s ∧ is = [.word a s]
  | .names, v, f, is => ∃ p l, v = .list p ∧ f = .names l ∧ is = [.names p l]
  | .marked, v, f, is => ∃ p l, v = .list p ∧ f = .list l ∧ is = [.list p l]
  | .av, v, f, is => ∃ fl, v = .av fl ∧ f = .av fl ∧ is = []
  | .ifKind, v, f, is => ∃ b, v = .ifKind b ∧ f = .ifKind b ∧ is = []

/-- Values of the kinds own the items. -/
inductive EnvAt : List Kind → List Val → List FVal → List Item → Prop
  | nil : EnvAt [] [] [] []
  | cons {k ks v vs f fs js is} : SlotAt k v f js → EnvAt ks vs fs is →
      EnvAt (k :: ks) (v :: vs) (f :: fs) (js ++ is)

namespace EnvAt

variable {ks ks' : List Kind} {vs vs' : List Val} {fs fs' : List FVal} {is is' : List Item} {n : Nat} {k : Kind}

theorem take (h : EnvAt ks vs fs is) : ∀ {n}, ks[n]? = some k →
    ∃ v f js rest, vs[n]? = some v ∧ fs[n]? = some f ∧ SlotAt k v f js ∧ is.Perm (js ++ rest) ∧
      EnvAt (ks.set n .none) vs fs rest := by
  induction h with
  | nil => intro n hn; simp at hn
  | @cons k' ks v vs f fs js is hs h ih =>
    intro n hn
    cases n with
    | zero =>
      simp only [List.getElem?_cons_zero, Option.some.injEq] at hn
      subst hn
      exact ⟨v, f, js, is, rfl, rfl, hs, .refl _, .cons (js := []) rfl h⟩
    | succ n =>
      simp only [List.getElem?_cons_succ] at hn
      obtain ⟨w, g, ls, rest, hw, hg, hl, hp, he⟩ := ih hn
      refine ⟨w, g, ls, js ++ rest, hw, hg, hl, ?_, .cons hs he⟩
      have h₁ := hp.append_left js
      refine h₁.trans ?_
      rw [← List.append_assoc, ← List.append_assoc]
      exact List.perm_append_comm.append_right _

theorem word (h : EnvAt ks vs fs is) (hk : ks[n - 1]? = some .word) :
    ∃ a s rest, strAt vs n = .ok a ∧ wordOf fs n = some s ∧ is.Perm (.word a s :: rest) ∧
      EnvAt (ks.set (n - 1) .none) vs fs rest := by
  obtain ⟨v, f, js, rest, hv, hf, ⟨a, s, rfl, rfl, rfl⟩, hp, he⟩ := h.take hk
  exact ⟨a, s, rest, by simp only [strAt, hv], by simp only [wordOf, hf], hp, he⟩

theorem command (h : EnvAt ks vs fs is) (hk : ks[n - 1]? = some .command) :
    ∃ a s rest, strAt vs n = .ok a ∧ wordOf fs n = some s ∧ is.Perm (.word a s :: rest) ∧
      EnvAt (ks.set (n - 1) .none) vs fs rest := by
  obtain ⟨v, f, js, rest, hv, hf, ⟨a, s, rfl, rfl, rfl⟩, hp, he⟩ := h.take hk
  exact ⟨a, s, rest, by simp only [strAt, hv], by simp only [wordOf, hf], hp, he⟩

theorem names (h : EnvAt ks vs fs is) (hk : ks[n - 1]? = some .names) :
    ∃ p l rest, listAt vs n = .ok p ∧ namesOf fs n = some l ∧ markedOf fs n = some (l.map fun s => (s, false)) ∧ is.Perm (.names p l :: rest) ∧
      EnvAt (ks.set (n - 1) .none) vs fs rest := by
  obtain ⟨v, f, js, rest, hv, hf, ⟨p, l, rfl, rfl, rfl⟩, hp, he⟩ := h.take hk
  exact ⟨p, l, rest, by simp only [listAt, hv], by
    simp [namesOf, FVal.names, hf, List.map_map, Function.comp_def],
    by simp only [markedOf, FVal.names, hf], hp, he⟩

theorem marked (h : EnvAt ks vs fs is) (hk : ks[n - 1]? = some .marked) :
    ∃ p l rest, listAt vs n = .ok p ∧ markedOf fs n = some l ∧ is.Perm (.list p l :: rest) ∧
      EnvAt (ks.set (n - 1) .none) vs fs rest := by
  obtain ⟨v, f, js, rest, hv, hf, ⟨p, l, rfl, rfl, rfl⟩, hp, he⟩ := h.take hk
  exact ⟨p, l, rest, by simp only [listAt, hv], by simp only [markedOf, hf], hp, he⟩

theorem av (h : EnvAt ks vs fs is) (hk : ks[n - 1]? = some .av) : ∃ fl, avAt vs n = .ok fl ∧ avOf fs n = some fl := by
  obtain ⟨v, f, js, rest, hv, hf, ⟨fl, rfl, rfl, rfl⟩, hp, he⟩ := h.take hk
  exact ⟨fl, by simp only [avAt, hv], by simp only [avOf, hf]⟩

theorem ifKind (h : EnvAt ks vs fs is) (hk : ks[n - 1]? = some .ifKind) :
    ∃ b, ifKindAt vs n = .ok b ∧ ifKindOf fs n = some b := by
  obtain ⟨v, f, js, rest, hv, hf, ⟨fl, rfl, rfl, rfl⟩, hp, he⟩ := h.take hk
  exact ⟨fl, by simp only [ifKindAt, hv], by simp only [ifKindOf, hf]⟩

theorem append (h : EnvAt ks vs fs is) (h' : EnvAt ks' vs' fs' is') :
    EnvAt (ks ++ ks') (vs ++ vs') (fs ++ fs') (is ++ is') := by
  induction h with
  | nil => exact h'
  | cons hs _ ih => rw [List.append_assoc]; exact .cons hs ih

theorem split : ∀ {ks : List Kind} {vs : List Val} {fs is}, ks.length = vs.length →
    EnvAt (ks ++ ks') (vs ++ vs') fs is →
    ∃ gs hs js ls, fs = gs ++ hs ∧ is = js ++ ls ∧ gs.length = ks.length ∧ EnvAt ks vs gs js ∧
      EnvAt ks' vs' hs ls
  | [], [], fs, is, _, h => ⟨[], fs, [], is, rfl, rfl, rfl, .nil, h⟩
  | k :: ks, v :: vs, _, _, hl, h => by
    cases h with
    | cons hs h =>
      obtain ⟨gs, hs', js, ls, rfl, rfl, hl', h₁, h₂⟩ := split (by simpa using hl) h
      exact ⟨_ :: gs, hs', _, ls, by simp, by simp, by simp [hl'], .cons hs h₁, h₂⟩

theorem reverse (h : EnvAt ks vs fs is) : ∃ js, EnvAt ks.reverse vs.reverse fs.reverse js ∧ js.Perm is := by
  induction h with
  | nil => exact ⟨[], .nil, .refl _⟩
  | @cons k ks v vs f fs js is hs h ih =>
    obtain ⟨ls, hl, hp⟩ := ih
    simp only [List.reverse_cons]
    refine ⟨ls ++ (js ++ []), hl.append (.cons hs .nil), ?_⟩
    rw [List.append_nil]
    exact List.perm_append_comm.trans (hp.append_left _)

theorem length (h : EnvAt ks vs fs is) : ks.length = vs.length := by
  induction h with
  | nil => rfl
  | cons _ _ ih => simp [ih]

theorem length' (h : EnvAt ks vs fs is) : fs.length = ks.length := by
  induction h with
  | nil => rfl
  | cons _ _ ih => simp [ih]

end EnvAt

/-- Does a value of the kind own memory? -/
def Kind.owning : Kind → Bool
  | .word | .command | .names | .marked => true
  | _ => false

theorem EnvAt.leftover {ks vs fs is} (h : EnvAt ks vs fs is) : ∀ {n},
    ks.filter Kind.owning = List.replicate n .word →
    ∃ E : List (Addr × Str), is = E.map (fun e => .word e.1 e.2) ∧ E.length = n := by
  induction h with
  | nil =>
    intro n hn
    cases n with
    | zero => exact ⟨[], rfl, rfl⟩
    | succ n => simp [List.replicate_succ] at hn
  | @cons k ks v vs f fs js is hs h ih =>
    intro n hn
    by_cases hk : k.owning = true
    · rw [List.filter_cons_of_pos hk] at hn
      cases n with
      | zero => simp at hn
      | succ n =>
        simp only [List.replicate_succ, List.cons.injEq] at hn
        obtain ⟨rfl, hn⟩ := hn
        obtain ⟨a, s, rfl, rfl, rfl⟩ := hs
        obtain ⟨E, rfl, hE⟩ := ih hn
        exact ⟨(a, s) :: E, rfl, by simp [hE]⟩
    · rw [List.filter_cons_of_neg hk] at hn
      obtain ⟨E, rfl, hE⟩ := ih hn
      refine ⟨E, ?_, hE⟩
      cases k with
      | none => cases hs; rfl
      | av => obtain ⟨_, _, _, rfl⟩ := hs; rfl
      | ifKind => obtain ⟨_, _, _, rfl⟩ := hs; rfl
      | _ => simp [Kind.owning] at hk

/-! ## The check -/

/-- What is known while an action runs: the kinds of `$1`, `$2`, … (`none` when the value has
been given away), the kind of `$$`, whether `cur` has a parent for sure, whether the file is a
support file for sure, whether nothing has been done yet, and how many strings may be lost by
`YYERROR`. -/
structure Abs where
  env : List Kind
  ret : Kind := .none
  inside : Bool := false
  spt : Bool := false
  first : Bool := false
  leak : Nat := 0

/-- `$n` is given away. -/
def Abs.take (a : Abs) (k : Kind) (n : Nat) : Option Abs :=
  if a.env[n - 1]? = some k then some { a with env := a.env.set (n - 1) .none, inside := false, first := false }
  else none

/-- `$n` is used. -/
def Abs.keep (a : Abs) (k : Kind) (n : Nat) : Option Abs :=
  if a.env[n - 1]? = some k then some { a with inside := false, first := false } else none

/-- `$$` gets a value. -/
def Abs.gives (a : Abs) (k : Kind) : Option Abs :=
  if a.ret = .none then some { a with ret := k, inside := false, first := false } else none

/-- Whatever else. -/
def Abs.done (a : Abs) : Option Abs := some { a with inside := false, first := false }

/-- A block has been entered. -/
def Abs.entered (a : Abs) : Option Abs := some { a with inside := true, first := false }

/-- What is freed before `YYERROR`. -/
def Abs.releases : List Release → Abs → Option Abs
  | [], a => some a
  | .free n :: rs, a => (a.take .word n).bind (Abs.releases rs)
  | .freeList n :: rs, a => (a.take .names n).bind (Abs.releases rs)

/-- Are just the strings that may be lost left at `YYERROR`? -/
def Abs.fails (a : Abs) (rs : List Release) : Bool :=
  match a.releases rs with
  | none => false
  | some b => decide (b.ret = .none) &&
    decide (b.env.filter Kind.owning = List.replicate a.leak .word)

/-- `$n` is freed: a string, or the string of a command. -/
def Abs.takeStr (a : Abs) (n : Nat) : Option Abs :=
  match a.take .word n with
  | some b => some b
  | none => a.take .command n

/-- The check of a statement. -/
def Cmd.check (a : Abs) : Cmd → Option Abs
  | .copy n =>
    match a.env[n - 1]? with
    | none => none
    | some k => if k.owning then (a.take k n).bind (·.gives k) else none
  | .text _ => a.gives .word
  | .dup n => (a.take .word n).bind (·.gives .word)
  | .minus n => (a.take .word n).bind (·.gives .word)
  | .join _ n k => (a.take .word n).bind fun a => (a.take .word k).bind (·.gives .word)
  | .single _ => a.gives .names
  | .consume n => (a.take .word n).bind (·.gives .names)
  | .tilda n => (a.take .names n).bind (·.gives .names)
  | .append n k => (a.take .names n).bind fun a => (a.take .word k).bind (·.gives .names)
  | .concat n k => (a.take .marked n).bind fun a => (a.take .names k).bind (·.gives .marked)
  | .space n k => (a.take .marked n).bind fun a => (a.take .word k).bind (·.gives .marked)
  | .av _ => a.gives .av
  | .ifKind _ => a.gives .ifKind
  | .free n => a.takeStr n
  | .freeList n => a.take .names n
  | .expect fl first =>
    if a.fails first then some { a with spt := fl == .sptFile, inside := false, first := false }
    else none
  | .expectAllow n first => (a.keep .av n).bind fun a => if a.fails first then some a else none
  | .setEmpty => if a.first then a.done else none
  | .insertComment => a.done
  | .insertSemicolon => a.done
  | .insertHeader _ n => a.keep .word n
  | .declare _ n => a.keep .word n
  | .declareWith _ n k => (a.take .names k).bind (·.keep .word n)
  | .insertAliases n => a.take .names n
  | .insertTypeAlias n => a.keep .word n
  | .insertAttribute _ n k => (a.take .names k).bind (·.keep .word n)
  | .insertAvRule v s t c p => (a.keep .av v).bind fun a => (a.take .names p).bind fun a =>
      (a.take .names c).bind fun a => (a.take .names t).bind fun a => a.take .names s
  | .insertXpermAvRule v s t c o p => (a.keep .av v).bind fun a => (a.take .names p).bind fun a =>
      (a.take .names c).bind fun a => (a.take .names t).bind fun a =>
      (a.take .names s).bind (·.keep .word o)
  | .insertRoleAllow n k => (a.take .names k).bind (·.take .names n)
  | .insertRoleTypes n k => (a.take .names k).bind (·.keep .word n)
  | .insertTransition _ s t c d => (a.take .names c).bind fun a => (a.take .names t).bind fun a =>
      (a.take .names s).bind (·.keep .word d)
  | .insertNamedTransition s t c d n => (a.take .names c).bind fun a =>
      (a.take .names t).bind fun a => (a.take .names s).bind fun a =>
      if n - 1 = d - 1 then none else (a.keep .word n).bind (·.keep .word d)
  | .insertRoleTransition s t d => (a.take .names t).bind fun a =>
      (a.take .names s).bind (·.keep .word d)
  | .insertRoleTransitionClass s t c d => (a.take .names c).bind fun a =>
      (a.take .names t).bind fun a => (a.take .names s).bind (·.keep .word d)
  | .insertCall n k => (a.take .marked k).bind (·.keep .word n)
  | .insertCallNoArgs n => a.keep .word n
  | .insertM4SimpleMacro n => a.take .word n
  | .insertPermissive n => a.keep .word n
  | .beginBlock fl => if fl = .tempDef then none else a.entered
  | .endBlock _ => a.done
  | .beginGenRequire => a.entered
  | .endGenRequire _ => a.done
  | .beginInterfaceDef n k => (a.keep .ifKind n).bind (·.keep .word k)
  | .endInterfaceDef => a.done
  | .saveCommand n => a.keep .command n
  | .saveParent n => if a.inside then a.keep .command n else none
  | .declareAll _ n => a.keep .names n
  | .insertAv _ n => a.keep .word n
  | .insertMacro n k => if a.spt then (a.take .names k).bind (·.keep .word n) else none

/-- The check of an action. -/
def checkAll : List Cmd → Abs → Option Abs
  | [], a => some a
  | c :: cs, a => (c.check a).bind (checkAll cs)

/-- How many strings a production may lose by `YYERROR`. -/
def Rule.leak (r : Rule) : Nat := if r.lhs = .startInterface then 1 else 0

/-- The check of a production: `$$` is what the symbol on the left-hand side has, what was to
the left of an action in the middle is still there, and nothing else is. -/
def Rule.ok (r : Rule) : Bool :=
  match checkAll r.action ⟨(r.before ++ r.rhs).map Sym.kind, .none, false, false, r.onlyFirst,
    r.leak⟩ with
  | none => false
  | some a =>
    (decide (a.ret = r.lhs.kind) || decide (a.ret = .names ∧ r.lhs.kind = .marked)) &&
    decide (a.env.take r.before.length = r.before.map Sym.kind) &&
    decide ((a.env.drop r.before.length).filter Kind.owning = [])

/-- Every production of parse.y passes the check. -/
theorem rules_ok : ∀ r ∈ rules, r.ok = true := by
  decide +kernel

/-! ## Values that are turned into others -/

end Lr

namespace Inv

variable {root : Addr} {m₀ : Mem} {R : List Addr} {ms : MState} {st : PState} {H : List Item}
  {k : Nat}

/-- A statement that makes a value out of some items. -/
theorem turn {α : Type} {f : Mem → Res (α × Mem)} {is : List Item}
    (h : Inv root m₀ R ms st (is ++ H) k) (i : α → Item)
    (hf : ∀ ps R', HeldAt ms.mem is ps → Owns ms.mem (ps ++ R') →
      ∃ a m' qs, f ms.mem = .ok (a, m') ∧ (i a).At m' qs ∧ Owns m' (qs ++ R') ∧
        EqOn ms.mem m' R') :
    ∃ a ms', ms.value f = .ok (a, ms') ∧ Inv root m₀ R ms' st (i a :: H) k := by
  obtain ⟨⟨T, L, hs, hT, hL, hH, ho, hk⟩, hfr, h₁, h₂, h₃⟩ := h
  obtain ⟨ps, qs, rfl, hp, hq⟩ := hH.split
  obtain ⟨a, m', rs, e, ha, ho', he⟩ := hf ps (T ++ L ++ qs ++ R) hp (ho.perm (by pieces))
  refine ⟨a, { ms with mem := m' }, by simp only [MState.value, e, Res.bind_ok],
    ⟨T, L, rs ++ qs, hT.congr he.left.left.left, hL.congr he.left.left.right,
    .cons ha (hq.congr he.left.right), ho'.perm ?_, hk⟩, hfr.trans he.right, h₁, h₂, h₃⟩
  pieces

theorem noOpt (h : Inv root m₀ R ms st H k) : Inv root m₀ R ms st (.opt none none :: H) k :=
  h.regroup (is := []) (is' := [_]) fun ps hp _ => by
    cases hp
    exact ⟨[] ++ [], .cons .none .nil, .refl _⟩

theorem dropOpt (h : Inv root m₀ R ms st (.opt none none :: H) k) : Inv root m₀ R ms st H k :=
  h.regroup (is := [_]) (is' := []) fun ps hp _ => by
    cases hp with
    | cons hp h' =>
      cases hp
      cases h'
      exact ⟨[], .nil, .refl _⟩

theorem dropNames (h : Inv root m₀ R ms st (.list none [] :: H) k) : Inv root m₀ R ms st H k :=
  h.regroup (is := [_]) (is' := []) fun ps hp _ => by
    cases hp with
    | cons hp h' =>
      cases hp
      cases h'
      exact ⟨[], .nil, .refl _⟩

theorem dup {a s} (h : Inv root m₀ R ms st (.word a s :: H) k) :
    ∃ b ms', ms.value (fun m => Lr.dupString m a) = .ok (b, ms') ∧
      Inv root m₀ R ms' st (.word b s :: H) k := by
  refine h.turn (is := [_]) (fun b => .word b s) fun ps R' hp ho => ?_
  obtain _ | ⟨_ | ha, _ | _⟩ := hp
  have h₁ := ho.malloc (.bytes s)
  have he₁ := eqOn_malloc ho (.bytes s)
  obtain ⟨m₂, e₂, h₂, he₂⟩ := free_word ((he₁ a (by simp)).trans ha) (R := [ms.mem.top] ++ R')
    (h₁.perm (by pieces))
  refine ⟨ms.mem.top, m₂, [ms.mem.top], ?_, .some ?_, h₂, ?_⟩
  · simp only [Lr.dupString, get_eq ha (f := Obj.str?) rfl, Res.bind_ok, malloc_fst, e₂]
  · rw [he₂ _ (by simp)]
    exact malloc_self _ _
  · exact he₁.right.trans he₂.right

theorem minus {a s} (h : Inv root m₀ R ms st (.word a s :: H) k) :
    ∃ b ms', ms.value (fun m => Lr.minusString m a) = .ok (b, ms') ∧
      Inv root m₀ R ms' st (.word b ('-' :: s) :: H) k := by
  refine h.turn (is := [_]) (fun b => .word b ('-' :: s)) fun ps R' hp ho => ?_
  obtain _ | ⟨_ | ha, _ | _⟩ := hp
  have h₁ := ho.malloc (.bytes ('-' :: s))
  have he₁ := eqOn_malloc ho (.bytes ('-' :: s))
  obtain ⟨m₂, e₂, h₂, he₂⟩ := free_word ((he₁ a (by simp)).trans ha) (R := [ms.mem.top] ++ R')
    (h₁.perm (by pieces))
  refine ⟨ms.mem.top, m₂, [ms.mem.top], ?_, .some ?_, h₂, ?_⟩
  · simp only [Lr.minusString, get_eq ha (f := Obj.str?) rfl, Res.bind_ok, malloc_fst, e₂]
  · rw [he₂ _ (by simp)]
    exact malloc_self _ _
  · exact he₁.right.trans he₂.right

theorem joined {a b s t} (c : Char) (h : Inv root m₀ R ms st (.word a s :: .word b t :: H) k) :
    ∃ d ms', ms.value (fun m => m.joinStrings c a b) = .ok (d, ms') ∧
      Inv root m₀ R ms' st (.word d (s ++ c :: t) :: H) k := by
  refine h.turn (is := [_, _]) (fun b => .word b _) fun ps R' hp ho => ?_
  obtain _ | ⟨_ | ha, _ | ⟨_ | hb, _ | _⟩⟩ := hp
  obtain ⟨d, m', rs, e, ⟨rfl, hd⟩, ho', he⟩ := joinStrings_spec c ha hb (R := R')
    (ho.perm (by pieces))
  exact ⟨d, m', _, e, .some hd, ho', he⟩

theorem consumed {a s} (h : Inv root m₀ R ms st (.word a s :: H) k) :
    ∃ p ms', ms.value (fun m => let (p, m) := m.slFromStrConsume (some a); .ok (some p, m)) =
      .ok (p, ms') ∧ Inv root m₀ R ms' st (.names p [s] :: H) k := by
  refine h.turn (is := [_]) (fun p => .names p [s]) fun ps R' hp ho => ?_
  obtain _ | ⟨_ | ha, _ | _⟩ := hp
  obtain ⟨rs, hs, ho', he⟩ := consume_word false (qs := [a]) ⟨rfl, ha⟩ (R := R')
    (ho.perm (by pieces))
  exact ⟨some ms.mem.top, _, rs, rfl, hs, ho', he⟩

theorem tilda {p l} (h : Inv root m₀ R ms st (.names p l :: H) k) :
    ∃ q ms', ms.value (fun m => m.putTilda p) = .ok (q, ms') ∧
      Inv root m₀ R ms' st (.names q (cs!"~" :: l) :: H) k := by
  refine h.turn (is := [_]) (fun p => .names p _) fun ps R' hp ho => ?_
  obtain _ | ⟨hp, _ | _⟩ := hp
  rename_i ps
  obtain ⟨q, m₁, rs, e₁, hs₁, h₁, he₁⟩ := slFromStr_word cs!"~" (R := ps ++ R')
    (ho.perm (by pieces))
  cases hs₁ with
  | @cons _ a _ _ _ _ rs hq ha hn hq' ha' =>
    cases hn
    have hnd := h₁.nodup
    refine ⟨some q, wrote m₁ q (.sl ⟨some a, p, false⟩), q :: a :: ps, ?_, ?_, ?_, ?_⟩
    · simp only [Mem.putTilda, e₁, setNext_ok hq, Res.bind_ok]
      rfl
    · refine .cons (wrote_self _ _ _) ?_ (SlAt.congr hp ?_) (by grind) (by grind)
      · rw [wrote_other _ _ (by grind), ha]
      · exact he₁.left.trans (eqOn_wrote (by grind) _)
    · exact (h₁.wrote (by simp) _).perm (by pieces)
    · exact he₁.right.trans (eqOn_wrote (by grind) _)

theorem appended {p a l s} (h : Inv root m₀ R ms st (.names p l :: .word a s :: H) k) :
    ∃ q ms', ms.value (fun m => m.appendWord p a) = .ok (q, ms') ∧
      Inv root m₀ R ms' st (.names q (l ++ [s]) :: H) k := by
  refine h.turn (is := [_, _]) (fun p => .names p _) fun ps R' hp ho => ?_
  obtain _ | ⟨hp, _ | ⟨_ | ha, _ | _⟩⟩ := hp
  obtain ⟨r, m', rs, e, hr, ho', he⟩ := appendWord_spec hp (qs := [a]) ⟨rfl, ha⟩ (R := R')
    (ho.perm (by pieces))
  exact ⟨r, m', rs, e, hr, ho', he⟩

theorem concatenated {p q l l'} (h : Inv root m₀ R ms st (.list p l :: .list q l' :: H) k) :
    ∃ r ms', ms.value (fun m => m.concatStringLists m.top p q) = .ok (r, ms') ∧
      Inv root m₀ R ms' st (.list r (l ++ l') :: H) k := by
  refine h.turn (is := [_, _]) (fun p => .list p _) fun ps R' hp ho => ?_
  obtain _ | ⟨hp, _ | ⟨hq, _ | _⟩⟩ := hp
  obtain ⟨r, m', e, hr, ho', he⟩ := concat_lists hp hq (R := R') (ho.perm (by pieces))
  exact ⟨r, m', _, e, hr, ho', he⟩

theorem spaced {p a l s} (h : Inv root m₀ R ms st (.list p l :: .word a s :: H) k) :
    ∃ r ms', ms.value (fun m => Lr.appendSpace m p a) = .ok (r, ms') ∧
      Inv root m₀ R ms' st (.list r (l ++ [(s, true)]) :: H) k := by
  refine h.turn (is := [_, _]) (fun p => .list p _) fun ps R' hp ho => ?_
  obtain _ | ⟨hp, _ | ⟨_ | ha, _ | _⟩⟩ := hp
  rename_i ps
  obtain ⟨rs, hs, h₂, he₂⟩ := consume_word true (qs := [a]) ⟨rfl, ha⟩ (R := ps ++ R')
    (ho.perm (by pieces))
  obtain ⟨r, m', e, hr, ho', he⟩ := concat_lists (SlAt.congr hp he₂.left) hs (R := R')
    (h₂.perm (by pieces))
  exact ⟨r, m', _, e, hr, ho', he₂.right.trans he⟩

/-- parse.y:202, when nothing has been done yet. -/
theorem setEmpty {expected : PlainFlavor} {mod : Str} {maps : Maps}
    (h : Inv root m₀ R ms (PState.init expected mod maps) H k) :
    ∃ ms', Lr.setEmpty ms = .ok ms' ∧ Inv root m₀ R ms' (PState.init .empty mod maps) H k := by
  obtain ⟨⟨T, L, hs, hT, hL, hH, ho, hk⟩, hfr, h₁, h₂, h₃⟩ := h
  obtain ⟨mem, cur, maps', module', rets'⟩ := ms
  simp only [PState.init] at hT hL hH ho hk hfr h₁ h₂ h₃
  cases hT with
  | @mk _ first n i ts lefts ups p₁ p₂ p₃ p₄ p₅ h hn hf hl g₁ g₂ g₃ g₄ g₅ =>
    have hnd := ho.nodup
    have hcur : ∀ {xs : List Addr}, (∀ q ∈ xs, q ∈ p₁ ++ p₂ ++ p₃ ++ p₄ ++ p₅ ++ L ++ hs ++ R) →
        EqOn mem (wrote mem cur (.node { n with flavor := .empty })) xs := by
      intro xs hxs
      refine eqOn_wrote (fun hq => ?_) _
      exact (List.nodup_cons.1 (List.Perm.nodup (by pieces) hnd :
        (cur :: (p₁ ++ p₂ ++ p₃ ++ p₄ ++ p₅ ++ L ++ hs ++ R)).Nodup)).1 (hxs _ hq)
    refine ⟨⟨wrote mem cur (.node { n with flavor := .empty }), cur, maps', module', rets'⟩, ?_,
      ⟨p₁ ++ p₂ ++ p₃ ++ p₄ ++ p₅ ++ [cur], L, hs, ?_, hL.congr (hcur (by simp +contextual)),
      hH.congr (hcur (by simp +contextual)), ho.wrote (by simp) _, hk⟩,
      hfr.trans (hcur (by simp +contextual)), h₁, h₂, h₃⟩
    · simp only [Lr.setEmpty, get_eq h (f := Obj.node?) rfl, Res.bind_ok,
        write_wrote (m := mem) (p := cur) (by simp [h])]
    · refine .mk (n := { n with flavor := .empty }) (wrote_self _ _ _) hn rfl hl ?_
        (g₂.congr (hcur (by simp +contextual))) (g₃.congr (hcur (by simp +contextual)))
        (g₄.congr (hcur (by simp +contextual))) (g₅.congr (hcur (by simp +contextual)))
      generalize n.data = d at g₁
      cases g₁ with
      | plain g =>
        cases g
        exact .plain .none

end Inv

namespace Lr

/-! ## The check is right -/

/-- The lists of permissions that were given away. -/
def Sptables.lists (t : Sptables) : List (Option Addr) := t.kept.map (·.2) ++ t.forgotten

/-- What there is, apart from the tree, while an action runs: the values, `$$`, the lists of
permissions, and what the rest of the stack holds (`H`). `st₀` is the beginning of the file;
`q` says that there have been no commands. -/
structure ActAt (root : Addr) (m₀ : Mem) (R : List Addr) (expected : PlainFlavor) (mod : Str)
    (maps : Maps) (vals : List Val) (fs : List FVal) (q : Prop) (H : List Item) (s : Act) (a : Abs)
    (st : PState) (f : FVal) (is js : List Item) (ls : List (Option Addr × List Str)) (k : Nat) : Prop where
  env : EnvAt a.env vals fs is
  ret : SlotAt a.ret s.ret f js
  fresh : a.ret = .none → f = .none
  tabs : (Sptables.lists s.tabs).Perm (ls.map (·.1))
  inv : Inv root m₀ R s.ms st (is ++ (js ++ (ls.map (fun e => .names e.1 e.2) ++ H))) k
  first : a.first = true → st = PState.init expected mod maps
  inside : a.inside = true → st.loc.ups ≠ []
  spt : a.spt = true → expected = .sptFile
  quiet : q → k = 0 ∧ .command ∉ a.env
  noLists : expected ≠ .sptFile → ls = []

/-- The same after `YYERROR`: `E` are the strings that are lost. -/
structure FailedAt (root : Addr) (m₀ : Mem) (R : List Addr) (expected : PlainFlavor) (q : Prop)
    (H : List Item) (s : Act) (n : Nat) (st : PState) (E : List (Addr × Str))
    (ls : List (Option Addr × List Str)) (k : Nat) : Prop where
  lost : E.length = n
  tabs : (Sptables.lists s.tabs).Perm (ls.map (·.1))
  inv : Inv root m₀ R s.ms st (E.map (fun e => .word e.1 e.2) ++
    (ls.map (fun e => .names e.1 e.2) ++ H)) k
  quiet : q → k = 0
  noLists : expected ≠ .sptFile → ls = []

/-- The templates are such that a call cannot be expanded. -/
def Stuck (ms : MState) : Prop :=
  ∃ name args, ∀ e m, expandTemplate name args ms.module ms.maps ≠ .done e m

section
variable {root : Addr} {m₀ : Mem} {R : List Addr} {expected : PlainFlavor} {mod : Str}
  {maps : Maps} {vals : List Val} {fs : List FVal} {w : FVal} {W : PState → FVal → Prop}
  {q call exp : Prop} {H : List Item} {s : Act} {a a' b : Abs}
  {st : PState} {is js : List Item} {ls : List (Option Addr × List Str)} {k n : Nat} {c : Kind}

theorem Abs.take_eq (h : a.take c n = some b) : a.env[n - 1]? = some c ∧
    b = { a with env := a.env.set (n - 1) .none, inside := false, first := false } := by
  simp only [Abs.take] at h
  split at h
  · exact ⟨‹_›, (Option.some.inj h).symm⟩
  · cases h

theorem Abs.keep_eq (h : a.keep c n = some b) : a.env[n - 1]? = some c ∧
    b = { a with inside := false, first := false } := by
  simp only [Abs.keep] at h
  split at h
  · exact ⟨‹_›, (Option.some.inj h).symm⟩
  · cases h

theorem Abs.gives_eq (h : a.gives c = some b) : a.ret = .none ∧
    b = { a with ret := c, inside := false, first := false } := by
  simp only [Abs.gives] at h
  split at h
  · exact ⟨‹_›, (Option.some.inj h).symm⟩
  · cases h

theorem not_mem_set {l : List Kind} {n : Nat} (h : Kind.command ∉ l) :
    Kind.command ∉ l.set n .none := by
  intro hm
  rcases List.mem_or_eq_of_mem_set hm with hm | hm
  · exact h hm
  · cases hm

/-- What a statement does, in terms of the items. -/
inductive Sound (root : Addr) (m₀ : Mem) (R : List Addr) (expected : PlainFlavor) (mod : Str)
    (maps : Maps) (vals : List Val) (fs : List FVal) (q : Prop) (H : List Item) (call exp : Prop)
    (W : PState → FVal → Prop) (s : Act) (a' : Abs) (leak : Nat) : Res Outcome → Prop
  | go {s' st f is js ls k} : ActAt root m₀ R expected mod maps vals fs q H s' a' st f is js ls k →
      a'.leak = leak → W st f → Sound root m₀ R expected mod maps vals fs q H call exp W s a' leak (.ok (.go s'))
  | error {s' st E ls k} : exp → FailedAt root m₀ R expected q H s' leak st E ls k →
      Sound root m₀ R expected mod maps vals fs q H call exp W s a' leak (.ok (.error s'))
  | ub : call → Stuck s.ms → Sound root m₀ R expected mod maps vals fs q H call exp W s a' leak .ub

/-- Less is held, and nothing else has changed. -/
structure Abs.Less (a b : Abs) : Prop where
  ret : b.ret = a.ret
  first : b.first = false
  inside : b.inside = false
  spt : b.spt = a.spt
  leak : b.leak = a.leak
  quiet : .command ∉ a.env → .command ∉ b.env

theorem Abs.Less.trans {a b c : Abs} (h : a.Less b) (h' : b.Less c) : a.Less c :=
  ⟨h'.ret.trans h.ret, h'.first, h'.inside, h'.spt.trans h.spt, h'.leak.trans h.leak,
    fun hq => h'.quiet (h.quiet hq)⟩

theorem Abs.take_less (a : Abs) (n : Nat) :
    a.Less { a with env := a.env.set (n - 1) .none, inside := false, first := false } :=
  ⟨rfl, rfl, rfl, rfl, rfl, fun h => not_mem_set h⟩

theorem Abs.keep_less (a : Abs) : a.Less { a with inside := false, first := false } :=
  ⟨rfl, rfl, rfl, rfl, rfl, id⟩

namespace ActAt

/-- A statement that changes the parser's variables. -/
theorem step {r ms' st' is' k' leak} (h : ActAt root m₀ R expected mod maps vals fs q H s a st w is js ls k)
    (e : r = .ok ms') (hl : a.Less b) (hleak : a.leak = leak) (he : EnvAt b.env vals fs is')
    (hi : Inv root m₀ R ms' st' (is' ++ (js ++ (ls.map (fun e => .names e.1 e.2) ++ H))) k')
    (hk : .command ∉ a.env → k' = k) (hw : W st' w) :
    Sound root m₀ R expected mod maps vals fs q H call exp W s b leak (s.step r) := by
  subst e
  refine .go (s' := { s with ms := ms' }) (st := st') (is := is') (js := js) (ls := ls) (k := k')
    ⟨he, ?_, ?_, h.tabs, hi, ?_, ?_, ?_, ?_, h.noLists⟩ (hl.leak.trans hleak) hw
  · rw [hl.ret]; exact h.ret
  · rw [hl.ret]; exact h.fresh
  · rw [hl.first]; intro h; cases h
  · rw [hl.inside]; intro h; cases h
  · rw [hl.spt]; exact h.spt
  · intro hq
    obtain ⟨h₁, h₂⟩ := h.quiet hq
    exact ⟨(hk h₂).trans h₁, hl.quiet h₂⟩

/-- A statement that assigns a string to `$$`. -/
theorem giveWord {f : Mem → Res (Addr × Mem)} {ms' x t is' leak}
    (h : ActAt root m₀ R expected mod maps vals fs q H s a st w is js ls k)
    (e : s.ms.value f = .ok (x, ms')) (hl : a.Less b) (hb : b.gives .word = some a')
    (hleak : a.leak = leak) (he : EnvAt b.env vals fs is')
    (hi : Inv root m₀ R ms' st
      (.word x t :: is' ++ (js ++ (ls.map (fun e => .names e.1 e.2) ++ H))) k) (hw : W st (.word t)) :
    Sound root m₀ R expected mod maps vals fs q H call exp W s a' leak (s.word f) := by
  obtain ⟨hr, rfl⟩ := Abs.gives_eq hb
  have hj := h.ret
  rw [← hl.ret, hr] at hj
  cases hj
  simp only [Act.word, e, Res.bind_ok]
  refine .go (s' := { s with ms := ms', ret := .str x }) (st := st) (is := is')
    (js := [.word x t]) (ls := ls) (k := k) ⟨he, ⟨x, t, rfl, rfl, rfl⟩, (nomatch ·), h.tabs, hi.perm ?_, ?_, ?_, ?_, ?_,
    h.noLists⟩ (hl.leak.trans hleak) hw
  · exact List.perm_middle.symm
  · intro h; cases h
  · intro h; cases h
  · exact fun hs => h.spt (by rw [← hl.spt]; exact hs)
  · intro hq
    obtain ⟨h₁, h₂⟩ := h.quiet hq
    exact ⟨h₁, hl.quiet h₂⟩

/-- A statement that assigns a list to `$$`. -/
theorem giveList {f : Mem → Res (Option Addr × Mem)} {ms' x l is' leak}
    (h : ActAt root m₀ R expected mod maps vals fs q H s a st w is js ls k)
    (e : s.ms.value f = .ok (x, ms')) (hl : a.Less b) (hb : b.gives .names = some a')
    (hleak : a.leak = leak) (he : EnvAt b.env vals fs is')
    (hi : Inv root m₀ R ms' st
      (.names x l :: is' ++ (js ++ (ls.map (fun e => .names e.1 e.2) ++ H))) k) (hw : W st (.names l)) :
    Sound root m₀ R expected mod maps vals fs q H call exp W s a' leak (s.list f) := by
  obtain ⟨hr, rfl⟩ := Abs.gives_eq hb
  have hj := h.ret
  rw [← hl.ret, hr] at hj
  cases hj
  simp only [Act.list, e, Res.bind_ok]
  refine .go (s' := { s with ms := ms', ret := .list x }) (st := st) (is := is')
    (js := [.names x l]) (ls := ls) (k := k) ⟨he, ⟨x, l, rfl, rfl, rfl⟩, (nomatch ·), h.tabs, hi.perm ?_, ?_, ?_, ?_,
    ?_, h.noLists⟩ (hl.leak.trans hleak) hw
  · exact List.perm_middle.symm
  · intro h; cases h
  · intro h; cases h
  · exact fun hs => h.spt (by rw [← hl.spt]; exact hs)
  · intro hq
    obtain ⟨h₁, h₂⟩ := h.quiet hq
    exact ⟨h₁, hl.quiet h₂⟩

/-- A statement that assigns a list with marks to `$$`. -/
theorem giveMarked {f : Mem → Res (Option Addr × Mem)} {ms' x l is' leak}
    (h : ActAt root m₀ R expected mod maps vals fs q H s a st w is js ls k)
    (e : s.ms.value f = .ok (x, ms')) (hl : a.Less b) (hb : b.gives .marked = some a')
    (hleak : a.leak = leak) (he : EnvAt b.env vals fs is')
    (hi : Inv root m₀ R ms' st
      (.list x l :: is' ++ (js ++ (ls.map (fun e => .names e.1 e.2) ++ H))) k) (hw : W st (.list l)) :
    Sound root m₀ R expected mod maps vals fs q H call exp W s a' leak (s.list f) := by
  obtain ⟨hr, rfl⟩ := Abs.gives_eq hb
  have hj := h.ret
  rw [← hl.ret, hr] at hj
  cases hj
  simp only [Act.list, e, Res.bind_ok]
  refine .go (s' := { s with ms := ms', ret := .list x }) (st := st) (is := is')
    (js := [.list x l]) (ls := ls) (k := k) ⟨he, ⟨x, l, rfl, rfl, rfl⟩, (nomatch ·), h.tabs, hi.perm ?_, ?_, ?_, ?_,
    ?_, h.noLists⟩ (hl.leak.trans hleak) hw
  · exact List.perm_middle.symm
  · intro h; cases h
  · intro h; cases h
  · exact fun hs => h.spt (by rw [← hl.spt]; exact hs)
  · intro hq
    obtain ⟨h₁, h₂⟩ := h.quiet hq
    exact ⟨h₁, hl.quiet h₂⟩

/-- What is freed before `YYERROR`. -/
theorem releases : ∀ {rs : List Release} {ms : MState} {a b : Abs} {is X : List Item},
    EnvAt a.env vals fs is → Inv root m₀ R ms st (is ++ X) k → a.releases rs = some b →
    ∃ ms' is', releaseAll vals rs ms = .ok ms' ∧ EnvAt b.env vals fs is' ∧
      Inv root m₀ R ms' st (is' ++ X) k ∧ b.ret = a.ret
  | [], ms, a, b, is, X, he, hi, hb => by
    cases hb
    exact ⟨ms, is, rfl, he, hi, rfl⟩
  | .free n :: rs, ms, a, b, is, X, he, hi, hb => by
    obtain ⟨a₁, h₁, hb⟩ := Option.bind_eq_some_iff.1 hb
    obtain ⟨hk, rfl⟩ := Abs.take_eq h₁
    obtain ⟨x, t, rest, e₁, -, hp, he'⟩ := he.word hk
    obtain ⟨ms₁, e₂, hi₁⟩ := (hi.perm (hp.append_right _)).free
    obtain ⟨ms', is', e₃, h₂, h₃, h₄⟩ := releases he' hi₁ hb
    exact ⟨ms', is', by simp only [releaseAll, Release.exec, e₁, e₂, e₃, Res.bind_ok], h₂, h₃, h₄⟩
  | .freeList n :: rs, ms, a, b, is, X, he, hi, hb => by
    obtain ⟨a₁, h₁, hb⟩ := Option.bind_eq_some_iff.1 hb
    obtain ⟨hk, rfl⟩ := Abs.take_eq h₁
    obtain ⟨x, t, rest, e₁, -, -, hp, he'⟩ := he.names hk
    obtain ⟨ms₁, e₂, hi₁⟩ := (hi.perm (hp.append_right _)).freeList
    obtain ⟨ms', is', e₃, h₂, h₃, h₄⟩ := releases he' hi₁ hb
    exact ⟨ms', is', by simp only [releaseAll, Release.exec, e₁, e₂, e₃, Res.bind_ok], h₂, h₃, h₄⟩

/-- `YYERROR`. -/
theorem fails {rs : List Release} (h : ActAt root m₀ R expected mod maps vals fs q H s a st w is js ls k)
    (ha : a.fails rs = true) :
    ∃ ms' E, releaseAll vals rs s.ms = .ok ms' ∧
      FailedAt root m₀ R expected q H { s with ms := ms' } a.leak st E ls k := by
  simp only [Abs.fails] at ha
  split at ha
  · cases ha
  · rename_i b hb
    simp only [Bool.and_eq_true, decide_eq_true_eq] at ha
    obtain ⟨ms', is', e, he, hi, hr⟩ := releases h.env h.inv hb
    obtain ⟨E, rfl, hE⟩ := he.leftover ha.2
    have hj := h.ret
    rw [← hr, ha.1] at hj
    cases hj
    exact ⟨ms', E, e, ⟨hE, h.tabs, hi, fun hq => (h.quiet hq).1, h.noLists⟩⟩

end ActAt

end

end Lr
end Selint
