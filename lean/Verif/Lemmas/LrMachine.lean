import Verif.Lemmas.LrSound
import Verif.Lemmas.FcInMemory
import Verif.Spec.Lr
import Verif.Props.ParseMemory
/-!
# The parser's stack owns what it should
-/

namespace Selint
open Spec

namespace Lr

/-- The kinds of symbols. -/
def kinds (es : List Entry) : List Kind := es.map fun e => e.sym.kind

/-- The values of symbols. -/
def values (es : List Entry) : List Val := es.map Entry.val

/-- The values on the stack own the items, and there are strings `E` besides. -/
structure At (m₀ : Mem) (expected : PlainFlavor) (mod : Str) (maps : Maps) (q f : Prop)
    (c : Config) (E : List (Addr × Str)) (st : PState) (fs : List FVal) (is : List Item)
    (ls : List (Option Addr × List Str)) (k : Nat) : Prop where
  goal : c.expected = expected
  env : EnvAt (kinds (entries c)) (values (entries c)) fs is
  tabs : (Sptables.lists c.tabs).Perm (ls.map (·.1))
  inv : Inv (root m₀) m₀ (List.range m₀.top) c.ms st
    (is ++ (E.map (fun e => .word e.1 e.2) ++ ls.map (fun e => .names e.1 e.2))) k
  first : f → c.stack = [] → st = PState.init expected mod maps
  quiet : q → k = 0 ∧ Kind.command ∉ kinds (entries c)
  noLists : expected ≠ .sptFile → ls = []

variable {m₀ : Mem} {expected : PlainFlavor} {mod : Str} {maps : Maps} {c c' : Config}
  {ts : List Token} {r : Rule} {line : Nat} {q q' : Prop} {E : List (Addr × Str)} {st : PState}
  {fs : List FVal} {is : List Item} {ls : List (Option Addr × List Str)} {k : Nat}

theorem At.start (hb : Bounded m₀) :
    At m₀ expected mod maps q True (start m₀ expected mod maps) [] (PState.init expected mod maps) []
      [] [] 0 :=
  ⟨rfl, .nil, .nil, Inv.init hb _ _ _, fun _ _ => rfl, fun _ => ⟨rfl, by simp [kinds, entries,
    Lr.start]⟩, fun _ => rfl⟩

theorem EnvAt.none_of {ks vs fs is} (h : EnvAt ks vs fs is) (hk : ks.filter Kind.owning = []) :
    is = [] := by
  obtain ⟨E, rfl, hE⟩ := h.leftover (n := 0) hk
  rw [List.length_eq_zero_iff.1 hE]
  rfl

/-- What the value of a token stands for. -/
def tokenVal : Option Token → FVal
  | none => .none
  | some t => match (term t).2 with
    | none => .none
    | some s => .word s

/-- A token is read. -/
theorem At.read (h : At m₀ expected mod maps q True c [] st fs is ls k) (hl : c.look = none)
    (t : Option Token) (hq : q' → q ∧ ∀ s, t ≠ some (.command s)) :
    ∃ is', At m₀ expected mod maps q' True (readToken c t) [] st (tokenVal t :: fs) is' ls k := by
  have henv := h.env
  have hquiet := h.quiet
  simp only [entries, hl, Option.toList_none, List.nil_append] at henv hquiet
  have plain : ∀ (x : Term) f, x.kind = .none → At m₀ expected mod maps q' True
      { c with look := some ⟨.t x, .none⟩ } [] st (f :: fs) is ls k := fun x f hx => by
    refine ⟨h.goal, ?_, h.tabs, h.inv, h.first, ?_, h.noLists⟩
    · exact .cons (k := x.kind) (js := []) (by rw [hx]; exact rfl) henv
    · intro h'
      refine ⟨(hquiet (hq h').1).1, ?_⟩
      have := (hquiet (hq h').1).2
      simp only [kinds, entries, Option.toList_some, List.map_cons, List.cons_append, List.nil_append,
        List.mem_cons, not_or, Sym.kind, hx]
      exact ⟨by simp, this⟩
  have str : ∀ (x : Term) (s : Str), (x.kind = .word ∨ x.kind = .command ∧ ¬ q') →
      ∃ is', At m₀ expected mod maps q' True { c with
        look := some ⟨.t x, .str (c.ms.token s).1⟩, ms := (c.ms.token s).2 } [] st
        (.word s :: fs) is' ls k :=
    fun x s hx => by
    refine ⟨.word c.ms.mem.top s :: is, ⟨h.goal, ?_, h.tabs, h.inv.token s, h.first, ?_,
      h.noLists⟩⟩
    · refine .cons (k := x.kind) (js := [_]) ?_ henv
      rcases hx with hx | ⟨hx, -⟩ <;> rw [hx] <;> exact ⟨_, _, rfl, rfl, rfl⟩
    · intro h'
      refine ⟨(hquiet (hq h').1).1, ?_⟩
      have := (hquiet (hq h').1).2
      rcases hx with hx | ⟨-, hx⟩
      · simp only [kinds, entries, Option.toList_some, List.map_cons, List.cons_append,
          List.nil_append, List.mem_cons, not_or, Sym.kind, hx]
        exact ⟨by simp, this⟩
      · exact absurd h' hx
  cases t with
  | none => exact ⟨is, plain .eof _ rfl⟩
  | some t =>
    cases t with
    | command s => exact str .command s (.inr ⟨rfl, fun h' => (hq h').2 s rfl⟩)
    | versionNo s => exact str _ s (.inl rfl)
    | number s => exact str _ s (.inl rfl)
    | string s => exact str _ s (.inl rfl)
    | numString s => exact str _ s (.inl rfl)
    | ipv4 s => exact str _ s (.inl rfl)
    | ipv6 s => exact str _ s (.inl rfl)
    | quoted s => exact str _ s (.inl rfl)
    | kw x => exact ⟨is, plain (.kw x) _ rfl⟩
    | p x => exact ⟨is, plain (.p x) _ rfl⟩
    | fileType => exact ⟨is, plain .fileType _ rfl⟩
    | comment => exact ⟨is, plain .comment _ rfl⟩
    | unknown _ => exact ⟨is, plain .unknown _ rfl⟩

/-- A token is shifted. -/
theorem At.shift {e : Entry} (h : At m₀ expected mod maps q True c [] st fs is ls k)
    (hl : c.look = some e) :
    At m₀ expected mod maps q True { c with stack := e :: c.stack, look := none } [] st fs is ls k := by
  have he : entries { c with stack := e :: c.stack, look := none } = entries c := by
    simp [entries, hl]
  exact ⟨h.goal, (by rw [he]; exact h.env), h.tabs, h.inv, fun _ hc => (nomatch hc),
    (by rw [he]; exact h.quiet), h.noLists⟩

theorem EnvAt.of_ret {k : Kind} {r : Rule} {v : Val} {f : FVal} {js : List Item} (h : SlotAt k v f js)
    (hk : k = r.lhs.kind ∨ k = .names ∧ r.lhs.kind = .marked) : SlotAt r.lhs.kind v f js := by
  rcases hk with rfl | ⟨rfl, hk⟩
  · exact h
  · rw [hk]
    obtain ⟨p, l, rfl, rfl, rfl⟩ := h
    exact ⟨p, _, rfl, rfl, rfl⟩

theorem lhs_kind (r : Rule) : r.lhs.kind ≠ .command := by
  cases r.lhs <;> simp [Nt.kind]

theorem mem_kinds_append {es es' : List Entry} {x : Kind} :
    x ∈ kinds (es ++ es') ↔ x ∈ kinds es ∨ x ∈ kinds es' := by
  simp [kinds]

/-- A production that fits, and the stack. -/
theorem fits_split (h : c.fits r = true) :
    ∃ B P S : List Entry, c.stack = P.reverse ++ (B.reverse ++ S) ∧ B.map Entry.sym = r.before ∧
      P.map Entry.sym = r.rhs ∧ r ∈ rules ∧ (r.onlyFirst = true → c.stack = []) := by
  simp only [Config.fits, Bool.and_eq_true, decide_eq_true_eq, Bool.or_eq_true, Bool.not_eq_true',
    List.isEmpty_iff] at h
  obtain ⟨⟨hr, hs⟩, hf⟩ := h
  refine ⟨(c.stack.take (r.before.length + r.rhs.length)).reverse.take r.before.length,
    (c.stack.take (r.before.length + r.rhs.length)).reverse.drop r.before.length,
    c.stack.drop (r.before.length + r.rhs.length), ?_, ?_, ?_, hr, ?_⟩
  · rw [← List.append_assoc, ← List.reverse_append, List.take_append_drop, List.reverse_reverse,
      List.take_append_drop]
  · rw [List.map_take, hs, List.take_left']
    rfl
  · rw [List.map_drop, hs, List.drop_left']
    rfl
  · intro h
    rcases hf with hf | hf
    · rw [h] at hf; cases hf
    · exact hf

theorem kinds_of_syms {es : List Entry} {ss : List Sym} (h : es.map Entry.sym = ss) :
    kinds es = ss.map Sym.kind := by
  rw [← h, List.map_map]
  rfl

theorem EnvAt.look_stack {es B P S : List Entry}
    (h : EnvAt (kinds (es ++ (P.reverse ++ (B.reverse ++ S))))
      (values (es ++ (P.reverse ++ (B.reverse ++ S)))) fs is) :
    ∃ i₁ j i₃ f₁ f₂ f₃, EnvAt (kinds es) (values es) f₁ i₁ ∧
      EnvAt (kinds (B ++ P)) (values (B ++ P)) f₂ j ∧
      EnvAt (kinds S) (values S) f₃ i₃ ∧ is.Perm (j ++ (i₁ ++ i₃)) ∧
      fs = f₁ ++ (f₂.reverse ++ f₃) := by
  have e : es ++ (P.reverse ++ (B.reverse ++ S)) = es ++ ((B ++ P).reverse ++ S) := by simp
  rw [e] at h
  simp only [kinds, values, List.map_append (l₁ := es), List.map_append (l₂ := S)] at h
  obtain ⟨f₁, f', i₁, i', rfl, rfl, -, h₁, h'⟩ := h.split (by simp)
  obtain ⟨f₂, f₃, i₂, i₃, rfl, rfl, -, h₂, h₃⟩ := h'.split (by simp)
  obtain ⟨j, hj, hp⟩ := h₂.reverse
  rw [← List.map_reverse, ← List.map_reverse, List.reverse_reverse] at hj
  refine ⟨i₁, j, i₃, f₁, f₂.reverse, f₃, h₁, hj, h₃, ?_, by rw [List.reverse_reverse]⟩
  refine ((hp.symm.append_right i₃).append_left i₁).trans ?_
  rw [← List.append_assoc, ← List.append_assoc]
  exact List.perm_append_comm.append_right _

/-- A production is reduced. -/
theorem At.reduce (h : At m₀ expected mod maps q True c [] st fs is ls k) (hf : c.fits r = true)
    (line : Nat) :
    (∃ c' st' w fs' is ls k, c.reduce r line = .ok (.go c') ∧
      At m₀ expected mod maps q True c' [] st' fs' is ls k ∧ c'.look = c.look ∧
      (∃ v, c'.stack = ⟨.n r.lhs, v⟩ :: c.stack.drop r.rhs.length) ∧
      fs' = fs.take c.look.toList.length ++
        w :: (fs.drop c.look.toList.length).drop r.rhs.length ∧
      evalAll expected line (((fs.drop c.look.toList.length).take
        (r.before.length + r.rhs.length)).reverse) r.action ⟨st, .none⟩ = some ⟨st', w⟩) ∨
    (∃ c' E st' fs' is ls k, c.reduce r line = .ok (.error c') ∧ E.length = r.leak ∧
      At m₀ expected mod maps q False c' E st' fs' is ls k ∧
      evalAll expected line (((fs.drop c.look.toList.length).take
        (r.before.length + r.rhs.length)).reverse) r.action ⟨st, .none⟩ = none) ∨
    (c.reduce r line = .ub ∧ r.lhs = .interfaceCall ∧ Stuck c.ms ∧
      evalAll expected line (((fs.drop c.look.toList.length).take
        (r.before.length + r.rhs.length)).reverse) r.action ⟨st, .none⟩ = none) := by
  obtain ⟨B, P, S, hst, hB, hP, hr, hfirst⟩ := fits_split hf
  have hlenB : B.length = r.before.length := by rw [← hB, List.length_map]
  have hlenP : P.length = r.rhs.length := by rw [← hP, List.length_map]
  have henv := h.env
  simp only [entries, hst] at henv
  obtain ⟨i₁, j, i₃, f₁, f₂, f₃, h₁, hj, h₃, hp, hfs⟩ := henv.look_stack
  have hkinds : kinds (B ++ P) = (r.before ++ r.rhs).map Sym.kind :=
    kinds_of_syms (by rw [List.map_append, hB, hP])
  have hok := rules_ok r hr
  simp only [Rule.ok] at hok
  cases hcheck : checkAll r.action ⟨(r.before ++ r.rhs).map Sym.kind, .none, false, false,
      r.onlyFirst, r.leak⟩ with
  | none => rw [hcheck] at hok; cases hok
  | some a' =>
  rw [hcheck] at hok
  simp only [Bool.and_eq_true, Bool.or_eq_true, decide_eq_true_eq] at hok
  obtain ⟨⟨hret, hbefore⟩, hnone⟩ := hok
  have hvals : (c.stack.take (r.before.length + r.rhs.length)).reverse.map Entry.val =
      values (B ++ P) := by
    rw [hst, ← List.append_assoc, ← List.reverse_append, List.take_left' (by simp [hlenB, hlenP, Nat.add_comm]),
      List.reverse_reverse]
    rfl
  have hrest : c.stack.drop r.rhs.length = B.reverse ++ S := by
    rw [hst, List.drop_left' (by simp [hlenP])]
  have hact : ActAt (root m₀) m₀ (List.range m₀.top) expected mod maps (values (B ++ P)) f₂ q
      (i₁ ++ i₃) ⟨c.ms, c.tabs, .none⟩ ⟨(r.before ++ r.rhs).map Sym.kind, .none, false, false,
      r.onlyFirst, r.leak⟩ st .none j [] ls k := by
    refine ⟨hkinds ▸ hj, rfl, fun _ => rfl, h.tabs, h.inv.perm ?_, ?_, (nomatch ·), (nomatch ·), ?_, h.noLists⟩
    · refine (hp.append_right _).trans ?_
      simp only [List.map_nil, List.nil_append, List.append_assoc j]
      exact List.perm_append_comm.append_left j
    · exact fun ho => h.first trivial (hfirst ho)
    · intro hq
      refine ⟨(h.quiet hq).1, ?_⟩
      have := (h.quiet hq).2
      simp only [entries, hst, mem_kinds_append, not_or] at this
      rw [← hkinds]
      simp only [mem_kinds_append, not_or]
      refine ⟨?_, ?_⟩
      · simpa [kinds] using this.2.2.1
      · simpa [kinds] using this.2.1
  have hquiet : q → Kind.command ∉ kinds (c.look.toList ++ (B.reverse ++ S)) := by
    intro hq
    have := (h.quiet hq).2
    simp only [entries, hst, mem_kinds_append, not_or] at this ⊢
    exact ⟨this.1, this.2.2⟩
  have hexp := h.goal
  have hargs : ((fs.drop c.look.toList.length).take (r.before.length + r.rhs.length)).reverse = f₂ := by
    have hl₁ : f₁.length = c.look.toList.length := by
      rw [h₁.length']; simp [kinds]
    have hl₂ : f₂.length = B.length + P.length := by
      rw [hj.length']; simp [kinds]
    rw [hfs, List.drop_left' hl₁, List.take_left' (by simp [hl₂, hlenB, hlenP]),
      List.reverse_reverse]
  rcases execAll_sound line hact hcheck with ⟨s', st', w', is', js', ls', k', e, h', hev⟩ |
    ⟨s', st', E, ls', k', e, ⟨x, hx, hmay⟩, h', hev⟩ | ⟨e, hev, hub⟩
  · refine .inl ?_
    have hlen := h'.env.length
    have hsplit := h'.env
    rw [← List.take_append_drop r.before.length a'.env] at hsplit
    simp only [values, List.map_append] at hsplit
    obtain ⟨gb, gn, jb, jn, hg, rfl, hgl, hjb, hjn⟩ := hsplit.split (by
      rw [hbefore]; simp [hlenB])
    have hjn' := hjn.none_of hnone
    subst hjn'
    rw [hbefore, ← hB, List.map_map] at hjb
    obtain ⟨jb', hjb', hpb⟩ := hjb.reverse
    rw [← List.map_reverse, ← List.map_reverse] at hjb'
    refine ⟨⟨c.expected, ⟨.n r.lhs, s'.ret⟩ :: c.stack.drop r.rhs.length, c.look, s'.ms, s'.tabs⟩, st', w',
      f₁ ++ w' :: (gb.reverse ++ f₃), i₁ ++ (js' ++ (jb' ++ i₃)), ls', k', ?_, ⟨?_, ?_, h'.tabs, ?_, ?_,
      ?_, ?_⟩, rfl, ⟨_, rfl⟩, ?_, ?_⟩
    · simp only [Config.reduce, hvals, hexp, e, Res.bind_ok]
    · exact hexp
    · simp only [entries, hrest, kinds, values, List.map_append, List.map_cons]
      exact h₁.append (.cons (EnvAt.of_ret h'.ret hret)
        (hjb'.append h₃))
    · refine h'.inv.perm ?_
      simp only [List.map_nil, List.nil_append, List.append_nil]
      refine perm_of_count fun {_} x => ?_
      have := hpb.count_eq x
      simp only [List.count_append]
      omega
    · exact fun _ hc => nomatch hc
    · intro hq
      refine ⟨(h'.quiet hq).1, ?_⟩
      have := hquiet hq
      simp only [entries, hrest]
      rw [mem_kinds_append, not_or] at this ⊢
      refine ⟨this.1, ?_⟩
      simp only [kinds, List.map_cons, List.mem_cons, not_or]
      exact ⟨fun hc => lhs_kind r hc.symm, this.2⟩
    · exact h'.noLists
    · have hl₁ : f₁.length = c.look.toList.length := by
        rw [h₁.length']; simp [kinds]
      have hl₂ : f₂.length = B.length + P.length := by
        rw [hj.length']; simp [kinds]
      rw [hfs, List.take_left' hl₁, List.drop_left' hl₁, hg]
      have hln : gn.length = r.rhs.length := by
        rw [hbefore] at hgl
        rw [hg] at hl₂
        simp only [List.length_append, List.length_map] at hl₂ hgl
        omega
      rw [List.reverse_append, List.append_assoc, List.drop_left' (by simp [hln])]
    · rw [hargs]
      exact hev
  · refine .inr (.inl ?_)
    have hb : r.before = [] := by
      refine Classical.byContradiction fun hne => ?_
      rw [rules_mid r hr hne x hx] at hmay
      cases hmay
    have hBn : B = [] := List.length_eq_zero_iff.1 (by rw [hlenB, hb]; rfl)
    subst hBn
    refine ⟨⟨c.expected, c.stack.drop r.rhs.length, c.look, s'.ms, s'.tabs⟩, E, st', f₁ ++ f₃,
      i₁ ++ i₃, ls', k', by
      simp only [Config.reduce, hvals, hexp, e, Res.bind_ok], h'.lost, ⟨hexp, ?_, h'.tabs, ?_, ?_,
      ?_, ?_⟩, by rw [hargs]; exact hev⟩
    · simp only [entries, hrest, kinds, values, List.map_append, List.reverse_nil, List.nil_append]
      exact h₁.append h₃
    · refine h'.inv.perm ?_
      refine perm_of_count fun {_} x => ?_
      simp only [List.count_append]
      omega
    · exact False.elim
    · intro hq
      refine ⟨h'.quiet hq, ?_⟩
      simp only [entries, hrest]
      exact hquiet hq
    · exact h'.noLists
  · refine .inr (.inr ⟨by simp only [Config.reduce, hvals, hexp, e, Res.bind_ub], ?_⟩)
    rw [hargs]
    rcases hub with ⟨x, xs, hxs, hcall, hstuck⟩ | ⟨x, hx, hcall⟩
    · exact ⟨rules_call_lhs r hr x (by rw [hxs]; exact List.mem_cons_self ..) hcall, hstuck, hev⟩
    · rw [rules_call r hr x hx] at hcall
      cases hcall

end Lr
end Selint
