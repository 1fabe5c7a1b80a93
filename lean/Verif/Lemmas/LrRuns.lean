import Verif.Spec.Lr
import Verif.Lemmas.Parse
/-!
# Sequences of moves of the parser

`Run c us c'`: wherever the parser was started, from `c` it can come to `c'` while it reads the
tokens `us`. The lemmas are in a form in which the rest of the way comes last.
-/

namespace Selint
namespace Lr
open Spec

/-- From `c` the parser can come to `c'`, reading the tokens. -/
def Run (c : Config) (us : List Token) (c' : Config) : Prop :=
  ∀ ⦃c₀ : Config⦄ ⦃ts : List Token⦄, ParserReaches c₀ ts c → ParserReaches c₀ (ts ++ us) c'

variable {e : PlainFlavor} {σ : List Entry} {ms : MState} {t : Sptables} {ts : List Token}
  {c' : Config}

theorem Run.refl {c : Config} : Run c [] c := fun _ _ h => by rwa [List.append_nil]

theorem Run.trans {c d : Config} {us vs : List Token} (h : Run c us d) (k : Run d vs c') :
    Run c (us ++ vs) c' := fun _ _ r => by
  rw [← List.append_assoc]
  exact k (h r)

/-- A token without a string. -/
theorem Run.shift {tok : Token} {x : Term} (hx : term tok = (x, none))
    (k : Run ⟨e, ⟨.t x, .none⟩ :: σ, none, ms, t⟩ ts c') :
    Run ⟨e, σ, none, ms, t⟩ (tok :: ts) c' := by
  intro c₀ us h
  have h₁ := h.move (mv := .read (some tok)) (c' := ⟨e, σ, some ⟨.t x, .none⟩, ms, t⟩) (by
    simp only [Config.step, readToken, hx])
  have h₂ := h₁.move (mv := .shift) (c' := ⟨e, ⟨.t x, .none⟩ :: σ, none, ms, t⟩) rfl
  have := k h₂
  simpa [tokenOf] using this

/-- A token with a string. -/
theorem Run.shiftStr {tok : Token} {x : Term} {s : Str} {a : Addr} {ms' : MState}
    (ht : ms.token s = (a, ms')) (hx : term tok = (x, some s))
    (k : Run ⟨e, ⟨.t x, .str a⟩ :: σ, none, ms', t⟩ ts c') :
    Run ⟨e, σ, none, ms, t⟩ (tok :: ts) c' := by
  intro c₀ us h
  have h₁ := h.move (mv := .read (some tok)) (c' := ⟨e, σ, some ⟨.t x, .str a⟩, ms', t⟩) (by
    simp only [Config.step, readToken, hx, ht])
  have h₂ := h₁.move (mv := .shift) (c' := ⟨e, ⟨.t x, .str a⟩ :: σ, none, ms', t⟩) rfl
  have := k h₂
  simpa [tokenOf] using this

/-- A production is reduced. -/
theorem Run.reduce {r : Rule} (line : Nat) {ms' : MState} {t' : Sptables} {v : Val}
    (hm : r ∈ rules)
    (hs : (σ.take (r.before.length + r.rhs.length)).reverse.map Entry.sym = r.before ++ r.rhs)
    (ho : r.onlyFirst = false ∨ σ = [])
    (hx : execAll e line ((σ.take (r.before.length + r.rhs.length)).reverse.map Entry.val) r.action
      ⟨ms, t, .none⟩ = .ok (.go ⟨ms', t', v⟩))
    (k : Run ⟨e, ⟨.n r.lhs, v⟩ :: σ.drop r.rhs.length, none, ms', t'⟩ ts c') :
    Run ⟨e, σ, none, ms, t⟩ ts c' := by
  intro c₀ us h
  have h₁ := h.move (mv := .reduce r line)
    (c' := ⟨e, ⟨.n r.lhs, v⟩ :: σ.drop r.rhs.length, none, ms', t'⟩) (by
      have hf : Config.fits ⟨e, σ, none, ms, t⟩ r = true := by
        simp only [Config.fits, hm, decide_true, hs, Bool.true_and, Bool.or_eq_true]
        rcases ho with ho | rfl
        · simp [ho]
        · simp
      simp only [Config.step, hf, if_true, Config.reduce, hx, Res.bind_ok])
  have := k h₁
  simpa [tokenOf] using this

/-- A production with symbols on its right-hand side is reduced. -/
theorem Run.red {lhs : Nt} {rhs : List Sym} {act : List Cmd} {line : Nat} {τ : List Entry}
    {vals : List Val} {ms' : MState} {t' : Sptables} {v : Val}
    (hm : ⟨lhs, rhs, act, [], false⟩ ∈ rules)
    (hs : (τ.take rhs.length).reverse.map (fun e => (e.sym, e.val)) = rhs.zip vals ∧
      rhs.length = vals.length ∧ τ.drop rhs.length = σ)
    (hx : execAll e line vals act ⟨ms, t, .none⟩ = .ok (.go ⟨ms', t', v⟩))
    (k : Run ⟨e, ⟨.n lhs, v⟩ :: σ, none, ms', t'⟩ ts c') :
    Run ⟨e, τ, none, ms, t⟩ ts c' := by
  obtain ⟨hs, hl, rfl⟩ := hs
  have h₁ : (τ.take rhs.length).reverse.map Entry.sym = rhs := by
    have := congrArg (List.map Prod.fst) hs
    rwa [List.map_map, List.map_fst_zip (by omega)] at this
  have h₂ : (τ.take rhs.length).reverse.map Entry.val = vals := by
    have := congrArg (List.map Prod.snd) hs
    rwa [List.map_map, List.map_snd_zip (by omega)] at this
  refine Run.reduce (r := ⟨lhs, rhs, act, [], false⟩) line hm ?_ (.inl rfl) ?_ k
  · simpa using h₁
  · simp only [List.length_nil, Nat.zero_add, h₂]
    exact hx

/-- An action in the middle of a production, or a production without symbols on its right-hand
side. -/
theorem Run.mid {lhs : Nt} {before : List Sym} {act : List Cmd} (line : Nat) (ms' : MState)
    (v : Val) (hm : ⟨lhs, [], act, before, false⟩ ∈ rules)
    (hs : (σ.take before.length).reverse.map Entry.sym = before)
    (hx : execAll e line ((σ.take before.length).reverse.map Entry.val) act ⟨ms, t, .none⟩ =
      .ok (.go ⟨ms', t, v⟩))
    (k : Run ⟨e, ⟨.n lhs, v⟩ :: σ, none, ms', t⟩ ts c') :
    Run ⟨e, σ, none, ms, t⟩ ts c' := by
  refine Run.reduce (r := ⟨lhs, [], act, before, false⟩) line hm ?_ (.inl rfl) ?_ k
  · simpa using hs
  · simpa using hx

/-- The action of a production runs as it should. -/
macro "action" "[" hs:Lean.Parser.Tactic.simpLemma,* "]" : tactic =>
  `(tactic| simp [execAll, Cmd.exec, strAt, listAt, avAt, ifKindAt, Act.step, Act.word, Act.list,
      MState.value, $hs,*])

theorem Run.red1 {lhs : Nt} {act : List Cmd} {x1 : Sym} {v1 : Val} (line : Nat)
    (ms' : MState) (t' : Sptables) (v : Val)
    (hm : ⟨lhs, [x1], act, [], false⟩ ∈ rules)
    (hx : execAll e line [v1] act ⟨ms, t, .none⟩ =
      .ok (.go ⟨ms', t', v⟩))
    (k : Run ⟨e, ⟨.n lhs, v⟩ :: σ, none, ms', t'⟩ ts c') :
    Run ⟨e, ⟨x1, v1⟩ :: σ, none, ms, t⟩ ts c' :=
  Run.red hm ⟨rfl, rfl, rfl⟩ hx k

theorem Run.red2 {lhs : Nt} {act : List Cmd} {x1 x2 : Sym} {v1 v2 : Val} (line : Nat)
    (ms' : MState) (t' : Sptables) (v : Val)
    (hm : ⟨lhs, [x1, x2], act, [], false⟩ ∈ rules)
    (hx : execAll e line [v1, v2] act ⟨ms, t, .none⟩ =
      .ok (.go ⟨ms', t', v⟩))
    (k : Run ⟨e, ⟨.n lhs, v⟩ :: σ, none, ms', t'⟩ ts c') :
    Run ⟨e, ⟨x2, v2⟩ :: ⟨x1, v1⟩ :: σ, none, ms, t⟩ ts c' :=
  Run.red hm ⟨rfl, rfl, rfl⟩ hx k

theorem Run.red3 {lhs : Nt} {act : List Cmd} {x1 x2 x3 : Sym} {v1 v2 v3 : Val} (line : Nat)
    (ms' : MState) (t' : Sptables) (v : Val)
    (hm : ⟨lhs, [x1, x2, x3], act, [], false⟩ ∈ rules)
    (hx : execAll e line [v1, v2, v3] act ⟨ms, t, .none⟩ =
      .ok (.go ⟨ms', t', v⟩))
    (k : Run ⟨e, ⟨.n lhs, v⟩ :: σ, none, ms', t'⟩ ts c') :
    Run ⟨e, ⟨x3, v3⟩ :: ⟨x2, v2⟩ :: ⟨x1, v1⟩ :: σ, none, ms, t⟩ ts c' :=
  Run.red hm ⟨rfl, rfl, rfl⟩ hx k

theorem Run.red4 {lhs : Nt} {act : List Cmd} {x1 x2 x3 x4 : Sym} {v1 v2 v3 v4 : Val} (line : Nat)
    (ms' : MState) (t' : Sptables) (v : Val)
    (hm : ⟨lhs, [x1, x2, x3, x4], act, [], false⟩ ∈ rules)
    (hx : execAll e line [v1, v2, v3, v4] act ⟨ms, t, .none⟩ =
      .ok (.go ⟨ms', t', v⟩))
    (k : Run ⟨e, ⟨.n lhs, v⟩ :: σ, none, ms', t'⟩ ts c') :
    Run ⟨e, ⟨x4, v4⟩ :: ⟨x3, v3⟩ :: ⟨x2, v2⟩ :: ⟨x1, v1⟩ :: σ, none, ms, t⟩ ts c' :=
  Run.red hm ⟨rfl, rfl, rfl⟩ hx k

theorem Run.red5 {lhs : Nt} {act : List Cmd} {x1 x2 x3 x4 x5 : Sym} {v1 v2 v3 v4 v5 : Val} (line : Nat)
    (ms' : MState) (t' : Sptables) (v : Val)
    (hm : ⟨lhs, [x1, x2, x3, x4, x5], act, [], false⟩ ∈ rules)
    (hx : execAll e line [v1, v2, v3, v4, v5] act ⟨ms, t, .none⟩ =
      .ok (.go ⟨ms', t', v⟩))
    (k : Run ⟨e, ⟨.n lhs, v⟩ :: σ, none, ms', t'⟩ ts c') :
    Run ⟨e, ⟨x5, v5⟩ :: ⟨x4, v4⟩ :: ⟨x3, v3⟩ :: ⟨x2, v2⟩ :: ⟨x1, v1⟩ :: σ, none, ms, t⟩ ts c' :=
  Run.red hm ⟨rfl, rfl, rfl⟩ hx k

theorem Run.red6 {lhs : Nt} {act : List Cmd} {x1 x2 x3 x4 x5 x6 : Sym} {v1 v2 v3 v4 v5 v6 : Val} (line : Nat)
    (ms' : MState) (t' : Sptables) (v : Val)
    (hm : ⟨lhs, [x1, x2, x3, x4, x5, x6], act, [], false⟩ ∈ rules)
    (hx : execAll e line [v1, v2, v3, v4, v5, v6] act ⟨ms, t, .none⟩ =
      .ok (.go ⟨ms', t', v⟩))
    (k : Run ⟨e, ⟨.n lhs, v⟩ :: σ, none, ms', t'⟩ ts c') :
    Run ⟨e, ⟨x6, v6⟩ :: ⟨x5, v5⟩ :: ⟨x4, v4⟩ :: ⟨x3, v3⟩ :: ⟨x2, v2⟩ :: ⟨x1, v1⟩ :: σ, none, ms, t⟩ ts c' :=
  Run.red hm ⟨rfl, rfl, rfl⟩ hx k

theorem Run.red7 {lhs : Nt} {act : List Cmd} {x1 x2 x3 x4 x5 x6 x7 : Sym} {v1 v2 v3 v4 v5 v6 v7 : Val} (line : Nat)
    (ms' : MState) (t' : Sptables) (v : Val)
    (hm : ⟨lhs, [x1, x2, x3, x4, x5, x6, x7], act, [], false⟩ ∈ rules)
    (hx : execAll e line [v1, v2, v3, v4, v5, v6, v7] act ⟨ms, t, .none⟩ =
      .ok (.go ⟨ms', t', v⟩))
    (k : Run ⟨e, ⟨.n lhs, v⟩ :: σ, none, ms', t'⟩ ts c') :
    Run ⟨e, ⟨x7, v7⟩ :: ⟨x6, v6⟩ :: ⟨x5, v5⟩ :: ⟨x4, v4⟩ :: ⟨x3, v3⟩ :: ⟨x2, v2⟩ :: ⟨x1, v1⟩ :: σ, none, ms, t⟩ ts c' :=
  Run.red hm ⟨rfl, rfl, rfl⟩ hx k

theorem Run.red8 {lhs : Nt} {act : List Cmd} {x1 x2 x3 x4 x5 x6 x7 x8 : Sym} {v1 v2 v3 v4 v5 v6 v7 v8 : Val} (line : Nat)
    (ms' : MState) (t' : Sptables) (v : Val)
    (hm : ⟨lhs, [x1, x2, x3, x4, x5, x6, x7, x8], act, [], false⟩ ∈ rules)
    (hx : execAll e line [v1, v2, v3, v4, v5, v6, v7, v8] act ⟨ms, t, .none⟩ =
      .ok (.go ⟨ms', t', v⟩))
    (k : Run ⟨e, ⟨.n lhs, v⟩ :: σ, none, ms', t'⟩ ts c') :
    Run ⟨e, ⟨x8, v8⟩ :: ⟨x7, v7⟩ :: ⟨x6, v6⟩ :: ⟨x5, v5⟩ :: ⟨x4, v4⟩ :: ⟨x3, v3⟩ :: ⟨x2, v2⟩ :: ⟨x1, v1⟩ :: σ, none, ms, t⟩ ts c' :=
  Run.red hm ⟨rfl, rfl, rfl⟩ hx k

theorem Run.red9 {lhs : Nt} {act : List Cmd} {x1 x2 x3 x4 x5 x6 x7 x8 x9 : Sym} {v1 v2 v3 v4 v5 v6 v7 v8 v9 : Val} (line : Nat)
    (ms' : MState) (t' : Sptables) (v : Val)
    (hm : ⟨lhs, [x1, x2, x3, x4, x5, x6, x7, x8, x9], act, [], false⟩ ∈ rules)
    (hx : execAll e line [v1, v2, v3, v4, v5, v6, v7, v8, v9] act ⟨ms, t, .none⟩ =
      .ok (.go ⟨ms', t', v⟩))
    (k : Run ⟨e, ⟨.n lhs, v⟩ :: σ, none, ms', t'⟩ ts c') :
    Run ⟨e, ⟨x9, v9⟩ :: ⟨x8, v8⟩ :: ⟨x7, v7⟩ :: ⟨x6, v6⟩ :: ⟨x5, v5⟩ :: ⟨x4, v4⟩ :: ⟨x3, v3⟩ :: ⟨x2, v2⟩ :: ⟨x1, v1⟩ :: σ, none, ms, t⟩ ts c' :=
  Run.red hm ⟨rfl, rfl, rfl⟩ hx k

theorem Run.red10 {lhs : Nt} {act : List Cmd} {x1 x2 x3 x4 x5 x6 x7 x8 x9 x10 : Sym} {v1 v2 v3 v4 v5 v6 v7 v8 v9 v10 : Val} (line : Nat)
    (ms' : MState) (t' : Sptables) (v : Val)
    (hm : ⟨lhs, [x1, x2, x3, x4, x5, x6, x7, x8, x9, x10], act, [], false⟩ ∈ rules)
    (hx : execAll e line [v1, v2, v3, v4, v5, v6, v7, v8, v9, v10] act ⟨ms, t, .none⟩ =
      .ok (.go ⟨ms', t', v⟩))
    (k : Run ⟨e, ⟨.n lhs, v⟩ :: σ, none, ms', t'⟩ ts c') :
    Run ⟨e, ⟨x10, v10⟩ :: ⟨x9, v9⟩ :: ⟨x8, v8⟩ :: ⟨x7, v7⟩ :: ⟨x6, v6⟩ :: ⟨x5, v5⟩ :: ⟨x4, v4⟩ :: ⟨x3, v3⟩ :: ⟨x2, v2⟩ :: ⟨x1, v1⟩ :: σ, none, ms, t⟩ ts c' :=
  Run.red hm ⟨rfl, rfl, rfl⟩ hx k

theorem Run.red11 {lhs : Nt} {act : List Cmd} {x1 x2 x3 x4 x5 x6 x7 x8 x9 x10 x11 : Sym} {v1 v2 v3 v4 v5 v6 v7 v8 v9 v10 v11 : Val} (line : Nat)
    (ms' : MState) (t' : Sptables) (v : Val)
    (hm : ⟨lhs, [x1, x2, x3, x4, x5, x6, x7, x8, x9, x10, x11], act, [], false⟩ ∈ rules)
    (hx : execAll e line [v1, v2, v3, v4, v5, v6, v7, v8, v9, v10, v11] act ⟨ms, t, .none⟩ =
      .ok (.go ⟨ms', t', v⟩))
    (k : Run ⟨e, ⟨.n lhs, v⟩ :: σ, none, ms', t'⟩ ts c') :
    Run ⟨e, ⟨x11, v11⟩ :: ⟨x10, v10⟩ :: ⟨x9, v9⟩ :: ⟨x8, v8⟩ :: ⟨x7, v7⟩ :: ⟨x6, v6⟩ :: ⟨x5, v5⟩ :: ⟨x4, v4⟩ :: ⟨x3, v3⟩ :: ⟨x2, v2⟩ :: ⟨x1, v1⟩ :: σ, none, ms, t⟩ ts c' :=
  Run.red hm ⟨rfl, rfl, rfl⟩ hx k

theorem Run.red12 {lhs : Nt} {act : List Cmd} {x1 x2 x3 x4 x5 x6 x7 x8 x9 x10 x11 x12 : Sym} {v1 v2 v3 v4 v5 v6 v7 v8 v9 v10 v11 v12 : Val} (line : Nat)
    (ms' : MState) (t' : Sptables) (v : Val)
    (hm : ⟨lhs, [x1, x2, x3, x4, x5, x6, x7, x8, x9, x10, x11, x12], act, [], false⟩ ∈ rules)
    (hx : execAll e line [v1, v2, v3, v4, v5, v6, v7, v8, v9, v10, v11, v12] act ⟨ms, t, .none⟩ =
      .ok (.go ⟨ms', t', v⟩))
    (k : Run ⟨e, ⟨.n lhs, v⟩ :: σ, none, ms', t'⟩ ts c') :
    Run ⟨e, ⟨x12, v12⟩ :: ⟨x11, v11⟩ :: ⟨x10, v10⟩ :: ⟨x9, v9⟩ :: ⟨x8, v8⟩ :: ⟨x7, v7⟩ :: ⟨x6, v6⟩ :: ⟨x5, v5⟩ :: ⟨x4, v4⟩ :: ⟨x3, v3⟩ :: ⟨x2, v2⟩ :: ⟨x1, v1⟩ :: σ, none, ms, t⟩ ts c' :=
  Run.red hm ⟨rfl, rfl, rfl⟩ hx k

end Lr
end Selint
