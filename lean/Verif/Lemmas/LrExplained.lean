import Verif.Lemmas.LrKeepsFiles
import Verif.Lemmas.LrKeepsLines
import Verif.Lemmas.LrKeepsBlocks
import Verif.Lemmas.LrKeepsLists
import Verif.Lemmas.LrKeepsContexts
import Verif.Lemmas.LrLook
/-!
# What the parser's stack stands for
-/

namespace Selint
namespace Lr

variable {expected : PlainFlavor} {mod : Str} {maps : Maps}

theorem rules_keep {r : Rule} (h : r ∈ rules) : RuleKeeps expected mod maps r := by
  simp only [rules, List.mem_append] at h
  rcases h with (((((((((h | h) | h) | h) | h) | h) | h) | h) | h) | h) | h
  · exact fileRules_keep r h
  · exact lineRules_keep r h
  · exact declRules_keep r h
  · exact ruleRules_keep r h
  · exact transitionRules_keep r h
  · exact blockRules_keep r h
  · exact m4Rules_keep r h
  · exact argRules_keep r h
  · exact contextRules_keep r h
  · exact ifRules_keep r h
  · exact sptRules_keep r h

/-- The symbols on the stack (the top first) with their values: the tokens they were made from,
and the state. -/
inductive Explained (expected : PlainFlavor) (mod : Str) (maps : Maps) :
    List Sym → List FVal → PState → List Token → Prop
  | nil : Explained expected mod maps [] [] (PState.init expected mod maps) []
  | cons {ss σ st us s v us' st'} : Explained expected mod maps ss σ st us →
      Seg expected mod maps s v σ st us' st' →
      Explained expected mod maps (s :: ss) (v :: σ) st' (us ++ us')

theorem Segs.snoc {s : Sym} {v : FVal} {us' : List Token} {st'' : PState} :
    ∀ {ss : List Sym} {vals σ : List FVal} {st : PState} {us : List Token} {st' : PState},
    Segs expected mod maps ss vals σ st us st' →
    Seg expected mod maps s v (vals.reverse ++ σ) st' us' st'' →
    Segs expected mod maps (ss ++ [s]) (vals ++ [v]) σ st (us ++ us') st''
  | [], vals, σ, st, us, st', h, hs => by
    obtain ⟨rfl, rfl, rfl⟩ := h
    exact ⟨v, [], us', [], st'', rfl, by simp, hs, rfl, rfl, rfl⟩
  | x :: ss, vals, σ, st, us, st', h, hs => by
    obtain ⟨w, vals', u₁, u₂, st₁, rfl, rfl, h₁, h₂⟩ := h
    refine ⟨w, vals' ++ [v], u₁, u₂ ++ us', st₁, rfl, by simp, h₁, ?_⟩
    refine Segs.snoc h₂ ?_
    simpa using hs

/-- The topmost symbols. -/
theorem Explained.split {S : List Sym} : ∀ {Q : List Sym} {fs : List FVal} {st : PState}
    {us : List Token}, Explained expected mod maps (Q ++ S) fs st us →
    ∃ vals σ st₀ us₀ us₁, fs = vals.reverse ++ σ ∧ vals.length = Q.length ∧ us = us₀ ++ us₁ ∧
      Explained expected mod maps S σ st₀ us₀ ∧ Segs expected mod maps Q.reverse vals σ st₀ us₁ st
  | [], fs, st, us, h => ⟨[], fs, st, us, [], rfl, rfl, by simp, h, rfl, rfl, rfl⟩
  | q :: Q, fs, st, us, h => by
    cases h with
    | cons h hs =>
      obtain ⟨vals, σ, st₀, us₀, us₁, rfl, hl, rfl, h₀, h₁⟩ := Explained.split h
      refine ⟨vals ++ [_], σ, st₀, us₀, us₁ ++ _, by simp; rfl, by simp [hl],
        List.append_assoc .., h₀, ?_⟩
      rw [List.reverse_cons]
      exact h₁.snoc hs

theorem Explained.length {S : List Sym} {fs : List FVal} {st : PState} {us : List Token}
    (h : Explained expected mod maps S fs st us) : fs.length = S.length := by
  induction h with
  | nil => rfl
  | cons _ _ ih => simp [ih]

/-- What the parser's stack stands for when the tokens have been read. -/
def Stands (expected : PlainFlavor) (mod : Str) (maps : Maps) (ts : List Token) (c : Config)
    (st : PState) (fs : List FVal) : Prop :=
  ∃ f σ us vs, fs = f ++ σ ∧ ts = us ++ vs ∧ LookIs c.look f vs ∧
    Explained expected mod maps (c.stack.map Entry.sym) σ st us

variable {ts : List Token} {c c' : Config} {st st' : PState} {fs : List FVal}

theorem Stands.read (h : Stands expected mod maps ts c st fs) (hl : c.look = none)
    (t : Option Token) :
    Stands expected mod maps (ts ++ t.toList) (readToken c t) st (tokenVal t :: fs) := by
  obtain ⟨f, σ, us, vs, rfl, rfl, hlook, he⟩ := h
  rw [hl] at hlook
  obtain ⟨rfl, rfl⟩ := hlook
  obtain ⟨v, h₁, h₂⟩ := readToken_look c t
  refine ⟨[tokenVal t], σ, us, t.toList, rfl, by simp, ?_, by rw [h₂]; exact he⟩
  rw [h₁]
  exact ⟨t, rfl, rfl, rfl⟩

theorem Stands.shift {e : Entry} (h : Stands expected mod maps ts c st fs) (hl : c.look = some e) :
    Stands expected mod maps ts { c with stack := e :: c.stack, look := none } st fs := by
  obtain ⟨f, σ, us, vs, rfl, rfl, hlook, he⟩ := h
  rw [hl] at hlook
  obtain ⟨t, hs, rfl, rfl⟩ := hlook
  refine ⟨[], tokenVal t :: σ, us ++ t.toList, [], rfl, by simp, ⟨rfl, rfl⟩, ?_⟩
  rw [List.map_cons]
  refine .cons he ?_
  rw [hs]
  cases t with
  | none => exact ⟨rfl, none, rfl, rfl, rfl⟩
  | some t => exact ⟨rfl, some t, rfl, rfl, rfl⟩

theorem Stands.reduce {r : Rule} {line : Nat} {w v} (h : Stands expected mod maps ts c st fs)
    (hf : c.fits r = true)
    (he : evalAll expected line (((fs.drop c.look.toList.length).take
        (r.before.length + r.rhs.length)).reverse) r.action ⟨st, .none⟩ = some ⟨st', w⟩)
    (hl : c'.look = c.look) (hs : c'.stack = ⟨.n r.lhs, v⟩ :: c.stack.drop r.rhs.length) :
    Stands expected mod maps ts c' st' (fs.take c.look.toList.length ++
        w :: (fs.drop c.look.toList.length).drop r.rhs.length) := by
  obtain ⟨f, σ, us, vs, rfl, rfl, hlook, hex⟩ := h
  obtain ⟨B, P, S, hst, hB, hP, hr, hfirst⟩ := fits_split hf
  rw [← hlook.length] at he ⊢
  rw [List.drop_left] at he ⊢
  rw [List.take_left]
  rw [hst, List.map_append, List.map_reverse, hP] at hex
  obtain ⟨vals, σ₁, st₀, us₀, us₁, rfl, hlen, rfl, h₀, h₁⟩ := hex.split
  rw [List.reverse_reverse] at h₁
  rw [List.length_reverse] at hlen
  rw [List.map_append, List.map_reverse, hB] at h₀
  obtain ⟨bvals, σ₂, _, _, _, rfl, hblen, -, -, -⟩ := h₀.split
  rw [List.length_reverse] at hblen
  have e₁ : ((vals.reverse ++ (bvals.reverse ++ σ₂)).take
      (r.before.length + r.rhs.length)).reverse = bvals ++ vals := by
    rw [← List.append_assoc, List.take_left' (by simp; omega), List.reverse_append,
      List.reverse_reverse, List.reverse_reverse]
  have e₂ : (vals.reverse ++ (bvals.reverse ++ σ₂)).drop r.rhs.length = bvals.reverse ++ σ₂ :=
    List.drop_left' (by simp; omega)
  rw [e₁] at he
  rw [e₂]
  have hseg := rules_keep hr hblen h₁ he
  refine ⟨f, w :: (bvals.reverse ++ σ₂), us₀ ++ us₁, vs, rfl, rfl, by rw [hl]; exact hlook, ?_⟩
  rw [hs, hst, List.drop_left' (by simp [← hP]), List.map_cons, List.map_append,
    List.map_reverse, hB]
  exact .cons h₀ hseg

end Lr
end Selint
