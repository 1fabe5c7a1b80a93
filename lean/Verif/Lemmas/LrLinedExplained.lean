import Verif.Lemmas.LrLinedFiles
import Verif.Lemmas.LrLinedLines
import Verif.Lemmas.LrLinedLists
import Verif.Lemmas.LrLinedBlocks
import Verif.Lemmas.LrLinedMacros
import Verif.Lemmas.LrExplained
/-!
# The parser's stack explains the tokens and their lines
-/

namespace Selint
namespace Lr

variable {expected : PlainFlavor} {mod : Str} {maps : Maps}

theorem rules_lkeep {r : Rule} (h : r ∈ rules) : LRuleKeeps expected mod maps r := by
  simp only [rules, List.mem_append] at h
  rcases h with (((((((((h | h) | h) | h) | h) | h) | h) | h) | h) | h) | h
  · exact fileRules_lkeep r h
  · exact lineRules_lkeep r h
  · exact declRules_lkeep r h
  · exact ruleRules_lkeep r h
  · exact transitionRules_lkeep r h
  · exact blockRules_lkeep r h
  · exact m4Rules_lkeep r h
  · exact argRules_lkeep r h
  · exact contextRules_lkeep r h
  · exact ifRules_lkeep r h
  · exact sptRules_lkeep r h

/-- The symbols on the stack (the top first) with their values and lines: the tokens they were
made from, and the state. -/
inductive LExplained (expected : PlainFlavor) (mod : Str) (maps : Maps) :
    List Sym → List Placed → PState → Located → Prop
  | nil : LExplained expected mod maps [] [] (PState.init expected mod maps) []
  | cons {ss σ st us s v a b us' st'} : LExplained expected mod maps ss σ st us →
      LSeg expected mod maps s v a b σ st us' st' →
      LExplained expected mod maps (s :: ss) (⟨v, a, b⟩ :: σ) st' (us ++ us')

theorem LSegs.snoc {s : Sym} {v : FVal} {a b : Nat} {us' : Located} {st'' : PState} :
    ∀ {ss : List Sym} {vals σ : List Placed} {st : PState} {us : Located} {st' : PState},
    LSegs expected mod maps ss vals σ st us st' →
    LSeg expected mod maps s v a b (vals.reverse ++ σ) st' us' st'' →
    LSegs expected mod maps (ss ++ [s]) (vals ++ [⟨v, a, b⟩]) σ st (us ++ us') st''
  | [], vals, σ, st, us, st', h, hs => by
    obtain ⟨rfl, rfl, rfl⟩ := h
    exact ⟨v, a, b, [], us', [], st'', rfl, by simp, hs, rfl, rfl, rfl⟩
  | x :: ss, vals, σ, st, us, st', h, hs => by
    obtain ⟨w, a', b', vals', u₁, u₂, st₁, rfl, rfl, h₁, h₂⟩ := h
    refine ⟨w, a', b', vals' ++ [_], u₁, u₂ ++ us', st₁, rfl, by simp, h₁, ?_⟩
    refine LSegs.snoc h₂ ?_
    simpa using hs

/-- The topmost symbols. -/
theorem LExplained.split {S : List Sym} : ∀ {Q : List Sym} {fs : List Placed} {st : PState}
    {us : Located}, LExplained expected mod maps (Q ++ S) fs st us →
    ∃ vals σ st₀ us₀ us₁, fs = vals.reverse ++ σ ∧ vals.length = Q.length ∧ us = us₀ ++ us₁ ∧
      LExplained expected mod maps S σ st₀ us₀ ∧ LSegs expected mod maps Q.reverse vals σ st₀ us₁ st
  | [], fs, st, us, h => ⟨[], fs, st, us, [], rfl, rfl, by simp, h, rfl, rfl, rfl⟩
  | q :: Q, fs, st, us, h => by
    cases h with
    | cons h hs =>
      obtain ⟨vals, σ, st₀, us₀, us₁, rfl, hl, rfl, h₀, h₁⟩ := LExplained.split h
      refine ⟨vals ++ [_], σ, st₀, us₀, us₁ ++ _, by simp; rfl, by simp [hl],
        List.append_assoc .., h₀, ?_⟩
      rw [List.reverse_cons]
      exact h₁.snoc hs

/-- The lines of a symbol. -/
def Placed.span (x : Placed) : Span := ⟨x.first, x.last⟩

theorem lastOf_map (σ : List Placed) : lastOf (σ.map Placed.span) = prevLine σ := by
  cases σ <;> rfl

theorem spanOf_map (vals σ : List Placed) :
    spanOf vals.length ((vals.reverse ++ σ).map Placed.span) =
      ⟨firstLine vals σ, lastLine vals σ⟩ := by
  simp only [spanOf, lastOf_map]
  rw [List.map_append, List.take_left' (by simp)]
  cases vals with
  | nil => rfl
  | cons x vals => simp [firstLine, lastLine, Placed.span]

/-- What the token that was read stands for. -/
def LLookIs : Option Entry → Nat → List FVal → Located → Prop
  | none, _, f, us => f = [] ∧ us = []
  | some e, n, f, us => ∃ t, e.sym = tokenSym t ∧ f = [tokenVal t] ∧
      us = t.toList.map (fun t => (n, t))

/-- What the parser's stack stands for when the tokens have been read. -/
def LStands (expected : PlainFlavor) (mod : Str) (maps : Maps) (ts : Located) (s : Lined)
    (st : PState) (fs : List FVal) : Prop :=
  ∃ f σ us vs, fs = f ++ σ.map Placed.v ∧ ts = us ++ vs ∧ LLookIs s.c.look s.look f vs ∧
    s.spans = σ.map Placed.span ∧ LExplained expected mod maps (s.c.stack.map Entry.sym) σ st us

theorem LLookIs.length {l : Option Entry} {n : Nat} {f : List FVal} {us : Located}
    (h : LLookIs l n f us) : f.length = l.toList.length := by
  cases l with
  | none => rw [h.1]; rfl
  | some e => obtain ⟨t, -, rfl, -⟩ := h; rfl

variable {ts : Located} {s : Lined} {c' : Config} {st st' : PState} {fs : List FVal}

theorem LStands.read (h : LStands expected mod maps ts s st fs) (hl : s.c.look = none)
    (n : Nat) (t : Option Token) :
    LStands expected mod maps (ts ++ t.toList.map (fun t => (n, t)))
      ⟨readToken s.c t, s.spans, n⟩ st (tokenVal t :: fs) := by
  obtain ⟨f, σ, us, vs, rfl, rfl, hlook, hsp, he⟩ := h
  rw [hl] at hlook
  obtain ⟨rfl, rfl⟩ := hlook
  obtain ⟨v, h₁, h₂⟩ := readToken_look s.c t
  refine ⟨[tokenVal t], σ, us, t.toList.map (fun t => (n, t)), rfl, by simp, ?_, hsp, ?_⟩
  · simp only [h₁]
    exact ⟨t, rfl, rfl, rfl⟩
  · simp only [h₂]
    exact he

theorem LStands.shift {e : Entry} (h : LStands expected mod maps ts s st fs)
    (hl : s.c.look = some e) :
    LStands expected mod maps ts
      ⟨{ s.c with stack := e :: s.c.stack, look := none }, ⟨s.look, s.look⟩ :: s.spans, s.look⟩
      st fs := by
  obtain ⟨f, σ, us, vs, rfl, rfl, hlook, hsp, he⟩ := h
  rw [hl] at hlook
  obtain ⟨t, hs, rfl, rfl⟩ := hlook
  refine ⟨[], ⟨tokenVal t, s.look, s.look⟩ :: σ, us ++ t.toList.map (fun t => (s.look, t)), [],
    rfl, by simp, ⟨rfl, rfl⟩, by rw [hsp]; rfl, ?_⟩
  simp only [List.map_cons]
  refine .cons he ?_
  rw [hs]
  cases t with
  | none => exact ⟨rfl, none, rfl, rfl, rfl, rfl⟩
  | some t => exact ⟨rfl, some t, rfl, rfl, rfl, rfl⟩

theorem LStands.reduce {r : Rule} {w v} (h : LStands expected mod maps ts s st fs)
    (hf : s.c.fits r = true)
    (he : evalAll expected (spanOf r.rhs.length s.spans).first
        (((fs.drop s.c.look.toList.length).take
        (r.before.length + r.rhs.length)).reverse) r.action ⟨st, .none⟩ = some ⟨st', w⟩)
    (hl : c'.look = s.c.look) (hs : c'.stack = ⟨.n r.lhs, v⟩ :: s.c.stack.drop r.rhs.length) :
    LStands expected mod maps ts
      ⟨c', spanOf r.rhs.length s.spans :: s.spans.drop r.rhs.length, s.look⟩ st'
      (fs.take s.c.look.toList.length ++
        w :: (fs.drop s.c.look.toList.length).drop r.rhs.length) := by
  obtain ⟨f, σ, us, vs, rfl, rfl, hlook, hsp, hex⟩ := h
  obtain ⟨B, P, S, hst, hB, hP, hr, hfirst⟩ := fits_split hf
  rw [← hlook.length] at he ⊢
  rw [List.drop_left] at he ⊢
  rw [List.take_left]
  rw [hst, List.map_append, List.map_reverse, hP] at hex
  obtain ⟨vals, σ₁, st₀, us₀, us₁, rfl, hlen, rfl, h₀, h₁⟩ := hex.split
  rw [List.reverse_reverse] at h₁
  rw [List.length_reverse] at hlen
  rw [List.map_append, List.map_reverse, hB] at h₀
  obtain ⟨bvals, σ₂, _, _, _, rfl, hblen, -, -, -⟩ := h₀.split
  rw [List.length_reverse] at hblen
  have e₁ : (((vals.reverse ++ (bvals.reverse ++ σ₂)).map Placed.v).take
      (r.before.length + r.rhs.length)).reverse = (bvals ++ vals).map Placed.v := by
    rw [← List.append_assoc, List.map_append, List.take_left' (by simp; omega),
      ← List.map_reverse, List.reverse_append, List.reverse_reverse, List.reverse_reverse]
  have e₂ : ((vals.reverse ++ (bvals.reverse ++ σ₂)).map Placed.v).drop r.rhs.length =
      (bvals.reverse ++ σ₂).map Placed.v := by
    rw [List.map_append]
    exact List.drop_left' (by simp; omega)
  have e₃ := spanOf_map vals (bvals.reverse ++ σ₂)
  rw [hlen, ← hsp] at e₃
  rw [e₁, e₃] at he
  rw [e₂, e₃]
  have hseg := rules_lkeep hr hblen h₁ he
  refine ⟨f, ⟨w, firstLine vals (bvals.reverse ++ σ₂), lastLine vals (bvals.reverse ++ σ₂)⟩ ::
    (bvals.reverse ++ σ₂), us₀ ++ us₁, vs, rfl, rfl, ?_, ?_, ?_⟩
  · simp only [hl]; exact hlook
  · rw [hsp, List.map_append, List.drop_left' (by simp; omega)]; rfl
  · simp only [hs]
    rw [hst, List.drop_left' (by simp [← hP]), List.map_cons, List.map_append,
      List.map_reverse, hB]
    exact .cons h₀ hseg

end Lr
end Selint
