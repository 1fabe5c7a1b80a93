import Verif.Lemmas.LrRuns
/-!
# The parser's moves for words, lists, ranges, contexts and conditions
-/

namespace Selint
open Lr

variable {e : PlainFlavor} {σ : List Entry} {ms : MState} {t : Sptables} {ts : List Token}
  {c' : Config}

namespace Lr

theorem token_of {s : Str} {a : Addr} {m' : Mem} (h : ms.mem.malloc (.bytes s) = (a, m')) :
    ms.token s = (a, { ms with mem := m' }) := by
  simp only [MState.token, h]

theorem value_ok {α : Type} {f : Mem → Res (α × Mem)} {a : α} {ms' : MState}
    (h : ms.value f = .ok (a, ms')) : ∃ m', f ms.mem = .ok (a, m') ∧ ms' = { ms with mem := m' } := by
  obtain ⟨⟨b, m'⟩, h₁, h₂⟩ := Res.bind_eq_ok h
  cases h₂
  exact ⟨m', h₁, rfl⟩

theorem quiet_ok {f : Mem → Res Mem} {ms' : MState} (h : ms.quiet f = .ok ms') :
    ∃ m', f ms.mem = .ok m' ∧ ms' = { ms with mem := m' } := by
  obtain ⟨m', h₁, h₂⟩ := Res.bind_eq_ok h
  cases h₂
  exact ⟨m', h₁, rfl⟩

end Lr

/-! ## Lists -/

theorem SlItem.steps (i : SlItem) {a : Addr} {m' : Mem} (h : i.build ms.mem = .ok (a, m'))
    (k : Run ⟨e, ⟨.n .slItem, .str a⟩ :: σ, none, { ms with mem := m' }, t⟩ ts c') :
    Run ⟨e, σ, none, ms, t⟩ (i.tokens ++ ts) c' := by
  cases i with
  | word s =>
    simp only [SlItem.build, Res.ok.injEq] at h
    refine Run.shiftStr (token_of h) rfl ?_
    refine Run.red1 (lhs := .slItem) (act := [.copy 1]) 0 _ t _
      (by decide) rfl ?_
    exact k
  | minus s =>
    rcases hm : ms.mem.malloc (.bytes s) with ⟨a₀, m₀⟩
    simp only [SlItem.build, hm] at h
    replace h : minusString m₀ a₀ = .ok (a, m') := h
    refine Run.shift rfl (Run.shiftStr (token_of hm) rfl ?_)
    refine Run.red2 (lhs := .slItem) (act := [.minus 2]) 0 { ms with mem := m' } t (.str a)
      (by decide) (by action [h]) ?_
    exact k
  | quoted s =>
    simp only [SlItem.build, Res.ok.injEq] at h
    refine Run.shiftStr (token_of h) rfl ?_
    refine Run.red1 (lhs := .slItem) (act := [.copy 1]) 0 _ t _
      (by decide) rfl ?_
    exact k

theorem XItem.steps (i : XItem) {a : Addr} {m' : Mem} (h : i.build ms.mem = .ok (a, m'))
    (k : Run ⟨e, ⟨.n .xpermItem, .str a⟩ :: σ, none, { ms with mem := m' }, t⟩ ts c') :
    Run ⟨e, σ, none, ms, t⟩ (i.tokens ++ ts) c' := by
  cases i with
  | word s =>
    simp only [XItem.build, Res.ok.injEq] at h
    refine Run.shiftStr (token_of h) rfl ?_
    refine Run.red1 (lhs := .xpermItem) (act := [.copy 1]) 0 _ t _
      (by decide) rfl ?_
    exact k
  | numString s =>
    simp only [XItem.build, Res.ok.injEq] at h
    refine Run.shiftStr (token_of h) rfl ?_
    refine Run.red1 (lhs := .xpermItem) (act := [.copy 1]) 0 _ t _
      (by decide) rfl ?_
    exact k
  | number s =>
    simp only [XItem.build, Res.ok.injEq] at h
    refine Run.shiftStr (token_of h) rfl ?_
    refine Run.red1 (lhs := .xpermItem) (act := [.copy 1]) 0 _ t _
      (by decide) rfl ?_
    exact k
  | dash =>
    simp only [XItem.build, Res.ok.injEq] at h
    refine Run.shift rfl ?_
    refine Run.red1 (lhs := .xpermItem) (act := [.text cs!"-"]) 0 { ms with mem := m' } t (.str a)
      (by decide) (by action [h]) ?_
    exact k

theorem appendSlItems_steps (is : List SlItem) {ms : MState} {p q : Option Addr} {m' : Mem}
    (h : Mem.appendWords SlItem.build is ms.mem p = .ok (q, m'))
    (k : Run ⟨e, ⟨.n .strings, .list q⟩ :: σ, none, { ms with mem := m' }, t⟩ ts c') :
    Run ⟨e, ⟨.n .strings, .list p⟩ :: σ, none, ms, t⟩ (is.flatMap SlItem.tokens ++ ts) c' := by
  induction is generalizing ms p with
  | nil =>
    cases h
    exact k
  | cons i is ih =>
    simp only [Mem.appendWords] at h
    obtain ⟨⟨w, m₁⟩, h₁, h⟩ := Res.bind_eq_ok h
    obtain ⟨⟨l, m₂⟩, h₂, h⟩ := Res.bind_eq_ok h
    rw [List.flatMap_cons, List.append_assoc]
    refine i.steps h₁ ?_
    refine Run.red2 (lhs := .strings) (act := [.append 1 2]) 0 { ms with mem := m₂ } t (.list l)
      (by decide) (by action [h₂]) ?_
    exact ih (ms := { ms with mem := m₂ }) h k

theorem slItems_steps (i : SlItem) (is : List SlItem) {q : Option Addr} {m' : Mem}
    (h : Mem.buildWords SlItem.build i is ms.mem = .ok (q, m'))
    (k : Run ⟨e, ⟨.n .strings, .list q⟩ :: σ, none, { ms with mem := m' }, t⟩ ts c') :
    Run ⟨e, σ, none, ms, t⟩ (i.tokens ++ (is.flatMap SlItem.tokens ++ ts)) c' := by
  simp only [Mem.buildWords] at h
  obtain ⟨⟨w, m₁⟩, h₁, h⟩ := Res.bind_eq_ok h
  rcases h₂ : m₁.slFromStrConsume (some w) with ⟨p, m₂⟩
  simp only [h₂] at h
  refine i.steps h₁ ?_
  refine Run.red1 (lhs := .strings) (act := [.consume 1]) 0 { ms with mem := m₂ } t (.list (some p))
    (by decide) (by action [h₂]) ?_
  exact appendSlItems_steps is (ms := { ms with mem := m₂ }) h k

theorem appendXItems_steps (is : List XItem) {ms : MState} {p q : Option Addr} {m' : Mem}
    (h : Mem.appendWords XItem.build is ms.mem p = .ok (q, m'))
    (k : Run ⟨e, ⟨.n .xpermItems, .list q⟩ :: σ, none, { ms with mem := m' }, t⟩ ts c') :
    Run ⟨e, ⟨.n .xpermItems, .list p⟩ :: σ, none, ms, t⟩ (is.flatMap XItem.tokens ++ ts) c' := by
  induction is generalizing ms p with
  | nil =>
    cases h
    exact k
  | cons i is ih =>
    simp only [Mem.appendWords] at h
    obtain ⟨⟨w, m₁⟩, h₁, h⟩ := Res.bind_eq_ok h
    obtain ⟨⟨l, m₂⟩, h₂, h⟩ := Res.bind_eq_ok h
    rw [List.flatMap_cons, List.append_assoc]
    refine i.steps h₁ ?_
    refine Run.red2 (lhs := .xpermItems) (act := [.append 1 2]) 0 { ms with mem := m₂ } t (.list l)
      (by decide) (by action [h₂]) ?_
    exact ih (ms := { ms with mem := m₂ }) h k

theorem xItems_steps (i : XItem) (is : List XItem) {q : Option Addr} {m' : Mem}
    (h : Mem.buildWords XItem.build i is ms.mem = .ok (q, m'))
    (k : Run ⟨e, ⟨.n .xpermItems, .list q⟩ :: σ, none, { ms with mem := m' }, t⟩ ts c') :
    Run ⟨e, σ, none, ms, t⟩ (i.tokens ++ (is.flatMap XItem.tokens ++ ts)) c' := by
  simp only [Mem.buildWords] at h
  obtain ⟨⟨w, m₁⟩, h₁, h⟩ := Res.bind_eq_ok h
  rcases h₂ : m₁.slFromStrConsume (some w) with ⟨p, m₂⟩
  simp only [h₂] at h
  refine i.steps h₁ ?_
  refine Run.red1 (lhs := .xpermItems) (act := [.consume 1]) 0 { ms with mem := m₂ } t (.list (some p))
    (by decide) (by action [h₂]) ?_
  exact appendXItems_steps is (ms := { ms with mem := m₂ }) h k

theorem appendNames_steps (is : List Str) {ms : MState} {p q : Option Addr} {m' : Mem}
    (h : Mem.appendWords buildToken is ms.mem p = .ok (q, m'))
    (k : Run ⟨e, ⟨.n .commaStringList, .list q⟩ :: σ, none, { ms with mem := m' }, t⟩ ts c') :
    Run ⟨e, ⟨.n .commaStringList, .list p⟩ :: σ, none, ms, t⟩
      (is.flatMap (fun s => [tComma, .string s]) ++ ts) c' := by
  induction is generalizing ms p with
  | nil =>
    cases h
    exact k
  | cons i is ih =>
    simp only [Mem.appendWords] at h
    obtain ⟨⟨w, m₁⟩, h₁, h⟩ := Res.bind_eq_ok h
    obtain ⟨⟨l, m₂⟩, h₂, h⟩ := Res.bind_eq_ok h
    simp only [buildToken, Res.ok.injEq] at h₁
    rw [List.flatMap_cons, List.append_assoc]
    refine Run.shift rfl (Run.shiftStr (token_of h₁) rfl ?_)
    refine Run.red3 (lhs := .commaStringList) (act := [.append 1 3]) 0 { ms with mem := m₂ } t (.list l)
      (by decide) (by action [h₂]) ?_
    exact ih (ms := { ms with mem := m₂ }) h k

theorem CommaList.steps (l : CommaList) {q : Option Addr} {ms' : MState}
    (h : ms.value l.build = .ok (q, ms'))
    (k : Run ⟨e, ⟨.n .commaStringList, .list q⟩ :: σ, none, ms', t⟩ ts c') :
    Run ⟨e, σ, none, ms, t⟩ (l.tokens ++ ts) c' := by
  obtain ⟨m', h₀, rfl⟩ := value_ok h
  simp only [CommaList.build, Mem.buildWords] at h₀
  obtain ⟨⟨w, m₁⟩, h₁, h⟩ := Res.bind_eq_ok h₀
  rcases h₂ : m₁.slFromStrConsume (some w) with ⟨p, m₂⟩
  simp only [h₂] at h
  simp only [buildToken, Res.ok.injEq] at h₁
  refine Run.shiftStr (token_of h₁) rfl ?_
  refine Run.red1 (lhs := .commaStringList) (act := [.consume 1]) 0 { ms with mem := m₂ } t (.list (some p))
    (by decide) (by action [h₂]) ?_
  exact appendNames_steps l.rest (ms := { ms with mem := m₂ }) h k

theorem SList.buildSteps (l : SList) {e : PlainFlavor} {σ : List Entry} {ms : MState} {t : Sptables}
    {ts : List Token} {c' : Config} {q : Option Addr} {m' : Mem}
    (h : l.build ms.mem = .ok (q, m'))
    (k : Run ⟨e, ⟨.n .stringList, .list q⟩ :: σ, none, { ms with mem := m' }, t⟩ ts c') :
    Run ⟨e, σ, none, ms, t⟩ (l.tokens ++ ts) c' := by
  induction l generalizing σ ts q m' with
  | braces i is =>
    simp only [SList.tokens, List.append_assoc, List.cons_append, List.nil_append]
    refine Run.shift rfl (slItems_steps i is h (Run.shift rfl ?_))
    refine Run.red3 (lhs := .stringList) (act := [.copy 2]) 0 _ t _
      (by decide) rfl ?_
    exact k
  | tilda l ih =>
    simp only [SList.build] at h
    obtain ⟨⟨p, m₁⟩, h₁, h⟩ := Res.bind_eq_ok h
    refine Run.shift rfl (ih h₁ ?_)
    refine Run.red2 (lhs := .stringList) (act := [.tilda 2]) 0 { ms with mem := m' } t (.list q)
      (by decide) (by action [h]) ?_
    exact k
  | item i =>
    simp only [SList.build] at h
    obtain ⟨⟨w, m₁⟩, h₁, h⟩ := Res.bind_eq_ok h
    cases h
    refine i.steps h₁ ?_
    refine Run.red1 (lhs := .stringList) (act := [.consume 1]) 0 _ t _
      (by decide) rfl ?_
    exact k
  | star =>
    cases h
    refine Run.shift rfl ?_
    refine Run.red1 (lhs := .stringList) (act := [.single cs!"*"]) 0 _ t _
      (by decide) rfl ?_
    exact k

theorem SList.steps (l : SList) {q : Option Addr} {ms' : MState}
    (h : ms.value l.build = .ok (q, ms'))
    (k : Run ⟨e, ⟨.n .stringList, .list q⟩ :: σ, none, ms', t⟩ ts c') :
    Run ⟨e, σ, none, ms, t⟩ (l.tokens ++ ts) c' := by
  obtain ⟨m', h₀, rfl⟩ := value_ok h
  exact l.buildSteps h₀ k

theorem XList.buildSteps (l : XList) {e : PlainFlavor} {σ : List Entry} {ms : MState} {t : Sptables}
    {ts : List Token} {c' : Config} {q : Option Addr} {m' : Mem}
    (h : l.build ms.mem = .ok (q, m'))
    (k : Run ⟨e, ⟨.n .xpermList, .list q⟩ :: σ, none, { ms with mem := m' }, t⟩ ts c') :
    Run ⟨e, σ, none, ms, t⟩ (l.tokens ++ ts) c' := by
  induction l generalizing σ ts q m' with
  | braces i is =>
    simp only [XList.tokens, List.append_assoc, List.cons_append, List.nil_append]
    refine Run.shift rfl (xItems_steps i is h (Run.shift rfl ?_))
    refine Run.red3 (lhs := .xpermList) (act := [.copy 2]) 0 _ t _
      (by decide) rfl ?_
    exact k
  | tilda l ih =>
    simp only [XList.build] at h
    obtain ⟨⟨p, m₁⟩, h₁, h⟩ := Res.bind_eq_ok h
    refine Run.shift rfl (ih h₁ ?_)
    refine Run.red2 (lhs := .xpermList) (act := [.tilda 2]) 0 { ms with mem := m' } t (.list q)
      (by decide) (by action [h]) ?_
    exact k
  | item i =>
    simp only [XList.build] at h
    obtain ⟨⟨w, m₁⟩, h₁, h⟩ := Res.bind_eq_ok h
    cases h
    refine i.steps h₁ ?_
    refine Run.red1 (lhs := .xpermList) (act := [.consume 1]) 0 _ t _
      (by decide) rfl ?_
    exact k

theorem XList.steps (l : XList) {q : Option Addr} {ms' : MState}
    (h : ms.value l.build = .ok (q, ms'))
    (k : Run ⟨e, ⟨.n .xpermList, .list q⟩ :: σ, none, ms', t⟩ ts c') :
    Run ⟨e, σ, none, ms, t⟩ (l.tokens ++ ts) c' := by
  obtain ⟨m', h₀, rfl⟩ := value_ok h
  exact l.buildSteps h₀ k

/-! ## Arguments -/

theorem Arg.steps (a : Arg) {q : Option Addr} {m' : Mem} (h : a.build ms.mem = .ok (q, m'))
    (k : Run ⟨e, ⟨.n .arg, .list q⟩ :: σ, none, { ms with mem := m' }, t⟩ ts c') :
    Run ⟨e, σ, none, ms, t⟩ (a.tokens ++ ts) c' := by
  cases a with
  | xperm l =>
    refine l.buildSteps h ?_
    refine Run.red1 (lhs := .arg) (act := [.copy 1]) 0 _ t _
      (by decide) rfl ?_
    exact k
  | quoted s =>
    rcases hm : ms.mem.malloc (.bytes s) with ⟨a₀, m₀⟩
    rcases h₂ : m₀.slFromStrConsume (some a₀) with ⟨p, m₂⟩
    simp only [Arg.build, hm, h₂] at h
    cases h
    refine Run.shiftStr (token_of hm) rfl ?_
    refine Run.red1 (lhs := .arg) (act := [.consume 1]) 0 { ms with mem := m' } t (.list (some p))
      (by decide) (by action [h₂]) ?_
    exact k
  | words i is =>
    simp only [Arg.tokens, List.append_assoc, List.cons_append, List.nil_append]
    refine Run.shift rfl (slItems_steps i is h (Run.shift rfl ?_))
    refine Run.red3 (lhs := .arg) (act := [.copy 2]) 0 _ t _
      (by decide) rfl ?_
    exact k
  | empty =>
    cases h
    refine Run.shift rfl (Run.shift rfl ?_)
    refine Run.red2 (lhs := .arg) (act := [.single []]) 0 _ t _
      (by decide) rfl ?_
    exact k

theorem appendArgs_steps (cs : List ArgCont) {ms : MState} {p q : Option Addr} {m' : Mem}
    (h : appendArgs cs ms.mem p = .ok (q, m'))
    (k : Run ⟨e, ⟨.n .args, .list q⟩ :: σ, none, { ms with mem := m' }, t⟩ ts c') :
    Run ⟨e, ⟨.n .args, .list p⟩ :: σ, none, ms, t⟩ (cs.flatMap ArgCont.tokens ++ ts) c' := by
  induction cs generalizing ms p with
  | nil =>
    cases h
    exact k
  | cons c cs ih =>
    simp only [appendArgs] at h
    obtain ⟨⟨l, m₂⟩, h₁, h₀⟩ := Res.bind_eq_ok h
    rw [List.flatMap_cons, List.append_assoc]
    cases c with
    | comma a =>
      simp only [ArgCont.append] at h₁
      obtain ⟨⟨w, m₁⟩, h₁, h₂⟩ := Res.bind_eq_ok h₁
      refine Run.shift rfl (a.steps h₁ ?_)
      refine Run.red3 (lhs := .args) (act := [.concat 1 3]) 0 { ms with mem := m₂ } t (.list l)
        (by decide) (by action [h₂]) ?_
      exact ih (ms := { ms with mem := m₂ }) h₀ k
    | space i =>
      simp only [ArgCont.append] at h₁
      obtain ⟨⟨w, m₁⟩, h₁, h₂⟩ := Res.bind_eq_ok h₁
      replace h₂ : appendSpace m₁ p w = .ok (l, m₂) := h₂
      refine i.steps h₁ ?_
      refine Run.red2 (lhs := .args) (act := [.space 1 2]) 0 { ms with mem := m₂ } t (.list l)
        (by decide) (by action [h₂]) ?_
      exact ih (ms := { ms with mem := m₂ }) h₀ k

theorem Args.steps (a : Args) {q : Option Addr} {ms' : MState}
    (h : ms.value a.build = .ok (q, ms'))
    (k : Run ⟨e, ⟨.n .args, .list q⟩ :: σ, none, ms', t⟩ ts c') :
    Run ⟨e, σ, none, ms, t⟩ (a.tokens ++ ts) c' := by
  obtain ⟨m', h₀, rfl⟩ := value_ok h
  simp only [Args.build] at h₀
  obtain ⟨⟨p, m₁⟩, h₁, h₂⟩ := Res.bind_eq_ok h₀
  simp only [Args.tokens, List.append_assoc]
  refine a.first.steps h₁ ?_
  refine Run.red1 (lhs := .args) (act := [.copy 1]) 0 _ t _
    (by decide) rfl ?_
  exact appendArgs_steps a.rest (ms := { ms with mem := m₁ }) h₂ k

/-! ## Ranges -/

theorem MlsComponent.steps (c : MlsComponent) {a : Addr} {m' : Mem}
    (h : c.build ms.mem = .ok (a, m'))
    (k : Run ⟨e, ⟨.n .mlsComponent, .str a⟩ :: σ, none, { ms with mem := m' }, t⟩ ts c') :
    Run ⟨e, σ, none, ms, t⟩ (c.tokens ++ ts) c' := by
  cases c with
  | one s =>
    rcases hm : ms.mem.malloc (.bytes s) with ⟨a₀, m₀⟩
    simp only [MlsComponent.build, hm] at h
    replace h : dupString m₀ a₀ = .ok (a, m') := h
    refine Run.shiftStr (token_of hm) rfl ?_
    refine Run.red1 (lhs := .mlsComponent) (act := [.dup 1]) 0 { ms with mem := m' } t (.str a)
      (by decide) (by action [h]) ?_
    exact k
  | dotted s u =>
    rcases hm : ms.mem.malloc (.bytes s) with ⟨a₀, m₀⟩
    rcases hn : m₀.malloc (.bytes u) with ⟨a₁, m₁⟩
    simp only [MlsComponent.build, hm, hn] at h
    refine Run.shiftStr (token_of hm) rfl (Run.shift rfl (Run.shiftStr (token_of hn) rfl ?_))
    refine Run.red3 (lhs := .mlsComponent) (act := [.join '.' 1 3]) 0 { ms with mem := m' } t (.str a)
      (by decide) (by action [h]) ?_
    exact k

theorem MlsLevel.steps (l : MlsLevel) {a : Addr} {m' : Mem} (h : l.build ms.mem = .ok (a, m'))
    (k : Run ⟨e, ⟨.n .mlsLevel, .str a⟩ :: σ, none, { ms with mem := m' }, t⟩ ts c') :
    Run ⟨e, σ, none, ms, t⟩ (l.tokens ++ ts) c' := by
  cases l with
  | one c =>
    refine c.steps h ?_
    refine Run.red1 (lhs := .mlsLevel) (act := [.copy 1]) 0 _ t _
      (by decide) rfl ?_
    exact k
  | pair c d =>
    simp only [MlsLevel.build] at h
    obtain ⟨⟨p, m₁⟩, h₁, h⟩ := Res.bind_eq_ok h
    obtain ⟨⟨q, m₂⟩, h₂, h⟩ := Res.bind_eq_ok h
    simp only [MlsLevel.tokens, List.append_assoc, List.cons_append]
    refine c.steps h₁ (Run.shift rfl (d.steps h₂ ?_))
    refine Run.red3 (lhs := .mlsLevel) (act := [.join ':' 1 3]) 0 { ms with mem := m' } t (.str a)
      (by decide) (by action [h]) ?_
    exact k

theorem MlsRange.buildSteps (r : MlsRange) {a : Addr} {m' : Mem} (h : r.build ms.mem = .ok (a, m'))
    (k : Run ⟨e, ⟨.n .mlsRange, .str a⟩ :: σ, none, { ms with mem := m' }, t⟩ ts c') :
    Run ⟨e, σ, none, ms, t⟩ (r.tokens ++ ts) c' := by
  cases r with
  | one c =>
    refine c.steps h ?_
    refine Run.red1 (lhs := .mlsRange) (act := [.copy 1]) 0 _ t _
      (by decide) rfl ?_
    exact k
  | range c d =>
    simp only [MlsRange.build] at h
    obtain ⟨⟨p, m₁⟩, h₁, h⟩ := Res.bind_eq_ok h
    obtain ⟨⟨q, m₂⟩, h₂, h⟩ := Res.bind_eq_ok h
    simp only [MlsRange.tokens, List.append_assoc, List.cons_append]
    refine c.steps h₁ (Run.shift rfl (d.steps h₂ ?_))
    refine Run.red3 (lhs := .mlsRange) (act := [.join '-' 1 3]) 0 { ms with mem := m' } t (.str a)
      (by decide) (by action [h]) ?_
    exact k

theorem MlsRange.steps (r : MlsRange) {a : Addr} {ms' : MState}
    (h : ms.value r.build = .ok (a, ms'))
    (k : Run ⟨e, ⟨.n .mlsRange, .str a⟩ :: σ, none, ms', t⟩ ts c') :
    Run ⟨e, σ, none, ms, t⟩ (r.tokens ++ ts) c' := by
  obtain ⟨m', h₀, rfl⟩ := value_ok h
  exact r.buildSteps h₀ k

/-! ## Contexts, conditions, m4 text -/

theorem RawContext.steps (c : RawContext) {m' : Mem} (h : c.run ms.mem = .ok m')
    (k : Run ⟨e, ⟨.n .rawContext, .none⟩ :: σ, none, { ms with mem := m' }, t⟩ ts c') :
    Run ⟨e, σ, none, ms, t⟩ (c.tokens ++ ts) c' := by
  rcases c with ⟨u, r, ty, range⟩
  rcases hu : ms.mem.malloc (.bytes u) with ⟨a, m₁⟩
  rcases hr : m₁.malloc (.bytes r) with ⟨b, m₂⟩
  rcases ht : m₂.malloc (.bytes ty) with ⟨d, m₃⟩
  cases range with
  | none =>
    simp only [RawContext.run, hu, hr, ht] at h
    obtain ⟨m₄, h₄, h⟩ := Res.bind_eq_ok h
    obtain ⟨m₅, h₅, h⟩ := Res.bind_eq_ok h
    refine Run.shiftStr (token_of hu) rfl (Run.shift rfl (Run.shiftStr (token_of hr) rfl
      (Run.shift rfl (Run.shiftStr (token_of ht) rfl ?_))))
    refine Run.red5 (lhs := .rawContext) (act := [.free 1, .free 3, .free 5]) 0 { ms with mem := m' } t .none
      (by decide) (by action [MState.free, h₄, h₅, h]) ?_
    exact k
  | some g =>
    simp only [RawContext.run, hu, hr, ht] at h
    obtain ⟨⟨w, m₄⟩, hg, h⟩ := Res.bind_eq_ok h
    obtain ⟨m₅, h₅, h⟩ := Res.bind_eq_ok h
    obtain ⟨m₆, h₆, h⟩ := Res.bind_eq_ok h
    obtain ⟨m₇, h₇, h⟩ := Res.bind_eq_ok h
    refine Run.shiftStr (token_of hu) rfl (Run.shift rfl (Run.shiftStr (token_of hr) rfl
      (Run.shift rfl (Run.shiftStr (token_of ht) rfl (Run.shift rfl (g.buildSteps hg ?_))))))
    refine Run.red7 (lhs := .rawContext) (act := [.free 1, .free 3, .free 5, .free 7]) 0 { ms with mem := m' } t .none
      (by decide) (by action [MState.free, h₅, h₆, h₇, h]) ?_
    exact k

theorem Context.steps (c : Context) {m' : Mem} (h : c.run ms.mem = .ok m')
    (k : Run ⟨e, ⟨.n .context, .none⟩ :: σ, none, { ms with mem := m' }, t⟩ ts c') :
    Run ⟨e, σ, none, ms, t⟩ (c.tokens ++ ts) c' := by
  cases c with
  | raw c =>
    refine c.steps h ?_
    refine Run.red1 (lhs := .context) (act := []) 0 _ t _
      (by decide) rfl ?_
    exact k
  | gen c =>
    simp only [Context.tokens, List.append_assoc, List.cons_append, List.nil_append]
    refine Run.shift rfl (Run.shift rfl (c.steps h (Run.shift rfl ?_)))
    refine Run.red4 (lhs := .context) (act := []) 0 _ t _
      (by decide) rfl ?_
    exact k
  | gen1 c r =>
    simp only [Context.run] at h
    obtain ⟨m₁, h₁, h⟩ := Res.bind_eq_ok h
    obtain ⟨⟨a, m₂⟩, h₂, h⟩ := Res.bind_eq_ok h
    simp only [Context.tokens, List.append_assoc, List.cons_append, List.nil_append]
    refine Run.shift rfl (Run.shift rfl (c.steps h₁ (Run.shift rfl (r.buildSteps h₂
      (Run.shift rfl ?_)))))
    refine Run.red6 (lhs := .context) (act := [.free 5]) 0 { ms with mem := m' } t .none
      (by decide) (by action [MState.free, h]) ?_
    exact k
  | gen2 c r s =>
    simp only [Context.run] at h
    obtain ⟨m₁, h₁, h⟩ := Res.bind_eq_ok h
    obtain ⟨⟨a, m₂⟩, h₂, h⟩ := Res.bind_eq_ok h
    obtain ⟨⟨b, m₃⟩, h₃, h⟩ := Res.bind_eq_ok h
    obtain ⟨m₄, h₄, h⟩ := Res.bind_eq_ok h
    simp only [Context.tokens, List.append_assoc, List.cons_append, List.nil_append]
    refine Run.shift rfl (Run.shift rfl (c.steps h₁ (Run.shift rfl (r.buildSteps h₂
      (Run.shift rfl (s.buildSteps h₃ (Run.shift rfl ?_)))))))
    refine Run.red8 (lhs := .context) (act := [.free 5, .free 7]) 0 { ms with mem := m' } t .none
      (by decide) (by action [MState.free, h₄, h]) ?_
    exact k
  | gen3 c r =>
    simp only [Context.run] at h
    obtain ⟨m₁, h₁, h⟩ := Res.bind_eq_ok h
    obtain ⟨⟨a, m₂⟩, h₂, h⟩ := Res.bind_eq_ok h
    simp only [Context.tokens, List.append_assoc, List.cons_append, List.nil_append]
    refine Run.shift rfl (Run.shift rfl (c.steps h₁ (Run.shift rfl (r.buildSteps h₂
      (Run.shift rfl (Run.shift rfl ?_))))))
    refine Run.red7 (lhs := .context) (act := [.free 5]) 0 { ms with mem := m' } t .none
      (by decide) (by action [MState.free, h]) ?_
    exact k

theorem Condition.steps (c : Condition) {e : PlainFlavor} {σ : List Entry} {ms : MState}
    {t : Sptables} {ts : List Token} {c' : Config} {m' : Mem} (h : c.run ms.mem = .ok m')
    (k : Run ⟨e, ⟨.n .condition, .none⟩ :: σ, none, { ms with mem := m' }, t⟩ ts c') :
    Run ⟨e, σ, none, ms, t⟩ (c.tokens ++ ts) c' := by
  induction c generalizing σ ts ms m' with
  | name s =>
    rcases hm : ms.mem.malloc (.bytes s) with ⟨a₀, m₀⟩
    simp only [Condition.run, Mem.dropToken, hm] at h
    refine Run.shiftStr (token_of hm) rfl ?_
    refine Run.red1 (lhs := .condition) (act := [.free 1]) 0 { ms with mem := m' } t .none
      (by decide) (by action [MState.free, h]) ?_
    exact k
  | not c ih =>
    refine Run.shift rfl (ih h ?_)
    refine Run.red2 (lhs := .condition) (act := []) 0 _ t _
      (by decide) rfl ?_
    exact k
  | and c d ihc ihd =>
    simp only [Condition.run] at h
    obtain ⟨m₁, h₁, h⟩ := Res.bind_eq_ok h
    simp only [Condition.tokens, List.append_assoc, List.cons_append]
    refine ihc h₁ (Run.shift rfl (ihd h ?_))
    refine Run.red3 (lhs := .condition) (act := []) 0 _ t _
      (by decide) rfl ?_
    exact k
  | or c d ihc ihd =>
    simp only [Condition.run] at h
    obtain ⟨m₁, h₁, h⟩ := Res.bind_eq_ok h
    simp only [Condition.tokens, List.append_assoc, List.cons_append]
    refine ihc h₁ (Run.shift rfl (ihd h ?_))
    refine Run.red3 (lhs := .condition) (act := []) 0 _ t _
      (by decide) rfl ?_
    exact k
  | xor c d ihc ihd =>
    simp only [Condition.run] at h
    obtain ⟨m₁, h₁, h⟩ := Res.bind_eq_ok h
    simp only [Condition.tokens, List.append_assoc, List.cons_append]
    refine ihc h₁ (Run.shift rfl (ihd h ?_))
    refine Run.red3 (lhs := .condition) (act := []) 0 _ t _
      (by decide) rfl ?_
    exact k
  | equal c d ihc ihd =>
    simp only [Condition.run] at h
    obtain ⟨m₁, h₁, h⟩ := Res.bind_eq_ok h
    simp only [Condition.tokens, List.append_assoc, List.cons_append]
    refine ihc h₁ (Run.shift rfl (ihd h ?_))
    refine Run.red3 (lhs := .condition) (act := []) 0 _ t _
      (by decide) rfl ?_
    exact k
  | notEqual c d ihc ihd =>
    simp only [Condition.run] at h
    obtain ⟨m₁, h₁, h⟩ := Res.bind_eq_ok h
    simp only [Condition.tokens, List.append_assoc, List.cons_append]
    refine ihc h₁ (Run.shift rfl (ihd h ?_))
    refine Run.red3 (lhs := .condition) (act := []) 0 _ t _
      (by decide) rfl ?_
    exact k
  | paren c ih =>
    simp only [Condition.tokens, List.append_assoc, List.cons_append, List.nil_append]
    refine Run.shift rfl (ih h (Run.shift rfl ?_))
    refine Run.red3 (lhs := .condition) (act := []) 0 _ t _
      (by decide) rfl ?_
    exact k

theorem M4Elem.steps (x : M4Elem) {m' : Mem} (h : x.run ms.mem = .ok m')
    (k : Run ⟨e, ⟨.n .m4StringElem, .none⟩ :: σ, none, { ms with mem := m' }, t⟩ ts c') :
    Run ⟨e, σ, none, ms, t⟩ (x.token :: ts) c' := by
  cases x with
  | word s =>
    rcases hm : ms.mem.malloc (.bytes s) with ⟨a₀, m₀⟩
    simp only [M4Elem.run, Mem.dropToken, hm] at h
    refine Run.shiftStr (token_of hm) rfl ?_
    refine Run.red1 (lhs := .m4StringElem) (act := [.free 1]) 0 { ms with mem := m' } t .none
      (by decide) (by action [MState.free, h]) ?_
    exact k
  | punct p hp =>
    cases h
    simp only [List.mem_cons, List.not_mem_nil, or_false] at hp
    rcases hp with rfl | rfl | rfl | rfl | rfl | rfl | rfl | rfl | rfl <;>
      exact Run.shift rfl (Run.red1 (act := []) 0 ms t .none (by decide) (by action []) k)

theorem M4String.steps (x : M4String) {e : PlainFlavor} {σ : List Entry} {ms : MState}
    {t : Sptables} {ts : List Token} {c' : Config} {m' : Mem} (h : x.run ms.mem = .ok m')
    (k : Run ⟨e, ⟨.n .arbitraryM4String, .none⟩ :: σ, none, { ms with mem := m' }, t⟩ ts c') :
    Run ⟨e, σ, none, ms, t⟩ (x.tokens ++ ts) c' := by
  induction x generalizing σ ts ms m' with
  | one x =>
    refine x.steps h ?_
    refine Run.red1 (lhs := .arbitraryM4String) (act := []) 0 _ t _
      (by decide) rfl ?_
    exact k
  | more x s ih =>
    simp only [M4String.run] at h
    obtain ⟨m₁, h₁, h⟩ := Res.bind_eq_ok h
    refine x.steps h₁ (ih h ?_)
    refine Run.red2 (lhs := .arbitraryM4String) (act := []) 0 _ t _
      (by decide) rfl ?_
    exact k
  | quoted x =>
    refine Run.shift rfl (x.steps h (Run.shift rfl ?_))
    refine Run.red3 (lhs := .arbitraryM4String) (act := []) 0 _ t _
      (by decide) rfl ?_
    exact k

end Selint
