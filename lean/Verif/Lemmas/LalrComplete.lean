import Verif.Lemmas.LalrConditions
/-!
# The tables lead the parser through every derivation
-/

namespace Selint
namespace Lr

/-- No production mentions the end of the file. -/
theorem rules_no_eof : ∀ r ∈ rules, ∀ s ∈ r.rhs, s ≠ .t .eof := by decide +kernel

/-- Nothing comes before the production of an empty file, and it is empty. -/
theorem rules_first : ∀ r ∈ rules, r.onlyFirst = true → r.rhs = [] := by decide +kernel

/-! ## What a derivation begins with -/

theorem firstSeq_mono {l m : Nat} (h : ∀ a, l.testBit a = true → m.testBit a = true) :
    ∀ (xs : List Nat) (a : Nat), (firstSeq xs l).testBit a = true →
      (firstSeq xs m).testBit a = true
  | [], a, ha => h a ha
  | x :: xs, a, ha => by
    simp only [firstSeq] at ha ⊢
    split at ha
    · rename_i hx
      rw [if_pos hx]
      exact ha
    · rename_i hx
      rw [if_neg hx]
      split at ha
      · exact ha
      · rename_i hf
        simp only [Nat.testBit_or, Bool.or_eq_true] at ha ⊢
        rcases ha with ha | ha
        · exact .inl ha
        · exact .inr (firstSeq_mono h xs a ha)
      · exact ha

theorem firstSeq_zero {l : Nat} {xs : List Nat} {a : Nat} (h : (firstSeq xs 0).testBit a = true) :
    (firstSeq xs l).testBit a = true :=
  firstSeq_mono (fun a ha => by rw [Nat.zero_testBit] at ha; cases ha) xs a h

theorem firstSeq_null {l a : Nat} (ha : l.testBit a = true) : ∀ {xs : List Nat},
    nullSeq xs = true → (firstSeq xs l).testBit a = true
  | [], _ => ha
  | x :: xs, h => by
    simp only [nullSeq, List.all_cons, Bool.and_eq_true, Bool.not_eq_true', decide_eq_false_iff_not] at h
    obtain ⟨⟨hx, hb⟩, hxs⟩ := h
    simp only [firstSeq, if_neg hx]
    split at hb
    · rename_i y b m hf
      subst hb
      simp only [hf, Nat.testBit_or, Bool.or_eq_true]
      exact .inr (firstSeq_null ha hxs)
    · cases hb

theorem firstSeq_cons {x : Nat} {xs : List Nat} {l a : Nat}
    (h : (firstSeq [x] 0).testBit a = true) : (firstSeq (x :: xs) l).testBit a = true := by
  simp only [firstSeq] at h ⊢
  split at h
  · rename_i hx
    rw [if_pos hx]
    exact h
  · rename_i hx
    rw [if_neg hx]
    split at h
    · exact h
    · rename_i hf
      simp only [Nat.or_zero] at h
      simp only [Nat.testBit_or, h, Bool.true_or]
    · exact h

theorem firstSeq_skip {x : Nat} {xs : List Nat} {l a : Nat} (hn : nullSeq [x] = true)
    (h : (firstSeq xs l).testBit a = true) : (firstSeq (x :: xs) l).testBit a = true := by
  simp only [nullSeq, List.all_cons, List.all_nil, Bool.and_true, Bool.and_eq_true,
    Bool.not_eq_true', decide_eq_false_iff_not] at hn
  obtain ⟨hx, hb⟩ := hn
  simp only [firstSeq, if_neg hx]
  split at hb
  · rename_i y b m hf
    subst hb
    simp only [hf, Nat.testBit_or, Bool.or_eq_true]
    exact .inr h
  · cases hb

theorem nullSeq_cons {x : Nat} {xs : List Nat} :
    nullSeq (x :: xs) = (nullSeq [x] && nullSeq xs) := by
  simp [nullSeq]

mutual
theorem Operand.begins : ∀ o : Operand, ∃ t us, o.toks = t :: us ∧
    (firstSeq [condCode] 0).testBit (tokenSym (some t)).code = true
  | .str s => ⟨_, _, rfl, by
      show (firstSeq [condCode] 0).testBit (Sym.code (.t .string)) = true
      decide +kernel⟩
  | .not o => ⟨_, _, rfl, by
      show (firstSeq [condCode] 0).testBit (Sym.code (.t (.p .not))) = true
      decide +kernel⟩
  | .paren c => ⟨_, _, rfl, by
      show (firstSeq [condCode] 0).testBit (Sym.code (.t (.p .openParen))) = true
      decide +kernel⟩
end

theorem Flat.begins (c : Flat) : ∃ t us, c.toks = t :: us ∧
    (firstSeq [condCode] 0).testBit (tokenSym (some t)).code = true := by
  cases c with
  | one o => exact o.begins
  | more o op c =>
    obtain ⟨t, us, h, hb⟩ := o.begins
    exact ⟨t, us ++ .p op.punct :: c.toks, by simp [Flat.toks, h], hb⟩

variable {expected : PlainFlavor}

mutual
/-- The first token of a symbol. -/
theorem Der.first : ∀ {s ss σ st us v st'}, Der expected s ss σ st us v st' → s ≠ .t .eof →
    (us = [] → nullSeq [s.code] = true) ∧ ∀ t us', us = t :: us' →
      (firstSeq [s.code] 0).testBit (tokenSym (some t)).code = true
  | _, _, _, _, _, _, _, .tok t, hne => by
    cases t with
    | none => exact absurd rfl hne
    | some t =>
      refine ⟨nofun, fun t' us' h => ?_⟩
      cases h
      simp only [firstSeq]
      rw [if_pos (by exact Term.code_lt _)]
      simp
  | _, _, _, _, _, _, _, .cond c, _ => by
    obtain ⟨t, us, hc, hb⟩ := c.begins
    refine ⟨fun h => ?_, fun t' us' h => ?_⟩
    · rw [hc] at h; cases h
    · rw [hc] at h
      cases h
      exact hb
  | _, _, _, _, _, _, _, .node (r := r) hr _ _ _ _ hd _, _ => by
    obtain ⟨i, hi⟩ := List.mem_iff_getElem?.1 hr
    obtain ⟨x, b, m, hf, hm, hb⟩ := first_of hi
    have hds := Ders.first hd (rules_no_eof r hr)
    have hx : ¬ (Sym.code (.n r.lhs)) < 100 := Nat.not_lt.2 r.lhs.code_ge
    refine ⟨fun h => ?_, fun t us' h => ?_⟩
    · have := hb (hds.1 h)
      subst this
      have hf' : lalrFirst.find? (·.1 == Sym.code (.n r.lhs)) = some (x, true, m) := hf
      simp [nullSeq, hx, hf']
    · have := bitsIn_testBit hm (hds.2 t us' h)
      have hf' : lalrFirst.find? (·.1 == Sym.code (.n r.lhs)) = some (x, b, m) := hf
      simp only [firstSeq, if_neg hx, hf']
      cases b with
      | true => simpa using this
      | false => exact this
/-- The first token of several symbols. -/
theorem Ders.first : ∀ {xs ss σ st us vs st'}, Ders expected xs ss σ st us vs st' →
    (∀ s ∈ xs, s ≠ .t .eof) →
    (us = [] → nullSeq (xs.map Sym.code) = true) ∧ ∀ t us', us = t :: us' →
      (firstSeq (xs.map Sym.code) 0).testBit (tokenSym (some t)).code = true
  | _, _, _, _, _, _, _, .nil, _ => ⟨fun _ => rfl, nofun⟩
  | _, _, _, _, _, _, _, .cons (us := us) h hs, hne => by
    have h₁ := Der.first h (hne _ (List.mem_cons_self ..))
    have h₂ := Ders.first hs (fun s hm => hne s (List.mem_cons_of_mem _ hm))
    rw [List.map_cons]
    refine ⟨fun he => ?_, fun t us' he => ?_⟩
    · rw [List.append_eq_nil_iff] at he
      rw [nullSeq_cons, h₁.1 he.1, h₂.1 he.2]
      rfl
    · cases us with
      | nil => exact firstSeq_skip (h₁.1 rfl) (h₂.2 t us' he)
      | cons y ys =>
        simp only [List.cons_append, List.cons.injEq] at he
        obtain ⟨rfl, -⟩ := he
        exact firstSeq_cons (h₁.2 y ys rfl)
end

/-- The token after which several symbols, and then others, begin. -/
theorem Ders.next {xs ss σ st us vs st' l} {ts ts' : Located}
    (h : Ders expected xs ss σ st us vs st') (hne : ∀ s ∈ xs, s ≠ .t .eof)
    (ht : ts'.map (·.2) = us) (hl : l.testBit (nextSym ts).code = true) :
    (firstSeq (xs.map Sym.code) l).testBit (nextSym (ts' ++ ts)).code = true := by
  obtain ⟨h₁, h₂⟩ := h.first hne
  cases ts' with
  | nil =>
    exact firstSeq_null hl (h₁ ht.symm)
  | cons x ts' =>
    exact firstSeq_zero (h₂ x.2 _ ht.symm)

/-! ## Following a derivation -/

variable {m₀ : Mem} {mod : Str} {maps : Maps}

/-- The parser reads a symbol that may come next. -/
def DerRuns (m₀ : Mem) (expected : PlainFlavor) (mod : Str) (maps : Maps) (s : Sym)
    (ss : List Sym) (σ : List FVal) (st : PState) (us : List Token) (v : FVal) (st' : PState) :
    Prop :=
  ∀ ⦃stk : List (Nat × Sym)⦄ ⦃ts ts' : Located⦄ ⦃s' : Nat⦄, s ≠ .t .eof → stk.map (·.2) = ss →
    ts'.map (·.2) = us →
    (∀ x, s = .t x → lalrAction (topState stk) x.code = some (.shift s')) →
    (∀ x, s = .n x → lalrGoto (topState stk) x.code = some s') →
    (s = .n .condition → topState stk ∈ condBases ∧
      condFollow.testBit (nextSym ts).code = true) →
    (∀ x, s = .n x → x ≠ .condition → ∀ q r, rules[q]? = some r → r.lhs = x →
      ∃ l, (q, 0, l) ∈ itemsAt (topState stk) ∧ l.testBit (nextSym ts).code = true) →
    Can m₀ expected mod maps stk σ st (ts' ++ ts) ((s', s) :: stk) (v :: σ) st' ts

/-- The parser reads the symbols of a production. -/
def DersRuns (m₀ : Mem) (expected : PlainFlavor) (mod : Str) (maps : Maps) (xs : List Sym)
    (ss : List Sym) (σ : List FVal) (st : PState) (us : List Token) (vs : List FVal)
    (st' : PState) : Prop :=
  ∀ ⦃p d l : Nat⦄ ⦃r : Rule⦄ ⦃stk : List (Nat × Sym)⦄ ⦃ts ts' : Located⦄,
    rules[p]? = some r → r.lhs ≠ .condition → r.rhs.drop d = xs → (∀ s ∈ xs, s ≠ .t .eof) →
    (p, d, l) ∈ itemsAt (topState stk) → stk.map (·.2) = ss → ts'.map (·.2) = us →
    l.testBit (nextSym ts).code = true →
    ∃ ps : List (Nat × Sym), ps.map (·.2) = xs.reverse ∧ vs.length = xs.length ∧
      Can m₀ expected mod maps stk σ st (ts' ++ ts) (ps ++ stk) (vs.reverse ++ σ) st' ts ∧
      ∃ l', (p, d + xs.length, l') ∈ itemsAt (topState (ps ++ stk)) ∧ bitsIn l l' = true

theorem DerRuns.tok {ss σ st} (t : Option Token) :
    DerRuns m₀ expected mod maps (tokenSym t) ss σ st t.toList (tokenVal t) st := by
  intro stk ts ts' s' hne hss ht hsh _ _ _
  cases t with
  | none => exact absurd rfl hne
  | some t =>
    simp only [Option.toList_some, List.map_eq_cons_iff, List.map_eq_nil_iff] at ht
    obtain ⟨⟨line, t'⟩, _, rfl, rfl, rfl⟩ := ht
    exact Can.shift (hsh _ rfl)

theorem DerRuns.cond {ss σ st} (c : Flat) :
    DerRuns m₀ expected mod maps (.n .condition) ss σ st c.toks .none st := by
  intro stk ts ts' s' hne hss ht _ hgo hc _
  obtain ⟨hb, hf⟩ := hc rfl
  have := c.runs (m₀ := m₀) (expected := expected) (mod := mod) (maps := maps) (st := st)
    (σ := σ) [] hb ht hf
  have hg := hgo _ rfl
  have : s' = condGoto (topState stk) := by
    have h' : lalrGoto (topState stk) condCode = some s' := hg
    rw [(base_of (outer_of hb).1).2.2.2] at h'
    exact (Option.some.inj h').symm
  subst this
  assumption

theorem DerRuns.node {r : Rule} {line : Nat} {ss ss' : List Sym} {σ' bvals vals : List FVal}
    {us : List Token} {st st₁ st' : PState} {w : FVal}
    (hr : r ∈ rules) (hnc : r.lhs ≠ .condition) (hb : ss = r.before.reverse ++ ss')
    (hbl : bvals.length = r.before.length) (ho : r.onlyFirst = true → ss = [])
    (hd : DersRuns m₀ expected mod maps r.rhs ss (bvals.reverse ++ σ') st us vals st₁)
    (he : evalAll expected line (bvals ++ vals) r.action ⟨st₁, .none⟩ = some ⟨st', w⟩) :
    DerRuns m₀ expected mod maps (.n r.lhs) ss (bvals.reverse ++ σ') st us w st' := by
  intro stk ts ts' s' hne hss ht _ hgo _ hit
  obtain ⟨q, hq⟩ := List.mem_iff_getElem?.1 hr
  obtain ⟨l, hl, hbit⟩ := hit _ rfl hnc q r hq rfl
  obtain ⟨ps, hps, hvl, hcan, l', hl', hbits⟩ := hd hq hnc (d := 0) rfl (rules_no_eof r hr) hl hss
    ht hbit
  refine hcan.trans (Can.reduce ?_ hq hps (by rw [hss]; exact hb) ?_ hvl hbl (hgo _ rfl) he)
  · refine item_reduce hl' hq hnc ?_ (bitsIn_testBit hbits hbit)
    rw [Nat.zero_add, List.drop_length]
  · intro hof
    have h₁ := ho hof
    rw [← hss, List.map_eq_nil_iff] at h₁
    have h₂ := rules_first r hr hof
    rw [h₂] at hps
    simp only [List.reverse_nil, List.map_eq_nil_iff] at hps
    rw [hps, h₁]
    rfl

theorem DersRuns.nil {ss σ st} : DersRuns m₀ expected mod maps [] ss σ st [] [] st := by
  intro p d l r stk ts ts' hr hc hd hne hi hss ht hl
  rw [List.map_eq_nil_iff] at ht
  subst ht
  exact ⟨[], rfl, rfl, .refl, l, hi, by simp [bitsIn]⟩

theorem DersRuns.cons {s : Sym} {xs ss : List Sym} {σ vs : List FVal} {st st₁ st₂ : PState}
    {us us' : List Token} {v : FVal} (h : DerRuns m₀ expected mod maps s ss σ st us v st₁)
    (hs' : Ders expected xs (s :: ss) (v :: σ) st₁ us' vs st₂)
    (hs : DersRuns m₀ expected mod maps xs (s :: ss) (v :: σ) st₁ us' vs st₂) :
    DersRuns m₀ expected mod maps (s :: xs) ss σ st (us ++ us') (v :: vs) st₂ := by
  intro p d l r stk ts ts' hr hc hd hne hi hss ht hl
  rw [List.map_eq_append_iff] at ht
  obtain ⟨t₁, t₂, rfl, h₁, h₂⟩ := ht
  have hnext := hs'.next (fun s hm => hne s (List.mem_cons_of_mem _ hm)) h₂ hl
  have key : ∃ s' l', (p, d + 1, l') ∈ itemsAt s' ∧ bitsIn l l' = true ∧
      Can m₀ expected mod maps stk σ st (t₁ ++ (t₂ ++ ts)) ((s', s) :: stk) (v :: σ) st₁
        (t₂ ++ ts) := by
    cases s with
    | t x =>
      obtain ⟨s', l', ha, hm, hb⟩ := item_shift hi hr hc hd
      refine ⟨s', l', hm, hb, h (hne _ (List.mem_cons_self ..)) hss h₁ ?_ nofun nofun nofun⟩
      intro y hy
      cases hy
      exact ha
    | n x =>
      obtain ⟨s', l', hg, hm, hb, hcond, hprods⟩ := item_goto hi hr hc hd
      refine ⟨s', l', hm, hb, h (hne _ (List.mem_cons_self ..)) hss h₁ nofun ?_ ?_ ?_⟩
      · intro y hy
        cases hy
        exact hg
      · intro hx
        cases hx
        obtain ⟨h₁, h₂⟩ := hcond rfl
        exact ⟨h₁, bitsIn_testBit h₂ hnext⟩
      · intro y hy hyc q r' hq hl'
        cases hy
        obtain ⟨l'', hm', hb'⟩ := hprods hyc q r' hq hl'
        exact ⟨l'', hm', bitsIn_testBit hb' hnext⟩
  obtain ⟨s', l', hm, hb, hcan⟩ := key
  have hd' : r.rhs.drop (d + 1) = xs := by
    rw [← List.drop_drop, hd]
    rfl
  obtain ⟨ps, hps, hvl, hcan', l'', hm', hb'⟩ := hs (stk := (s', s) :: stk) hr hc hd'
    (fun s hm => hne s (List.mem_cons_of_mem _ hm)) hm (by simp [hss]) h₂ (bitsIn_testBit hb hl)
  refine ⟨ps ++ [(s', s)], by simp [hps], by simp [hvl], ?_, l'', ?_, ?_⟩
  · have := hcan.trans hcan'
    simpa using this
  · rw [List.append_assoc]
    have e : d + (s :: xs).length = d + 1 + xs.length := by simp; omega
    rw [e]
    exact hm'
  · have e₁ := beq_iff_eq.1 hb
    have e₂ := beq_iff_eq.1 hb'
    rw [bitsIn, beq_iff_eq, ← e₁, Nat.and_assoc, e₂]

/-- The parser follows every derivation. -/
theorem Der.runs {s ss σ st us v st'} (h : Der expected s ss σ st us v st') :
    DerRuns m₀ expected mod maps s ss σ st us v st' :=
  Der.rec
    (motive_1 := fun s ss σ st us v st' _ => DerRuns m₀ expected mod maps s ss σ st us v st')
    (motive_2 := fun xs ss σ st us vs st' _ => DersRuns m₀ expected mod maps xs ss σ st us vs st')
    (fun t {_ _ _} => .tok t) (fun c {_ _ _} => .cond c)
    (fun h₁ h₂ h₃ h₄ h₅ _ h₇ ih => .node h₁ h₂ h₃ h₄ h₅ ih h₇) (fun {_ _ _} => DersRuns.nil)
    (fun _ h₂ ih₁ ih₂ => .cons ih₁ h₂ ih₂) h

end Lr
end Selint
