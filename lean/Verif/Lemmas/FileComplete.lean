import Verif.Lemmas.LinesComplete
import Verif.Lemmas.FileSound
/-!
# The parser finds the derivation of a file
-/

namespace Selint

theorem pIfDef_complete (d : IfDef) {ts : Located} (h : d.At ts) (rest : Located) :
    ∃ d', pIfDef (ts ++ rest) = some (d', rest) ∧ d'.plain = d.plain := by
  obtain ⟨line, tpl, name, cmd, body⟩ := d
  simp only [IfDef.At, Located.whole, toks_eq_cons, toks_eq_nil] at h
  obtain ⟨o, q, b, c, rfl, ⟨⟨n1, _, rfl, n2, _, rfl, n3, _, rfl, n4, _, rfl, n5, _, rfl, n6, _, rfl, n7, _, rfl,
    rfl⟩, hf⟩, hq, hb, m1, _, rfl, m2, _, rfl, rfl⟩ := h
  simp [Located.first, Located.lines] at hf
  subst hf
  have e : pIfDef ((n1, .kw (if tpl then .template else .interface)) :: (n2, tOpen) :: (n3, tTick) ::
      (n4, .string name) :: (n5, tQuote) :: (n6, tComma) :: (n7, tTick) ::
      (q ++ (b ++ (m1, tQuote) :: (m2, tClose) :: rest))) = pIfDefBody n1 tpl ((n2, tOpen) :: (n3, tTick) ::
      (n4, .string name) :: (n5, tQuote) :: (n6, tComma) :: (n7, tTick) ::
      (q ++ (b ++ (m1, tQuote) :: (m2, tClose) :: rest))) := by cases tpl <;> rfl
  cases body with
  | none =>
    simp only at hb
    subst hb
    have hc := pCommand_complete (rest := (m1, tQuote) :: (m2, tClose) :: rest) hq (.cons rfl)
    refine ⟨⟨n1, tpl, name, cmd, none⟩, ?_, rfl⟩
    simp only [List.cons_append, List.nil_append, List.append_assoc] at e ⊢
    rw [e]
    simp [pIfDefBody, hc]
  | some body =>
    simp only at hb
    have hs : Starts b.toks := by rw [Lines.at_toks body hb]; exact body.starts
    obtain ⟨ls', h1, h2⟩ := pLines_complete body (rest := (m1, tQuote) :: (m2, tClose) :: rest) hb (.cons rfl)
    have hc := pCommand_complete (rest := b ++ (m1, tQuote) :: (m2, tClose) :: rest) hq hs.headIs
    have hx := hs.expect_none (b := (m1, tQuote) :: (m2, tClose) :: rest) (t := tQuote) rfl
    refine ⟨⟨n1, tpl, name, cmd, some ls'⟩, ?_, by simp [IfDef.plain, h2]⟩
    simp only [List.cons_append, List.nil_append, List.append_assoc] at e ⊢
    rw [e]
    simp [pIfDefBody, hc, hx, h1]

/-- A definition starts with its keyword. -/
theorem IfDef.at_head {d : IfDef} {ts : Located} (h : d.At ts) :
    ∃ n r, ts = (n, .kw (if d.isTemplate then .template else .interface)) :: r := by
  simp only [IfDef.At, Located.whole, toks_eq_cons] at h
  obtain ⟨o, q, b, c, rfl, ⟨⟨n1, r, rfl, _⟩, _⟩, _⟩ := h
  exact ⟨n1, _, rfl⟩

theorem pIfLines_complete (ls : List IfLine) {ts : Located} (h : ifLinesAt ls ts) (n : Nat) (hn : ts.length ≤ n) :
    ∃ ls', pIfLines n ts = some ls' ∧ ls'.map IfLine.plain = ls.map IfLine.plain := by
  induction ls generalizing ts n with
  | nil =>
    simp only [ifLinesAt] at h
    subst h
    exact ⟨[], by cases n <;> rfl, rfl⟩
  | cons l ls ih =>
    obtain ⟨a, b, rfl, ha, hb⟩ := h
    simp only [List.length_append] at hn
    cases l with
    | comment line =>
      simp only [IfLine.At] at ha
      subst ha
      simp only [List.length_cons, List.length_nil] at hn
      cases n with
      | zero => omega
      | succ n =>
        obtain ⟨ls', h1, h2⟩ := ih hb n (by omega)
        exact ⟨.comment line :: ls', by simp [pIfLines, h1], by simp [h2]⟩
    | defn d =>
      simp only [IfLine.At] at ha
      obtain ⟨d', h1, h2⟩ := pIfDef_complete d ha b
      obtain ⟨k, r, rfl⟩ := IfDef.at_head ha
      simp only [List.length_cons] at hn
      cases n with
      | zero => omega
      | succ n =>
        obtain ⟨ls', h3, h4⟩ := ih hb n (by omega)
        refine ⟨.defn d' :: ls', ?_, by simp [h4, IfLine.plain, h2]⟩
        simp only [List.cons_append] at h1 ⊢
        unfold pIfLines
        simp [h1, h3]

theorem pDefs_complete {α : Type} {p : TokParser α} {tokens : α → List Token}
    (hp : ∀ d (l : List (Option α)), p (tokens d ++ l.flatMap (defTokens tokens)) =
      some (d, l.flatMap (defTokens tokens)))
    (hh : ∀ d, ∃ t r, tokens d = t :: r ∧ t ≠ .comment) (h0 : p [] = none) (d : α) (l : List (Option α)) :
    pDefs p (tokens d ++ l.flatMap (defTokens tokens)) = some (d, l) := by
  have key : ∀ (l : List (Option α)) (n : Nat), (l.flatMap (defTokens tokens)).length ≤ n →
      pMany (pOrComment p) n (l.flatMap (defTokens tokens)) = (l, []) := by
    intro l
    induction l with
    | nil =>
      intro n _
      cases n with
      | zero => rfl
      | succ n => simp [pMany, pOrComment, h0]
    | cons o l ih =>
      intro n hn
      simp only [List.flatMap_cons, List.length_append] at hn ⊢
      cases o with
      | none =>
        simp only [defTokens, List.length_cons, List.length_nil] at hn
        cases n with
        | zero => omega
        | succ n => simp [defTokens, pMany, pOrComment, ih n (by omega)]
      | some d =>
        obtain ⟨t, r, e, ht⟩ := hh d
        simp only [defTokens] at hn
        have h1 : pOrComment p (tokens d ++ l.flatMap (defTokens tokens)) =
            some (some d, l.flatMap (defTokens tokens)) := by
          have h2 := hp d l
          rw [e, List.cons_append] at h2 ⊢
          unfold pOrComment
          split
          · rename_i e'; cases e'; exact absurd rfl ht
          · simp [h2]
        rw [e] at hn
        simp only [List.length_cons] at hn
        cases n with
        | zero => omega
        | succ n => simp [defTokens, pMany, h1, ih n (by omega)]
  unfold pDefs
  have : pStar (pOrComment p) (l.flatMap (defTokens tokens)) = (l, []) := key l _ (Nat.le_refl _)
  simp [hp, this]

theorem leadingComments_complete (cs : List Nat) {r : Located} (h : ∀ n r', r ≠ (n, .comment) :: r') :
    leadingComments (commentsAt cs ++ r) = (cs, r) := by
  induction cs with
  | nil =>
    simp only [commentsAt, List.map_nil, List.nil_append]
    unfold leadingComments
    split
    · exact absurd rfl (h _ _)
    · rfl
  | cons c cs ih =>
    simp only [commentsAt, List.map_cons, List.cons_append] at ih ⊢
    simp [leadingComments, ih]

theorem SptDef.head (d : SptDef) : ∃ r, d.tokens = .kw .define :: r := by
  rw [SptDef.tokens_eq]
  exact ⟨_, rfl⟩

theorem AvDef.head (d : AvDef) : ∃ t r, d.tokens = t :: r ∧ (t = .kw .cls ∨ t = .kw .common) := by
  cases d with
  | common => exact ⟨_, _, rfl, .inr rfl⟩
  | _ => exact ⟨_, _, rfl, .inl rfl⟩

theorem Header.head (h : Header) : ∃ t r, h.tokens = t :: r ∧ (t = .kw .policyModule ∨ t = .kw .module) := by
  obtain ⟨l, n, m, o, v⟩ := h
  cases m <;> cases o
  · exact ⟨_, _, rfl, .inr rfl⟩
  · exact ⟨_, _, rfl, .inr rfl⟩
  · exact ⟨_, _, rfl, .inl rfl⟩
  · exact ⟨_, _, rfl, .inl rfl⟩

theorem avDefs_notHead (l : List (Option AvDef)) : NotHead [tLeft] (l.flatMap (defTokens AvDef.tokens)) := by
  cases l with
  | nil => trivial
  | cons o l =>
    cases o with
    | none => simp [NotHead, defTokens, tLeft]
    | some d =>
      obtain ⟨t, r, e, ht⟩ := d.head
      simp only [List.flatMap_cons, defTokens, e, List.cons_append, NotHead]
      rcases ht with rfl | rfl <;> simp [tLeft]

/-- The parser finds each derivation of a file, up to the grouping of the conditions. -/
theorem pFile_complete {f : SourceFile} {ts : Located} (h : f.At ts) :
    ∃ g, pFile ts = some g ∧ g.plain = f.plain := by
  cases f with
  | empty =>
    simp only [SourceFile.At] at h
    subst h
    exact ⟨.empty, rfl, rfl⟩
  | comments c cs =>
    simp only [SourceFile.At] at h
    subst h
    refine ⟨.comments c cs, ?_, rfl⟩
    have := leadingComments_complete (c :: cs) (r := []) (by simp)
    rw [List.append_nil] at this
    simp [pFile, this]
  | te cs hd body =>
    obtain ⟨a, b, rfl, ⟨h1, h2⟩, h3⟩ := h
    obtain ⟨t, r, e, ht⟩ := hd.head
    have h4 : lift pHeader (a ++ b) = some ((hd.name, hd.isMacro, hd.numberOnly, hd.version), b) :=
      lift_complete (by rw [h1]; exact pHeader_complete hd _)
    obtain ⟨ls', h5, h6⟩ := pLines_complete body (rest := []) h3 (by intro _ _ _ h; cases h)
    rw [List.append_nil] at h5
    rw [e, toks_eq_cons] at h1
    obtain ⟨n, a', rfl, _⟩ := h1
    simp [Located.first, Located.lines] at h2
    refine ⟨.te cs hd ls', ?_, by simp only [SourceFile.plain, h6]⟩
    have hl := leadingComments_complete cs (r := (n, t) :: a' ++ b) (by
      intro _ _ h; cases h; rcases ht with ht | ht <;> cases ht)
    rw [← List.append_assoc] at hl
    unfold pFile
    rw [hl]
    obtain ⟨l, nm, mc, no, v⟩ := hd
    simp only at h2
    subst h2
    rcases ht with rfl | rfl
    all_goals
      simp only [List.cons_append] at h4
      simp [h4, h5]
  | iface cs d ls =>
    obtain ⟨a, b, rfl, h1, h2⟩ := h
    obtain ⟨d', h3, h4⟩ := pIfDef_complete d h1 b
    obtain ⟨ls', h5, h6⟩ := pIfLines_complete ls h2 _ (Nat.le_refl _)
    obtain ⟨n, r, rfl⟩ := IfDef.at_head h1
    refine ⟨.iface cs d' ls', ?_, by simp only [SourceFile.plain, h6, h4]⟩
    have hl := leadingComments_complete cs
      (r := (n, .kw (if d.isTemplate then .template else .interface)) :: r ++ b) (by
      intro _ _ h; cases h)
    rw [← List.append_assoc] at hl
    unfold pFile
    rw [hl]
    cases hT : d.isTemplate
    all_goals
      rw [hT] at h3
      simp only [List.cons_append, Bool.false_eq_true, if_false, if_true] at h3
      simp [h3, h5]
  | spt cs d ls =>
    obtain ⟨b, rfl, h1⟩ := h
    have h2 : b.toks = d.tokens ++ ls.flatMap (defTokens SptDef.tokens) := by
      rw [h1]; congr 2; funext a; cases a <;> rfl
    have h3 := pDefs_complete (p := pSptDef) (fun d l => pSptDef_complete d _)
      (fun d => by obtain ⟨r, e⟩ := d.head; exact ⟨_, r, e, by simp⟩) rfl d ls
    rw [← h2] at h3
    obtain ⟨r, e⟩ := d.head
    rw [e, List.cons_append, toks_eq_cons] at h2
    obtain ⟨n, b', rfl, _⟩ := h2
    have hl := leadingComments_complete cs (r := (n, .kw .define) :: b') (by intro _ _ h; cases h)
    refine ⟨.spt cs d ls, ?_, rfl⟩
    unfold pFile
    rw [hl]
    simp [h3]
  | av cs d ls =>
    obtain ⟨b, rfl, h1⟩ := h
    have h2 : b.toks = d.tokens ++ ls.flatMap (defTokens AvDef.tokens) := by
      rw [h1]; congr 2; funext a; cases a <;> rfl
    have h3 := pDefs_complete (p := pAvDef) (fun d l => pAvDef_complete d (avDefs_notHead l))
      (fun d => by obtain ⟨t, r, e, ht⟩ := d.head; exact ⟨t, r, e, by rcases ht with rfl | rfl <;> simp⟩) rfl d ls
    rw [← h2] at h3
    obtain ⟨t, r, e, ht⟩ := d.head
    rw [e, List.cons_append, toks_eq_cons] at h2
    obtain ⟨n, b', rfl, _⟩ := h2
    have hl := leadingComments_complete cs (r := (n, t) :: b') (by
      intro _ _ h; cases h; rcases ht with ht | ht <;> cases ht)
    refine ⟨.av cs d ls, ?_, rfl⟩
    unfold pFile
    rw [hl]
    rcases ht with rfl | rfl <;> simp [h3]

end Selint
