import Verif.Model.FcChecks
import Verif.Spec.FcChecks
import Verif.Props.Maps
import Verif.Props.PermMacro
/-! # C38, C39: checks on file context entries -/

namespace Selint
open Spec

/-! ## Bracket groups as an automaton -/

/-- One step of the reading automaton: last character read, inside a group. -/
def groupStep (st : Char × Bool) (c : Char) : Char × Bool :=
  (c, if st.2 then !(c = ']' && st.1 ≠ '\\') else c = '[' && st.1 ≠ '\\')

/-- The automaton after reading a text. -/
def groupState (p : Str) : Char × Bool := p.foldl groupStep ('\x00', false)

theorem groupState_snoc (p : Str) (c : Char) :
    groupState (p ++ [c]) = groupStep (groupState p) c := by
  simp [groupState]

theorem groupState_fst (p : Str) : (groupState p).1 = '\\' ↔ AfterBackslash p := by
  rcases List.eq_nil_or_concat p with rfl | ⟨q, c, rfl⟩
  · simp [groupState, AfterBackslash]
  · simp [groupState, groupStep, AfterBackslash]

/-- Reading a text without a closing bracket keeps the automaton inside. -/
theorem groupState_body (body : Str) (p : Str) (hin : (groupState p).2 = true)
    (h : ∀ a b, body = a ++ ']' :: b → AfterBackslash (p ++ a)) :
    (groupState (p ++ body)).2 = true := by
  induction body generalizing p with
  | nil => simpa using hin
  | cons c cs ih =>
    have e : p ++ c :: cs = (p ++ [c]) ++ cs := by simp
    rw [e]
    apply ih
    · rw [groupState_snoc]
      by_cases hc : c = ']'
      · subst hc
        have := h [] cs rfl
        rw [List.append_nil, ← groupState_fst] at this
        simp [groupStep, hin, this]
      · simp [groupStep, hin, hc]
    · intro a b hab
      have := h (c :: a) b (by simp [hab])
      simpa using this

theorem afterBackslash_append (p : Str) (c : Char) (a : Str) :
    AfterBackslash (p ++ c :: a) ↔ AfterBackslash (c :: a) := by
  simp [AfterBackslash, List.getLast?_append]

theorem afterBackslash_bracket (p a : Str) :
    AfterBackslash (p ++ '[' :: a) ↔ AfterBackslash a := by
  rw [afterBackslash_append]
  cases a <;> simp [AfterBackslash, List.getLast?_cons]

/-- Outside groups means that the automaton is outside. -/
theorem groupState_of_outside {p : Str} (h : OutsideGroups p) : (groupState p).2 = false := by
  induction h with
  | start => rfl
  | char p c _ hc ih =>
    rw [groupState_snoc]
    by_cases e : c = '['
    · subst e
      have := (groupState_fst p).2 (hc rfl)
      simp [groupStep, ih, this]
    · simp [groupStep, ih, e]
  | group p body _ hp hb hlast ih =>
    rw [groupState_snoc]
    have h1 : (groupState (p ++ ['['])).2 = true := by
      rw [groupState_snoc]
      have : (groupState p).1 ≠ '\\' := fun e => hp ((groupState_fst p).1 e)
      simp [groupStep, ih, this]
    have h2 := groupState_body body (p ++ ['[']) h1 (by
      intro a b hab
      have := hb a b hab
      rw [List.append_assoc]
      exact (afterBackslash_bracket p a).2 this)
    rw [List.append_assoc] at h2
    have h3 : (groupState (p ++ '[' :: body)).1 ≠ '\\' := by
      rw [Ne, groupState_fst, afterBackslash_bracket]
      exact hlast
    have h2' : (groupState (p ++ '[' :: body)).2 = true := h2
    simp [groupStep, h2', h3]

/-! ## C38 -/

theorem regexError_iff (prev c : Char) (p s : Str)
    (hp : ∀ x, x ≠ '\x00' → (prev = x ↔ p.getLast? = some x)) :
    regexError prev c (s.headD '\x00') = true ↔ Suspicious p c s := by
  have hs : ∀ x, x ≠ '\x00' → (s.headD '\x00' = x ↔ s.head? = some x) := by
    intro x hx
    cases s with
    | nil => simp [Ne.symm hx]
    | cons a t => simp
  have a1 := hp '\\' (by decide)
  have a2 := hp '.' (by decide)
  have a3 := hp ']' (by decide)
  have a4 := hp ')' (by decide)
  have b1 := hs '*' (by decide)
  have b2 := hs '+' (by decide)
  have b3 := hs '?' (by decide)
  unfold regexError Suspicious AfterBackslash
  split <;> simp_all [and_assoc]

/-- What the inner loop does. -/
theorem skipGroup_spec (path : Str) (prev : Char) (pos : Nat) :
    ∃ body rest, path = body ++ rest ∧ (skipGroup prev pos path).2.2 = rest ∧
      (skipGroup prev pos path).2.1 = pos + body.length ∧
      (skipGroup prev pos path).1 = (prev :: body).getLast (by simp) ∧
      (∀ a b, body = a ++ ']' :: b → (prev :: a).getLast (by simp) = '\\') ∧
      (rest = [] ∨ ∃ t, rest = ']' :: t ∧ (prev :: body).getLast (by simp) ≠ '\\') := by
  induction path generalizing prev pos with
  | nil => exact ⟨[], [], rfl, rfl, rfl, rfl, by simp, Or.inl rfl⟩
  | cons c cs ih =>
    unfold skipGroup
    split
    · rename_i h
      obtain ⟨body, rest, h1, h2, h3, h4, h5, h6⟩ := ih c (pos + 1)
      refine ⟨c :: body, rest, by simp [h1], h2, by rw [h3]; simp; omega, by rw [h4]; simp, ?_, ?_⟩
      · intro a b hab
        cases a with
        | nil =>
          simp only [List.nil_append, List.cons.injEq] at hab
          simp_all
        | cons x xs =>
          simp only [List.cons_append, List.cons.injEq] at hab
          have := h5 xs b hab.2
          rw [← hab.1]
          simpa using this
      · rcases h6 with h6 | ⟨t, h6, h7⟩
        · exact Or.inl h6
        · exact Or.inr ⟨t, h6, by simpa using h7⟩
    · rename_i h
      simp only [ne_eq, Bool.or_eq_true, decide_eq_true_eq, not_or, Decidable.not_not] at h
      refine ⟨[], c :: cs, rfl, rfl, rfl, rfl, by simp, Or.inr ⟨cs, ?_, by simpa using h.2⟩⟩
      rw [h.1]

/-- Nothing is suspicious at the opening bracket of a group or inside it. -/
theorem not_suspicious_in_group {p body rest : Str} (hout : OutsideGroups p)
    (hp : ¬ AfterBackslash p) (hb : ∀ a b, body = a ++ ']' :: b → AfterBackslash a)
    {i : Nat} {c : Char} (h1 : p.length ≤ i) (h2 : i ≤ p.length + body.length) :
    ¬ SuspiciousAt (p ++ ('[' :: body ++ rest)) i c := by
  rintro ⟨q, s, he, hl, hq, hs⟩
  have hqt : q = (p ++ ('[' :: body ++ rest)).take i := by rw [he, ← hl]; simp
  obtain ⟨k, rfl⟩ : ∃ k, i = p.length + k := ⟨i - p.length, by omega⟩
  rw [List.take_length_add_append] at hqt
  cases k with
  | zero =>
    simp only [List.take_zero, List.append_nil] at hqt
    rw [hqt] at he
    have := List.append_cancel_left he
    simp only [List.cons_append, List.cons.injEq] at this
    rw [← this.1] at hs
    simp [Suspicious] at hs
  | succ k =>
    have hk : k ≤ body.length := by omega
    have hqt' : q = p ++ '[' :: body.take k := by
      rw [hqt, List.cons_append, List.take_succ_cons, List.take_append_of_le_length hk]
    have hin : (groupState (p ++ ['['])).2 = true := by
      rw [groupState_snoc]
      have : (groupState p).1 ≠ '\\' := fun e => hp ((groupState_fst p).1 e)
      simp [groupStep, groupState_of_outside hout, this]
    have hin2 := groupState_body (body.take k) (p ++ ['[']) hin (by
      intro a b hab
      rw [List.append_assoc]
      refine (afterBackslash_bracket p a).2 (hb a (b ++ body.drop k) ?_)
      have := List.take_append_drop k body
      rw [hab] at this
      rw [List.append_assoc] at this
      exact this.symm)
    have hout2 := groupState_of_outside hq
    rw [hqt', ← List.singleton_append, ← List.append_assoc, hin2] at hout2
    exact Bool.noConfusion hout2

/-- The loop, started outside groups after the text `p`, finds the first suspicious
character of the rest. -/
theorem regexScan_spec (n : Nat) (path : Str) (p : Str) (prev : Char) (hn : path.length ≤ n)
    (hout : OutsideGroups p)
    (hp : ∀ x, x ≠ '\x00' → (prev = x ↔ p.getLast? = some x)) :
    (regexScan prev p.length path = none →
      ∀ i c, p.length ≤ i → ¬ SuspiciousAt (p ++ path) i c) ∧
    (∀ c i, regexScan prev p.length path = some (c, i) →
      SuspiciousAt (p ++ path) i c ∧
        ∀ j d, p.length ≤ j → j < i → ¬ SuspiciousAt (p ++ path) j d) := by
  induction n generalizing path p prev with
  | zero =>
    have : path = [] := List.length_eq_zero_iff.1 (by omega)
    subst this
    unfold regexScan
    refine ⟨fun _ i c hi => ?_, by simp⟩
    rintro ⟨q, s, he, hl, -⟩
    have := congrArg List.length he
    simp at this
    omega
  | succ n ih =>
    have hend : ∀ p : Str, ∀ i c, p.length ≤ i → ¬ SuspiciousAt (p ++ []) i c := by
      intro p i c hi
      rintro ⟨q, s, he, hl, -⟩
      have := congrArg List.length he
      simp at this
      omega
    match path, hn with
    | [], _ =>
      unfold regexScan
      exact ⟨fun _ => hend p, by simp⟩
    | cur :: rest, hn =>
      unfold regexScan
      by_cases hg : cur = '[' ∧ prev ≠ '\\'
      · rw [dif_pos hg]
        obtain ⟨rfl, hprev⟩ := hg
        have hpb : ¬ AfterBackslash p := fun e => hprev ((hp '\\' (by decide)).2 e)
        have hsk : skipGroup prev p.length ('[' :: rest) = skipGroup '[' (p.length + 1) rest := by
          conv => lhs; unfold skipGroup
          simp
        rw [hsk]
        obtain ⟨body, r, e1, e2, e3, e4, e5, e6⟩ := skipGroup_spec rest '[' (p.length + 1)
        have hb : ∀ a b, body = a ++ ']' :: b → AfterBackslash a := by
          intro a b hab
          have := e5 a b hab
          rw [← afterBackslash_bracket [] a, AfterBackslash, List.nil_append,
            List.getLast?_eq_some_getLast (by simp), this]
        simp only [e2, e3, e4]
        subst e1
        have hnot : ∀ i c, p.length ≤ i → i ≤ p.length + body.length →
            ¬ SuspiciousAt (p ++ '[' :: (body ++ r)) i c := by
          intro i c h1 h2
          exact not_suspicious_in_group (rest := r) hout hpb hb h1 h2
        rcases e6 with rfl | ⟨t, rfl, hlast⟩
        · unfold regexScan
          refine ⟨fun _ i c hi => ?_, by simp⟩
          by_cases h2 : i ≤ p.length + body.length
          · exact hnot i c hi h2
          · rintro ⟨q, s, he, hl, -⟩
            have := congrArg List.length he
            simp at this
            omega
        · unfold regexScan
          rw [dif_neg (by simp), if_neg (by simp [regexError])]
          have hlast' : ¬ AfterBackslash body := by
            intro e
            apply hlast
            have := (afterBackslash_bracket [] body).2 e
            rw [AfterBackslash, List.nil_append, List.getLast?_eq_some_getLast (by simp)] at this
            exact Option.some.inj this
          have hout' := OutsideGroups.group p body hout hpb hb hlast'
          have hl : p.length + 1 + body.length + 1 = (p ++ '[' :: body ++ [']']).length := by
            simp; omega
          have heq : p ++ '[' :: (body ++ ']' :: t) = (p ++ '[' :: body ++ [']']) ++ t := by simp
          have hlt : t.length ≤ n := by
            simp at hn
            omega
          have := ih t (p ++ '[' :: body ++ [']']) ']' hlt hout' (by
            intro x hx
            rw [List.getLast?_concat]
            simp)
          rw [hl, heq]
          rw [heq] at hnot
          have hclose : ∀ d, ¬ SuspiciousAt ((p ++ '[' :: body ++ [']']) ++ t)
              (p.length + body.length + 1) d := by
            rintro d ⟨q, s, he, hlq, -, hs⟩
            have hd : (p ++ '[' :: body ++ [']'] ++ t)[p.length + body.length + 1]? = some d := by
              rw [he, ← hlq]; simp
            have hc : (p ++ '[' :: body ++ [']'] ++ t)[p.length + body.length + 1]? = some ']' := by
              have : p ++ '[' :: body ++ [']'] ++ t = (p ++ '[' :: body) ++ ']' :: t := by simp
              rw [this]
              have hl2 : p.length + body.length + 1 = (p ++ '[' :: body).length := by simp; omega
              rw [hl2]; simp
            rw [hd] at hc
            cases hc
            simp [Suspicious] at hs
          have hall : ∀ j d, p.length ≤ j → j < (p ++ '[' :: body ++ [']']).length →
              ¬ SuspiciousAt ((p ++ '[' :: body ++ [']']) ++ t) j d := by
            intro j d h1 h2
            rw [← hl] at h2
            by_cases h3 : j ≤ p.length + body.length
            · exact hnot j d h1 h3
            · have : j = p.length + body.length + 1 := by omega
              subst this
              exact hclose d
          refine ⟨fun h i c hi => ?_, fun c i h => ⟨(this.2 c i h).1, fun j d h1 h2 => ?_⟩⟩
          · by_cases h3 : i < (p ++ '[' :: body ++ [']']).length
            · exact hall i c hi h3
            · exact this.1 h i c (by omega)
          · by_cases h3 : j < (p ++ '[' :: body ++ [']']).length
            · exact hall j d h1 h3
            · exact (this.2 c i h).2 j d (by omega) h2
      · rw [dif_neg hg]
        have hat : ∀ d, SuspiciousAt (p ++ cur :: rest) p.length d ↔
            d = cur ∧ Suspicious p cur rest := by
          intro d
          constructor
          · rintro ⟨q, s, he, hl, _, hs⟩
            obtain ⟨h1, h2⟩ := List.append_inj he hl.symm
            cases h2
            rw [h1]
            exact ⟨rfl, hs⟩
          · rintro ⟨rfl, hs⟩
            exact ⟨p, rest, rfl, rfl, hout, hs⟩
        have hre := regexError_iff prev cur p rest hp
        by_cases he : regexError prev cur (rest.headD '\x00') = true
        · rw [if_pos he]
          refine ⟨by simp, fun c i h => ?_⟩
          simp only [Option.some.injEq, Prod.mk.injEq] at h
          obtain ⟨rfl, rfl⟩ := h
          exact ⟨(hat cur).2 ⟨rfl, hre.1 he⟩, fun j d h1 h2 => by omega⟩
        · rw [if_neg he]
          have hout' : OutsideGroups (p ++ [cur]) := by
            refine .char p cur hout fun e => ?_
            refine (hp '\\' (by decide)).1 ?_
            exact Decidable.byContradiction fun hne => hg ⟨e, hne⟩
          have := ih rest (p ++ [cur]) cur (by simp at hn; omega) hout' (by intro x hx; simp)
          simp only [List.length_append, List.length_cons, List.length_nil, Nat.zero_add,
            List.append_assoc, List.singleton_append] at this
          have h0 : ∀ d, ¬ SuspiciousAt (p ++ cur :: rest) p.length d := fun d h =>
            he (hre.2 ((hat d).1 h).2)
          refine ⟨fun h i c hi => ?_, fun c i h => ⟨(this.2 c i h).1, fun j d h1 h2 => ?_⟩⟩
          · by_cases h3 : i = p.length
            · subst h3; exact h0 c
            · exact this.1 h i c (by omega)
          · by_cases h3 : j = p.length
            · subst h3; exact h0 d
            · exact (this.2 c i h).2 j d (by omega) h2

/-- C38: W-004 reports an entry iff its path has a suspicious character outside bracket
groups, and then names the first such character with its (one-based) position. -/
theorem C38_regex (node : Loc) (entry : FcEntry) (context : SelContext)
    (hd : node.data = .fc entry) (hc : entry.context = some context) :
    (checkFileContextRegex node = none ↔ ∀ i c, ¬ SuspiciousAt entry.path i c) ∧
    ∀ r, checkFileContextRegex node = some r ↔
      ∃ i c, SuspiciousAt entry.path i c ∧ (∀ j d, j < i → ¬ SuspiciousAt entry.path j d) ∧
        r = ⟨'W', 4,
          cs!"File context path contains a potentially unescaped regex character '" ++ [c]
          ++ cs!"' at position " ++ natToStr (i + 1) ++ cs!": " ++ entry.path⟩ := by
  have h := regexScan_spec _ entry.path [] '\x00' (Nat.le_refl _) .start
    (by intro x hx; simp [Ne.symm hx])
  simp only [List.length_nil, List.nil_append, Nat.zero_le, true_implies] at h
  unfold checkFileContextRegex setupForFcCheck
  rw [hd]
  simp only [hc]
  cases hr : regexScan '\x00' 0 entry.path with
  | none =>
    have hn := h.1 hr
    refine ⟨by simpa using hn, fun r => ?_⟩
    simp only [reduceCtorEq, false_iff]
    rintro ⟨i, c, hs, -⟩
    exact hn i c hs
  | some ci =>
    obtain ⟨c, i⟩ := ci
    obtain ⟨h1, h2⟩ := h.2 c i hr
    refine ⟨by simpa using ⟨i, c, h1⟩, fun r => ?_⟩
    simp only [Option.some.injEq]
    constructor
    · rintro rfl
      exact ⟨i, c, h1, fun j d hj => h2 j d hj, rfl⟩
    · rintro ⟨i', c', h1', h2', rfl⟩
      have hi : i = i' := by
        rcases Nat.lt_trichotomy i i' with hlt | heq | hgt
        · exact absurd h1 (h2' i c hlt)
        · exact heq
        · exact absurd h1' (h2 i' c' hgt)
      subst hi
      have hcc : c = c' := by
        obtain ⟨p, s, e, l, -⟩ := h1
        obtain ⟨p', s', e', l', -⟩ := h1'
        rw [e] at e'
        have := (List.append_inj e' (by omega)).2
        exact (List.cons.inj this).1
      subst hcc
      rfl

/-- A pointer to a file context node. -/
def fcLoc (e : FcEntry) : Loc := ⟨.mk ⟨.fc e, none, 1⟩ [], [], [], []⟩

/-- A path with an escaped dot, a bracket group containing dots and stars, and one
suspicious dot. -/
example : (checkFileContextRegex (fcLoc ⟨cs!"/a\\.[.*]+/b.c", none,
    some ⟨true, cs!"u", cs!"r", cs!"t", none⟩⟩)).map (·.message) =
    some cs!"File context path contains a potentially unescaped regex character '.' at position 12: /a\\.[.*]+/b.c" := by
  decide +kernel

example : checkFileContextRegex (fcLoc ⟨cs!"/usr/lib(64)?/.*\\.so[0-9.]*", none,
    some ⟨true, cs!"u", cs!"r", cs!"t", none⟩⟩) = none := by
  decide +kernel

/-- The specification singles out the second dot of `x[.].y`. -/
example : SuspiciousAt cs!"x[.].y" 4 '.' ∧ ¬ SuspiciousAt cs!"x[.].y" 2 '.' := by
  constructor
  · refine ⟨cs!"x[.]", cs!"y", rfl, rfl, ?_, Or.inl (by decide)⟩
    exact .group cs!"x" cs!"." (.char [] 'x' .start (by decide)) (by decide)
      (by intro a b h; rcases a with _ | ⟨x, _ | ⟨y, a⟩⟩ <;> simp at h) (by decide)
  · have := not_suspicious_in_group (p := cs!"x") (body := cs!".") (rest := cs!"].y") (c := '.')
      (i := 2) (.char [] 'x' .start (by decide)) (by decide)
      (by intro a b h; rcases a with _ | ⟨x, _ | ⟨y, a⟩⟩ <;> simp at h) (by decide) (by decide)
    exact this

/-- Only the character directly before is looked at: in `/a\\\\.b` the backslash is itself
escaped, so the dot matches any character, yet nothing is reported. -/
theorem C38_escaped_backslash_not_reported (context : SelContext) :
    checkFileContextRegex (fcLoc ⟨cs!"/a\\\\.b", none, some context⟩) = none := by
  have : regexScan '\x00' 0 cs!"/a\\\\.b" = none := by decide +kernel
  simp [checkFileContextRegex, setupForFcCheck, fcLoc, Loc.data, this]

/-! ## C39 -/

theorem lookUpDecl_none_iff (ops : List MapOp) (k : Str) (fl : DeclFlavor) :
    (tablesAfter ops).lookUpDecl k fl = none ↔ ¬ DeclaredIn ops fl k := by
  rw [C14_decl_first_wins, List.findSome?_eq_none_iff]
  constructor
  · rintro h ⟨md, hmem⟩
    have := h _ hmem
    simp [MapOp.declares] at this
  · intro h op hop
    cases op <;> simp only [MapOp.declares]
    rename_i n md g
    rw [if_neg]
    rintro ⟨rfl, rfl⟩
    exact h ⟨md, hop⟩

theorem lookUpDecl_some_iff (ops : List MapOp) (k md : Str) (fl : DeclFlavor) :
    (tablesAfter ops).lookUpDecl k fl = some md ↔ FirstDeclaredBy ops fl k md := by
  rw [C14_decl_first_wins, List.findSome?_eq_some_iff]
  have hno : ∀ l : List MapOp, (∀ x ∈ l, x.declares k fl = none) ↔ ¬ DeclaredIn l fl k := by
    intro l
    rw [← List.findSome?_eq_none_iff, ← C14_decl_first_wins, lookUpDecl_none_iff]
  constructor
  · rintro ⟨b, op, a, rfl, ho, hb⟩
    cases op <;> simp only [MapOp.declares, reduceCtorEq] at ho
    rename_i n md' g
    split at ho
    · rename_i h
      obtain ⟨rfl, rfl⟩ := h
      cases ho
      exact ⟨b, a, rfl, (hno b).1 hb⟩
    · cases ho
  · rintro ⟨b, a, rfl, hb⟩
    exact ⟨b, _, a, rfl, by simp [MapOp.declares], (hno b).2 hb⟩

theorem isGeneratedFc_iff (f : Str) : isGeneratedFc f = true ↔ GeneratedFcFile f := by
  simp only [isGeneratedFc, Bool.or_eq_true, beq_iff_eq, strcmp_eq_zero, endsWith_iff,
    GeneratedFcFile, or_assoc, List.IsSuffix]
  simp only [eq_comm]

/-- C39 for users, roles and types: E-003, E-004 and E-005 report an entry iff the user,
role or type of its context is declared nowhere. -/
theorem C39_declared (ops : List MapOp) (node : Loc) (entry : FcEntry) (context : SelContext)
    (hd : node.data = .fc entry) (hc : entry.context = some context) (r : CheckResult) :
    (checkFileContextUsers (tablesAfter ops) node = some r ↔
      ¬ DeclaredIn ops .user context.user ∧
      r = ⟨'E', 3, cs!"Nonexistent user (" ++ context.user ++ cs!") listed in fc_entry"⟩) ∧
    (checkFileContextRoles (tablesAfter ops) node = some r ↔
      ¬ DeclaredIn ops .role context.role ∧
      r = ⟨'E', 4, cs!"Nonexistent role (" ++ context.role ++ cs!") listed in fc_entry"⟩) ∧
    (checkFileContextTypesExist (tablesAfter ops) node = some r ↔
      ¬ DeclaredIn ops .type context.type ∧
      r = ⟨'E', 5, cs!"Nonexistent type (" ++ context.type ++ cs!") listed in fc_entry"⟩) := by
  simp only [← lookUpDecl_none_iff]
  unfold checkFileContextUsers checkFileContextRoles checkFileContextTypesExist setupForFcCheck
  rw [hd]
  simp only [hc]
  refine ⟨?_, ?_, ?_⟩
  · cases (tablesAfter ops).lookUpDecl context.user .user <;> simp [eq_comm]
  · cases (tablesAfter ops).lookUpDecl context.role .role <;> simp [eq_comm]
  · cases (tablesAfter ops).lookUpDecl context.type .type <;> simp [eq_comm]

/-- C39 for S-002: reported iff the type was (first) declared in another module and the file
is not an exempt generated file. -/
theorem C39_other_module (ops : List MapOp) (data : CheckData) (node : Loc) (entry : FcEntry)
    (context : SelContext) (hd : node.data = .fc entry) (hc : entry.context = some context)
    (r : CheckResult) :
    checkFileContextTypesInMod (tablesAfter ops) data node = some r ↔
      ¬ (data.config.skipCheckingGeneratedFcs = true ∧ GeneratedFcFile data.filename) ∧
      ∃ mod, FirstDeclaredBy ops .type context.type mod ∧ mod ≠ data.modName ∧
        r = ⟨'S', 2, cs!"Type " ++ context.type ++ cs!" is declared in module " ++ mod
          ++ cs!", but used in file context here."⟩ := by
  simp only [← lookUpDecl_some_iff, ← isGeneratedFc_iff]
  unfold checkFileContextTypesInMod setupForFcCheck fcTypeInMod
  rw [hd]
  simp only [hc]
  by_cases hg : data.config.skipCheckingGeneratedFcs = true ∧ isGeneratedFc data.filename = true
  · simp [hg.1, hg.2]
  · rw [if_neg (by simpa using hg)]
    simp only [hg, not_false_eq_true, true_and]
    cases (tablesAfter ops).lookUpDecl context.type .type with
    | none => simp
    | some md =>
      by_cases he : data.modName = md
      · simp [he]
      · have : strcmp data.modName md ≠ 0 := fun h => he (strcmp_eq_zero.1 h)
        simp only [ne_eq, this, not_false_eq_true, if_true, Option.some.injEq, exists_eq_left']
        constructor
        · rintro rfl; exact ⟨Ne.symm he, rfl⟩
        · rintro ⟨-, rfl⟩; rfl

/-- C39 for `<<none>>`: no check on file contexts reports such an entry. -/
theorem C39_none_never (m : Maps) (data : CheckData) (node : Loc) (entry : FcEntry)
    (hd : node.data = .fc entry) (hc : entry.context = none) :
    checkFileContextUsers m node = none ∧ checkFileContextRoles m node = none ∧
    checkFileContextTypesExist m node = none ∧ checkFileContextTypesInMod m data node = none ∧
    checkGenContextNoRange node = none ∧ checkFileContextRegex node = none ∧
    checkFileContextErrorNodes node = none := by
  unfold checkFileContextUsers checkFileContextRoles checkFileContextTypesExist
    checkFileContextTypesInMod checkGenContextNoRange checkFileContextRegex
    checkFileContextErrorNodes setupForFcCheck Loc.flavor NodeInfo.flavor
  rw [Loc.data] at *
  simp [hd, hc, NodeData.flavor]

/-- S-007 reports an entry iff its context is given by `gen_context` without levels. -/
theorem C39_missing_range (node : Loc) (entry : FcEntry) (context : SelContext)
    (hd : node.data = .fc entry) (hc : entry.context = some context) (r : CheckResult) :
    checkGenContextNoRange node = some r ↔
      context.hasGenContext = true ∧ context.range = none ∧
      r = ⟨'S', 7, cs!"No mls levels specified in gen_context"⟩ := by
  unfold checkGenContextNoRange setupForFcCheck
  rw [hd]
  simp only [hc]
  cases context.hasGenContext <;> cases context.range <;> simp [eq_comm]

/-- E-002 reports exactly the lines that could not be parsed. -/
theorem C39_error_nodes (node : Loc) (r : CheckResult) :
    checkFileContextErrorNodes node = some r ↔
      (∃ s, node.data = .plain .error s) ∧ r = ⟨'E', 2, cs!"Bad file context format"⟩ := by
  unfold checkFileContextErrorNodes Loc.flavor NodeInfo.flavor
  rw [Loc.data]
  generalize node.focus.info.data = d
  cases d with
  | plain f s => cases f <;> simp [NodeData.flavor, PlainFlavor.toFlavor, eq_comm]
  | attr d => cases h : d.flavor <;> simp [NodeData.flavor, h]
  | _ => simp [NodeData.flavor]

/-- On any other node the checks report an internal error (the caller never does this: C03). -/
theorem C39_internal_error (node : Loc) (h : ∀ e, node.data ≠ .fc e)
    (k : FcEntry → SelContext → Option CheckResult) :
    setupForFcCheck node k =
      some (internalError cs!"File context type check called on non file context entry") := by
  unfold setupForFcCheck
  generalize node.data = d at *
  cases d <;> simp_all

/-- The note about generated files is printed at most once: the flag never goes back. -/
theorem C39_note_once (data : CheckData) (node : Loc) :
    fcTypesNotified data node true = true ∧
    (fcTypesNotified data node false = true ↔
      ∃ e c, node.data = .fc e ∧ e.context = some c ∧
        data.config.skipCheckingGeneratedFcs = true ∧ GeneratedFcFile data.filename) := by
  rw [← isGeneratedFc_iff]
  unfold fcTypesNotified
  generalize node.data = d
  cases d <;> simp [Option.isSome_iff_exists, and_assoc]

/-- Two modules declare types; an entry of module `a` uses its own type, then one of `b`,
then an undeclared one, in an ordinary and in a generated file. -/
example :
    let ops : List MapOp := [.decl cs!"a_t" cs!"a" .type, .decl cs!"b_t" cs!"b" .type,
      .decl cs!"b_t" cs!"a" .type, .decl cs!"u" cs!"users" .user]
    let cfg : ConfigCheckData := ⟨.lax, [], false, true, []⟩
    let node := fun t => fcLoc ⟨cs!"/x", none, some ⟨true, cs!"u", cs!"r", t, none⟩⟩
    let run := fun f t => (checkFileContextTypesInMod (tablesAfter ops) ⟨cs!"a", f, .fcFile, cfg⟩
      (node t)).isSome
    run cs!"a.fc" cs!"a_t" = false ∧ run cs!"a.fc" cs!"b_t" = true ∧
    run cs!"a.fc" cs!"c_t" = false ∧ run cs!"tmp/a.mod.fc" cs!"b_t" = false ∧
    checkFileContextUsers (tablesAfter ops) (node cs!"a_t") = none ∧
    (checkFileContextRoles (tablesAfter ops) (node cs!"a_t")).isSome = true := by
  decide +kernel

end Selint
