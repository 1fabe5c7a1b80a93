import Verif.Spec.Words
import Verif.Lemmas.Present
import Verif.Lemmas.Location
/-! # Every rule that is written is a node, and every such node is written -/

namespace Selint

open Spec

/-- The node says what the rule says. -/
def RuleOf (x : Nat × List Token) (i : NodeInfo) : Prop :=
  ∃ d, readRule x.2 = some d ∧ i = ⟨d, none, x.1⟩

/-- The rules in these tokens are those of the nodes, whatever follows. -/
def Shows (ts : Located) (ns : List Tree) : Prop :=
  ∀ rest, ∃ segs, rulesIn (ts ++ rest) = segs ++ rulesIn rest ∧ Matched RuleOf segs ((Tree.preorderList ns).filter isRule)

theorem Shows.nil : Shows [] [] := fun _ => ⟨[], rfl, .nil⟩

theorem Shows.append {a b : Located} {x y : List Tree} (h : Shows a x) (h' : Shows b y) : Shows (a ++ b) (x ++ y) := by
  intro rest
  obtain ⟨s, h1, h2⟩ := h (b ++ rest)
  obtain ⟨t, h3, h4⟩ := h' rest
  refine ⟨s ++ t, by rw [List.append_assoc, h1, h3, List.append_assoc], ?_⟩
  rw [preorderList_app, List.filter_append]
  exact h2.append h4

/-- No token begins a rule. -/
def Calm (ts : List Token) : Prop := ∀ t ∈ ts, beginsRule t = false

theorem Calm.append {a b : List Token} (h : Calm a) (h' : Calm b) : Calm (a ++ b) := by
  intro t ht
  rcases List.mem_append.1 ht with ht | ht
  · exact h t ht
  · exact h' t ht

theorem Calm.cons {t : Token} {b : List Token} (h : beginsRule t = false) (h' : Calm b) : Calm (t :: b) := by
  intro t ht
  rcases List.mem_cons.1 ht with rfl | ht
  · exact h
  · exact h' t ht

theorem Calm.nil : Calm [] := nofun

theorem Calm.flatMap {α : Type} {f : α → List Token} (h : ∀ a, Calm (f a)) (l : List α) : Calm (l.flatMap f) := by
  intro t ht
  obtain ⟨a, -, h1⟩ := List.mem_flatMap.1 ht
  exact h a t h1

theorem Shows.calm {a : Located} (h : Calm a.toks) : Shows a [] := by
  intro rest
  refine ⟨[], ?_, .nil⟩
  induction a with
  | nil => rfl
  | cons t a ih =>
    obtain ⟨n, t⟩ := t
    have h1 : beginsRule t = false := h t (by simp [Located.toks])
    simp only [List.cons_append, rulesIn, h1, Bool.false_eq_true, if_false]
    exact ih fun t ht => h t (by simp only [Located.toks, List.map_cons, List.mem_cons] at ht ⊢; exact .inr ht)

theorem Shows.before {a b : Located} {x : List Tree} (h : Calm a.toks) (h' : Shows b x) : Shows (a ++ b) x :=
  (Shows.calm h).append h'

theorem Shows.after {a b : Located} {x : List Tree} (h : Shows a x) (h' : Calm b.toks) : Shows (a ++ b) x := by
  have := h.append (.calm h'); rwa [List.append_nil] at this

theorem Shows.same {a : Located} {x y : List Tree} (h : Shows a x)
    (e : (Tree.preorderList y).filter isRule = (Tree.preorderList x).filter isRule) : Shows a y := by
  intro rest
  obtain ⟨s, h1, h2⟩ := h rest
  exact ⟨s, h1, e ▸ h2⟩

theorem Shows.block {a : Located} {x : List Tree} {data : NodeData} {line : Nat} (h : Shows a x)
    (hd : ruleFlavors.contains data.flavor = false) : Shows a [blockNode data line x] := by
  refine h.same ?_
  simp only [blockNode, startMarker, leaf, Tree.preorderList, Tree.preorder, List.append_nil, List.nil_append, List.cons_append,
    List.filter_cons]
  rw [if_neg, if_neg]
  · simp [isRule, NodeInfo.flavor, NodeData.flavor, PlainFlavor.toFlavor, ruleFlavors]
  · simp only [isRule, NodeInfo.flavor, hd]; simp

/-! ## Tokens that begin no rule -/

theorem SlItem.calm (i : SlItem) : Calm i.tokens := by
  cases i <;> simp [Calm, SlItem.tokens, beginsRule]

theorem SList.calm (l : SList) : Calm l.tokens := by
  induction l with
  | braces f r => exact .cons rfl (((SlItem.calm f).append (.flatMap SlItem.calm r)).append (.cons rfl .nil))
  | tilda l ih => exact .cons rfl ih
  | item i => exact i.calm
  | star => exact .cons rfl .nil

theorem XItem.calm (i : XItem) : Calm i.tokens := by
  cases i <;> simp [Calm, XItem.tokens, beginsRule]

theorem XList.calm (l : XList) : Calm l.tokens := by
  induction l with
  | braces f r => exact .cons rfl (((XItem.calm f).append (.flatMap XItem.calm r)).append (.cons rfl .nil))
  | tilda l ih => exact .cons rfl ih
  | item i => exact i.calm

theorem CommaList.calm (l : CommaList) : Calm l.tokens :=
  .cons rfl (.flatMap (fun _ => .cons rfl (.cons rfl .nil)) _)

theorem Arg.calm (a : Arg) : Calm a.tokens := by
  cases a with
  | xperm l => exact l.calm
  | quoted s => exact .cons rfl .nil
  | words f r => exact .cons rfl (((SlItem.calm f).append (.flatMap SlItem.calm r)).append (.cons rfl .nil))
  | empty => exact .cons rfl (.cons rfl .nil)

theorem Args.calm (a : Args) : Calm a.tokens := by
  refine a.first.calm.append (.flatMap (fun c => ?_) _)
  cases c with
  | comma a => exact .cons rfl a.calm
  | space i => exact i.calm

theorem MlsRange.calm (r : MlsRange) : Calm r.tokens := by
  have hc : ∀ c : MlsComponent, Calm c.tokens := by
    intro c; cases c <;> simp [Calm, MlsComponent.tokens, beginsRule]
  have hl : ∀ l : MlsLevel, Calm l.tokens := by
    intro l
    cases l with
    | one c => exact hc c
    | pair c d => exact (hc c).append (.cons rfl (hc d))
  cases r with
  | one l => exact hl l
  | range l m => exact (hl l).append (.cons rfl (hl m))

theorem RawContext.calm (c : RawContext) : Calm c.tokens := by
  refine Calm.append (by simp [Calm, beginsRule, tColon]) ?_
  cases c.range with
  | none => exact .nil
  | some r => exact .cons rfl r.calm

theorem Context.calm (c : Context) : Calm c.tokens := by
  have e : Calm [tClose] := .cons rfl .nil
  cases c with
  | raw c => exact c.calm
  | gen c => exact .cons rfl (.cons rfl (c.calm.append e))
  | gen1 c r => exact .cons rfl (.cons rfl (c.calm.append (.cons rfl (r.calm.append e))))
  | gen2 c r s => exact .cons rfl (.cons rfl (c.calm.append (.cons rfl (r.calm.append (.cons rfl (s.calm.append e))))))
  | gen3 c r => exact .cons rfl (.cons rfl (c.calm.append (.cons rfl (r.calm.append (.cons rfl e)))))

theorem Condition.calm (c : Condition) : Calm c.tokens := by
  induction c with
  | name s => exact .cons rfl .nil
  | not c ih => exact .cons rfl ih
  | paren c ih => exact .cons rfl (ih.append (.cons rfl .nil))
  | _ c d h1 h2 => exact h1.append (.cons rfl h2)

theorem M4Elem.calm (e : M4Elem) : beginsRule e.token = false := by cases e <;> rfl

theorem M4String.calm (s : M4String) : Calm s.tokens := by
  induction s with
  | one e => exact .cons e.calm .nil
  | more e s ih => exact .cons e.calm ih
  | quoted e => exact .cons rfl (.cons e.calm (.cons rfl .nil))

theorem commandTokens_calm (c : Option Str) : Calm (commandTokens c) := by
  cases c
  · exact .nil
  · exact .cons rfl .nil

theorem maybeStringComma_calm (c : Option Str) : Calm (maybeStringComma c) := by
  cases c
  · exact .cons rfl .nil
  · exact .cons rfl (.cons rfl .nil)

theorem Silent.calm (s : Silent) : Calm s.tokens := by
  cases s with
  | genfscon n fs p sp c =>
    refine Calm.append (Calm.append ?_ ?_) c.calm
    · cases n <;> exact .cons rfl (.cons rfl (.cons rfl .nil))
    · cases sp
      · exact .nil
      · exact .cons rfl .nil
  | sid s c => exact .cons rfl (.cons rfl c.calm)
  | portcon s r c =>
    refine .cons rfl (.cons rfl (Calm.append ?_ c.calm))
    cases r <;> simp [Calm, PortRange.tokens, beginsRule]
  | netifcon s c d => exact .cons rfl (.cons rfl (c.calm.append d.calm))
  | nodecon4 a b c => exact .cons rfl (.cons rfl (.cons rfl c.calm))
  | nodecon6 a b c => exact .cons rfl (.cons rfl (.cons rfl c.calm))
  | fsUse k h s c =>
    refine .cons ?_ (.cons rfl (c.calm.append (.cons rfl .nil)))
    rcases h with rfl | rfl | rfl <;> rfl
  | genUser a b f r x y t =>
    simp only [Silent.tokens]
    refine Calm.append (Calm.append (Calm.append (Calm.append (Calm.append (Calm.append (Calm.append (Calm.append (.cons rfl (.cons rfl .nil)) (maybeStringComma_calm a))
      (maybeStringComma_calm b)) f.calm) (.flatMap SlItem.calm r)) (.cons rfl x.calm)) (.cons rfl y.calm)) ?_) (.cons rfl .nil)
    cases t with
    | none => exact .nil
    | some t => exact .cons rfl t.calm
  | typebounds s t => exact .cons rfl (.cons rfl (.cons rfl (.cons rfl .nil)))
  | refpolicywarn s =>
    exact Calm.append (Calm.append (.cons rfl (.cons rfl (.cons rfl .nil))) s.calm) (.cons rfl (.cons rfl .nil))
  | comment => exact .cons rfl .nil

theorem DefineContent.calm (c : DefineContent) : Calm c.tokens := by
  cases c with
  | none => exact .nil
  | empty => exact .cons rfl .nil
  | text s => exact Calm.append (Calm.append (.cons rfl (.cons rfl .nil)) s.calm) (.cons rfl .nil)
  | word s => exact .cons rfl (.cons rfl .nil)

theorem Header.calm (h : Header) : Calm h.tokens := by
  unfold Header.tokens
  cases h.isMacro <;> cases h.numberOnly <;> simp [Calm, beginsRule, ruleKeywords, tOpen, tComma, tClose, tSemi]

/-! ## Lists have no semicolon -/

theorem SlItem.noSemi (i : SlItem) : tSemi ∉ i.tokens := by
  cases i <;> simp [SlItem.tokens, tSemi]

theorem SList.noSemi (l : SList) : tSemi ∉ l.tokens := by
  induction l with
  | braces f r =>
    simp only [SList.tokens, List.mem_cons, List.mem_append, List.mem_flatMap, List.not_mem_nil, or_false]
    rintro (h | (h | ⟨i, -, h⟩) | h)
    · cases h
    · exact f.noSemi h
    · exact i.noSemi h
    · cases h
  | tilda l ih =>
    simp only [SList.tokens, List.mem_cons]
    rintro (h | h)
    · cases h
    · exact ih h
  | item i => exact i.noSemi
  | star => simp [SList.tokens, tSemi]

theorem XItem.noSemi (i : XItem) : tSemi ∉ i.tokens := by
  cases i <;> simp [XItem.tokens, tSemi]

theorem XList.noSemi (l : XList) : tSemi ∉ l.tokens := by
  induction l with
  | braces f r =>
    simp only [XList.tokens, List.mem_cons, List.mem_append, List.mem_flatMap, List.not_mem_nil, or_false]
    rintro (h | (h | ⟨i, -, h⟩) | h)
    · cases h
    · exact f.noSemi h
    · exact i.noSemi h
    · cases h
  | tilda l ih =>
    simp only [XList.tokens, List.mem_cons]
    rintro (h | h)
    · cases h
    · exact ih h
  | item i => exact i.noSemi

theorem CommaList.noSemi (l : CommaList) : tSemi ∉ l.tokens := by
  simp only [CommaList.tokens, List.mem_cons, List.mem_flatMap, List.not_mem_nil, or_false]
  rintro (h | ⟨s, -, h | h⟩) <;> cases h

theorem MlsRange.noSemi (r : MlsRange) : tSemi ∉ r.tokens := by
  have hc : ∀ c : MlsComponent, tSemi ∉ c.tokens := by
    intro c; cases c <;> simp [MlsComponent.tokens, tSemi]
  have hl : ∀ l : MlsLevel, tSemi ∉ l.tokens := by
    intro l
    cases l with
    | one c => exact hc c
    | pair c d => simp [MlsLevel.tokens, tColon, tSemi]; exact ⟨hc c, hc d⟩
  cases r with
  | one l => exact hl l
  | range l m => simp [MlsRange.tokens, tSemi]; exact ⟨hl l, hl m⟩

/-! ## Reading a rule -/

theorem listWords_item (i : SlItem) (r : List Token) : listWords (i.tokens ++ r) = i.value :: listWords r := by
  cases i <;> simp [SlItem.tokens, SlItem.value, listWords]

theorem listWords_items (is : List SlItem) (r : List Token) :
    listWords (is.flatMap SlItem.tokens ++ r) = is.map SlItem.value ++ listWords r := by
  induction is with
  | nil => rfl
  | cons i is ih => rw [List.flatMap_cons, List.append_assoc, listWords_item, ih]; rfl

theorem xpermWords_item (i : XItem) (r : List Token) : xpermWords (i.tokens ++ r) = i.value :: xpermWords r := by
  cases i <;> simp [XItem.tokens, XItem.value, xpermWords]

theorem xpermWords_items (is : List XItem) (r : List Token) :
    xpermWords (is.flatMap XItem.tokens ++ r) = is.map XItem.value ++ xpermWords r := by
  induction is with
  | nil => rfl
  | cons i is ih => rw [List.flatMap_cons, List.append_assoc, xpermWords_item, ih]; rfl

theorem XList.words (l : XList) : xpermWords l.tokens = l.value := by
  induction l with
  | braces f r =>
    simp [XList.tokens, tLeft, xpermWords, xpermWords_item, xpermWords_items, XList.value, tRight]
  | tilda l ih => rw [XList.value, XList.tokens, xpermWords, ih]
  | item i => rw [XList.value, XList.tokens, ← List.append_nil i.tokens, xpermWords_item]; rfl

theorem MlsRange.words (r : MlsRange) : r.tokens.flatMap mlsText = r.value := by
  have hc : ∀ c : MlsComponent, c.tokens.flatMap mlsText = c.value := by
    intro c; cases c <;> simp [MlsComponent.value, MlsComponent.tokens, mlsText]
  have hl : ∀ l : MlsLevel, l.tokens.flatMap mlsText = l.value := by
    intro l; cases l <;> simp [MlsLevel.value, MlsLevel.tokens, hc, mlsText, tColon]
  cases r <;> simp [MlsRange.value, MlsRange.tokens, hl, mlsText]

theorem CommaList.words (l : CommaList) : listWords l.tokens = l.value := by
  have : ∀ r : List Str, listWords (r.flatMap fun s => [tComma, .string s]) = r := by
    intro r
    induction r with
    | nil => rfl
    | cons s r ih => simp [tComma, listWords] at ih ⊢; exact ih
  simp [CommaList.tokens, CommaList.value, listWords, this]

theorem SlItem.noCurly (i : SlItem) : ∀ t ∈ i.tokens, t ≠ .p .closeCurly := by
  cases i <;> simp [SlItem.tokens]

theorem readList_tokens (l : SList) (r : List Token) : readList (l.tokens ++ r) = (l.value, r) := by
  induction l with
  | braces f rs =>
    have hn : ∀ t ∈ f.tokens ++ rs.flatMap SlItem.tokens, decide (t ≠ .p .closeCurly) = true := by
      intro t ht
      rw [List.mem_append, List.mem_flatMap] at ht
      rcases ht with ht | ⟨i, -, ht⟩
      · exact decide_eq_true (f.noCurly t ht)
      · exact decide_eq_true (i.noCurly t ht)
    simp only [SList.tokens, tLeft, List.cons_append, readList]
    rw [List.append_assoc, List.takeWhile_append_of_pos hn, List.dropWhile_append_of_pos hn, SList.value]
    have := listWords_items rs []
    rw [List.append_nil, show listWords [] = [] from rfl, List.append_nil] at this
    simp [tRight, listWords_item, this]
  | tilda l ih => simp [SList.tokens, readList, ih, SList.value]
  | item i => cases i <;> simp [SList.tokens, readList, SList.value, SlItem.tokens, SlItem.value, listWords]
  | star => simp [SList.tokens, readList, SList.value, listWords]

theorem readTwo_tokens (s t : SList) (r : List Token) : readTwo (s.tokens ++ (t.tokens ++ r)) = (s.value, t.value, r) := by
  simp [readTwo, readList_tokens]

theorem readThree_tokens (s t c : SList) (r : List Token) :
    readThree (s.tokens ++ t.tokens ++ tColon :: c.tokens ++ r) = (s.value, t.value, some c.value, r) := by
  simp only [List.append_assoc, List.cons_append, readThree, readTwo_tokens, tColon, readList_tokens]

theorem readList_all (l : SList) : readList l.tokens = (l.value, []) := by
  have := readList_tokens l []; rwa [List.append_nil] at this

theorem readThree_two (s t : SList) : readThree (s.tokens ++ t.tokens) = (s.value, t.value, none, []) := by
  have := readTwo_tokens s t []
  rw [List.append_nil] at this
  simp only [readThree, this]

theorem readThree_word (s t : SList) (d : Str) :
    readThree (s.tokens ++ t.tokens ++ [.string d]) = (s.value, t.value, none, [.string d]) := by
  simp only [List.append_assoc, readThree, readTwo_tokens]

/-! ## Statements -/

theorem rulesIn_rule {ts : Located} {t : Token} {mid : List Token} {line : Nat} (h : ts.whole (t :: (mid ++ [tSemi])) line)
    (ht : beginsRule t = true) (hm : Calm mid) (hs : tSemi ∉ mid) (rest : Located) :
    rulesIn (ts ++ rest) = [(line, t :: mid)] ++ rulesIn rest := by
  obtain ⟨h1, h2⟩ := h
  cases ts with
  | nil => cases h1
  | cons x r =>
    obtain ⟨n, t'⟩ := x
    simp only [Located.toks, List.map_cons, List.cons.injEq] at h1
    obtain ⟨rfl, h1⟩ := h1
    simp only [Located.first, Located.lines, List.map_cons, List.head?_cons, Option.some.injEq] at h2
    subst h2
    simp only [List.cons_append, rulesIn, ht, if_true, List.nil_append]
    have h3 : Calm (Located.toks r) := by
      rw [Located.toks, h1]; exact hm.append (.cons rfl .nil)
    obtain ⟨segs, h4, h5⟩ := Shows.calm h3 rest
    cases h5
    rw [h4, List.map_append, h1]
    congr 3
    rw [List.append_assoc, List.takeWhile_append_of_pos]
    · simp [tSemi]
    · intro x hx
      have : x ≠ tSemi := fun e => hs (e ▸ hx)
      simpa [tSemi] using this

theorem shows_rule {ts : Located} {s : Simple} {line : Nat} (h : ts.whole s.tokens line) {t : Token} {mid : List Token}
    (e : s.tokens = t :: (mid ++ [tSemi])) (ht : beginsRule t = true) (hm : Calm mid) (hs : tSemi ∉ mid)
    (hr : readRule (t :: mid) = some (simpleData s))
    (hd : ruleFlavors.contains (simpleData s).flavor = true) : Shows ts [simpleNode line s] := by
  intro rest
  refine ⟨[(line, t :: mid)], rulesIn_rule (e ▸ h) ht hm hs rest, ?_⟩
  have h1 : (Tree.preorderList [simpleNode line s]).filter isRule = [⟨simpleData s, none, line⟩] := by
    simp only [simpleNode, Tree.preorderList, Tree.preorder, List.append_nil, List.filter_cons]
    rw [if_pos (by exact hd)]
    congr 1
    rw [List.filter_eq_nil_iff]
    intro i hi
    rw [show (fun a => leaf (NodeData.plain PlainFlavor.alias (some a)) line) =
      fun a => Tree.mk ⟨.plain .alias (some a), none, line⟩ [] from rfl, preorderList_map_leaf] at hi
    obtain ⟨a, -, rfl⟩ := List.mem_map.1 hi
    simp [isRule, NodeInfo.flavor, NodeData.flavor, PlainFlavor.toFlavor, ruleFlavors]
  rw [h1]
  exact .cons ⟨simpleData s, hr, rfl⟩ .nil

theorem shows_other {ts : Located} {s : Simple} {line : Nat} (h : ts.whole s.tokens line) (hm : Calm s.tokens)
    (hd : ruleFlavors.contains (simpleData s).flavor = false) : Shows ts [simpleNode line s] := by
  refine (Shows.calm (by rw [h.1]; exact hm)).same ?_
  simp only [simpleNode, Tree.preorderList, Tree.preorder, List.append_nil, List.filter_cons]
  rw [if_neg (by simp only [isRule, NodeInfo.flavor, hd]; simp)]
  rw [List.filter_nil, List.filter_eq_nil_iff]
  intro i hi
  rw [show (fun a => leaf (NodeData.plain PlainFlavor.alias (some a)) line) =
    fun a => Tree.mk ⟨.plain .alias (some a), none, line⟩ [] from rfl, preorderList_map_leaf] at hi
  obtain ⟨a, -, rfl⟩ := List.mem_map.1 hi
  simp [isRule, NodeInfo.flavor, NodeData.flavor, PlainFlavor.toFlavor, ruleFlavors]

theorem Simple.shows {ts : Located} {s : Simple} {line : Nat} (h : ts.whole s.tokens line) : Shows ts [simpleNode line s] := by
  have c1 : Calm [tSemi] := .cons rfl .nil
  cases s with
  | decl d =>
    refine shows_other h ?_ rfl
    cases d with
    | typeAttrs n a => exact .cons rfl (.cons rfl (.cons rfl (a.calm.append c1)))
    | typeAlias n l => exact .cons rfl (.cons rfl (.cons rfl (l.calm.append c1)))
    | typeAliasAttrs n l a => exact .cons rfl (.cons rfl (.cons rfl (l.calm.append (.cons rfl (a.calm.append c1)))))
    | cls n l => exact .cons rfl (.cons rfl (l.calm.append c1))
    | _ => simp [Simple.tokens, Decl.tokens, Calm, beginsRule, ruleKeywords, tSemi, tComma, tOpen, tClose, tTick, tQuote]
  | typeAttribute n a =>
    exact shows_rule h (mid := .string n :: a.tokens) rfl rfl (.cons rfl a.calm) (by simp [tSemi]; exact a.noSemi)
      (by simp only [readRule, a.words, simpleData]) rfl
  | roleAttribute n a =>
    exact shows_rule h (mid := .string n :: a.tokens) rfl rfl (.cons rfl a.calm) (by simp [tSemi]; exact a.noSemi)
      (by simp only [readRule, a.words, simpleData]) rfl
  | typeAlias n l =>
    exact shows_rule h (mid := .string n :: .kw .alias :: l.tokens) rfl rfl (.cons rfl (.cons rfl l.calm))
      (by simp [tSemi]; exact l.noSemi) rfl rfl
  | rule fl s t c p =>
    refine shows_rule h (t := .kw (avKeyword fl)) (mid := s.tokens ++ t.tokens ++ tColon :: c.tokens ++ p.tokens) (by simp [Simple.tokens]) (by cases fl <;> rfl) ?_ ?_
      (by cases fl <;> simp only [avKeyword, readRule, readAv, readThree_tokens, simpleData, readList_all]) rfl
    · exact ((s.calm.append t.calm).append (.cons rfl c.calm)).append p.calm
    · have := s.noSemi; have := t.noSemi; have := c.noSemi; have := p.noSemi
      simp_all [tSemi, tColon]
  | xrule fl s t c op p =>
    refine shows_rule h (t := .kw (xavKeyword fl)) (mid := s.tokens ++ t.tokens ++ tColon :: c.tokens ++ .string op :: p.tokens) (by simp [Simple.tokens]) (by cases fl <;> rfl) ?_ ?_
      (by cases fl <;> simp only [xavKeyword, readRule, readXav, readThree_tokens, simpleData, p.words]) rfl
    · exact ((s.calm.append t.calm).append (.cons rfl c.calm)).append (.cons rfl p.calm)
    · have := s.noSemi; have := t.noSemi; have := c.noSemi; have := p.noSemi
      simp_all [tSemi, tColon]
  | roleAllow f t =>
    refine shows_rule h (t := .kw .allow) (mid := f.tokens ++ t.tokens) (by simp [Simple.tokens]) rfl (f.calm.append t.calm) ?_
      (by simp only [readRule, readAv, readThree_two, simpleData]) rfl
    have := f.noSemi; have := t.noSemi
    simp_all
  | roleTypes r l =>
    exact shows_other h (.cons rfl (.cons rfl (.cons rfl (l.calm.append c1)))) rfl
  | typeTransition s t c d n =>
    refine shows_rule h (t := .kw .typeTransition) (mid := s.tokens ++ t.tokens ++ tColon :: c.tokens ++ .string d ::
      (match n with | none => [] | some n => [.quoted n])) (by cases n <;> simp [Simple.tokens]) rfl ?_ ?_
      (by cases n <;> simp only [readRule, readTt, readThree_tokens, simpleData]) rfl
    · refine ((s.calm.append t.calm).append (.cons rfl c.calm)).append (.cons rfl ?_)
      cases n
      · exact .nil
      · exact .cons rfl .nil
    · have := s.noSemi; have := t.noSemi; have := c.noSemi
      cases n <;> simp_all [tSemi, tColon]
  | typeMember s t c d =>
    refine shows_rule h (t := .kw .typeMember) (mid := s.tokens ++ t.tokens ++ tColon :: c.tokens ++ [.string d]) (by simp [Simple.tokens]) rfl
      (((s.calm.append t.calm).append (.cons rfl c.calm)).append (.cons rfl .nil)) ?_
      (by simp only [readRule, readTt, readThree_tokens, simpleData]) rfl
    have := s.noSemi; have := t.noSemi; have := c.noSemi
    simp_all [tSemi, tColon]
  | typeChange s t c d =>
    refine shows_rule h (t := .kw .typeChange) (mid := s.tokens ++ t.tokens ++ tColon :: c.tokens ++ [.string d]) (by simp [Simple.tokens]) rfl
      (((s.calm.append t.calm).append (.cons rfl c.calm)).append (.cons rfl .nil)) ?_
      (by simp only [readRule, readTt, readThree_tokens, simpleData]) rfl
    have := s.noSemi; have := t.noSemi; have := c.noSemi
    simp_all [tSemi, tColon]
  | rangeTransition s t c r =>
    refine shows_rule h (t := .kw .rangeTransition) (mid := s.tokens ++ t.tokens ++ tColon :: c.tokens ++ r.tokens) (by simp [Simple.tokens]) rfl
      (((s.calm.append t.calm).append (.cons rfl c.calm)).append r.calm) ?_
      (by simp only [readRule, readRange, readThree_tokens, simpleData, r.words]) rfl
    have := s.noSemi; have := t.noSemi; have := c.noSemi; have := r.noSemi
    simp_all [tSemi, tColon]
  | roleTransition s t d =>
    refine shows_rule h (t := .kw .roleTransition) (mid := s.tokens ++ t.tokens ++ [.string d]) (by simp [Simple.tokens]) rfl
      ((s.calm.append t.calm).append (.cons rfl .nil)) ?_
      (by simp only [readRule, readRt, readThree_word, simpleData, Option.getD_none]) rfl
    have := s.noSemi; have := t.noSemi
    simp_all [tSemi]
  | roleTransitionClass s t c d =>
    refine shows_rule h (t := .kw .roleTransition) (mid := s.tokens ++ t.tokens ++ tColon :: c.tokens ++ [.string d]) (by simp [Simple.tokens]) rfl
      (((s.calm.append t.calm).append (.cons rfl c.calm)).append (.cons rfl .nil)) ?_
      (by simp only [readRule, readRt, readThree_tokens, simpleData, Option.getD_some]) rfl
    have := s.noSemi; have := t.noSemi; have := c.noSemi
    simp_all [tSemi, tColon]
  | call n a =>
    cases a with
    | none => exact shows_other h (.cons rfl (.cons rfl (.cons rfl .nil))) rfl
    | some a => exact shows_other h (.cons rfl (.cons rfl (a.calm.append (.cons rfl .nil)))) rfl
  | simpleMacro n => exact shows_other h (.cons rfl .nil) rfl
  | permissive n => exact shows_rule h (mid := [.string n]) rfl rfl (.cons rfl .nil) (by simp [tSemi]) rfl rfl
  | semicolon => exact shows_other h c1 rfl

/-! ## Files -/

theorem calm_toks {a : Located} {l : List Token} (e : a.toks = l) (h : Calm l) : Calm a.toks := e ▸ h

mutual
theorem ReqLines.shows : ∀ (d : ReqLines) {ts : Located}, d.At ts → Shows ts (reqLinesNodes d)
  | .one l, ts, h => by simp only [ReqLines.At] at h; rw [reqLinesNodes]; exact l.shows h
  | .more ls l, ts, h => by
    simp only [ReqLines.At] at h
    obtain ⟨a, b, rfl, h1, h2⟩ := h
    rw [reqLinesNodes]
    exact (ls.shows h1).append (l.shows h2)
theorem ReqLine.shows : ∀ (d : ReqLine) {ts : Located}, d.At ts → Shows ts (reqLineNodes d)
  | .bare s, ts, h => by simp only [ReqLine.At] at h; rw [reqLineNodes]; exact s.shows h
  | .withCommand s c, ts, h => by
    simp only [ReqLine.At] at h
    obtain ⟨a, n, rfl, h1⟩ := h
    rw [reqLineNodes]
    exact (s.shows h1).after (.cons rfl .nil)
theorem ReqStmt.shows : ∀ (d : ReqStmt) {ts : Located}, d.At ts → Shows ts (reqStmtNodes d)
  | .decls line fl kw hk names, ts, h => by
    simp only [ReqStmt.At] at h
    have : beginsRule (.kw kw) = false := by cases fl <;> cases hk <;> rfl
    refine (Shows.calm (calm_toks h.1 (.cons this (names.calm.append (.cons rfl .nil))))).same ?_
    rw [reqStmtNodes, show (fun n => leaf (NodeData.decl ⟨fl, n, []⟩) line) =
      fun n => Tree.mk ⟨.decl ⟨fl, n, []⟩, none, line⟩ [] from rfl, preorderList_map_leaf]
    rw [show Tree.preorderList [] = [] from rfl, List.filter_nil, List.filter_eq_nil_iff]
    intro i hi
    obtain ⟨n, -, rfl⟩ := List.mem_map.1 hi
    simp [isRule, NodeInfo.flavor, NodeData.flavor, ruleFlavors]
  | .cls line n l, ts, h => by
    simp only [ReqStmt.At] at h
    exact (Shows.calm (calm_toks h.1 (.cons rfl (.cons rfl (l.calm.append (.cons rfl .nil)))))).same rfl
  | .ifdef line ng q cond body, ts, h => by
    simp only [ReqStmt.At] at h
    obtain ⟨o, b, c, rfl, h1, -, h2, h3⟩ := h
    rw [reqStmtNodes]
    refine .block (.after (.before (calm_toks h1 ?_) (body.shows h2)) (calm_toks h3 ?_)) rfl
    · cases q <;> cases ng <;> simp [Calm, beginsRule, ruleKeywords, ifKeyword, tOpen, tTick, tQuote, tComma]
    · cases q <;> simp [Calm, beginsRule, tQuote, tClose]
  | .comment, ts, h => by
    simp only [ReqStmt.At] at h
    rw [reqStmtNodes]
    exact .calm (calm_toks h (.cons rfl .nil))
end

theorem calm_optional (cmd : Option Str) : Calm ([.kw .optionalPolicy, tOpen, tTick] ++ commandTokens cmd) :=
  Calm.append (.cons rfl (.cons rfl (.cons rfl .nil))) (commandTokens_calm cmd)

theorem calm_end : Calm [tQuote, tClose] := .cons rfl (.cons rfl .nil)

mutual
theorem Lines.shows : ∀ (d : Lines) {ts : Located}, d.At ts → Shows ts (linesNodes d)
  | .one l, ts, h => by simp only [Lines.At] at h; rw [linesNodes]; exact l.shows h
  | .more ls l, ts, h => by
    simp only [Lines.At] at h
    obtain ⟨a, b, rfl, h1, h2⟩ := h
    rw [linesNodes]
    exact (ls.shows h1).append (l.shows h2)
theorem Line.shows : ∀ (d : Line) {ts : Located}, d.At ts → Shows ts (lineNodes d)
  | .bare s, ts, h => by simp only [Line.At] at h; rw [lineNodes]; exact s.shows h
  | .withCommand s c, ts, h => by
    simp only [Line.At] at h
    obtain ⟨a, n, rfl, h1⟩ := h
    rw [lineNodes]
    exact (s.shows h1).after (.cons rfl .nil)
theorem Stmt.shows : ∀ (d : Stmt) {ts : Located}, d.At ts → Shows ts (stmtNodes d)
  | .silent s, ts, h => by
    simp only [Stmt.At] at h
    rw [stmtNodes]
    exact .calm (calm_toks h s.calm)
  | .simple line s, ts, h => by
    simp only [Stmt.At] at h
    rw [stmtNodes]
    exact s.shows h
  | .optional line cmd body, ts, h => by
    simp only [Stmt.At] at h
    obtain ⟨o, b, c, rfl, h1, h2, h3⟩ := h
    rw [stmtNodes]
    exact .block (.after (.before (calm_toks h1.1 (calm_optional cmd)) (body.shows h2)) (calm_toks h3 calm_end)) rfl
  | .optionalEmpty line cmd, ts, h => by
    simp only [Stmt.At] at h
    obtain ⟨o, c, rfl, h1, h3⟩ := h
    rw [stmtNodes]
    exact .block (.after (.calm (calm_toks h1.1 (calm_optional cmd))) (calm_toks h3 calm_end)) rfl
  | .optionalElse line cmd body el els, ts, h => by
    simp only [Stmt.At] at h
    obtain ⟨o, b, m, e, c, rfl, h1, h2, h3, -, h4, h5⟩ := h
    rw [stmtNodes]
    have g1 := Shows.block (data := .plain .optionalPolicy none) (line := line)
      (Shows.before (calm_toks h1.1 (calm_optional cmd)) (body.shows h2)) rfl
    have g2 := Shows.block (data := .plain .optionalElse none) (line := el)
      (Shows.before (calm_toks h3 (.cons rfl (.cons rfl (.cons rfl .nil)))) (els.shows h4)) rfl
    have := (g1.append g2).after (calm_toks h5 calm_end)
    simpa only [List.append_assoc, List.cons_append, List.nil_append] using this
  | .genRequire line cmd cmd' body, ts, h => by
    simp only [Stmt.At] at h
    obtain ⟨o, m, b, c, rfl, h1, h2, h3, h4⟩ := h
    rw [stmtNodes]
    refine .block (.after (.before ?_ (body.shows h3)) (calm_toks h4 calm_end)) rfl
    rw [Located.toks, List.map_append]
    exact (calm_toks h1.1 (Calm.append (.cons rfl (.cons rfl .nil)) (commandTokens_calm cmd))).append
      (calm_toks h2 (.cons rfl (commandTokens_calm cmd')))
  | .genRequireUnquoted line cmd body, ts, h => by
    simp only [Stmt.At] at h
    obtain ⟨o, b, c, rfl, h1, h3, h4⟩ := h
    rw [stmtNodes]
    exact .block (.after (.before (calm_toks h1.1 (Calm.append (.cons rfl (.cons rfl .nil)) (commandTokens_calm cmd)))
      (body.shows h3)) (calm_toks h4 (.cons rfl .nil))) rfl
  | .require line cmd body, ts, h => by
    simp only [Stmt.At] at h
    obtain ⟨o, b, c, rfl, h1, -, h3, h4⟩ := h
    rw [stmtNodes]
    exact .block (.after (.before (calm_toks h1 (Calm.append (.cons rfl (.cons rfl .nil)) (commandTokens_calm cmd)))
      (body.shows h3)) (calm_toks h4 (.cons rfl .nil))) rfl
  | .ifdef line ng cond args, ts, h => by
    simp only [Stmt.At] at h
    obtain ⟨o, b, c, rfl, h1, -, h3, h4⟩ := h
    rw [stmtNodes]
    refine .block (.after (.before (calm_toks h1 ?_) (args.shows h3)) (calm_toks h4 (.cons rfl .nil))) rfl
    cases ng <;> simp [Calm, beginsRule, ruleKeywords, ifKeyword, tOpen, tTick, tQuote, tComma]
  | .ifelse line args, ts, h => by
    simp only [Stmt.At] at h
    obtain ⟨o, b, c, rfl, h1, -, h3, h4⟩ := h
    rw [stmtNodes]
    exact .block (.after (.before (calm_toks h1 (.cons rfl (.cons rfl .nil))) (args.shows h3)) (calm_toks h4 (.cons rfl .nil))) rfl
  | .userdebugOrEng body, ts, h => by
    simp only [Stmt.At] at h
    obtain ⟨o, b, c, rfl, h1, h3, h4⟩ := h
    rw [stmtNodes]
    exact .after (.before (calm_toks h1 (.cons rfl (.cons rfl (.cons rfl .nil)))) (body.shows h3)) (calm_toks h4 calm_end)
  | .tunable line q cond args, ts, h => by
    simp only [Stmt.At] at h
    obtain ⟨o, m, b, c, prev, rfl, h1, -, h2, -, h3, h4⟩ := h
    rw [stmtNodes]
    refine .block (.after (.before ?_ (args.shows h3)) (calm_toks h4 (.cons rfl .nil))) rfl
    rw [Located.toks, List.map_append]
    refine (calm_toks h1 ?_).append (calm_toks h2 (Calm.append (Calm.append cond.calm ?_) (.cons rfl .nil)))
    · cases q <;> simp [Calm, beginsRule, ruleKeywords, tOpen, tTick]
    · cases q <;> simp [Calm, beginsRule, tQuote]
  | .boolean line cmd cond body, ts, h => by
    simp only [Stmt.At] at h
    obtain ⟨o, m, b, c, rfl, h1, h2, h3, h4⟩ := h
    rw [stmtNodes]
    refine .block (.after (.before ?_ (body.shows h3)) (calm_toks h4 (.cons rfl .nil))) rfl
    rw [Located.toks, List.map_append]
    exact (calm_toks h1.1 (Calm.append (.cons rfl (.cons rfl .nil)) (commandTokens_calm cmd))).append
      (calm_toks h2 (cond.calm.append (.cons rfl (.cons rfl .nil))))
  | .booleanElse line cmd cond body els, ts, h => by
    simp only [Stmt.At] at h
    obtain ⟨o, m, b, n, e, c, rfl, h1, h2, h3, h4, h5, h6⟩ := h
    rw [stmtNodes]
    have g0 : Calm (Located.toks (o ++ m)) := by
      rw [Located.toks, List.map_append]
      exact (calm_toks h1.1 (Calm.append (.cons rfl (.cons rfl .nil)) (commandTokens_calm cmd))).append
        (calm_toks h2 (cond.calm.append (.cons rfl (.cons rfl .nil))))
    have g1 := ((Shows.before g0 (body.shows h3)).append (Shows.before (calm_toks h4 (.cons rfl (.cons rfl (.cons rfl .nil))))
      (els.shows h5))).after (calm_toks h6 (.cons rfl .nil))
    refine .block ?_ rfl
    simpa only [List.append_assoc] using g1
  | .define line q name content, ts, h => by
    simp only [Stmt.At] at h
    obtain ⟨o, c, rfl, h1, -, h2⟩ := h
    rw [stmtNodes]
    refine .block (.after (.calm (calm_toks h1 (.cons rfl (.cons rfl .nil)))) (calm_toks h2 ?_)) rfl
    refine Calm.append (Calm.append ?_ content.calm) (.cons rfl .nil)
    cases q <;> simp [Calm, defineNameTokens, beginsRule, tTick, tQuote]
theorem M4Args.shows : ∀ (d : M4Args) {prev : Nat} {ts : Located}, d.At prev ts → Shows ts (argsNodes d)
  | .one line a, prev, ts, h => by
    simp only [M4Args.At] at h
    rw [argsNodes]
    exact .block (a.shows h.2) rfl
  | .more as line a, prev, ts, h => by
    simp only [M4Args.At] at h
    obtain ⟨x, y, rfl, h1, h2⟩ := h
    rw [argsNodes]
    exact (as.shows h1).append (.block (.before (a := [(line, tComma)]) (.cons rfl .nil) (a.shows h2)) rfl)
theorem M4Argument.shows : ∀ (d : M4Argument) {ts : Located}, d.At ts → Shows ts (argNodes d)
  | .empty, ts, h => by simp only [M4Argument.At] at h; rw [argNodes, h]; exact .nil
  | .emptyQuoted, ts, h => by
    simp only [M4Argument.At] at h
    rw [argNodes]
    exact .calm (calm_toks h (.cons rfl (.cons rfl .nil)))
  | .quoted body, ts, h => by
    simp only [M4Argument.At] at h
    obtain ⟨m, n, b, rfl, h1⟩ := h
    rw [argNodes]
    exact .before (a := [(m, tTick)]) (.cons rfl .nil) ((body.shows h1).after (.cons rfl .nil))
  | .word s, ts, h => by
    simp only [M4Argument.At] at h
    rw [argNodes]
    exact .calm (calm_toks h (.cons rfl .nil))
end

theorem IfDef.shows {d : IfDef} {ts : Located} (h : d.At ts) : Shows ts [ifDefNode d] := by
  obtain ⟨o, m, b, c, rfl, h1, h2, h3, h4⟩ := h
  refine .block ?_ (by cases d.isTemplate <;> rfl)
  refine .after (.before ?_ ?_) (calm_toks h4 calm_end)
  · rw [Located.toks, List.map_append]
    refine (calm_toks h1.1 ?_).append (calm_toks h2 (commandTokens_calm _))
    cases d.isTemplate <;> simp [Calm, beginsRule, ruleKeywords, tOpen, tTick, tQuote, tComma]
  · cases hb : d.body with
    | none => rw [hb] at h3; cases h3; exact .nil
    | some l => rw [hb] at h3; exact l.shows h3

theorem IfLine.shows {l : IfLine} {ts : Located} (h : l.At ts) : Shows ts [ifLineNode l] := by
  cases l with
  | defn d => exact IfDef.shows h
  | comment n =>
    cases h
    exact (Shows.calm (a := [(n, .comment)]) (.cons rfl .nil)).same rfl

theorem ifLines_shows {ls : List IfLine} : ∀ {ts : Located}, ifLinesAt ls ts → Shows ts (ls.map ifLineNode) := by
  induction ls with
  | nil => intro ts h; cases h; exact .nil
  | cons l ls ih =>
    rintro ts ⟨a, b, rfl, h1, h2⟩
    exact (IfLine.shows h1).append (ih h2)

theorem comments_shows (cs : List Nat) : Shows (commentsAt cs) (cs.map (leaf (.plain .comment none))) := by
  induction cs with
  | nil => exact .nil
  | cons n cs ih => exact Shows.append (a := [(n, .comment)]) (x := [leaf (.plain .comment none) n]) ((Shows.calm (a := [(n, .comment)]) (.cons rfl .nil)).same rfl) ih

theorem SptDef.calm (d : SptDef) : Calm d.tokens := by
  refine Calm.append (Calm.append (Calm.append ?_ d.list.calm) ?_) (.cons rfl (.cons rfl .nil))
  · simp [Calm, beginsRule, ruleKeywords, tOpen, tTick, tQuote, tComma]
  · cases d.warn with
    | none => exact .nil
    | some s => exact (Silent.refpolicywarn s).calm

theorem AvPerms.calm (p : AvPerms) : Calm p.tokens := by
  refine .cons rfl (Calm.append ?_ (.cons rfl .nil))
  intro t ht
  obtain ⟨o, -, rfl⟩ := List.mem_map.1 ht
  cases o <;> rfl

theorem AvDef.calm (d : AvDef) : Calm d.tokens := by
  cases d with
  | cls n p => exact .cons rfl (.cons rfl p.calm)
  | inherits n c => exact .cons rfl (.cons rfl (.cons rfl (.cons rfl .nil)))
  | inheritsPerms n c p => exact .cons rfl (.cons rfl (.cons rfl (.cons rfl p.calm)))
  | common n p => exact .cons rfl (.cons rfl p.calm)

theorem SourceFile.shows {f : SourceFile} {ts : Located} (h : f.At ts) (expected : PlainFlavor)
    (he : ruleFlavors.contains expected.toFlavor = false) : Shows ts (fileNodes expected f) := by
  have root : ∀ {a : Located} {x : List Tree}, Shows a x → Shows a (leaf (.plain expected none) 0 :: x) := by
    intro a x h
    refine h.same ?_
    simp only [leaf, Tree.preorderList, Tree.preorder, List.cons_append, List.nil_append, List.filter_cons]
    rw [if_neg]
    simp only [isRule, NodeInfo.flavor, NodeData.flavor, he]
    simp
  cases f with
  | empty => cases h; exact Shows.nil.same rfl
  | te cs hd body =>
    obtain ⟨a, b, rfl, h1, h2⟩ := h
    rw [List.append_assoc]
    refine root ((comments_shows cs).append ?_)
    exact Shows.append (x := [headerNode hd]) ((Shows.calm (calm_toks h1.1 hd.calm)).same rfl) (body.shows h2)
  | iface cs d ls =>
    obtain ⟨a, b, rfl, h1, h2⟩ := h
    rw [List.append_assoc]
    exact root ((comments_shows cs).append (Shows.append (x := [ifDefNode d]) (IfDef.shows h1) (ifLines_shows h2)))
  | spt cs d ls =>
    obtain ⟨b, rfl, h1⟩ := h
    refine root ((comments_shows cs).after (calm_toks h1 (d.calm.append ?_)))
    apply Calm.flatMap
    intro o
    cases o with
    | none => exact .cons rfl .nil
    | some d => exact d.calm
  | av cs d ls =>
    obtain ⟨b, rfl, h1⟩ := h
    refine root ((comments_shows cs).after (calm_toks h1 (d.calm.append ?_)))
    apply Calm.flatMap
    intro o
    cases o with
    | none => exact .cons rfl .nil
    | some d => exact d.calm
  | comments c cs => cases h; exact root (comments_shows (c :: cs))

end Selint
