import Verif.Model.Lex
/-!
# What a scanner generated from rules does

Independent of how the model computes matches: the texts of a regular expression, and the
documented choice among rules (flex manual, "How the input is matched").
-/

namespace Selint.Spec

/-- `Texts r s`: the expression `r` matches the whole text `s`. -/
inductive Texts : Rx → Str → Prop
  | eps : Texts .eps []
  | chars {p : Char → Bool} {c : Char} (h : p c = true) : Texts (.chars p) [c]
  | seq {a b : Rx} {s t : Str} (h₁ : Texts a s) (h₂ : Texts b t) : Texts (.seq a b) (s ++ t)
  | left {a b : Rx} {s : Str} (h : Texts a s) : Texts (.alt a b) s
  | right {a b : Rx} {s : Str} (h : Texts b s) : Texts (.alt a b) s
  | done {a : Rx} : Texts (.star a) []
  | more {a : Rx} {s t : Str} (h₁ : Texts a s) (h₂ : Texts (.star a) t) : Texts (.star a) (s ++ t)

/-- A rule matches the text `m`, the last newline of which is not part of the token if the
rule ends in `$`. -/
inductive RuleMatches (r : LexRule) : (text context : Str) → Prop
  | plain {t : Str} (he : r.eol = false) (h : Texts r.rx t) : RuleMatches r t []
  | eol {t : Str} (he : r.eol = true) (h : Texts r.rx t) : RuleMatches r t ['\n']

/-- In front of `text ++ rest`, the `i`-th rule is taken for `text`: it matches, no rule
matches more, and no earlier rule as much. -/
structure Takes (rules : List LexRule) (i : Nat) (r : LexRule) (text rest : Str) : Prop where
  rule : rules[i]? = some r
  context : ∃ c, RuleMatches r text c ∧ c <+: rest ∧
    ∀ (j : Nat) (r' : LexRule) (t' c' : Str), rules[j]? = some r' → RuleMatches r' t' c' →
      t' ++ c' <+: text ++ rest →
        t'.length + c'.length ≤ text.length + c.length ∧
        (t'.length + c'.length = text.length + c.length → i ≤ j)

/-- The tokens of a text with the lines on which they end, from line `n` on. -/
inductive Scans (rules : List LexRule) : Nat → Str → List (Nat × Token) → Prop
  | nil {n : Nat} : Scans rules n [] []
  | skip {n i : Nat} {r : LexRule} {text rest : Str} {ts : List (Nat × Token)}
      (h : Takes rules i r text rest) (hne : text ≠ []) (ha : r.act text = none)
      (hr : Scans rules (n + text.count '\n') rest ts) : Scans rules n (text ++ rest) ts
  | token {n i : Nat} {r : LexRule} {text rest : Str} {t : Token} {ts : List (Nat × Token)}
      (h : Takes rules i r text rest) (hne : text ≠ []) (ha : r.act text = some t)
      (hr : Scans rules (n + text.count '\n') rest ts) :
      Scans rules n (text ++ rest) ((n + text.count '\n', t) :: ts)

/-- Characters of words: letters, digits and a few others. -/
def WordChar (c : Char) : Prop := c.isAlpha = true ∨ c.isDigit = true ∨ c ∈ cs!"_$*/-"

/-- A word that can be a name: it begins with a letter, `$` or `/`. -/
def IsNameWord (w : Str) : Prop :=
  ∃ c r, w = c :: r ∧ (c.isAlpha = true ∨ c ∈ cs!"$/") ∧ ∀ d ∈ r, WordChar d

/-- No word goes on here. -/
def WordEnds (rest : Str) : Prop := ∀ c, rest.head? = some c → ¬ WordChar c

/-- The reserved words of the language. -/
def reservedWords : List Str :=
  [cs!"alias", cs!"allow", cs!"allowxperm", cs!"attribute", cs!"attribute_role", cs!"auditallow",
    cs!"auditallowxperm", cs!"bool", cs!"class", cs!"common", cs!"define", cs!"dontaudit",
    cs!"dontauditxperm", cs!"else", cs!"fs_use_task", cs!"fs_use_trans", cs!"fs_use_xattr",
    cs!"gen_bool", cs!"gen_context", cs!"gen_require", cs!"gen_tunable", cs!"gen_user",
    cs!"genfscon", cs!"if", cs!"ifdef", cs!"ifelse", cs!"ifndef", cs!"inherits", cs!"interface",
    cs!"module", cs!"netifcon", cs!"neverallow", cs!"neverallowxperm", cs!"nodecon",
    cs!"optional_policy", cs!"permissive", cs!"policy_module", cs!"portcon", cs!"range_transition",
    cs!"refpolicywarn", cs!"require", cs!"role", cs!"role_transition", cs!"roleattribute", cs!"sid",
    cs!"template", cs!"tunable_policy", cs!"type", cs!"type_change", cs!"type_member",
    cs!"type_transition", cs!"typealias", cs!"typeattribute", cs!"typebounds", cs!"types",
    cs!"userdebug_or_eng"]

end Selint.Spec
