import Verif.Spec.ParseInMemory
import Verif.Model.Grammar
import Verif.Model.ParseFunctions
/-!
# Where commands occur in the tokens of a derivation
-/

namespace Selint
open Spec

theorem commandExceptions_isSome (c : Str) :
    (PState.commandExceptions c).isSome = disablesChecks c := by
  simp only [PState.commandExceptions, disablesChecks]
  generalize c.dropWhile _ = d
  by_cases h : cs!"selint-".isPrefixOf d = true
  · rw [if_pos h]
    obtain ⟨e, rfl⟩ := List.isPrefixOf_iff_prefix.1 h
    have : (cs!"selint-" ++ e).drop 7 = e := rfl
    rw [this, show cs!"selint-disable:" = cs!"selint-" ++ cs!"disable:" from rfl]
    have hx : List.isPrefixOf (cs!"selint-" ++ cs!"disable:") (cs!"selint-" ++ e) =
        List.isPrefixOf cs!"disable:" e := by
      simp [List.isPrefixOf]
    rw [hx]
    cases List.isPrefixOf cs!"disable:" e <;> rfl
  · rw [if_neg h]
    have : List.isPrefixOf cs!"selint-disable:" d = false := by
      rw [Bool.eq_false_iff]
      intro hc
      refine h ?_
      rw [List.isPrefixOf_iff_prefix] at hc ⊢
      exact (List.prefix_append cs!"selint-" cs!"disable:").trans hc
    rw [this]
    rfl

@[simp] theorem disablings_nil : disablings [] = 0 := rfl

@[simp] theorem disablings_append (a b : List Token) :
    disablings (a ++ b) = disablings a + disablings b := by simp [disablings]

theorem disablings_cons (t : Token) (ts : List Token) :
    disablings (t :: ts) = disablings [t] + disablings ts := by
  rw [← disablings_append]; rfl

@[simp] theorem disablings_p (p : Punct) (ts) : disablings (.p p :: ts) = disablings ts := by
  rw [disablings_cons]; exact Nat.zero_add _
@[simp] theorem disablings_kw (p : Keyword) (ts) : disablings (.kw p :: ts) = disablings ts := by
  rw [disablings_cons]; exact Nat.zero_add _
@[simp] theorem disablings_string (s : Str) (ts) : disablings (.string s :: ts) = disablings ts := by
  rw [disablings_cons]; exact Nat.zero_add _
@[simp] theorem disablings_quoted (s : Str) (ts) : disablings (.quoted s :: ts) = disablings ts := by
  rw [disablings_cons]; exact Nat.zero_add _
@[simp] theorem disablings_numString (s : Str) (ts) :
    disablings (.numString s :: ts) = disablings ts := by
  rw [disablings_cons]; exact Nat.zero_add _
@[simp] theorem disablings_number (s : Str) (ts) :
    disablings (.number s :: ts) = disablings ts := by
  rw [disablings_cons]; exact Nat.zero_add _
@[simp] theorem disablings_versionNo (s : Str) (ts) :
    disablings (.versionNo s :: ts) = disablings ts := by
  rw [disablings_cons]; exact Nat.zero_add _
@[simp] theorem disablings_ipv4 (s : Str) (ts) : disablings (.ipv4 s :: ts) = disablings ts := by
  rw [disablings_cons]; exact Nat.zero_add _
@[simp] theorem disablings_ipv6 (s : Str) (ts) : disablings (.ipv6 s :: ts) = disablings ts := by
  rw [disablings_cons]; exact Nat.zero_add _
@[simp] theorem disablings_fileType (ts) : disablings (.fileType :: ts) = disablings ts := by
  rw [disablings_cons]; exact Nat.zero_add _
@[simp] theorem disablings_comment (ts) : disablings (.comment :: ts) = disablings ts := by
  rw [disablings_cons]; exact Nat.zero_add _

theorem disablings_flatMap {α} {f : α → List Token} (h : ∀ x, disablings (f x) = 0) (l : List α) :
    disablings (l.flatMap f) = 0 := by
  induction l with
  | nil => rfl
  | cons x l ih => simp [h, ih]

theorem disablings_comments (l : List Nat) : disablings (l.map fun _ => .comment) = 0 := by
  induction l with
  | nil => rfl
  | cons x l ih => simpa using ih

@[simp] theorem SlItem.disablings (i : SlItem) : Spec.disablings i.tokens = 0 := by
  cases i <;> simp [SlItem.tokens]
@[simp] theorem SList.disablings (l : SList) : Spec.disablings l.tokens = 0 := by
  induction l <;> simp [SList.tokens, tLeft, tRight, disablings_flatMap, *]
@[simp] theorem XItem.disablings (i : XItem) : Spec.disablings i.tokens = 0 := by
  cases i <;> simp [XItem.tokens]
@[simp] theorem XList.disablings (l : XList) : Spec.disablings l.tokens = 0 := by
  induction l <;> simp [XList.tokens, tLeft, tRight, disablings_flatMap, *]
@[simp] theorem CommaList.disablings (l : CommaList) : Spec.disablings l.tokens = 0 := by
  simp [CommaList.tokens, tComma, disablings_flatMap]
@[simp] theorem Arg.disablings (l : Arg) : Spec.disablings l.tokens = 0 := by
  cases l <;> simp [Arg.tokens, tTick, tQuote, disablings_flatMap]
@[simp] theorem ArgCont.disablings (l : ArgCont) : Spec.disablings l.tokens = 0 := by
  cases l <;> simp [ArgCont.tokens, tComma]
@[simp] theorem Args.disablings (l : Args) : Spec.disablings l.tokens = 0 := by
  simp [Args.tokens, disablings_flatMap]
@[simp] theorem MlsComponent.disablings (l : MlsComponent) : Spec.disablings l.tokens = 0 := by
  cases l <;> simp [MlsComponent.tokens]
@[simp] theorem MlsLevel.disablings (l : MlsLevel) : Spec.disablings l.tokens = 0 := by
  cases l <;> simp [MlsLevel.tokens, tColon]
@[simp] theorem MlsRange.disablings (l : MlsRange) : Spec.disablings l.tokens = 0 := by
  cases l <;> simp [MlsRange.tokens]
@[simp] theorem RawContext.disablings (l : RawContext) : Spec.disablings l.tokens = 0 := by
  obtain ⟨a, b, c, _ | d⟩ := l <;> simp [RawContext.tokens, tColon]
@[simp] theorem Context.disablings (l : Context) : Spec.disablings l.tokens = 0 := by
  cases l <;> simp [Context.tokens, tOpen, tComma, tClose]
@[simp] theorem Condition.disablings (l : Condition) : Spec.disablings l.tokens = 0 := by
  induction l <;> simp [Condition.tokens, tOpen, tClose, *]
@[simp] theorem M4Elem.disablings (l : M4Elem) (ts) :
    Spec.disablings (l.token :: ts) = Spec.disablings ts := by
  cases l <;> simp [M4Elem.token]
@[simp] theorem M4String.disablings (l : M4String) : Spec.disablings l.tokens = 0 := by
  induction l <;> simp [M4String.tokens, tTick, tQuote, *]
@[simp] theorem PortRange.disablings (l : PortRange) : Spec.disablings l.tokens = 0 := by
  cases l <;> simp [PortRange.tokens]
@[simp] theorem maybeStringComma_disablings (s : Option Str) :
    Spec.disablings (maybeStringComma s) = 0 := by
  cases s <;> simp [maybeStringComma, tComma]
@[simp] theorem Silent.disablings (l : Silent) : Spec.disablings l.tokens = 0 := by
  cases l
  case genfscon a b c d e => cases a <;> cases d <;> simp [Silent.tokens]
  case genUser a b c d e f g =>
    cases g <;> simp [Silent.tokens, tOpen, tComma, tClose, disablings_flatMap]
  all_goals simp [Silent.tokens, tOpen, tClose, tTick, tQuote, tSemi]
@[simp] theorem Decl.disablings (l : Decl) : Spec.disablings l.tokens = 0 := by
  cases l <;> simp [Decl.tokens, tOpen, tComma, tClose, tTick, tQuote, tSemi]
@[simp] theorem Simple.disablings (l : Simple) : Spec.disablings l.tokens = 0 := by
  cases l
  case typeTransition a b c d e => cases e <;> simp [Simple.tokens, tColon, tSemi]
  case call a b => cases b <;> simp [Simple.tokens, tOpen, tClose]
  all_goals simp [Simple.tokens, tSemi, tColon]
@[simp] theorem defineName_disablings (q : Bool) (s : Str) :
    Spec.disablings (defineNameTokens q s) = 0 := by
  cases q <;> simp [defineNameTokens, tTick, tQuote]
@[simp] theorem DefineContent.disablings (l : DefineContent) : Spec.disablings l.tokens = 0 := by
  cases l <;> simp [DefineContent.tokens, tComma, tTick, tQuote]
@[simp] theorem Header.disablings (l : Header) : Spec.disablings l.tokens = 0 := by
  obtain ⟨a, b, c, d, e⟩ := l
  cases c <;> cases d <;> simp [Header.tokens, tOpen, tComma, tClose, tSemi]
@[simp] theorem SptDef.disablings (l : SptDef) : Spec.disablings l.tokens = 0 := by
  obtain ⟨a, b, _ | c⟩ := l <;> simp [SptDef.tokens, tOpen, tComma, tClose, tTick, tQuote]
@[simp] theorem AvPerms.disablings (l : AvPerms) : Spec.disablings l.tokens = 0 := by
  simp only [AvPerms.tokens, tLeft, disablings_p, disablings_append]
  generalize l.all = xs
  induction xs with
  | nil => simp [tRight]
  | cons x xs ih => cases x <;> simpa using ih
@[simp] theorem AvDef.disablings (l : AvDef) : Spec.disablings l.tokens = 0 := by
  cases l <;> simp [AvDef.tokens]

end Selint
