import Verif.Lemmas.Written
import Verif.Props.Source
/-!
# C75: lists, arguments and ranges hold the words that are written
-/

namespace Selint
open Spec

/-- **C75 (lists).** The elements of a list of names are its words, in order. -/
theorem C75_list (l : SList) : l.value = listWords l.tokens := by
  induction l with
  | braces f r =>
    simp [SList.tokens, tLeft, listWords, listWords_item, listWords_items, SList.value, tRight]
  | tilda l ih => rw [SList.value, SList.tokens, listWords, ih]
  | item i => rw [SList.value, SList.tokens, ← List.append_nil i.tokens, listWords_item]; rfl
  | star => rfl

/-- **C75 (extended permissions).** -/
theorem C75_xperms (l : XList) : l.value = xpermWords l.tokens := by
  induction l with
  | braces f r =>
    simp [XList.tokens, tLeft, xpermWords, xpermWords_item, xpermWords_items, XList.value, tRight]
  | tilda l ih => rw [XList.value, XList.tokens, xpermWords, ih]
  | item i => rw [XList.value, XList.tokens, ← List.append_nil i.tokens, xpermWords_item]; rfl

/-- **C75 (ranges).** A range is held as it is written, without blanks. -/
theorem C75_range (r : MlsRange) : r.value = r.tokens.flatMap mlsText := by
  have hc : ∀ c : MlsComponent, c.value = c.tokens.flatMap mlsText := by
    intro c; cases c <;> simp [MlsComponent.value, MlsComponent.tokens, mlsText]
  have hl : ∀ l : MlsLevel, l.value = l.tokens.flatMap mlsText := by
    intro l; cases l <;> simp [MlsLevel.value, MlsLevel.tokens, hc, mlsText, tColon]
  cases r <;> simp [MlsRange.value, MlsRange.tokens, hl, mlsText]

/-! ## Arguments -/

theorem argWords_quoted_item (i : SlItem) (r : List Token) :
    argWords .quotes (i.tokens ++ r) = (i.value, false) :: argWords .quotes r := by
  cases i <;> simp [SlItem.tokens, SlItem.value, argWords]

theorem argWords_quoted_items (is : List SlItem) (r : List Token) :
    argWords .quotes (is.flatMap SlItem.tokens ++ r) = is.map (fun i => (i.value, false)) ++ argWords .quotes r := by
  induction is with
  | nil => rfl
  | cons i is ih => rw [List.flatMap_cons, List.append_assoc, argWords_quoted_item, ih]; rfl

theorem argWords_space (i : SlItem) (r : List Token) :
    argWords .later (i.tokens ++ r) = (i.value, true) :: argWords .later r := by
  cases i <;> simp [SlItem.tokens, SlItem.value, argWords]

theorem argWords_xitem (i : XItem) (r : List Token) :
    argWords .braces (i.tokens ++ r) = (i.value, false) :: argWords .braces r := by
  cases i <;> simp [XItem.tokens, XItem.value, argWords]

theorem argWords_xitems (is : List XItem) (r : List Token) :
    argWords .braces (is.flatMap XItem.tokens ++ r) = is.map (fun i => (i.value, false)) ++ argWords .braces r := by
  induction is with
  | nil => rfl
  | cons i is ih => rw [List.flatMap_cons, List.append_assoc, argWords_xitem, ih]; rfl

theorem argWords_xlist (l : XList) (r : List Token) :
    argWords .start (l.tokens ++ r) = l.value.map (·, false) ++ argWords .later r := by
  induction l with
  | braces f is =>
    simp only [XList.tokens, tLeft, List.cons_append, List.append_assoc, argWords, argWords_xitem, argWords_xitems, tRight,
      List.nil_append, XList.value]
    simp
  | tilda l ih => simp [XList.tokens, XList.value, argWords, ih]
  | item i => cases i <;> simp [XList.tokens, XList.value, XItem.tokens, XItem.value, argWords]

theorem argWords_arg (a : Arg) (r : List Token) :
    argWords .start (a.tokens ++ r) = a.value.map (·, false) ++ argWords .later r := by
  cases a with
  | xperm l => exact argWords_xlist l r
  | quoted s => simp [Arg.tokens, Arg.value, argWords]
  | words f is =>
    have : ∀ t : List Token, argWords .start (tTick :: (f.tokens ++ t)) = argWords .quotes (f.tokens ++ t) := by
      intro t; cases f <;> simp [SlItem.tokens, tTick, argWords]
    simp only [Arg.tokens, List.cons_append, List.append_assoc, this, argWords_quoted_item, argWords_quoted_items, tQuote,
      List.nil_append, argWords, Arg.value]
    simp
  | empty => simp [Arg.tokens, Arg.value, tTick, tQuote, argWords]

theorem argWords_rest (cs : List ArgCont) : argWords .later (cs.flatMap ArgCont.tokens) = cs.flatMap ArgCont.value := by
  induction cs with
  | nil => rfl
  | cons c cs ih =>
    rw [List.flatMap_cons, List.flatMap_cons]
    cases c with
    | comma a => simp [ArgCont.tokens, tComma, argWords, argWords_arg, ih, ArgCont.value]
    | space i => rw [ArgCont.tokens, argWords_space, ih]; rfl

/-- **C75 (arguments).** The arguments of a call are its words; exactly those that follow another word
without a comma are marked. -/
theorem C75_args (a : Args) : a.value = argWords .start a.tokens := by
  rw [Args.tokens, argWords_arg, argWords_rest]; rfl

end Selint
