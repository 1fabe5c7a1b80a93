import Verif.Model.Basic
/-! # Tokens (parse.y:83-183, lex.l:96-183) -/

namespace Selint

/-- The reserved words of the scanner (lex.l:96-151), in the order of its rules. -/
inductive Keyword where
  | policyModule | module | type | typealias | alias | attribute | bool | typeAttribute
  | roleAttribute | role | types | attributeRole | allow | allowXperm | auditAllow
  | auditAllowXperm | dontAudit | dontAuditXperm | neverAllow | neverAllowXperm
  | typeTransition | typeMember | typeChange | rangeTransition | roleTransition
  | optionalPolicy | genRequire | genBool | genTunable | require | tunablePolicy | ifelse
  | refpolicywarn | cls | common | inherits | kwIf | kwElse | ifdef | ifndef | genfscon | sid
  | portcon | netifcon | nodecon | fsUseTrans | fsUseXattr | fsUseTask | define | genUser
  | genContext | permissive | typebounds | interface | template | userdebugOrEng
  deriving DecidableEq, Repr

/-- Punctuation (lex.l:160-178). -/
inductive Punct where
  | openParen | closeParen | comma | period | openCurly | closeCurly | colon | semicolon
  | backtick | singleQuote | tilda | star | dash | and | or | xor | notEqual | not | equal
  deriving DecidableEq, Repr

/-- parse.y:83-183: the tokens, with their semantic values. -/
inductive Token where
  | kw (k : Keyword)
  | p (p : Punct)
  | versionNo (s : Str)
  | number (s : Str)
  | string (s : Str)
  | numString (s : Str)
  | ipv4 (s : Str)
  | ipv6 (s : Str)
  | quoted (s : Str)
  | fileType
  | command (s : Str)
  | comment
  | unknown (c : Char)
  deriving DecidableEq, Repr

end Selint
