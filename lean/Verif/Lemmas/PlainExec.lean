import Verif.Spec.Derivation
import Verif.Model.ParseFunctions
/-!
# No action depends on the conditions
-/

namespace Selint

mutual
theorem Lines.plain_exec (ls : Lines) (st : PState) : ls.plain.exec st = ls.exec st := by
  cases ls with
  | one l => simp only [Lines.plain, Lines.exec, l.plain_exec]
  | more ls l => simp only [Lines.plain, Lines.exec, ls.plain_exec, l.plain_exec]
theorem Line.plain_exec (l : Line) (st : PState) : l.plain.exec st = l.exec st := by
  cases l with
  | bare s => simp only [Line.plain, Line.exec, s.plain_exec]
  | withCommand s c => simp only [Line.plain, Line.exec, s.plain_exec]
theorem Stmt.plain_exec (s : Stmt) (st : PState) : s.plain.exec st = s.exec st := by
  cases s with
  | silent | simple | optionalEmpty | genRequire | genRequireUnquoted | require | define => rfl
  | optional line cmd body => simp only [Stmt.plain, Stmt.exec, body.plain_exec]
  | optionalElse line cmd body l els => simp only [Stmt.plain, Stmt.exec, body.plain_exec, els.plain_exec]
  | ifdef line negated cond args => simp only [Stmt.plain, Stmt.exec, args.plain_exec]
  | ifelse line args => simp only [Stmt.plain, Stmt.exec, args.plain_exec]
  | userdebugOrEng body => simp only [Stmt.plain, Stmt.exec, body.plain_exec]
  | tunable line quoted cond args => simp only [Stmt.plain, Stmt.exec, args.plain_exec]
  | boolean line cmd cond body => simp only [Stmt.plain, Stmt.exec, body.plain_exec]
  | booleanElse line cmd cond body els => simp only [Stmt.plain, Stmt.exec, body.plain_exec, els.plain_exec]
theorem M4Args.plain_exec (as : M4Args) (st : PState) : as.plain.exec st = as.exec st := by
  cases as with
  | one line a => simp only [M4Args.plain, M4Args.exec, a.plain_exec]
  | more as line a => simp only [M4Args.plain, M4Args.exec, as.plain_exec, a.plain_exec]
theorem M4Argument.plain_exec (a : M4Argument) (st : PState) : a.plain.exec st = a.exec st := by
  cases a with
  | quoted body => simp only [M4Argument.plain, M4Argument.exec, body.plain_exec]
  | _ => rfl
end

theorem IfDef.plain_exec (d : IfDef) (st : PState) : d.plain.exec st = d.exec st := by
  obtain ⟨line, tpl, name, cmd, body⟩ := d
  cases body with
  | none => rfl
  | some b => simp only [IfDef.plain, Option.map_some, IfDef.exec, execBody, b.plain_exec]

theorem IfLine.plain_exec (l : IfLine) (st : PState) : l.plain.exec st = l.exec st := by
  cases l with
  | defn d => exact d.plain_exec st
  | comment => rfl

theorem execIfLines_plain (ls : List IfLine) (st : PState) :
    execIfLines (ls.map IfLine.plain) st = execIfLines ls st := by
  induction ls generalizing st with
  | nil => rfl
  | cons l ls ih => simp only [List.map_cons, execIfLines, l.plain_exec, ih]

theorem SourceFile.plain_exec (f : SourceFile) (expected : PlainFlavor) (mod : Str) (m : Maps) :
    f.plain.exec expected mod m = f.exec expected mod m := by
  cases f with
  | te cs h body => simp only [SourceFile.plain, SourceFile.exec, body.plain_exec]
  | iface cs d ls => simp only [SourceFile.plain, SourceFile.exec, d.plain_exec, execIfLines_plain]
  | _ => rfl

end Selint
