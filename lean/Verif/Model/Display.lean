import Verif.Model.Hooks
/-! # How findings are printed (color.c, check_hooks.c:92-113) -/

namespace Selint

/-- color.c:38-45 `color_reset`; the argument is `enabled`. -/
def colorReset (enabled : Bool) : Str := if enabled then cs!"\x1b[0m" else []

/-- color.c:83-101 `color_severity`. -/
def colorSeverity (enabled : Bool) (severity : Char) : Str :=
  if !enabled then []
  else if severity = 'E' then cs!"\x1b[31;1m"
  else if severity = 'W' then cs!"\x1b[33;1m"
  else if severity = 'S' then cs!"\x1b[35;1m"
  else if severity = 'C' then cs!"\x1b[34;1m"
  else cs!"\x1b[1m"

/-- check_hooks.c:96-103: the width for the line number (`FILENAME_PADDING` is 22). -/
def linePadding (filename : Str) : Nat := if 22 < filename.length then 0 else 22 - filename.length

/-- `printf("%*u")`: at least `width` characters, filled with blanks on the left. -/
def padLeft (c : Char) (width : Nat) (s : Str) : Str := List.replicate (width - s.length) c ++ s

/-- check_hooks.c:92-113 `display_check_result`:
`printf("%s:%*u: %s(%c)%s: %s (%c-%03u)\n")`. -/
def formatFinding (enabled : Bool) (f : Finding) : Str :=
  f.filename ++ [':'] ++ padLeft ' ' (linePadding f.filename) (natToStr f.lineno) ++ cs!": "
    ++ colorSeverity enabled f.result.severity ++ ['('] ++ [f.result.severity] ++ [')'] ++ colorReset enabled
    ++ cs!": " ++ f.result.message ++ cs!" (" ++ [f.result.severity] ++ ['-']
    ++ padLeft '0' 3 (natToStr f.result.checkId) ++ cs!")\n"

end Selint
