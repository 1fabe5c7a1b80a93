import Verif.Model.Display
/-! # The printed summary (check_hooks.c:268-292, runner.c:486-490) -/

namespace Selint

/-- color.c:72-79 `color_ok`. -/
def colorOk (enabled : Bool) : Str := if enabled then cs!"\x1b[32;1m" else []

/-- check_hooks.c:268, 284: `printf("%s%s%s: %u\n", …)`. `old_issue_name[0]` of an empty name is the
null character. -/
def countLine (color : Bool) (e : Str × Nat) : Str :=
  colorSeverity color (e.1.headD '\x00') ++ e.1 ++ colorReset color ++ cs!": " ++ natToStr e.2 ++ cs!"\n"

/-- runner.c:486-490 `display_run_summary` with check_hooks.c:242-293 `display_check_issue_counts`,
given the array as permuted by `qsort`. -/
def summaryText {F : Type} (color : Bool) (sorted : List (CheckNode F)) : Str :=
  let lines := displayIssueCounts sorted
  cs!"Found the following issue counts:\n" ++ (lines.flatMap (countLine color)) ++
    (if lines.isEmpty then colorOk color ++ cs!"(none)" ++ colorReset color ++ cs!"\n" else [])

end Selint
