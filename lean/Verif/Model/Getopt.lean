import Verif.Model.Selint
/-! # The command line before `main` looks at it (main.c:118-152, `getopt_long`)

The table of options is main.c's. How `getopt_long` reads an argument vector with it is glibc's
(posix/getopt.c), with its default of moving the arguments that are no options to the end and
without `POSIXLY_CORRECT` in the environment. -/

namespace Selint

/-- An entry of the table: what the option reports, without or with an argument. -/
inductive OptSpec where
  | flag (o : Opt)
  | arg (mk : Str → Opt)

/-- main.c:120-140 `long_options`. The argument of `--modules-conf` is not used (main.c:234-237);
`--verbose` sets the same variable as `-v`. -/
def longOptions : List (Str × OptSpec) :=
  [(cs!"config", .arg .config), (cs!"context", .arg .context), (cs!"debug-parser", .flag .debugParser),
   (cs!"disable", .arg .disable), (cs!"enable", .arg .enable), (cs!"fail", .flag .fail),
   (cs!"only-enabled", .flag .onlyEnabled), (cs!"help", .flag .help), (cs!"level", .arg .level),
   (cs!"modules-conf", .arg fun _ => .modulesConf), (cs!"recursive", .flag .recursive), (cs!"source", .flag .source),
   (cs!"summary", .flag .summary), (cs!"color", .arg .color), (cs!"scan-hidden-dirs", .flag .scanHiddenDirs),
   (cs!"summary-only", .flag .summaryOnly), (cs!"version", .flag .version), (cs!"verbose", .flag .verbose)]

/-- main.c:146, the option string "c:d:e:EFhl:mrsSVv". -/
def shortOption : Char → Option OptSpec
  | 'c' => some (.arg .config)
  | 'd' => some (.arg .disable)
  | 'e' => some (.arg .enable)
  | 'E' => some (.flag .onlyEnabled)
  | 'F' => some (.flag .fail)
  | 'h' => some (.flag .help)
  | 'l' => some (.arg .level)
  | 'm' => some (.flag .modulesConf)
  | 'r' => some (.flag .recursive)
  | 's' => some (.flag .source)
  | 'S' => some (.flag .summary)
  | 'V' => some (.flag .version)
  | 'v' => some (.flag .verbose)
  | _ => none

/-- getopt.c `process_long_option`: an entry with this name, or the only one that starts with it. -/
def findLong (name : Str) : Option OptSpec :=
  match longOptions.find? (fun p => p.1 = name) with
  | some p => some p.2
  | none =>
    match longOptions.filter (fun p => name.isPrefixOf p.1) with
    | [p] => some p.2
    | _ => none

/-- getopt.c `process_long_option` for the text after the two dashes: what is reported, and what to
report once the argument of the option is known. -/
def longText (s : Str) : List Opt × Option (Str → Opt) :=
  match findLong (s.takeWhile (· ≠ '=')), s.dropWhile (· ≠ '=') with
  | none, _ => ([.unknown], none)
  | some (.flag o), [] => ([o], none)
  | some (.flag _), _ :: _ => ([.unknown], none)
  | some (.arg mk), [] => ([], some mk)
  | some (.arg mk), _ :: v => ([mk v], none)

/-- getopt.c `_getopt_internal_r`, "Look at and handle the next short option-character", for the
letters after a dash. -/
def shortText : Str → List Opt × Option (Str → Opt)
  | [] => ([], none)
  | c :: cs =>
    match shortOption c with
    | none => (.unknown :: (shortText cs).1, (shortText cs).2)
    | some (.flag o) => (o :: (shortText cs).1, (shortText cs).2)
    | some (.arg mk) => if cs = [] then ([], some mk) else ([mk cs], none)

/-- The options in front of those already collected. -/
def before (os : List Opt) (r : List Opt × List Str) : List Opt × List Str := (os ++ r.1, r.2)

/-- getopt.c `_getopt_internal_r`, called until it reports the end: the options reported, and the
arguments left, which are the paths (main.c:366, `argv + optind`). `pending` is an option that waits
for its argument; without one it is an error. -/
def getopt : Option (Str → Opt) → List Str → List Opt × List Str
  | none, [] => ([], [])
  | some _, [] => ([.unknown], [])
  | some mk, a :: rest => before [mk a] (getopt none rest)
  | none, a :: rest =>
    match a with
    | ['-', '-'] => ([], rest)
    | '-' :: '-' :: s => before (longText s).1 (getopt (longText s).2 rest)
    | '-' :: c :: s => before (shortText (c :: s)).1 (getopt (shortText (c :: s)).2 rest)
    | _ => ((getopt none rest).1, a :: (getopt none rest).2)

/-- main.c:91-638: `main` with the arguments after the name of the program. -/
def selint (w : Machine) (argv : List Str) : Res MainResult :=
  selintMain w (getopt none argv).1 (getopt none argv).2

end Selint
