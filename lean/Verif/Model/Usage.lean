import Verif.Model.Basic
/-!
# The help text (main.c)
-/

namespace Selint

/-- main.c:44-84 `usage`: what it prints. -/
def usageText : Str :=
  cs!"Usage: selint [OPTIONS] FILE [...]\n" ++
  cs!"Perform static code analysis on SELinux policy source.\n" ++
  cs!"\n" ++
  cs!"  -c, --config=CONFIGFILE\tOverride default config with config\n" ++
  cs!"\t\t\t\tspecified on command line.  See\n" ++
  cs!"\t\t\t\tCONFIGURATION section for config file syntax.\n" ++
  cs!"      --color=COLOR_OPTION\tConfigure color output.\n" ++
  cs!"\t\t\t\tOptions are on, off and auto (the default).\n" ++
  cs!"      --context=CONTEXT_PATH\tRecursively scan CONTEXT_PATH to find additional te and if\n" ++
  cs!"\t\t\t\tfiles to parse, but not scan.  SELint will assume the scanned policy files\n" ++
  cs!"\t\t\t\tare intended to be compiled together with the context files.\n" ++
  cs!"\t\t\t\tare intended to be compiled together with the context files.  Implies -s.\n" ++
  cs!"      --debug-parser\t\tEnable debug output for the internal policy parser.\n" ++
  cs!"\t\t\t\tVery noisy, useful to debug parsing failures.\n" ++
  cs!"  -d, --disable=CHECKID\t\tDisable check with the given ID.\n" ++
  cs!"  -e, --enable=CHECKID\t\tEnable check with the given ID.\n" ++
  cs!"  -E, --only-enabled\t\tOnly run checks that are explicitly enabled with\n" ++
  cs!"\t\t\t\tthe --enable option.\n" ++
  cs!"  -F, --fail\t\t\tExit with a non-zero value if any issue was found.\n" ++
  cs!"  -h, --help\t\t\tDisplay this menu.\n" ++
  cs!"  -l, --level=LEVEL\t\tOnly list errors with a severity level at or\n" ++
  cs!"\t\t\t\tgreater than LEVEL.  Options are C (convention), S (style),\n" ++
  cs!"\t\t\t\tW (warning), E (error), F (fatal error).\n" ++
  cs!"      --scan-hidden-dirs\tScan hidden directories.\n" ++
  cs!"\t\t\t\tBy default hidden directories (like '.git') are skipped in recursive mode.\n" ++
  cs!"  -s, --source\t\t\tRun in \"source mode\" to scan a policy source repository\n" ++
  cs!"\t\t\t\tthat is designed to compile into a full system policy.\n" ++
  cs!"  -S, --summary\t\t\tDisplay a summary of issues found after running the analysis.\n" ++
  cs!"      --summary-only\t\tOnly display a summary of issues found after running the analysis.\n" ++
  cs!"\t\t\t\tDo not show the individual findings.  Implies -S.\n" ++
  cs!"  -r, --recursive\t\tScan recursively and check all SELinux policy files found.\n" ++
  cs!"  -v, --verbose\t\t\tEnable verbose output.\n" ++
  cs!"  -V, --version\t\t\tShow version information and exit.\n"

end Selint
