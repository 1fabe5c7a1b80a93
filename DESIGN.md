# A Lean 4 model of selint

This directory holds a formal model of selint (`/repo/src`, C + flex + bison) and
machine-checked proofs of the properties listed in `properties.jsonl`.

## Layout

* `lean/Verif/Model/*`  the model: total, computable functions, one per C function, each
  with a comment giving file and lines.
* `lean/Verif/Spec/*`   small independent specifications: what a user would say the
  result should be, written without the model's helpers.
* `lean/Verif/Lemmas/*` helper lemmas.
* `lean/Verif/Props/*`  the property theorems `C01_…`, `C02_…`, each followed by an
  `example` showing that a non-trivial case meets its hypotheses.
* `MANIFEST.json`       property → status → theorem names.
* `seeded/LOG.jsonl`    log of deliberate bugs put in a scratch copy of the model and the
  theorems that rejected them.

## Modelling conventions

* **Strings.** A C string is `Str = List Char`, the bytes before the terminating NUL.
  `cs!"abc"` is a literal. Functions that walk a buffer by pointer and could leave it
  (m4 substitution, file-context lines, `strip_space`, the ordering array, the string
  builder, the heap tree) get an explicit outcome `ub` for an out-of-range access, so that
  memory safety is a theorem and not an artefact of totality.
* **Tree.** `struct policy_node` is modelled twice. At the *heap level*
  (`Model/Heap.lean`) nodes live in a finite map from addresses, with
  parent/prev/next/first_child pointers; insertion, `dfs_next` and `free_policy_node` are
  modelled there. At the *functional level* (`Model/Tree.lean`) a node is a `Loc`
  (zipper): focus subtree, left siblings, right siblings and enclosing frames;
  parent/prev/next/first_child are total functions on it. A refinement theorem connects
  the two; the checks are written on the functional level.
* **Hash tables** (uthash) are association lists with "add if absent" semantics; iteration
  order is insertion order, which is uthash's application order.
* **Global state** (`maps.c`, hook tables, static variables of checks) is an explicit
  argument and result.
* **I/O** is abstracted: a file is the result of lexing it (or its list of lines), stdout
  is the list of findings.
* **Allocation** never fails (the out-of-memory exits are not modelled).
* **int/unsigned** are unbounded (`Int`/`Nat`) except for permission masks, which are
  32-bit.
* **External code** is not modelled and is trusted to behave as documented: libc, uthash,
  libconfuse, fts, and the tables generated by flex and bison. For flex the
  longest-match/first-rule discipline is modelled; for bison we model the order of semantic
  actions of a derivation.

## Trusted base

* Lean 4.33.0's kernel, and the axioms `propext`, `Classical.choice`, `Quot.sound` (the
  three standard ones; no theorem uses any other, in particular none uses `sorryAx` or
  `Lean.ofReduceBool`).
* The correspondence between the C code and the definitions in `Model/`, which was made by
  reading. No code was run.
* What is listed as external above.

## Properties: what is modelled and how it is proved

| id | modelled | method |
|----|----------|--------|
| C01 C02 | `is_check_enabled` over four lists | decision logic against a "last step that mentions the id wins" specification |
| C03 | the whole `register_checks` table, `add_check` | refinement to a declarative table; monotonicity in the level |
| C04 | `call_checks_for_node_type`, `strstr` | frame property; negation witness for ids that are substrings of listed ids |
| C05 C06 | `call_checks`, `run_checks_on_one_file` | induction over trees and check lists |
| C07 | `display_check_issue_counts`, `comp_check_nodes` | for any permutation sorted w.r.t. the comparison |
| C08 | tail of `main` | decision logic |
| C09 | `dfs_next` on zippers and on the heap | induction: iterated `dfs_next` = preorder |
| C10 C11 | heap model of `tree.c` | representation predicate (heap ↔ forest), induction |
| C12 C13 | semantic actions of `parse.y` + `parse_functions.c` over derivations | induction over derivations; refinement of the cursor machine to a compositional translation |
| C14 | `maps.c` | invariant over histories of operations |
| C15 C16 C17 | `run_analysis` | refinement, case analysis of its phases |
| C18 C19 | `add_template_declarations`, `replace_m4_list` | well-founded recursion on unused template names; refinement to an inductive expansion relation |
| C20 C21 | `replace_m4`, buffer-level and functional | refinement; negation witnesses for the overflow |
| C22 | `mark_transform_interfaces*` | termination measure, least fixpoint |
| C23–C28 | `perm_macro.c` | bit-level lemmas, induction over macro lists, loop invariants |
| C29–C32 | `ordering.c` | loop invariants of the quadratic LIS, exchange argument; case analysis of the comparator |
| C33 | `check_unordered_perms` | induction, equivalence with a pairwise specification |
| C34 | `compare_declarations`, `check_unordered_declaration_in_require` | as above, plus witness for false "repeated" |
| C35–C37 | `parse_fc.c` | round trip; explicit buffer indices; induction over lines |
| C38 C39 | `fc_checks.c` | equivalence with positional specification; decision logic |
| C40–C43 C51 | `te_checks.c`, `if_checks.c` | equivalence with tree-positional specifications |
| C44 | `selint_config.c` after libconfuse | decision logic, permutation |
| C45 | `startup.c` `strip_space`, `load_modules_source` | buffer-level; negation witness for over-read |
| C46 | `is_valid_check` | decision logic over all strings, witnesses for over-acceptance |
| C47 | `main`'s fts loops over a modelled directory forest | induction over forests; `C47_exact` (`Spec/ScanExact.lean`) holds for all names of directories |
| C48 C49 | `lex.l` rules as regular expressions with longest match | progress, maximality |
| C50 | `get_names_in_node`, `get_names_required` | equivalence with per-statement specification |
| C52 | the `malloc` at main.c:387 | arithmetic |
| C53 | ordering.c:916-948, the buffer of the C-001 message | arithmetic on string lengths; the check-level theorem C29_reports uses it |
| C54 | get_local_subsection, the CHECK_ORDERING sequences and compare by section (ordering.c:308-709) | case analysis against the table `Spec.place` and `Spec.callPlace` |
| C55–C62 | the remaining checks of `te_checks.c` and `if_checks.c` | equivalence of each check with a declarative statement of what it reports |
| C63–C64 | the table side of the parser's actions (`parse_functions.c`, `parse.y`) | the actions of a derivation perform exactly the insertions that a specification lists for it |
| C65 | bison's locations for every production (`Model/Location.lean`) | relate derivation and located tokens; lines of added nodes lie within the lines of the tokens; refuted for blocks whose node is made in a mid-rule action |
| C66 | all check functions behind one dispatch function with their static state (`Model/Dispatch.lean`) | each body returns its own label: case analysis per check; hooks come from registration; invariant of the whole run |
| C67 | the whole program on texts (`Model/Whole.lean`: scanner, derivation, actions, checks) | the trees of parsed files have the shape every check relies on; each check is defined on such trees; the tables' permission macros do not change; induction over the log of the run |
| C68 | a recursive-descent parser for the grammar of parse.y (`Model/Parser.lean`) | sound and complete for the derivations, hence the grammar is unambiguous up to the grouping of conditions, on which no action depends |
| C69 | `display_check_result` and color.c (`Model/Display.lean`) | splitting the line at its first colons, its first parenthesis and its last hyphen; decimal numbers are injective |
| C70 | the same; a specification of arities (`Spec/Tame.lean`) | `expand_template` by induction over the nesting depth with C18–C21; every statement keeps the tables well-behaved; induction over the log of the run |
| C71 | `main` with all its parts on a machine (`Model/Selint.lean`: file system, texts, configuration) | C08 for the way to the analysis; the counts and findings follow the hooks' calls by induction over the log (`Lemmas/Tally.lean`); the lists are those of C47; C67, C68 and C70 for the analysis |
| C72 | `main` as for C71; `run_analysis` on plain lists of names (`Spec/Report.lean`) | the log of a successful run is determined completely (`RunOk.full`); its checks are the report, its parses the reading of the policy; results of checks without memory do not depend on the state |
| C73 | as for C72; what a file enters into the tables is `Spec.FileOps` of C13/C63 | the history of the tables (`C73_history`) is the concatenation of the files' insertions; lookups in a folded history; the template table is final once the interface files are read, so calls in te files see all templates |
| C74 | as for C72 and C73; `Spec.fileNodes` of C62 is what a text says | the tables influence the tree only through the result of expanding a call (`SourceFile.exec_asks`); the tree is `fileNodes` with the calls whose expansion failed sifted out and exceptions added (`Lemmas/Present`); exceptions come from commands (`Lemmas/Marked`); composed with C72 and, for the tables, C73 |
| C75 | the values the grammar's actions build (`SList.value`, `XList.value`, `Args.value`, `MlsRange.value`) and the nodes of C62; `Spec/Words` reads lists and rules from the tokens alone (`readList`, `readRule`, `rulesIn`) | tokens that begin no rule are passed over (`Calm`), the tokens of a rule statement are a segment of `rulesIn` that `readRule` reads as its node; induction over all derivations with their lines (`Lemmas/Written`); composed with C74 for the tree and the run |
| C76 | `loadSupport`, `collect`, `settings` of the main model (startup.c, main.c); `Spec/Start` says what the kernel tree, the support files and the configuration contain (`KernelHas`, `avDefs`, `sptDefs`, `ConfSays`, `assumed`, `headers`) without the loaders | each loader is a list of table operations (induction over the walk of the tree); composed with C14 (the first entry counts), C73 (history of a run), C74/C75 (findings are in the text) |
| C77 | the tree of an accepted file against `fileNodes` of its text; `Spec.Without` / `SamePlace` (Lemmas/Kept) say that calls that cannot be expanded are left out and nothing else; `PlaceIn` is a place in the text | induction over the tree: sift of the nodes = text without some calls; every check of `placeChecks` gives the same result at both places (Lemmas/PlaceRun); composed with C72, and with C40, C41, C43, C61, C62 for the single checks |
| C78 | the option table of `main` and how `getopt_long` reads it (`Getopt.lean`) | equivalence with an inductive relation between argument vectors, options and paths |
| C79 | all checks of te and interface files that keep no memory, behind their dispatch | an inductive catalogue of complaints, equal to what each check finds at a place of a text, then lifted to runs with C72, C74 and C77 |
| C80 | `string_list.c` on a memory of typed objects (`Memory.lean`, `StringList.lean`) | predicates that say which objects a list in memory consists of (`Spec/Memory.lean`); induction over the list, frame lemmas |
| C81 | `free_policy_node` and all `free_*` functions it calls, `file_list.c` (`Free.lean`) | as C80, mutual induction over forests in memory; freeing is removal of exactly the objects of the predicate |
| C82 | `get_names_in_node`, `get_names_required` in memory (`NamesInMemory.lean`) | refinement to the functions on trees; completeness of nodes by induction over derivations |
| C83 | the existing model of ordering.c; rules of order as relations in `Spec/Sections.lean` | each function against its relation (existence, uniqueness of sections and subsections), then the comparison by cases; averages as the sum and count of the lines of a section, rounded as the code rounds them |
| C84 | the line cache of lex.l, `YY_USER_ACTION` and `yyerror` (`LineCache.lean`) | an invariant of the ring of buffers over any sequence of calls; no rule of the scanner matches across a newline, so scanning a line does not depend on what follows; the printed text against pictures of lines (`Spec/LineCache.lean`) |
| C85 | every semantic action of parse.y and the functions of parse_functions.c it calls, on a memory of allocated objects (`ParseInMemory.lean`) | an invariant of the path from the root to the current node (`Lemmas/Cursor.lean`), of the lost strings and of what the actions hold, kept by every action (`ParsingActions.lean`) and by every derivation (`ParsingRuns.lean`, mutual induction); C81 for the freeing |
| C86 | `parse_context`, `parse_fc_line`, `parse_fc_file` on a memory of allocated objects (`FcInMemory.lean`) | the invariant of C85 with the entry under construction among what is held; every step against the step of `ParseFc.lean`; C81 for the freeing |
| C87 | the functions of maps.c on a memory of allocated objects (`MapsInMemory.lean`) | one predicate for an element of each kind of table, tables as lists of elements (`Spec/MapsInMemory.lean`); each call against the function of `Maps.lean`, keeping what everybody else owns; C81 for lists of declarations and calls |
| C88 | the linked lists of check_hooks.c, perm_macro.c and ordering.c on a memory of allocated objects (`ListsInMemory.lean`) | one predicate for a list whose elements have a name (`ChainAt`), families of such lists; each function against the function of `Hooks.lean`, `PermMacro.lean`, `Ordering.lean`, keeping what everybody else owns |
| C89 | template.c on the same memory, with the tables of C87 and the calls in trees (`TemplateInMemory.lean`) | induction over the recursion bound with the list of enclosing names as owned by the caller: success gives it back, a loop frees it, a failed substitution leaves the cells of all levels in between; the leak is also shown on a concrete memory |
| C90 | the productions of parse.y with their actions as a table, and bison's stack, shifts, reductions, destructors and `YYERROR` as a machine (`Lr.lean`) | a check of who owns `$1`, `$2`, … along an action (`Cmd.check`), proved right for every statement once (`Cmd.sound`) and evaluated on the whole table (`rules_ok`); then induction over the moves. bison's choice between the moves is left open, so the theorems hold for every sequence of them |
| C91 | the same rules and scanner as C48 (`Lex.lean`) | `Spec/Tokens.lean` describes the texts of every kind of token without regular expressions; every rule is shown to match exactly the texts of its kind (`written_of_texts`, `texts_of_written`), then longest match and order of rules carry over |
| C92 | the table of productions of C90 and the derivations of C85 | each typed production is shown to be a sequence of moves that ends in the same memory (`Lemmas/LrValues.lean`, `LrStatements.lean`, `LrBlocks.lean`, `LrFiles.lean`), by induction on the derivation; then C85 gives the tree |
| C93 | the same; the values of symbols are also followed as words and lists (`Lemmas/LrEval.lean`) | each symbol on the stack stands for a piece of a derivation, the tokens read for it and the change of the functional state (`Lemmas/LrDerives.lean`); each of the 283 productions keeps this (`Lemmas/LrKeeps*.lean`); induction on the moves |
| C94 | the machine of C93 with bison's locations (`Model/LrLines.lean`) | as C93, with tokens that carry their lines and symbols that carry their first and last line (`Lemmas/LrLined*.lean`); then C68: the tokens with their lines have one derivation up to the grouping of conditions |
| C95 | the LALR(1) tables of the grammar (`Model/LalrTables.lean`, 591 states) and `yyparse` as one deterministic step (`Model/LalrDriver.lean`) | the tables are computed by a script and checked by the kernel: each state has a set of items with lookaheads (`Lemmas/LalrItems.lean`) that is closed under what the tables do (`Lemmas/Lalr.lean`); from a run of the machine of C93 a derivation over the productions is read off (`LalrDerives.lean`), and the tables lead through it (`LalrComplete.lean`), conditions with their precedences apart (`LalrConditions.lean`); conversely a run of `yyparse` is a run of the machine of C94 |
| C96 | the same tables with bison's default reductions | a budget that every round spends: tokens left, empty productions that may still be reduced before a shift (`LalrPhases.lean`), weights of the symbols on the stack (`LalrEnds.lean`); items say what is on the stack below a state (`LalrFits.lean`); all checked by the kernel for all states |
| C97 | the tables of C95; the language of the grammar as in a textbook (`Spec/Sentences.lean`) | the tables lead every sentence to the last state whatever the actions do (`LalrSyntax.lean`), so where they have no entry no sentence goes on; conversely what is on the stack can always be completed: a kernel-checked table names for each state a production to finish, with ranks that decrease (`LalrEnded.lean`, `LalrPrefix.lean`); the symbols on the stack stand for the tokens shifted (`LalrErrors.lean`) |
| C98 | bison's verbose messages and its error recovery up to `YYABORT` (`Model/SyntaxMessage.lean`) | a state without default reduction that names tokens has only shifts (checked by the kernel), so what it names completes the stack to a file (C97's argument); each symbol on the stack carries its tokens and lines (`LalrErrors.lean`), and where a statement may begin only symbols that begin with a token are stacked (`LalrMessages.lean`); the messages of the five syntax errors among the functional tests come out as recorded there |
| C99 | `f32` and `SectionData.avg` of the existing model; single precision in `Spec/Single.lean` as nearest number of 24 bits, ties to even | the scaled quotient lies between 2^23 and 2^24, rounding it to an integer is nearest among multiples of the unit and all other numbers are further away; uniqueness because there is a third number between two even ones; monotonicity and the error bound follow from nearest; C83 carries the result to C-001 |
| C100 | `Model/SyntaxOutput.lean`: the driver of C96 working on what `scanText` (C84) returns, with bison's stack of locations (`YYLLOC_DEFAULT`), and all that a syntax error prints | the symbols on the stack keep the location of their first token (no hollow symbol is taken off last, as in C98); the lines between two tokens have been read when the second one is returned; C84's pictures and C97's place are put together; four of the expected outputs of tests/functional/policies/parse_errors are reproduced in full |
| C101 | bison's limit of 10000 states (`Model/ParserStack.lean`) around the driver of C95 | a potential: every state of the automaton has, for each part of a text in which it can be on top, a number (at most 20) such that each shift or goto raises the height by no more than what the symbol adds to the brackets, signs, comments and words (`heightTable`, computed outside and checked by the kernel over all 591 states); what a nonterminal adds is bounded over all productions (`piles_checked`). For the comments the path is followed step by step |
| C102 | `Model/ActionErrors.lean`: the driver of C100 with a note of whether bison would have read the next token by now (it reads none in a state that only has its default reduction), and all that is printed when an action comes to `YYERROR` | each entry of the stack keeps the location of its last token if it ends with one, and the kind of rule its first word says (`Held`); kernel checks of the tables: which productions complain, in which states, that none of these states needs a token except one, and that outside of statements no state takes `error`; then C84's pictures as in C100 |
| C103 | the help text of `main.c` (`Model/Usage.lean`), C78's table of options, C08's option loop | a small reader for the lines of the help text (`Spec/Usage.lean`), then case analysis over the tables; what it says about implied options holds for every command line |
| C104 | color.c, the printed summary (`Model/SummaryText.lean`), `yyerror` and what calls it (C84, C100, C102) | `Painted` (`Spec/Colours.lean`): coloured stretches, each followed by the order to go back; closed under concatenation, then along every printing function; a line is cut off at its first escape character |
| C105 | everything `main` and `parse_config` print before a file is looked at (`Model/StartText.lean`) | `Why` and `Refusal` (`Spec/StartText.lean`) list the reasons with their sentences; case analysis along `main`, induction over options, ids and flavors; C08's description of the options; `Painted` of C104 |
| C106 | what `main` and `startup.c` print about the scan, the support files, the kernel's classes and the end (`Model/ScanText.lean`) | `Told`, `HasPerm`, `skipNote` (`Spec/ScanText.lean`); mutual induction over directory forests, case analysis for each support file; `Painted` of C104 |
| C107 | all that the program prints (`Model/MainText.lean`), from the parts of C104–C106 and the notes of `register_checks`; what the parsers print and `qsort` are parameters | `AllWell` (`Spec/MainText.lean`); each part is shown to be empty only if its part of `AllWell` holds, with C105, C106 and the tally of findings (C72's run); the notes are a filter of the documented table of C03; `C107_silent_iff` puts both directions together for the text with the parser messages |
| C108 | `main` (C71) and its text (C107) with and without `-v` at any place | all parts are compared: equal states, and texts related by `List.Sublist`; induction over options, files and directories |
| C109 | what `parse_one_file`, `yyparse_wrapper` and the loops over the lists print (`Model/ParsingText.lean`), on top of the parser with its messages (C102) | the parser ends within the rounds of C96; accepted texts are silent by C95, refused ones begin with F-001 by C102; the log of a run stops at the first failure. fc files: witness that nothing is said. `Model/SpokenText.lean` puts the parser into the text of the whole program, which is defined if the run is and all files can be parsed |

None of the properties is inexpressible in the model. What remains outside is listed under
"not modelled" below.

## What is modelled, file by file

| C file | model | not covered |
|--------|-------|-------------|
| `string_list.c`, `util.c` | `Basic.lean` (lists, `str_in_sl`, suffix tests, `trim_right`), `StringList.lean` (cells in memory, freeing) | |
| `tree.c`, `tree.h` | `Tree.lean` (zippers), `Heap.lean` (pointers), `Flavors.lean`, `Free.lean` (freeing), `NamesInMemory.lean` (names in memory) | |
| `maps.c` | `Maps.lean`, `MapsInMemory.lean` (elements in memory, freeing) | uthash |
| `lex.l` | `Token.lean`, `Lex.lean`: all rules as regular expressions, line counting; `LineCache.lean`: the lines kept for messages, columns | flex's tables |
| `parse.y` | `Grammar.lean`: every production as a constructor of a derivation with its action; `Location.lean`: `@$`; `Parser.lean`: a parser that finds the derivation; `LineCache.lean`: `yyerror`; `ParseInMemory.lean`: the actions on memory; `Lr.lean`: the productions as a table, bison's stack, destructors and `YYERROR`; `LrLines.lean`: the same with locations; `LalrTables.lean`, `LalrDriver.lean`: LALR(1) tables and the parser that uses them; `SyntaxMessage.lean`: messages and error recovery; `SyntaxOutput.lean`: everything that is printed about a syntax error; `ActionErrors.lean`: everything that is printed before `YYERROR`; `ParserStack.lean`: the limit of the stack | how bison encodes its tables |
| `parse_functions.c` | `ParseFunctions.lean`, `HeapParse.lean`, `ParseInMemory.lean` (allocated data) | |
| `parse_fc.c` | `ParseFc.lean` (index level and functional), `FcInMemory.lean` (entries, contexts and nodes in memory) | `getline` |
| `template.c` | `Template.lean`, `CBuf.lean` (byte buffers with bounds), `TemplateInMemory.lean` (on allocated memory) | |
| `perm_macro.c` | `PermMacro.lean`, `ListsInMemory.lean` (lists in memory, freeing) | |
| `ordering.c` | `Ordering.lean` (averages rounded to single precision), `ListsInMemory.lean` (sections in memory, freeing) | |
| `te_checks.c`, `if_checks.c`, `fc_checks.c` | `TeChecks.lean`, `IfChecks.lean`, `FcChecks.lean` | |
| `check_hooks.c` | `Hooks.lean`, `Run.lean`, `Dispatch.lean` (hook to function, static variables), `ListsInMemory.lean` (lists in memory, freeing) | |
| `runner.c`, `file_list.c` | `Register.lean`, `Run.lean`, `Runner.lean`, `Whole.lean` (the parts put together), `Free.lean` (lists of files in memory), `ParsingText.lean` (progress messages, what is printed while parsing) | opening files |
| `selint_config.c` | `Config.lean` (after libconfuse has parsed the file) | libconfuse's syntax |
| `startup.c` | `ModulesConf.lean`, `Transform.lean`, `Selint.lean` (classes from the kernel, headers), `ScanText.lean` (messages) | `fts` |
| `main.c` | `Main.lean` (checks of the options, file walk over a directory forest, exit code), `Selint.lean` (all of `main`), `Getopt.lean` (the option table and glibc's `getopt_long` for it), `Usage.lean` (the help text), `StartText.lean` (what is printed before files are looked at), `ScanText.lean` (what is printed about files, support files and the end), `MainText.lean` (all that is printed but by the parser), `SpokenText.lean` (the same with the parser's messages) | |
| `color.c` | `Display.lean`, `LineCache.lean`, `SummaryText.lean`, `StartText.lean`, `ScanText.lean` | `color_enable` is an argument |

A derivation (`SourceFile`) is a value of an inductive type with one constructor per
production; `SourceFile.tokens` is the token string it derives and `SourceFile.exec` runs the
semantic actions in bison's order (mid-rule actions included). `f.At ts` adds the locations.
The theorems about the parser quantify over derivations. That an LALR(1) parser finds a
derivation whenever there is one, and nothing else, is C95; which derivation it finds does not
matter: C68 proves that the derivations of a text differ only in the grouping of conditions and
have the same effect. Trusted is that the parser which bison generates behaves like an LALR(1)
parser for these productions and precedences (the Makefile turns conflicts that are not
resolved into errors, `-Werror=conflicts-sr -Werror=conflicts-rr`, src/Makefile.am:18). Its
default reductions are modelled as its documentation describes them; they matter only before
a syntax error, and C97 shows that where the error is found does not depend on them. Error recovery
(`bare_line: error`, which ends in `YYABORT`) is giving up; that production takes part only after
`yyerror` has been called, so it is not one of the productions of C97's language. In the model of
whole runs (C71) a text with a syntax error has no effect; that a call before the error may be
undefined is left out there (`C109_undefined`) and is part of C96.

## Findings

Places where the code does not do what its comments, its documentation or a reader would
expect. Those with a theorem name are proved of the model; the others were met while reading.

* **Memory safety.**
  `replace_m4` overflows its buffer if one argument is referenced twice (`C21_false_overflow`)
  and can leave the result unterminated (`C21_false_unterminated`); a template that calls an
  interface without arguments makes `replace_m4_list`'s caller dereference NULL
  (`C18_false_call_without_args`), `$*` passed on to a template reaches `strlen(NULL)`
  (`C18_false_star_argument`).
  `load_modules_source` runs past the line for `name=status`, `name =` and a last line without
  newline (`C45_…`). `parse_fc_line` reads `pos[2]` behind the line for a last line ending in
  ` -` (`C36_false_hyphen`). `is_valid_check("")` reads behind the string. The LIS of an empty
  array reads `nodes[-1]`, which a te file that consists of a `common` definition reaches
  (`C67_false_common`). `str_to_mask` recurses forever on cyclic permission macros.
* **Leaks.** When the declaration of a nested template cannot be written out, `add_template_declarations`
  returns without freeing its cell at every enclosing level (`C89_lost`, `C89_false_all_given_back`).
  `save_command` overwrites a node's exceptions without freeing them
  (`C85_string_left`); a permission macro that is defined again loses its second list (`C85_parse`,
  example `twoMacros`; `C87_left`); `parse_fc_line` overwrites the range of a context inside of `gen_context`
  without freeing it (`C86_range_lost`); `prepare_ordering_metadata` would lose its sections at a line without
  section, which no parsed te file has (`C88_sections_left`, `C88_sections_parsed`). A rejected `interface` (wrong kind of file)
  does not free its name (`C90_interface_left`), and after a syntax error a `SELINT_COMMAND` that was
  read and the user's name of an unfinished `gen_user` are not freed, as the grammar gives no
  `%destructor` for them (`C90_command_left`, `C90_user_left`).
* **Parsing.** `parse_fc_line` does not reset an index, so a context with categories is
  rejected or cut (`C36_false_category`, `C35_false_category`). `av_common_definition` does
  not look at the expected file kind (`C64_false_kind`). A `#` comment on a last line without
  newline is an unknown token (`C48_unterminated_comment`). A word that starts with `dnl`
  swallows the rest of its line. `aa:bb:cc` is an IPv6 address. An interface call that cannot
  be expanded is dropped from the tree, with some of its declarations already recorded; the
  actions ignore return codes. `insert_policy_node_next` on a node with a successor cuts the
  rest off (`C10_next_drops_successors`; the parser never does so).
* **Line numbers.** Nodes made in mid-rule actions carry the line of the preceding token
  (`C65_false_ifdef`).
* **Long files.** `comments: comment comments` is right recursive, so a file that begins with 9999 comments
  is refused with "memory exhausted" (`C101_comments`); the same holds for a `refpolicywarn` of 9996 words (`C101_warning`) and for a quoted text of
  `define` of 9993 words (`C101_long_definition`).
* **Error messages.** On the first line of a file the marker below a syntax error is one column off
  (`C84_first`); an error at the end of a file without final newline shows an empty line in place of
  the last one (`C84_end`), and one whose statement is followed by a token the parser has already
  read on a later line shows later lines under the numbers of the right ones (`C84_ahead`); the value
  of a byte of a UTF-8 character is printed as `0xffffffc3` (`C84_hex`). The tokens listed as expected
  are not all (`C98_incomplete`). At the end of a file without a final newline the lines shown are
  those after the ones named (`C100_unterminated`). When a class with `inherits` and without a list of
  permissions is refused in a te or if file, the lines shown are those up to the next token
  (`C102_ahead`).
* **Averages.** The sum of the lines of a section is kept in 32 bits and may wrap, so that the averages by which
  C-001 orders sections may be in the wrong order (`C99_wraps`; only with absurdly long files).
* **Suppression.** Exceptions are matched by `strstr`, and a `selint-disable` after a
  statement that makes no node lands on the node before (C04, C49).
* **Checks.** C-006 reports `foo_t` after `foo__anything` as repeated and finds `ssh_t` after
  `ssh2_t` wrong (C34); it reports F-002 for an `ifdef` in a require block
  (`C67_false_require`); E-007 reports a
  permission parameter `$2` as unknown while E-008 exempts parameters; W-004 treats `\\\\.` as an
  escaped dot and never sees paths of `<<none>>` entries; W-002 matches a required name of any
  flavor; W-003 looks only behind the outermost require block; `permmacro_check` says AND and
  computes OR.
* **Ordering.** The comparator is not transitive, so C-001 can fail with F-002 "Failed to
  compute reason" on a legal te file (`C67_false_reason`); `ordering_next` never skips the first line;
  `get_ordering_reason` never looks at index 0; `get_section` reads `targets` of a type
  transition through the wrong union member.
* **Configuration.** `is_valid_check` accepts ids that do not exist and trailing junk (C46);
  `selint.conf` documents another default for `ordering_requires` than the code has;
  `modules_conf_path` is unknown to `parse_config`. Directories named `*.te` are listed as
  files and descended into (C47). `--modules-conf` takes an argument, which is ignored, while `-m`
  takes none, so that the file after it is taken for a policy file (`C78_modules_conf`); neither is in the
  help text (`C103_hidden`), in which one line of `--context` stands twice.

## Not modelled

* The act of printing (what is printed is modelled, C104–C109; what the parser prints is a parameter of `mainText`,
  modelled in `Model/ParsingText.lean` and put in by `Model/SpokenText.lean`), file opening, memory exhaustion.
* uthash internals, libconfuse's file syntax, fts, the table interpretation of flex.
* The C code that bison generates. Its automaton (C95), what its moves do to memory (C90) and its
  messages (C98, C100, C102) and the limit of its stack (C101) are modelled; how it encodes its tables is not.
